import Verif.Model.GenCode
/-!
Functions of `ebcc/codegen/GecCC.py`, written by `tools/gencode.py`.  Comments give the
number and the text of the line of each statement.
-/

set_option maxRecDepth 100000

namespace Ebcc.Gen.GecCCExt

/-- codegen/GecCC.py:17-45 `update_amps_external`. -/
def update_amps_external : GenFun where
  args := [chars! "v.OOVV", chars! "t3", chars! "f.OV", chars! "t4", chars! "v.oVOO", chars! "v.OvVV"]
  body := [
    -- 32: t1new.OV = einsum(v.OOVV, (0, 1, 2, 3), t3, (4, 0, 1, 5, 2, 3), (4, 5)) * 0.25
    .set 6 (.ein [(0, [0, 1, 2, 3]), (1, [4, 0, 1, 5, 2, 3])] [4, 5]) 1 4,
    -- 34: t2new.OOVV = einsum(t3, (0, 1, 2, 3, 4, 5), f.OV, (2, 5), (0, 1, 3, 4))
    .set 7 (.ein [(1, [0, 1, 2, 3, 4, 5]), (2, [2, 5])] [0, 1, 3, 4]) 1 1,
    -- 35: t2new.OOVV += einsum(v.OOVV, (0, 1, 2, 3), t4, (4, 5, 0, 1, 6, 7, 2, 3), (4, 5, 6, 7)) * 0.25
    .add 7 (.ein [(0, [0, 1, 2, 3]), (3, [4, 5, 0, 1, 6, 7, 2, 3])] [4, 5, 6, 7]) 1 4,
    -- 36: tmp0 = einsum(v.oVOO, (0, 1, 2, 3), t3, (4, 2, 3, 5, 6, 1), (4, 5, 6, 0)) * -1
    .set 8 (.ein [(4, [0, 1, 2, 3]), (1, [4, 2, 3, 5, 6, 1])] [4, 5, 6, 0]) (-1) 1,
    -- 37: t2new.OoVV = np.copy(np.transpose(tmp0, (0, 3, 2, 1))) * -0.5
    .set 9 (.tr 8 [0, 3, 2, 1]) (-1) 2,
    -- 38: t2new.oOVV = np.copy(np.transpose(tmp0, (3, 0, 2, 1))) * 0.5
    .set 10 (.tr 8 [3, 0, 2, 1]) 1 2,
    -- 39: del tmp0
    .del 8,
    -- 40: tmp1 = einsum(v.OvVV, (0, 1, 2, 3), t3, (4, 5, 0, 6, 2, 3), (4, 5, 6, 1))
    .set 11 (.ein [(5, [0, 1, 2, 3]), (1, [4, 5, 0, 6, 2, 3])] [4, 5, 6, 1]) 1 1,
    -- 41: t2new.OOvV = np.copy(np.transpose(tmp1, (0, 1, 3, 2))) * 0.5
    .set 12 (.tr 11 [0, 1, 3, 2]) 1 2,
    -- 42: t2new.OOVv = np.copy(tmp1) * -0.5
    .set 13 (.cp 11) (-1) 2,
    -- 43: del tmp1
    .del 11
  ]
  ret := [(chars! "t1new.OV", 6), (chars! "t2new.OOVV", 7), (chars! "t2new.OoVV", 9), (chars! "t2new.oOVV", 10), (chars! "t2new.OOvV", 12), (chars! "t2new.OOVv", 13)]

/-- codegen/GecCC.py:47-76 `update_amps_mixed`. -/
def update_amps_mixed : GenFun where
  args := [chars! "v.oOvV", chars! "t1", chars! "t3", chars! "v.OOvV", chars! "v.oOVV"]
  body := [
    -- 59: tmp0 = einsum(v.oOvV, (0, 1, 2, 3), t1, (0, 2), (1, 3))
    .set 5 (.ein [(0, [0, 1, 2, 3]), (1, [0, 2])] [1, 3]) 1 1,
    -- 61: t2new.OOVV = einsum(t3, (0, 1, 2, 3, 4, 5), tmp0, (2, 5), (0, 1, 3, 4))
    .set 6 (.ein [(2, [0, 1, 2, 3, 4, 5]), (5, [2, 5])] [0, 1, 3, 4]) 1 1,
    -- 62: del tmp0
    .del 5,
    -- 63: tmp1 = einsum(t1, (0, 1), v.OOvV, (2, 3, 1, 4), (2, 3, 4, 0)) * -1
    .set 7 (.ein [(1, [0, 1]), (3, [2, 3, 1, 4])] [2, 3, 4, 0]) (-1) 1,
    -- 64: tmp2 = einsum(tmp1, (0, 1, 2, 3), t3, (4, 1, 0, 5, 6, 2), (4, 5, 6, 3)) * -1
    .set 8 (.ein [(7, [0, 1, 2, 3]), (2, [4, 1, 0, 5, 6, 2])] [4, 5, 6, 3]) (-1) 1,
    -- 65: del tmp1
    .del 7,
    -- 66: t2new.OoVV = np.copy(np.transpose(tmp2, (0, 3, 2, 1))) * -0.5
    .set 9 (.tr 8 [0, 3, 2, 1]) (-1) 2,
    -- 67: t2new.oOVV = np.copy(np.transpose(tmp2, (3, 0, 2, 1))) * 0.5
    .set 10 (.tr 8 [3, 0, 2, 1]) 1 2,
    -- 68: del tmp2
    .del 8,
    -- 69: tmp3 = einsum(v.oOVV, (0, 1, 2, 3), t3, (4, 5, 1, 6, 2, 3), (4, 5, 6, 0)) * -1
    .set 11 (.ein [(4, [0, 1, 2, 3]), (2, [4, 5, 1, 6, 2, 3])] [4, 5, 6, 0]) (-1) 1,
    -- 70: tmp4 = einsum(t1, (0, 1), tmp3, (2, 3, 4, 0), (2, 3, 4, 1))
    .set 12 (.ein [(1, [0, 1]), (11, [2, 3, 4, 0])] [2, 3, 4, 1]) 1 1,
    -- 71: del tmp3
    .del 11,
    -- 72: t2new.OOvV = np.copy(np.transpose(tmp4, (0, 1, 3, 2))) * -0.5
    .set 13 (.tr 12 [0, 1, 3, 2]) (-1) 2,
    -- 73: t2new.OOVv = np.copy(tmp4) * 0.5
    .set 14 (.cp 12) 1 2,
    -- 74: del tmp4
    .del 12
  ]
  ret := [(chars! "t2new.OOVV", 6), (chars! "t2new.OoVV", 9), (chars! "t2new.oOVV", 10), (chars! "t2new.OOvV", 13), (chars! "t2new.OOVv", 14)]

end Ebcc.Gen.GecCCExt
