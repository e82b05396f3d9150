import Verif.Model.GenCode
/-!
Functions of `ebcc/codegen/RLCCD.py`, written by `tools/gencode.py`.  Comments give the
number and the text of the line of each statement.
-/

set_option maxRecDepth 100000

namespace Ebcc.Gen.RLCCD

/-- codegen/RLCCD.py:17-31 `energy`. -/
def energy : GenFun where
  args := [chars! "t2", chars! "v.ovov"]
  body := [
    -- 28: e_cc = einsum(t2, (0, 1, 2, 3), v.ovov, (0, 2, 1, 3), ()) * 2
    .set 2 (.ein [(0, [0, 1, 2, 3]), (1, [0, 2, 1, 3])] []) 2 1,
    -- 29: e_cc += einsum(v.ovov, (0, 1, 2, 3), t2, (0, 2, 3, 1), ()) * -1
    .add 2 (.ein [(1, [0, 1, 2, 3]), (0, [0, 2, 3, 1])] []) (-1) 1
  ]
  ret := [(chars! "e_cc", 2)]

/-- codegen/RLCCD.py:33-74 `update_amps`. -/
def update_amps : GenFun where
  args := [chars! "v.oooo", chars! "t2", chars! "v.ovov", chars! "v.vvvv", chars! "f.vv", chars! "f.oo", chars! "v.oovv"]
  body := [
    -- 45: t2new = einsum(v.oooo, (0, 1, 2, 3), t2, (3, 1, 4, 5), (0, 2, 5, 4))
    .set 7 (.ein [(0, [0, 1, 2, 3]), (1, [3, 1, 4, 5])] [0, 2, 5, 4]) 1 1,
    -- 46: t2new += np.transpose(v.ovov, (0, 2, 1, 3))
    .add 7 (.tr 2 [0, 2, 1, 3]) 1 1,
    -- 47: t2new += einsum(t2, (0, 1, 2, 3), v.vvvv, (4, 2, 5, 3), (0, 1, 4, 5))
    .add 7 (.ein [(1, [0, 1, 2, 3]), (3, [4, 2, 5, 3])] [0, 1, 4, 5]) 1 1,
    -- 48: tmp0 = einsum(t2, (0, 1, 2, 3), f.vv, (4, 3), (0, 1, 4, 2))
    .set 8 (.ein [(1, [0, 1, 2, 3]), (4, [4, 3])] [0, 1, 4, 2]) 1 1,
    -- 49: t2new += np.transpose(tmp0, (0, 1, 3, 2))
    .add 7 (.tr 8 [0, 1, 3, 2]) 1 1,
    -- 50: t2new += np.transpose(tmp0, (1, 0, 2, 3))
    .add 7 (.tr 8 [1, 0, 2, 3]) 1 1,
    -- 51: del tmp0
    .del 8,
    -- 52: tmp1 = einsum(t2, (0, 1, 2, 3), f.oo, (4, 1), (4, 0, 2, 3))
    .set 9 (.ein [(1, [0, 1, 2, 3]), (5, [4, 1])] [4, 0, 2, 3]) 1 1,
    -- 53: tmp3 = np.copy(tmp1)
    .set 10 (.cp 9) 1 1,
    -- 54: del tmp1
    .del 9,
    -- 55: tmp2 = einsum(t2, (0, 1, 2, 3), v.oovv, (4, 1, 5, 2), (0, 4, 3, 5))
    .set 11 (.ein [(1, [0, 1, 2, 3]), (6, [4, 1, 5, 2])] [0, 4, 3, 5]) 1 1,
    -- 56: tmp3 += tmp2
    .add 10 (.cp 11) 1 1,
    -- 57: del tmp2
    .del 11,
    -- 58: t2new += np.transpose(tmp3, (0, 1, 3, 2)) * -1
    .add 7 (.tr 10 [0, 1, 3, 2]) (-1) 1,
    -- 59: t2new += np.transpose(tmp3, (1, 0, 2, 3)) * -1
    .add 7 (.tr 10 [1, 0, 2, 3]) (-1) 1,
    -- 60: del tmp3
    .del 10,
    -- 61: tmp4 = einsum(v.oovv, (0, 1, 2, 3), t2, (4, 1, 5, 3), (4, 0, 5, 2))
    .set 12 (.ein [(6, [0, 1, 2, 3]), (1, [4, 1, 5, 3])] [4, 0, 5, 2]) 1 1,
    -- 62: tmp7 = np.copy(tmp4)
    .set 13 (.cp 12) 1 1,
    -- 63: del tmp4
    .del 12,
    -- 64: tmp5 = np.copy(np.transpose(t2, (0, 1, 3, 2))) * 2
    .set 14 (.tr 1 [0, 1, 3, 2]) 2 1,
    -- 65: tmp5 += t2 * -1
    .add 14 (.cp 1) (-1) 1,
    -- 66: tmp6 = einsum(tmp5, (0, 1, 2, 3), v.ovov, (4, 5, 0, 3), (1, 4, 2, 5))
    .set 15 (.ein [(14, [0, 1, 2, 3]), (2, [4, 5, 0, 3])] [1, 4, 2, 5]) 1 1,
    -- 67: del tmp5
    .del 14,
    -- 68: tmp7 += tmp6 * -1
    .add 13 (.cp 15) (-1) 1,
    -- 69: del tmp6
    .del 15,
    -- 70: t2new += tmp7 * -1
    .add 7 (.cp 13) (-1) 1,
    -- 71: t2new += np.transpose(tmp7, (1, 0, 3, 2)) * -1
    .add 7 (.tr 13 [1, 0, 3, 2]) (-1) 1,
    -- 72: del tmp7
    .del 13
  ]
  ret := [(chars! "t2new", 7)]

end Ebcc.Gen.RLCCD
