import Verif.Model.GenCode
/-!
Functions of `ebcc/codegen/RDFLCCD.py`, written by `tools/gencode.py`.  Comments give the
number and the text of the line of each statement.
-/

set_option maxRecDepth 100000

namespace Ebcc.Gen.RDFLCCD

/-- codegen/RDFLCCD.py:17-35 `energy`. -/
def energy : GenFun where
  args := [chars! "t2", chars! "v.xov"]
  body := [
    -- 28: tmp0 = np.copy(np.transpose(t2, (1, 0, 2, 3))) * 2
    .set 2 (.tr 0 [1, 0, 2, 3]) 2 1,
    -- 29: tmp0 += np.transpose(t2, (1, 0, 3, 2)) * -1
    .add 2 (.tr 0 [1, 0, 3, 2]) (-1) 1,
    -- 30: tmp1 = einsum(v.xov, (0, 1, 2), tmp0, (1, 3, 4, 2), (3, 4, 0)) * 0.5
    .set 3 (.ein [(1, [0, 1, 2]), (2, [1, 3, 4, 2])] [3, 4, 0]) 1 2,
    -- 31: del tmp0
    .del 2,
    -- 32: e_cc = einsum(tmp1, (0, 1, 2), v.xov, (2, 0, 1), ()) * 2
    .set 4 (.ein [(3, [0, 1, 2]), (1, [2, 0, 1])] []) 2 1,
    -- 33: del tmp1
    .del 3
  ]
  ret := [(chars! "e_cc", 4)]

/-- codegen/RDFLCCD.py:37-86 `update_amps`. -/
def update_amps : GenFun where
  args := [chars! "v.xoo", chars! "t2", chars! "v.xov", chars! "v.xvv", chars! "f.oo", chars! "f.vv"]
  body := [
    -- 49: tmp0 = einsum(v.xoo, (0, 1, 2), v.xoo, (0, 3, 4), (1, 3, 4, 2))
    .set 6 (.ein [(0, [0, 1, 2]), (0, [0, 3, 4])] [1, 3, 4, 2]) 1 1,
    -- 50: t2new = einsum(tmp0, (0, 1, 2, 3), t2, (1, 3, 4, 5), (2, 0, 4, 5))
    .set 7 (.ein [(6, [0, 1, 2, 3]), (1, [1, 3, 4, 5])] [2, 0, 4, 5]) 1 1,
    -- 51: del tmp0
    .del 6,
    -- 52: t2new += einsum(v.xov, (0, 1, 2), v.xov, (0, 3, 4), (3, 1, 4, 2))
    .add 7 (.ein [(2, [0, 1, 2]), (2, [0, 3, 4])] [3, 1, 4, 2]) 1 1,
    -- 53: tmp1 = einsum(v.xvv, (0, 1, 2), v.xvv, (0, 3, 4), (1, 3, 4, 2))
    .set 8 (.ein [(3, [0, 1, 2]), (3, [0, 3, 4])] [1, 3, 4, 2]) 1 1,
    -- 54: t2new += einsum(t2, (0, 1, 2, 3), tmp1, (4, 2, 5, 3), (0, 1, 5, 4))
    .add 7 (.ein [(1, [0, 1, 2, 3]), (8, [4, 2, 5, 3])] [0, 1, 5, 4]) 1 1,
    -- 55: del tmp1
    .del 8,
    -- 56: tmp2 = einsum(v.xvv, (0, 1, 2), v.xoo, (0, 3, 4), (3, 4, 1, 2))
    .set 9 (.ein [(3, [0, 1, 2]), (0, [0, 3, 4])] [3, 4, 1, 2]) 1 1,
    -- 57: tmp3 = einsum(tmp2, (0, 1, 2, 3), t2, (4, 1, 5, 3), (4, 0, 5, 2))
    .set 10 (.ein [(9, [0, 1, 2, 3]), (1, [4, 1, 5, 3])] [4, 0, 5, 2]) 1 1,
    -- 58: tmp7 = np.copy(tmp3)
    .set 11 (.cp 10) 1 1,
    -- 59: del tmp3
    .del 10,
    -- 60: tmp4 = np.copy(np.transpose(t2, (0, 1, 3, 2))) * 2
    .set 12 (.tr 1 [0, 1, 3, 2]) 2 1,
    -- 61: tmp4 += t2 * -1
    .add 12 (.cp 1) (-1) 1,
    -- 62: tmp5 = einsum(v.xov, (0, 1, 2), tmp4, (1, 3, 4, 2), (3, 4, 0)) * 0.5
    .set 13 (.ein [(2, [0, 1, 2]), (12, [1, 3, 4, 2])] [3, 4, 0]) 1 2,
    -- 63: del tmp4
    .del 12,
    -- 64: tmp6 = einsum(v.xov, (0, 1, 2), tmp5, (3, 4, 0), (1, 3, 2, 4)) * 2
    .set 14 (.ein [(2, [0, 1, 2]), (13, [3, 4, 0])] [1, 3, 2, 4]) 2 1,
    -- 65: del tmp5
    .del 13,
    -- 66: tmp7 += np.transpose(tmp6, (1, 0, 3, 2)) * -1
    .add 11 (.tr 14 [1, 0, 3, 2]) (-1) 1,
    -- 67: del tmp6
    .del 14,
    -- 68: t2new += tmp7 * -1
    .add 7 (.cp 11) (-1) 1,
    -- 69: t2new += np.transpose(tmp7, (1, 0, 3, 2)) * -1
    .add 7 (.tr 11 [1, 0, 3, 2]) (-1) 1,
    -- 70: del tmp7
    .del 11,
    -- 71: tmp8 = einsum(f.oo, (0, 1), t2, (2, 1, 3, 4), (0, 2, 3, 4))
    .set 15 (.ein [(4, [0, 1]), (1, [2, 1, 3, 4])] [0, 2, 3, 4]) 1 1,
    -- 72: tmp10 = np.copy(tmp8)
    .set 16 (.cp 15) 1 1,
    -- 73: del tmp8
    .del 15,
    -- 74: tmp9 = einsum(t2, (0, 1, 2, 3), tmp2, (4, 1, 5, 2), (0, 4, 3, 5))
    .set 17 (.ein [(1, [0, 1, 2, 3]), (9, [4, 1, 5, 2])] [0, 4, 3, 5]) 1 1,
    -- 75: del tmp2
    .del 9,
    -- 76: tmp10 += tmp9
    .add 16 (.cp 17) 1 1,
    -- 77: del tmp9
    .del 17,
    -- 78: t2new += np.transpose(tmp10, (0, 1, 3, 2)) * -1
    .add 7 (.tr 16 [0, 1, 3, 2]) (-1) 1,
    -- 79: t2new += np.transpose(tmp10, (1, 0, 2, 3)) * -1
    .add 7 (.tr 16 [1, 0, 2, 3]) (-1) 1,
    -- 80: del tmp10
    .del 16,
    -- 81: tmp11 = einsum(f.vv, (0, 1), t2, (2, 3, 4, 1), (2, 3, 0, 4))
    .set 18 (.ein [(5, [0, 1]), (1, [2, 3, 4, 1])] [2, 3, 0, 4]) 1 1,
    -- 82: t2new += np.transpose(tmp11, (0, 1, 3, 2))
    .add 7 (.tr 18 [0, 1, 3, 2]) 1 1,
    -- 83: t2new += np.transpose(tmp11, (1, 0, 2, 3))
    .add 7 (.tr 18 [1, 0, 2, 3]) 1 1,
    -- 84: del tmp11
    .del 18
  ]
  ret := [(chars! "t2new", 7)]

end Ebcc.Gen.RDFLCCD
