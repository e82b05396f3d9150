import Verif.Model.GenCode
/-!
Functions of `ebcc/codegen/GLCCSD.py`, written by `tools/gencode.py`.  Comments give the
number and the text of the line of each statement.
-/

set_option maxRecDepth 100000

namespace Ebcc.Gen.GLCCSD

/-- codegen/GLCCSD.py:17-33 `energy`. -/
def energy : GenFun where
  args := [chars! "t1", chars! "f.ov", chars! "v.oovv", chars! "t2"]
  body := [
    -- 30: e_cc = einsum(t1, (0, 1), f.ov, (0, 1), ())
    .set 4 (.ein [(0, [0, 1]), (1, [0, 1])] []) 1 1,
    -- 31: e_cc += einsum(v.oovv, (0, 1, 2, 3), t2, (0, 1, 2, 3), ()) * 0.25
    .add 4 (.ein [(2, [0, 1, 2, 3]), (3, [0, 1, 2, 3])] []) 1 4
  ]
  ret := [(chars! "e_cc", 4)]

/-- codegen/GLCCSD.py:35-84 `update_amps`. -/
def update_amps : GenFun where
  args := [chars! "t1", chars! "f.vv", chars! "t2", chars! "v.ovoo", chars! "v.ovov", chars! "f.ov", chars! "f.oo", chars! "v.ovvv", chars! "v.oooo", chars! "v.oovv", chars! "v.vvvv", chars! "v.ooov"]
  body := [
    -- 49: t1new = einsum(t1, (0, 1), f.vv, (2, 1), (0, 2))
    .set 12 (.ein [(0, [0, 1]), (1, [2, 1])] [0, 2]) 1 1,
    -- 50: t1new += einsum(t2, (0, 1, 2, 3), v.ovoo, (4, 3, 0, 1), (4, 2)) * -0.5
    .add 12 (.ein [(2, [0, 1, 2, 3]), (3, [4, 3, 0, 1])] [4, 2]) (-1) 2,
    -- 51: t1new += einsum(v.ovov, (0, 1, 2, 3), t1, (2, 1), (0, 3)) * -1
    .add 12 (.ein [(4, [0, 1, 2, 3]), (0, [2, 1])] [0, 3]) (-1) 1,
    -- 52: t1new += einsum(t2, (0, 1, 2, 3), f.ov, (1, 3), (0, 2))
    .add 12 (.ein [(2, [0, 1, 2, 3]), (5, [1, 3])] [0, 2]) 1 1,
    -- 53: t1new += f.ov
    .add 12 (.cp 5) 1 1,
    -- 54: t1new += einsum(f.oo, (0, 1), t1, (1, 2), (0, 2)) * -1
    .add 12 (.ein [(6, [0, 1]), (0, [1, 2])] [0, 2]) (-1) 1,
    -- 55: t1new += einsum(t2, (0, 1, 2, 3), v.ovvv, (1, 4, 2, 3), (0, 4)) * -0.5
    .add 12 (.ein [(2, [0, 1, 2, 3]), (7, [1, 4, 2, 3])] [0, 4]) (-1) 2,
    -- 56: t2new = einsum(t2, (0, 1, 2, 3), v.oooo, (4, 5, 0, 1), (4, 5, 2, 3)) * 0.5
    .set 13 (.ein [(2, [0, 1, 2, 3]), (8, [4, 5, 0, 1])] [4, 5, 2, 3]) 1 2,
    -- 57: t2new += v.oovv
    .add 13 (.cp 9) 1 1,
    -- 58: t2new += einsum(v.vvvv, (0, 1, 2, 3), t2, (4, 5, 2, 3), (4, 5, 0, 1)) * 0.5
    .add 13 (.ein [(10, [0, 1, 2, 3]), (2, [4, 5, 2, 3])] [4, 5, 0, 1]) 1 2,
    -- 59: tmp0 = einsum(t2, (0, 1, 2, 3), v.ovov, (4, 3, 1, 5), (0, 4, 2, 5))
    .set 14 (.ein [(2, [0, 1, 2, 3]), (4, [4, 3, 1, 5])] [0, 4, 2, 5]) 1 1,
    -- 60: t2new += tmp0 * -1
    .add 13 (.cp 14) (-1) 1,
    -- 61: t2new += np.transpose(tmp0, (0, 1, 3, 2))
    .add 13 (.tr 14 [0, 1, 3, 2]) 1 1,
    -- 62: t2new += np.transpose(tmp0, (1, 0, 2, 3))
    .add 13 (.tr 14 [1, 0, 2, 3]) 1 1,
    -- 63: t2new += np.transpose(tmp0, (1, 0, 3, 2)) * -1
    .add 13 (.tr 14 [1, 0, 3, 2]) (-1) 1,
    -- 64: del tmp0
    .del 14,
    -- 65: tmp1 = einsum(v.ooov, (0, 1, 2, 3), t1, (2, 4), (0, 1, 4, 3))
    .set 15 (.ein [(11, [0, 1, 2, 3]), (0, [2, 4])] [0, 1, 4, 3]) 1 1,
    -- 66: tmp3 = np.copy(np.transpose(tmp1, (1, 0, 2, 3))) * -1
    .set 16 (.tr 15 [1, 0, 2, 3]) (-1) 1,
    -- 67: del tmp1
    .del 15,
    -- 68: tmp2 = einsum(t2, (0, 1, 2, 3), f.vv, (4, 3), (0, 1, 4, 2))
    .set 17 (.ein [(2, [0, 1, 2, 3]), (1, [4, 3])] [0, 1, 4, 2]) 1 1,
    -- 69: tmp3 += np.transpose(tmp2, (1, 0, 2, 3)) * -1
    .add 16 (.tr 17 [1, 0, 2, 3]) (-1) 1,
    -- 70: del tmp2
    .del 17,
    -- 71: t2new += tmp3 * -1
    .add 13 (.cp 16) (-1) 1,
    -- 72: t2new += np.transpose(tmp3, (0, 1, 3, 2))
    .add 13 (.tr 16 [0, 1, 3, 2]) 1 1,
    -- 73: del tmp3
    .del 16,
    -- 74: tmp4 = einsum(t2, (0, 1, 2, 3), f.oo, (4, 1), (4, 0, 2, 3))
    .set 18 (.ein [(2, [0, 1, 2, 3]), (6, [4, 1])] [4, 0, 2, 3]) 1 1,
    -- 75: tmp6 = np.copy(np.transpose(tmp4, (0, 1, 3, 2))) * -1
    .set 19 (.tr 18 [0, 1, 3, 2]) (-1) 1,
    -- 76: del tmp4
    .del 18,
    -- 77: tmp5 = einsum(v.ovvv, (0, 1, 2, 3), t1, (4, 1), (4, 0, 2, 3))
    .set 20 (.ein [(7, [0, 1, 2, 3]), (0, [4, 1])] [4, 0, 2, 3]) 1 1,
    -- 78: tmp6 += np.transpose(tmp5, (0, 1, 3, 2))
    .add 19 (.tr 20 [0, 1, 3, 2]) 1 1,
    -- 79: del tmp5
    .del 20,
    -- 80: t2new += tmp6
    .add 13 (.cp 19) 1 1,
    -- 81: t2new += np.transpose(tmp6, (1, 0, 2, 3)) * -1
    .add 13 (.tr 19 [1, 0, 2, 3]) (-1) 1,
    -- 82: del tmp6
    .del 19
  ]
  ret := [(chars! "t1new", 12), (chars! "t2new", 13)]

end Ebcc.Gen.GLCCSD
