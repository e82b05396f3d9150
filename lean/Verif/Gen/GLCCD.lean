import Verif.Model.GenCode
/-!
Functions of `ebcc/codegen/GLCCD.py`, written by `tools/gencode.py`.  Comments give the
number and the text of the line of each statement.
-/

set_option maxRecDepth 100000

namespace Ebcc.Gen.GLCCD

/-- codegen/GLCCD.py:17-30 `energy`. -/
def energy : GenFun where
  args := [chars! "t2", chars! "v.oovv"]
  body := [
    -- 28: e_cc = einsum(t2, (0, 1, 2, 3), v.oovv, (0, 1, 2, 3), ()) * 0.25
    .set 2 (.ein [(0, [0, 1, 2, 3]), (1, [0, 1, 2, 3])] []) 1 4
  ]
  ret := [(chars! "e_cc", 2)]

/-- codegen/GLCCD.py:32-62 `update_amps`. -/
def update_amps : GenFun where
  args := [chars! "t2", chars! "v.oooo", chars! "v.oovv", chars! "v.vvvv", chars! "f.vv", chars! "f.oo", chars! "v.ovov"]
  body := [
    -- 44: t2new = einsum(t2, (0, 1, 2, 3), v.oooo, (4, 5, 0, 1), (4, 5, 2, 3)) * 0.5
    .set 7 (.ein [(0, [0, 1, 2, 3]), (1, [4, 5, 0, 1])] [4, 5, 2, 3]) 1 2,
    -- 45: t2new += v.oovv
    .add 7 (.cp 2) 1 1,
    -- 46: t2new += einsum(t2, (0, 1, 2, 3), v.vvvv, (4, 5, 2, 3), (0, 1, 4, 5)) * 0.5
    .add 7 (.ein [(0, [0, 1, 2, 3]), (3, [4, 5, 2, 3])] [0, 1, 4, 5]) 1 2,
    -- 47: tmp0 = einsum(t2, (0, 1, 2, 3), f.vv, (4, 3), (0, 1, 4, 2))
    .set 8 (.ein [(0, [0, 1, 2, 3]), (4, [4, 3])] [0, 1, 4, 2]) 1 1,
    -- 48: t2new += np.transpose(tmp0, (1, 0, 2, 3))
    .add 7 (.tr 8 [1, 0, 2, 3]) 1 1,
    -- 49: t2new += np.transpose(tmp0, (1, 0, 3, 2)) * -1
    .add 7 (.tr 8 [1, 0, 3, 2]) (-1) 1,
    -- 50: del tmp0
    .del 8,
    -- 51: tmp1 = einsum(t2, (0, 1, 2, 3), f.oo, (4, 1), (4, 0, 2, 3))
    .set 9 (.ein [(0, [0, 1, 2, 3]), (5, [4, 1])] [4, 0, 2, 3]) 1 1,
    -- 52: t2new += np.transpose(tmp1, (0, 1, 3, 2)) * -1
    .add 7 (.tr 9 [0, 1, 3, 2]) (-1) 1,
    -- 53: t2new += np.transpose(tmp1, (1, 0, 3, 2))
    .add 7 (.tr 9 [1, 0, 3, 2]) 1 1,
    -- 54: del tmp1
    .del 9,
    -- 55: tmp2 = einsum(t2, (0, 1, 2, 3), v.ovov, (4, 3, 1, 5), (0, 4, 2, 5))
    .set 10 (.ein [(0, [0, 1, 2, 3]), (6, [4, 3, 1, 5])] [0, 4, 2, 5]) 1 1,
    -- 56: t2new += tmp2 * -1
    .add 7 (.cp 10) (-1) 1,
    -- 57: t2new += np.transpose(tmp2, (0, 1, 3, 2))
    .add 7 (.tr 10 [0, 1, 3, 2]) 1 1,
    -- 58: t2new += np.transpose(tmp2, (1, 0, 2, 3))
    .add 7 (.tr 10 [1, 0, 2, 3]) 1 1,
    -- 59: t2new += np.transpose(tmp2, (1, 0, 3, 2)) * -1
    .add 7 (.tr 10 [1, 0, 3, 2]) (-1) 1,
    -- 60: del tmp2
    .del 10
  ]
  ret := [(chars! "t2new", 7)]

end Ebcc.Gen.GLCCD
