import Verif.Model.GenCode
/-!
Functions of `ebcc/codegen/GMP3.py`, written by `tools/gencode.py`.  Comments give the
number and the text of the line of each statement.
-/

set_option maxRecDepth 100000

namespace Ebcc.Gen.GMP3

/-- codegen/GMP3.py:19-44 `energy`. -/
def energy : GenFun where
  args := [chars! "t2", chars! "v.oovv", chars! "v.ovov", chars! "v.vvvv", chars! "v.oooo"]
  body := [
    -- 35: tmp0 = einsum(t2, (0, 1, 2, 3), t2, (4, 5, 2, 3), (4, 0, 1, 5))
    .set 5 (.ein [(0, [0, 1, 2, 3]), (0, [4, 5, 2, 3])] [4, 0, 1, 5]) 1 1,
    -- 36: tmp1 = np.copy(v.oovv) * 2
    .set 6 (.cp 1) 2 1,
    -- 37: tmp1 += einsum(v.ovov, (0, 1, 2, 3), t2, (4, 2, 5, 1), (0, 4, 3, 5)) * -8
    .add 6 (.ein [(2, [0, 1, 2, 3]), (0, [4, 2, 5, 1])] [0, 4, 3, 5]) (-8) 1,
    -- 38: tmp1 += einsum(t2, (0, 1, 2, 3), v.vvvv, (4, 5, 2, 3), (0, 1, 4, 5))
    .add 6 (.ein [(0, [0, 1, 2, 3]), (3, [4, 5, 2, 3])] [0, 1, 4, 5]) 1 1,
    -- 39: e_mp = einsum(v.oooo, (0, 1, 2, 3), tmp0, (3, 0, 1, 2), ()) * -0.125
    .set 7 (.ein [(4, [0, 1, 2, 3]), (5, [3, 0, 1, 2])] []) (-1) 8,
    -- 40: del tmp0
    .del 5,
    -- 41: e_mp += einsum(tmp1, (0, 1, 2, 3), t2, (0, 1, 2, 3), ()) * 0.125
    .add 7 (.ein [(6, [0, 1, 2, 3]), (0, [0, 1, 2, 3])] []) 1 8,
    -- 42: del tmp1
    .del 6
  ]
  ret := [(chars! "e_mp", 7)]

end Ebcc.Gen.GMP3
