import Verif.Model.GenCode
/-!
Functions of `ebcc/codegen/UMP2.py`, written by `tools/gencode.py`.  Comments give the
number and the text of the line of each statement.
-/

set_option maxRecDepth 100000

namespace Ebcc.Gen.UMP2

/-- codegen/UMP2.py:19-39 `energy`. -/
def energy : GenFun where
  args := [chars! "v.aaaa.ovov", chars! "t2.aaaa", chars! "t2.abab", chars! "v.aabb.ovov", chars! "v.bbbb.ovov", chars! "t2.bbbb"]
  body := [
    -- 35: e_mp = einsum(v.aaaa.ovov, (0, 1, 2, 3), t2.aaaa, (0, 2, 3, 1), ()) * -1
    .set 6 (.ein [(0, [0, 1, 2, 3]), (1, [0, 2, 3, 1])] []) (-1) 1,
    -- 36: e_mp += einsum(t2.abab, (0, 1, 2, 3), v.aabb.ovov, (0, 2, 1, 3), ())
    .add 6 (.ein [(2, [0, 1, 2, 3]), (3, [0, 2, 1, 3])] []) 1 1,
    -- 37: e_mp += einsum(v.bbbb.ovov, (0, 1, 2, 3), t2.bbbb, (0, 2, 1, 3), ())
    .add 6 (.ein [(4, [0, 1, 2, 3]), (5, [0, 2, 1, 3])] []) 1 1
  ]
  ret := [(chars! "e_mp", 6)]

end Ebcc.Gen.UMP2
