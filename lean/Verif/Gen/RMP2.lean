import Verif.Model.GenCode
/-!
Functions of `ebcc/codegen/RMP2.py`, written by `tools/gencode.py`.  Comments give the
number and the text of the line of each statement.
-/

set_option maxRecDepth 100000

namespace Ebcc.Gen.RMP2

/-- codegen/RMP2.py:19-38 `energy`. -/
def energy : GenFun where
  args := [chars! "t2", chars! "v.ovov"]
  body := [
    -- 35: e_mp = einsum(t2, (0, 1, 2, 3), v.ovov, (0, 2, 1, 3), ()) * 2
    .set 2 (.ein [(0, [0, 1, 2, 3]), (1, [0, 2, 1, 3])] []) 2 1,
    -- 36: e_mp += einsum(t2, (0, 1, 2, 3), v.ovov, (0, 3, 1, 2), ()) * -1
    .add 2 (.ein [(0, [0, 1, 2, 3]), (1, [0, 3, 1, 2])] []) (-1) 1
  ]
  ret := [(chars! "e_mp", 2)]

end Ebcc.Gen.RMP2
