import Verif.Model.GenCode
/-!
Functions of `ebcc/codegen/GMP2.py`, written by `tools/gencode.py`.  Comments give the
number and the text of the line of each statement.
-/

set_option maxRecDepth 100000

namespace Ebcc.Gen.GMP2

/-- codegen/GMP2.py:19-37 `energy`. -/
def energy : GenFun where
  args := [chars! "t2", chars! "v.oovv"]
  body := [
    -- 35: e_mp = einsum(t2, (0, 1, 2, 3), v.oovv, (0, 1, 2, 3), ()) * 0.25
    .set 2 (.ein [(0, [0, 1, 2, 3]), (1, [0, 1, 2, 3])] []) 1 4
  ]
  ret := [(chars! "e_mp", 2)]

end Ebcc.Gen.GMP2
