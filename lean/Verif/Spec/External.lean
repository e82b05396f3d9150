import Verif.Spec.Active
import Verif.Thms.C47
/-!
The corrections of `t1` and `t2` by amplitudes of an active space.
-/

namespace Ebcc

/-- The blocks of the corrections of `t1` and `t2`. -/
def extKeys1 : List (List Char) := [['O', 'V']]

def extKeys2 : List (List Char) :=
  [['O', 'O', 'V', 'V'], ['O', 'o', 'V', 'V'], ['o', 'O', 'V', 'V'], ['O', 'O', 'v', 'V'], ['O', 'O', 'V', 'v']]

section
variable {R : Type}

/-- The array of a result. -/
def resArr [Zero R] (r : Dict (List Char) (NDArray R)) (name : List Char) : NDArray R :=
  (r.get? name).getD (NDArray.zeros [])

/-- The result is there, with the sizes of the letters. -/
def HasBlock [Zero R] (m : ActiveMasks) (r : Dict (List Char) (NDArray R)) (name key : List Char) : Prop :=
  ∃ a, r.get? name = some a ∧ a.WF ∧ a.shape = key.map m.size

/-- The sum of the blocks of a correction at an element of the full array. -/
def extSum [Ring R] (m : ActiveMasks) (r : Dict (List Char) (NDArray R)) (name : List Char) (keys : List (List Char))
    (idx : List Nat) : R :=
  (keys.map fun key => blockElem (key.map m.cls) (resArr r (name ++ '.' :: key)) idx).sum

end
end Ebcc
