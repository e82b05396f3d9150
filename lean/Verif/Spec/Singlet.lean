import Verif.Spec.ExpCoeff
/-!
Amplitudes of singlet operators: those of restricted calculations.
-/

namespace Ebcc

/-- The orbital of the other spin. -/
def flipSpin (x : Orb) : Orb := if x.1 < 4 then (x.1 + 4, x.2) else (x.1 - 4, x.2)

/-- The lists in which one orbital of spin α is replaced by that of spin β. -/
def lowered : List Orb → List (List Orb)
  | [] => []
  | x :: l => (if x.1 < 4 then [flipSpin x :: l] else []) ++ (lowered l).map fun m => x :: m

/-- The lists in which one orbital of spin β is replaced by that of spin α. -/
def raised : List Orb → List (List Orb)
  | [] => []
  | x :: l => (if x.1 < 4 then [] else [flipSpin x :: l]) ++ (raised l).map fun m => x :: m

/-- Lists of occupied and of virtual spin orbitals. -/
def IsOccs (I : List Orb) : Prop := ∀ x ∈ I, x.1 = 0 ∨ x.1 = 4
def IsVirs (A : List Orb) : Prop := ∀ x ∈ A, x.1 = 1 ∨ x.1 = 5

/-- The operator commutes with exchange of the spins, and with the operator `S-` which lowers the spin: lowering of the
virtual orbitals is the same as raising of the occupied ones. -/
structure Singlet {R : Type} [Field R] (T : List Orb → List Orb → R) : Prop where
  flip : ∀ I A, IsOccs I → IsVirs A → T (I.map flipSpin) (A.map flipSpin) = T I A
  ladder : ∀ I A, IsOccs I → IsVirs A → ((lowered A).map (T I)).sum = ((raised I).map fun J => T J A).sum

end Ebcc
