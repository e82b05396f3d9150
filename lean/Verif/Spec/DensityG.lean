import Verif.Spec.GenArgsG
/-!
Density matrices of the general (spin-orbital) classes: elements for orbitals, and the energy.
-/

namespace Ebcc

section
variable {R : Type}

def spaceLetter (s : Nat) : Char := if s = 0 then 'o' else 'v'

/-- An element of a one-particle density matrix which is returned in blocks with the name `n`. -/
def dm1 [Zero R] (r : Dict (List Char) (NDArray R)) (n : List Char) (p q : Orb) : R :=
  elemOf r (n ++ ['.', spaceLetter p.1, spaceLetter q.1]) [p.2, q.2]

/-- An element of a two-particle density matrix, in the order `(pq|rs)`. -/
def dm2 [Zero R] (r : Dict (List Char) (NDArray R)) (n : List Char) (p q s u : Orb) : R :=
  elemOf r (n ++ ['.', spaceLetter p.1, spaceLetter q.1, spaceLetter s.1, spaceLetter u.1]) [p.2, q.2, s.2, u.2]

/-- An element of a density matrix with a boson mode and two orbitals. -/
def dmEB [Zero R] (r : Dict (List Char) (NDArray R)) (n : List Char) (x : Nat) (p q : Orb) : R :=
  elemOf r (n ++ ['.', spaceLetter p.1, spaceLetter q.1]) [x, p.2, q.2]

/-- A sum over all orbitals. -/
def sumOrb [AddMonoid R] (no nv : Nat) (F : Orb → R) : R :=
  (sumTo no fun i => F (0, i)) + sumTo nv fun a => F (1, a)

/-- An occupied or a virtual orbital. -/
def IsOrb (no nv : Nat) (p : Orb) : Prop := (p.1 = 0 ∧ p.2 < no) ∨ (p.1 = 1 ∧ p.2 < nv)

/-- The one-electron part of the Hamiltonian: the Fock matrix without the field of the occupied orbitals. -/
def GHam.core [Ring R] (h : GHam R) (no : Nat) (p q : Orb) : R :=
  h.f p q - sumTo no fun k => h.v p (0, k) q (0, k)

/-- The energy of the determinant of the occupied orbitals. -/
def GHam.eRef [Field R] (h : GHam R) (no : Nat) : R :=
  (sumTo no fun k => h.core no (0, k) (0, k)) + 1 / 2 * sumTo no fun k => sumTo no fun l => h.v (0, k) (0, l) (0, k) (0, l)

/-- The energy of electrons from density matrices. -/
def GHam.eDM [Field R] (h : GHam R) (no nv : Nat) (d1 : Orb → Orb → R) (d2 : Orb → Orb → Orb → Orb → R) : R :=
  (sumOrb no nv fun p => sumOrb no nv fun q => h.core no p q * d1 p q) +
    1 / 4 * sumOrb no nv fun p => sumOrb no nv fun q => sumOrb no nv fun r => sumOrb no nv fun s =>
      h.v p r q s * d2 p q r s

/-- The energy of bosons and of their coupling to electrons from density matrices: `b0` and `b1` of one operator,
`bb` of a pair, `e0` and `e1` of one boson operator and a pair of electron operators.  The field of the occupied
orbitals is in `G`. -/
def GHam.eDMB [Field R] (h : GHam R) (no nv nb : Nat) (b0 b1 : Nat → R) (bb : Nat → Nat → R)
    (e0 e1 : Nat → Orb → Orb → R) : R :=
  (sumTo nb fun x => (h.G x - sumTo no fun k => h.g x (0, k) (0, k)) * (b0 x + b1 x)) +
    (sumTo nb fun x => sumTo nb fun y => h.w x y * bb x y) +
    sumTo nb fun x => sumOrb no nv fun p => sumOrb no nv fun q => h.g x q p * e0 x p q + h.g x p q * e1 x p q

end
end Ebcc
