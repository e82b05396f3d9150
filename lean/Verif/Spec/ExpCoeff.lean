import Verif.Spec.GenArgs
import Verif.Model.GenCode
import Mathlib.Tactic.Ring
/-!
The coefficients of `exp(T)` for an operator `T` of cluster amplitudes: what `convert_t4_to_c4` and its siblings
compute.

`T I A` is the antisymmetric amplitude of the excitation from the spin orbitals `I` to the spin orbitals `A`.
The coefficient of the determinant with `I` replaced by `A` is the sum over all ways to distribute `I` over groups,
and `A` over the groups, of the product of the amplitudes of the groups, with the sign of the two rearrangements.
-/

namespace Ebcc

/-- The ways to divide a list into a sublist and the rest, with the sign of moving the sublist to the front. -/
def picks {α : Type} : List α → List (Int × List α × List α)
  | [] => [(1, [], [])]
  | x :: l => (picks l).map (fun p => (p.1, x :: p.2.1, p.2.2))
      ++ (picks l).map fun p => (p.1 * (-1) ^ p.2.1.length, p.2.1, x :: p.2.2)

/-- The terms: sign and groups.  The first orbital of `I` determines the first group; `n` is at least the number of
groups. -/
def expTermsN {α : Type} : Nat → List α → List α → List (Int × List (List α × List α))
  | 0, I, A => if I.isEmpty && A.isEmpty then [(1, [])] else []
  | n + 1, I, A => match I with
    | [] => if A.isEmpty then [(1, [])] else []
    | i :: I => (picks I).flatMap fun s =>
      ((picks A).filter fun r => r.2.1.length == s.2.1.length + 1).flatMap fun r =>
        (expTermsN n s.2.2 r.2.2).map fun c => (s.1 * r.1 * c.1, (i :: s.2.1, r.2.1) :: c.2)

def expTerms {α : Type} (I A : List α) : List (Int × List (List α × List α)) := expTermsN I.length I A

section
variable {R : Type} [Field R]

/-- The coefficient of `exp(T)` for the excitation from `I` to `A`. -/
def expCoeff (T : List Orb → List Orb → R) (I A : List Orb) : R :=
  ((expTerms I A).map fun x => (x.1 : R) * (x.2.map fun p => T p.1 p.2).prod).sum

/-- Exchange of two neighbouring occupied, or of two neighbouring virtual orbitals changes the sign. -/
structure Antisymmetric (T : List Orb → List Orb → R) : Prop where
  occ : ∀ (I J : List Orb) (x y : Orb) (A : List Orb), T (I ++ x :: y :: J) A = -T (I ++ y :: x :: J) A
  vir : ∀ (I A B : List Orb) (x y : Orb), T I (A ++ x :: y :: B) = -T I (A ++ y :: x :: B)

/-- The number of orbitals of spin β: those of the spaces 4 and 5. -/
def betas (l : List Orb) : Nat := l.countP fun x => decide (4 ≤ x.1)

/-- Excitations which change the spin have no amplitude. -/
def SpinConserving (T : List Orb → List Orb → R) : Prop := ∀ I A, betas I ≠ betas A → T I A = 0

/-- The orbitals of the axes: of `2 n` axes the first `n` are occupied. -/
def splitAxes (sp idx : List Nat) : List Orb × List Orb :=
  ((sp.zip idx).take (sp.length / 2), (sp.zip idx).drop (sp.length / 2))

/-- Amplitudes as an array; `sp` are the spaces of the axes and `sz` their sizes. -/
def ampArr (sz : Nat → Nat) (T : List Orb → List Orb → R) (w : R) (sp : List Nat) : NDArray R :=
  NDArray.ofFn (sp.map sz) fun idx => T (splitAxes sp idx).1 (splitAxes sp idx).2 * w

/-- Coefficients of `exp(T)` as an array. -/
def coefArr (sz : Nat → Nat) (T : List Orb → List Orb → R) (sp : List Nat) : NDArray R :=
  NDArray.ofFn (sp.map sz) fun idx => expCoeff T (splitAxes sp idx).1 (splitAxes sp idx).2

/-- The spaces of the axes of an amplitude with the given spins. -/
def excSpaces (s : List Char) : List Nat :=
  s.map (fun c => if c = 'a' then 0 else 4) ++ s.map fun c => if c = 'a' then 1 else 5

/-- Singles: the coefficient is the amplitude. -/
example (T : List Orb → List Orb → R) (i a : Orb) : expCoeff T [i] [a] = T [i] [a] := by
  simp [expCoeff, expTerms, expTermsN, picks]

/-- Doubles. -/
example (T : List Orb → List Orb → R) (i j a b : Orb) : expCoeff T [i, j] [a, b]
    = T [i, j] [a, b] + T [i] [a] * T [j] [b] - T [i] [b] * T [j] [a] := by
  simp [expCoeff, expTerms, expTermsN, picks, List.filter_cons]
  ring

end
end Ebcc
