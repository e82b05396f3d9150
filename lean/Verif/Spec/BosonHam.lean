import Verif.Model.Array
import Mathlib.Algebra.Algebra.Basic
import Mathlib.Algebra.BigOperators.Group.Finset.Basic
import Mathlib.Algebra.BigOperators.Ring.Finset

/-!
The one-body part of a Hamiltonian of electrons coupled to bosons, in any algebra of operators.
-/

namespace Ebcc

/-- Sum over the spins `S`, the classes occupied and virtual of both indices, and the orbitals of each class. -/
def orbSum {M : Type} [AddCommMonoid M] (S : Finset Nat) (n : Nat → Char → Nat)
    (t : Nat → Char → Nat → Char → Nat → M) : M :=
  ∑ σ ∈ S, ∑ a ∈ {'o', 'v'}, ∑ c ∈ {'o', 'v'}, ∑ p ∈ Finset.range (n σ a), ∑ q ∈ Finset.range (n σ c), t σ a p c q

/-- `Σ f_pq N_pq + Σ ω_I b†_I b_I + Σ g_Ipq (N'_pq b_I + N'_qp b†_I) + Σ G_I (b_I + b†_I)`, for blocks `f σ a c` and
`g σ a c` of the spins.  `N` and `N'` are the operators `p† q`, `b` and `bd` those of the modes. -/
def bosonHam {K A : Type} [Field K] [Ring A] [Algebra K A] (S : Finset Nat) (n : Nat → Char → Nat) (nb : Nat)
    (f g : Nat → Char → Char → NDArray K) (w G : Nat → K) (N N' : Nat → Char → Nat → Char → Nat → A)
    (b bd : Nat → A) : A :=
  orbSum S n (fun σ a p c q => (f σ a c).get [p, q] • N σ a p c q)
    + ∑ I ∈ Finset.range nb, w I • (bd I * b I)
    + ∑ I ∈ Finset.range nb, (orbSum S n (fun σ a p c q => (g σ a c).get [I, p, q] • (N' σ a p c q * b I))
      + orbSum S n (fun σ a p c q => (g σ c a).get [I, q, p] • (N' σ a p c q * bd I)))
    + ∑ I ∈ Finset.range nb, G I • (b I + bd I)

/-- `p† q` relative to its value for the reference determinant. -/
def normalOrdered {A : Type} [Ring A] (E : Nat → Char → Nat → Char → Nat → A) (σ : Nat) (a : Char) (p : Nat) (c : Char)
    (q : Nat) : A := E σ a p c q - if a = 'o' ∧ c = 'o' ∧ p = q then 1 else 0

end Ebcc
