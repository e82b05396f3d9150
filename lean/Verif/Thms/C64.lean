import Verif.Model.PickRoots
import Mathlib.Algebra.Order.Field.Basic
import Mathlib.Algebra.Order.Ring.Abs
import Mathlib.Algebra.Field.Rat
import Mathlib.Algebra.Order.Ring.Rat
import Mathlib.Tactic.Ring

/-!
C64: the diagonal preconditioner never divides by a number of magnitude below the tolerance, and is the exact inverse of
the shifted diagonal away from its singularities.
-/

namespace Ebcc

variable {R : Type} [Field R] [LinearOrder R] [IsStrictOrderedRing R]

/-- C64: the result has one entry per entry of the vector, bounded by the entry divided by the tolerance; its product with
the shifted diagonal gives the vector back wherever the shifted diagonal is not below the tolerance; elsewhere it is the
entry divided by the tolerance. -/
theorem C64_preconditioner (diag dx : List R) (shift tol e : R) (htol : 0 < tol) (hlen : dx.length = diag.length) :
    (precondition diag shift tol dx e).length = dx.length ∧
    ∀ i, (h1 : i < (precondition diag shift tol dx e).length) → (h2 : i < dx.length) → (h3 : i < diag.length) →
      |(precondition diag shift tol dx e)[i]| ≤ |dx[i]| / tol ∧
      (tol ≤ |diag[i] - e + shift| → (precondition diag shift tol dx e)[i] * (diag[i] - e + shift) = dx[i]) ∧
      (|diag[i] - e + shift| < tol → (precondition diag shift tol dx e)[i] = dx[i] / tol) := by
  refine ⟨by simp [precondition, hlen], ?_⟩
  intro i h1 h2 h3
  have hs : diag[i] - e + shift = diag[i] - (e - shift) := by ring
  have hval : (precondition diag shift tol dx e)[i] =
      dx[i] / (if |diag[i] - (e - shift)| < tol then tol else diag[i] - (e - shift)) := by
    simp [precondition]
  rw [hs, hval]
  by_cases hc : |diag[i] - (e - shift)| < tol
  · rw [if_pos hc]
    refine ⟨?_, fun h => absurd hc (not_lt.2 h), fun _ => rfl⟩
    rw [abs_div, abs_of_pos htol]
  · rw [if_neg hc]
    have hge := not_lt.1 hc
    have hne : diag[i] - (e - shift) ≠ 0 := by
      intro h0
      rw [h0, abs_zero] at hge
      exact absurd htol (not_lt.2 hge)
    refine ⟨?_, fun _ => div_mul_cancel₀ _ hne, fun h => absurd h hc⟩
    rw [abs_div]
    exact div_le_div_of_nonneg_left (abs_nonneg _) htol hge

/-- C64: the preconditioner is linear in the vector. -/
theorem C64_linear (diag dx dy : List R) (shift tol e c : R) (h : dx.length = dy.length) :
    precondition diag shift tol (List.zipWith (fun x y => c * x + y) dx dy) e =
    List.zipWith (fun x y => c * x + y) (precondition diag shift tol dx e) (precondition diag shift tol dy e) := by
  apply List.ext_getElem
  · simp [precondition, h]
  · intro i h1 h2
    simp only [precondition, List.getElem_zipWith]
    ring

/-- C64 (negative): the sign of a small shifted diagonal is lost, so that the preconditioned vector can point the opposite
way. -/
theorem C64_sign_lost : precondition [(-1 : Rat) / 1000] 0 (1 / 100) [1] 0 = [100] := by decide +kernel

example : precondition [(1 : Rat), 3, 2] 0 (1 / 100) [4, 5, 6] 2 = [-4, 5, 600] := by decide +kernel

end Ebcc
