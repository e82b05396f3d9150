import Verif.Model.BruecknerKernel
import Mathlib.Data.Int.Order.Basic
import Mathlib.Algebra.Order.Ring.Int
import Mathlib.Logic.Function.Iterate
/-!
C46: the Brueckner kernel.  Whether the thresholds were met is logged truthfully (`C46_message`) but the attribute
`converged` is never assigned and stays false (`C46_attribute_partial`, `C46_attribute_fails`).
-/

namespace Ebcc

section
variable {R σ : Type} [AddCommGroup R] [LinearOrder R]

/-- The thresholds are met by the step from one state to the next; the energy before the step is `e_prev` (what that is,
is the subject of C98). -/
def ThresholdsMet (env : BruecknerEnv R σ) (s s' : σ) : Prop :=
  |env.ePrev s - env.eTot s'| < env.eTol ∧ env.t1Norm s' < env.tTol

theorem bruecknerLoop_spec (env : BruecknerEnv R σ) (fuel : Nat) (s : σ) :
    ((bruecknerLoop env fuel s).1 = true ∧ ∃ k, (bruecknerLoop env fuel s).2.1 = k + 1 ∧ k < fuel ∧
      (bruecknerLoop env fuel s).2.2 = env.iterate^[k + 1] s ∧
      ThresholdsMet env (env.iterate^[k] s) (env.iterate^[k + 1] s) ∧
      ∀ j < k, ¬ ThresholdsMet env (env.iterate^[j] s) (env.iterate^[j + 1] s)) ∨
    ((bruecknerLoop env fuel s).1 = false ∧ (bruecknerLoop env fuel s).2.1 = fuel ∧
      (bruecknerLoop env fuel s).2.2 = env.iterate^[fuel] s ∧
      ∀ j < fuel, ¬ ThresholdsMet env (env.iterate^[j] s) (env.iterate^[j + 1] s)) := by
  induction fuel generalizing s with
  | zero => exact Or.inr ⟨rfl, rfl, rfl, by simp⟩
  | succ fuel ih =>
    rw [bruecknerLoop]
    simp only
    by_cases h : ThresholdsMet env s (env.iterate s)
    · rw [if_pos (by simpa [ThresholdsMet] using h)]
      exact Or.inl ⟨rfl, 0, rfl, by omega, rfl, h, by simp⟩
    · rw [if_neg (by simpa [ThresholdsMet] using h)]
      rcases ih (env.iterate s) with ⟨h1, k, h2, h3, h4, h5, h6⟩ | ⟨h1, h2, h3, h4⟩
      · refine Or.inl ⟨h1, k + 1, by simp [h2], by omega, h4, h5, ?_⟩
        intro j hj
        cases j with
        | zero => exact h
        | succ j => exact h6 j (by omega)
      · refine Or.inr ⟨h1, by simp [h2], h3, ?_⟩
        intro j hj
        cases j with
        | zero => exact h
        | succ j => exact h4 j (by omega)

/-- The message "Converged" is logged iff the thresholds are met in the last iteration that is run; there is no
earlier iteration that meets them, and without convergence all iterations are run. -/
theorem C46_message (env : BruecknerEnv R σ) (prepare : σ → σ) (maxIter : Nat) (o : BruecknerObj σ) :
    let r := bruecknerKernel env prepare maxIter o
    let at_ := fun k => env.iterate^[k] (prepare o.state)
    r.1.state = at_ r.2.iterations ∧ r.2.energy = env.eCorr (at_ r.2.iterations) ∧ r.2.iterations ≤ maxIter ∧
    (r.2.messageConverged = true ↔
      0 < r.2.iterations ∧ ThresholdsMet env (at_ (r.2.iterations - 1)) (at_ r.2.iterations)) ∧
    (r.2.messageConverged = true ↔ ∃ k < maxIter, ThresholdsMet env (at_ k) (at_ (k + 1))) ∧
    (r.2.messageConverged = false → r.2.iterations = maxIter) ∧
    ∀ k, k + 1 < r.2.iterations → ¬ ThresholdsMet env (at_ k) (at_ (k + 1)) := by
  simp only [bruecknerKernel]
  rcases bruecknerLoop_spec env maxIter (prepare o.state) with ⟨h1, k, h2, h3, h4, h5, h6⟩ | ⟨h1, h2, h3, h4⟩
  · rw [h1, h2, h4]
    refine ⟨rfl, rfl, by omega, ?_, ?_, by simp, fun j hj => h6 j (by omega)⟩
    · exact ⟨fun _ => ⟨by omega, h5⟩, fun _ => rfl⟩
    · exact ⟨fun _ => ⟨k, h3, h5⟩, fun _ => rfl⟩
  · rw [h1, h2, h3]
    refine ⟨rfl, rfl, le_refl _, ?_, ?_, fun _ => rfl, fun j hj => h4 j (by omega)⟩
    · refine ⟨by simp, fun ⟨h, h'⟩ => absurd h' ?_⟩
      have := h4 (maxIter - 1) (by omega)
      rwa [show maxIter - 1 + 1 = maxIter by omega] at this
    · exact ⟨by simp, fun ⟨k, hk, h'⟩ => absurd h' (h4 k hk)⟩

/-- The attribute `converged` is what it was before, for every history: after the first and any further call of
`kernel` it is false.  The full property (true iff the thresholds were met) fails, see `C46_attribute_fails`; one
direction holds. -/
theorem C46_attribute_partial (env : BruecknerEnv R σ) (prepare : σ → σ) (maxIter : Nat) (s : σ) (calls : Nat) :
    let o := (fun o => (bruecknerKernel env prepare maxIter o).1)^[calls] (bruecknerInit s)
    o.converged = false ∧
    ((bruecknerKernel env prepare maxIter o).1.converged = true →
      (bruecknerKernel env prepare maxIter o).2.messageConverged = true) := by
  have h : ((fun o => (bruecknerKernel env prepare maxIter o).1)^[calls] (bruecknerInit s)).converged = false := by
    induction calls with
    | zero => rfl
    | succ n ih => rw [Function.iterate_succ_apply']; exact ih
  refine ⟨h, fun h' => ?_⟩
  have : (bruecknerKernel env prepare maxIter
    ((fun o => (bruecknerKernel env prepare maxIter o).1)^[calls] (bruecknerInit s))).1.converged = false := h
  rw [this] at h'
  cases h'

end

/-- A calculation that halves a number until the change is below the thresholds. -/
def halving : BruecknerEnv Int Int := ⟨fun s => s / 2, id, id, id, id, 2, 2⟩

/-- The thresholds are met after four iterations but the attribute is false. -/
theorem C46_attribute_fails : ¬ ∀ (env : BruecknerEnv Int Int) (prepare : Int → Int) (maxIter : Nat) (s : Int),
    (bruecknerKernel env prepare maxIter (bruecknerInit s)).1.converged = true ↔
      ∃ k < maxIter, ThresholdsMet env (env.iterate^[k] (prepare s)) (env.iterate^[k + 1] (prepare s)) := by
  intro h
  have := (h halving id 10 16).2 ⟨3, by decide, by unfold ThresholdsMet; decide⟩
  exact absurd this (by decide)

example : (bruecknerKernel halving id 10 (bruecknerInit 16)).2.messageConverged = true ∧
    (bruecknerKernel halving id 10 (bruecknerInit 16)).2.iterations = 4 ∧
    (bruecknerKernel halving id 10 (bruecknerInit 16)).1.converged = false ∧
    (bruecknerKernel halving id 3 (bruecknerInit 16)).2.messageConverged = false := by decide

end Ebcc
