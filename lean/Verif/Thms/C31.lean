import Verif.Thms.C30

/-!
C31: the lambda kernel.  It ignores the amplitudes it is given.
-/

set_option linter.unusedSectionVars false

namespace Ebcc

section
variable {A L V D R : Type} [LinearOrder R] [Sub V]

/-- One iteration of the lambda equations for the amplitudes `t`. -/
def IsLambdaIteration (env : LambdaEnv A L V D R) (t : A) (pert : Option L) (l : L) (d : D) (l' : L) (d' : D)
    (dl : R) : Prop :=
  ∃ u w v v0, env.updateLams t l pert = .ok u ∧ env.toVector u = .ok w ∧ env.damp d w = .ok (v, d') ∧
    env.ofVector v = .ok l' ∧ env.toVector l = .ok v0 ∧ env.normInf (v - v0) = .ok dl

theorem lambdaStep_spec (env : LambdaEnv A L V D R) (t : A) (pert : Option L) (s s' : L × D) (c : Bool)
    (h : lambdaStep env t pert s = .ok (s', c)) :
    ∃ dl, IsLambdaIteration env t pert s.1 s.2 s'.1 s'.2 dl ∧ (c = true ↔ dl < env.tTol) := by
  simp only [lambdaStep, bind, Except.bind, pure, Except.pure] at h
  cases h1 : env.updateLams t s.1 pert with
  | error x => simp [h1] at h
  | ok u =>
    simp only [h1] at h
    cases h2 : env.toVector u with
    | error x => simp [h2] at h
    | ok w =>
      simp only [h2] at h
      cases h3 : env.damp s.2 w with
      | error x => simp [h3] at h
      | ok p =>
        obtain ⟨v, d'⟩ := p
        simp only [h3] at h
        cases h4 : env.ofVector v with
        | error x => simp [h4] at h
        | ok a' =>
          simp only [h4] at h
          cases h5 : env.toVector s.1 with
          | error x => simp [h5] at h
          | ok v0 =>
            simp only [h5] at h
            cases h6 : env.normInf (v - v0) with
            | error x => simp [h6] at h
            | ok dl =>
              simp only [h6, Except.ok.injEq, Prod.mk.injEq] at h
              obtain ⟨rfl, rfl⟩ := h
              exact ⟨dl, ⟨u, w, v, v0, h1, h2, h3, h4, h5, h6⟩, by simp⟩

/-- The perturbative part of the lambda amplitudes. -/
def lambdasPert (env : LambdaEnv A L V D R) (t : A) : Except PyErr (Option L) :=
  if env.perturbative then (env.updateLamsPert t).map some else .ok none

theorem solveLambda_eq (env : LambdaEnv A L V D R) (given : Option A) (st st' : LamState A L) (n : Nat)
    (h : solveLambda env given st = .ok (st', n)) :
    ∃ t pert l0 s c, ifEmpty st.amplitudes env.initAmps = .ok t ∧ lambdasPert env t = .ok pert ∧
      ifEmpty st.lambdas (env.initLams t) = .ok l0 ∧
      iterate (lambdaStep env t pert) env.maxIter (l0, env.damping) = .ok (s, c, n) ∧
      st' = ⟨st.amplitudes, some s.1, c⟩ := by
  simp only [solveLambda, bind, Except.bind, pure, Except.pure] at h
  cases h1 : ifEmpty st.amplitudes env.initAmps with
  | error x => simp [h1] at h
  | ok t =>
    simp only [h1] at h
    have hrest : ∀ pert : Option L,
        ((ifEmpty st.lambdas (env.initLams t)).bind fun l0 =>
          (iterate (lambdaStep env t pert) env.maxIter (l0, env.damping)).bind fun r =>
            Except.ok ((⟨st.amplitudes, some r.1.1, r.2.1⟩ : LamState A L), r.2.2)) = .ok (st', n) →
        ∃ l0 s c, ifEmpty st.lambdas (env.initLams t) = .ok l0 ∧
          iterate (lambdaStep env t pert) env.maxIter (l0, env.damping) = .ok (s, c, n) ∧
          st' = ⟨st.amplitudes, some s.1, c⟩ := by
      intro pert hr
      simp only [Except.bind] at hr
      cases h2 : ifEmpty st.lambdas (env.initLams t) with
      | error x => simp [h2] at hr
      | ok l0 =>
        simp only [h2] at hr
        cases h3 : iterate (lambdaStep env t pert) env.maxIter (l0, env.damping) with
        | error x => simp [h3] at hr
        | ok r =>
          obtain ⟨s, c, k⟩ := r
          simp only [h3, Except.ok.injEq, Prod.mk.injEq] at hr
          obtain ⟨rfl, rfl⟩ := hr
          exact ⟨l0, s, c, rfl, h3, rfl⟩
    cases hp : env.perturbative with
    | false =>
      simp only [hp, Bool.false_eq_true, if_false] at h
      obtain ⟨l0, s, c, a1, a2, a3⟩ := hrest none h
      exact ⟨t, none, l0, s, c, rfl, by simp [lambdasPert, hp], a1, a2, a3⟩
    | true =>
      simp only [hp, if_true] at h
      cases hu : env.updateLamsPert t with
      | error x => simp [hu] at h
      | ok p =>
        simp only [hu] at h
        obtain ⟨l0, s, c, a1, a2, a3⟩ := hrest (some p) h
        exact ⟨t, some p, l0, s, c, rfl, by simp [lambdasPert, hp, hu, Except.map], a1, a2, a3⟩

theorem lambda_trace (env : LambdaEnv A L V D R) (t : A) (pert : Option L) (s : L × D)
    (l : List ((L × D) × Bool)) (h : Trace (lambdaStep env t pert) s l) (p : (L × D) × Bool)
    (hp : l.getLast? = some p) :
    ∃ l0 d0 dl, IsLambdaIteration env t pert l0 d0 p.1.1 p.1.2 dl ∧ (p.2 = true ↔ dl < env.tTol) := by
  induction h with
  | nil s => simp at hp
  | @cons s s' c l hs ht ih =>
    cases l with
    | nil =>
      simp only [List.getLast?_singleton, Option.some.injEq] at hp
      subst hp
      obtain ⟨dl, h1, h2⟩ := lambdaStep_spec env t pert s s' c hs
      exact ⟨s.1, s.2, dl, h1, h2⟩
    | cons x l =>
      rw [List.getLast?_cons_cons] at hp
      exact ih hp

/-- Convergence is reported only if the last change is below the tolerance, at most `max_iter` updates are
made, and exactly `max_iter` without a passing test otherwise.  Missing from the full claim: the amplitudes used
are those of the object, not those passed (see below). -/
theorem C31_lambda_partial (env : LambdaEnv A L V D R) (given : Option A) (st st' : LamState A L) (n : Nat)
    (h : solveLambda env given st = .ok (st', n)) :
    ∃ t pert l0, ifEmpty st.amplitudes env.initAmps = .ok t ∧ lambdasPert env t = .ok pert ∧
      ifEmpty st.lambdas (env.initLams t) = .ok l0 ∧ st'.amplitudes = st.amplitudes ∧ n ≤ env.maxIter ∧
      (∃ tr, Trace (lambdaStep env t pert) (l0, env.damping) tr ∧ tr.length = n ∧
        (∀ p ∈ tr.dropLast, p.2 = false) ∧
        (st'.convergedLambda = false → n = env.maxIter ∧ ∀ p ∈ tr, p.2 = false)) ∧
      (st'.convergedLambda = true → ∃ l lPrev dPrev d' dl, st'.lambdas = some l ∧
        IsLambdaIteration env t pert lPrev dPrev l d' dl ∧ dl < env.tTol) := by
  obtain ⟨t, pert, l0, s, c, h1, h2, h3, h4, rfl⟩ := solveLambda_eq env given st st' n h
  obtain ⟨tr, t1, t2, t3, t4, t5, t6, t7, t8⟩ := iterate_spec _ _ _ _ _ _ h4
  refine ⟨t, pert, l0, h1, h2, h3, rfl, t3, ⟨tr, t1, t2, t4, ?_⟩, ?_⟩
  · intro hc
    simp only at hc
    subst hc
    refine ⟨t7 rfl, fun p hp => ?_⟩
    rcases List.eq_nil_or_concat tr with rfl | ⟨l', q, rfl⟩
    · simp at hp
    · rw [List.concat_eq_append] at *
      rw [List.mem_append, List.mem_singleton] at hp
      rcases hp with hp | rfl
      · exact t4 p (by simpa using hp)
      · rw [t6 p (by simp)]
  · intro hc
    simp only at hc
    subst hc
    have hn : n ≠ 0 := fun h0 => by simpa using t8 h0
    have hl : tr ≠ [] := by rintro rfl; exact hn t2.symm
    obtain ⟨p, hp⟩ : ∃ p, tr.getLast? = some p := ⟨_, List.getLast?_eq_some_getLast hl⟩
    have := t6 p hp
    subst this
    obtain ⟨l1, d1, dl, i1, i2⟩ := lambda_trace env t pert _ tr t1 _ hp
    exact ⟨s.1, l1, d1, s.2, dl, rfl, i1, i2.1 rfl⟩

/-- Refutation of the first part of the claim: the amplitudes passed make no difference at all. -/
theorem C31_given_amplitudes_ignored (env : LambdaEnv A L V D R) (given given' : Option A) (st : LamState A L) :
    solveLambda env given st = solveLambda env given' st := rfl

end

/-- A toy problem: the lambda equation is `l = t`, solved in one step. -/
def toyLambda : LambdaEnv Rat Rat Rat Unit Rat where
  initAmps := .ok 0
  initLams t := .ok t
  updateLams t _ _ := .ok t
  updateLamsPert _ := .ok 0
  toVector a := .ok a
  ofVector a := .ok a
  damping := ()
  damp _ v := .ok (v, ())
  normInf v := .ok |v|
  perturbative := false
  tTol := 1/4
  maxIter := 5

/-- Asking for the lambda amplitudes of 3 gives those of the stored 7. -/
theorem C31_ignores_argument :
    solveLambda toyLambda (some 3) ⟨some 7, none, false⟩ = .ok (⟨some 7, some 7, true⟩, 1) := by
  decide +kernel

/-- A start away from the solution needs two iterations. -/
example : solveLambda toyLambda none ⟨some 7, some 1, false⟩ = .ok (⟨some 7, some 7, true⟩, 2) := by
  decide +kernel

end Ebcc
