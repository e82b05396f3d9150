import Verif.Model.Kernel
import Verif.Thms.C28
import Mathlib.Tactic.DeriveFintype

/-!
C30: the ground state kernel.
-/

set_option linter.unusedSectionVars false

namespace Ebcc

/-- `states` is the sequence of states after each iteration starting from `s`; the flags are the results
of the convergence test. -/
inductive Trace {S : Type} (step : S → Except PyErr (S × Bool)) : S → List (S × Bool) → Prop
  | nil (s : S) : Trace step s []
  | cons {s s' : S} {c : Bool} {l : List (S × Bool)} : step s = .ok (s', c) → Trace step s' l →
      Trace step s ((s', c) :: l)

/-- The loop stops at the first iteration that passes the test, or after `n` iterations. -/
theorem iterate_spec {S : Type} (step : S → Except PyErr (S × Bool)) (n : Nat) (s t : S) (c : Bool) (k : Nat)
    (h : iterate step n s = .ok (t, c, k)) :
    ∃ l, Trace step s l ∧ l.length = k ∧ k ≤ n ∧ (∀ p ∈ l.dropLast, p.2 = false) ∧
      (l = [] → t = s) ∧ (∀ p, l.getLast? = some p → p = (t, c)) ∧
      (c = false → k = n) ∧ (k = 0 → c = false) := by
  induction n generalizing s t c k with
  | zero =>
    simp only [iterate, Except.ok.injEq, Prod.mk.injEq] at h
    obtain ⟨rfl, rfl, rfl⟩ := h
    exact ⟨[], .nil _, rfl, le_refl _, by simp, by simp, by simp, by simp, by simp⟩
  | succ n ih =>
    simp only [iterate, bind, Except.bind, pure, Except.pure] at h
    cases hs : step s with
    | error e => rw [hs] at h; simp at h
    | ok p =>
      obtain ⟨s', c'⟩ := p
      rw [hs] at h
      simp only at h
      cases c' with
      | true =>
        simp only [if_true, Except.ok.injEq, Prod.mk.injEq] at h
        obtain ⟨rfl, rfl, rfl⟩ := h
        exact ⟨[(s', true)], .cons hs (.nil _), rfl, by omega, by simp, by simp, by simp, by simp, by simp⟩
      | false =>
        simp only [Bool.false_eq_true, if_false] at h
        cases hi : iterate step n s' with
        | error e => rw [hi] at h; simp at h
        | ok q =>
          obtain ⟨t', c'', k'⟩ := q
          rw [hi] at h
          simp only [Except.ok.injEq, Prod.mk.injEq] at h
          obtain ⟨rfl, rfl, rfl⟩ := h
          obtain ⟨l, h1, h2, h3, h4, h5, h6, h7, h8⟩ := ih s' t' c'' k' hi
          refine ⟨(s', false) :: l, .cons hs h1, by simp [h2], by omega, ?_, by simp, ?_, ?_, by simp⟩
          · cases l with
            | nil => simp
            | cons x l =>
              intro p hp
              rw [List.dropLast_cons_cons, List.mem_cons] at hp
              rcases hp with rfl | hp
              · rfl
              · exact h4 p hp
          · intro p hp
            cases l with
            | nil =>
              simp only [List.getLast?_singleton, Option.some.injEq] at hp
              subst hp
              simp only [List.length_nil] at h2
              rw [h5 rfl, h8 h2.symm]
            | cons x l =>
              rw [List.getLast?_cons_cons] at hp
              exact h6 p hp
          · intro hc; rw [h7 hc]

section
variable {A V D R : Type} [AddGroup R] [LinearOrder R] [Sub V]

/-- One iteration from the amplitudes `a` with energy `e` to `a'` with energy `e'`: `a'` is what the damping
makes of the updated amplitudes, `e'` its energy, `dt` and `de` the changes. -/
def IsIteration (env : KernelEnv A V D R) (a : A) (e : R) (d : D) (a' : A) (e' : R) (d' : D) (de dt : R) : Prop :=
  ∃ u w v v0, env.updateAmps a = .ok u ∧ env.toVector u = .ok w ∧ env.damp d w = .ok (v, d') ∧
    env.ofVector v = .ok a' ∧ env.toVector a = .ok v0 ∧ env.normInf (v - v0) = .ok dt ∧
    env.energy a' = .ok e' ∧ de = |e - e'|

theorem kernelStep_spec (env : KernelEnv A V D R) (s t : KernelVars A D R) (c : Bool)
    (h : kernelStep env s = .ok (t, c)) :
    ∃ de dt, IsIteration env s.amps s.eCC s.damping t.amps t.eCC t.damping de dt ∧
      (c = true ↔ de < env.eTol ∧ dt < env.tTol) := by
  simp only [kernelStep, bind, Except.bind, pure, Except.pure] at h
  cases h1 : env.updateAmps s.amps with
  | error x => simp [h1] at h
  | ok u =>
    simp only [h1] at h
    cases h2 : env.toVector u with
    | error x => simp [h2] at h
    | ok w =>
      simp only [h2] at h
      cases h3 : env.damp s.damping w with
      | error x => simp [h3] at h
      | ok p =>
        obtain ⟨v, d'⟩ := p
        simp only [h3] at h
        cases h4 : env.ofVector v with
        | error x => simp [h4] at h
        | ok a' =>
          simp only [h4] at h
          cases h5 : env.toVector s.amps with
          | error x => simp [h5] at h
          | ok v0 =>
            simp only [h5] at h
            cases h6 : env.normInf (v - v0) with
            | error x => simp [h6] at h
            | ok dt =>
              simp only [h6] at h
              cases h7 : env.energy a' with
              | error x => simp [h7] at h
              | ok e' =>
                simp only [h7, Except.ok.injEq, Prod.mk.injEq] at h
                obtain ⟨rfl, rfl⟩ := h
                exact ⟨_, dt, ⟨u, w, v, v0, h1, h2, h3, h4, h5, h6, h7, rfl⟩, by simp⟩

theorem trace_energy (env : KernelEnv A V D R) (s : KernelVars A D R) (l : List (KernelVars A D R × Bool))
    (h : Trace (kernelStep env) s l) (p : KernelVars A D R × Bool) (hp : l.getLast? = some p) :
    ∃ s0 de dt, IsIteration env s0.amps s0.eCC s0.damping p.1.amps p.1.eCC p.1.damping de dt ∧
      env.energy p.1.amps = .ok p.1.eCC ∧ (p.2 = true ↔ de < env.eTol ∧ dt < env.tTol) ∧
      ((∃ q ∈ l, q.1 = s0) ∨ s0 = s) := by
  induction h with
  | nil s => simp at hp
  | @cons s s' c l hs ht ih =>
    cases l with
    | nil =>
      simp only [List.getLast?_singleton, Option.some.injEq] at hp
      subst hp
      obtain ⟨de, dt, h1, h2⟩ := kernelStep_spec env s s' c hs
      refine ⟨s, de, dt, h1, ?_, h2, .inr rfl⟩
      obtain ⟨u, w, v, v0, _, _, _, _, _, _, he, _⟩ := h1
      exact he
    | cons x l =>
      rw [List.getLast?_cons_cons] at hp
      obtain ⟨s0, de, dt, h1, h2, h3, h4⟩ := ih hp
      refine ⟨s0, de, dt, h1, h2, h3, ?_⟩
      rcases h4 with ⟨q, hq, rfl⟩ | rfl
      · exact .inl ⟨q, List.mem_cons_of_mem _ hq, rfl⟩
      · exact .inl ⟨(s0, c), List.mem_cons_self, rfl⟩

/-- The initial amplitudes: those stored in the object if there are any. -/
def initialAmps (env : KernelEnv A V D R) (st : CCState A R) : Except PyErr A :=
  match st.amplitudes with
  | some a => .ok a
  | none => env.initAmps

/-- Closed form of the kernel for methods that iterate. -/
theorem kernel_iter (env : KernelEnv A V D R) (h1 : env.oneShot = false) (st st' : CCState A R) (e : R) (n : Nat)
    (h : kernel env st = .ok (e, st', n)) :
    ∃ a0 e0 s c, initialAmps env st = .ok a0 ∧ env.energy a0 = .ok e0 ∧
      iterate (kernelStep env) env.maxIter ⟨a0, e0, env.damping⟩ = .ok (s, c, n) ∧
      st' = ⟨some s.amps, some e, c⟩ ∧
      (env.perturbative = false → e = s.eCC) ∧
      (env.perturbative = true → ∃ ep, env.energyPert s.amps = .ok ep ∧ e = s.eCC + ep) := by
  simp only [kernel, bind, Except.bind, pure, Except.pure, h1, Bool.not_false, if_true] at h
  rw [show ifEmpty st.amplitudes env.initAmps = initialAmps env st from rfl] at h
  cases hi : initialAmps env st with
  | error x => simp [hi] at h
  | ok a0 =>
    simp only [hi] at h
    cases he : env.energy a0 with
    | error x => simp [he] at h
    | ok e0 =>
      simp only [he] at h
      cases hit : iterate (kernelStep env) env.maxIter ⟨a0, e0, env.damping⟩ with
      | error x => simp [hit] at h
      | ok r =>
        obtain ⟨s, c, k⟩ := r
        simp only [hit] at h
        cases hp : env.perturbative with
        | false =>
          simp only [hp, Bool.false_eq_true, if_false, Except.ok.injEq, Prod.mk.injEq] at h
          obtain ⟨rfl, rfl, rfl⟩ := h
          exact ⟨a0, e0, s, c, rfl, he, hit, rfl, fun _ => rfl, by simp⟩
        | true =>
          simp only [hp, if_true] at h
          cases hep : env.energyPert s.amps with
          | error x => simp [hep] at h
          | ok ep =>
            simp only [hep, Except.ok.injEq, Prod.mk.injEq] at h
            obtain ⟨rfl, rfl, rfl⟩ := h
            exact ⟨a0, e0, s, c, rfl, he, hit, rfl, by simp, fun _ => ⟨ep, hep, rfl⟩⟩

/-- Converged is reported only if the last iteration changed energy and amplitudes by less than the
tolerances, and the stored energy is that of the stored amplitudes (plus the perturbative correction). -/
theorem C30_converged (env : KernelEnv A V D R) (h1 : env.oneShot = false) (st st' : CCState A R) (e : R) (n : Nat)
    (h : kernel env st = .ok (e, st', n)) (hc : st'.converged = true) :
    ∃ a, st'.amplitudes = some a ∧ st'.eCorr = some e ∧ n ≠ 0 ∧
      (∃ aPrev ePrev dPrev d' e' de dt, IsIteration env aPrev ePrev dPrev a e' d' de dt ∧
        de < env.eTol ∧ dt < env.tTol ∧ env.energy a = .ok e' ∧
        (env.perturbative = false → e = e') ∧
        (env.perturbative = true → ∃ ep, env.energyPert a = .ok ep ∧ e = e' + ep)) := by
  obtain ⟨a0, e0, s, c, _, _, h4, rfl, h6, h7⟩ := kernel_iter env h1 st st' e n h
  simp only at hc
  subst hc
  obtain ⟨l, t1, t2, t3, t4, t5, t6, t7, t8⟩ := iterate_spec _ _ _ _ _ _ h4
  have hn : n ≠ 0 := fun h0 => by simpa using t8 h0
  have hl : l ≠ [] := by rintro rfl; exact hn t2.symm
  obtain ⟨p, hp⟩ : ∃ p, l.getLast? = some p := ⟨_, List.getLast?_eq_some_getLast hl⟩
  have := t6 p hp
  subst this
  obtain ⟨s0, de, dt, i1, i2, i3, _⟩ := trace_energy env _ l t1 _ hp
  obtain ⟨hde, hdt⟩ := i3.1 rfl
  exact ⟨s.amps, rfl, rfl, hn, _, _, _, _, _, de, dt, i1, hde, hdt, i2, h6, h7⟩

/-- At most `max_iter` updates are made; if convergence is not reported exactly `max_iter` were made and
none of them passed the test; if it is, only the last did. -/
theorem C30_iterations (env : KernelEnv A V D R) (h1 : env.oneShot = false) (st st' : CCState A R) (e : R) (n : Nat)
    (h : kernel env st = .ok (e, st', n)) :
    n ≤ env.maxIter ∧ ∃ a0 e0 l, initialAmps env st = .ok a0 ∧ env.energy a0 = .ok e0 ∧
      Trace (kernelStep env) ⟨a0, e0, env.damping⟩ l ∧ l.length = n ∧
      (∀ p ∈ l.dropLast, p.2 = false) ∧
      (st'.converged = false → n = env.maxIter ∧ ∀ p ∈ l, p.2 = false) ∧
      (n = 0 → st'.amplitudes = some a0 ∧ (env.perturbative = false → e = e0)) := by
  obtain ⟨a0, e0, s, c, h2, h3, h4, rfl, h6, h7⟩ := kernel_iter env h1 st st' e n h
  obtain ⟨l, t1, t2, t3, t4, t5, t6, t7, t8⟩ := iterate_spec _ _ _ _ _ _ h4
  refine ⟨t3, a0, e0, l, h2, h3, t1, t2, t4, ?_, ?_⟩
  · intro hc
    simp only at hc
    subst hc
    refine ⟨t7 rfl, fun p hp => ?_⟩
    rcases List.eq_nil_or_concat l with rfl | ⟨l', q, rfl⟩
    · simp at hp
    · rw [List.concat_eq_append] at *
      rw [List.mem_append, List.mem_singleton] at hp
      rcases hp with hp | rfl
      · exact t4 p (by simpa using hp)
      · rw [t6 p (by simp)]
  · intro hn
    have hl : l = [] := List.length_eq_zero_iff.1 (t2.trans hn)
    have := t5 hl
    subst this
    exact ⟨rfl, h6⟩

/-- One-shot methods make no update, keep the initial amplitudes, and report convergence. -/
theorem C30_one_shot (env : KernelEnv A V D R) (h1 : env.oneShot = true) (st st' : CCState A R) (e : R) (n : Nat)
    (h : kernel env st = .ok (e, st', n)) :
    n = 0 ∧ ∃ a0, initialAmps env st = .ok a0 ∧ env.energy a0 = .ok e ∧ st' = ⟨some a0, some e, true⟩ := by
  simp only [kernel, bind, Except.bind, pure, Except.pure, h1, Bool.not_true] at h
  rw [show ifEmpty st.amplitudes env.initAmps = initialAmps env st from rfl] at h
  cases hi : initialAmps env st with
  | error x => simp [hi] at h
  | ok a0 =>
    simp only [hi] at h
    cases he : env.energy a0 with
    | error x => simp [he] at h
    | ok e0 =>
      simp only [he, Bool.false_eq_true, if_false, Except.ok.injEq, Prod.mk.injEq] at h
      obtain ⟨rfl, rfl, rfl⟩ := h
      exact ⟨rfl, a0, rfl, he, rfl⟩

/-- The kernel does report convergence as soon as an iteration passes the test: if the first `k` iterations
from the initial amplitudes succeed, `k ≤ max_iter`, only the last passes, and nothing else raises, the kernel
returns that state. -/
theorem C30_stops (env : KernelEnv A V D R) (h1 : env.oneShot = false) (hp : env.perturbative = false)
    (st : CCState A R) (a0 : A) (e0 : R) (h2 : initialAmps env st = .ok a0) (h3 : env.energy a0 = .ok e0)
    (l : List (KernelVars A D R × Bool)) (t : KernelVars A D R)
    (hl : Trace (kernelStep env) ⟨a0, e0, env.damping⟩ (l ++ [(t, true)])) (hf : ∀ p ∈ l, p.2 = false)
    (hn : l.length + 1 ≤ env.maxIter) :
    kernel env st = .ok (t.eCC, ⟨some t.amps, some t.eCC, true⟩, l.length + 1) := by
  have key : ∀ (n : Nat) (s : KernelVars A D R), l.length + 1 ≤ n →
      Trace (kernelStep env) s (l ++ [(t, true)]) →
      iterate (kernelStep env) n s = .ok (t, true, l.length + 1) := by
    clear hl hn
    induction l with
    | nil =>
      intro n s hn ht
      cases ht with
      | cons hs _ =>
        cases n with
        | zero => simp at hn
        | succ n => simp [iterate, hs, bind, Except.bind, pure, Except.pure]
    | cons p l ih =>
      intro n s hn ht
      cases n with
      | zero => simp at hn
      | succ n =>
        cases ht with
        | cons hs ht =>
          have hc := hf _ List.mem_cons_self
          simp only at hc
          subst hc
          simp only [iterate, hs, bind, Except.bind, pure, Except.pure, Bool.false_eq_true, if_false]
          rw [ih (fun p hp => hf p (List.mem_cons_of_mem _ hp)) n _ (by simpa using hn) ht]
          rfl
  have hit := key env.maxIter _ hn hl
  simp only [kernel, bind, Except.bind, pure, Except.pure, h1, Bool.not_false, if_true]
  rw [show ifEmpty st.amplitudes env.initAmps = initialAmps env st from rfl]
  simp only [h2, h3, hit, hp, Bool.false_eq_true, if_false]

end

section
variable {A V R : Type} [Field R] [LinearOrder R] [IsStrictOrderedRing R] [AddCommGroup V] [Module R V]

/-- A consequence of C28: with DIIS and `diis_min_space` at least two (or `diis_space = 1`) the kernel always
reports convergence after two iterations, whatever the update map: the second vector returned by DIIS is the
first one again.  The test compares damped vectors, so convergence is not a statement about the update map. -/
theorem C30_spurious_convergence (dot : V → V → R) (hdot : ∀ x y, dot x y = dot y x)
    (solve : List (List R) → List R → List R) (cfg : DIISConfig R) (hmin : 1 ≤ cfg.minSpace)
    (hspace : 1 ≤ cfg.space) (hcfg : 2 ≤ cfg.minSpace ∨ cfg.space = 1)
    (env : KernelEnv A V (DIIS V R) R) (hd : env.damping = DIIS.init)
    (hdamp : ∀ s v, env.damp s v = DIIS.call dot solve cfg s v none)
    (h1 : env.oneShot = false) (hp : env.perturbative = false) (hn : 2 ≤ env.maxIter)
    (upd : A → A) (vec : A → V) (unvec : V → A) (en : A → R)
    (hupd : ∀ a, env.updateAmps a = .ok (upd a)) (hvec : ∀ a, env.toVector a = .ok (vec a))
    (hunvec : ∀ v, env.ofVector v = .ok (unvec v)) (hrt' : ∀ a, unvec (vec a) = a)
    (hen : ∀ a, env.energy a = .ok (en a)) (norm : V → R) (hnorm : ∀ v, env.normInf v = .ok (norm v))
    (h0 : norm 0 = 0) (he : 0 < env.eTol) (ht : 0 < env.tTol)
    (st : CCState A R) (a0 : A) (ha0 : st.amplitudes = some a0) :
    ∃ n, n ≤ 2 ∧ kernel env st = .ok (en (upd a0), ⟨some (upd a0), some (en (upd a0)), true⟩, n) := by
  -- the two calls of DIIS
  have c1 := first_call dot solve cfg hmin (vec (upd a0)) none
  obtain ⟨s2, c2⟩ := C28_stuck_at_first dot hdot solve cfg hmin hspace (vec (upd a0)) none
    [(vec (upd (upd a0)), none)] (hcfg.imp (fun h => by simp; omega) id)
  rw [List.map_cons, List.map_cons, List.map_nil, DIIS.run, c1] at c2
  simp only [bind, Except.bind] at c2
  rw [DIIS.run] at c2
  cases hc : DIIS.call dot solve cfg (⟨[(-1, vec (upd a0))], [], 0, []⟩ : DIIS V R) (vec (upd (upd a0))) none with
  | error x => rw [hc] at c2; simp [bind, Except.bind] at c2
  | ok q =>
    obtain ⟨v, s3⟩ := q
    rw [hc] at c2
    simp only [bind, Except.bind, DIIS.run, pure, Except.pure, List.length_cons, List.length_nil,
      Except.ok.injEq, Prod.mk.injEq] at c2
    obtain ⟨c2, rfl⟩ := c2
    have hv : v = vec (upd a0) := by simpa [List.replicate] using c2
    subst hv
    have hi : initialAmps env st = .ok a0 := by simp [initialAmps, ha0]
    have s1 : kernelStep env ⟨a0, en a0, env.damping⟩ = .ok
        ((⟨upd a0, en (upd a0), ⟨[(-1, vec (upd a0))], [], 0, []⟩⟩ : KernelVars A (DIIS V R) R),
          decide (|en a0 - en (upd a0)| < env.eTol) && decide (norm (vec (upd a0) - vec a0) < env.tTol)) := by
      simp only [kernelStep, bind, Except.bind, pure, Except.pure, hupd, hvec, hdamp, hd, c1, hunvec, hrt', hnorm,
        hen]
    have s2' : kernelStep env (⟨upd a0, en (upd a0), ⟨[(-1, vec (upd a0))], [], 0, []⟩⟩ :
        KernelVars A (DIIS V R) R) = .ok
        ((⟨upd a0, en (upd a0), s3⟩ : KernelVars A (DIIS V R) R), true) := by
      simp only [kernelStep, bind, Except.bind, pure, Except.pure, hupd, hvec, hdamp, hc, hunvec, hrt', hnorm,
        hen, sub_self, h0, abs_zero, he, ht, decide_true, Bool.and_self]
    cases hb : decide (|en a0 - en (upd a0)| < env.eTol) && decide (norm (vec (upd a0) - vec a0) < env.tTol) with
    | true =>
      rw [hb] at s1
      exact ⟨1, by omega, C30_stops env h1 hp st a0 (en a0) hi (hen a0) [] _ (.cons s1 (.nil _)) (by simp)
        (by simp; omega)⟩
    | false =>
      rw [hb] at s1
      exact ⟨2, by omega, C30_stops env h1 hp st a0 (en a0) hi (hen a0) [(_, false)] _
        (.cons s1 (.cons s2' (.nil _))) (by simp) (by simp; omega)⟩

end

/-- A toy problem: the update map halves the distance to 1; no damping. -/
def toyEnv (maxIter : Nat) : KernelEnv Rat Rat Unit Rat where
  initAmps := .ok 0
  updateAmps a := .ok ((a + 1) / 2)
  toVector a := .ok a
  ofVector a := .ok a
  energy a := .ok (2 * a)
  energyPert _ := .ok 0
  damping := ()
  damp _ v := .ok (v, ())
  normInf v := .ok |v|
  oneShot := false
  perturbative := false
  eTol := 1/4
  tTol := 1/4
  maxIter := maxIter

/-- It converges after four iterations; with only three it reports failure. -/
example : kernel (toyEnv 10) ⟨none, none, false⟩ = .ok (15/8, ⟨some (15/16), some (15/8), true⟩, 4) := by
  decide +kernel

example : kernel (toyEnv 3) ⟨none, none, false⟩ = .ok (7/4, ⟨some (7/8), some (7/4), false⟩, 3) := by
  decide +kernel

end Ebcc
