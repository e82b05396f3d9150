import Verif.Thms.C50
import Verif.Thms.C32
import Mathlib.Algebra.Module.LinearMap.Defs
import Mathlib.Algebra.Module.Pi
import Mathlib.Tactic.FinCases
import Mathlib.Tactic.Ring
/-!
C52: the convergence flags of the Davidson solver.  A flag guarantees that the residual of the returned root is below
the loose tolerance (`C52_residual`), and that the eigenvalue changed little unless the trial vectors were exhausted
(`C52_change_partial`); in that case the change is not considered (`C52_change_fails`).
-/

namespace Ebcc

section
variable {K : Type} [Field K] [StarRing K] {d : Nat}

omit [StarRing K] in
theorem linear_sum {A : DVec K d → DVec K d} (hA : IsLinearMap K A) (c : Nat → K) (basis : List (DVec K d))
    (l : List Nat) (hl : ∀ x ∈ l, x < basis.length) :
    A (fun j => (l.map fun x => c x * basis.getD x 0 j).sum)
      = fun j => (l.map fun x => c x * (basis.map A).getD x 0 j).sum := by
  induction l with
  | nil =>
    have : (fun _ : Fin d => ((0 : K))) = 0 := rfl
    simp only [List.map_nil, List.sum_nil]
    rw [this, hA.map_zero]
  | cons x l ih =>
    have hx := hl x List.mem_cons_self
    have e : (fun j => ((x :: l).map fun x => c x * basis.getD x 0 j).sum)
        = c x • basis.getD x 0 + fun j => (l.map fun x => c x * basis.getD x 0 j).sum := by
      funext j
      simp
    rw [e, hA.map_add, hA.map_smul, ih fun y hy => hl y (List.mem_cons_of_mem _ hy)]
    funext j
    rw [getD_eq_get hx]
    simp only [List.map_cons, List.sum_cons, Pi.add_apply, Pi.smul_apply, smul_eq_mul]
    rw [getD_eq_get (show x < (basis.map A).length by simpa using hx), List.getElem_map]

omit [StarRing K] in
theorem outerProduct_linear {A : DVec K d → DVec K d} (hA : IsLinearMap K A) {rows : Nat} {v : List (Nat → K)}
    {basis o mo : List (DVec K d)} (h : outerProduct rows v basis = .ok o)
    (hm : outerProduct rows v (basis.map A) = .ok mo) : mo = o.map A := by
  unfold outerProduct at h hm
  by_cases hr : rows = basis.length
  · rw [if_pos hr] at h
    rw [if_pos (by simpa using hr)] at hm
    cases h
    cases hm
    rw [List.map_map]
    refine List.map_congr_left fun c _ => ?_
    exact (linear_sum hA c basis _ fun x hx => by rw [List.mem_range] at hx; omega).symm
  · rw [if_neg hr] at h
    cases h

/-- The eigensolver gives as many eigenvectors as eigenvalues. -/
def Matched (env : DavEnv K d) : Prop := ∀ m n b, (env.solve m n b).1.length = (env.solve m n b).2.length

/-- The flags, values and vectors of an iteration. -/
theorem solved_root {env : DavEnv K d} (hA : IsLinearMap K env.matvec) (hm : Matched env) {N nroots maxTrials : Nat}
    {st s : DavState K d} (hc : DavCore env N st) (h : davSolve env nroots maxTrials st = .ok s) :
    s.vectors.length = s.w.length ∧ s.norms.length = s.w.length ∧ s.conv.length = s.w.length ∧
    ∀ k (hw : k < s.w.length) (hv : k < s.vectors.length) (hn : k < s.norms.length),
      s.norms[k] = env.norm (env.matvec s.vectors[k] - s.w[k] • s.vectors[k]) := by
  have hcs := davSolve_core hc h
  obtain ⟨b, mb, sp, t, wPrev, mv, hs⟩ := davSolve_ok h
  have hmv : mv = s.vectors.map env.matvec := by
    have := hs.mvectors
    rw [hcs.prods] at this
    exact outerProduct_linear hA hs.vectors this
  have hvl : s.vectors.length = s.w.length := by
    rw [(outerProduct_length hs.vectors).1, hs.v, hs.w, List.length_take, List.length_take, hm]
  have hnl : s.norms.length = s.w.length := by
    rw [hs.norms, hs.residual, hmv]
    simp [hvl]
  refine ⟨hvl, hnl, by rw [hs.conv]; simp, ?_⟩
  intro k hw hv hn
  have hr := hs.residual
  have : s.norms[k]? = some (env.norm (env.matvec s.vectors[k] - s.w[k] • s.vectors[k])) := by
    rw [hs.norms, hr, hmv, List.getElem?_map, List.getElem?_map, List.getElem?_zip_eq_some.2
      (show s.w[k]? = some (s.w[k], (env.matvec s.vectors[k], s.vectors[k])).1 ∧
        (List.zip (s.vectors.map env.matvec) s.vectors)[k]? = some (s.w[k], (env.matvec s.vectors[k], s.vectors[k])).2 from
        ⟨List.getElem?_eq_getElem hw, List.getElem?_zip_eq_some.2 ⟨by
          rw [List.getElem?_map, List.getElem?_eq_getElem hv]; rfl, List.getElem?_eq_getElem hv⟩⟩)]
    rfl
  rw [List.getElem?_eq_getElem hn] at this
  exact Option.some.inj this

theorem sortEigenvalues_mem {env : DavEnv K d} {wPrev : List K} {head : Nat} {vPrev v : List (Nat → K)} {out : List K}
    (h : sortEigenvalues env wPrev head vPrev v = .ok out) : ∀ x ∈ out, x ∈ wPrev := by
  unfold sortEigenvalues at h
  induction v generalizing out with
  | nil =>
    simp only [List.mapM_nil, pure, Except.pure] at h
    cases h
    intro x hx
    cases hx
  | cons c v ih =>
    simp only [List.mapM_cons, bind, Except.bind, pure, Except.pure] at h
    split at h
    · cases h
    · rename_i y hy
      split at h
      · cases h
      · rename_i ys hys
        cases h
        intro x hx
        rcases List.mem_cons.1 hx with rfl | hx
        · split at hy
          · cases hy
          · split at hy
            · cases hy
            · rename_i z hz
              cases hy
              exact List.mem_of_getElem? hz
        · exact ih hys x hx

/-- What a flag means after one iteration. -/
theorem davStep_flag {env : DavEnv K d} (hA : IsLinearMap K env.matvec) (hm : Matched env)
    {N nroots maxSpace maxTrials : Nat} {follow : Bool} {shift : K} {st s : DavState K d} {stop : Bool}
    (hc : DavCore env N st) (hnofollow : ∀ s', davSolve env nroots maxTrials st = .ok s' → s'.space > nroots + 4 →
      outerProduct st.rows st.v s'.basis = .error .valueError)
    (h : davStep env nroots maxSpace maxTrials follow shift st = .ok (s, stop)) :
    s.vectors.length = s.w.length ∧ s.conv.length = s.w.length ∧
    ∀ k (hk : k < s.conv.length) (hw : k < s.w.length) (hv : k < s.vectors.length), s.conv[k] = true →
      env.below (env.norm (env.matvec s.vectors[k] - s.w[k] • s.vectors[k])) = true ∧
      ((∃ w' ∈ st.w, env.steady (s.w[k] - w') = true) ∨ (st.w.length ≠ s.w.length ∧ env.steady s.w[k] = true) ∨
        (stop = true ∧ s.trial = [])) := by
  unfold davStep at h
  simp only [bind, Except.bind, pure, Except.pure] at h
  cases h1 : davSolve env nroots maxTrials st with
  | error e => rw [h1] at h; cases h
  | ok s' =>
    rw [h1] at h
    simp only at h
    obtain ⟨hvl, hnl, hcl, hroot⟩ := solved_root hA hm hc h1
    obtain ⟨b, mb, sp, t, wPrev, mv, hs⟩ := davSolve_ok h1
    have hflag : ∀ k (hk : k < s'.conv.length) (hw : k < s'.w.length) (hn : k < s'.norms.length), s'.conv[k] = true →
        env.below s'.norms[k] = true ∧
        ((∃ w' ∈ st.w, env.steady (s'.w[k] - w') = true) ∨ (st.w.length ≠ s'.w.length ∧ env.steady s'.w[k] = true)) := by
      intro k hk hw hn hck
      have : s'.conv[k] = (env.steady (s'.dw.getD k 0) && env.below (s'.norms.getD k 0)) := by
        have e := hs.conv
        have : s'.conv[k]? = some (env.steady (s'.dw.getD k 0) && env.below (s'.norms.getD k 0)) := by
          rw [e, List.getElem?_map, List.getElem?_range hw]
          rfl
        rw [List.getElem?_eq_getElem hk] at this
        exact Option.some.inj this
      rw [this, Bool.and_eq_true, getD_eq_get hn] at hck
      refine ⟨hck.2, ?_⟩
      have h2 := hck.1
      rw [hs.dw] at h2
      split at h2
      · rename_i hl
        left
        have hk' : k < wPrev.length := by omega
        refine ⟨wPrev[k], ?_, ?_⟩
        · have hp := hs.prev
          unfold prevValues at hp
          split at hp
          · cases hp; exact List.getElem_mem _
          · exact sortEigenvalues_mem hp _ (List.getElem_mem _)
        · rwa [getD_eq_get (by simp; omega), List.getElem_zipWith] at h2
      · rename_i hl
        rw [getD_eq_get hw] at h2
        have hp := hs.prev
        unfold prevValues at hp
        split at hp
        · cases hp; exact Or.inr ⟨hl, h2⟩
        · exfalso
          apply hl
          unfold sortEigenvalues at hp
          have := mapM_length hp
          rw [this, hs.v, hs.w, List.length_take, List.length_take, hm]
    have hkeep : s'.vectors.length = s'.w.length ∧ s'.conv.length = s'.w.length ∧
        ∀ k (hk : k < s'.conv.length) (hw : k < s'.w.length) (hv : k < s'.vectors.length), s'.conv[k] = true →
        env.below (env.norm (env.matvec s'.vectors[k] - s'.w[k] • s'.vectors[k])) = true ∧
        ((∃ w' ∈ st.w, env.steady (s'.w[k] - w') = true) ∨
          (st.w.length ≠ s'.w.length ∧ env.steady s'.w[k] = true)) := by
      refine ⟨hvl, hcl, fun k hk hw hv hck => ?_⟩
      have hn : k < s'.norms.length := by omega
      rw [← hroot k hw hv hn]
      exact hflag k hk hw hn hck
    split at h
    · cases h
      refine ⟨hkeep.1, hkeep.2.1, fun k hk hw hv hck => ?_⟩
      obtain ⟨a, b | b⟩ := hkeep.2.2 k hk hw hv hck
      · exact ⟨a, Or.inl b⟩
      · exact ⟨a, Or.inr (Or.inl b)⟩
    · split at h
      · rename_i hf
        simp only [Bool.and_eq_true, decide_eq_true_eq] at hf
        rw [hnofollow s' h1 hf.2] at h
        cases h
      · split at h
        · rename_i ht
          cases h
          have hlen : ((s'.conv.zip s'.norms).map fun cn => cn.1 || env.below cn.2).length = s'.w.length := by
            simp [hcl, hnl]
          refine ⟨hvl, hlen, fun k hk hw hv hck => ⟨?_, Or.inr (Or.inr ⟨rfl, ht⟩)⟩⟩
          simp only at hk hw hv hck ⊢
          have hn : k < s'.norms.length := by omega
          have hk' : k < s'.conv.length := by omega
          rw [← hroot k hw hv hn]
          rw [List.getElem_map, List.getElem_zip, Bool.or_eq_true] at hck
          rcases hck with hck | hck
          · exact (hflag k hk' hw hn hck).1
          · exact hck
        · cases h
          refine ⟨hkeep.1, hkeep.2.1, fun k hk hw hv hck => ?_⟩
          obtain ⟨a, b | b⟩ := hkeep.2.2 k hk hw hv hck
          · exact ⟨a, Or.inl b⟩
          · exact ⟨a, Or.inr (Or.inl b)⟩

/-- The last iteration of a loop. -/
theorem davLoop_last {env : DavEnv K d} {nroots maxSpace maxTrials : Nat} {follow : Bool} {shift : K} (n : Nat)
    {st0 s : DavState K d} {stop : Bool}
    (h : davLoop env nroots maxSpace maxTrials follow shift n st0 = .ok (s, stop)) :
    s = st0 ∨ ∃ m st stop', davLoop env nroots maxSpace maxTrials follow shift m st0 = .ok (st, false) ∧
      davStep env nroots maxSpace maxTrials follow shift st = .ok (s, stop') := by
  induction n generalizing st0 with
  | zero => cases h; exact Or.inl rfl
  | succ n ih =>
    rw [davLoop] at h
    simp only [bind, Except.bind, pure, Except.pure] at h
    cases h1 : davStep env nroots maxSpace maxTrials follow shift st0 with
    | error e => rw [h1] at h; cases h
    | ok r =>
      obtain ⟨s', stop'⟩ := r
      rw [h1] at h
      cases stop' with
      | true => cases h; exact Or.inr ⟨0, st0, true, rfl, h1⟩
      | false =>
        rcases ih h with rfl | ⟨m, st, stop'', h2, h3⟩
        · exact Or.inr ⟨0, st0, false, rfl, h1⟩
        · refine Or.inr ⟨m + 1, st, stop'', ?_, h3⟩
          rw [davLoop]
          simp only [bind, Except.bind, h1]
          exact h2

/-- A state that is reached is one on which following never works. -/
theorem reached {env : DavEnv K d} {nroots maxSpace maxTrials : Nat} {follow : Bool} {shift : K} {junk : List Nat → K}
    {guess : List (DVec K d)} {n : Nat} {st : DavState K d}
    (h : davLoop env nroots maxSpace maxTrials follow shift n (davInit nroots maxSpace junk guess) = .ok (st, false)) :
    DavCore env (maxSpace + nroots) st ∧ ∀ s', davSolve env nroots maxTrials st = .ok s' → s'.space > nroots + 4 →
      outerProduct st.rows st.v s'.basis = .error .valueError := by
  have hi := davInit_core env nroots maxSpace junk guess
  have hc := davLoop_core n hi h
  refine ⟨hc, fun s' hs' hsp => ?_⟩
  by_cases hg : (orthonormaliseLoop env guess).length ≤ maxSpace + nroots
  · exact follow_error hc (davLoop_ready n hi (davInit_ready env nroots maxSpace junk guess hg) h) hs' hsp
  · cases n with
    | zero =>
      cases h
      unfold outerProduct
      have hcs := davSolve_core hc hs'
      have := hcs.space
      rw [if_neg (by simp only [davInit]; omega)]
    | succ n =>
      rw [C50_too_many env nroots maxSpace maxTrials follow shift junk guess (by omega) n] at h
      cases h

/-- In any run of the solver for right eigenvectors, a root that is reported converged has a residual below the loose
tolerance: the operator applied to the returned vector differs by less than that from the returned eigenvalue times
the vector. -/
theorem C52_residual (env : DavEnv K d) (hA : IsLinearMap K env.matvec) (hm : Matched env)
    (nroots maxIter maxSpace maxTrials : Nat) (follow : Bool) (shift : K) (junk : List Nat → K)
    (guess : List (DVec K d)) (conv : List Bool) (w : List K) (vectors : List (DVec K d))
    (h : davidson env nroots maxIter maxSpace maxTrials follow false shift junk guess = .ok (conv, w, vectors))
    (k : Nat) (hk : k < conv.length) (hck : conv[k] = true) :
    ∃ (hw : k < w.length) (hv : k < vectors.length),
      env.below (env.norm (env.matvec vectors[k] - w[k] • vectors[k])) = true := by
  unfold davidson at h
  simp only [bind, Except.bind, pure, Except.pure] at h
  split at h
  · cases h
  · rename_i r hr
    obtain ⟨s, stop⟩ := r
    simp only [Bool.false_eq_true, if_false] at h
    cases h
    rcases davLoop_last _ hr with rfl | ⟨m, st, stop', h1, h2⟩
    · simp [davInit] at hck
    · obtain ⟨hc, hn⟩ := reached h1
      obtain ⟨hvl, hcl, hf⟩ := davStep_flag hA hm hc hn h2
      exact ⟨by omega, by omega, (hf k hk (by omega) (by omega) hck).1⟩

/-- In the last iteration a flag means in addition that the eigenvalue differs by less than the tolerance from one of
the last iteration (or is itself that small, if the number of roots differs), or that no trial vectors are left.
Missing from the full claim: with no trial vectors left the change is not tested. -/
theorem C52_change_partial (env : DavEnv K d) (hA : IsLinearMap K env.matvec) (hm : Matched env)
    (nroots maxSpace maxTrials : Nat) (follow : Bool) (shift : K) (junk : List Nat → K) (guess : List (DVec K d)) (n : Nat)
    (st s : DavState K d) (stop : Bool)
    (h : davLoop env nroots maxSpace maxTrials follow shift n (davInit nroots maxSpace junk guess) = .ok (st, false))
    (h' : davStep env nroots maxSpace maxTrials follow shift st = .ok (s, stop))
    (k : Nat) (hk : k < s.conv.length) (hw : k < s.w.length) (hck : s.conv[k] = true) :
    (∃ w' ∈ st.w, env.steady (s.w[k] - w') = true) ∨ (st.w.length ≠ s.w.length ∧ env.steady s.w[k] = true) ∨
      (stop = true ∧ s.trial = []) := by
  obtain ⟨hc, hn⟩ := reached h
  obtain ⟨hvl, hcl, hf⟩ := davStep_flag hA hm hc hn h'
  exact (hf k hk hw (by omega) hck).2

end

/-- A symmetric operator on two components, with its exact solutions on the leading blocks. -/
def env52 : DavEnv Rat 2 where
  matvec := fun v => ![v 0 + v 1, v 0 + v 1]
  solve := fun _ _ b => if b.length = 1 then ([1], [fun _ => 1]) else ([2], [fun _ => 1])
  solveLeft := fun _ _ b => if b.length = 1 then ([1], [fun _ => 1]) else ([2], [fun _ => 1])
  precond := fun _ v => v
  norm := fun v => |v 0| + |v 1|
  indep := fun x => decide (0 < x)
  steady := fun x => decide (|x| < 1 / 1000)
  below := fun x => decide (x < 1 / 1000)
  large := fun l => l.any fun x => decide (1 < x)
  absLt := fun x y => decide (|x| < |y|)

/-- The flags, eigenvalues and vectors after at most `n` iterations. -/
def run52 (n : Nat) : Option (List Bool × List Rat × List (DVec Rat 2)) :=
  match davidson env52 1 n 20 40 false false 0 (fun _ => 7) [![1, 0]] with
  | .ok r => some r
  | .error _ => none

/-- The eigenvalue changes from 1 to 2 in the iteration that exhausts the space; the root is reported converged. -/
theorem C52_change_fails : run52 1 = some ([false], [1], [![1, 0]]) ∧ run52 2 = some ([true], [2], [![1, 1]]) := by
  decide +kernel

/-- The hypotheses hold for this operator. -/
example : IsLinearMap Rat env52.matvec ∧ Matched env52 := by
  refine ⟨⟨?_, ?_⟩, ?_⟩
  · intro x y
    funext i
    fin_cases i <;> simp [env52] <;> ring
  · intro c x
    funext i
    fin_cases i <;> simp [env52] <;> ring
  · intro m n b
    simp only [env52]
    split <;> rfl

end Ebcc
