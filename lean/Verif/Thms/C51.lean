import Verif.Thms.C50
import Mathlib.LinearAlgebra.Span.Defs
import Mathlib.Analysis.Real.Sqrt
import Mathlib.Data.Real.Star
import Mathlib.Algebra.BigOperators.Field
import Mathlib.Algebra.Star.BigOperators
/-!
C51: orthonormalisation in the Davidson solver, in exact arithmetic.
-/

namespace Ebcc

section
variable {K : Type} [Field K] [StarRing K] {d : Nat}

/-- Different vectors of the list are orthogonal and each has norm one. -/
def OrthonormalList (l : List (DVec K d)) : Prop :=
  ∀ i j (hi : i < l.length) (hj : j < l.length), ∑ k, star (l[i] k) * l[j] k = if i = j then 1 else 0

/-- The norm is that of the inner product, and only a non-zero norm passes the test of linear dependence. -/
structure ExactNorm (env : DavEnv K d) : Prop where
  sq : ∀ v, env.norm v * env.norm v = ∑ k, star (v k) * v k
  real : ∀ v, star (env.norm v) = env.norm v
  pos : ∀ x, env.indep x = true → x ≠ 0

theorem dotc_sub_mul (a u o : DVec K d) (c : K) : dotc a (fun k => u k - o k * c) = dotc a u - dotc a o * c := by
  unfold dotc
  rw [Finset.sum_mul, ← Finset.sum_sub_distrib]
  refine Finset.sum_congr rfl fun k _ => ?_
  ring

theorem dotc_div (a u : DVec K d) (c : K) : dotc a (fun k => u k / c) = dotc a u / c := by
  unfold dotc
  rw [Finset.sum_div]
  refine Finset.sum_congr rfl fun k _ => ?_
  ring

theorem star_dotc (a b : DVec K d) : star (dotc a b) = dotc b a := by
  unfold dotc
  rw [star_sum]
  refine Finset.sum_congr rfl fun k _ => ?_
  rw [star_mul, star_star]

theorem dotc_comm_zero {a b : DVec K d} (h : dotc a b = 0) : dotc b a = 0 := by
  rw [← star_dotc, h, star_zero]

theorem dotc_div_left (a u : DVec K d) (c : K) : dotc (fun k => u k / c) a = dotc u a / star c := by
  rw [← star_dotc, dotc_div, div_eq_mul_inv, star_mul, star_inv₀, star_dotc, div_eq_mul_inv, mul_comm]

/-- The same by order in the list. -/
def ONPairs (l : List (DVec K d)) : Prop := l.Pairwise (fun a b => dotc a b = 0) ∧ ∀ v ∈ l, dotc v v = 1

theorem onPairs_iff (l : List (DVec K d)) : ONPairs l ↔ OrthonormalList l := by
  constructor
  · rintro ⟨hp, hn⟩ i j hi hj
    rw [List.pairwise_iff_getElem] at hp
    rcases lt_trichotomy i j with h | rfl | h
    · rw [if_neg (by omega)]; exact hp i j hi hj h
    · rw [if_pos rfl]; exact hn _ (List.getElem_mem hi)
    · rw [if_neg (by omega)]; exact dotc_comm_zero (hp j i hj hi h)
  · intro h
    refine ⟨List.pairwise_iff_getElem.2 fun i j hi hj hij => ?_, fun v hv => ?_⟩
    · exact (h i j hi hj).trans (if_neg (by omega))
    · obtain ⟨i, hi, rfl⟩ := List.getElem_of_mem hv
      exact (h i i hi hi).trans (if_pos rfl)

theorem orthogonalise_keep (l : List (DVec K d)) (p u : DVec K d) (hu : dotc p u = 0) (hl : ∀ o ∈ l, dotc p o = 0) :
    dotc p (orthogonalise l u) = 0 := by
  induction l generalizing u with
  | nil => exact hu
  | cons o l ih =>
    rw [orthogonalise, List.foldl_cons]
    refine ih _ ?_ fun o' h => hl o' (List.mem_cons_of_mem _ h)
    rw [dotc_sub_mul, hu, hl o List.mem_cons_self]
    ring

theorem orthogonalise_spec (l : List (DVec K d)) (u : DVec K d) (hl : ONPairs l) :
    ∀ o ∈ l, dotc o (orthogonalise l u) = 0 := by
  induction l generalizing u with
  | nil => intro o h; cases h
  | cons o l ih =>
    obtain ⟨hp, hn⟩ := hl
    rw [List.pairwise_cons] at hp
    intro o' ho'
    rw [orthogonalise, List.foldl_cons]
    rcases List.mem_cons.1 ho' with rfl | h
    · refine orthogonalise_keep l o' _ ?_ hp.1
      rw [dotc_sub_mul, hn o' List.mem_cons_self]
      ring
    · exact ih _ ⟨hp.2, fun v hv => hn v (List.mem_cons_of_mem _ hv)⟩ o' h

theorem orthogonalise_mem (S : Submodule K (DVec K d)) (l : List (DVec K d)) (u : DVec K d) (hu : u ∈ S)
    (hl : ∀ o ∈ l, o ∈ S) : orthogonalise l u ∈ S := by
  induction l generalizing u with
  | nil => exact hu
  | cons o l ih =>
    rw [orthogonalise, List.foldl_cons]
    refine ih _ ?_ fun o' h => hl o' (List.mem_cons_of_mem _ h)
    have : (fun k => u k - o k * dotc o u) = u - (dotc o u) • o := by
      funext k
      simp [mul_comm]
    rw [this]
    exact S.sub_mem hu (S.smul_mem _ (hl o List.mem_cons_self))

theorem normalised {env : DavEnv K d} (he : ExactNorm env) (u : DVec K d) (hu : env.indep (env.norm u) = true) :
    dotc (fun k => u k / env.norm u) (fun k => u k / env.norm u) = 1 := by
  have hne := he.pos _ hu
  rw [dotc_div, dotc_div_left, he.real, div_div, dotc, ← he.sq u]
  exact div_self (mul_ne_zero hne hne)

theorem orthonormaliseLoop_spec {env : DavEnv K d} (he : ExactNorm env) (S : Submodule K (DVec K d))
    (vs : List (DVec K d)) (hS : ∀ v ∈ vs, v ∈ S) :
    ONPairs (orthonormaliseLoop env vs) ∧ ∀ o ∈ orthonormaliseLoop env vs, o ∈ S := by
  unfold orthonormaliseLoop
  suffices ∀ outs : List (DVec K d), ONPairs outs → (∀ o ∈ outs, o ∈ S) →
      ONPairs (vs.foldl (fun outs v =>
        let u := orthogonalise outs v
        if env.indep (env.norm u) then outs ++ [fun k => u k / env.norm u] else outs) outs) ∧
      ∀ o ∈ (vs.foldl (fun outs v =>
        let u := orthogonalise outs v
        if env.indep (env.norm u) then outs ++ [fun k => u k / env.norm u] else outs) outs), o ∈ S from
    this [] ⟨List.Pairwise.nil, fun _ h => by cases h⟩ fun _ h => by cases h
  induction vs with
  | nil => intro outs h1 h2; exact ⟨h1, h2⟩
  | cons v vs ih =>
    intro outs h1 h2
    rw [List.foldl_cons]
    simp only
    split
    · rename_i hi
      refine ih (fun v' h => hS v' (List.mem_cons_of_mem _ h)) _ ⟨?_, ?_⟩ ?_
      · rw [List.pairwise_append]
        refine ⟨h1.1, List.pairwise_singleton _ _, fun a ha b hb => ?_⟩
        rw [List.mem_singleton.1 hb, dotc_div, orthogonalise_spec outs v h1 a ha, zero_div]
      · intro w hw
        rcases List.mem_append.1 hw with h | h
        · exact h1.2 w h
        · rw [List.mem_singleton.1 h]; exact normalised he _ hi
      · intro w hw
        rcases List.mem_append.1 hw with h | h
        · exact h2 w h
        · rw [List.mem_singleton.1 h]
          have : (fun k => orthogonalise outs v k / env.norm (orthogonalise outs v))
              = (env.norm (orthogonalise outs v))⁻¹ • orthogonalise outs v := by
            funext k
            simp [div_eq_mul_inv, mul_comm]
          rw [this]
          exact S.smul_mem _ (orthogonalise_mem S outs v (hS v List.mem_cons_self) h2)
    · exact ih (fun v' h => hS v' (List.mem_cons_of_mem _ h)) _ h1 h2

/-- The orthonormalised vectors are orthonormal, and each is a combination of the given ones. -/
theorem C51_orthonormalise (env : DavEnv K d) (he : ExactNorm env) (vectors out : List (DVec K d))
    (h : orthonormalise env vectors = .ok out) :
    OrthonormalList out ∧ ∀ o ∈ out, o ∈ Submodule.span K {v | v ∈ vectors} := by
  obtain ⟨rfl, -⟩ := npStack_ok h
  obtain ⟨h1, h2⟩ := orthonormaliseLoop_spec he (Submodule.span K {v | v ∈ vectors}) vectors
    fun v hv => Submodule.subset_span hv
  exact ⟨(onPairs_iff _).1 h1, h2⟩

theorem dotc_sub_sum (b v : DVec K d) (basis : List (DVec K d)) (c : DVec K d → K) :
    dotc b (fun j => v j - (basis.map fun b' => c b' * b' j).sum) = dotc b v - (basis.map fun b' => c b' * dotc b b').sum := by
  induction basis with
  | nil => simp
  | cons o l ih =>
    have : (fun j => v j - ((o :: l).map fun b' => c b' * b' j).sum)
        = fun j => (fun j => v j - (l.map fun b' => c b' * b' j).sum) j - o j * c o := by
      funext j
      simp only [List.map_cons, List.sum_cons]
      ring
    rw [this, dotc_sub_mul, ih]
    simp only [List.map_cons, List.sum_cons]
    ring

theorem sum_single_on (l : List (DVec K d)) (hl : ONPairs l) (c : DVec K d → K) (b : DVec K d) (hb : b ∈ l) :
    (l.map fun b' => c b' * dotc b b').sum = c b := by
  induction l with
  | nil => cases hb
  | cons o l ih =>
    obtain ⟨hp, hn⟩ := hl
    rw [List.pairwise_cons] at hp
    rw [List.map_cons, List.sum_cons]
    rcases List.mem_cons.1 hb with rfl | h
    · rw [hn b List.mem_cons_self, show (l.map fun b' => c b' * dotc b b') = l.map fun _ => (0 : K) from
        List.map_congr_left fun b' hb' => by rw [hp.1 b' hb', mul_zero]]
      simp
    · rw [dotc_comm_zero (hp.1 b h), ih ⟨hp.2, fun v hv => hn v (List.mem_cons_of_mem _ hv)⟩ h]
      simp

theorem project_zero (vectors basis : List (DVec K d)) (hb : ONPairs basis) :
    ∀ p ∈ projectVectors vectors basis, ∀ b ∈ basis, dotc b p = 0 := by
  intro p hp b hbm
  unfold projectVectors at hp
  obtain ⟨v, -, rfl⟩ := List.mem_map.1 hp
  rw [dotc_sub_sum b v basis fun b' => ∑ k, v k * star (b' k), sum_single_on basis hb _ b hbm, sub_eq_zero]
  unfold dotc
  exact Finset.sum_congr rfl fun k _ => mul_comm _ _

/-- Projecting removes the components along an orthonormal basis and nothing else. -/
theorem C51_project (vectors basis : List (DVec K d)) (hb : OrthonormalList basis) :
    (projectVectors vectors basis).length = vectors.length ∧
    ∀ i (hi : i < vectors.length) (hi' : i < (projectVectors vectors basis).length),
      (∀ b ∈ basis, ∑ k, star (b k) * (projectVectors vectors basis)[i] k = 0) ∧
      vectors[i] - (projectVectors vectors basis)[i] ∈ Submodule.span K {b | b ∈ basis} := by
  refine ⟨by simp [projectVectors], fun i hi hi' => ⟨?_, ?_⟩⟩
  · exact project_zero vectors basis ((onPairs_iff _).2 hb) _ (List.getElem_mem hi')
  · have e : (projectVectors vectors basis)[i]
        = fun j => vectors[i] j - (basis.map fun b => (∑ k, vectors[i] k * star (b k)) * b j).sum :=
      List.getElem_map _
    rw [e]
    have key : ∀ (c : DVec K d → K) (l : List (DVec K d)),
        (fun j => (l.map fun b' => c b' * b' j).sum) ∈ Submodule.span K {b | b ∈ l} := by
      intro c l
      induction l with
      | nil => exact Submodule.zero_mem (Submodule.span K {b : DVec K d | b ∈ ([] : List (DVec K d))})
      | cons o l ih =>
        have : (fun j => ((o :: l).map fun b' => c b' * b' j).sum)
            = c o • o + fun j => (l.map fun b' => c b' * b' j).sum := by
          funext j
          simp
        rw [this]
        refine Submodule.add_mem _ (Submodule.smul_mem _ _ (Submodule.subset_span List.mem_cons_self)) ?_
        exact Submodule.span_mono (fun x hx => List.mem_cons_of_mem _ hx) ih
    have := key (fun b' => ∑ k, vectors[i] k * star (b' k)) basis
    convert this using 1
    funext j
    simp

/-- The basis, and the vectors to be added, of a state. -/
structure DavOrtho (st : DavState K d) : Prop where
  basis : ONPairs st.basis
  apart : st.restart = false → ∀ t ∈ st.trial, ∀ b ∈ st.basis, dotc b t = 0
  unit : st.restart = false → ∀ t ∈ st.trial, dotc t t = 1

theorem normalise_spec {env : DavEnv K d} (he : ExactNorm env) (vs : List (DVec K d)) (bs : List (DVec K d))
    (h : ∀ p ∈ vs, ∀ b ∈ bs, dotc b p = 0) :
    ∀ t ∈ normaliseVectors env vs, dotc t t = 1 ∧ ∀ b ∈ bs, dotc b t = 0 := by
  intro t ht
  unfold normaliseVectors at ht
  obtain ⟨v, hv, rfl⟩ := List.mem_map.1 ht
  obtain ⟨hv, hi⟩ := List.mem_filter.1 hv
  refine ⟨normalised he v hi, fun b hb => ?_⟩
  rw [dotc_div, h v hv b hb, zero_div]

/-- The vectors orthogonal to some others. -/
def orthoTo (bs : List (DVec K d)) : Submodule K (DVec K d) where
  carrier := {v | ∀ b ∈ bs, dotc b v = 0}
  add_mem' := by
    intro x y hx hy b hb
    have : dotc b (x + y) = dotc b x + dotc b y := by
      simp [dotc, mul_add, Finset.sum_add_distrib]
    rw [this, hx b hb, hy b hb, add_zero]
  zero_mem' := by
    intro b _
    simp [dotc]
  smul_mem' := by
    intro c x hx b hb
    have : dotc b (c • x) = c * dotc b x := by
      simp only [dotc, Pi.smul_apply, smul_eq_mul, Finset.mul_sum]
      exact Finset.sum_congr rfl fun k _ => by ring
    rw [this, hx b hb, mul_zero]

theorem davTrial_ortho {env : DavEnv K d} (he : ExactNorm env) {maxTrials : Nat} {st : DavState K d}
    (ho : DavOrtho st) {b mb : List (DVec K d)} {sp : Nat} {t : List (DVec K d)}
    (h : davTrial env maxTrials st = .ok (b, mb, sp, t)) :
    ONPairs (b ++ t) ∧ ∀ v ∈ t, ∀ o ∈ b, dotc o v = 0 := by
  have hon : ∀ l : List (DVec K d), ONPairs l → ∀ n, ONPairs (l.take n) := fun l hl n =>
    ⟨hl.1.sublist (List.take_sublist _ _), fun v hv => hl.2 v (List.mem_of_mem_take hv)⟩
  have happ : ∀ b t : List (DVec K d), ONPairs b → ONPairs t → (∀ v ∈ t, ∀ o ∈ b, dotc o v = 0) → ONPairs (b ++ t) := by
    intro b t hb ht hbt
    refine ⟨List.pairwise_append.2 ⟨hb.1, ht.1, fun o ho v hv => hbt v hv o ho⟩, fun v hv => ?_⟩
    rcases List.mem_append.1 hv with h | h
    · exact hb.2 v h
    · exact ht.2 v h
  unfold davTrial at h
  simp only [bind, Except.bind, pure, Except.pure] at h
  split at h
  · split at h
    · cases h
    · rename_i t' ht'
      cases h
      obtain ⟨rfl, -⟩ := npStack_ok ht'
      exact ⟨(orthonormaliseLoop_spec he ⊤ _ fun _ _ => trivial).1, fun v _ o ho => by cases ho⟩
  · rename_i hre
    have hre : st.restart = false := by simpa using hre
    split at h
    · split at h
      · cases h
      · rename_i t' ht'
        cases h
        obtain ⟨rfl, -⟩ := npStack_ok ht'
        obtain ⟨h1, h2⟩ := orthonormaliseLoop_spec he (orthoTo st.basis) st.trial fun v hv => ho.apart hre v hv
        have h3 : ∀ v ∈ (orthonormaliseLoop env st.trial).take maxTrials, ∀ o ∈ st.basis, dotc o v = 0 :=
          fun v hv o hob => h2 v (List.mem_of_mem_take hv) o hob
        exact ⟨happ _ _ ho.basis (hon _ h1 _) h3, h3⟩
    · rename_i hlen
      cases h
      refine ⟨happ _ _ ho.basis ⟨?_, ho.unit hre⟩ (ho.apart hre), ho.apart hre⟩
      match st.trial, hlen with
      | [], _ => exact List.Pairwise.nil
      | [_], _ => exact List.pairwise_singleton _ _
      | _ :: _ :: _, h => simp at h

theorem davStep_ortho {env : DavEnv K d} (he : ExactNorm env) {nroots maxSpace maxTrials : Nat} {follow : Bool}
    {shift : K} {st s : DavState K d} {stop : Bool} (ho : DavOrtho st)
    (h : davStep env nroots maxSpace maxTrials follow shift st = .ok (s, stop)) :
    ONPairs s.basis ∧ (stop = false → DavOrtho s) := by
  unfold davStep at h
  simp only [bind, Except.bind, pure, Except.pure] at h
  cases h1 : davSolve env nroots maxTrials st with
  | error e => rw [h1] at h; cases h
  | ok s' =>
    rw [h1] at h
    simp only at h
    obtain ⟨b, mb, sp, t, wPrev, mv, hs⟩ := davSolve_ok h1
    have hb : ONPairs s'.basis := by rw [hs.basis]; exact (davTrial_ortho he ho hs.trial).1
    split at h
    · cases h; exact ⟨hb, fun h => by cases h⟩
    · split at h
      · split at h
        · cases h
        · cases h
          exact ⟨hb, fun _ => ⟨hb, fun hf => (by cases hf), fun hf => (by cases hf)⟩⟩
      · split at h
        · cases h; exact ⟨hb, fun h => by cases h⟩
        · cases h
          have hn := normalise_spec he (projectVectors (s'.trial.map (env.precond (s'.w.getD 0 0 - shift))) s'.basis)
            s'.basis (project_zero _ _ hb)
          exact ⟨hb, fun _ => ⟨hb, fun _ t ht => (hn t ht).2, fun _ t ht => (hn t ht).1⟩⟩

theorem davLoop_ortho {env : DavEnv K d} (he : ExactNorm env) {nroots maxSpace maxTrials : Nat} {follow : Bool}
    {shift : K} (n : Nat) {st s : DavState K d} {stop : Bool} (ho : DavOrtho st)
    (h : davLoop env nroots maxSpace maxTrials follow shift n st = .ok (s, stop)) :
    ONPairs s.basis ∧ (stop = false → DavOrtho s) := by
  induction n generalizing st with
  | zero => cases h; exact ⟨ho.basis, fun _ => ho⟩
  | succ n ih =>
    rw [davLoop] at h
    simp only [bind, Except.bind, pure, Except.pure] at h
    cases h1 : davStep env nroots maxSpace maxTrials follow shift st with
    | error e => rw [h1] at h; cases h
    | ok r =>
      obtain ⟨s', stop'⟩ := r
      rw [h1] at h
      have hs := davStep_ortho he ho h1
      cases stop' with
      | true => cases h; exact ⟨hs.1, fun h => by cases h⟩
      | false => exact ih (hs.2 rfl) h

theorem davInit_ortho (nroots maxSpace : Nat) (junk : List Nat → K) (guess : List (DVec K d)) :
    DavOrtho (davInit nroots maxSpace junk guess) :=
  ⟨⟨List.Pairwise.nil, fun _ h => by cases h⟩, fun h => (by cases h), fun h => (by cases h)⟩

/-- After any number of iterations, also after restarts, the basis is orthonormal, and the vectors that the next
iteration appends are orthogonal to the basis they are appended to. -/
theorem C51_basis (env : DavEnv K d) (he : ExactNorm env) (nroots maxSpace maxTrials : Nat) (follow : Bool) (shift : K)
    (junk : List Nat → K) (guess : List (DVec K d)) (n : Nat) (s : DavState K d) (stop : Bool)
    (h : davLoop env nroots maxSpace maxTrials follow shift n (davInit nroots maxSpace junk guess) = .ok (s, stop)) :
    OrthonormalList s.basis ∧
      (stop = false → ∀ b mb sp t, davTrial env maxTrials s = .ok (b, mb, sp, t) →
        OrthonormalList (b ++ t) ∧ ∀ v ∈ t, ∀ o ∈ b, ∑ k, star (o k) * v k = 0) := by
  obtain ⟨h1, h2⟩ := davLoop_ortho he n (davInit_ortho nroots maxSpace junk guess) h
  refine ⟨(onPairs_iff _).1 h1, fun hs b mb sp t ht => ?_⟩
  obtain ⟨h3, h4⟩ := davTrial_ortho he (h2 hs) ht
  exact ⟨(onPairs_iff _).1 h3, h4⟩

end

/-- A solver over the real numbers with the Euclidean norm. -/
noncomputable def env51 (d : Nat) (A : DVec ℝ d → DVec ℝ d) (tol : ℝ) : DavEnv ℝ d where
  matvec := A
  solve := fun _ _ _ => ([], [])
  solveLeft := fun _ _ _ => ([], [])
  precond := fun _ v => v
  norm := fun v => Real.sqrt (∑ k, v k * v k)
  indep := fun x => by classical exact decide (x ^ 2 > tol)
  steady := fun _ => false
  below := fun _ => false
  large := fun _ => false
  absLt := fun x y => by classical exact decide (|x| < |y|)

/-- The hypothesis holds for the Euclidean norm and a tolerance that is not negative. -/
example (d : Nat) (A : DVec ℝ d → DVec ℝ d) (tol : ℝ) (h : 0 ≤ tol) : ExactNorm (env51 d A tol) where
  sq := fun v => by
    simp only [env51, star_trivial]
    exact Real.mul_self_sqrt (Finset.sum_nonneg fun k _ => mul_self_nonneg _)
  real := fun v => rfl
  pos := fun x hx => by
    simp only [env51, decide_eq_true_eq] at hx
    rintro rfl
    norm_num at hx
    linarith

/-- A rational norm that is exact on the vectors used below. -/
def env51' : DavEnv Rat 2 where
  matvec := id
  solve := fun _ _ _ => ([], [])
  solveLeft := fun _ _ _ => ([], [])
  precond := fun _ v => v
  norm := fun v => if v = ![3, 4] then 5 else if v = ![-4, 3] then 5 else 0
  indep := fun x => decide (0 < x)
  steady := fun _ => false
  below := fun _ => false
  large := fun _ => false
  absLt := fun _ _ => false

/-- Three vectors in the plane give two. -/
example : orthonormaliseLoop env51' [![3, 4], ![2, 11], ![1, 1]] = [![3 / 5, 4 / 5], ![-4 / 5, 3 / 5]] := by
  decide +kernel

end Ebcc
