import Verif.Thms.C08
import Mathlib.Algebra.Field.Rat
import Mathlib.Algebra.CharP.Defs
import Mathlib.Data.Nat.Cast.Basic
import Mathlib.Tactic.FieldSimp

/-!
C09: `symmetrise` on arrays that already have the requested symmetry.
-/

namespace Ebcc

section
variable {κ : Type} [DecidableEq κ]

/-- C09: exact scaling.  On an array with the requested (uniform) symmetry the result, with the factor
applied, times `2^(sum of (k-1))` is the product of all `k!` times the array, where the `k` are the
numbers of axes in the groups. -/
theorem C09_scaling {K : Type} [Field K] (h2 : (2 : K) ≠ 0) (sub : List κ) (hsub : sub ≠ [])
    (sz : κ → Nat) (a : NDArray K) (ha : a.shape = sub.map sz) (x : Char)
    (symm : Option (List Char))
    (hsymm : symm.getD (List.replicate sub.length '-') = List.replicate sub.length x)
    (hsym : GroupSymmetric sub (fun _ => x) a) :
    ∃ out, symmetrise sub a symm true = .ok out ∧ out.shape = a.shape ∧ out.WF ∧
      ∀ idx, ValidIdx a.shape idx →
        out.get idx * 2 ^ ((firstOccurrences sub).map fun c => sub.count c - 1).sum
          = ((((firstOccurrences sub).map fun c => Nat.factorial (sub.count c)).prod : Nat) : K)
            * a.get idx := by
  have hc : Consistent sub a.shape := ⟨sz, ha⟩
  have hx' : ∀ p ∈ posOf sub 0, (symm.getD (List.replicate sub.length '-'))[p]? = some x := by
    intro p hp
    have := (mem_posOf.1 hp).1
    rw [hsymm]; simp [this]
  refine ⟨_, symmetrise_ok sub hsub a hc symm ((unique sub).map fun _ => x)
    (by rw [hsymm, ← blockString_const]; exact symmetryLoop_block sub _) x hx' true, rfl,
    NDArray.ofFn_wf _ _, ?_⟩
  intro idx hidx
  have hidx' : InBox a.shape idx := hidx
  rw [NDArray.get_ofFn _ _ hidx']
  have hmult : (List.range (ngroups sub)).map (mult sub)
      = (firstOccurrences sub).map fun c => sub.count c := by
    rw [← unique_eq_firstOccurrences]
    apply List.ext_getElem
    · simp [ngroups]
    · intro i h1 h3
      have hi : i < (unique sub).length := by simpa using h3
      simp [mult_eq_count sub i hi]
  have hterms := permSum_term (symTerms sub (decide (x = '-'))) a (n := sub.length)
    (if decide (x = '-') then -1 else 1) (by split <;> rfl)
    (fun i j => i < j ∧ j < sub.length ∧ (canon sub).getD i 0 = (canon sub).getD j 0)
    hc.length (by
      rintro i j ⟨hij, hj, he⟩
      refine ⟨hij, hj, ?_⟩
      rw [hc.getD i (by omega), hc.getD j hj, he]) (fun ps h => perm_symTerms h)
    (fun i j h ps hps => symTerms_swap h.1 h.2.1 h.2.2 hps) (fun ps h => symTerms_red h) (by
      rintro i j ⟨hij, hj, he⟩ idx hidx
      have hi : i < sub.length := by omega
      have e := (canon_eq_iff sub i j hi hj).1 he
      have := hsym i j sub[i] hij (by simp [hi]) (by simp [hj, e]) idx hidx
      rw [this]
      unfold charSign
      by_cases hm : x = '-' <;> simp [hm])
  rw [permSum_scale _ a fun ps hps => ⟨(hterms ps hps).1, (hterms ps hps).2 idx hidx'⟩,
    length_symTerms]
  have hfac : ((List.range (ngroups sub)).map fun c => Nat.factorial (mult sub c))
      = (firstOccurrences sub).map fun c => Nat.factorial (sub.count c) := by
    have := congrArg (List.map Nat.factorial) hmult
    rw [List.map_map, List.map_map] at this
    exact this
  have hexp : symmetryExponent ((List.range (ngroups sub)).map (mult sub))
      = ((firstOccurrences sub).map fun c => sub.count c - 1).sum := by
    unfold symmetryExponent
    rw [hmult, List.map_map]; rfl
  rw [hfac]
  simp only [if_true, getSymmetryFactor, hexp]
  field_simp

/-- C09 (partial).  Full claim: `symmetrise` returns the array unchanged whenever it already has the
requested symmetry.  That is false when three or more axes share a symbol (`C09_three_axes_fails`,
`C09_scaling`).  Proved here for at most two axes per symbol. -/
theorem C09_identity_partial {K : Type} [Field K] (h2 : (2 : K) ≠ 0) (sub : List κ) (hsub : sub ≠ [])
    (sz : κ → Nat) (a : NDArray K) (hwf : a.WF) (ha : a.shape = sub.map sz) (x : Char)
    (symm : Option (List Char))
    (hsymm : symm.getD (List.replicate sub.length '-') = List.replicate sub.length x)
    (hsym : GroupSymmetric sub (fun _ => x) a) (hk : ∀ c ∈ sub, sub.count c ≤ 2) :
    symmetrise sub a symm true = .ok a := by
  obtain ⟨out, h1, h3, h4, h5⟩ := C09_scaling h2 sub hsub sz a ha x symm hsymm hsym
  rw [h1]
  congr 1
  apply NDArray.ext_get h4 hwf h3
  intro idx hidx
  rw [h3] at hidx
  have h := h5 idx hidx
  have hprod : ∀ l : List κ, (∀ c ∈ l, c ∈ sub) →
      (l.map fun c => Nat.factorial (sub.count c)).prod = 2 ^ (l.map fun c => sub.count c - 1).sum := by
    intro l
    induction l with
    | nil => intro _; rfl
    | cons c l ih =>
      intro hl
      simp only [List.map_cons, List.prod_cons, List.sum_cons, pow_add]
      rw [ih fun c hc => hl c (by simp [hc])]
      congr 1
      have hcm := hl c (by simp)
      have h6 := hk c hcm
      have h7 : 0 < sub.count c := List.count_pos_iff.2 hcm
      have : sub.count c = 1 ∨ sub.count c = 2 := by omega
      rcases this with e | e <;> rw [e] <;> rfl
  rw [hprod _ (fun c hc => by
    rw [← unique_eq_firstOccurrences] at hc; exact mem_unique.1 hc)] at h
  push_cast at h
  rw [mul_comm] at h
  exact mul_left_cancel₀ (pow_ne_zero _ h2) h

/-- C09: idempotence for at most two axes per symbol. -/
theorem C09_idempotent_partial {K : Type} [Field K] (h2 : (2 : K) ≠ 0) (sub : List κ)
    (hsub : sub ≠ []) (sz : κ → Nat) (a : NDArray K) (ha : a.shape = sub.map sz)
    (hk : ∀ c ∈ sub, sub.count c ≤ 2) (x : Char) (symm : Option (List Char))
    (hsymm : symm.getD (List.replicate sub.length '-') = List.replicate sub.length x) :
    ∃ out, symmetrise sub a symm true = .ok out ∧ symmetrise sub out symm true = .ok out := by
  obtain ⟨out, h1, h3, h4, h5⟩ := C08_uniform sub hsub sz a ha x symm hsymm true
  exact ⟨out, h1, C09_identity_partial h2 sub hsub sz out h4 (h3.trans ha) x symm hsymm h5 hk⟩

private theorem two_pow_le_factorial (k : Nat) (hk : 1 ≤ k) : 2 ^ (k - 1) ≤ Nat.factorial k := by
  induction k with
  | zero => omega
  | succ k ih =>
    rcases Nat.eq_zero_or_pos k with rfl | hk
    · decide
    · have := ih hk
      rw [Nat.factorial_succ, show k + 1 - 1 = (k - 1) + 1 by omega, pow_succ, mul_comm]
      exact Nat.mul_le_mul (by omega) this

private theorem two_pow_lt_factorial (k : Nat) (hk : 3 ≤ k) : 2 ^ (k - 1) < Nat.factorial k := by
  obtain ⟨m, rfl⟩ := Nat.exists_eq_add_of_le hk
  induction m with
  | zero => decide
  | succ m ih =>
    have := ih (by omega)
    rw [show 3 + (m + 1) = (3 + m) + 1 by omega, Nat.factorial_succ,
      show 3 + m + 1 - 1 = (3 + m - 1) + 1 by omega, pow_succ, mul_comm]
    exact Nat.mul_lt_mul_of_le_of_lt (by omega) this (by omega)

/-- C09, finding: in characteristic zero a nonzero array with the symmetry is returned unchanged
exactly when no symbol occurs more than twice. -/
theorem C09_identity_iff {K : Type} [Field K] [CharZero K] (sub : List κ) (hsub : sub ≠ [])
    (sz : κ → Nat) (a : NDArray K) (hwf : a.WF) (ha : a.shape = sub.map sz) (x : Char)
    (symm : Option (List Char))
    (hsymm : symm.getD (List.replicate sub.length '-') = List.replicate sub.length x)
    (hsym : GroupSymmetric sub (fun _ => x) a) (idx : List Nat) (hidx : ValidIdx a.shape idx)
    (hne : a.get idx ≠ 0) :
    symmetrise sub a symm true = .ok a ↔ ∀ c ∈ sub, sub.count c ≤ 2 := by
  have h20 : (2 : K) ≠ 0 := by exact_mod_cast (Nat.cast_ne_zero (R := K)).2 (by decide : (2 : Nat) ≠ 0)
  constructor
  · intro heq
    obtain ⟨out, h1, _, _, h5⟩ := C09_scaling h20 sub hsub sz a ha x symm hsymm hsym
    rw [heq] at h1
    injection h1 with h1
    subst h1
    have h := h5 idx hidx
    rw [mul_comm] at h
    have h' := mul_right_cancel₀ hne h
    have h'' : 2 ^ ((firstOccurrences sub).map fun c => sub.count c - 1).sum
        = ((firstOccurrences sub).map fun c => Nat.factorial (sub.count c)).prod := by
      exact_mod_cast h'
    intro c hcm
    by_contra hcon
    have key : ∀ l : List κ, (∀ c ∈ l, c ∈ sub) →
        2 ^ (l.map fun c => sub.count c - 1).sum ≤ (l.map fun c => Nat.factorial (sub.count c)).prod ∧
        (c ∈ l → 2 ^ (l.map fun c => sub.count c - 1).sum
          < (l.map fun c => Nat.factorial (sub.count c)).prod) := by
      intro l
      induction l with
      | nil => intro _; simp
      | cons d l ih =>
        intro hl
        obtain ⟨i1, i2⟩ := ih fun c hc => hl c (by simp [hc])
        have hd : 1 ≤ sub.count d := List.count_pos_iff.2 (hl d (by simp))
        simp only [List.map_cons, List.prod_cons, List.sum_cons, pow_add]
        refine ⟨Nat.mul_le_mul (two_pow_le_factorial _ hd) i1, ?_⟩
        intro hmem
        rcases List.mem_cons.1 hmem with rfl | hmem
        · exact Nat.mul_lt_mul_of_lt_of_le (two_pow_lt_factorial _ (by omega)) i1
            (Nat.lt_of_lt_of_le (Nat.two_pow_pos _) i1)
        · exact Nat.mul_lt_mul_of_le_of_lt (two_pow_le_factorial _ hd) (i2 hmem)
            (Nat.factorial_pos _)
    have := (key (firstOccurrences sub) (fun c hc => by
      rw [← unique_eq_firstOccurrences] at hc; exact mem_unique.1 hc)).2 (by
      rw [← unique_eq_firstOccurrences]; exact mem_unique.2 hcm)
    omega
  · intro hk
    exact C09_identity_partial h20 sub hsub sz a hwf ha x symm hsymm hsym hk

/-- C09, finding: three axes with one symbol are scaled by 3/2. -/
theorem C09_three_axes_fails :
    GroupSymmetric "iii".toList (fun _ => '+') (⟨[1, 1, 1], [2]⟩ : NDArray Rat) ∧
    symmetrise "iii".toList (⟨[1, 1, 1], [2]⟩ : NDArray Rat) (some "+++".toList) true
      = .ok ⟨[1, 1, 1], [3]⟩ := by
  constructor
  · intro i j c hij hi hj idx hidx
    have hm : idx ∈ box [1, 1, 1] := mem_box.2 hidx
    have e : idx = [0, 0, 0] := by simpa [box] using hm
    have hsw := swapIdx_inBox (sub := "iii".toList) (shape := [1, 1, 1]) ⟨fun _ => 1, rfl⟩
      (i := i) (j := j) (by have := (List.getElem?_eq_some_iff.1 hj).1; omega)
      (List.getElem?_eq_some_iff.1 hj).1 (by
        have h1 := (List.getElem?_eq_some_iff.1 hi).2
        have h2 := (List.getElem?_eq_some_iff.1 hj).2
        rw [h1, h2]) hidx
    have e' : swapIdx i j idx = [0, 0, 0] := by simpa [box] using mem_box.2 hsw
    rw [e', e]
    simp [charSign]
  · decide +kernel

/-- Non-vacuity: two axes. -/
example : GroupSymmetric "ij".toList (fun _ => '-') (⟨[1, 2], [1, 2]⟩ : NDArray Rat) ∧
    symmetrise "ij".toList (⟨[1, 2], [1, 2]⟩ : NDArray Rat) none true = .ok ⟨[1, 2], [1, 2]⟩ := by
  refine ⟨?_, by decide +kernel⟩
  intro i j c hij hi hj
  have hj' : j < 2 := (List.getElem?_eq_some_iff.1 hj).1
  have : i = 0 ∧ j = 1 := by omega
  obtain ⟨rfl, rfl⟩ := this
  simp at hi hj
  rw [← hi] at hj
  exact absurd hj (by decide)

end
end Ebcc
