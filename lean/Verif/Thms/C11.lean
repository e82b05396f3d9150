import Verif.Model.Spin
import Verif.Lemmas.Lists
import Mathlib.Tactic.Common

/-!
C11: `generate_spin_combinations`.
-/

namespace Ebcc

/-- The class of a spin combination: numbers of alpha spins in the occupied and the virtual part. -/
def spinClass (n : Nat) (s : List Char) : Nat × Nat := ((s.take n).count 'a', (s.drop n).count 'a')

/-- The strings over the two spin letters. -/
def SpinString (n : Nat) (t : List Char) : Prop := t.length = n ∧ ∀ c ∈ t, c = 'a' ∨ c = 'b'

theorem mem_spinTuples {n : Nat} {t : List Char} :
    t ∈ prodL (List.replicate n ['a', 'b']) ↔ SpinString n t := by
  induction n generalizing t with
  | zero => simp [prodL, SpinString]; grind
  | succ n ih =>
    simp only [List.replicate_succ, prodL, List.mem_flatMap, List.mem_map, SpinString] at *
    constructor
    · rintro ⟨x, hx, u, hu, rfl⟩
      have := ih.1 hu
      simp only [List.mem_cons, List.not_mem_nil, or_false] at hx
      refine ⟨by simp [this.1], ?_⟩
      intro c hc
      rcases List.mem_cons.1 hc with rfl | hc
      · exact hx
      · exact this.2 c hc
    · rintro ⟨h1, h2⟩
      cases t with
      | nil => simp at h1
      | cons x u =>
        exact ⟨x, by simpa using h2 x (by simp), u,
          ih.2 ⟨by simpa using h1, fun c hc => h2 c (by simp [hc])⟩, rfl⟩

theorem spinLoop_false (n : Nat) (ex : Bool) (check L : List (List Char)) :
    spinLoop n ex false check L = L.map (spinComb ex) := by
  induction L generalizing check with
  | nil => rfl
  | cons t L ih => simp [spinLoop, ih]

/-- C11: the combinations are the doubled strings over the two letters ... -/
theorem C11_all (n : Nat) (s : List Char) :
    s ∈ generateSpinCombinations n false false ↔
      ∃ t : List Char, t.length = n ∧ (∀ c ∈ t, c = 'a' ∨ c = 'b') ∧ s = t ++ t := by
  unfold generateSpinCombinations
  rw [spinLoop_false, List.mem_map]
  constructor
  · rintro ⟨t, ht, rfl⟩
    exact ⟨t, (mem_spinTuples.1 ht).1, (mem_spinTuples.1 ht).2, rfl⟩
  · rintro ⟨t, h1, h2, rfl⟩
    exact ⟨t, mem_spinTuples.2 ⟨h1, h2⟩, rfl⟩

/-- C11: ... without the last letter for excited amplitudes. -/
theorem C11_all_excited (n : Nat) (s : List Char) :
    s ∈ generateSpinCombinations n true false ↔
      ∃ t : List Char, t.length = n ∧ (∀ c ∈ t, c = 'a' ∨ c = 'b') ∧ s = (t ++ t).dropLast := by
  unfold generateSpinCombinations
  rw [spinLoop_false, List.mem_map]
  constructor
  · rintro ⟨t, ht, rfl⟩
    exact ⟨t, (mem_spinTuples.1 ht).1, (mem_spinTuples.1 ht).2, rfl⟩
  · rintro ⟨t, h1, h2, rfl⟩
    exact ⟨t, mem_spinTuples.2 ⟨h1, h2⟩, rfl⟩

/-- The part of a combination behind the first half. -/
theorem spinComb_eq (ex : Bool) (t : List Char) :
    spinComb ex t = t ++ (if ex then t.dropLast else t) := by
  cases ex
  · simp [spinComb]
  · cases t with
    | nil => simp [spinComb]
    | cons c t =>
      simp only [spinComb, if_true]
      exact List.dropLast_append_of_ne_nil (List.cons_ne_nil c t)

theorem lt_append {t u : List Char} (h : t < u) (hl : t.length = u.length) (x y : List Char) :
    t ++ x < u ++ y := by
  induction t generalizing u with
  | nil =>
    cases u with
    | nil => exact absurd h (List.not_lt_nil _)
    | cons c u => simp at hl
  | cons c t ih =>
    cases u with
    | nil => simp at hl
    | cons d u =>
      rw [List.cons_lt_cons_iff] at h
      rw [List.cons_append, List.cons_append, List.cons_lt_cons_iff]
      rcases h with h | ⟨h1, h2⟩
      · exact Or.inl h
      · exact Or.inr ⟨h1, ih h2 (by simpa using hl)⟩

theorem sorted_spinTuples (n : Nat) : (prodL (List.replicate n ['a', 'b'])).Pairwise (· < ·) := by
  induction n with
  | zero => simp [prodL]
  | succ n ih =>
    simp only [List.replicate_succ, prodL, List.flatMap_cons, List.flatMap_nil, List.append_nil,
      List.pairwise_append, List.pairwise_map]
    refine ⟨ih.imp ?_, ih.imp ?_, ?_⟩
    · intro a b h; rw [List.cons_lt_cons_iff]; exact Or.inr ⟨rfl, h⟩
    · intro a b h; rw [List.cons_lt_cons_iff]; exact Or.inr ⟨rfl, h⟩
    · intro a ha b hb
      rw [List.mem_map] at ha hb
      obtain ⟨u, _, rfl⟩ := ha
      obtain ⟨v, _, rfl⟩ := hb
      rw [List.cons_lt_cons_iff]
      exact Or.inl (by decide)

/-- C11: the combinations come in strictly increasing (product) order, so without repetition. -/
theorem C11_order (n : Nat) (ex : Bool) :
    (generateSpinCombinations n ex false).Pairwise (· < ·) := by
  unfold generateSpinCombinations
  rw [spinLoop_false, List.pairwise_map]
  apply (List.Pairwise.and_mem.1 (sorted_spinTuples n)).imp
  rintro a b ⟨ha, hb, hab⟩
  rw [spinComb_eq, spinComb_eq]
  exact lt_append hab ((mem_spinTuples.1 ha).1.trans (mem_spinTuples.1 hb).1.symm) _ _

/-- C11: there are `2^n` combinations. -/
theorem C11_count (n : Nat) (ex : Bool) : (generateSpinCombinations n ex false).length = 2 ^ n := by
  unfold generateSpinCombinations
  rw [spinLoop_false, List.length_map]
  induction n with
  | zero => rfl
  | succ n ih =>
    simp only [List.replicate_succ, prodL, List.flatMap_cons, List.flatMap_nil, List.append_nil,
      List.length_append, List.length_map, ih]
    omega

/-! ### Unique combinations -/

theorem sortChars_perm (l : List Char) : (sortChars l).Perm l := List.perm_insertionSort _ _

theorem sortChars_eq_iff {l m : List Char} : sortChars l = sortChars m ↔ l.Perm m := by
  constructor
  · intro h
    exact (sortChars_perm l).symm.trans (h ▸ sortChars_perm m)
  · intro h
    exact List.Perm.eq_of_pairwise (fun _ _ _ _ => Char.le_antisymm)
      (List.pairwise_insertionSort _ l) (List.pairwise_insertionSort _ m)
      (((sortChars_perm l).trans h).trans (sortChars_perm m).symm)

theorem count_ab {t : List Char} (h : ∀ c ∈ t, c = 'a' ∨ c = 'b') :
    t.count 'a' + t.count 'b' = t.length := by
  induction t with
  | nil => rfl
  | cons c t ih =>
    have := ih fun c hc => h c (by simp [hc])
    rcases h c (by simp) with rfl | rfl
    · rw [List.count_cons_self, List.count_cons_of_ne (by decide), List.length_cons]; omega
    · rw [List.count_cons_self, List.count_cons_of_ne (by decide), List.length_cons]; omega

theorem perm_iff_count {t u : List Char} (ht : ∀ c ∈ t, c = 'a' ∨ c = 'b')
    (hu : ∀ c ∈ u, c = 'a' ∨ c = 'b') (hl : t.length = u.length) :
    t.Perm u ↔ t.count 'a' = u.count 'a' := by
  constructor
  · intro h; exact h.count_eq _
  · intro h
    rw [List.perm_iff_count]
    intro c
    have h1 := count_ab ht
    have h2 := count_ab hu
    by_cases ha : c = 'a'
    · rw [ha, h]
    · by_cases hb : c = 'b'
      · rw [hb]; omega
      · rw [List.count_eq_zero.2, List.count_eq_zero.2]
        · intro hc; rcases hu c hc with e | e <;> contradiction
        · intro hc; rcases ht c hc with e | e <;> contradiction

theorem spinComb_take {n : Nat} {t : List Char} (h : SpinString n t) (ex : Bool) :
    (spinComb ex t).take n = t ∧ (spinComb ex t).drop n = if ex then t.dropLast else t := by
  rw [spinComb_eq]
  obtain ⟨rfl, _⟩ := h
  simp

theorem append_eq_iff {α : Type} {a b c d : List α} (h : a.length = c.length) :
    a ++ b = c ++ d ↔ a = c ∧ b = d := by
  constructor
  · intro e; exact List.append_inj e h
  · rintro ⟨rfl, rfl⟩; rfl

theorem spinKey_eq_iff {n : Nat} {t u : List Char} (ht : SpinString n t) (hu : SpinString n u)
    (ex : Bool) : spinKey n (spinComb ex t) = spinKey n (spinComb ex u) ↔
      spinClass n (spinComb ex t) = spinClass n (spinComb ex u) := by
  have hsub : ∀ {v : List Char}, SpinString n v → ∀ c ∈ (if ex then v.dropLast else v),
      c = 'a' ∨ c = 'b' := by
    intro v hv c hc
    split at hc
    · exact hv.2 c (List.mem_of_mem_dropLast hc)
    · exact hv.2 c hc
  unfold spinKey spinClass
  rw [(spinComb_take ht ex).1, (spinComb_take ht ex).2, (spinComb_take hu ex).1,
    (spinComb_take hu ex).2, Prod.mk.injEq]
  rw [append_eq_iff, sortChars_eq_iff, sortChars_eq_iff,
    perm_iff_count ht.2 hu.2 (by rw [ht.1, hu.1]), perm_iff_count (hsub ht) (hsub hu)]
  · split
    · simp [ht.1, hu.1]
    · rw [ht.1, hu.1]
  · rw [(sortChars_perm t).length_eq, (sortChars_perm u).length_eq, ht.1, hu.1]

/-- The strings kept by the loop. -/
def spinKept (n : Nat) (ex : Bool) (check : List (List Char)) : List (List Char) → List (List Char)
  | [] => []
  | t :: rest =>
    if spinKey n (spinComb ex t) ∈ check then spinKept n ex check rest
    else t :: spinKept n ex (spinKey n (spinComb ex t) :: check) rest

theorem spinLoop_true (n : Nat) (ex : Bool) (check L : List (List Char)) :
    spinLoop n ex true check L = (spinKept n ex check L).map fun t => spinCanon n ex (spinComb ex t) := by
  induction L generalizing check with
  | nil => rfl
  | cons t L ih =>
    simp only [spinLoop, spinKept, if_true]
    split
    · exact ih _
    · rw [List.map_cons, ih]

theorem spinKept_subset (n : Nat) (ex : Bool) (check L : List (List Char)) :
    ∀ t ∈ spinKept n ex check L, t ∈ L ∧ spinKey n (spinComb ex t) ∉ check := by
  induction L generalizing check with
  | nil => simp [spinKept]
  | cons u L ih =>
    intro t ht
    unfold spinKept at ht
    split at ht
    · have := ih _ t ht
      exact ⟨by simp [this.1], this.2⟩
    · rcases List.mem_cons.1 ht with rfl | ht
      · exact ⟨by simp, ‹_›⟩
      · have := ih _ t ht
        exact ⟨by simp [this.1], fun h => this.2 (by simp [h])⟩

theorem spinKept_nodup (n : Nat) (ex : Bool) (check L : List (List Char)) :
    (spinKept n ex check L).Pairwise fun t u =>
      spinKey n (spinComb ex t) ≠ spinKey n (spinComb ex u) := by
  induction L generalizing check with
  | nil => simp [spinKept]
  | cons u L ih =>
    unfold spinKept
    split
    · exact ih _
    · refine List.pairwise_cons.2 ⟨fun t ht => ?_, ih _⟩
      intro e
      exact (spinKept_subset _ _ _ _ t ht).2 (by simp [e])

theorem spinKept_cover (n : Nat) (ex : Bool) (check L : List (List Char)) :
    ∀ t ∈ L, spinKey n (spinComb ex t) ∉ check →
      ∃ u ∈ spinKept n ex check L, spinKey n (spinComb ex u) = spinKey n (spinComb ex t) := by
  induction L generalizing check with
  | nil => simp
  | cons v L ih =>
    intro t ht hc
    unfold spinKept
    split
    · rename_i h
      rcases List.mem_cons.1 ht with rfl | ht
      · exact absurd h hc
      · exact ih _ t ht hc
    · by_cases e : spinKey n (spinComb ex t) = spinKey n (spinComb ex v)
      · exact ⟨v, by simp, e.symm⟩
      · rcases List.mem_cons.1 ht with rfl | ht
        · exact absurd rfl e
        · obtain ⟨u, hu, h⟩ := ih (spinKey n (spinComb ex v) :: check) t ht (by simp [e, hc])
          exact ⟨u, by simp [hu], h⟩

theorem count_alternate {x y : Char} (h : x ≠ y) : ∀ (k m : Nat), m ≤ 2 * k →
    ((((List.replicate k [x, y]).flatten).take m).length = m) ∧
    ((((List.replicate k [x, y]).flatten).take m).count x = (m + 1) / 2) ∧
    ((((List.replicate k [x, y]).flatten).take m).count y = m / 2) ∧
    ∀ c ∈ ((List.replicate k [x, y]).flatten).take m, c = x ∨ c = y
  | 0, m, hm => by
    have : m = 0 := by omega
    subst this; simp
  | k + 1, m, hm => by
    rw [List.replicate_succ, List.flatten_cons]
    match m with
    | 0 => simp
    | 1 => simp [h]
    | m + 2 =>
      obtain ⟨h1, h2, h3, h4⟩ := count_alternate h k m (by omega)
      simp only [List.cons_append, List.nil_append, List.take_succ_cons, List.length_cons, h1,
        List.count_cons, h2, h3, beq_self_eq_true, if_true, List.mem_cons]
      refine ⟨trivial, ?_, ?_, ?_⟩
      · simp [h.symm]; omega
      · simp [h]
      · intro c hc
        rcases hc with hc | hc | hc
        · exact Or.inl hc
        · exact Or.inr hc
        · exact h4 c hc

theorem alternate_spec {x y : Char} (h : x ≠ y) (n : Nat) :
    (alternate x y n).length = n ∧ (alternate x y n).count x = (n + 1) / 2 ∧
      (alternate x y n).count y = n / 2 ∧ ∀ c ∈ alternate x y n, c = x ∨ c = y :=
  count_alternate h n n (by omega)

/-- The alpha count of the representative of the class with alpha count `k`. -/
def spinFlip (n k : Nat) : Nat :=
  if k = n / 2 then n - n / 2 else if k = n - n / 2 then n / 2 else k

theorem spinFlip_inj {n k l : Nat} (h : spinFlip n k = spinFlip n l) : k = l := by
  unfold spinFlip at h
  split at h <;> split at h <;> repeat' (split at h)
  all_goals omega

theorem spinFlip_flip (n k : Nat) : spinFlip n (spinFlip n k) = k := by
  unfold spinFlip
  repeat' split
  all_goals omega

/-- The representative yielded for a string is a doubled string with the flipped alpha count. -/
theorem spinCanon_spec {n : Nat} {t : List Char} (ht : SpinString n t) :
    ∃ u, SpinString n u ∧ spinCanon n false (spinComb false t) = u ++ u ∧
      u.count 'a' = spinFlip n (t.count 'a') := by
  have hc := count_ab ht.2
  rw [ht.1] at hc
  have htake := (spinComb_take ht false).1
  unfold spinCanon
  simp only [htake, Bool.false_eq_true, if_false, Prod.mk.injEq]
  by_cases h1 : t.count 'a' = n / 2 ∧ t.count 'b' = n - n / 2
  · rw [if_pos h1]
    obtain ⟨a1, a2, a3, a4⟩ := alternate_spec (x := 'a') (y := 'b') (by decide) n
    refine ⟨_, ⟨a1, a4⟩, rfl, ?_⟩
    rw [a2, spinFlip, if_pos h1.1]; omega
  · rw [if_neg h1]
    by_cases h2 : t.count 'a' = n - n / 2 ∧ t.count 'b' = n / 2
    · rw [if_pos h2]
      obtain ⟨a1, a2, a3, a4⟩ := alternate_spec (x := 'b') (y := 'a') (by decide) n
      refine ⟨_, ⟨a1, fun c hc => (a4 c hc).symm⟩, rfl, ?_⟩
      rw [a3, spinFlip, if_neg (by omega), if_pos h2.1]
    · rw [if_neg h2]
      refine ⟨t, ht, by simp [spinComb], ?_⟩
      rw [spinFlip, if_neg (by omega), if_neg (by omega)]

/-- C11: with `unique=True` the outputs are combinations, no two of the same class, and every class of
combinations has an output; for excited and for ordinary amplitudes. -/
theorem C11_unique (n : Nat) (ex : Bool) :
    (∀ s ∈ generateSpinCombinations n ex true, s ∈ generateSpinCombinations n ex false) ∧
    ((generateSpinCombinations n ex true).map (spinClass n)).Nodup ∧
    ∀ c ∈ generateSpinCombinations n ex false,
      ∃ s ∈ generateSpinCombinations n ex true, spinClass n s = spinClass n c := by
  unfold generateSpinCombinations
  rw [spinLoop_false, spinLoop_true]
  have hsub := spinKept_subset n ex [] (prodL (List.replicate n ['a', 'b']))
  have hnd := spinKept_nodup n ex [] (prodL (List.replicate n ['a', 'b']))
  have hcov := spinKept_cover n ex [] (prodL (List.replicate n ['a', 'b']))
  have hstr : ∀ t ∈ spinKept n ex [] (prodL (List.replicate n ['a', 'b'])), SpinString n t :=
    fun t ht => mem_spinTuples.1 (hsub t ht).1
  cases ex with
  | true =>
    have hcanon : ∀ s, spinCanon n true s = s := fun s => by simp [spinCanon]
    simp only [hcanon, List.map_map]
    refine ⟨?_, ?_, ?_⟩
    · intro s hs
      rw [List.mem_map] at hs ⊢
      obtain ⟨t, ht, rfl⟩ := hs
      exact ⟨t, (hsub t ht).1, rfl⟩
    · rw [List.Nodup, List.pairwise_map]
      apply (List.Pairwise.and_mem.1 hnd).imp
      rintro a b ⟨ha, hb, hab⟩
      exact fun e => hab ((spinKey_eq_iff (hstr a ha) (hstr b hb) true).2 e)
    · intro c hc
      rw [List.mem_map] at hc
      obtain ⟨t, ht, rfl⟩ := hc
      obtain ⟨u, hu, e⟩ := hcov t ht (by simp)
      exact ⟨_, List.mem_map_of_mem hu,
        (spinKey_eq_iff (hstr u hu) (mem_spinTuples.1 ht) true).1 e⟩
  | false =>
    have hcls : ∀ {u : List Char}, SpinString n u → spinClass n (u ++ u) = (u.count 'a', u.count 'a') := by
      rintro u ⟨rfl, _⟩; simp [spinClass]
    have hcls' : ∀ {t : List Char}, SpinString n t → spinClass n (spinCanon n false (spinComb false t))
        = (spinFlip n (t.count 'a'), spinFlip n (t.count 'a')) := by
      intro t ht
      obtain ⟨u, hu, e, hk⟩ := spinCanon_spec ht
      rw [e, hcls hu, hk]
    have hcomb : ∀ t, spinComb false t = t ++ t := fun t => by simp [spinComb]
    refine ⟨?_, ?_, ?_⟩
    · intro s hs
      rw [List.mem_map] at hs ⊢
      obtain ⟨t, ht, rfl⟩ := hs
      obtain ⟨u, hu, e, _⟩ := spinCanon_spec (hstr t ht)
      exact ⟨u, mem_spinTuples.2 hu, by rw [e, hcomb]⟩
    · rw [List.map_map, List.Nodup, List.pairwise_map]
      apply (List.Pairwise.and_mem.1 hnd).imp
      rintro a b ⟨ha, hb, hab⟩ e
      apply hab
      rw [spinKey_eq_iff (hstr a ha) (hstr b hb), hcomb, hcomb, hcls (hstr a ha), hcls (hstr b hb)]
      simp only [Function.comp, hcls' (hstr a ha), hcls' (hstr b hb), Prod.mk.injEq] at e
      rw [spinFlip_inj e.1]
    · intro c hc
      rw [List.mem_map] at hc
      obtain ⟨t, ht, rfl⟩ := hc
      have ht' := mem_spinTuples.1 ht
      obtain ⟨w, hw, _, hwk⟩ := spinCanon_spec ht'
      obtain ⟨u, hu, e⟩ := hcov w (mem_spinTuples.2 hw) (by simp)
      refine ⟨_, List.mem_map_of_mem hu, ?_⟩
      rw [spinKey_eq_iff (hstr u hu) hw, hcomb, hcomb, hcls (hstr u hu), hcls hw,
        Prod.mk.injEq] at e
      rw [hcls' (hstr u hu), hcomb, hcls ht', e.1, hwk, spinFlip_flip]

/-- C11: the ordinary unique combinations are `n + 1` many. -/
theorem C11_unique_count (n : Nat) : (generateSpinCombinations n false true).length = n + 1 := by
  obtain ⟨h1, h2, h3⟩ := C11_unique n false
  have hp : ((generateSpinCombinations n false true).map (spinClass n)).Perm
      ((List.range (n + 1)).map fun k => (k, k)) := by
    rw [List.perm_ext_iff_of_nodup h2 (List.nodup_range.map fun a b h => (Prod.mk.inj h).1)]
    rintro ⟨a, b⟩
    rw [List.mem_map, List.mem_map]
    constructor
    · rintro ⟨s, hs, e⟩
      obtain ⟨t, ht, hab, rfl⟩ := (C11_all n s).1 (h1 s hs)
      subst ht
      simp only [spinClass, List.take_left', List.drop_left', Prod.mk.injEq] at e
      exact ⟨a, List.mem_range.2 (by rw [← e.1]; exact Nat.lt_succ_of_le List.count_le_length),
        by rw [← e.1, ← e.2]⟩
    · rintro ⟨k, hk, e⟩
      obtain ⟨rfl, rfl⟩ := Prod.mk.inj e
      rw [List.mem_range] at hk
      have hmem : (List.replicate k 'a' ++ List.replicate (n - k) 'b') ++
          (List.replicate k 'a' ++ List.replicate (n - k) 'b') ∈ generateSpinCombinations n false false := by
        rw [C11_all]
        refine ⟨_, by simp; omega, ?_, rfl⟩
        intro c hc
        rw [List.mem_append] at hc
        rcases hc with hc | hc
        · exact Or.inl (List.eq_of_mem_replicate hc)
        · exact Or.inr (List.eq_of_mem_replicate hc)
      obtain ⟨s, hs, e⟩ := h3 _ hmem
      refine ⟨s, hs, e.trans ?_⟩
      have hl : (List.replicate k 'a' ++ List.replicate (n - k) 'b').length = n := by simp; omega
      unfold spinClass
      rw [List.take_left' hl, List.drop_left' hl]
      simp [List.count_append, List.count_replicate]
  have := hp.length_eq
  simpa using this

/-- Non-vacuity: the representatives of the mixed classes change places for odd `n`. -/
example : generateSpinCombinations 3 false true
    = ["aaaaaa".toList, "babbab".toList, "abaaba".toList, "bbbbbb".toList] := by decide
example : generateSpinCombinations 2 true true
    = ["aaa".toList, "aba".toList, "bab".toList, "bbb".toList] := by decide

end Ebcc
