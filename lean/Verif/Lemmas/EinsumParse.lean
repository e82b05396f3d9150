import Verif.Model.Einsum
import Verif.Lemmas.Py
import Verif.Lemmas.Sym
import Mathlib.Data.List.Sort
import Mathlib.Tactic.Common
import Mathlib.Data.Char

namespace Ebcc

section
variable {R : Type}

/-- Symbols and commas only. -/
def SymComma (s : List Char) : Prop := ∀ c ∈ s, c = ',' ∨ c ∈ einsumSymbols

theorem symbol_ne {c : Char} (h : c ∈ einsumSymbols) :
    c ≠ ' ' ∧ c ≠ '+' ∧ c ≠ '-' ∧ c ≠ '>' ∧ c ≠ '.' ∧ c ≠ ',' := by
  refine ⟨?_, ?_, ?_, ?_, ?_, ?_⟩ <;> (rintro rfl; revert h; decide)

theorem SymComma.ne {s : List Char} (h : SymComma s) {c : Char} (hc : c ∈ s) :
    c ≠ ' ' ∧ c ≠ '+' ∧ c ≠ '-' ∧ c ≠ '>' ∧ c ≠ '.' := by
  rcases h c hc with rfl | h
  · decide
  · exact ⟨(symbol_ne h).1, (symbol_ne h).2.1, (symbol_ne h).2.2.1, (symbol_ne h).2.2.2.1,
      (symbol_ne h).2.2.2.2.1⟩

theorem signLoop_plain [Neg R] : ∀ (s : List Char) (j : Nat) (ops : List (NDArray R)),
    (∀ c ∈ s, c ≠ '+' ∧ c ≠ '-') → signLoop s j ops = .ok (s, ops)
  | [], _, _, _ => rfl
  | c :: s, j, ops, h => by
    have hc := h c (by simp)
    unfold signLoop
    rw [if_neg hc.1, if_neg hc.2, signLoop_plain s _ ops fun c hc => h c (by simp [hc])]
    rfl

theorem signLoop_arrow [Neg R] : ∀ (u v : List Char) (j : Nat) (ops : List (NDArray R)),
    (∀ c ∈ u, c ≠ '+' ∧ c ≠ '-') → (∀ c ∈ v, c ≠ '+' ∧ c ≠ '-') →
    signLoop (u ++ '-' :: '>' :: v) j ops = .ok (u ++ '-' :: '>' :: v, ops)
  | [], v, j, ops, _, hv => by
    rw [List.nil_append]
    unfold signLoop
    rw [if_neg (by decide), if_pos rfl]
    simp only
    rw [if_neg (by simp), signLoop_plain ('>' :: v)]
    · rfl
    · intro c hc
      rcases List.mem_cons.1 hc with rfl | hc
      · decide
      · exact hv c hc
  | c :: u, v, j, ops, hu, hv => by
    have hc := hu c (by simp)
    rw [List.cons_append]
    unfold signLoop
    rw [if_neg hc.1, if_neg hc.2, signLoop_arrow u v _ ops (fun c hc => hu c (by simp [hc])) hv]
    rfl

theorem countArrow_eq_zero : ∀ {s : List Char}, '>' ∉ s → countArrow s = 0
  | [], _ => rfl
  | [_], _ => rfl
  | a :: b :: l, h => by
    simp only [List.mem_cons, not_or] at h
    unfold countArrow
    rw [if_neg (by rintro ⟨_, rfl⟩; exact h.2.1 rfl)]
    exact countArrow_eq_zero (by simp [h.2.1, h.2.2])

theorem split_arrow : ∀ (u v : List Char), '-' ∉ u → '>' ∉ v →
    countArrow (u ++ '-' :: '>' :: v) = 1 ∧ splitArrow (u ++ '-' :: '>' :: v) = (u, v)
  | [], v, _, hv => by
    simp [countArrow, splitArrow, countArrow_eq_zero hv]
  | [a], v, hu, hv => by
    have ha : a ≠ '-' := by rintro rfl; simp at hu
    have h := split_arrow [] v (by simp) hv
    simp only [List.nil_append] at h
    constructor
    · rw [List.singleton_append, countArrow, if_neg (by simp [ha])]; exact h.1
    · rw [List.singleton_append, splitArrow, if_neg (by simp [ha]), h.2]
  | a :: b :: u, v, hu, hv => by
    have ha : a ≠ '-' := by rintro rfl; simp at hu
    have h := split_arrow (b :: u) v (by intro hh; exact hu (by simp [hh])) hv
    simp only [List.cons_append] at h ⊢
    constructor
    · rw [countArrow, if_neg (by simp [ha])]; exact h.1
    · rw [splitArrow, if_neg (by simp [ha]), h.2]

theorem splitArrow_spec : ∀ {s : List Char}, countArrow s ≠ 0 →
    s = (splitArrow s).1 ++ '-' :: '>' :: (splitArrow s).2
  | [], h => absurd rfl h
  | [_], h => absurd rfl h
  | a :: b :: l, h => by
    unfold splitArrow
    split
    · rename_i hab
      rw [hab.1, hab.2]; rfl
    · rename_i hab
      rw [countArrow, if_neg hab] at h
      conv_lhs => rw [splitArrow_spec h]
      rfl

/-- The string form on a text of symbols and commas without arrow. -/
theorem parseStr_plain [Neg R] {s : List Char} (hs : SymComma s) (hne : s ≠ [])
    (ops : List (NDArray R)) : parseStr s ops = .ok (s, ops) := by
  have hf : (s.filter fun c => decide (c ≠ ' ')) = s :=
    List.filter_eq_self.2 fun c hc => by simpa using (hs.ne hc).1
  unfold parseStr
  simp only [hf]
  cases s with
  | nil => exact absurd rfl hne
  | cons c s =>
    simp only
    rw [signLoop_plain _ _ _ fun c hc => ⟨(hs.ne hc).2.1, (hs.ne hc).2.2.1⟩]
    simp only [bind, Except.bind]
    rw [if_pos]
    · rfl
    · rw [List.all_eq_true]
      intro x hx
      rcases hs x hx with rfl | h
      · decide
      · simp [h]

theorem parseStr_arrow [Neg R] {u v : List Char} (hu : SymComma u) (hv : SymComma v)
    (ops : List (NDArray R)) :
    parseStr (u ++ '-' :: '>' :: v) ops = .ok (u ++ '-' :: '>' :: v, ops) := by
  have hf : ((u ++ '-' :: '>' :: v).filter fun c => decide (c ≠ ' ')) = u ++ '-' :: '>' :: v := by
    refine List.filter_eq_self.2 fun c hc => ?_
    simp only [List.mem_append, List.mem_cons] at hc
    rcases hc with hc | rfl | rfl | hc
    · simpa using (hu.ne hc).1
    · decide
    · decide
    · simpa using (hv.ne hc).1
  unfold parseStr
  simp only [hf]
  cases h : u ++ '-' :: '>' :: v with
  | nil => simp at h
  | cons c s =>
    simp only
    rw [← h, signLoop_arrow _ _ _ _ (fun c hc => ⟨(hu.ne hc).2.1, (hu.ne hc).2.2.1⟩)
      fun c hc => ⟨(hv.ne hc).2.1, (hv.ne hc).2.2.1⟩]
    simp only [bind, Except.bind]
    rw [if_pos]
    · rfl
    · rw [List.all_eq_true]
      intro x hx
      simp only [List.mem_append, List.mem_cons] at hx
      rcases hx with hc | rfl | rfl | hc
      · rcases hu x hc with rfl | h
        · decide
        · simp [h]
      · decide
      · decide
      · rcases hv x hc with rfl | h
        · decide
        · simp [h]

theorem sortChars_mem {l : List Char} {c : Char} : c ∈ sortChars l ↔ c ∈ l :=
  (List.perm_insertionSort _ _).mem_iff

theorem sortChars_strict {l : List Char} (h : l.Nodup) : (sortChars l).Pairwise (· < ·) := by
  have hs : (sortChars l).Pairwise (· ≤ ·) := List.pairwise_insertionSort _ _
  have hn : (sortChars l).Nodup := (List.perm_insertionSort _ _).nodup_iff.2 h
  exact hs.imp₂ (fun a b hab hne => lt_of_le_of_ne hab hne) hn

theorem implicitOutput_ok {s : List Char} (hs : SymComma s) :
    ∃ out, implicitOutput s = .ok out ∧ out.Pairwise (· < ·) ∧
      ∀ c, c ∈ out ↔ c ≠ ',' ∧ s.count c = 1 := by
  unfold implicitOutput
  simp only
  rw [if_pos]
  · refine ⟨_, rfl, (sortChars_strict (unique_nodup _)).filter _, fun c => ?_⟩
    have hcount : c ≠ ',' → (s.filter fun c => decide (c ≠ ',')).count c = s.count c := by
      intro hc
      rw [List.count_filter (by simpa using hc)]
    rw [List.mem_filter, sortChars_mem, mem_unique, List.mem_filter]
    constructor
    · rintro ⟨⟨_, h2⟩, h3⟩
      have h2 : c ≠ ',' := by simpa using h2
      exact ⟨h2, by rw [← hcount h2]; simpa using h3⟩
    · rintro ⟨h1, h2⟩
      refine ⟨⟨List.count_pos_iff.1 (by omega), by simpa using h1⟩, ?_⟩
      rw [hcount h1]; simpa using h2
  · rw [List.all_eq_true]
    intro c hc
    rw [sortChars_mem, mem_unique, List.mem_filter] at hc
    rcases hs c hc.1 with rfl | h
    · simp at hc
    · simpa using h

theorem parseCommon_implicit {s : List Char} (hs : SymComma s) (bound : Bool) (ops : List (NDArray R)) :
    ∃ out, parseCommon bound s ops = .ok (s, out, ops) ∧ out.Pairwise (· < ·) ∧
      ∀ c, c ∈ out ↔ c ≠ ',' ∧ s.count c = 1 := by
  obtain ⟨out, h1, h2, h3⟩ := implicitOutput_ok hs
  refine ⟨out, ?_, h2, h3⟩
  have hm : '-' ∉ s := fun h => (hs.ne h).2.2.1 rfl
  have hg : '>' ∉ s := fun h => (hs.ne h).2.2.2.1 rfl
  have hd : '.' ∉ s := fun h => (hs.ne h).2.2.2.2 rfl
  unfold parseCommon parseTail
  rw [if_neg (by simp [hm, hg]), if_neg hd, if_neg (by rw [countArrow_eq_zero hg]; decide), h1]
  simp only [bind, Except.bind, pure, Except.pure]
  rw [if_pos]
  rw [List.all_eq_true]
  intro c hc
  have hn : out.Nodup := h2.imp fun h => ne_of_lt h
  have h4 := (h3 c).1 hc
  simp only [Bool.and_eq_true, decide_eq_true_eq]
  exact ⟨List.count_eq_one_of_mem hn hc, List.count_pos_iff.1 (by omega)⟩

theorem parseCommon_explicit {u v : List Char} (hu : SymComma u) (hv : SymComma v) (bound : Bool)
    (ops : List (NDArray R)) : parseCommon bound (u ++ '-' :: '>' :: v) ops
      = if v.Nodup ∧ ∀ c ∈ v, c ∈ u then .ok (u, v, ops)
        else if bound then .error .valueError else .error .nameError := by
  have hum : '-' ∉ u := fun h => (hu.ne h).2.2.1 rfl
  have hug : '>' ∉ u := fun h => (hu.ne h).2.2.2.1 rfl
  have hud : '.' ∉ u := fun h => (hu.ne h).2.2.2.2 rfl
  have hvm : '-' ∉ v := fun h => (hv.ne h).2.2.1 rfl
  have hvg : '>' ∉ v := fun h => (hv.ne h).2.2.2.1 rfl
  have hvd : '.' ∉ v := fun h => (hv.ne h).2.2.2.2 rfl
  obtain ⟨ca, sa⟩ := split_arrow u v hum hvg
  unfold parseCommon parseTail
  rw [if_neg, if_neg, if_pos ca, sa]
  · simp only [bind, Except.bind, pure, Except.pure]
    have hiff : (v.all fun c => decide (v.count c = 1) && decide (c ∈ u)) = true
        ↔ v.Nodup ∧ ∀ c ∈ v, c ∈ u := by
      rw [List.all_eq_true, List.nodup_iff_count_eq_one]
      simp only [Bool.and_eq_true, decide_eq_true_eq]
      exact ⟨fun h => ⟨fun c hc => (h c hc).1, fun c hc => (h c hc).2⟩, fun h c hc => ⟨h.1 c hc, h.2 c hc⟩⟩
    by_cases h : v.Nodup ∧ ∀ c ∈ v, c ∈ u
    · rw [if_pos (hiff.2 h), if_pos h]
    · rw [if_neg (fun x => h (hiff.1 x)), if_neg h]
  · simp [hud, hvd]
  · simp [ca, List.count_append, List.count_eq_zero.2 hum, List.count_eq_zero.2 hug,
      List.count_eq_zero.2 hvm, List.count_eq_zero.2 hvg]

theorem mapM_asArr (l : List (NDArray R)) : (l.map EinArg.arr).mapM EinArg.asArr = .ok l := by
  induction l with
  | nil => rfl
  | cons a l ih =>
    rw [List.map_cons, List.mapM_cons, ih]; rfl

theorem splitComma_plain : ∀ {s : List Char}, ',' ∉ s → splitComma s = [s]
  | [], _ => rfl
  | c :: s, h => by
    simp only [List.mem_cons, not_or] at h
    unfold splitComma
    rw [if_neg (Ne.symm h.1), splitComma_plain h.2]

theorem splitComma_append : ∀ {s t : List Char}, ',' ∉ s → splitComma (s ++ ',' :: t) = s :: splitComma t
  | [], t, _ => by simp [splitComma]
  | c :: s, t, h => by
    simp only [List.mem_cons, not_or] at h
    rw [List.cons_append, splitComma, if_neg (Ne.symm h.1), splitComma_append h.2]

theorem splitComma_join : ∀ {l : List (List Char)}, l ≠ [] → (∀ s ∈ l, ',' ∉ s) →
    splitComma (commaJoin l) = l
  | [], h, _ => absurd rfl h
  | [s], _, h => by simp [commaJoin, splitComma_plain (h s (by simp))]
  | s :: t :: l, _, h => by
    rw [commaJoin, splitComma_append (h s (by simp)), splitComma_join (by simp) fun x hx => h x (by simp [hx])]
    simp

theorem mem_commaJoin : ∀ {l : List (List Char)} {c : Char}, c ∈ commaJoin l →
    c = ',' ∨ ∃ s ∈ l, c ∈ s
  | [], c, h => by simp [commaJoin] at h
  | [s], c, h => by simp only [commaJoin] at h; exact Or.inr ⟨s, by simp, h⟩
  | s :: t :: l, c, h => by
    rw [commaJoin] at h
    simp only [List.mem_append, List.mem_cons] at h
    rcases h with h | rfl | h
    · exact Or.inr ⟨s, by simp, h⟩
    · exact Or.inl rfl
    · rcases mem_commaJoin h with h | ⟨x, hx, hc⟩
      · exact Or.inl h
      · exact Or.inr ⟨x, by simp [hx], hc⟩
    · simp

theorem commaJoin_mem : ∀ {l : List (List Char)} {c : Char} {s : List Char}, s ∈ l → c ∈ s →
    c ∈ commaJoin l
  | [t], c, s, h, hc => by
    rw [List.mem_singleton] at h; subst h; exact hc
  | t :: t' :: l, c, s, h, hc => by
    rw [commaJoin, List.mem_append, List.mem_cons]
    rcases List.mem_cons.1 h with rfl | h
    · exact Or.inl hc
    · exact Or.inr (Or.inr (commaJoin_mem h hc))
    · simp

theorem symComma_join {l : List (List Char)} (h : ∀ s ∈ l, ∀ c ∈ s, c ∈ einsumSymbols) :
    SymComma (commaJoin l) := by
  intro c hc
  rcases mem_commaJoin hc with h' | ⟨s, hs, hcs⟩
  · exact Or.inl h'
  · exact Or.inr (h s hs c hcs)

end
end Ebcc
