import Verif.Model.Tril
import Verif.Lemmas.Array
import Mathlib.Data.Nat.Choose.Basic
import Mathlib.Data.Nat.Choose.Sum

namespace Ebcc

/-- Decreasing tuples of length `d`, by recursion on the first entry. `w = 0`: strictly, `w = 1`:
weakly decreasing. -/
def decTuples (w : Nat) : Nat → Nat → List (List Nat)
  | 0, _ => [[]]
  | d + 1, n => (List.range n).flatMap fun i => (decTuples w d (i + w)).map (i :: ·)

def wOf (diag : Bool) : Nat := if diag then 1 else 0

theorem adjacentDecreasing_cons (diag : Bool) (i : Nat) (l : List Nat) :
    adjacentDecreasing diag (i :: l) = true ↔
      (∀ j ∈ l.head?, j < i + wOf diag) ∧ adjacentDecreasing diag l = true := by
  cases l with
  | nil => simp [adjacentDecreasing]
  | cons y t =>
    simp only [adjacentDecreasing, Bool.and_eq_true, List.head?_cons, Option.mem_some_iff,
      forall_eq']
    cases diag <;> simp [wOf]

theorem flatMap_range_le {α : Type} (f : Nat → List α) (m n : Nat) (hm : m ≤ n) :
    ((List.range n).flatMap fun j => if j < m then f j else []) = (List.range m).flatMap f := by
  induction n with
  | zero => simp at hm; subst hm; simp
  | succ n ih =>
    rcases Nat.eq_or_lt_of_le hm with h | h
    · subst h
      rw [List.flatMap_def, List.flatMap_def]
      congr 1
      apply List.map_congr_left
      intro a ha
      rw [if_pos (List.mem_range.1 ha)]
    · rw [List.range_succ, List.flatMap_append, ih (by omega)]
      simp [show ¬ n < m by omega]

theorem filter_box_head (diag : Bool) (n : Nat) : ∀ (d m : Nat), m ≤ n →
    ((box (List.replicate d n)).filter fun l =>
      adjacentDecreasing diag l && l.head?.all (fun j => decide (j < m))) = decTuples (wOf diag) d m := by
  intro d
  induction d with
  | zero => intro m _; simp [box, decTuples, adjacentDecreasing]
  | succ d ih =>
    intro m hm
    simp only [List.replicate_succ, box, decTuples, List.filter_flatMap, List.filter_map]
    rw [← flatMap_range_le _ m n hm]
    rw [List.flatMap_def, List.flatMap_def]
    congr 1
    apply List.map_congr_left
    intro j hj
    rw [List.mem_range] at hj
    by_cases hjm : j < m
    · rw [if_pos hjm]
      congr 1
      by_cases hn : j + wOf diag ≤ n
      · rw [← ih _ hn]
        apply List.filter_congr
        intro l _
        simp only [Function.comp, List.head?_cons, Option.all_some, hjm, decide_true, Bool.and_true]
        rw [Bool.eq_iff_iff, adjacentDecreasing_cons]
        simp [and_comm]
        intro _; cases l <;> simp
      · exfalso; unfold wOf at hn; split at hn <;> omega
    · rw [if_neg hjm]
      simp [hjm]

theorem filter_box (diag : Bool) (n d : Nat) :
    (box (List.replicate d n)).filter (adjacentDecreasing diag) = decTuples (wOf diag) d n := by
  rw [← filter_box_head diag n d n (Nat.le_refl n)]
  apply List.filter_congr
  intro l hl
  cases d with
  | zero => simp [box] at hl; subst hl; simp
  | succ d =>
    rw [mem_box, List.replicate_succ] at hl
    unfold InBox at hl
    obtain ⟨i, t, hi, _, rfl⟩ := List.forall₂_cons_right_iff.1 hl
    simp [hi]

theorem trilIndices_ok (n d : Nat) (diag : Bool) (hd : d ≠ 0) :
    trilIndices n d diag = .ok (decTuples (wOf diag) d n) := by
  unfold trilIndices
  by_cases h1 : d = 1
  · subst h1
    simp [decTuples, List.flatMap_def]
    rw [← List.flatMap_def, List.map_eq_flatMap]
  · rw [if_neg h1, if_neg hd, filter_box]

theorem mem_decTuples (w : Nat) : ∀ (d n : Nat) (l : List Nat), l ∈ decTuples w d n ↔
    l.length = d ∧ (∀ i ∈ l.head?, i < n) ∧ l.IsChain (fun a b => b < a + w) := by
  intro d
  induction d with
  | zero => intro n l; simp only [decTuples, List.mem_singleton]; constructor
            · rintro rfl; simp
            · rintro ⟨h, _⟩; exact List.length_eq_zero_iff.1 h
  | succ d ih =>
    intro n l
    simp only [decTuples, List.mem_flatMap, List.mem_range, List.mem_map, ih]
    constructor
    · rintro ⟨i, hi, t, ⟨h1, h2, h3⟩, rfl⟩
      refine ⟨by simp [h1], by simpa using hi, ?_⟩
      rw [List.isChain_cons]
      exact ⟨h2, h3⟩
    · rintro ⟨h1, h2, h3⟩
      cases l with
      | nil => simp at h1
      | cons i t =>
        rw [List.isChain_cons] at h3
        exact ⟨i, by simpa using h2, t, ⟨by simpa using h1, h3.1, h3.2⟩, rfl⟩

theorem mem_decTuples_strict (d n : Nat) (l : List Nat) : l ∈ decTuples 0 d n ↔
    l.length = d ∧ (∀ i ∈ l, i < n) ∧ l.Pairwise (fun a b => b < a) := by
  rw [mem_decTuples]
  simp only [Nat.add_zero]
  constructor
  · rintro ⟨h1, h2, h3⟩
    have hp := List.isChain_iff_pairwise.1 h3
    refine ⟨h1, ?_, hp⟩
    cases l with
    | nil => simp
    | cons a t =>
      intro i hi
      rcases List.mem_cons.1 hi with rfl | hi
      · exact h2 i (by simp)
      · exact Nat.lt_trans ((List.pairwise_cons.1 hp).1 i hi) (h2 a (by simp))
  · rintro ⟨h1, h2, h3⟩
    exact ⟨h1, fun i hi => h2 i (List.mem_of_mem_head? hi), List.isChain_iff_pairwise.2 h3⟩

theorem mem_decTuples_weak (d n : Nat) (l : List Nat) : l ∈ decTuples 1 d n ↔
    l.length = d ∧ (∀ i ∈ l, i < n) ∧ l.Pairwise (fun a b => b ≤ a) := by
  rw [mem_decTuples]
  simp only [Nat.lt_add_one_iff]
  have trans : ∀ {a b c : Nat}, b ≤ a → c ≤ b → c ≤ a := fun h1 h2 => Nat.le_trans h2 h1
  constructor
  · rintro ⟨h1, h2, h3⟩
    have hp := (List.isChain_iff_pairwise).1 h3
    refine ⟨h1, ?_, hp⟩
    cases l with
    | nil => simp
    | cons a t =>
      intro i hi
      rcases List.mem_cons.1 hi with rfl | hi
      · exact h2 i (by simp)
      · exact Nat.lt_of_le_of_lt ((List.pairwise_cons.1 hp).1 i hi) (h2 a (by simp))
  · rintro ⟨h1, h2, h3⟩
    exact ⟨h1, fun i hi => h2 i (List.mem_of_mem_head? hi), (List.isChain_iff_pairwise).2 h3⟩

theorem sorted_decTuples (w : Nat) : ∀ d n, (decTuples w d n).Pairwise (List.Lex (· < ·)) := by
  intro d
  induction d with
  | zero => intro n; simp [decTuples]
  | succ d ih =>
    intro n
    simp only [decTuples]
    rw [List.pairwise_flatMap]
    constructor
    · intro i _
      rw [List.pairwise_map]
      exact (ih _).imp fun h => List.Lex.cons h
    · apply List.pairwise_lt_range.imp
      intro a b hab l hl l' hl'
      simp only [List.mem_map] at hl hl'
      obtain ⟨_, _, rfl⟩ := hl
      obtain ⟨_, _, rfl⟩ := hl'
      exact List.Lex.rel hab

theorem nodup_decTuples (w d n : Nat) : (decTuples w d n).Nodup := by
  induction d generalizing n with
  | zero => simp [decTuples]
  | succ d ih =>
    simp only [decTuples]
    rw [List.nodup_flatMap]
    constructor
    · intro i _; exact (ih _).map (fun a b h => by simpa using h)
    · apply List.nodup_range.imp
      intro a b hab l hl hl'
      simp only [List.mem_map] at hl hl'
      obtain ⟨_, _, rfl⟩ := hl
      obtain ⟨_, _, h⟩ := hl'
      exact hab (List.cons.inj h).1.symm

theorem length_decTuples_strict (d n : Nat) : (decTuples 0 d n).length = n.choose d := by
  induction d generalizing n with
  | zero => simp [decTuples]
  | succ d ih =>
    simp only [decTuples, List.length_flatMap, List.length_map, Nat.add_zero]
    induction n with
    | zero => simp
    | succ n ihn =>
      rw [List.range_succ, List.map_append, List.sum_append, ihn, Nat.choose_succ_succ]
      simp [ih]; omega

theorem length_decTuples_weak (d n : Nat) : (decTuples 1 d n).length = (n + d - 1).choose d := by
  induction d generalizing n with
  | zero => simp [decTuples]
  | succ d ih =>
    simp only [decTuples, List.length_flatMap, List.length_map]
    induction n with
    | zero => simp
    | succ n ihn =>
      rw [List.range_succ, List.map_append, List.sum_append, ihn]
      simp only [List.map_cons, List.map_nil, List.sum_cons, List.sum_nil, ih]
      rw [show n + (d + 1) - 1 = n + d by omega, show n + 1 + d - 1 = n + d by omega,
        show n + 1 + (d + 1) - 1 = (n + d) + 1 by omega, Nat.choose_succ_succ,
        Nat.succ_eq_add_one]
      omega

theorem length_combinations {α : Type} (xs : List α) (k : Nat) :
    (combinations xs k).length = xs.length.choose k := by
  induction xs generalizing k with
  | nil => cases k <;> simp [combinations]
  | cons x xs ih =>
    cases k with
    | zero => simp [combinations]
    | succ k => simp [combinations, ih, Nat.choose_succ_succ]

theorem length_combinationsWithReplacement {α : Type} (xs : List α) (k : Nat) :
    (combinationsWithReplacement xs k).length = (xs.length + k - 1).choose k := by
  induction xs generalizing k with
  | nil =>
    cases k with
    | zero => simp [combinationsWithReplacement]
    | succ k => simp [combinationsWithReplacement]
  | cons x xs ih =>
    induction k with
    | zero => simp [combinationsWithReplacement]
    | succ k ihk =>
      rw [combinationsWithReplacement, List.length_append, List.length_map, ihk, ih]
      simp only [List.length_cons]
      rw [show xs.length + 1 + k - 1 = xs.length + k by omega,
        show xs.length + (k + 1) - 1 = xs.length + k by omega,
        show xs.length + 1 + (k + 1) - 1 = (xs.length + k) + 1 by omega, Nat.choose_succ_succ]

end Ebcc
