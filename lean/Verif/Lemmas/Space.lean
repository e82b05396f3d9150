import Verif.Model.Space
import Mathlib.Data.List.Sort
import Mathlib.Data.List.Range
import Mathlib.Tactic.Common

namespace Ebcc

/-- Orbital `p` is in the mask. -/
def inMask (m : List Bool) (p : Nat) : Bool := m.getD p false

theorem inMask_lt {m : List Bool} {p : Nat} (h : inMask m p = true) : p < m.length := by
  unfold inMask at h
  by_contra hn
  rw [List.getD_eq_getElem?_getD, List.getElem?_eq_none (by omega)] at h
  simp at h

theorem inMask_cons_succ (b : Bool) (m : List Bool) (p : Nat) : inMask (b :: m) (p + 1) = inMask m p := by
  simp [inMask]

theorem inMask_not {m : List Bool} {p : Nat} (h : p < m.length) : inMask (maskNot m) p = !inMask m p := by
  simp [inMask, maskNot, List.getD_eq_getElem?_getD, h]

theorem inMask_and (a b : List Bool) (p : Nat) :
    inMask (maskAnd a b) p = (inMask a p && inMask b p) := by
  simp only [inMask, maskAnd, List.getD_eq_getElem?_getD, List.getElem?_zipWith]
  cases a[p]? <;> cases b[p]? <;> simp

theorem length_not (m : List Bool) : (maskNot m).length = m.length := by simp [maskNot]

theorem length_and {a b : List Bool} (h : a.length = b.length) : (maskAnd a b).length = a.length := by
  simp [maskAnd, h]

theorem countTrue_eq (m : List Bool) :
    countTrue m = ((List.range m.length).filter (inMask m)).length := by
  induction m with
  | nil => rfl
  | cons b m ih =>
    rw [List.length_cons, List.range_succ_eq_map, List.filter_cons]
    have : ((List.map Nat.succ (List.range m.length)).filter (inMask (b :: m))).length
        = ((List.range m.length).filter (inMask m)).length := by
      rw [List.filter_map, List.length_map]
      rfl
    cases b <;> simp [inMask, countTrue] at * <;> omega

theorem sorted_filter_range (n : Nat) (f : Nat → Bool) : ((List.range n).filter f).Pairwise (· < ·) :=
  List.pairwise_lt_range.filter _

theorem eq_of_sorted_of_mem {l m : List Nat} (hl : l.Pairwise (· < ·)) (hm : m.Pairwise (· < ·))
    (h : ∀ x, x ∈ l ↔ x ∈ m) : l = m := by
  refine ((List.perm_ext_iff_of_nodup ?_ ?_).2 h).eq_of_pairwise
    (fun a b _ _ hab hba => absurd (lt_trans hab hba) (lt_irrefl _)) hl hm
  · exact hl.imp fun h => ne_of_lt h
  · exact hm.imp fun h => ne_of_lt h

theorem selectMask_range (m : List Bool) (k : Nat) :
    selectMask m (List.range' k m.length)
      = (List.range' k m.length).filter fun p => inMask m (p - k) := by
  induction m generalizing k with
  | nil => rfl
  | cons b m ih =>
    rw [List.length_cons, List.range'_succ]
    have h2 : ((List.range' (k + 1) m.length).filter fun p => inMask (b :: m) (p - k))
        = (List.range' (k + 1) m.length).filter fun p => inMask m (p - (k + 1)) := by
      apply List.filter_congr
      intro x hx
      have := List.mem_range'_1.1 hx
      rw [show x - k = (x - (k + 1)) + 1 by omega, inMask_cons_succ]
    have ih := ih (k + 1)
    cases b
    · simp only [selectMask, List.zip_cons_cons] at *
      rw [List.filterMap_cons, List.filter_cons, h2, ← ih]
      simp [inMask]
    · simp only [selectMask, List.zip_cons_cons] at *
      rw [List.filterMap_cons, List.filter_cons, h2, ← ih]
      simp [inMask]

theorem selectMask_range0 (m : List Bool) :
    selectMask m (List.range m.length) = (List.range m.length).filter (inMask m) := by
  have := selectMask_range m 0
  rw [← List.range_eq_range'] at this
  simpa using this

/-- Indexing twice is indexing once by the conjunction. -/
theorem selectMask_select {α : Type} : ∀ (a m : List Bool) (x : List α), a.length = x.length →
    m.length = x.length → selectMask (selectMask a m) (selectMask a x) = selectMask (maskAnd a m) x
  | [], m, x, ha, hm => by cases x <;> simp_all [selectMask, maskAnd]
  | b :: a, c :: m, y :: x, ha, hm => by
    have ih := selectMask_select a m x (by simpa using ha) (by simpa using hm)
    cases b <;> cases c <;> simp_all [selectMask, maskAnd]
  | b :: a, [], y :: x, ha, hm => by simp at hm
  | b :: a, m, [], ha, hm => by simp at ha

theorem mem_pySlice_range {n : Nat} {ab : Int × Int} {x : Nat} :
    x ∈ pySlice (List.range n) ab ↔ sliceBound n ab.1 ≤ x ∧ x < sliceBound n ab.2 ∧ x < n := by
  unfold pySlice
  rw [List.length_range, List.take_range, List.range_eq_range', List.drop_range', List.mem_range'_1]
  omega

theorem sorted_pySlice_range (n : Nat) (ab : Int × Int) :
    (pySlice (List.range n) ab).Pairwise (· < ·) :=
  (List.pairwise_lt_range.take).drop

theorem pySlice_map {α β : Type} (f : α → β) (x : List α) (ab : Int × Int) :
    pySlice (x.map f) ab = (pySlice x ab).map f := by
  simp [pySlice, List.map_take, List.map_drop]

/-- The shape of a mask with contiguous orbitals. -/
def IsBlock (m : List Bool) (a b : Nat) : Prop :=
  a ≤ b ∧ b ≤ m.length ∧ ∀ p, inMask m p = true ↔ a ≤ p ∧ p < b

theorem inMask_eq_getElem {m : List Bool} {p : Nat} (h : p < m.length) : inMask m p = m[p] := by
  simp [inMask, List.getD_eq_getElem?_getD, h]

theorem idxOf_le_of_inMask {m : List Bool} {p : Nat} (h : inMask m p = true) : m.idxOf true ≤ p := by
  have hp := inMask_lt h
  rw [inMask_eq_getElem hp] at h
  by_contra hn
  push Not at hn
  have := List.not_of_lt_findIdx (p := fun x => x == true) hn
  simp [h] at this

theorem count_drop_take (m : List Bool) (k : Nat) :
    m.count true = (m.take k).count true + (m.drop k).count true := by
  rw [← List.count_append, List.take_append_drop]

theorem all_true_count {l : List Bool} (h : l.all id = true) : l.count true = l.length := by
  rw [List.count_eq_length]
  intro b hb
  simpa using ((List.all_eq_true.1 h) b hb).symm

/-- The contiguity check of `Space.slice`. -/
theorem block_of_check {m : List Bool} {f n : Nat} (hf : f = if true ∈ m then m.idxOf true else 0)
    (hn : n = countTrue m) (hchk : ((m.take (f + n)).drop f).all id = true) : IsBlock m f (f + n) := by
  unfold countTrue at hn
  by_cases ht : true ∈ m
  · rw [if_pos ht] at hf
    have hfl : f < m.length := hf ▸ List.idxOf_lt_length_of_mem ht
    have h0 : (m.take f).count true = 0 := by
      rw [List.count_eq_zero]
      intro hmem
      obtain ⟨i, hi, e⟩ := List.mem_take_iff_getElem.1 hmem
      have : inMask m i = true := by rw [inMask_eq_getElem (by omega)]; exact e
      have := idxOf_le_of_inMask this
      omega
    have hdrop : (m.drop f).count true = n := by rw [hn, count_drop_take m f, h0]; omega
    have hlen : n ≤ m.length - f := by
      have := List.count_le_length (a := true) (l := m.drop f)
      rw [hdrop, List.length_drop] at this; exact this
    have hmid : (m.take (f + n)).drop f = (m.drop f).take n := by
      rw [List.drop_take, Nat.add_sub_cancel_left]
    rw [hmid] at hchk
    have hmc : ((m.drop f).take n).count true = n := by
      rw [all_true_count hchk, List.length_take, List.length_drop]; omega
    have htail : ((m.drop f).drop n).count true = 0 := by
      have := count_drop_take (m.drop f) n
      omega
    refine ⟨by omega, by omega, fun p => ?_⟩
    constructor
    · intro hp
      have h1 := idxOf_le_of_inMask hp
      rw [← hf] at h1
      refine ⟨h1, ?_⟩
      by_contra hge
      push Not at hge
      have hpl := inMask_lt hp
      rw [inMask_eq_getElem hpl] at hp
      rw [List.count_eq_zero] at htail
      apply htail
      rw [List.drop_drop]
      rw [List.mem_drop_iff_getElem]
      exact ⟨p - (f + n), by omega, by simp only [show f + n + (p - (f + n)) = p by omega]; exact hp⟩
    · rintro ⟨h1, h2⟩
      rw [inMask_eq_getElem (by omega)]
      have := (List.all_eq_true.1 hchk) m[p] (by
        rw [List.mem_take_iff_getElem]
        refine ⟨p - f, by rw [List.length_drop]; omega, ?_⟩
        simp only [List.getElem_drop, show f + (p - f) = p by omega])
      simpa using this
  · rw [if_neg ht] at hf
    have : n = 0 := by rw [hn, List.count_eq_zero]; exact ht
    subst hf
    rw [this]
    refine ⟨by omega, by omega, fun p => ⟨fun hp => ?_, fun h => by omega⟩⟩
    have hpl := inMask_lt hp
    rw [inMask_eq_getElem hpl] at hp
    exact absurd (hp ▸ List.getElem_mem hpl) ht

theorem countTrue_block {m : List Bool} {a b : Nat} (h : IsBlock m a b) : countTrue m = b - a := by
  rw [countTrue_eq]
  have : (List.range m.length).filter (inMask m) = List.range' a (b - a) := by
    apply eq_of_sorted_of_mem (sorted_filter_range _ _) List.pairwise_lt_range'
    intro x
    rw [List.mem_filter, List.mem_range, h.2.2, List.mem_range'_1]
    have := h.1
    have := h.2.1
    omega
  rw [this, List.length_range']

theorem slice_mask_eq_filter {m : List Bool} {a b : Nat} (h : IsBlock m a b) :
    pySlice (List.range m.length) ((a : Int), (b : Int)) = (List.range m.length).filter (inMask m) := by
  apply eq_of_sorted_of_mem (sorted_pySlice_range _ _) (sorted_filter_range _ _)
  intro x
  rw [mem_pySlice_range, List.mem_filter, List.mem_range, h.2.2]
  have := h.2.1
  simp only [sliceBound]
  rw [if_neg (by omega), if_neg (by omega)]
  simp only [Int.toNat_natCast]
  omega

end Ebcc
