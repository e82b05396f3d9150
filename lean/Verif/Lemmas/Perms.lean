import Verif.Model.Perms
import Verif.Spec.Perm
import Mathlib.Data.Nat.Factorial.Basic
import Mathlib.Data.List.Perm.Basic
import Mathlib.Data.List.Perm.Subperm
import Mathlib.Data.List.Nodup
import Mathlib.Algebra.Ring.Parity

namespace Ebcc

theorem length_insertAt {α : Type} (l : List α) (x : α) (i : Nat) :
    (insertAt l x i).length = l.length + 1 := by
  simp [insertAt]; omega

theorem insertAt_perm {α : Type} (l : List α) (x : α) (i : Nat) :
    (insertAt l x i).Perm (x :: l) := by
  unfold insertAt
  exact List.perm_middle.trans (by simp [List.take_append_drop])

theorem insertAt_map {α β : Type} (f : α → β) (l : List α) (x : α) (i : Nat) :
    insertAt (l.map f) (f x) i = (insertAt l x i).map f := by
  simp [insertAt, List.map_take, List.map_drop]

theorem length_insertPositions (i len : Nat) : (insertPositions i len).length = len + 1 := by
  unfold insertPositions; split <;> simp

theorem mem_insertPositions {i len j : Nat} : j ∈ insertPositions i len ↔ j < len + 1 := by
  unfold insertPositions; split <;> simp

theorem nodup_insertPositions (i len : Nat) : (insertPositions i len).Nodup := by
  unfold insertPositions; split
  · exact List.nodup_range
  · exact List.nodup_reverse.2 List.nodup_range

theorem getElem?_flatMap_const {α β : Type} (f : α → List β) (k : Nat) (hk : 0 < k) :
    ∀ (L : List α), (∀ a ∈ L, (f a).length = k) → ∀ i : Nat,
      (L.flatMap f)[i]? = (L[i / k]?).bind fun a => (f a)[i % k]? := by
  intro L
  induction L with
  | nil => intro _ i; simp
  | cons a L ih =>
    intro h i
    have ha : (f a).length = k := h a (by simp)
    have hL := ih (fun b hb => h b (by simp [hb]))
    rw [List.flatMap_cons, List.getElem?_append, ha]
    by_cases hi : i < k
    · simp [hi, Nat.div_eq_of_lt hi, Nat.mod_eq_of_lt hi]
    · have hge : k ≤ i := Nat.le_of_not_lt hi
      rw [if_neg hi, hL (i - k)]
      have h1 : i / k = (i - k) / k + 1 := by
        rw [Nat.div_eq_sub_div hk hge]
      have h2 : (i - k) % k = i % k := (Nat.mod_eq_sub_mod hge).symm
      rw [h1, h2]
      simp

theorem mem_of_zipIdx {α : Type} {L : List α} {a : α} {i k : Nat} (h : (a, i) ∈ L.zipIdx k) :
    a ∈ L := by
  have := List.mem_map_of_mem (f := Prod.fst) h
  simpa using this

theorem length_of_mem_permsRev {α : Type} (xs : List α) :
    ∀ l ∈ permsRev xs, l.length = xs.length := by
  induction xs with
  | nil => intro l hl; simp [permsRev] at hl; simp [hl]
  | cons x xs ih =>
    intro l hl
    simp only [permsRev, List.mem_flatMap, List.mem_map] at hl
    obtain ⟨⟨item, i⟩, hmem, j, _, rfl⟩ := hl
    have : item ∈ permsRev xs := mem_of_zipIdx hmem
    rw [length_insertAt, ih _ this, List.length_cons]

theorem perm_of_mem_permsRev {α : Type} (xs : List α) :
    ∀ l ∈ permsRev xs, l.Perm xs := by
  induction xs with
  | nil => intro l hl; simp [permsRev] at hl; simp [hl]
  | cons x xs ih =>
    intro l hl
    simp only [permsRev, List.mem_flatMap, List.mem_map] at hl
    obtain ⟨⟨item, i⟩, hmem, j, _, rfl⟩ := hl
    have : item ∈ permsRev xs := mem_of_zipIdx hmem
    exact (insertAt_perm _ _ _).trans (List.Perm.cons _ (ih _ this))

theorem mem_permsRev_of_perm {α : Type} (xs : List α) :
    ∀ l : List α, l.Perm xs → l ∈ permsRev xs := by
  induction xs with
  | nil => intro l hl; simp [permsRev, List.perm_nil.1 hl]
  | cons x xs ih =>
    intro l hl
    have hx : x ∈ l := hl.mem_iff.2 (by simp)
    obtain ⟨s, t, rfl⟩ := List.append_of_mem hx
    have hst : (s ++ t).Perm xs := (List.perm_cons x).1 (List.perm_middle.symm.trans hl)
    have hmem := ih _ hst
    obtain ⟨i, hi, hget⟩ := List.getElem_of_mem hmem
    simp only [permsRev, List.mem_flatMap, List.mem_map]
    refine ⟨(s ++ t, i), ?_, s.length, ?_, ?_⟩
    · rw [List.mem_zipIdx_iff_getElem?]
      simp [← hget]
    · rw [mem_insertPositions]; simp; omega
    · simp [insertAt]

theorem length_permsRev {α : Type} (xs : List α) :
    (permsRev xs).length = Nat.factorial xs.length := by
  induction xs with
  | nil => simp [permsRev]
  | cons x xs ih =>
    simp only [permsRev, List.length_flatMap, List.length_map, length_insertPositions]
    have : ((permsRev xs).zipIdx.map fun (p : List α × Nat) => p.1.length + 1)
        = List.replicate (permsRev xs).length (xs.length + 1) := by
      rw [List.eq_replicate_iff]
      constructor
      · simp
      · intro b hb
        simp only [List.mem_map] at hb
        obtain ⟨⟨item, i⟩, hmem, rfl⟩ := hb
        have : item ∈ permsRev xs := mem_of_zipIdx hmem
        simp [length_of_mem_permsRev _ _ this]
    rw [this, List.sum_replicate_nat, ih, List.length_cons, Nat.factorial_succ, Nat.mul_comm]

theorem nodup_permsRev {α : Type} [DecidableEq α] (xs : List α) (hn : xs.Nodup) :
    (permsRev xs).Nodup := by
  induction xs with
  | nil => simp [permsRev]
  | cons x xs ih =>
    have hx : x ∉ xs := (List.nodup_cons.1 hn).1
    have hxs := ih (List.nodup_cons.1 hn).2
    have erase_ins : ∀ (item : List α) (j : Nat), x ∉ item →
        (insertAt item x j).erase x = item := by
      intro item j hni
      unfold insertAt
      rw [List.erase_append_right _ (fun h => hni (List.mem_of_mem_take h)),
        List.erase_cons_head, List.take_append_drop]
    have idx_ins : ∀ (item : List α) (j : Nat), x ∉ item → j ≤ item.length →
        (insertAt item x j).idxOf x = j := by
      intro item j hni hj
      unfold insertAt
      rw [List.idxOf_append_of_notMem (fun h => hni (List.mem_of_mem_take h)),
        List.idxOf_cons_self]
      simp; omega
    have hni : ∀ item ∈ permsRev xs, x ∉ item := fun item hi h =>
      hx ((perm_of_mem_permsRev xs item hi).mem_iff.1 h)
    simp only [permsRev]
    rw [List.nodup_flatMap]
    constructor
    · rintro ⟨item, i⟩ hmem
      have hi : item ∈ permsRev xs := mem_of_zipIdx hmem
      apply List.Nodup.map_on _ (nodup_insertPositions _ _)
      intro j hj j' hj' h
      rw [mem_insertPositions] at hj hj'
      simp only at hj hj'
      have e1 := idx_ins item j (hni _ hi) (by omega)
      have e2 := idx_ins item j' (hni _ hi) (by omega)
      rw [← e1, ← e2, h]
    · have hz : ((permsRev xs).zipIdx).Pairwise fun a b => a.1 ≠ b.1 := by
        have : ((permsRev xs).zipIdx.map Prod.fst).Nodup := by simpa using hxs
        exact List.pairwise_map.1 this
      apply (List.Pairwise.and_mem.1 hz).imp
      rintro ⟨a, i⟩ ⟨b, i'⟩ ⟨ha, hb, hab⟩
      have ha' : a ∈ permsRev xs := mem_of_zipIdx ha
      have hb' : b ∈ permsRev xs := mem_of_zipIdx hb
      simp only [Function.onFun]
      intro l hl hl'
      simp only [List.mem_map] at hl hl'
      obtain ⟨j, _, rfl⟩ := hl
      obtain ⟨j', _, h⟩ := hl'
      apply hab
      have := congrArg (fun t => t.erase x) h
      simp only [erase_ins _ _ (hni _ ha'), erase_ins _ _ (hni _ hb')] at this
      exact this.symm

/-! ### Signs -/

theorem inversions_append (a b : List Nat) :
    inversions (a ++ b) = inversions a + inversions b
      + (a.map fun x => (b.filter fun y => decide (y < x)).length).sum := by
  induction a with
  | nil => simp [inversions]
  | cons x a ih => simp [inversions, ih, List.filter_append]; omega

theorem inversions_insertAt_max (l : List Nat) (m j : Nat) (hm : ∀ y ∈ l, y < m)
      (_ : j ≤ l.length) : inversions (insertAt l m j) = inversions l + (l.length - j) := by
  have h1 : inversions l = inversions (l.take j ++ l.drop j) := by rw [List.take_append_drop]
  rw [h1]
  unfold insertAt
  rw [inversions_append, inversions_append]
  have h2 : inversions (m :: l.drop j) = (l.length - j) + inversions (l.drop j) := by
    simp only [inversions]
    rw [List.filter_eq_self.2]
    · simp
    · intro y hy; simpa using hm y (List.mem_of_mem_drop hy)
  have h3 : (l.take j).map (fun x => ((m :: l.drop j).filter fun y => decide (y < x)).length)
      = (l.take j).map (fun x => ((l.drop j).filter fun y => decide (y < x)).length) := by
    apply List.map_congr_left
    intro x hx
    have : ¬ m < x := Nat.lt_asymm (hm x (List.mem_of_mem_take hx))
    simp [this]
  rw [h2, h3]; omega

theorem getElem?_insertPositions (i len k : Nat) (hk : k ≤ len) :
    (insertPositions i len)[k]? = some (if i % 2 = 1 then k else len - k) := by
  unfold insertPositions
  by_cases h : i % 2 = 1
  · simp [h]; rw [List.getElem?_range (by omega)]
  · simp only [beq_iff_eq, h, if_false]
    rw [List.getElem?_reverse (by simp; omega)]
    rw [List.length_range, List.getElem?_range (by omega)]
    simp

theorem inversions_permsRev {α : Type} (r : α → Nat) (xs : List α)
    (hr : xs.Pairwise fun a b => r b < r a) :
    ∀ (i : Nat) (item : List α), (permsRev xs)[i]? = some item →
      inversions (item.map r) % 2 = i % 2 := by
  induction xs with
  | nil =>
    intro i item h
    simp only [permsRev] at h
    rw [List.getElem?_singleton] at h
    split at h
    · subst i; simp at h; subst h; rfl
    · simp at h
  | cons x xs ih =>
    intro i item h
    have hx := (List.pairwise_cons.1 hr).1
    have hxs := ih (List.pairwise_cons.1 hr).2
    simp only [permsRev] at h
    rw [getElem?_flatMap_const _ (xs.length + 1) (by omega)] at h
    · rw [Option.bind_eq_some_iff] at h
      obtain ⟨⟨it, q⟩, hq, hget⟩ := h
      rw [List.getElem?_zipIdx, Option.map_eq_some_iff] at hq
      obtain ⟨it', hit, heq⟩ := hq
      simp only [Nat.zero_add, Prod.mk.injEq] at heq
      obtain ⟨rfl, rfl⟩ := heq
      have hmem : it' ∈ permsRev xs := List.mem_of_getElem? hit
      have hlen := length_of_mem_permsRev _ _ hmem
      have hperm := perm_of_mem_permsRev _ _ hmem
      simp only [List.getElem?_map, hlen] at hget
      have hlt : i % (xs.length + 1) < xs.length + 1 := Nat.mod_lt _ (by omega)
      rw [getElem?_insertPositions _ _ _ (by omega)] at hget
      simp only [Option.map_some, Option.some.injEq] at hget
      subst hget
      rw [← insertAt_map, inversions_insertAt_max]
      · have e := hxs _ _ hit
        have hdm := Nat.div_add_mod i (xs.length + 1)
        rw [List.length_map, hlen]
        generalize hQ : i / (xs.length + 1) = Q at *
        generalize hR : i % (xs.length + 1) = R at *
        have hp : i % 2 = ((xs.length + 1) % 2 * (Q % 2) + R) % 2 := by
          rw [← hdm]; simp [Nat.add_mod, Nat.mul_mod]
        rw [hp]
        by_cases hq1 : Q % 2 = 1
        · simp only [hq1, if_true]; omega
        · have : Q % 2 = 0 := by omega
          simp only [this]
          rw [if_neg (by omega)]; omega
      · intro y hy
        rw [List.mem_map] at hy
        obtain ⟨a, ha, rfl⟩ := hy
        exact hx a (hperm.mem_iff.1 ha)
      · simp only [List.length_map, hlen]; split <;> omega
    · rintro ⟨it, q⟩ hmem
      have hi : it ∈ permsRev xs := mem_of_zipIdx hmem
      simp [length_insertPositions, length_of_mem_permsRev _ _ hi]

theorem permsRev_map {α β : Type} (f : α → β) (xs : List α) :
    permsRev (xs.map f) = (permsRev xs).map (List.map f) := by
  induction xs with
  | nil => simp [permsRev]
  | cons x xs ih =>
    simp only [List.map_cons, permsRev, ih, List.zipIdx_map, List.flatMap_map, List.map_flatMap]
    congr 1
    funext ⟨item, i⟩
    simp [insertAt_map]

theorem permsRev_head {α : Type} (xs : List α) : (permsRev xs)[0]? = some xs.reverse := by
  induction xs with
  | nil => simp [permsRev]
  | cons x xs ih =>
    simp only [permsRev]
    rw [getElem?_flatMap_const _ (xs.length + 1) (by omega)]
    · simp only [Nat.zero_div, List.getElem?_zipIdx, ih, Option.map_some, Option.bind_some]
      rw [List.getElem?_map, Nat.zero_mod, getElem?_insertPositions _ _ _ (by omega)]
      simp [insertAt]
      rw [List.take_of_length_le (by simp), List.drop_of_length_le (by simp)]
    · rintro ⟨it, q⟩ hmem
      have hi : it ∈ permsRev xs := mem_of_zipIdx hmem
      simp [length_insertPositions, length_of_mem_permsRev _ _ hi]

end Ebcc
