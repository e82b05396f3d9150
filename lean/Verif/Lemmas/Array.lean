import Verif.Model.Array
import Mathlib.Data.List.Basic
import Mathlib.Data.List.Nodup
import Mathlib.Data.List.Forall2

namespace Ebcc

/-- A multi-index lies inside a shape. -/
def InBox (s idx : List Nat) : Prop := List.Forall₂ (fun i n => i < n) idx s

theorem mem_box {s idx : List Nat} : idx ∈ box s ↔ InBox s idx := by
  induction s generalizing idx with
  | nil => simp [box, InBox]
  | cons n s ih =>
    simp only [box, List.mem_flatMap, List.mem_range, List.mem_map, InBox,
      List.forall₂_cons_right_iff]
    constructor
    · rintro ⟨i, hi, t, ht, rfl⟩; exact ⟨i, t, hi, ih.1 ht, rfl⟩
    · rintro ⟨i, t, hi, ht, rfl⟩; exact ⟨i, hi, t, ih.2 ht, rfl⟩

theorem InBox.length_eq {s idx : List Nat} (h : InBox s idx) : idx.length = s.length :=
  List.Forall₂.length_eq h

theorem length_box (s : List Nat) : (box s).length = prodN s := by
  induction s with
  | nil => rfl
  | cons n s ih =>
    simp [box, List.length_flatMap, ih, prodN, List.map_const']

theorem getElem?_flatMap_const' {α β : Type} (f : α → List β) (k : Nat) :
    ∀ (L : List α), (∀ a ∈ L, (f a).length = k) → ∀ i j : Nat, j < k →
      (L.flatMap f)[i * k + j]? = (L[i]?).bind fun a => (f a)[j]? := by
  intro L
  induction L with
  | nil => intro _ i j _; simp
  | cons a L ih =>
    intro h i j hj
    have ha : (f a).length = k := h a (by simp)
    rw [List.flatMap_cons, List.getElem?_append, ha]
    cases i with
    | zero => simp [hj]
    | succ i =>
      rw [if_neg (by rw [Nat.succ_mul]; omega),
        show (i + 1) * k + j - k = i * k + j by rw [Nat.succ_mul]; omega,
        ih (fun b hb => h b (by simp [hb])) i j hj]
      simp

theorem ravelIdx_lt {s idx : List Nat} (h : InBox s idx) : ravelIdx s idx < prodN s := by
  induction s generalizing idx with
  | nil => simp [ravelIdx, prodN]
  | cons n s ih =>
    unfold InBox at h
    obtain ⟨i, t, hi, ht, rfl⟩ := List.forall₂_cons_right_iff.1 h
    simp only [ravelIdx, prodN]
    have := ih ht
    calc i * prodN s + ravelIdx s t < i * prodN s + prodN s := by omega
      _ = (i + 1) * prodN s := by rw [Nat.succ_mul]
      _ ≤ n * prodN s := Nat.mul_le_mul_right _ hi

theorem getElem?_box {s idx : List Nat} (h : InBox s idx) :
    (box s)[ravelIdx s idx]? = some idx := by
  induction s generalizing idx with
  | nil =>
    unfold InBox at h
    simp at h; subst h; simp [box, ravelIdx]
  | cons n s ih =>
    unfold InBox at h
    obtain ⟨i, t, hi, ht, rfl⟩ := List.forall₂_cons_right_iff.1 h
    simp only [ravelIdx, box]
    rw [getElem?_flatMap_const' _ (prodN s) _ (by simp [length_box]) _ _ (ravelIdx_lt ht)]
    simp [List.getElem?_range hi, ih ht]

theorem nodup_box (s : List Nat) : (box s).Nodup := by
  induction s with
  | nil => simp [box]
  | cons n s ih =>
    simp only [box]
    rw [List.nodup_flatMap]
    constructor
    · intro i _; exact ih.map (fun a b h => by simpa using h)
    · apply List.nodup_range.imp
      intro a b hab l hl hl'
      simp only [List.mem_map] at hl hl'
      obtain ⟨_, _, rfl⟩ := hl
      obtain ⟨_, _, h⟩ := hl'
      exact hab (List.cons.inj h).1.symm

theorem ravelIdx_getElem_box {s : List Nat} {k : Nat} (hk : k < (box s).length) :
    ravelIdx s (box s)[k] = k := by
  have hin : InBox s (box s)[k] := mem_box.1 (List.getElem_mem hk)
  have h1 := getElem?_box hin
  rw [List.getElem?_eq_some_iff] at h1
  obtain ⟨h2, h3⟩ := h1
  exact (List.Nodup.getElem_inj_iff (nodup_box s)).1 h3

theorem ravelIdx_inj {s a b : List Nat} (ha : InBox s a) (hb : InBox s b)
    (h : ravelIdx s a = ravelIdx s b) : a = b := by
  have h1 := getElem?_box ha
  have h2 := getElem?_box hb
  rw [h, h2] at h1
  exact (Option.some.inj h1).symm

theorem prodN_append (a b : List Nat) : prodN (a ++ b) = prodN a * prodN b := by
  induction a with
  | nil => simp [prodN]
  | cons n a ih => simp [prodN, ih, Nat.mul_assoc]

theorem prodN_eq_prod (a : List Nat) : prodN a = a.prod := by
  induction a with
  | nil => rfl
  | cons n a ih => simp [prodN, ih]

namespace NDArray
variable {R : Type}

theorem ofFn_wf (s : List Nat) (f : List Nat → R) : (ofFn s f).WF := by
  simp [ofFn, WF, length_box]

@[simp] theorem ofFn_shape (s : List Nat) (f : List Nat → R) : (ofFn s f).shape = s := rfl

theorem get_ofFn [Zero R] (s : List Nat) (f : List Nat → R) {idx : List Nat} (h : InBox s idx) :
    (ofFn s f).get idx = f idx := by
  simp [get, ofFn, getElem?_box h]

theorem data_eq_map_get [Zero R] (a : NDArray R) (ha : a.WF) :
    a.data = (box a.shape).map a.get := by
  apply List.ext_getElem
  · rw [ha]; simp [length_box]
  · intro k h1 h2
    have hk : k < (box a.shape).length := by simpa using h2
    simp [get, ravelIdx_getElem_box hk, h1]

theorem ext_get [Zero R] {a b : NDArray R} (ha : a.WF) (hb : b.WF) (hs : a.shape = b.shape)
    (h : ∀ idx, InBox a.shape idx → a.get idx = b.get idx) : a = b := by
  have hd : a.data = b.data := by
    rw [data_eq_map_get a ha, data_eq_map_get b hb, ← hs]
    apply List.map_congr_left
    intro idx hidx
    exact h idx (mem_box.1 hidx)
  cases a; cases b; simp_all

theorem eq_ofFn [Zero R] (a : NDArray R) (ha : a.WF) : a = ofFn a.shape a.get :=
  ext_get ha (ofFn_wf _ _) rfl fun _ h => (get_ofFn _ _ h).symm

end NDArray

end Ebcc
