import Verif.Model.Vectors
import Verif.Lemmas.Py
import Verif.Lemmas.Array
import Verif.Lemmas.Groups

/-!
Packing and unpacking of blocks one after the other.
-/

namespace Ebcc

open Dict

/-- A block with a name: how it is packed, how it is read off a vector at a position, its size, which values it
may have, and which values are the same. -/
structure Item (R X : Type) where
  name : List Char
  pack : X → Except PyErr (List R)
  un : List R → Nat → Except PyErr (X × Nat)
  size : Nat
  P : X → Prop
  E : X → X → Prop

/-- Packing and reading are inverse to each other. -/
structure Item.OK {R X : Type} (it : Item R X) : Prop where
  pack_ok : ∀ x, it.P x → ∃ v x', it.pack x = .ok v ∧ v.length = it.size ∧ it.E x' x ∧
    ∀ pre post, it.un (pre ++ (v ++ post)) pre.length = .ok (x', pre.length + it.size)
  un_ok : ∀ v, v.length = it.size → ∃ x, it.P x ∧ it.pack x = .ok v ∧
    ∀ pre post, it.un (pre ++ (v ++ post)) pre.length = .ok (x, pre.length + it.size)
  un_pos : ∀ vec i x j, it.un vec i = .ok (x, j) → j = i + it.size

/-- Pack the blocks in order. -/
def packItems {R X : Type} (items : List (Item R X)) (d : Dict (List Char) X) : Except PyErr (List (List R)) :=
  items.mapM fun it => do
    let x ← d.getItem it.name
    it.pack x

/-- Read the blocks in order. -/
def unItems {R X : Type} (items : List (Item R X)) (vec : List R) (st : Dict (List Char) X × Nat) :
    Except PyErr (Dict (List Char) X × Nat) :=
  items.foldlM (fun st it => do
    let (x, j) ← it.un vec st.2
    pure (st.1.set it.name x, j)) st

/-- The total size. -/
def totalSize {R X : Type} (items : List (Item R X)) : Nat := (items.map (·.size)).sum

/-- A namespace with the right entries. -/
def GoodDict {R X : Type} (items : List (Item R X)) (d : Dict (List Char) X) : Prop :=
  ∀ it ∈ items, ∃ x, d.get? it.name = some x ∧ it.P x

/-- The first namespace has exactly the names of the items, with the same values as the second. -/
def SameDict {R X : Type} (items : List (Item R X)) (d' d : Dict (List Char) X) : Prop :=
  d'.keys = items.map (·.name) ∧
  ∀ it ∈ items, ∃ x' x, d'.get? it.name = some x' ∧ d.get? it.name = some x ∧ it.E x' x

section
variable {R X : Type}

theorem keys_append (d d' : Dict (List Char) X) : Dict.keys (d ++ d') = d.keys ++ d'.keys := by
  simp [Dict.keys]

theorem set_new (d : Dict (List Char) X) (k : List Char) (x : X) (h : k ∉ d.keys) : d.set k x = d ++ [(k, x)] := by
  induction d with
  | nil => rfl
  | cons p d ih =>
    obtain ⟨k', v'⟩ := p
    simp only [Dict.keys, List.map_cons, List.mem_cons, not_or] at h
    rw [Dict.set, if_neg (Ne.symm h.1), ih h.2]
    rfl

theorem packItems_congr (items : List (Item R X)) (d d' : Dict (List Char) X)
    (h : ∀ it ∈ items, d.get? it.name = d'.get? it.name) : packItems items d = packItems items d' := by
  induction items with
  | nil => rfl
  | cons it items ih =>
    have := ih fun i hi => h i (List.mem_cons_of_mem _ hi)
    unfold packItems at this ⊢
    rw [List.mapM_cons, List.mapM_cons, this, Dict.getItem, Dict.getItem, h it List.mem_cons_self]

/-- Packing a namespace, then reading it back at any position. -/
theorem items_pack (items : List (Item R X)) (hok : ∀ it ∈ items, it.OK)
    (hnd : (items.map (·.name)).Nodup) (d : Dict (List Char) X) (hd : GoodDict items d) :
    ∃ vs d', packItems items d = .ok vs ∧ vs.flatten.length = totalSize items ∧ vs.length = items.length ∧
      SameDict items d' d ∧
      ∀ pre post d0, (∀ it ∈ items, it.name ∉ Dict.keys d0) →
        unItems items (pre ++ (vs.flatten ++ post)) (d0, pre.length)
          = .ok (d0 ++ d', pre.length + totalSize items) := by
  induction items with
  | nil =>
    exact ⟨[], [], rfl, rfl, rfl, ⟨rfl, by simp⟩, fun pre post d0 _ => by simp [unItems, totalSize]; rfl⟩
  | cons it items ih =>
    rw [List.map_cons, List.nodup_cons] at hnd
    obtain ⟨vs, d', h1, h2, h2', ⟨h3, h4⟩, h5⟩ := ih (fun i hi => hok i (List.mem_cons_of_mem _ hi)) hnd.2
      fun i hi => hd i (List.mem_cons_of_mem _ hi)
    obtain ⟨x, hx, hP⟩ := hd it List.mem_cons_self
    obtain ⟨v, x', p1, p2, p3, p4⟩ := (hok it List.mem_cons_self).pack_ok x hP
    refine ⟨v :: vs, (it.name, x') :: d', ?_, ?_, by simp [h2'], ⟨?_, ?_⟩, ?_⟩
    · unfold packItems at h1 ⊢
      rw [List.mapM_cons, h1]
      simp only [Dict.getItem, hx, bind, Except.bind, p1, pure, Except.pure]
    · simp [totalSize, p2, h2] 
    · rw [List.map_cons, ← h3]; rfl
    · intro i hi
      rcases List.mem_cons.1 hi with rfl | hi
      · exact ⟨x', x, by simp [Dict.get?], hx, p3⟩
      · obtain ⟨y', y, e1, e2, e3⟩ := h4 i hi
        refine ⟨y', y, ?_, e2, e3⟩
        rw [Dict.get?, if_neg]
        · exact e1
        · intro he
          exact hnd.1 (he ▸ List.mem_map_of_mem hi)
    · intro pre post d0 hd0
      have hq := p4 pre (vs.flatten ++ post)
      unfold unItems at h5 ⊢
      rw [List.flatten_cons, List.append_assoc, List.foldlM_cons]
      simp only [hq, bind, Except.bind, pure, Except.pure]
      have h6 := h5 (pre ++ v) post (d0.set it.name x') (by
        intro i hi
        rw [set_new _ _ _ (hd0 it List.mem_cons_self), keys_append]
        rw [List.mem_append, not_or]
        refine ⟨hd0 i (List.mem_cons_of_mem _ hi), ?_⟩
        simp only [Dict.keys, List.map_cons, List.map_nil, List.mem_singleton]
        intro he
        exact hnd.1 (he ▸ List.mem_map_of_mem hi))
      rw [List.append_assoc, List.length_append, p2] at h6
      refine h6.trans ?_
      rw [set_new _ _ _ (hd0 it List.mem_cons_self)]
      simp [totalSize, Nat.add_assoc]

/-- Reading a vector, then packing the result. -/
theorem items_un (items : List (Item R X)) (hok : ∀ it ∈ items, it.OK)
    (hnd : (items.map (·.name)).Nodup) (v : List R) (hv : v.length = totalSize items) :
    ∃ vs d, GoodDict items d ∧ d.keys = items.map (·.name) ∧ packItems items d = .ok vs ∧ vs.flatten = v ∧
      ∀ pre post d0, (∀ it ∈ items, it.name ∉ Dict.keys d0) →
        unItems items (pre ++ (v ++ post)) (d0, pre.length) = .ok (d0 ++ d, pre.length + totalSize items) := by
  induction items generalizing v with
  | nil =>
    have : v = [] := List.length_eq_zero_iff.1 hv
    subst this
    exact ⟨[], [], by simp [GoodDict], rfl, rfl, rfl, fun pre post d0 _ => by simp [unItems, totalSize]; rfl⟩
  | cons it items ih =>
    rw [List.map_cons, List.nodup_cons] at hnd
    have hsz : v.length = it.size + totalSize items := by simpa [totalSize] using hv
    obtain ⟨x, q1, q2, q3⟩ := (hok it List.mem_cons_self).un_ok (v.take it.size) (by
      rw [List.length_take]; omega)
    obtain ⟨vs, d, h0, h1, h2, h3, h5⟩ := ih (fun i hi => hok i (List.mem_cons_of_mem _ hi)) hnd.2
      (v.drop it.size) (by rw [List.length_drop]; omega)
    have hne : ∀ i ∈ items, it.name ≠ i.name := fun i hi he => hnd.1 (he ▸ List.mem_map_of_mem hi)
    have hget : ∀ i ∈ items, Dict.get? ((it.name, x) :: d) i.name = d.get? i.name := by
      intro i hi
      rw [Dict.get?, if_neg (hne i hi)]
    refine ⟨v.take it.size :: vs, (it.name, x) :: d, ?_, ?_, ?_, ?_, ?_⟩
    · intro i hi
      rcases List.mem_cons.1 hi with rfl | hi
      · exact ⟨x, by simp [Dict.get?], q1⟩
      · rw [hget i hi]; exact h0 i hi
    · rw [List.map_cons, ← h1]; rfl
    · rw [← packItems_congr items _ _ hget] at h2
      unfold packItems at h2 ⊢
      rw [List.mapM_cons, h2]
      simp only [Dict.getItem, Dict.get?, if_true, bind, Except.bind, q2, pure, Except.pure]
    · rw [List.flatten_cons, h3, List.take_append_drop]
    · intro pre post d0 hd0
      have hq := q3 pre (v.drop it.size ++ post)
      rw [← List.append_assoc (v.take it.size), List.take_append_drop] at hq
      unfold unItems at h5 ⊢
      rw [List.foldlM_cons]
      simp only [hq, bind, Except.bind, pure, Except.pure]
      have h6 := h5 (pre ++ v.take it.size) post (d0.set it.name x) (by
        intro i hi
        rw [set_new _ _ _ (hd0 it List.mem_cons_self), keys_append]
        rw [List.mem_append, not_or]
        refine ⟨hd0 i (List.mem_cons_of_mem _ hi), ?_⟩
        simp only [Dict.keys, List.map_cons, List.map_nil, List.mem_singleton]
        exact Ne.symm (hne i hi))
      rw [List.append_assoc, ← List.append_assoc (v.take it.size), List.take_append_drop,
        List.length_append, List.length_take, min_eq_left (by omega)] at h6
      refine h6.trans ?_
      rw [set_new _ _ _ (hd0 it List.mem_cons_self)]
      simp [totalSize, Nat.add_assoc]

theorem items_pos (items : List (Item R X)) (hok : ∀ it ∈ items, it.OK) (vec : List R)
    (st st' : Dict (List Char) X × Nat) (h : unItems items vec st = .ok st') :
    st'.2 = st.2 + totalSize items := by
  induction items generalizing st with
  | nil =>
    simp only [unItems, List.foldlM_nil, pure, Except.pure, Except.ok.injEq] at h
    subst h; simp [totalSize]
  | cons it items ih =>
    unfold unItems at h ih
    rw [List.foldlM_cons] at h
    simp only [bind, Except.bind, pure, Except.pure] at h
    cases hu : it.un vec st.2 with
    | error e => simp [hu] at h
    | ok p =>
      obtain ⟨x, j⟩ := p
      simp only [hu] at h
      have := ih (fun i hi => hok i (List.mem_cons_of_mem _ hi)) _ h
      rw [this, (hok it List.mem_cons_self).un_pos _ _ _ _ hu]
      simp [totalSize, Nat.add_assoc]

end

/-- A block that is stored as it is. -/
def reshapeItem (R : Type) (name : List Char) (shape : List Nat) : Item R (NDArray R) where
  name := name
  pack a := .ok a.ravel
  un vec i := (NDArray.reshape (vecSlice vec i (prodN shape)) shape).map fun x => (x, i + prodN shape)
  size := prodN shape
  P a := a.WF ∧ a.shape = shape
  E := Eq

theorem vecSlice_mid {R : Type} (pre v post : List R) (n : Nat) (h : v.length = n) :
    vecSlice (pre ++ (v ++ post)) pre.length n = v := by
  subst h
  simp [vecSlice]

theorem reshapeItem_ok (R : Type) (name : List Char) (shape : List Nat) : (reshapeItem R name shape).OK := by
  refine ⟨?_, ?_, ?_⟩
  · rintro ⟨s, data⟩ ⟨hwf, hs⟩
    simp only at hs
    subst hs
    refine ⟨data, ⟨s, data⟩, rfl, hwf, rfl, fun pre post => ?_⟩
    simp only [reshapeItem, vecSlice_mid pre data post _ hwf]
    rw [NDArray.reshape, if_pos (show data.length = prodN s from hwf)]
    rfl
  · intro v hv
    refine ⟨⟨shape, v⟩, ⟨hv, rfl⟩, rfl, fun pre post => ?_⟩
    simp only [reshapeItem] at hv ⊢
    rw [vecSlice_mid pre v post _ hv, NDArray.reshape, if_pos hv]
    rfl
  · intro vec i x j h
    simp only [reshapeItem, Except.map] at h
    split at h
    · simp at h
    · simp only [Except.ok.injEq, Prod.mk.injEq] at h
      exact h.2.symm

end Ebcc
