import Verif.Model.EomVectors
import Verif.Lemmas.USpin
import Verif.Lemmas.Amps

/-!
Items for EOM amplitudes: packed blocks of generalised amplitudes, and blocks that are divided when they are read.
-/

namespace Ebcc

open Dict

/-! ### Items whose packing and reading are inverse up to a change of the vector -/

/-- Reading after packing gives a related value; packing after reading gives the vector changed by `W`. -/
structure Item.Scaled {R X : Type} (it : Item R X) (W : List R → List R) : Prop where
  pack_ok : ∀ x, it.P x → ∃ v x', it.pack x = .ok v ∧ v.length = it.size ∧ it.E x' x ∧
    ∀ pre post, it.un (pre ++ (v ++ post)) pre.length = .ok (x', pre.length + it.size)
  un_ok : ∀ v, v.length = it.size → ∃ x, it.P x ∧ it.pack x = .ok (W v) ∧
    ∀ pre post, it.un (pre ++ (v ++ post)) pre.length = .ok (x, pre.length + it.size)
  un_pos : ∀ vec i x j, it.un vec i = .ok (x, j) → j = i + it.size

/-- The changes of the blocks one after the other. -/
def changeItems {R X : Type} : List (Item R X) → (Item R X → List R → List R) → List R → List R
  | [], _, _ => []
  | it :: items, W, v => W it (v.take it.size) ++ changeItems items W (v.drop it.size)

section
variable {R X : Type}

/-- Packing a namespace, then reading it back at any position. -/
theorem scaled_pack (W : Item R X → List R → List R) (items : List (Item R X)) (hok : ∀ it ∈ items, it.Scaled (W it))
    (hnd : (items.map (·.name)).Nodup) (d : Dict (List Char) X) (hd : GoodDict items d) :
    ∃ vs d', packItems items d = .ok vs ∧ vs.flatten.length = totalSize items ∧ vs.length = items.length ∧
      SameDict items d' d ∧
      ∀ pre post d0, (∀ it ∈ items, it.name ∉ Dict.keys d0) →
        unItems items (pre ++ (vs.flatten ++ post)) (d0, pre.length)
          = .ok (d0 ++ d', pre.length + totalSize items) := by
  induction items with
  | nil =>
    exact ⟨[], [], rfl, rfl, rfl, ⟨rfl, by simp⟩, fun pre post d0 _ => by simp [unItems, totalSize]; rfl⟩
  | cons it items ih =>
    rw [List.map_cons, List.nodup_cons] at hnd
    obtain ⟨vs, d', h1, h2, h2', ⟨h3, h4⟩, h5⟩ := ih (fun i hi => hok i (List.mem_cons_of_mem _ hi)) hnd.2
      fun i hi => hd i (List.mem_cons_of_mem _ hi)
    obtain ⟨x, hx, hP⟩ := hd it List.mem_cons_self
    obtain ⟨v, x', p1, p2, p3, p4⟩ := (hok it List.mem_cons_self).pack_ok x hP
    refine ⟨v :: vs, (it.name, x') :: d', ?_, ?_, by simp [h2'], ⟨?_, ?_⟩, ?_⟩
    · unfold packItems at h1 ⊢
      rw [List.mapM_cons, h1]
      simp only [Dict.getItem, hx, bind, Except.bind, p1, pure, Except.pure]
    · simp [totalSize, p2, h2]
    · rw [List.map_cons, ← h3]; rfl
    · intro i hi
      rcases List.mem_cons.1 hi with rfl | hi
      · exact ⟨x', x, by simp [Dict.get?], hx, p3⟩
      · obtain ⟨y', y, e1, e2, e3⟩ := h4 i hi
        refine ⟨y', y, ?_, e2, e3⟩
        rw [Dict.get?, if_neg]
        · exact e1
        · intro he
          exact hnd.1 (he ▸ List.mem_map_of_mem hi)
    · intro pre post d0 hd0
      have hq := p4 pre (vs.flatten ++ post)
      unfold unItems at h5 ⊢
      rw [List.flatten_cons, List.append_assoc, List.foldlM_cons]
      simp only [hq, bind, Except.bind, pure, Except.pure]
      have h6 := h5 (pre ++ v) post (d0.set it.name x') (by
        intro i hi
        rw [set_new _ _ _ (hd0 it List.mem_cons_self), keys_append]
        rw [List.mem_append, not_or]
        refine ⟨hd0 i (List.mem_cons_of_mem _ hi), ?_⟩
        simp only [Dict.keys, List.map_cons, List.map_nil, List.mem_singleton]
        intro he
        exact hnd.1 (he ▸ List.mem_map_of_mem hi))
      rw [List.append_assoc, List.length_append, p2] at h6
      refine h6.trans ?_
      rw [set_new _ _ _ (hd0 it List.mem_cons_self)]
      simp [totalSize, Nat.add_assoc]

/-- Reading a vector, then packing the result. -/
theorem scaled_un (W : Item R X → List R → List R) (items : List (Item R X)) (hok : ∀ it ∈ items, it.Scaled (W it))
    (hnd : (items.map (·.name)).Nodup) (v : List R) (hv : v.length = totalSize items) :
    ∃ vs d, GoodDict items d ∧ d.keys = items.map (·.name) ∧ packItems items d = .ok vs ∧
      vs.flatten = changeItems items W v ∧
      ∀ pre post d0, (∀ it ∈ items, it.name ∉ Dict.keys d0) →
        unItems items (pre ++ (v ++ post)) (d0, pre.length) = .ok (d0 ++ d, pre.length + totalSize items) := by
  induction items generalizing v with
  | nil =>
    have : v = [] := List.length_eq_zero_iff.1 hv
    subst this
    exact ⟨[], [], by simp [GoodDict], rfl, rfl, rfl, fun pre post d0 _ => by simp [unItems, totalSize]; rfl⟩
  | cons it items ih =>
    rw [List.map_cons, List.nodup_cons] at hnd
    have hsz : v.length = it.size + totalSize items := by simpa [totalSize] using hv
    obtain ⟨x, q1, q2, q3⟩ := (hok it List.mem_cons_self).un_ok (v.take it.size) (by
      rw [List.length_take]; omega)
    obtain ⟨vs, d, h0, h1, h2, h3, h5⟩ := ih (fun i hi => hok i (List.mem_cons_of_mem _ hi)) hnd.2
      (v.drop it.size) (by rw [List.length_drop]; omega)
    have hne : ∀ i ∈ items, it.name ≠ i.name := fun i hi he => hnd.1 (he ▸ List.mem_map_of_mem hi)
    have hget : ∀ i ∈ items, Dict.get? ((it.name, x) :: d) i.name = d.get? i.name := by
      intro i hi
      rw [Dict.get?, if_neg (hne i hi)]
    refine ⟨W it (v.take it.size) :: vs, (it.name, x) :: d, ?_, ?_, ?_, ?_, ?_⟩
    · intro i hi
      rcases List.mem_cons.1 hi with rfl | hi
      · exact ⟨x, by simp [Dict.get?], q1⟩
      · rw [hget i hi]; exact h0 i hi
    · rw [List.map_cons, ← h1]; rfl
    · rw [← packItems_congr items _ _ hget] at h2
      unfold packItems at h2 ⊢
      rw [List.mapM_cons, h2]
      simp only [Dict.getItem, Dict.get?, if_true, bind, Except.bind, q2, pure, Except.pure]
    · rw [List.flatten_cons, h3, changeItems]
    · intro pre post d0 hd0
      have hq := q3 pre (v.drop it.size ++ post)
      rw [← List.append_assoc (v.take it.size), List.take_append_drop] at hq
      unfold unItems at h5 ⊢
      rw [List.foldlM_cons]
      simp only [hq, bind, Except.bind, pure, Except.pure]
      have h6 := h5 (pre ++ v.take it.size) post (d0.set it.name x) (by
        intro i hi
        rw [set_new _ _ _ (hd0 it List.mem_cons_self), keys_append]
        rw [List.mem_append, not_or]
        refine ⟨hd0 i (List.mem_cons_of_mem _ hi), ?_⟩
        simp only [Dict.keys, List.map_cons, List.map_nil, List.mem_singleton]
        exact Ne.symm (hne i hi))
      rw [List.append_assoc, ← List.append_assoc (v.take it.size), List.take_append_drop,
        List.length_append, List.length_take, min_eq_left (by omega)] at h6
      refine h6.trans ?_
      rw [set_new _ _ _ (hd0 it List.mem_cons_self)]
      simp [totalSize, Nat.add_assoc]

theorem scaled_pos (W : Item R X → List R → List R) (items : List (Item R X)) (hok : ∀ it ∈ items, it.Scaled (W it))
    (vec : List R) (st st' : Dict (List Char) X × Nat) (h : unItems items vec st = .ok st') :
    st'.2 = st.2 + totalSize items := by
  induction items generalizing st with
  | nil =>
    simp only [unItems, List.foldlM_nil, pure, Except.pure, Except.ok.injEq] at h
    subst h; simp [totalSize]
  | cons it items ih =>
    unfold unItems at h ih
    rw [List.foldlM_cons] at h
    simp only [bind, Except.bind, pure, Except.pure] at h
    cases hu : it.un vec st.2 with
    | error e => simp [hu] at h
    | ok p =>
      obtain ⟨x, j⟩ := p
      simp only [hu] at h
      have := ih (fun i hi => hok i (List.mem_cons_of_mem _ hi)) _ h
      rw [this, (hok it List.mem_cons_self).un_pos _ _ _ _ hu]
      simp [totalSize, Nat.add_assoc]

end

/-! ### Generalised amplitudes -/

/-- The number of packed elements: combinations without repetition for each class. -/
def gBlockSize (space : Space) (key : List Char) : Nat :=
  ((firstOccurrences key).map fun c => (szOf space c).choose (key.count c)).prod

/-- A generalised block: the right shape, antisymmetric in axes of the same class. -/
def GoodGBlock {R : Type} [Ring R] (space : Space) (key : List Char) (a : NDArray R) : Prop :=
  a.WF ∧ a.shape = key.map (szOf space) ∧ GroupSymmetric key (fun _ => '-') a

/-- How a generalised block is packed (geom.py:83) and read (geom.py:110-115). -/
def gItem (R : Type) [Ring R] (space : Space) (r : Rank) : Item R (NDArray R) where
  name := r.1
  pack x := do
    let c ← compressAxes r.2.1 x false
    pure c.ravel
  un vec i := do
    let sizes ← gSizes space r.2.1
    let size ← getCompressedSize r.2.1 sizes
    let shape ← r.2.1.mapM space.size
    let vn ← decompressAxes r.2.1 (vecSlice vec i size) shape false none
    pure (vn, i + size)
  size := gBlockSize space r.2.1
  P := GoodGBlock space r.2.1
  E := Eq

theorem gSizes_ok (space : Space) (key : List Char) (hk : ∀ c ∈ key, c = 'o' ∨ c = 'O' ∨ c = 'v' ∨ c = 'V') :
    ∃ sizes, gSizes space key = .ok sizes ∧ ∀ c ∈ key, sizes.get? c = some (szOf space c) := by
  refine ⟨(unique key).map fun c => (c, szOf space c), ?_, ?_⟩
  · unfold gSizes
    apply mapM_ok
    intro c hc
    rw [size_ok space c (hk c (mem_unique.1 hc))]
    rfl
  · intro c hc
    have : ∀ l : List Char, c ∈ l → Dict.get? (l.map fun c => (c, szOf space c)) c = some (szOf space c) := by
      intro l hl
      induction l with
      | nil => cases hl
      | cons x l ih =>
        rw [List.map_cons, Dict.get?]
        by_cases hx : x = c
        · subst hx; rw [if_pos rfl]
        · rw [if_neg hx]
          exact ih ((List.mem_cons.1 hl).resolve_left (Ne.symm hx))
    exact this _ (mem_unique.2 hc)

theorem gItem_ok {R : Type} [Ring R] (h2 : ∀ x : R, x + x = 0 → x = 0) (space : Space) (r : Rank)
    (hsub : r.2.1 ≠ []) (hk : ∀ c ∈ r.2.1, c = 'o' ∨ c = 'O' ∨ c = 'v' ∨ c = 'V') : (gItem R space r).OK := by
  obtain ⟨sizes, hs1, hs2⟩ := gSizes_ok space r.2.1 hk
  have hcs : getCompressedSize r.2.1 sizes = .ok (gBlockSize space r.2.1) := by
    obtain ⟨out, _, _, e1, e2⟩ := C04_size r.2.1 (szOf space) sizes hs2
      (NDArray.zeros (R := Int) (r.2.1.map (szOf space))) rfl
    rw [e1, e2]; rfl
  have hntril : ((firstOccurrences r.2.1).map fun c => ntrilNdim (szOf space c) (r.2.1.count c) false).prod
      = gBlockSize space r.2.1 := by
    unfold gBlockSize
    congr 1
    exact List.map_congr_left fun c _ => (C03_binomial _ _).1
  have hun : ∀ vec i, (gItem R space r).un vec i = (decompressAxes r.2.1
      (vecSlice vec i (gBlockSize space r.2.1)) (r.2.1.map (szOf space)) false none).map
        fun tn => (tn, i + gBlockSize space r.2.1) := by
    intro vec i
    simp only [gItem, hs1, bind, Except.bind, hcs, mapM_size space r.2.1 hk, Except.map, pure, Except.pure]
  have hpack : ∀ a, (gItem R space r).pack a = (compressAxes r.2.1 a false).map fun c => c.ravel := by
    intro a
    simp only [gItem, bind, Except.bind, Except.map, pure, Except.pure]
  have hblock : (none : Option (List Char)).getD (List.replicate r.2.1.length '-')
      = blockString r.2.1 (fun _ => '-') := (blockString_const r.2.1 '-').symm
  refine ⟨?_, ?_, ?_⟩
  · rintro a ⟨a1, a2, a3⟩
    obtain ⟨packed, p1, p2⟩ := C06_antisymmetric h2 r.2.1 hsub (szOf space) a a1 a2 a3
    obtain ⟨out, q1, q2, q3, q4⟩ := C04_size r.2.1 (szOf space) sizes hs2 a a2
    rw [p1] at q1
    cases q1
    have hlen : packed.data.length = gBlockSize space r.2.1 := q4
    refine ⟨packed.data, a, by rw [hpack, p1]; rfl, hlen, rfl, fun pre post => ?_⟩
    rw [hun, vecSlice_mid _ _ _ _ hlen, ← a2, p2]
    rfl
  · intro v hv
    have hv' : v.length = gBlockSize space r.2.1 := hv
    obtain ⟨out, packed, r1, r2, r3⟩ := C05_roundtrip r.2.1 hsub (szOf space) false none (fun _ => '-') hblock
      (Or.inl rfl) v (by rw [hv', hntril])
    obtain ⟨out', s1, s2, s3, _⟩ := C07_symmetry r.2.1 hsub (szOf space) false none (fun _ => '-') hblock
      (Or.inl rfl) v (by rw [hv', hntril])
    rw [r1] at s1
    cases s1
    refine ⟨out, ⟨decompressAxes_wf r1, s2, s3⟩, ?_, fun pre post => ?_⟩
    · rw [hpack, r2, ← r3]; rfl
    · rw [hun, vecSlice_mid _ _ _ _ hv', r1]; rfl
  · intro vec i x j hu
    rw [hun] at hu
    simp only [Except.map] at hu
    split at hu
    · cases hu
    · cases hu; rfl

/-! ### Blocks divided by a number -/

section
variable {R : Type} [Field R]

theorem divide_get (x : NDArray R) (f : R) (idx : List Nat) : (x.map fun y => y / f).get idx = x.get idx / f :=
  map_get x (fun y => y / f) (zero_div f) idx

theorem divide_wf (x : NDArray R) (f : R) (h : x.WF) : (x.map fun y => y / f).WF := by
  simpa [NDArray.WF, NDArray.map] using h

theorem divide_good {sa sb : Space} {key spin : List Char} {x : NDArray R} (f : R)
    (h : GoodBlock sa sb key spin x) : GoodBlock sa sb key spin (x.map fun y => y / f) := by
  obtain ⟨h1, h2, h3⟩ := h
  refine ⟨divide_wf x f h1, h2, ?_⟩
  intro i j c hij hi hj idx hidx
  have := h3 i j c hij hi hj idx hidx
  rw [divide_get, divide_get, this]
  simp only [mul_div_assoc]

/-- Packing commutes with the division. -/
theorem spinItem_divide {sa sb : Space} {sizes : Dict (List Char) Nat} {key spin : List Char} {x : NDArray R}
    {v : List R} (f : R) (hk : KeySpin key spin)
    (hs : ∀ c s, (c = 'o' ∨ c = 'O' ∨ c = 'v' ∨ c = 'V') → (s = 'a' ∨ s = 'b') →
      sizes.get? [c, s] = some (sz2 sa sb (c, s)))
    (h : GoodBlock sa sb key spin x)
    (hp : (spinItem R sa sb sizes key spin).pack x = .ok v) :
    (spinItem R sa sb sizes key spin).pack (x.map fun y => y / f) = .ok (v.map fun y => y / f) := by
  obtain ⟨sub, osizes, c1, c2, g, g1, g2, g3⟩ := combine_two key spin sizes (sz2 sa sb) hk.len hk.ne hk.card
    fun p hp => hs p.1 p.2 (hk.key _ (List.of_mem_zip hp).1) (hk.spin _ (List.of_mem_zip hp).2)
  let sz : Char → Nat := fun c => (osizes.get? c).getD 0
  have hshape : sub.map sz = (key.zip spin).map (sz2 sa sb) := by
    rw [g1, List.map_map]
    exact List.map_congr_left fun p hp => by simp only [Function.comp, sz, g3 p hp]; rfl
  have hc : Consistent sub x.shape := ⟨sz, by rw [h.2.1, hshape]⟩
  have hc' : Consistent sub (x.map fun y => y / f).shape := hc
  simp only [spinItem, c2, bind, Except.bind, compressAxes_ok sub x false hc, pure, Except.pure,
    Except.ok.injEq] at hp
  simp only [spinItem, c2, bind, Except.bind, compressAxes_ok sub _ false hc', pure, Except.pure,
    Except.ok.injEq]
  rw [← hp]
  simp only [NDArray.ravel, List.map_map, Function.comp_def, divide_get]
  rfl

/-- A spin block that is divided when it is read. -/
def dividedItem (R : Type) [Field R] (sa sb : Space) (sizes : Dict (List Char) Nat) (key spin : List Char)
    (f : R) : Item R (NDArray R) where
  name := spin
  pack := (spinItem R sa sb sizes key spin).pack
  un vec i := ((spinItem R sa sb sizes key spin).un vec i).map fun p => (p.1.map fun y => y / f, p.2)
  size := blockSize sa sb key spin
  P := GoodBlock sa sb key spin
  E x' x := x' = x.map fun y => y / f

theorem dividedItem_ok (h2 : ∀ x : R, x + x = 0 → x = 0) {sa sb : Space}
    {sizes : Dict (List Char) Nat} {key spin : List Char} (f : R) (h : KeySpin key spin)
    (hs : ∀ c s, (c = 'o' ∨ c = 'O' ∨ c = 'v' ∨ c = 'V') → (s = 'a' ∨ s = 'b') →
      sizes.get? [c, s] = some (sz2 sa sb (c, s))) :
    (dividedItem R sa sb sizes key spin f).Scaled fun v => v.map fun y => y / f := by
  have hok := spinItem_ok (R := R) h2 h hs
  refine ⟨?_, ?_, ?_⟩
  · intro x hx
    obtain ⟨v, x', p1, p2, p3, p4⟩ := hok.pack_ok x hx
    have p3 : x' = x := p3
    subst p3
    refine ⟨v, _, p1, p2, rfl, fun pre post => ?_⟩
    simp only [dividedItem, p4, Except.map]
    rfl
  · intro v hv
    obtain ⟨x, q1, q2, q3⟩ := hok.un_ok v hv
    refine ⟨x.map fun y => y / f, divide_good f q1, spinItem_divide f h hs q1 q2, fun pre post => ?_⟩
    simp only [dividedItem, q3, Except.map]
    rfl
  · intro vec i x j hu
    simp only [dividedItem, Except.map] at hu
    split at hu
    · cases hu
    · rename_i p hp
      cases hu
      exact hok.un_pos _ _ _ _ hp

end

end Ebcc
