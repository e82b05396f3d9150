import Verif.Lemmas.Codec
import Verif.Thms.C24

/-!
The layout of a vector of amplitudes.
-/

namespace Ebcc

open Dict

/-- The size of an orbital class. -/
def szOf (s : Space) (c : Char) : Nat :=
  match s.size c with
  | .ok n => n
  | .error _ => 0

abbrev CRank := List Char × List Char × Nat × Nat

/-- The blocks of the vector: name and shape, in order. -/
def layout (space : Space) (nbos : Nat) (fs bs : List Rank) (cs : List CRank) : List (List Char × List Nat) :=
  (fs.map fun r => (r.1, r.2.1.map (szOf space))) ++
  ((bs.map fun r => (r.1, List.replicate r.2.2 nbos)) ++
  cs.map fun r => (r.1, List.replicate r.2.2.2 nbos ++ (r.2.1.drop r.2.2.2).map (szOf space)))

/-- The ranks of an ansatz. -/
structure HasRanks (a : Ansatz) (spin : SpinType) (which : Which) (fs bs : List Rank) (cs : List CRank) : Prop where
  f : fermionicClusterRanks a.fermionAnsatz spin which = .ok fs
  b : bosonicClusterRanks a.bosonAnsatz which = .ok bs
  c : couplingClusterRanks a.fermionCouplingRank a.bosonCouplingRank which = .ok cs

theorem size_ok (s : Space) (c : Char) (h : c = 'o' ∨ c = 'O' ∨ c = 'v' ∨ c = 'V') : s.size c = .ok (szOf s c) := by
  rcases h with rfl | rfl | rfl | rfl <;> rfl

theorem key_chars {ansatz : List Char} {spin : SpinType} {which : Which} {fs : List Rank}
    (h : fermionicClusterRanks ansatz spin which = .ok fs) (r : Rank) (hr : r ∈ fs) (c : Char) (hc : c ∈ r.2.1) :
    c = 'o' ∨ c = 'O' ∨ c = 'v' ∨ c = 'V' := by
  obtain ⟨k, rfl⟩ := (C24_well_formed ansatz spin which fs h).2.2 r hr
  have hall : ∀ c ∈ (Cls.entry which k).2.1, c = 'o' ∨ c = 'O' ∨ c = 'v' ∨ c = 'V' := by
    cases k <;> cases which <;> decide
  exact hall c hc

theorem coupling_key {nf nb : Nat} {which : Which} {cs : List CRank}
    (h : couplingClusterRanks nf nb which = .ok cs) (r : CRank) (hr : r ∈ cs) :
    (∀ c ∈ r.2.1.drop r.2.2.2, c = 'o' ∨ c = 'O' ∨ c = 'v' ∨ c = 'V') ∧ r.2.2.1 ≤ nf ∧ r.2.2.2 ≤ nb ∧
    1 ≤ r.2.2.1 ∧ 1 ≤ r.2.2.2 := by
  have key : ∀ (f : Nat → Nat → CRank), (∀ i j, (∀ c ∈ (f i j).2.1.drop (f i j).2.2.2,
      c = 'o' ∨ c = 'O' ∨ c = 'v' ∨ c = 'V') ∧ (f i j).2.2 = (i + 1, j + 1)) →
      r ∈ (List.range nf).flatMap (fun i => (List.range nb).map fun j => f i j) →
      (∀ c ∈ r.2.1.drop r.2.2.2, c = 'o' ∨ c = 'O' ∨ c = 'v' ∨ c = 'V') ∧ r.2.2.1 ≤ nf ∧ r.2.2.2 ≤ nb ∧
      1 ≤ r.2.2.1 ∧ 1 ≤ r.2.2.2 := by
    intro f hf hm
    rw [List.mem_flatMap] at hm
    obtain ⟨i, hi, hm⟩ := hm
    rw [List.mem_map] at hm
    obtain ⟨j, hj, rfl⟩ := hm
    rw [List.mem_range] at hi hj
    refine ⟨(hf i j).1, ?_⟩
    rw [(hf i j).2]
    simp only
    omega
  have hw : which = .t ∨ which = .l ∨ (which = .ip ∨ which = .ea ∨ which = .ee) := by cases which <;> simp
  rcases hw with rfl | rfl | hw
  · rw [(C24_coupling nf nb).1] at h
    cases h
    refine key (fun i j => ('u' :: (Nat.toDigits 10 (i + 1) ++ Nat.toDigits 10 (j + 1)),
          List.replicate (j + 1) 'b' ++ (List.replicate (i + 1) 'o' ++ List.replicate (i + 1) 'v'), i + 1, j + 1))
      (fun i j => ⟨?_, rfl⟩) hr
    intro c hc
    simp only [List.drop_left', List.length_replicate, List.mem_append, List.mem_replicate] at hc
    tauto
  · rw [(C24_coupling nf nb).2] at h
    cases h
    refine key (fun i j => ('l' :: 'u' :: (Nat.toDigits 10 (i + 1) ++ Nat.toDigits 10 (j + 1)),
          List.replicate (j + 1) 'b' ++ (List.replicate (i + 1) 'v' ++ List.replicate (i + 1) 'o'), i + 1, j + 1))
      (fun i j => ⟨?_, rfl⟩) hr
    intro c hc
    simp only [List.drop_left', List.length_replicate, List.mem_append, List.mem_replicate] at hc
    tauto
  · rw [C24_coupling_eom nf nb which hw] at h
    split at h
    · cases h; simp at hr
    · cases h

/-- The items of the restricted vector. -/
def itemsOf (R : Type) (l : List (List Char × List Nat)) : List (Item R (NDArray R)) :=
  l.map fun p => reshapeItem R p.1 p.2

theorem foldlM_congr_mem {α β : Type} (f g : β → α → Except PyErr β) (l : List α) (b : β)
    (h : ∀ x ∈ l, ∀ b, f b x = g b x) : l.foldlM f b = l.foldlM g b := by
  induction l generalizing b with
  | nil => rfl
  | cons x l ih =>
    rw [List.foldlM_cons, List.foldlM_cons, h x List.mem_cons_self]
    congr 1
    funext b'
    exact ih b' fun y hy => h y (List.mem_cons_of_mem _ hy)

theorem mapM_congr_mem {α β : Type} (f g : α → Except PyErr β) (l : List α) (h : ∀ x ∈ l, f x = g x) :
    l.mapM f = l.mapM g := by
  induction l with
  | nil => rfl
  | cons x l ih =>
    rw [List.mapM_cons, List.mapM_cons, h x List.mem_cons_self, ih fun y hy => h y (List.mem_cons_of_mem _ hy)]

theorem mapM_map' {α β γ : Type} (f : β → Except PyErr γ) (g : α → β) (l : List α) :
    (l.map g).mapM f = l.mapM fun x => f (g x) := by
  induction l with
  | nil => rfl
  | cons x l ih => rw [List.map_cons, List.mapM_cons, List.mapM_cons, ih]

theorem cutBlock_eq {R : Type} (vector : List R) (st : Dict (List Char) (NDArray R) × Nat) (name : List Char)
    (shape : List Nat) :
    cutBlock vector st name shape = (do
      let (x, j) ← (reshapeItem R name shape).un vector st.2
      pure (st.1.set name x, j)) := by
  simp only [cutBlock, reshapeItem, bind, Except.bind, Except.map, pure, Except.pure]
  cases NDArray.reshape (vecSlice vector st.2 (prodN shape)) shape <;> rfl

theorem mapM_size (s : Space) (l : List Char) (h : ∀ c ∈ l, c = 'o' ∨ c = 'O' ∨ c = 'v' ∨ c = 'V') :
    l.mapM s.size = .ok (l.map (szOf s)) :=
  mapM_ok _ _ _ fun c hc => size_ok s c (h c hc)

theorem unItems_append {R X : Type} (l m : List (Item R X)) (v : List R) (st : Dict (List Char) X × Nat) :
    unItems (l ++ m) v st = (unItems l v st).bind fun st => unItems m v st := by
  unfold unItems
  rw [List.foldlM_append]
  rfl

theorem packItems_append {R X : Type} (l m : List (Item R X)) (d : Dict (List Char) X) :
    packItems (l ++ m) d = (packItems l d).bind fun a => (packItems m d).bind fun b => .ok (a ++ b) := by
  unfold packItems
  rw [List.mapM_append]
  rfl

theorem vectorToAmplitudes_eq {R : Type} {a : Ansatz} {spin : SpinType} {which : Which} {fs bs : List Rank}
    {cs : List CRank} (h : HasRanks a spin which fs bs cs) (space : Space) (nbos : Nat) (vector : List R) :
    vectorToAmplitudes a spin which space nbos vector = (do
      let st ← unItems (itemsOf R (layout space nbos fs bs cs)) vector ([], 0)
      pure st.1) := by
  have e1 : ∀ st, fs.foldlM (fun st r => do
      let shape ← r.2.1.mapM space.size
      cutBlock vector st r.1 shape) st
      = unItems (itemsOf R (fs.map fun r => (r.1, r.2.1.map (szOf space)))) vector st := by
    intro st
    unfold unItems itemsOf
    rw [List.map_map, List.foldlM_map]
    apply foldlM_congr_mem
    intro r hr b
    rw [mapM_size space _ (key_chars h.f r hr)]
    exact cutBlock_eq _ _ _ _
  have e2 : ∀ st, bs.foldlM (fun st r => cutBlock vector st r.1 (List.replicate r.2.2 nbos)) st
      = unItems (itemsOf R (bs.map fun r => (r.1, List.replicate r.2.2 nbos))) vector st := by
    intro st
    unfold unItems itemsOf
    rw [List.map_map, List.foldlM_map]
    apply foldlM_congr_mem
    intro r hr b
    exact cutBlock_eq _ _ _ _
  have e3 : ∀ st, cs.foldlM (fun st r => do
      let shape ← couplingShape space.size nbos r.2.2.2 r.2.1
      cutBlock vector st r.1 shape) st
      = unItems (itemsOf R (cs.map fun r =>
          (r.1, List.replicate r.2.2.2 nbos ++ (r.2.1.drop r.2.2.2).map (szOf space)))) vector st := by
    intro st
    unfold unItems itemsOf
    rw [List.map_map, List.foldlM_map]
    apply foldlM_congr_mem
    intro r hr b
    rw [couplingShape, mapM_size space _ (coupling_key h.c r hr).1]
    exact cutBlock_eq _ _ _ _
  unfold vectorToAmplitudes layout
  rw [h.f, h.b, h.c, itemsOf, List.map_append, List.map_append]
  simp only [unItems_append, bind, Except.bind] at e1 e2 e3 ⊢
  rw [e1]
  unfold itemsOf at e2 e3 ⊢
  cases unItems (List.map _ (List.map _ fs)) vector ([], 0) with
  | error e => rfl
  | ok st =>
    simp only
    rw [e2]
    cases unItems (List.map _ (List.map _ bs)) vector st with
    | error e => rfl
    | ok st' =>
      simp only
      rw [e3]

theorem ravelBlocks_eq {R : Type} (amps : Dict (List Char) (NDArray R)) (l : List (List Char × List Nat)) :
    ravelBlocks amps (l.map fun p => p.1) = packItems (itemsOf R l) amps := by
  unfold ravelBlocks packItems itemsOf
  rw [mapM_map', mapM_map']
  rfl

theorem amplitudesToVector_eq {R : Type} {a : Ansatz} {spin : SpinType} {which : Which} {fs bs : List Rank}
    {cs : List CRank} (h : HasRanks a spin which fs bs cs) (space : Space) (nbos : Nat)
    (amps : Dict (List Char) (NDArray R)) :
    amplitudesToVector a spin which amps = (do
      let vs ← packItems (itemsOf R (layout space nbos fs bs cs)) amps
      concatenate vs) := by
  unfold amplitudesToVector layout
  rw [h.f, h.b, h.c]
  simp only [bind, Except.bind]
  have e1 : (fs.map fun r => r.1) = (fs.map fun r => (r.1, r.2.1.map (szOf space))).map fun p => p.1 := by
    rw [List.map_map]; rfl
  have e2 : (bs.map fun r => r.1) = (bs.map fun r => (r.1, List.replicate r.2.2 nbos)).map fun p => p.1 := by
    rw [List.map_map]; rfl
  have e3 : (cs.map fun r => r.1) = (cs.map fun r =>
      (r.1, List.replicate r.2.2.2 nbos ++ (r.2.1.drop r.2.2.2).map (szOf space))).map fun p => p.1 := by
    rw [List.map_map]; rfl
  rw [e1, e2, e3]
  simp only [ravelBlocks_eq]
  unfold itemsOf
  rw [List.map_append, List.map_append]
  simp only [packItems_append, Except.bind]
  cases packItems (List.map _ (List.map _ fs)) amps with
  | error e => rfl
  | ok v1 =>
    simp only
    cases packItems (List.map _ (List.map _ bs)) amps with
    | error e => rfl
    | ok v2 =>
      simp only
      cases packItems (List.map _ (List.map _ cs)) amps with
      | error e => rfl
      | ok v3 => simp only [List.append_assoc]

/-- A vector is accepted only if it is long enough. -/
theorem unItems_long {R : Type} (l : List (List Char × List Nat)) (vec : List R)
    (st st' : Dict (List Char) (NDArray R) × Nat) (h0 : st.2 ≤ vec.length)
    (h : unItems (itemsOf R l) vec st = .ok st') : st'.2 ≤ vec.length := by
  induction l generalizing st with
  | nil =>
    simp only [unItems, itemsOf, List.map_nil, List.foldlM_nil, pure, Except.pure, Except.ok.injEq] at h
    subst h; exact h0
  | cons p l ih =>
    unfold unItems itemsOf at h ih
    rw [List.map_cons, List.foldlM_cons] at h
    simp only [bind, Except.bind, pure, Except.pure] at h
    cases hu : (reshapeItem R p.1 p.2).un vec st.2 with
    | error e => simp [hu] at h
    | ok q =>
      obtain ⟨x, j⟩ := q
      simp only [hu] at h
      refine ih _ ?_ h
      simp only [reshapeItem, NDArray.reshape, Except.map] at hu
      split at hu
      · cases hu
      · rename_i hr
        cases hu
        split at hr
        · rename_i hl
          simp only [vecSlice, List.length_take, List.length_drop] at hl ⊢
          omega
        · cases hr

/-- Bosonic ranks: strictly increasing, one entry for each rank. -/
theorem boson_well_formed {op : List Char} {which : Which} {rs : List Rank}
    (h : bosonicClusterRanks op which = .ok rs) :
    rs.Pairwise (fun a b => a.2.2 < b.2.2) ∧ ∀ e ∈ rs, ∃ n, (n = 1 ∨ n = 2 ∨ n = 3) ∧ e = bosonEntry which n := by
  unfold bosonicClusterRanks at h
  split at h
  · cases h; simp
  · split at h
    · cases h
    · rename_i op' _
      have hr : (collectRanks (bosonNotations which) (sortedByLenRev ((bosonNotations which).map Prod.fst)) op')
          = (bosonList (decide ('3' ∈ op')) (decide ('2' ∈ op'))
          (decide ('T' ∈ op')) (decide ('D' ∈ op')) (decide ('S' ∈ op'))).map (bosonEntry which) := by
        rw [boson_collect]
        have e3 : ((bosonNotations which).lookup ['S']).getD [] = [1].map (bosonEntry which) := by
          cases which <;> decide
        have e4 : ((bosonNotations which).lookup ['D']).getD [] = [2].map (bosonEntry which) := by
          cases which <;> decide
        have e5 : ((bosonNotations which).lookup ['T']).getD [] = [3].map (bosonEntry which) := by
          cases which <;> decide
        have e6 : ((bosonNotations which).lookup ['2']).getD [] = [1, 2].map (bosonEntry which) := by
          cases which <;> decide
        have e7 : ((bosonNotations which).lookup ['3']).getD [] = [1, 2, 3].map (bosonEntry which) := by
          cases which <;> decide
        rw [e3, e4, e5, e6, e7]
        unfold bosonList
        simp only [List.map_append, apply_ite (List.map (bosonEntry which)), List.map_nil, decide_eq_true_eq]
      simp only [hr] at h
      have hl : ∀ q3 q2 qT qD qS : Bool, ∀ n ∈ bosonList q3 q2 qT qD qS, n = 1 ∨ n = 2 ∨ n = 3 := by
        decide +kernel
      have hl' := hl (decide ('3' ∈ op')) (decide ('2' ∈ op'))
          (decide ('T' ∈ op')) (decide ('D' ∈ op')) (decide ('S' ∈ op'))
      generalize bosonList _ _ _ _ _ = l at h hl'
      obtain ⟨_, h2, h3, h4⟩ := finishRanks_ok h
      have hm : ∀ e ∈ rs, ∃ n, (n = 1 ∨ n = 2 ∨ n = 3) ∧ e = bosonEntry which n := by
        intro e he
        rw [h4, List.mem_map] at he
        obtain ⟨c, hc, rfl⟩ := he
        exact ⟨c, hl' c hc, rfl⟩
      refine ⟨(h2.and h3).imp_of_mem fun {a b} ha hb' hab => ?_, hm⟩
      obtain ⟨c, hc, rfl⟩ := hm a ha
      obtain ⟨d, hd, rfl⟩ := hm b hb'
      refine lt_of_le_of_ne hab.2 fun he => hab.1 ?_
      exact congrArg (bosonEntry which) he

theorem digits_inj : ∀ i < 10, ∀ j < 10, ∀ i' < 10, ∀ j' < 10,
    Nat.toDigits 10 i ++ Nat.toDigits 10 j = Nat.toDigits 10 i' ++ Nat.toDigits 10 j' → i = i' ∧ j = j' := by
  have h1 : ∀ i < 10, ∃ c, Nat.toDigits 10 i = [c] ∧ ∀ i' < 10, Nat.toDigits 10 i' = [c] → i = i' := by
    intro i hi
    exact ⟨Nat.digitChar i, by revert i; decide, by revert i; decide⟩
  intro i hi j hj i' hi' j' hj' he
  obtain ⟨c, hc, hc'⟩ := h1 i hi
  obtain ⟨d, hd, hd'⟩ := h1 j hj
  obtain ⟨c', e1, _⟩ := h1 i' hi'
  obtain ⟨d', e2, _⟩ := h1 j' hj'
  rw [hc, hd, e1, e2] at he
  simp only [List.cons_append, List.nil_append, List.cons.injEq, and_true] at he
  exact ⟨hc' i' hi' (he.1 ▸ e1), hd' j' hj' (he.2 ▸ e2)⟩

/-- The names of the blocks are distinct unless there are two kinds of triples or ranks of two digits. -/
theorem names_nodup {a : Ansatz} {spin : SpinType} {which : Which} {fs bs : List Rank} {cs : List CRank}
    (h : HasRanks a spin which fs bs cs) (hw : which = .t ∨ which = .l)
    (h3 : ∀ r ∈ fs, ∀ r' ∈ fs, r.2.2 = 3 → r'.2.2 = 3 → r = r')
    (h9 : a.fermionCouplingRank ≤ 9 ∧ a.bosonCouplingRank ≤ 9) (space : Space) (nbos : Nat) :
    ((layout space nbos fs bs cs).map fun p => p.1).Nodup := by
  have hn : ((layout space nbos fs bs cs).map fun p => p.1)
      = (fs.map fun r => r.1) ++ ((bs.map fun r => r.1) ++ cs.map fun r => r.1) := by
    simp [layout, List.map_append, List.map_map, Function.comp_def]
  rw [hn]
  obtain ⟨f1, _, f2⟩ := C24_well_formed _ _ _ _ h.f
  -- the second (first) letter tells the kinds apart
  let kind : List Char → Option Char := fun s => if which = .t then s.head? else s.tail.head?
  have kf : ∀ r ∈ fs, kind r.1 ≠ some 's' ∧ kind r.1 ≠ some 'u' := by
    intro r hr
    obtain ⟨c, rfl⟩ := f2 r hr
    rcases hw with rfl | rfl <;> cases c <;> simp only [kind] <;> decide
  have kb : ∀ r ∈ bs, kind r.1 = some 's' := by
    intro r hr
    have := boson_well_formed h.b
    obtain ⟨n, _, rfl⟩ := this.2 r hr
    rcases hw with rfl | rfl <;> simp [kind, bosonEntry]
  have kc : ∀ r ∈ cs, kind r.1 = some 'u' := by
    intro r hr
    have hc := h.c
    rcases hw with rfl | rfl
    · rw [(C24_coupling _ _).1] at hc
      cases hc
      rw [List.mem_flatMap] at hr
      obtain ⟨i, _, hr⟩ := hr
      rw [List.mem_map] at hr
      obtain ⟨j, _, rfl⟩ := hr
      simp [kind]
    · rw [(C24_coupling _ _).2] at hc
      cases hc
      rw [List.mem_flatMap] at hr
      obtain ⟨i, _, hr⟩ := hr
      rw [List.mem_map] at hr
      obtain ⟨j, _, rfl⟩ := hr
      simp [kind]
  have disj : ∀ {α β : Type} (l : List α) (m : List β) (f : α → List Char) (g : β → List Char),
      (∀ x ∈ l, ∀ y ∈ m, kind (f x) ≠ kind (g y)) → (l.map f).Disjoint (m.map g) := by
    intro α β l m f g hd s hs hs'
    obtain ⟨x, hx, rfl⟩ := List.mem_map.1 hs
    obtain ⟨y, hy, he⟩ := List.mem_map.1 hs'
    exact hd x hx y hy (by rw [he])
  rw [List.nodup_append', List.nodup_append']
  refine ⟨?_, ⟨?_, ?_, ?_⟩, ?_⟩
  · refine List.Nodup.map_on ?_ f1
    intro r hr r' hr' he
    obtain ⟨c, rfl⟩ := f2 r hr
    obtain ⟨c', rfl⟩ := f2 r' hr'
    have hsuf : c.suffix = c'.suffix := (List.cons.inj he).2
    by_cases hc3 : c.rank = 3
    · have hc3' : c'.rank = 3 := by
        revert hsuf hc3; cases c <;> cases c' <;> decide
      exact h3 _ hr _ hr' hc3 hc3'
    · have : c = c' := by
        revert hsuf hc3; cases c <;> cases c' <;> simp [Cls.suffix, Cls.rank]
      rw [this]
  · obtain ⟨b1, _⟩ := boson_well_formed h.b
    refine List.Nodup.map_on ?_ (b1.imp fun {x y} hxy he => by rw [he] at hxy; exact lt_irrefl _ hxy)
    intro r hr r' hr' he
    obtain ⟨n, hn, rfl⟩ := (boson_well_formed h.b).2 r hr
    obtain ⟨n', hn', rfl⟩ := (boson_well_formed h.b).2 r' hr'
    have : n = n' := by
      have := List.append_cancel_left he
      rcases hn with rfl | rfl | rfl <;> rcases hn' with rfl | rfl | rfl <;> first | rfl | (revert this; decide)
    rw [this]
  · have key : ∀ (pre : List Char) (f : Nat → Nat → CRank), (∀ i j, (f i j).1 = pre ++
        (Nat.toDigits 10 (i + 1) ++ Nat.toDigits 10 (j + 1))) →
        (((List.range a.fermionCouplingRank).flatMap (fun i => (List.range a.bosonCouplingRank).map fun j =>
          f i j)).map fun r => r.1).Nodup := by
      intro pre f hf
      have e : ((List.range a.fermionCouplingRank).flatMap (fun i => (List.range a.bosonCouplingRank).map fun j =>
          f i j)).map (fun r => r.1) = ((List.range a.fermionCouplingRank).product
            (List.range a.bosonCouplingRank)).map fun q => (f q.1 q.2).1 := by
        simp [List.product, List.map_flatMap, Function.comp_def]
      rw [e]
      refine List.Nodup.map_on ?_ (List.nodup_range.product List.nodup_range)
      rintro ⟨i, j⟩ hij ⟨i', j'⟩ hij' he
      simp only [List.pair_mem_product, List.mem_range] at hij hij'
      simp only [hf] at he
      have := digits_inj (i + 1) (by omega) (j + 1) (by omega) (i' + 1) (by omega) (j' + 1) (by omega)
        (List.append_cancel_left he)
      simp only [Prod.mk.injEq]
      omega
    have hc := h.c
    rcases hw with rfl | rfl
    · rw [(C24_coupling _ _).1] at hc
      cases hc
      exact key ['u'] _ fun i j => rfl
    · rw [(C24_coupling _ _).2] at hc
      cases hc
      exact key ['l', 'u'] _ fun i j => rfl
  · exact disj _ _ _ _ fun r hr r' hr' => by rw [kb r hr, kc r' hr']; decide
  · rw [List.disjoint_append_right]
    refine ⟨disj _ _ _ _ fun r hr r' hr' => ?_, disj _ _ _ _ fun r hr r' hr' => ?_⟩
    · rw [kb r' hr']; exact (kf r hr).1
    · rw [kc r' hr']; exact (kf r hr).2

end Ebcc
