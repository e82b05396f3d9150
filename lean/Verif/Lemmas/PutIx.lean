import Verif.Model.Tailor
import Verif.Lemmas.Decompress
import Verif.Lemmas.Convert

namespace Ebcc

theorem prodL_eq_box_map {α : Type} (d : α) (lists : List (List α)) :
    prodL lists = (box (lists.map List.length)).map fun k => List.zipWith (fun l i => l.getD i d) lists k := by
  induction lists with
  | nil => rfl
  | cons l ls ih =>
    have hl : l = (List.range l.length).map fun i => l.getD i d := by
      apply List.ext_getElem
      · simp
      · intro i h1 h2
        simp [List.getD_eq_getElem?_getD, List.getElem?_eq_getElem h1]
    simp only [prodL, List.map_cons, box, List.map_flatMap, List.map_map]
    conv_lhs => rw [hl]
    rw [List.flatMap_map]
    congr 1
    funext i
    rw [ih, List.map_map]
    rfl

theorem nodup_getD_inj {l : List Nat} (h : l.Nodup) {i j : Nat} (hi : i < l.length) (hj : j < l.length)
    (e : l.getD i 0 = l.getD j 0) : i = j := by
  simp only [List.getD_eq_getElem?_getD, List.getElem?_eq_getElem hi, List.getElem?_eq_getElem hj,
    Option.getD_some] at e
  exact (h.getElem_inj_iff).1 e

theorem zip_getD_inj (lists : List (List Nat)) (hnd : ∀ l ∈ lists, l.Nodup) {k k' : List Nat}
    (hk : k ∈ box (lists.map List.length)) (hk' : k' ∈ box (lists.map List.length))
    (e : List.zipWith (fun (l : List Nat) i => l.getD i 0) lists k
      = List.zipWith (fun (l : List Nat) i => l.getD i 0) lists k') : k = k' := by
  induction lists generalizing k k' with
  | nil => simp [box] at hk hk'; rw [hk, hk']
  | cons l ls ih =>
    simp only [List.map_cons, box, List.mem_flatMap, List.mem_map, List.mem_range] at hk hk'
    obtain ⟨i, hi, t, ht, rfl⟩ := hk
    obtain ⟨j, hj, u, hu, rfl⟩ := hk'
    simp only [List.zipWith_cons_cons, List.cons.injEq] at e
    rw [nodup_getD_inj (hnd l (by simp)) hi hj e.1, ih (fun l hl => hnd l (by simp [hl])) ht hu e.2]

theorem zip_getD_idxOf (lists : List (List Nat)) (idx : List Nat) (hlen : lists.length = idx.length)
    (h : (List.zipWith (fun (l : List Nat) i => decide (i ∈ l)) lists idx).all id = true) :
    List.zipWith (fun (l : List Nat) i => l.idxOf i) lists idx ∈ box (lists.map List.length)
      ∧ List.zipWith (fun (l : List Nat) i => l.getD i 0) lists
        (List.zipWith (fun (l : List Nat) i => l.idxOf i) lists idx) = idx := by
  induction lists generalizing idx with
  | nil => cases idx with
    | nil => simp [box]
    | cons _ _ => simp at hlen
  | cons l ls ih =>
    cases idx with
    | nil => simp at hlen
    | cons i idx =>
      simp only [List.zipWith_cons_cons, List.all_cons, id_eq, Bool.and_eq_true, decide_eq_true_eq] at h
      obtain ⟨h1, h2⟩ := ih idx (by simpa using hlen) h.2
      have hi := List.idxOf_lt_length_of_mem h.1
      constructor
      · simp only [List.map_cons, box, List.mem_flatMap, List.mem_map, List.mem_range, List.zipWith_cons_cons]
        exact ⟨_, hi, _, h1, rfl⟩
      · simp only [List.zipWith_cons_cons, h2, List.cons.injEq, and_true]
        simp [List.getD_eq_getElem?_getD, List.getElem?_eq_getElem hi]

theorem zip_mem_of_getD (lists : List (List Nat)) (k : List Nat) (hk : k ∈ box (lists.map List.length)) :
    (List.zipWith (fun (l : List Nat) i => decide (i ∈ l)) lists
      (List.zipWith (fun (l : List Nat) i => l.getD i 0) lists k)).all id = true := by
  induction lists generalizing k with
  | nil => simp
  | cons l ls ih =>
    simp only [List.map_cons, box, List.mem_flatMap, List.mem_map, List.mem_range] at hk
    obtain ⟨i, hi, t, ht, rfl⟩ := hk
    simp only [List.zipWith_cons_cons, List.all_cons, id_eq, Bool.and_eq_true, decide_eq_true_eq]
    refine ⟨?_, ih t ht⟩
    simp [List.getD_eq_getElem?_getD, List.getElem?_eq_getElem hi]

theorem prodL_sub_box (lists : List (List Nat)) (shape : List Nat)
    (hr : List.Forall₂ (fun l n => ∀ i ∈ l, i < n) lists shape) {t : List Nat} (ht : t ∈ prodL lists) :
    t ∈ box shape := by
  rw [mem_prodL] at ht
  induction hr generalizing t with
  | nil => cases ht; simp [box]
  | cons h1 _ ih =>
    cases ht with
    | cons h3 h4 =>
      simp only [box, List.mem_flatMap, List.mem_map, List.mem_range]
      exact ⟨_, h1 _ h3, _, ih h4, rfl⟩

/-- Putting values at the positions `np.ix_(*lists)`. -/
theorem putIx_ok {R : Type} [Zero R] (x : NDArray R) (lists : List (List Nat)) (v : NDArray R) (hx : x.WF) (hv : v.WF)
    (hr : List.Forall₂ (fun l n => ∀ i ∈ l, i < n) lists x.shape) (hnd : ∀ l ∈ lists, l.Nodup)
    (hs : v.shape = lists.map List.length) :
    putIx x lists v = .ok (ixPut x lists v) := by
  have hlen := hr.length_eq
  unfold putIx
  rw [if_pos ⟨hlen, by
    rw [List.all_eq_true]
    intro t ht
    simpa using prodL_sub_box lists _ hr ht⟩]
  congr 1
  have hpl : prodL lists = (box v.shape).map fun k => List.zipWith (fun l i => l.getD i 0) lists k := by
    rw [hs]; exact prodL_eq_box_map 0 lists
  rw [putFlat_eq _ _ _ (by rw [List.length_map, length_prodL, ← hs]; exact hv)]
  have hW : ((prodL lists).map (ravelIdx x.shape)).zip v.data
      = (box v.shape).map fun k => (ravelIdx x.shape (List.zipWith (fun l i => l.getD i 0) lists k), v.get k) := by
    conv_lhs => rw [hpl, NDArray.data_eq_map_get v hv]
    rw [List.map_map, ← List.zip_map', ]
    rfl
  rw [hW]
  have hinb : ∀ k ∈ box v.shape, List.zipWith (fun (l : List Nat) i => l.getD i 0) lists k ∈ box x.shape := by
    intro k hk
    apply prodL_sub_box lists _ hr
    rw [hpl]
    exact List.mem_map_of_mem hk
  apply NDArray.ext_get
  · unfold NDArray.WF
    rw [length_applyWrites]; exact hx
  · exact NDArray.ofFn_wf _ _
  · rfl
  · intro idx hidx
    change InBox x.shape idx at hidx
    unfold ixPut
    rw [NDArray.get_ofFn _ _ hidx]
    have hp : ravelIdx x.shape idx < x.data.length := by rw [hx]; exact ravelIdx_lt hidx
    by_cases hm : (List.zipWith (fun (l : List Nat) i => decide (i ∈ l)) lists idx).all id = true
    · rw [if_pos hm]
      obtain ⟨h1, h2⟩ := zip_getD_idxOf lists idx (by rw [hlen]; exact hidx.length_eq.symm) hm
      rw [← hs] at h1
      have hw : (applyWrites x.data ((box v.shape).map fun k =>
          (ravelIdx x.shape (List.zipWith (fun (l : List Nat) i => l.getD i 0) lists k), v.get k)))[ravelIdx x.shape idx]?
          = some (v.get (List.zipWith (fun (l : List Nat) i => l.idxOf i) lists idx)) := by
        apply applyWrites_written _ _ _ _ hp
        · rw [List.mem_map]
          exact ⟨_, h1, by rw [h2]⟩
        · intro v' hv'
          rw [List.mem_map] at hv'
          obtain ⟨k, hk, he⟩ := hv'
          simp only [Prod.mk.injEq] at he
          have h3 := ravelIdx_inj (mem_box.1 (hinb k hk)) hidx he.1
          rw [← h2] at h3
          rw [← he.2, zip_getD_inj lists hnd (by rw [← hs]; exact hk) (by rw [← hs]; exact h1) h3]
      clear hW
      generalize (box v.shape).map (fun k =>
          (ravelIdx x.shape (List.zipWith (fun (l : List Nat) i => l.getD i 0) lists k), v.get k)) = W at hw ⊢
      change (applyWrites x.data W).getD (ravelIdx x.shape idx) 0 = _
      rw [List.getD_eq_getElem?_getD, hw, Option.getD_some]
    · rw [if_neg hm]
      have hw := applyWrites_not_written x.data ((box v.shape).map fun k =>
          (ravelIdx x.shape (List.zipWith (fun (l : List Nat) i => l.getD i 0) lists k), v.get k)) (ravelIdx x.shape idx)
        (by
          intro v' hv'
          rw [List.mem_map] at hv'
          obtain ⟨k, hk, he⟩ := hv'
          simp only [Prod.mk.injEq] at he
          have h3 := ravelIdx_inj (mem_box.1 (hinb k hk)) hidx he.1
          apply hm
          rw [← h3]
          exact zip_mem_of_getD lists k (by rw [← hs]; exact hk))
      clear hW
      generalize (box v.shape).map (fun k =>
          (ravelIdx x.shape (List.zipWith (fun (l : List Nat) i => l.getD i 0) lists k), v.get k)) = W at hw ⊢
      change (applyWrites x.data W).getD (ravelIdx x.shape idx) 0 = x.data.getD (ravelIdx x.shape idx) 0
      rw [List.getD_eq_getElem?_getD, hw, List.getD_eq_getElem?_getD]

end Ebcc
