import Verif.Model.Convert
import Verif.Lemmas.Amps
import Verif.Lemmas.Space

/-!
Lemmas on the conversion of spin blocks to general orbitals.
-/

namespace Ebcc

section
variable {R : Type} [Ring R]

/-! ### Writing through `np.ix_` -/

def ixMem (M : List (List Nat)) (idx : List Nat) : Bool :=
  (List.zipWith (fun (l : List Nat) i => decide (i ∈ l)) M idx).all id

def maskPos (M : List (List Nat)) (idx : List Nat) : List Nat :=
  List.zipWith (fun (l : List Nat) i => l.idxOf i) M idx

theorem mask_back (M : List (List Nat)) (idx : List Nat) (hl : M.length = idx.length) (h : ixMem M idx = true) :
    ValidIdx (M.map List.length) (maskPos M idx) ∧
      List.zipWith (fun (l : List Nat) i => l.getD i 0) M (maskPos M idx) = idx := by
  induction M generalizing idx with
  | nil =>
    cases idx with
    | nil => exact ⟨validIdx_nil, rfl⟩
    | cons => cases hl
  | cons l M ih =>
    cases idx with
    | nil => cases hl
    | cons i idx =>
      simp only [ixMem, List.zipWith_cons_cons, List.all_cons, Bool.and_eq_true, id, decide_eq_true_eq] at h
      obtain ⟨h1, h2⟩ := ih idx (by simpa using hl) h.2
      have hi : l.idxOf i < l.length := List.idxOf_lt_length_iff.2 h.1
      refine ⟨?_, ?_⟩
      · simp only [maskPos, List.zipWith_cons_cons, List.map_cons]
        exact (validIdx_cons _ _ _ _).2 ⟨hi, h1⟩
      · simp only [maskPos, List.zipWith_cons_cons] at h2 ⊢
        rw [h2, List.getD_eq_getElem?_getD, List.getElem?_eq_getElem hi, Option.getD_some, List.getElem_idxOf hi]

theorem validIdx_length {s idx : List Nat} (h : ValidIdx s idx) : idx.length = s.length := List.Forall₂.length_eq h

/-- One addition to a spin block. -/
theorem put_step (g t : NDArray R) (M : List (List Nat)) (c : R) (hM : M.length = g.shape.length)
    (htw : t.WF) (ht : t.shape = M.map List.length) :
    ∃ v, (ixGet g M).add (t.map fun x => x * c) = .ok v ∧ (ixPut g M v).WF ∧ (ixPut g M v).shape = g.shape ∧
      ∀ idx, ValidIdx g.shape idx → (ixPut g M v).get idx
        = g.get idx + if ixMem M idx then t.get (maskPos M idx) * c else 0 := by
  obtain ⟨v, v1, v2, v3, v4⟩ := add_ok (ixGet g M) (t.map fun x => x * c) (NDArray.ofFn_wf _ _) (map_wf _ _ htw)
    (ht.symm : (ixGet g M).shape = _)
  refine ⟨v, v1, NDArray.ofFn_wf _ _, rfl, fun idx hidx => ?_⟩
  have hl : M.length = idx.length := hM.trans (validIdx_length hidx).symm
  rw [show (ixPut g M v).get idx = _ from NDArray.get_ofFn _ _ hidx]
  change (if ixMem M idx = true then v.get (maskPos M idx) else g.get idx) = _
  by_cases h : ixMem M idx = true
  · obtain ⟨h1, h2⟩ := mask_back M idx hl h
    rw [if_pos h, if_pos h, v4, map_get _ (fun x => x * c) (zero_mul _),
      show (ixGet g M).get (maskPos M idx) = _ from NDArray.get_ofFn _ _ h1, h2]
  · rw [if_neg h, if_neg h, add_zero]

end

/-! ### Positions of the orbitals of one spin -/

/-- The position of the `i`-th orbital among those of its spin. -/
def spinPos (sig : List Char) (i : Nat) : Nat := (sig.take i).count (sig.getD i ' ')

theorem idxOf_filter_range (p : Nat → Bool) (n i : Nat) (hi : i < n) (h : p i = true) :
    ((List.range n).filter p).idxOf i = ((List.range i).filter p).length := by
  obtain ⟨m, rfl⟩ : ∃ m, n = i + (m + 1) := ⟨n - i - 1, by omega⟩
  rw [List.range_add, List.filter_append, List.idxOf_append_of_notMem (by simp)]
  rw [show (List.range (m + 1)).map (fun x => i + x) = i :: ((List.range m).map fun x => i + (x + 1)) by
    rw [List.range_succ_eq_map, List.map_cons, List.map_map]; rfl, List.filter_cons_of_pos h, List.idxOf_cons_self,
    Nat.add_zero]

theorem filter_range_length (sig : List Char) (s : Char) (i : Nat) (hi : i ≤ sig.length) :
    ((List.range i).filter fun j => decide (sig.getD j ' ' = s)).length = (sig.take i).count s := by
  induction i with
  | zero => simp
  | succ i ih =>
    rw [List.range_succ, List.filter_append, List.length_append, ih (by omega), List.take_add_one,
      List.count_append]
    congr 1
    have hi' : i < sig.length := by omega
    by_cases h : sig[i] = s <;> simp [List.filter_cons, hi', h]

theorem mem_whereSpin (sig : List Char) (s : Char) (i : Nat) :
    i ∈ whereSpin sig s ↔ i < sig.length ∧ sig.getD i ' ' = s := by
  simp [whereSpin]

theorem idxOf_whereSpin (sig : List Char) (s : Char) (i : Nat) (hi : i < sig.length) (h : sig.getD i ' ' = s) :
    (whereSpin sig s).idxOf i = spinPos sig i := by
  unfold whereSpin spinPos
  rw [idxOf_filter_range _ _ _ hi (decide_eq_true h), filter_range_length _ _ _ (by omega), h]

theorem length_whereSpin (sig : List Char) (s : Char) : (whereSpin sig s).length = sig.count s := by
  unfold whereSpin
  rw [filter_range_length sig s sig.length le_rfl, List.take_length]

theorem spinPos_lt (sig : List Char) (i : Nat) (hi : i < sig.length) :
    spinPos sig i < sig.count (sig.getD i ' ') := by
  rw [← length_whereSpin, ← idxOf_whereSpin sig _ i hi rfl]
  exact List.idxOf_lt_length_iff.2 ((mem_whereSpin _ _ _).2 ⟨hi, rfl⟩)

/-! ### Spin blocks into general orbitals -/

section
variable {R : Type} [Ring R]

/-- `slices` and `size` belong to the spins `sig` of the orbitals of each class. -/
structure SpinLayout (slices : Char → Char → Except PyErr (List Nat)) (size : Char → Except PyErr Nat)
    (sig : Char → List Char) (ks : List Char) : Prop where
  slices : ∀ k ∈ ks, ∀ s, s = 'a' ∨ s = 'b' → slices s k = .ok (whereSpin (sig k) s)
  size : ∀ k ∈ ks, size k = .ok (sig k).length
  spins : ∀ k ∈ ks, ∀ c ∈ sig k, c = 'a' ∨ c = 'b'

theorem transpose_range (x : NDArray R) (hw : x.WF) (n : Nat) (hn : x.shape.length = n) :
    x.transpose (List.range n) = .ok x := by
  subst hn
  obtain ⟨t, t1, t2, t3, t4⟩ := transpose_spec x (List.range x.shape.length) (List.Perm.refl _)
  rw [t1]
  congr 1
  have hs : t.shape = x.shape := by
    rw [t3]
    apply List.ext_getElem
    · simp
    · intro i h1 h2
      simp [h2]
  refine NDArray.ext_get t2 hw hs fun idx hidx => ?_
  change ValidIdx t.shape idx at hidx
  have hidx' := hidx
  rw [hs] at hidx'
  have := t4 idx hidx'
  rw [← this]
  congr 1
  have hl := validIdx_length hidx'
  apply List.ext_getElem
  · simp [hl]
  · intro i h1 h2
    simp [h1]

theorem mask_bosons (nbos nb : Nat) (bs : List Nat) (h : ValidIdx (List.replicate nb nbos) bs)
    (M : List (List Nat)) (idx : List Nat) :
    ixMem (List.replicate nb (List.range nbos) ++ M) (bs ++ idx) = ixMem M idx ∧
      maskPos (List.replicate nb (List.range nbos) ++ M) (bs ++ idx) = bs ++ maskPos M idx := by
  induction nb generalizing bs with
  | zero =>
    rw [List.replicate_zero, validIdx_nil_iff] at h
    subst h
    exact ⟨rfl, rfl⟩
  | succ nb ih =>
    rw [List.replicate_succ, validIdx_cons_iff] at h
    obtain ⟨i, t, rfl, hi, h⟩ := h
    obtain ⟨h1, h2⟩ := ih t h
    refine ⟨?_, ?_⟩
    · rw [← h1]
      simp [ixMem, List.replicate_succ, hi]
    · rw [List.replicate_succ, List.cons_append, List.cons_append, maskPos, List.zipWith_cons_cons]
      rw [maskPos] at h2
      rw [h2, List.cons_append]
      congr 1
      rw [show List.range nbos = (List.range nbos).filter (fun _ => true) by simp,
        idxOf_filter_range _ _ _ hi rfl]
      simp

end

end Ebcc
