import Verif.Lemmas.Sym
import Verif.Thms.C03

namespace Ebcc

section
variable {κ : Type} [DecidableEq κ]

/-- Number of packed elements: for each distinct symbol the number of decreasing tuples. -/
def packedLength (sub : List κ) (sz : κ → Nat) (diag : Bool) : Nat :=
  prodN ((firstOccurrences sub).map fun c => ntrilNdim (sz c) (sub.count c) diag)

theorem gsize_eq (sub : List κ) (sz : κ → Nat) (c : Nat) (hc : c < (unique sub).length) :
    gsize sub (sub.map sz) c = sz (unique sub)[c] := by
  obtain ⟨p, hp, e⟩ := canon_surj sub c hc
  have h := Consistent.getD (⟨sz, rfl⟩ : Consistent sub (sub.map sz)) p hp
  rw [e] at h
  rw [← h, getD_eq _ _ _ (by simpa using hp), List.getElem_map]
  congr 1
  rw [canon_getD sub p hp] at e
  have hm := mem_unique.2 (List.getElem_mem hp)
  have := List.getElem_idxOf (List.idxOf_lt_length_of_mem hm)
  simp only [e] at this
  exact this.symm

theorem length_gtrils (sub : List κ) (sz : κ → Nat) (diag : Bool) :
    (prodL (gtrils sub (sub.map sz) diag)).length = packedLength sub sz diag := by
  rw [length_prodL]
  unfold packedLength gtrils
  rw [← unique_eq_firstOccurrences]
  congr 1
  apply List.ext_getElem
  · simp [ngroups]
  · intro i h1 h2
    have hi : i < (unique sub).length := by simpa using h2
    simp only [List.map_map, List.getElem_map, List.getElem_range, Function.comp]
    rw [C03_count _ _ diag _ (trilIndices_ok _ _ _ (mult_pos sub i hi)), gsize_eq sub sz i hi,
      mult_eq_count sub i hi]

/-- An unacceptable symmetry string makes `decompress_axes` fail. -/
theorem decompressAxes_reject {R : Type} [Ring R] (sub : List κ) (shape : List Nat)
    (hc : Consistent sub shape) (diag : Bool) (symm : Option (List Char)) (e : PyErr)
    (hsymm : symmetryLoop (symm.getD (List.replicate sub.length '-'))
      ((List.range (ngroups sub)).map (mult sub)) 0 = .error e)
    (flat : List R) : decompressAxes sub flat shape diag symm = .error e := by
  unfold decompressAxes
  simp only [argsort_canon]
  rw [transpose_ok (NDArray.zeros shape) _ (by
    show (groupedAxes sub).Perm (List.range shape.length)
    rw [hc.length]; exact groupedAxes_perm sub)]
  simp only [bind, Except.bind]
  obtain ⟨d, h1, h2⟩ := sizes_ok hc
  have hzs : (NDArray.zeros (R := R) shape).shape = shape := rfl
  simp only [NDArray.ofFn_shape, hzs, h1, groupedCodes_count]
  have hsz : ∀ c ∈ List.range (unique sub).length, (d.get? c).getD 0 = gsize sub shape c :=
    fun c hcm => h2 c (by simpa [ngroups] using hcm)
  have hf : ((List.range (unique sub).length).map fun c => (d.get? c).getD 0 ^ mult sub c)
      = (gshapes sub shape).map prodN := by
    rw [← fshape_eq]
    apply List.map_congr_left
    intro c hcm; rw [hsz c hcm]
  rw [hf]
  have hlen : (NDArray.ofFn ((groupedAxes sub).map fun p => shape.getD p 0)
      fun T => (NDArray.zeros (R := R) shape).get (unpermute (groupedAxes sub) T)).data.length
        = prodN ((gshapes sub shape).map prodN) := by
    rw [NDArray.ofFn_wf, NDArray.ofFn_shape, ← gshapes_flatten hc, prodN_flatten]
  rw [NDArray.reshape, if_pos hlen]
  simp only
  have hsymm' : symmetryLoop (symm.getD (List.replicate sub.length '-'))
      ((List.range (unique sub).length).map fun a => mult sub a) 0 = .error e := hsymm
  rw [hsymm']

/-- The symmetry characters passed, or their default. -/
def symmArg (sub : List κ) (symm : Option (List Char)) : List Char :=
  symm.getD (List.replicate sub.length '-')

/-- `decompress_axes` on a block string, together with the symmetry of the result. -/
theorem decompress_main {R : Type} [Ring R] (sub : List κ) (hsub : sub ≠ []) (sz : κ → Nat)
    (diag : Bool) (symm : Option (List Char)) (s : κ → Char)
    (hsymm : symmArg sub symm = blockString sub s)
    (hcond : diag = false ∨ ∀ c ∈ sub, s c ≠ '-')
    (flat : List R) (hflat : flat.length = packedLength sub sz diag) :
    ∃ out, decompressAxes sub flat (sub.map sz) diag symm = .ok out ∧ out.shape = sub.map sz ∧
      out.WF ∧ GroupSymmetric sub s out ∧ (diag = false → VanishesOnDiagonal sub out) ∧
      (∀ idx K, InBox (sub.map sz) idx → GroupSorted sub idx →
        (prodL (gtrils sub (sub.map sz) diag))[K]? = some (groupsOf sub idx) →
        out.get idx = flat.getD K 0) := by
  have hc : Consistent sub (sub.map sz) := ⟨sz, rfl⟩
  obtain ⟨out, h1, h2, h3, h4, h5⟩ := decompressAxes_ok sub hsub (sub.map sz) hc diag symm
    ((unique sub).map s) (by
      unfold symmArg at hsymm; rw [hsymm]; exact symmetryLoop_block sub s) (by
      refine hcond.imp id fun h x hx => ?_
      rw [List.mem_map] at hx
      obtain ⟨c, hcm, rfl⟩ := hx
      exact h c (mem_unique.1 hcm)) flat (by rw [hflat, length_gtrils])
  have hvan : diag = false → VanishesOnDiagonal sub out := by
    intro hd i j c hij hi hj idx hidx e
    unfold ValidIdx at hidx
    rw [h2] at hidx
    have hl : idx.length = sub.length := by simpa using InBox.length_eq hidx
    apply h5 idx hidx hd
    by_contra hcon
    push Not at hcon
    exact (nodup_group_iff hl).1 hcon i j c hij hi hj e
  refine ⟨out, h1, h2, h3, ?_, hvan, ?_⟩
  · intro i j c hij hi hj idx hidx
    unfold ValidIdx at hidx
    rw [h2] at hidx
    have hl : idx.length = sub.length := by simpa using InBox.length_eq hidx
    have hj' : j < sub.length := (List.getElem?_eq_some_iff.1 hj).1
    have hi' : i < sub.length := by omega
    have hxi : sub[i] = c := by simpa [hi'] using hi
    have hxj : sub[j] = c := by simpa [hj'] using hj
    have hidx' := swapIdx_inBox hc hi' hj' (hxi.trans hxj.symm) hidx
    by_cases hgood : diag = true ∨ ∀ g ∈ groupsOf sub idx, g.Nodup
    · obtain ⟨K, ts, hK, hp⟩ := exists_packed hc (diag := diag) hidx (by
        intro hd; rcases hgood with h | h
        · rw [hd] at h; simp at h
        · exact h)
      have hp' : List.Forall₂ List.Perm (groupsOf sub (swapIdx i j idx)) ts := by
        have hgg : List.Forall₂ List.Perm (groupsOf sub (swapIdx i j idx)) (groupsOf sub idx) := by
          unfold groupsOf
          rw [List.forall₂_map_left_iff, List.forall₂_map_right_iff, List.forall₂_same]
          intro g _
          have hci := canon_getD sub i hi'
          have hcj := canon_getD sub j hj'
          rw [hxi] at hci; rw [hxj] at hcj
          by_cases hg : (unique sub).idxOf c = g
          · obtain ⟨A, B, C, e1, e2⟩ := group_swap_same hl hij hj' (hci.trans hg) (hcj.trans hg)
            rw [e1, e2]
            apply List.Perm.append_left
            refine (List.Perm.cons _ List.perm_middle).trans ?_
            refine (List.Perm.swap _ _ _).trans ?_
            exact List.Perm.cons _ List.perm_middle.symm
          · rw [group_swap_other hl (by rw [hci]; exact hg) (by rw [hcj]; exact hg)]
        have tr : ∀ {a b d : List (List Nat)}, List.Forall₂ List.Perm a b →
            List.Forall₂ List.Perm b d → List.Forall₂ List.Perm a d := by
          intro a b d hab
          induction hab generalizing d with
          | nil => intro h; cases h; exact List.Forall₂.nil
          | cons x _ ih => intro h; cases h with | cons y h => exact List.Forall₂.cons (x.trans y) (ih h)
        exact tr hgg hp
      rw [h4 idx hidx K ts hK hp, h4 _ hidx' K ts hK hp', groupSign_swap hl hij hj' hi hj]
      · unfold charSign
        split <;> simp
      · intro hm
        rcases hgood with h | h
        · rcases hcond with h' | h'
          · rw [h] at h'; simp at h'
          · exact absurd hm (h' c (hxi ▸ List.getElem_mem hi'))
        · exact h
    · push Not at hgood
      have hd : diag = false := by simpa using hgood.1
      obtain ⟨g, hg, hgn⟩ := hgood.2
      rw [h5 idx hidx hd ⟨g, hg, hgn⟩, mul_zero]
      apply h5 _ hidx' hd
      by_contra hcon
      push Not at hcon
      -- the swapped index has no repetition, hence neither has the original
      have hnd : ∀ g ∈ groupsOf sub idx, g.Nodup := by
        intro g hg
        unfold groupsOf at hg
        rw [List.mem_map] at hg
        obtain ⟨k, hk, rfl⟩ := hg
        have hci := canon_getD sub i hi'
        have hcj := canon_getD sub j hj'
        rw [hxi] at hci; rw [hxj] at hcj
        have hk' := hcon _ (List.mem_map_of_mem hk)
        by_cases hgk : (unique sub).idxOf c = k
        · obtain ⟨A, B, C, e1, e2⟩ := group_swap_same hl hij hj' (hci.trans hgk) (hcj.trans hgk)
          rw [e2] at hk'
          rw [e1]
          refine List.Perm.nodup_iff ?_ |>.1 hk'
          apply List.Perm.append_left
          refine (List.Perm.cons _ List.perm_middle).trans ?_
          refine (List.Perm.swap _ _ _).trans ?_
          exact List.Perm.cons _ List.perm_middle.symm
        · rwa [group_swap_other hl (by rw [hci]; exact hgk) (by rw [hcj]; exact hgk)] at hk'
      exact hgn (hnd g hg)
  · intro idx K hidx hsorted hK
    rw [h4 idx hidx K _ hK (List.forall₂_same.2 fun g _ => List.Perm.refl g),
      groupSign_sorted hsorted]
    simp

/-- The index assembled from packed tuples is sorted, inside the shape, and has these groups. -/
theorem packed_index {sub : List κ} {shape : List Nat} (hc : Consistent sub shape) {diag : Bool}
    {ts : List (List Nat)} (h : ts ∈ prodL (gtrils sub shape diag)) :
    InBox shape (unpermute (groupedAxes sub) ts.flatten) ∧
      groupsOf sub (unpermute (groupedAxes sub) ts.flatten) = ts ∧
      GroupSorted sub (unpermute (groupedAxes sub) ts.flatten) := by
  have hf := gtrils_facts h
  have hg : groupsOf sub (unpermute (groupedAxes sub) ts.flatten) = ts :=
    groupsOf_unpermute (hf.imp fun t c ht => (sorted_of_mem ht).1)
  refine ⟨?_, hg, ?_⟩
  · apply inBox_unpermute (groupedAxes_perm' sub) (by rw [hc.length, length_groupedAxes])
    rw [← gshapes_flatten hc]
    exact inBox_flatten (gtrils_inBox h)
  · intro i j hij hi hj e
    have hci := canon_lt sub i hi
    have hl : (unpermute (groupedAxes sub) ts.flatten).length = sub.length := by
      rw [length_unpermute, length_groupedAxes]
    obtain ⟨A, B, C, e1, _⟩ := group_swap_same hl hij hj rfl
      ((canon_eq_iff sub j i hj hi).2 e.symm)
    have hk : (canon sub).getD i 0 < ts.length := by rw [hf.length_eq]; simpa using hci
    have h1 := List.forall₂_iff_get.1 hf |>.2 ((canon sub).getD i 0) hk (by simpa using hci)
    have h2 := (sorted_of_mem h1).2.1
    have h3 : ts.get ⟨(canon sub).getD i 0, hk⟩ = (posOf sub ((canon sub).getD i 0)).map
        fun p => (unpermute (groupedAxes sub) ts.flatten).getD p 0 := by
      have : (groupsOf sub (unpermute (groupedAxes sub) ts.flatten))[(canon sub).getD i 0]?
          = ts[(canon sub).getD i 0]? := by rw [hg]
      rw [List.getElem?_eq_getElem hk] at this
      simp only [groupsOf, List.getElem?_map, List.getElem?_range hci, Option.map_some,
        Option.some.injEq] at this
      exact this.symm
    rw [h3, e1, List.pairwise_append, List.pairwise_cons] at h2
    exact h2.2.1.1 _ (by simp)

end
end Ebcc
