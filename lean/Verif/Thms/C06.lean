import Verif.Lemmas.Packed

/-!
C06: `decompress_axes` after `compress_axes` is the identity on arrays with the declared symmetry.
-/

namespace Ebcc

section
variable {κ : Type} [DecidableEq κ]

/-- C06: packing and unpacking returns the array: for arrays with the declared symmetry which vanish
on coinciding indices (diagonal excluded), or symmetric ones with the diagonal included. -/
theorem C06_roundtrip {R : Type} [Ring R] (sub : List κ) (hsub : sub ≠ []) (sz : κ → Nat)
    (diag : Bool) (symm : Option (List Char)) (s : κ → Char)
    (hsymm : symm.getD (List.replicate sub.length '-') = blockString sub s)
    (hcond : diag = false ∨ ∀ c ∈ sub, s c ≠ '-')
    (a : NDArray R) (hwf : a.WF) (hshape : a.shape = sub.map sz) (hsym : GroupSymmetric sub s a)
    (hvan : diag = false → VanishesOnDiagonal sub a) :
    ∃ packed, compressAxes sub a diag = .ok packed ∧
      decompressAxes sub packed.data a.shape diag symm = .ok a := by
  have hc : Consistent sub a.shape := ⟨sz, hshape⟩
  refine ⟨_, compressAxes_ok sub a diag hc, ?_⟩
  simp only
  obtain ⟨out, h1, h2, h3, h4, h5, h6⟩ := decompress_main sub hsub sz diag symm s hsymm hcond
    ((prodL (gtrils sub a.shape diag)).map fun ts => a.get (unpermute (groupedAxes sub) ts.flatten))
    (by rw [List.length_map, hshape, length_gtrils])
  rw [← hshape] at h1 h2 h6
  rw [h1]
  congr 1
  symm
  apply eq_of_sorted hc hwf h3 h2.symm hsym h4
  intro idx hidx hsorted
  have hl : idx.length = sub.length := by rw [hidx.length_eq, hc.length]
  by_cases hgood : diag = true ∨ ∀ g ∈ groupsOf sub idx, g.Nodup
  · obtain ⟨K, ts, hK, hp⟩ := exists_packed hc (diag := diag) hidx (by
      intro hd; rcases hgood with h | h
      · rw [hd] at h; simp at h
      · exact h)
    have hts : ts = groupsOf sub idx := by
      have hf := gtrils_facts (List.mem_of_getElem? hK)
      unfold groupsOf at hp ⊢
      rw [List.forall₂_map_left_iff] at hp
      apply List.ext_getElem
      · rw [← hp.length_eq]; simp
      · intro k k1 k2
        have k3 : k < ngroups sub := by simpa using k2
        have p1 := List.forall₂_iff_get.1 hp |>.2 k (by simpa using k3) k1
        have p2 := List.forall₂_iff_get.1 hf |>.2 k k1 (by simpa using k3)
        simp only [List.get_eq_getElem, List.getElem_range, List.getElem_map] at p1 p2 ⊢
        exact eq_of_perm_sorted p1.symm (sorted_of_mem p2).2.1 (group_sorted hsorted k)
    rw [hts] at hK
    rw [h6 idx K hidx hsorted hK, List.getD_eq_getElem?_getD, List.getElem?_map, hK, Option.map_some,
      Option.getD_some, unpermute_groupsOf hl]
  · push Not at hgood
    have hd : diag = false := by simpa using hgood.1
    have : ∃ (i j : Nat) (c : κ), i < j ∧ sub[i]? = some c ∧ sub[j]? = some c ∧ idx[i]? = idx[j]? := by
      by_contra hcon
      push Not at hcon
      obtain ⟨g, hg, hgn⟩ := hgood.2
      exact hgn ((nodup_group_iff hl).2 hcon g hg)
    obtain ⟨i, j, c, hij, hi, hj, e⟩ := this
    rw [hvan hd i j c hij hi hj idx hidx e, h5 hd i j c hij hi hj idx (by
      unfold ValidIdx; rw [h2]; exact hidx) e]

/-- C06: for the default symmetry the vanishing condition follows from antisymmetry (when `2x = 0`
only for `x = 0`). -/
theorem C06_antisymmetric {R : Type} [Ring R] (h2 : ∀ x : R, x + x = 0 → x = 0) (sub : List κ)
    (hsub : sub ≠ []) (sz : κ → Nat) (a : NDArray R) (hwf : a.WF) (hshape : a.shape = sub.map sz)
    (hsym : GroupSymmetric sub (fun _ => '-') a) :
    ∃ packed, compressAxes sub a false = .ok packed ∧
      decompressAxes sub packed.data a.shape false none = .ok a := by
  apply C06_roundtrip sub hsub sz false none (fun _ => '-') (blockString_const sub '-').symm
    (Or.inl rfl) a hwf hshape hsym
  intro _ i j c hij hi hj idx hidx e
  have h := hsym i j c hij hi hj idx hidx
  have hsw : swapIdx i j idx = idx := by
    apply List.ext_getElem
    · simp [swapIdx]
    · intro p p1 p2
      simp only [swapIdx, List.getElem_map, List.getElem_range, swapNat]
      split
      · rename_i e'; subst e'
        rw [List.getD_eq_getElem?_getD, ← e]; simp [p2]
      · split
        · rename_i _ e'; subst e'
          rw [List.getD_eq_getElem?_getD, e]; simp [p2]
        · simp [p2]
  rw [hsw] at h
  apply h2
  simp only [charSign, if_true, neg_mul, one_mul] at h
  nth_rw 1 [h]
  exact neg_add_cancel _

/-- Without the vanishing condition the round trip fails: a symmetric array with a diagonal. -/
theorem C06_vanishing_needed :
    ∃ packed out, compressAxes "ii".toList (⟨[2, 2], [1, 2, 2, 3]⟩ : NDArray Int) false = .ok packed ∧
      decompressAxes "ii".toList packed.data [2, 2] false (some "++".toList) = .ok out ∧
      out ≠ ⟨[2, 2], [1, 2, 2, 3]⟩ :=
  ⟨⟨[1], [2]⟩, ⟨[2, 2], [0, 2, 2, 0]⟩, by decide, by decide, by decide⟩

/-- Non-vacuity: an antisymmetric matrix. -/
example : GroupSymmetric "ii".toList (fun _ => '-') (⟨[2, 2], [0, -5, 5, 0]⟩ : NDArray Int) := by
  intro i j c hij hi hj idx hidx
  have hj' : j < 2 := (List.getElem?_eq_some_iff.1 hj).1
  have : i = 0 ∧ j = 1 := by omega
  obtain ⟨rfl, rfl⟩ := this
  have hm := mem_box.2 hidx
  revert hm; clear hidx
  revert idx
  clear hi hj
  beta_reduce
  clear c
  decide

end
end Ebcc
