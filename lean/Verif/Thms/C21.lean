import Verif.Thms.C19

/-!
C21: slices select exactly the orbitals of the mask.
-/

namespace Ebcc

theorem size_of_mask {s : Space} {c : Char} {m : List Bool} (h : s.mask c = .ok m) :
    s.size c = .ok (countTrue m) := by
  unfold Space.mask Dict.getItem at h
  unfold Space.size Dict.getItem
  simp only [Dict.get?] at h ⊢
  by_cases h1 : 'x' = c
  · rw [if_pos h1] at h ⊢; cases h; rfl
  by_cases h2 : 'o' = c
  · rw [if_neg h1, if_pos h2] at h ⊢; cases h; rfl
  by_cases h3 : 'O' = c
  · rw [if_neg h1, if_neg h2, if_pos h3] at h ⊢; cases h; rfl
  by_cases h4 : 'i' = c
  · rw [if_neg h1, if_neg h2, if_neg h3, if_pos h4] at h ⊢; cases h; rfl
  by_cases h5 : 'v' = c
  · rw [if_neg h1, if_neg h2, if_neg h3, if_neg h4, if_pos h5] at h ⊢; cases h; rfl
  by_cases h6 : 'V' = c
  · rw [if_neg h1, if_neg h2, if_neg h3, if_neg h4, if_neg h5, if_pos h6] at h ⊢; cases h; rfl
  by_cases h7 : 'a' = c
  · rw [if_neg h1, if_neg h2, if_neg h3, if_neg h4, if_neg h5, if_neg h6, if_pos h7] at h ⊢; cases h; rfl
  rw [if_neg h1, if_neg h2, if_neg h3, if_neg h4, if_neg h5, if_neg h6, if_neg h7] at h
  cases h

theorem mask_cases {s : Space} {c : Char} {m : List Bool} (h : s.mask c = .ok m) :
    (c = 'x' ∧ m = s.correlated) ∨ (c = 'o' ∧ m = s.correlatedOccupied) ∨
    (c = 'O' ∧ m = s.activeOccupied) ∨ (c = 'i' ∧ m = s.inactiveOccupied) ∨
    (c = 'v' ∧ m = s.correlatedVirtual) ∨ (c = 'V' ∧ m = s.activeVirtual) ∨
    (c = 'a' ∧ m = s.inactiveVirtual) := by
  unfold Space.mask Dict.getItem at h
  simp only [Dict.get?] at h
  split at h
  · rename_i v hv
    cases h
    split_ifs at hv with h1 h2 h3 h4 h5 h6 h7 <;> cases hv
    · exact Or.inl ⟨h1.symm, rfl⟩
    · exact Or.inr (Or.inl ⟨h2.symm, rfl⟩)
    · exact Or.inr (Or.inr (Or.inl ⟨h3.symm, rfl⟩))
    · exact Or.inr (Or.inr (Or.inr (Or.inl ⟨h4.symm, rfl⟩)))
    · exact Or.inr (Or.inr (Or.inr (Or.inr (Or.inl ⟨h5.symm, rfl⟩))))
    · exact Or.inr (Or.inr (Or.inr (Or.inr (Or.inr (Or.inl ⟨h6.symm, rfl⟩)))))
    · exact Or.inr (Or.inr (Or.inr (Or.inr (Or.inr (Or.inr ⟨h7.symm, rfl⟩)))))
  · cases h

theorem mask_length {o f a : List Bool} {s : Space} (hs : Space.new o f a = .ok s) {c : Char}
    {m : List Bool} (h : s.mask c = .ok m) : m.length = s.nmo := by
  obtain ⟨l1, l2, l3, l4, l5, l6, l7, l8, l9, l10, l11, l12, l13, l14⟩ := mask_lengths hs
  rcases mask_cases h with ⟨_, rfl⟩ | ⟨_, rfl⟩ | ⟨_, rfl⟩ | ⟨_, rfl⟩ | ⟨_, rfl⟩ | ⟨_, rfl⟩ | ⟨_, rfl⟩ <;>
    assumption

/-- A returned slice is the block of the mask. -/
theorem slice_block {s : Space} {c : Char} {m : List Bool} (h : s.mask c = .ok m) {ab : Int × Int}
    (hsl : s.slice c = .ok ab) : ∃ i j : Nat, ab = ((i : Int), (j : Int)) ∧ IsBlock m i j := by
  unfold Space.slice at hsl
  rw [h, size_of_mask h] at hsl
  simp only [bind, Except.bind] at hsl
  cases hf : Space.argmax m with
  | error x => rw [hf] at hsl; cases hsl
  | ok first =>
    rw [hf] at hsl
    simp only at hsl
    split at hsl
    · rename_i hchk
      cases hsl
      refine ⟨first, first + countTrue m, rfl, block_of_check ?_ rfl hchk⟩
      unfold Space.argmax at hf
      split at hf
      · cases hf
      · cases hf; rfl
    · cases hsl

/-- A returned slice selects exactly the orbitals of the mask, in order. -/
theorem C21_slice (o f a : List Bool) (s : Space) (hs : Space.new o f a = .ok s) (c : Char)
    (m : List Bool) (h : s.mask c = .ok m) (ab : Int × Int) (hsl : s.slice c = .ok ab) :
    pySlice (List.range s.nmo) ab = (List.range s.nmo).filter (inMask m) := by
  obtain ⟨i, j, rfl, hb⟩ := slice_block h hsl
  rw [← mask_length hs h]
  exact slice_mask_eq_filter hb

/-- `slice` raises `ValueError` if and only if the orbitals of the class are not contiguous or there are
no orbitals at all. -/
theorem C21_slice_raises_iff (o f a : List Bool) (s : Space) (hs : Space.new o f a = .ok s) (c : Char)
    (m : List Bool) (h : s.mask c = .ok m) :
    s.slice c = .error .valueError ↔
      s.nmo = 0 ∨ ∃ p q r, p < q ∧ q < r ∧ inMask m p = true ∧ inMask m q = false ∧ inMask m r = true := by
  have hl := mask_length hs h
  constructor
  · intro he
    by_contra hcon
    rw [not_or, not_exists] at hcon
    have hm : m ≠ [] := by rintro rfl; exact hcon.1 hl.symm
    unfold Space.slice at he
    rw [h, size_of_mask h] at he
    simp only [bind, Except.bind, Space.argmax, if_neg hm] at he
    obtain ⟨first, hfirst⟩ : ∃ k, k = if true ∈ m then m.idxOf true else 0 := ⟨_, rfl⟩
    rw [← hfirst] at he
    split at he
    · cases he
    · rename_i hchk
      apply hchk
      -- the orbitals are contiguous from the first one on
      rw [List.all_eq_true]
      intro b hb
      obtain ⟨q, hq, rfl⟩ := List.mem_drop_iff_getElem.1 hb
      rw [List.length_take] at hq
      rw [List.getElem_take]
      by_contra hqf
      have hqm : inMask m (first + q) = false := by
        rw [inMask_eq_getElem (by omega)]; simpa using hqf
      by_cases ht : true ∈ m
      · rw [if_pos ht] at hfirst
        have hfl : first < m.length := hfirst ▸ List.idxOf_lt_length_of_mem ht
        have hft : inMask m first = true := by
          rw [inMask_eq_getElem hfl]; simp only [hfirst, List.getElem_idxOf]
        have hq0 : q ≠ 0 := by rintro rfl; rw [Nat.add_zero, hft] at hqm; cases hqm
        -- all orbitals of the mask lie before `first + q`
        have hall : ∀ p, inMask m p = true → first ≤ p ∧ p < first + q := by
          intro p hp
          refine ⟨hfirst ▸ idxOf_le_of_inMask hp, ?_⟩
          by_contra hge
          push Not at hge
          refine hcon.2 first ⟨first + q, p, by omega, ?_, hft, hqm, hp⟩
          rcases Nat.lt_or_eq_of_le hge with h | h
          · exact h
          · rw [h, hp] at hqm; cases hqm
        have hcount : countTrue m ≤ q := by
          rw [countTrue_eq]
          have : ((List.range m.length).filter (inMask m)).length ≤ (List.range' first q).length := by
            apply List.Subperm.length_le
            apply List.subperm_of_subset
            · exact (sorted_filter_range _ _).imp fun h => ne_of_lt h
            · intro x hx
              have := hall x (List.mem_filter.1 hx).2
              rw [List.mem_range'_1]; exact this
          rwa [List.length_range'] at this
        omega
      · have : countTrue m = 0 := by rw [countTrue, List.count_eq_zero]; exact ht
        rw [if_neg ht] at hfirst
        omega
  · intro hcon
    cases hsl : s.slice c with
    | ok ab =>
      exfalso
      rcases hcon with h0 | ⟨p, q, r, hpq, hqr, hp, hq, hr⟩
      · unfold Space.slice at hsl
        rw [h] at hsl
        have : m = [] := by rw [← List.length_eq_zero_iff]; omega
        simp [this, Space.argmax, bind, Except.bind] at hsl
      · obtain ⟨i, j, rfl, hb⟩ := slice_block h hsl
        have h1 := (hb.2.2 p).1 hp
        have h2 := (hb.2.2 r).1 hr
        rw [(hb.2.2 q).2 ⟨by omega, by omega⟩] at hq
        cases hq
    | error x =>
      unfold Space.slice at hsl
      rw [h, size_of_mask h] at hsl
      simp only [bind, Except.bind, Space.argmax] at hsl
      split at hsl
      · rename_i hh
        split at hh
        · cases hh; cases hsl; rfl
        · cases hh
      · split at hsl
        · cases hsl
        · cases hsl; rfl

/-! ### Sectors -/

/-- `omask`, `vmask` and `xmask` select, inside the sector, exactly the orbitals of the class. -/
theorem C21_sector_masks (o f a : List Bool) (s : Space) (hs : Space.new o f a = .ok s) (c : Char)
    (m : List Bool) (h : s.mask c = .ok m) :
    (∃ om, s.omask c = .ok om ∧ selectMask om (selectMask s.occupied (List.range s.nmo))
        = (List.range s.nmo).filter fun p => inMask s.occupied p && inMask m p) ∧
    (∃ vm, s.vmask c = .ok vm ∧ selectMask vm (selectMask s.virtual (List.range s.nmo))
        = (List.range s.nmo).filter fun p => inMask s.virtual p && inMask m p) ∧
    (∃ xm, s.xmask c = .ok xm ∧ selectMask xm (selectMask s.correlated (List.range s.nmo))
        = (List.range s.nmo).filter fun p => inMask s.correlated p && inMask m p) := by
  have hl := mask_length hs h
  obtain ⟨l1, l2, l3, l4, l5, _⟩ := mask_lengths hs
  have key : ∀ sec : List Bool, sec.length = s.nmo →
      selectMask (selectMask sec m) (selectMask sec (List.range s.nmo))
        = (List.range s.nmo).filter fun p => inMask sec p && inMask m p := by
    intro sec hsec
    rw [selectMask_select _ _ _ (by simpa using hsec) (by simpa using hl)]
    have hlen : (maskAnd sec m).length = s.nmo := by rw [length_and (by omega), hsec]
    conv_lhs => rw [← hlen]
    rw [selectMask_range0, hlen]
    apply List.filter_congr
    intro x _
    rw [inMask_and]
  refine ⟨⟨_, by simp only [Space.omask, h, bind, Except.bind]; rfl, key _ l1⟩,
    ⟨_, by simp only [Space.vmask, h, bind, Except.bind]; rfl, key _ l4⟩,
    ⟨_, by simp only [Space.xmask, h, bind, Except.bind]; rfl, key _ l5⟩⟩

/-- The occupied orbitals come first. -/
def OccFirst (s : Space) : Prop := IsBlock s.occupied 0 s.nocc

theorem occ_sector {o f a : List Bool} {s : Space} (hs : Space.new o f a = .ok s) (ho : OccFirst s) :
    selectMask s.occupied (List.range s.nmo) = List.range s.nocc ∧
    selectMask s.virtual (List.range s.nmo) = (List.range s.nvir).map (s.nocc + ·) := by
  obtain ⟨l1, l2, l3, l4, _⟩ := mask_lengths hs
  have hsum := (C19_sums o f a s hs).1
  have hle : s.nocc ≤ s.nmo := l1 ▸ ho.2.1
  have hltv : ∀ y, y < s.nvir → s.nocc + y < s.nmo := fun y hy => hsum ▸ Nat.add_lt_add_left hy _
  constructor
  · conv_lhs => rw [← l1]
    rw [selectMask_range0]
    apply eq_of_sorted_of_mem (sorted_filter_range _ _) List.pairwise_lt_range
    intro x
    rw [List.mem_filter, List.mem_range, List.mem_range, ho.2.2]
    omega
  · conv_lhs => rw [← l4]
    rw [selectMask_range0]
    apply eq_of_sorted_of_mem (sorted_filter_range _ _)
    · rw [List.pairwise_map]
      exact List.pairwise_lt_range.imp fun h => by omega
    intro x
    rw [List.mem_filter, List.mem_range, List.mem_map]
    constructor
    · rintro ⟨h1, h2⟩
      unfold Space.virtual at h2
      rw [inMask_not (by omega)] at h2
      have h3 : ¬ inMask s.occupied x = true := by simpa using h2
      rw [ho.2.2] at h3
      exact ⟨x - s.nocc, List.mem_range.2 (by omega), by omega⟩
    · rintro ⟨y, hy, rfl⟩
      rw [List.mem_range] at hy
      have hlt := hltv y hy
      refine ⟨l4.symm ▸ hlt, ?_⟩
      show inMask s.virtual (s.nocc + y) = true
      unfold Space.virtual
      rw [inMask_not (l1.symm ▸ hlt)]
      have : ¬ inMask s.occupied (s.nocc + y) = true := by rw [ho.2.2]; omega
      simpa using this

/-- With the occupied orbitals first, `oslice` selects from the occupied sector exactly the orbitals of
the class. -/
theorem C21_oslice (o f a : List Bool) (s : Space) (hs : Space.new o f a = .ok s) (ho : OccFirst s)
    (c : Char) (m : List Bool) (h : s.mask c = .ok m) (ab : Int × Int) (hsl : s.oslice c = .ok ab) :
    pySlice (selectMask s.occupied (List.range s.nmo)) ab
      = (selectMask s.occupied (List.range s.nmo)).filter (inMask m) := by
  unfold Space.oslice at hsl
  cases hx : s.slice c with
  | error x => rw [hx] at hsl; cases hsl
  | ok xy =>
    rw [hx] at hsl
    obtain ⟨i, j, rfl, hb⟩ := slice_block h hx
    cases hsl
    rw [(occ_sector hs ho).1]
    apply eq_of_sorted_of_mem (sorted_pySlice_range _ _) (sorted_filter_range _ _)
    intro x
    rw [mem_pySlice_range, List.mem_filter, List.mem_range, hb.2.2]
    simp only [sliceBound]
    rw [if_neg (by omega), if_neg (by omega)]
    omega

/-- With the occupied orbitals first, `vslice` selects from the virtual sector exactly the orbitals of
the class if and only if the block of the class does not end before the virtual sector, or there are
too few virtual orbitals for the wrap-around to show.  In particular it is right for every class that
has a virtual orbital. -/
theorem C21_vslice_iff (o f a : List Bool) (s : Space) (hs : Space.new o f a = .ok s) (ho : OccFirst s)
    (c : Char) (m : List Bool) (h : s.mask c = .ok m) (i j : Nat) (hx : s.slice c = .ok ((i : Int), (j : Int))) :
    ∃ ab, s.vslice c = .ok ab ∧
      (pySlice (selectMask s.virtual (List.range s.nmo)) ab
        = (selectMask s.virtual (List.range s.nmo)).filter (inMask m) ↔
        s.nocc ≤ j ∨ j + s.nvir ≤ s.nocc) := by
  obtain ⟨i', j', hij, hb⟩ := slice_block h hx
  simp only [Prod.mk.injEq, Int.natCast_inj] at hij
  obtain ⟨rfl, rfl⟩ := hij
  refine ⟨_, by simp only [Space.vslice, hx, bind, Except.bind]; rfl, ?_⟩
  have hl := mask_length hs h
  have hsum := (C19_sums o f a s hs).1
  rw [(occ_sector hs ho).2, pySlice_map, List.filter_map]
  have hle := hb.1
  have hlen := hb.2.1
  constructor
  · intro he
    by_contra hcon
    push Not at hcon
    -- the class has no virtual orbital, but the slice is not empty
    have he' := (List.map_injective_iff.2 (fun x y (hxy : s.nocc + x = s.nocc + y) => by omega)) he
    have h0 : (0 : Nat) ∈ pySlice (List.range s.nvir)
        (max (i : Int) s.nocc - s.nocc, (j : Int) - s.nocc) := by
      rw [mem_pySlice_range]
      simp only [sliceBound]
      rw [if_neg (by omega), if_pos (by omega)]
      omega
    rw [he', List.mem_filter] at h0
    have : i ≤ s.nocc + 0 ∧ s.nocc + 0 < j := (hb.2.2 _).1 h0.2
    omega
  · intro hcase
    congr 1
    apply eq_of_sorted_of_mem (sorted_pySlice_range _ _) (sorted_filter_range _ _)
    intro x
    rw [mem_pySlice_range, List.mem_filter, List.mem_range]
    simp only [Function.comp_apply, hb.2.2, sliceBound]
    rw [if_neg (by omega)]
    split
    · omega
    · omega

/-- `vslice` is right for every class with at least one virtual orbital. -/
theorem C21_vslice_partial (o f a : List Bool) (s : Space) (hs : Space.new o f a = .ok s)
    (ho : OccFirst s) (c : Char) (m : List Bool) (h : s.mask c = .ok m) (p : Nat) (hp : inMask m p = true)
    (hpv : inMask s.virtual p = true) (ab : Int × Int) (hsl : s.vslice c = .ok ab) :
    pySlice (selectMask s.virtual (List.range s.nmo)) ab
      = (selectMask s.virtual (List.range s.nmo)).filter (inMask m) := by
  cases hx : s.slice c with
  | error x => unfold Space.vslice at hsl; rw [hx] at hsl; cases hsl
  | ok xy =>
    obtain ⟨i, j, rfl, hb⟩ := slice_block h hx
    obtain ⟨ab', h1, h2⟩ := C21_vslice_iff o f a s hs ho c m h i j hx
    rw [hsl] at h1
    cases h1
    rw [h2]
    left
    have hpl := inMask_lt hpv
    obtain ⟨l1, l2, l3, l4, _⟩ := mask_lengths hs
    unfold Space.virtual at hpv
    rw [inMask_not (by omega)] at hpv
    have h3 : ¬ inMask s.occupied p = true := by simpa using hpv
    rw [ho.2.2] at h3
    have := (hb.2.2 p).1 hp
    omega

/-- An empty class wraps around: with one occupied and two virtual orbitals, no active orbital,
`vslice("V")` is `slice(0, -1)` and selects the first virtual orbital. -/
theorem C21_vslice_empty_class_fails :
    ∃ s m, Space.new [true, false, false] [false, false, false] [false, false, false] = .ok s ∧
      s.mask 'V' = .ok m ∧ s.vslice 'V' = .ok (0, -1) ∧
      pySlice (selectMask s.virtual (List.range s.nmo)) (0, -1) = [1] ∧
      (selectMask s.virtual (List.range s.nmo)).filter (inMask m) = [] :=
  ⟨_, _, rfl, rfl, rfl, by decide, by decide⟩

/-- The correlated orbitals are contiguous, behind the frozen occupied ones. -/
def CorrContiguous (s : Space) : Prop := IsBlock s.correlated s.nfocc (s.nfocc + s.ncorr)

/-- With the correlated orbitals contiguous, `xslice` selects from the correlated sector exactly the
orbitals of every class that has only correlated orbitals (all but `i` and `a`). -/
theorem C21_xslice_partial (o f a : List Bool) (s : Space) (hs : Space.new o f a = .ok s)
    (hc : CorrContiguous s) (c : Char) (hia : c ≠ 'i' ∧ c ≠ 'a') (m : List Bool) (h : s.mask c = .ok m)
    (ab : Int × Int) (hsl : s.xslice c = .ok ab) :
    pySlice (selectMask s.correlated (List.range s.nmo)) ab
      = (selectMask s.correlated (List.range s.nmo)).filter (inMask m) := by
  obtain ⟨l1, l2, l3, l4, l5, _⟩ := mask_lengths hs
  have hsub : ∀ p, inMask m p = true → inMask s.correlated p = true := by
    intro p hp
    have hpl := inMask_lt hp
    rw [mask_length hs h] at hpl
    obtain ⟨p1, p2, p3, p4, p5, p6, p7, p8, p9⟩ := C19_partition o f a s hs p hpl
    rcases mask_cases h with ⟨_, rfl⟩ | ⟨_, rfl⟩ | ⟨_, rfl⟩ | ⟨rfl, _⟩ | ⟨_, rfl⟩ | ⟨_, rfl⟩ | ⟨rfl, _⟩
    · exact hp
    · exact p3.2 (Or.inl hp)
    · exact p3.2 (Or.inl (p8 hp))
    · exact absurd rfl hia.1
    · exact p3.2 (Or.inr hp)
    · exact p3.2 (Or.inr (p9 hp))
    · exact absurd rfl hia.2
  unfold Space.xslice at hsl
  cases hx : s.slice c with
  | error x => rw [hx] at hsl; cases hsl
  | ok xy =>
    rw [hx] at hsl
    obtain ⟨i, j, rfl, hb⟩ := slice_block h hx
    cases hsl
    have hsec : selectMask s.correlated (List.range s.nmo) = (List.range s.ncorr).map (s.nfocc + ·) := by
      conv_lhs => rw [← l5]
      rw [selectMask_range0]
      apply eq_of_sorted_of_mem (sorted_filter_range _ _)
      · rw [List.pairwise_map]
        exact List.pairwise_lt_range.imp fun h => by omega
      intro x
      rw [List.mem_filter, List.mem_range, List.mem_map, hc.2.2]
      have := hc.2.1
      constructor
      · rintro ⟨h1, h2⟩
        exact ⟨x - s.nfocc, List.mem_range.2 (by omega), by omega⟩
      · rintro ⟨y, hy, rfl⟩
        rw [List.mem_range] at hy
        omega
    rw [hsec, pySlice_map, List.filter_map]
    congr 1
    apply eq_of_sorted_of_mem (sorted_pySlice_range _ _) (sorted_filter_range _ _)
    intro x
    rw [mem_pySlice_range, List.mem_filter, List.mem_range]
    simp only [Function.comp_apply, hb.2.2, sliceBound]
    by_cases hij : i < j
    · have h1 := (hc.2.2 i).1 (hsub i ((hb.2.2 i).2 ⟨le_refl _, hij⟩))
      have h2 := (hc.2.2 (j - 1)).1 (hsub (j - 1) ((hb.2.2 (j - 1)).2 ⟨by omega, by omega⟩))
      rw [if_neg (by omega), if_neg (by omega)]
      omega
    · have : i = j := by have := hb.1; omega
      subst this
      split <;> omega

/-- For the inactive occupied class, which contains the frozen orbitals, `xslice` is wrong: with one
frozen and one correlated occupied orbital and one virtual, `xslice("i")` is `slice(-1, 1)` and selects
nothing. -/
theorem C21_xslice_inactive_fails :
    ∃ s m, Space.new [true, true, false] [true, false, false] [false, false, false] = .ok s ∧
      s.mask 'i' = .ok m ∧ s.xslice 'i' = .ok (-1, 1) ∧ OccFirst s ∧ CorrContiguous s ∧
      pySlice (selectMask s.correlated (List.range s.nmo)) (-1, 1) = [] ∧
      (selectMask s.correlated (List.range s.nmo)).filter (inMask m) = [1] := by
  refine ⟨_, _, rfl, rfl, rfl, ⟨by decide, by decide, fun p => ?_⟩, ⟨by decide, by decide, fun p => ?_⟩,
    by decide, by decide⟩
  · rcases p with _ | _ | _ | p <;> simp [inMask, Space.nocc, countTrue]
  · rcases p with _ | _ | _ | p <;>
      simp [inMask, Space.nfocc, Space.ncorr, Space.correlated, Space.frozenOccupied, maskNot, maskAnd,
        countTrue]

example : ∃ s, Space.new [true, true, true, false, false] [true, false, false, false, true]
      [false, false, true, true, false] = .ok s ∧ s.slice 'x' = .ok (1, 4) ∧ s.slice 'O' = .ok (2, 3) ∧
      s.oslice 'O' = .ok (2, 3) ∧ s.vslice 'V' = .ok (0, 1) ∧ s.xslice 'V' = .ok (2, 3) ∧
      s.xslice 'o' = .ok (0, 2) :=
  ⟨_, rfl, rfl, rfl, rfl, rfl, rfl, rfl⟩

/-- A class that is not contiguous. -/
example : ∃ s, Space.new [true, true, true, false] [false, false, false, false]
      [true, false, true, false] = .ok s ∧ s.slice 'O' = .error .valueError :=
  ⟨_, rfl, rfl⟩

end Ebcc
