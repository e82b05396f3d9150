import Verif.Lemmas.Convert

/-!
The orbital space built by `GEBCC.from_uebcc`.
-/

namespace Ebcc

theorem put1_ok {α : Type} (d : α) (x : List α) (inds : List Nat) (vals : List α) (hl : inds.length = vals.length)
    (hnd : inds.Nodup) (hlt : ∀ i ∈ inds, i < x.length) :
    ∃ y, put1 x inds vals = .ok y ∧ y.length = x.length ∧
      ∀ j, y.getD j d = if j ∈ inds then vals.getD (inds.idxOf j) d else x.getD j d := by
  unfold put1
  rw [if_neg (by simpa using hl)]
  induction inds generalizing x vals with
  | nil => exact ⟨x, by simp [pure, Except.pure], rfl, by simp⟩
  | cons i inds ih =>
    cases vals with
    | nil => cases hl
    | cons v vals =>
      rw [List.nodup_cons] at hnd
      have hi := hlt i (by simp)
      obtain ⟨y, y1, y2, y3⟩ := ih (x.set i v) vals (by simpa using hl) hnd.2 (by
        intro j hj
        rw [List.length_set]
        exact hlt j (by simp [hj]))
      refine ⟨y, ?_, by simpa using y2, fun j => ?_⟩
      · rw [List.zip_cons_cons, List.foldlM_cons]
        simp only [if_pos hi, bind, Except.bind]
        exact y1
      · rw [y3]
        by_cases hj : j ∈ inds
        · have hne : i ≠ j := fun h => hnd.1 (h ▸ hj)
          rw [if_pos hj, if_pos (by simp [hj]), List.idxOf_cons_ne _ hne]
          simp
        · rw [if_neg hj]
          by_cases hij : j = i
          · subst hij
            simp [hi]
          · rw [if_neg (by simp [hij, hj])]
            simp [List.getElem?_set, Ne.symm hij]

theorem whereSpin_nodup (sig : List Char) (s : Char) : (whereSpin sig s).Nodup :=
  List.Nodup.filter _ List.nodup_range

theorem whereSpin_getD (sig : List Char) (s : Char) (j : Nat) (hj : j < sig.count s) :
    ∃ i, (whereSpin sig s).getD j 0 = i ∧ i < sig.length ∧ sig.getD i ' ' = s ∧ spinPos sig i = j := by
  rw [← length_whereSpin] at hj
  have hm : (whereSpin sig s)[j] ∈ whereSpin sig s := List.getElem_mem hj
  obtain ⟨h1, h2⟩ := (mem_whereSpin _ _ _).1 hm
  refine ⟨(whereSpin sig s)[j], by simp [hj], h1, h2, ?_⟩
  rw [← idxOf_whereSpin sig s _ h1 h2]
  exact (whereSpin_nodup sig s).idxOf_getElem j hj

/-- The array made of the values `x` for the first spin and `y` for the second. -/
def interleave (orbspin : List Char) (x y : List Bool) : List Bool :=
  (List.range orbspin.length).map fun i =>
    if orbspin.getD i ' ' = 'a' then x.getD (spinPos orbspin i) false else y.getD (spinPos orbspin i) false

theorem put_both (orbspin : List Char) (hab : ∀ c ∈ orbspin, c = 'a' ∨ c = 'b') (x y : List Bool)
    (hx : orbspin.count 'a' = x.length) (hy : orbspin.count 'b' = y.length) :
    ∃ z, put1 (List.replicate orbspin.length false) (whereSpin orbspin 'a') x = .ok z ∧
      put1 z (whereSpin orbspin 'b') y = .ok (interleave orbspin x y) := by
  have hlt : ∀ s, ∀ i ∈ whereSpin orbspin s, i < orbspin.length := fun s i hi => ((mem_whereSpin _ _ _).1 hi).1
  obtain ⟨z, z1, z2, z3⟩ := put1_ok false (List.replicate orbspin.length false) (whereSpin orbspin 'a') x
    (by rw [length_whereSpin, hx]) (whereSpin_nodup _ _) (by simpa using hlt 'a')
  obtain ⟨w, w1, w2, w3⟩ := put1_ok false z (whereSpin orbspin 'b') y
    (by rw [length_whereSpin, hy]) (whereSpin_nodup _ _) (by rw [z2]; simpa using hlt 'b')
  refine ⟨z, z1, ?_⟩
  rw [w1]
  congr 1
  apply List.ext_getElem
  · rw [w2, z2]; simp [interleave]
  · intro i h1 h2
    have hi : i < orbspin.length := by simpa [interleave] using h2
    have e := w3 i
    rw [z3 i, List.getD_eq_getElem?_getD, List.getElem?_eq_getElem h1, Option.getD_some] at e
    rw [e]
    simp only [interleave, List.getElem_map, List.getElem_range]
    have hc := hab (orbspin.getD i ' ') (by
      rw [List.getD_eq_getElem?_getD, List.getElem?_eq_getElem hi, Option.getD_some]
      exact List.getElem_mem hi)
    rcases hc with hc | hc
    · have hnb : i ∉ whereSpin orbspin 'b' := by
        rw [mem_whereSpin, hc]
        rintro ⟨-, h⟩
        exact absurd h (by decide)
      rw [if_pos hc, if_neg hnb, if_pos ((mem_whereSpin _ _ _).2 ⟨hi, hc⟩), idxOf_whereSpin _ _ _ hi hc]
    · have hna : ¬ orbspin.getD i ' ' = 'a' := by rw [hc]; decide
      rw [if_neg hna, if_pos ((mem_whereSpin _ _ _).2 ⟨hi, hc⟩), idxOf_whereSpin _ _ _ hi hc]

/-- Reading the interleaved array at the orbitals of one spin. -/
theorem interleave_spin (orbspin : List Char) (x y : List Bool) (s : Char) (hs : s = 'a' ∨ s = 'b')
    (hc : orbspin.count s = (if s = 'a' then x else y).length) :
    (whereSpin orbspin s).map (fun i => (interleave orbspin x y).getD i false) = if s = 'a' then x else y := by
  apply List.ext_getElem
  · rw [List.length_map, length_whereSpin, hc]
  · intro j h1 h2
    have hj : j < orbspin.count s := by rw [hc]; exact h2
    obtain ⟨i, i1, i2, i3, i4⟩ := whereSpin_getD orbspin s j hj
    have hj' : j < (whereSpin orbspin s).length := by simpa using h1
    rw [List.getElem_map]
    have : (whereSpin orbspin s)[j] = i := by
      rw [← i1, List.getD_eq_getElem?_getD, List.getElem?_eq_getElem hj', Option.getD_some]
    rw [this]
    simp only [interleave, List.getD_eq_getElem?_getD, List.getElem?_map, List.getElem?_range i2, Option.map_some,
      Option.getD_some]
    rw [← List.getD_eq_getElem?_getD, i3, i4]
    rcases hs with rfl | rfl
    · simp only [if_true] at h2 ⊢
      rw [List.getElem?_eq_getElem h2, Option.getD_some]
    · simp only [show ('b' : Char) ≠ 'a' by decide, if_false] at h2 ⊢
      rw [List.getElem?_eq_getElem h2, Option.getD_some]

/-! ### Masks are computed orbital by orbital -/

theorem maskAnd_interleave (orbspin : List Char) (x y x' y' : List Bool) (hx : x.length = x'.length)
    (hy : y.length = y'.length) :
    maskAnd (interleave orbspin x y) (interleave orbspin x' y') = interleave orbspin (maskAnd x x') (maskAnd y y') := by
  have key : ∀ (a b : List Bool) (i : Nat), a.length = b.length →
      (maskAnd a b).getD i false = (a.getD i false && b.getD i false) := by
    intro a b i hl
    simp only [maskAnd, List.getD_eq_getElem?_getD, List.getElem?_zipWith]
    by_cases hi : i < a.length
    · rw [List.getElem?_eq_getElem hi, List.getElem?_eq_getElem (by omega : i < b.length)]
      rfl
    · rw [List.getElem?_eq_none (by omega), List.getElem?_eq_none (by omega : b.length ≤ i)]
      rfl
  apply List.ext_getElem
  · simp [maskAnd, interleave]
  · intro i h1 h2
    simp only [maskAnd, interleave, List.getElem_zipWith, List.getElem_map, List.getElem_range]
    have k1 := key x x' (spinPos orbspin i) hx
    have k2 := key y y' (spinPos orbspin i) hy
    simp only [maskAnd] at k1 k2
    split
    · rw [k1]
    · rw [k2]

theorem maskNot_interleave (orbspin : List Char) (hab : ∀ c ∈ orbspin, c = 'a' ∨ c = 'b') (x y : List Bool)
    (hx : orbspin.count 'a' = x.length) (hy : orbspin.count 'b' = y.length) :
    maskNot (interleave orbspin x y) = interleave orbspin (maskNot x) (maskNot y) := by
  have key : ∀ (a : List Bool) (i : Nat), i < a.length → (maskNot a).getD i false = !a.getD i false := by
    intro a i hi
    simp [maskNot, hi]
  apply List.ext_getElem
  · simp [maskNot, interleave]
  · intro i h1 h2
    have hi : i < orbspin.length := by simpa [interleave] using h2
    have hlt := spinPos_lt orbspin i hi
    have hc := hab (orbspin.getD i ' ') (by
      rw [List.getD_eq_getElem?_getD, List.getElem?_eq_getElem hi, Option.getD_some]
      exact List.getElem_mem hi)
    have e : (maskNot (interleave orbspin x y))[i] = !(interleave orbspin x y)[i]'(by simpa [interleave] using hi) := by
      simp [maskNot]
    rw [e]
    simp only [interleave, List.getElem_map, List.getElem_range]
    rcases hc with hc | hc
    · rw [hc] at hlt
      rw [if_pos hc, if_pos hc, key x _ (by omega)]
    · rw [hc] at hlt
      rw [if_neg (by rw [hc]; decide), if_neg (by rw [hc]; decide), key y _ (by omega)]

/-- Spaces with masks of one length. -/
def Space.Sized (s : Space) (n : Nat) : Prop :=
  s.occupied.length = n ∧ s.frozen.length = n ∧ s.active.length = n

/-- The mask of a class of the general space interleaves the two masks of the unrestricted spaces. -/
theorem mask_interleave (orbspin : List Char) (hab : ∀ c ∈ orbspin, c = 'a' ∨ c = 'b') (sp0 sp1 : Space)
    (h0 : sp0.Sized (orbspin.count 'a')) (h1 : sp1.Sized (orbspin.count 'b')) (k : Char)
    (hk : k ∈ ['o', 'O', 'i', 'v', 'V', 'a']) (m0 m1 : List Bool)
    (hm0 : sp0.mask k = .ok m0) (hm1 : sp1.mask k = .ok m1) :
    (⟨interleave orbspin sp0.occupied sp1.occupied, interleave orbspin sp0.frozen sp1.frozen,
      interleave orbspin sp0.active sp1.active⟩ : Space).mask k = .ok (interleave orbspin m0 m1) ∧
      m0.length = orbspin.count 'a' ∧ m1.length = orbspin.count 'b' := by
  obtain ⟨a1, a2, a3⟩ := h0
  obtain ⟨b1, b2, b3⟩ := h1
  have hn : ∀ x y : List Bool, x.length = orbspin.count 'a' → y.length = orbspin.count 'b' →
      maskNot (interleave orbspin x y) = interleave orbspin (maskNot x) (maskNot y) := fun x y hx hy =>
    maskNot_interleave orbspin hab x y hx.symm hy.symm
  have ha : ∀ x y x' y' : List Bool, x.length = x'.length → y.length = y'.length →
      maskAnd (interleave orbspin x y) (interleave orbspin x' y') = interleave orbspin (maskAnd x x') (maskAnd y y') :=
    maskAnd_interleave orbspin
  have hln : ∀ x : List Bool, (maskNot x).length = x.length := fun x => by simp [maskNot]
  have hla : ∀ x y : List Bool, (maskAnd x y).length = min x.length y.length := fun x y => by simp [maskAnd]
  simp only [List.mem_cons, List.not_mem_nil, or_false] at hk
  rcases hk with rfl | rfl | rfl | rfl | rfl | rfl
  · obtain rfl : sp0.correlatedOccupied = m0 := Except.ok.inj hm0
    obtain rfl : sp1.correlatedOccupied = m1 := Except.ok.inj hm1
    refine ⟨congrArg Except.ok ?_, ?_, ?_⟩
    · simp only [Space.correlated, Space.correlatedOccupied]
      rw [hn _ _ a2 b2, ha _ _ _ _ (by rw [hln, a2, a1]) (by rw [hln, b2, b1])]
    · simp [Space.correlated, Space.correlatedOccupied, hla, hln, a1, a2]
    · simp [Space.correlated, Space.correlatedOccupied, hla, hln, b1, b2]
  · obtain rfl : sp0.activeOccupied = m0 := Except.ok.inj hm0
    obtain rfl : sp1.activeOccupied = m1 := Except.ok.inj hm1
    refine ⟨congrArg Except.ok ?_, ?_, ?_⟩
    · simp only [Space.activeOccupied]
      rw [ha _ _ _ _ (by rw [a3, a1]) (by rw [b3, b1])]
    · simp [Space.activeOccupied, hla, a1, a3]
    · simp [Space.activeOccupied, hla, b1, b3]
  · obtain rfl : sp0.inactiveOccupied = m0 := Except.ok.inj hm0
    obtain rfl : sp1.inactiveOccupied = m1 := Except.ok.inj hm1
    refine ⟨congrArg Except.ok ?_, ?_, ?_⟩
    · simp only [Space.inactive, Space.inactiveOccupied]
      rw [hn _ _ a3 b3, ha _ _ _ _ (by rw [hln, a3, a1]) (by rw [hln, b3, b1])]
    · simp [Space.inactive, Space.inactiveOccupied, hla, hln, a1, a3]
    · simp [Space.inactive, Space.inactiveOccupied, hla, hln, b1, b3]
  · obtain rfl : sp0.correlatedVirtual = m0 := Except.ok.inj hm0
    obtain rfl : sp1.correlatedVirtual = m1 := Except.ok.inj hm1
    refine ⟨congrArg Except.ok ?_, ?_, ?_⟩
    · simp only [Space.correlated, Space.correlatedVirtual, Space.virtual]
      rw [hn _ _ a2 b2, hn _ _ a1 b1, ha _ _ _ _ (by rw [hln, hln, a2, a1]) (by rw [hln, hln, b2, b1])]
    · simp [Space.correlated, Space.correlatedVirtual, Space.virtual, hla, hln, a1, a2]
    · simp [Space.correlated, Space.correlatedVirtual, Space.virtual, hla, hln, b1, b2]
  · obtain rfl : sp0.activeVirtual = m0 := Except.ok.inj hm0
    obtain rfl : sp1.activeVirtual = m1 := Except.ok.inj hm1
    refine ⟨congrArg Except.ok ?_, ?_, ?_⟩
    · simp only [Space.activeVirtual, Space.virtual]
      rw [hn _ _ a1 b1, ha _ _ _ _ (by rw [hln, a3, a1]) (by rw [hln, b3, b1])]
    · simp [Space.activeVirtual, Space.virtual, hla, hln, a1, a3]
    · simp [Space.activeVirtual, Space.virtual, hla, hln, b1, b3]
  · obtain rfl : sp0.inactiveVirtual = m0 := Except.ok.inj hm0
    obtain rfl : sp1.inactiveVirtual = m1 := Except.ok.inj hm1
    refine ⟨congrArg Except.ok ?_, ?_, ?_⟩
    · simp only [Space.inactive, Space.inactiveVirtual, Space.virtual]
      rw [hn _ _ a3 b3, hn _ _ a1 b1, ha _ _ _ _ (by rw [hln, hln, a3, a1]) (by rw [hln, hln, b3, b1])]
    · simp [Space.inactive, Space.inactiveVirtual, Space.virtual, hla, hln, a1, a3]
    · simp [Space.inactive, Space.inactiveVirtual, Space.virtual, hla, hln, b1, b3]

/-! ### The general space -/

/-- The space built by `from_uebcc`. -/
def interleaved (orbspin : List Char) (sp0 sp1 : Space) : Space :=
  ⟨interleave orbspin sp0.occupied sp1.occupied, interleave orbspin sp0.frozen sp1.frozen,
    interleave orbspin sp0.active sp1.active⟩

theorem countTrue_not (x : List Bool) : countTrue x + countTrue (maskNot x) = x.length := by
  unfold countTrue maskNot
  induction x with
  | nil => rfl
  | cons b x ih => cases b <;> simp at * <;> omega

theorem count_ab_length (orbspin : List Char) (hab : ∀ c ∈ orbspin, c = 'a' ∨ c = 'b') :
    orbspin.count 'a' + orbspin.count 'b' = orbspin.length := by
  induction orbspin with
  | nil => rfl
  | cons c l ih =>
    have := ih fun c hc => hab c (by simp [hc])
    rcases hab c (by simp) with rfl | rfl <;> simp <;> omega

theorem generalSpace_ok (orbspin : List Char) (hab : ∀ c ∈ orbspin, c = 'a' ∨ c = 'b') (sp0 sp1 : Space)
    (h0 : sp0.Sized (orbspin.count 'a')) (h1 : sp1.Sized (orbspin.count 'b'))
    (hd0 : (maskAnd sp0.frozen sp0.active).any id = false) (hd1 : (maskAnd sp1.frozen sp1.active).any id = false) :
    generalSpace orbspin sp0 sp1 = .ok (interleaved orbspin sp0 sp1) := by
  obtain ⟨a1, a2, a3⟩ := h0
  obtain ⟨b1, b2, b3⟩ := h1
  obtain ⟨z1, c1, c2⟩ := put_both orbspin hab sp0.occupied sp1.occupied a1.symm b1.symm
  obtain ⟨z2, c3, c4⟩ := put_both orbspin hab sp0.frozen sp1.frozen a2.symm b2.symm
  obtain ⟨z3, c5, c6⟩ := put_both orbspin hab sp0.active sp1.active a3.symm b3.symm
  have hn : (sp0.nocc + sp1.nocc) + (sp0.nvir + sp1.nvir) = orbspin.length := by
    have e0 := countTrue_not sp0.occupied
    have e1 := countTrue_not sp1.occupied
    have e2 := count_ab_length orbspin hab
    unfold Space.nocc Space.nvir Space.virtual
    omega
  unfold generalSpace
  simp only [hn, bind, Except.bind, c1, c2, c3, c4, c5, c6]
  unfold Space.new
  have hli : ∀ x y, (interleave orbspin x y).length = orbspin.length := fun x y => by simp [interleave]
  rw [if_neg (by simp [hli])]
  have hdis : (maskAnd (interleave orbspin sp0.frozen sp1.frozen) (interleave orbspin sp0.active sp1.active)).any id
      = false := by
    rw [maskAnd_interleave _ _ _ _ _ (by rw [a2, a3]) (by rw [b2, b3])]
    rw [List.any_eq_false]
    intro b hb
    simp only [interleave, List.mem_map] at hb
    obtain ⟨i, -, rfl⟩ := hb
    rw [List.any_eq_false] at hd0 hd1
    have key : ∀ (m : List Bool) (j : Nat), (∀ b ∈ m, ¬ id b = true) → ¬ id (m.getD j false) = true := by
      intro m j hm
      by_cases hj : j < m.length
      · rw [List.getD_eq_getElem?_getD, List.getElem?_eq_getElem hj, Option.getD_some]
        exact hm _ (List.getElem_mem hj)
      · rw [List.getD_eq_getElem?_getD, List.getElem?_eq_none (by omega)]
        simp
    split
    · exact key _ _ hd0
    · exact key _ _ hd1
  rw [if_neg (by rw [hdis]; simp)]
  rfl

/-! ### Orbitals of one class -/

theorem selectMask_append {α : Type} (m m' : List Bool) (x x' : List α) (h : m.length = x.length) :
    selectMask (m ++ m') (x ++ x') = selectMask m x ++ selectMask m' x' := by
  unfold selectMask
  rw [List.zip_append h, List.filterMap_append]

/-- The orbitals of spin `s` in a class are the orbitals of the class in the spin. -/
theorem count_select (orbspin : List Char) (m : List Bool) (hl : m.length = orbspin.length) (s : Char) :
    (selectMask m orbspin).count s = countTrue ((whereSpin orbspin s).map fun i => m.getD i false) := by
  induction orbspin using List.reverseRecOn generalizing m with
  | nil => cases m <;> simp_all [selectMask, whereSpin, countTrue]
  | append_singleton l c ih =>
    obtain ⟨m', b, rfl⟩ : ∃ m' b, m = m' ++ [b] := by
      rcases List.eq_nil_or_concat m with rfl | ⟨m', b, rfl⟩
      · simp at hl
      · exact ⟨m', b, List.concat_eq_append ..⟩
    have hl' : m'.length = l.length := by simpa using hl
    rw [selectMask_append _ _ _ _ hl', List.count_append, ih m' hl']
    have e : (whereSpin (l ++ [c]) s).map (fun i => (m' ++ [b]).getD i false)
        = (whereSpin l s).map (fun i => m'.getD i false) ++ (if c = s then [b] else []) := by
      unfold whereSpin
      rw [List.length_append, List.length_singleton, List.range_succ, List.filter_append, List.map_append]
      congr 1
      · have : (List.range l.length).filter (fun i => decide ((l ++ [c]).getD i ' ' = s))
            = (List.range l.length).filter fun i => decide (l.getD i ' ' = s) := by
          apply List.filter_congr
          intro i hi
          rw [List.mem_range] at hi
          simp [List.getElem?_append_left hi]
        rw [this]
        apply List.map_congr_left
        intro i hi
        have hi' : i < l.length := by
          rw [List.mem_filter, List.mem_range] at hi
          exact hi.1
        simp [List.getElem?_append_left (hl' ▸ hi' : i < m'.length)]
      · by_cases h : c = s
        · simp [List.filter_cons, h, ← hl']
        · simp [List.filter_cons, h]
    rw [e]
    unfold countTrue
    rw [List.count_append]
    congr 1
    unfold selectMask
    cases b <;> by_cases h : c = s <;> simp [h]

end Ebcc
