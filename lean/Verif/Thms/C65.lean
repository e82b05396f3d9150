import Verif.Model.External
import Verif.Thms.C47
import Verif.Thms.C34
import Verif.Lemmas.Decompress

/-!
C65: the external amplitudes handed to the corrections are the given ones, placed in the active block of an array over
the full space that is zero elsewhere; and the unrestricted corrections are added in their blocks (C47).
-/

namespace Ebcc

section
variable {R : Type}

/-- A loop that replaces the entries under the keys of its items. -/
theorem replaceKey65 {ι κ V : Type} [DecidableEq κ] (key : ι → Option κ) (F : ι → V → Except PyErr V) (fs : List ι)
    (hnd : (fs.filterMap key).Nodup) (d : Dict κ V)
    (h : ∀ r ∈ fs, ∀ k, key r = some k → ∃ x y, d.get? k = some x ∧ F r x = .ok y) :
    ∃ d', fs.foldlM (fun (d : Dict κ V) r =>
        match key r with
        | none => (pure d : Except PyErr _)
        | some k => do
          let x ← d.getItem k
          let y ← F r x
          pure (d.set k y)) d = .ok d' ∧ d'.keys = d.keys ∧
      (∀ r ∈ fs, ∀ k x, key r = some k → d.get? k = some x → ∃ y, F r x = .ok y ∧ d'.get? k = some y) ∧
      ∀ k, (∀ r ∈ fs, key r ≠ some k) → d'.get? k = d.get? k := by
  induction fs generalizing d with
  | nil => exact ⟨d, rfl, rfl, by simp, fun _ _ => rfl⟩
  | cons r fs ih =>
    cases hG : key r with
    | none =>
      rw [List.filterMap_cons_none hG] at hnd
      obtain ⟨d', e1, e2, e3, e4⟩ := ih hnd d fun r' hr' => h r' (by simp [hr'])
      refine ⟨d', ?_, e2, ?_, fun nm hnm => e4 nm fun r' hr' => hnm r' (by simp [hr'])⟩
      · simp only [List.foldlM_cons, hG, bind, Except.bind, pure, Except.pure] at e1 ⊢
        exact e1
      · intro r' hr' k x hk
        rcases List.mem_cons.1 hr' with rfl | hr'
        · rw [hG] at hk; cases hk
        · exact e3 r' hr' k x hk
    | some k =>
      rw [List.filterMap_cons_some hG, List.nodup_cons] at hnd
      have hne : ∀ r' ∈ fs, ∀ k', key r' = some k' → k ≠ k' := fun r' hr' k' hk' e =>
        hnd.1 (List.mem_filterMap.2 ⟨r', hr', e ▸ hk'⟩)
      obtain ⟨x, y, hx, hy⟩ := h r (by simp) k hG
      obtain ⟨d', e1, e2, e3, e4⟩ := ih hnd.2 (d.set k y) (by
        intro r' hr' k' hk'
        obtain ⟨x', y', h1, h2⟩ := h r' (by simp [hr']) k' hk'
        exact ⟨x', y', by rw [Dict.get?_set, if_neg (hne r' hr' k' hk')]; exact h1, h2⟩)
      refine ⟨d', ?_, ?_, ?_, ?_⟩
      · have hg : d.getItem k = .ok x := by simp [Dict.getItem, hx]
        simp only [List.foldlM_cons, hG, hg, hy, bind, Except.bind, pure, Except.pure] at e1 ⊢
        exact e1
      · rw [e2, Dict.keys_set_of_mem _ _ _ ((Dict.mem_keys_iff _ _).2 ⟨x, hx⟩)]
      · intro r' hr' k' x' hk' hx'
        rcases List.mem_cons.1 hr' with rfl | hr'
        · rw [hG] at hk'
          cases hk'
          rw [hx] at hx'
          cases hx'
          refine ⟨y, hy, ?_⟩
          rw [e4 k fun r'' hr'' e => (hne r'' hr'' k e) rfl, Dict.get?_set, if_pos rfl]
        · exact e3 r' hr' k' x' hk' (by rw [Dict.get?_set, if_neg (hne r' hr' k' hk')]; exact hx')
      · intro k' hk'
        rw [e4 k' fun r' hr' => hk' r' (by simp [hr']), Dict.get?_set, if_neg]
        rintro rfl
        exact hk' r (by simp) hG

/-- The sizes of the full occupied and virtual axes. -/
theorem size_axis65 {o f a : List Bool} {s : Space} (hs : Space.new o f a = .ok s) (k : Char) (hk : k = 'o' ∨ k = 'v') :
    s.size k = .ok (axisClass s (if k = 'o' then 'O' else 'V')).length := by
  obtain ⟨l1, l2, l3⟩ : s.occupied.length = s.nmo ∧ s.frozen.length = s.nmo ∧ s.active.length = s.nmo := by
    unfold Space.new at hs
    split_ifs at hs with h1 h2
    cases hs
    exact ⟨rfl, by simp only [Space.nmo]; omega, by simp only [Space.nmo]; omega⟩
  have hcor : ∀ p, p < s.nmo → inMask s.correlated p = !inMask s.frozen p := by
    intro p hp
    unfold Space.correlated
    rw [inMask_not (by omega)]
  have hvir : ∀ p, p < s.nmo → inMask s.virtual p = !inMask s.occupied p := by
    intro p hp
    unfold Space.virtual
    rw [inMask_not (by omega)]
  have lc : s.correlated.length = s.nmo := by unfold Space.correlated; rw [length_not]; exact l2
  have lv : s.virtual.length = s.nmo := by unfold Space.virtual; rw [length_not]; exact l1
  rcases hk with rfl | rfl
  · have e1 : s.size 'o' = .ok s.ncocc := by simp [Space.size, Dict.getItem, Dict.get?]
    rw [e1]
    congr 1
    unfold Space.ncocc Space.correlatedOccupied
    rw [countTrue_eq, length_and (by omega), lc]
    simp only [axisClass, List.length_map, axisOrbitals]
    congr 1
    apply List.filter_congr
    intro p hp
    rw [inMask_and, hcor p (List.mem_range.1 hp)]
    simp
  · have e1 : s.size 'v' = .ok s.ncvir := by simp [Space.size, Dict.getItem, Dict.get?]
    rw [e1]
    congr 1
    unfold Space.ncvir Space.correlatedVirtual
    rw [countTrue_eq, length_and (by omega), lc]
    simp only [axisClass, List.length_map, axisOrbitals]
    congr 1
    apply List.filter_congr
    intro p hp
    rw [inMask_and, hcor p (List.mem_range.1 hp), hvir p (List.mem_range.1 hp)]
    simp

/-- The given amplitude in the given classes of a larger array of zeros. -/
def Inflated65 [Zero R] (cls : List (List Bool)) (x y : NDArray R) : Prop :=
  y.shape = cls.map List.length ∧ y.WF ∧ ∀ idx, InBox y.shape idx → y.get idx = blockElem cls x idx

theorem inflate_ok65 [Zero R] (cls : List (List Bool)) (x : NDArray R) (hx : x.WF)
    (hxs : x.shape = cls.map (List.count true)) :
    ∃ y, inflate (cls.map List.length) (cls.map maskInds) x = .ok y ∧ Inflated65 cls x y := by
  obtain ⟨y, y1, y2, y3, y4⟩ := put_block (NDArray.zeros (cls.map List.length)) cls x (NDArray.ofFn_wf _ _) hx rfl hxs
  refine ⟨y, y1, y2, y3, ?_⟩
  intro idx hidx
  rw [y4 idx (y2 ▸ hidx), zeros_get]
  rfl

theorem inflateAmp_ok65 [Zero R] {o f a : List Bool} {s : Space} (hs : Space.new o f a = .ok s)
    (hfro : ∀ p, inMask s.frozen p = false) (key : List Char) (hk : ∀ c ∈ key, c = 'o' ∨ c = 'v') (x : NDArray R)
    (hx : x.WF) (hxs : x.shape = (activeClasses s key).map (List.count true)) :
    ∃ y, inflateAmp s key x = .ok y ∧ Inflated65 (activeClasses s key) x y := by
  obtain ⟨y, y1, y2⟩ := inflate_ok65 _ x hx hxs
  refine ⟨y, ?_, y2⟩
  have h1 : key.mapM s.size = .ok ((activeClasses s key).map List.length) := by
    unfold activeClasses
    rw [List.map_map]
    exact mapM_ok _ _ _ fun k hkk => size_axis65 hs k (hk k hkk)
  have h2 : (key.mapM fun k => extMask s k.toUpper) = .ok (activeClasses s key) := by
    unfold activeClasses
    apply mapM_ok
    intro k hkk
    rcases hk k hkk with rfl | rfl
    · exact extMask_ok hs hfro 'O' (by decide)
    · exact extMask_ok hs hfro 'V' (by decide)
  unfold inflateAmp
  rw [h1, h2]
  exact y1

theorem foldlM_inv65 {ι D : Type} (P : D → Prop) (f g : D → ι → Except PyErr D) (fs : List ι)
    (h : ∀ d, P d → ∀ r ∈ fs, f d r = g d r) (hP : ∀ d, P d → ∀ r ∈ fs, ∀ d', g d r = .ok d' → P d') (d : D) (hd : P d) :
    fs.foldlM f d = fs.foldlM g d := by
  induction fs generalizing d with
  | nil => rfl
  | cons r fs ih =>
    rw [List.foldlM_cons, List.foldlM_cons, h d hd r (by simp)]
    cases hg : g d r with
    | error e => rfl
    | ok d' =>
      simp only [bind, Except.bind]
      exact ih (fun d hd r hr => h d hd r (by simp [hr])) (fun d hd r hr => hP d hd r (by simp [hr])) d'
        (hP d hd r (by simp) d' hg)

/-- C65, restricted and general: the amplitudes that belong to the ansatz are inflated, the others are passed on unchanged.
What is missing: spaces with frozen orbitals and amplitudes with active axes, for which the masks do not fit
(`C65_frozen_fails`). -/
theorem C65_external_partial [Zero R] {o f a : List Bool} {s : Space} (hs : Space.new o f a = .ok s)
    (hfro : ∀ p, inMask s.frozen p = false) (an : Ansatz) (spin : SpinType) (fs : List Rank)
    (hf : fermionicClusterRanks an.fermionAnsatz spin .t = .ok fs) (hnd : (fs.map fun r => r.1).Nodup)
    (hk : ∀ r ∈ fs, ∀ c ∈ r.2.1, c = 'o' ∨ c = 'v') (amps : Dict (List Char) (NDArray R))
    (hx : ∀ r ∈ fs, ∀ x, amps.get? r.1 = some x → x.WF ∧ x.shape = (activeClasses s r.2.1).map (List.count true)) :
    ∃ amps', externalAmplitudes an spin s amps = .ok amps' ∧ amps'.keys = amps.keys ∧
      (∀ r ∈ fs, ∀ x, amps.get? r.1 = some x →
        ∃ y, amps'.get? r.1 = some y ∧ Inflated65 (activeClasses s r.2.1) x y) ∧
      ∀ nm, (∀ r ∈ fs, r.1 ≠ nm) → amps'.get? nm = amps.get? nm := by
  let key : Rank → Option (List Char) := fun r => if r.1 ∈ amps.keys then some r.1 else none
  have hkey : ∀ r k, key r = some k → k = r.1 ∧ r.1 ∈ amps.keys := by
    intro r k h
    simp only [key] at h
    split_ifs at h with hm
    cases h
    exact ⟨rfl, hm⟩
  have hsub : (fs.filterMap key).Sublist (fs.map fun r => r.1) := by
    clear hf hnd hk hx
    induction fs with
    | nil => simp
    | cons r fs ih =>
      cases hG : key r with
      | none => rw [List.filterMap_cons_none hG]; exact ih.cons _
      | some k =>
        rw [List.filterMap_cons_some hG, (hkey r k hG).1]
        exact ih.cons_cons _
  have hone : ∀ r ∈ fs, ∀ x, amps.get? r.1 = some x →
      ∃ y, inflateAmp s r.2.1 x = .ok y ∧ Inflated65 (activeClasses s r.2.1) x y := by
    intro r hr x h1
    obtain ⟨e1, e2⟩ := hx r hr x h1
    exact inflateAmp_ok65 hs hfro r.2.1 (hk r hr) x e1 e2
  obtain ⟨d', e1, e2, e3, e4⟩ := replaceKey65 key (fun r x => inflateAmp s r.2.1 x) fs (hnd.sublist hsub) amps (by
    intro r hr k hkr
    obtain ⟨rfl, hm⟩ := hkey r k hkr
    obtain ⟨x, hx1⟩ := (Dict.mem_keys_iff _ _).1 hm
    obtain ⟨y, hy, _⟩ := hone r hr x hx1
    exact ⟨x, y, hx1, hy⟩)
  refine ⟨d', ?_, e2, ?_, ?_⟩
  · unfold externalAmplitudes
    rw [hf]
    simp only [bind, Except.bind] at e1 ⊢
    rw [← e1]
    refine foldlM_inv65 (fun d => d.keys = amps.keys) _ _ fs ?_ ?_ amps rfl
    · intro d hd r _
      cases hg : d.get? r.1 with
      | none =>
        have hm : r.1 ∉ amps.keys := by
          rw [← hd]; intro hm
          obtain ⟨x, hx⟩ := (Dict.mem_keys_iff _ _).1 hm
          rw [hg] at hx; cases hx
        have : key r = none := if_neg hm
        rw [this]
      | some x =>
        have hm : r.1 ∈ amps.keys := by
          rw [← hd]; exact (Dict.mem_keys_iff _ _).2 ⟨x, hg⟩
        have : key r = some r.1 := if_pos hm
        rw [this]
        have hgi : d.getItem r.1 = .ok x := by simp [Dict.getItem, hg]
        simp only [hgi]
    · intro d hd r _ d'' hg
      cases hkr : key r with
      | none =>
        rw [hkr] at hg
        cases hg
        exact hd
      | some k =>
        rw [hkr] at hg
        simp only at hg
        cases hgi : d.getItem k with
        | error e => rw [hgi] at hg; cases hg
        | ok x =>
          rw [hgi] at hg
          simp only at hg
          cases hy : inflateAmp s r.2.1 x with
          | error e => rw [hy] at hg; cases hg
          | ok y =>
            rw [hy] at hg
            cases hg
            rw [Dict.keys_set_of_mem _ _ _ (by rw [hd, (hkey r k hkr).1]; exact (hkey r k hkr).2), hd]
  · intro r hr x h1
    obtain ⟨y, hy, hy2⟩ := hone r hr x h1
    have hm : key r = some r.1 := if_pos ((Dict.mem_keys_iff _ _).2 ⟨x, h1⟩)
    obtain ⟨y', hy', hg⟩ := e3 r hr r.1 x hm h1
    replace hy' := hy.symm.trans hy'
    cases hy'
    exact ⟨y, hg, hy2⟩
  · intro nm hnm
    apply e4
    intro r hr e
    exact hnm r hr (hkey r nm e).1.symm

/-- All the spin blocks of an amplitude, inflated. -/
def UInflated65 [Zero R] (sa sb : Space) (key : List Char) (n : Nat) (d d' : Dict (List Char) (NDArray R)) : Prop :=
  d'.keys = d.keys ∧ (∀ comb ∈ generateSpinCombinations n false true, ∀ x, d.get? comb = some x →
    ∃ y, d'.get? comb = some y ∧ Inflated65 (uActiveClasses sa sb comb key) x y) ∧
  ∀ comb, comb ∉ generateSpinCombinations n false true → d'.get? comb = d.get? comb

theorem uClasses_ok65 {oa fa aa ob fb ab : List Bool} {sa sb : Space}
    (hsa : Space.new oa fa aa = .ok sa) (hsb : Space.new ob fb ab = .ok sb)
    (hfa : ∀ p, inMask sa.frozen p = false) (hfb : ∀ p, inMask sb.frozen p = false) (key comb : List Char)
    (h1 : ∀ c ∈ key, c = 'o' ∨ c = 'v') (h2 : ∀ c ∈ comb, c = 'a' ∨ c = 'b') :
    ((comb.zip key).mapM fun p => do
      let sp ← spinSpace sa sb p.1
      extMask sp p.2.toUpper) = .ok (uActiveClasses sa sb comb key) ∧
    ((comb.zip key).mapM fun p => do
      let sp ← spinSpace sa sb p.1
      sp.size p.2) = .ok ((uActiveClasses sa sb comb key).map List.length) := by
  constructor
  · apply mapM_ok
    intro p hp
    have hp1 := h2 _ (List.of_mem_zip hp).1
    have hp2 := h1 _ (List.of_mem_zip hp).2
    obtain ⟨c, k⟩ := p
    rcases hp1 with rfl | rfl <;> rcases hp2 with rfl | rfl
    · exact extMask_ok hsa hfa 'O' (by decide)
    · exact extMask_ok hsa hfa 'V' (by decide)
    · exact extMask_ok hsb hfb 'O' (by decide)
    · exact extMask_ok hsb hfb 'V' (by decide)
  · unfold uActiveClasses
    rw [List.map_map]
    apply mapM_ok
    intro p hp
    have hp1 := h2 _ (List.of_mem_zip hp).1
    have hp2 := h1 _ (List.of_mem_zip hp).2
    obtain ⟨c, k⟩ := p
    rcases hp1 with rfl | rfl
    · exact size_axis65 hsa k hp2
    · exact size_axis65 hsb k hp2

theorem combos_ab65 (n : Nat) (comb : List Char) (h : comb ∈ generateSpinCombinations n false true) :
    ∀ c ∈ comb, c = 'a' ∨ c = 'b' := by
  exact (combos_spin n comb h).2

theorem inflateBlocks_ok65 [Zero R] {oa fa aa ob fb ab : List Bool} {sa sb : Space}
    (hsa : Space.new oa fa aa = .ok sa) (hsb : Space.new ob fb ab = .ok sb)
    (hfa : ∀ p, inMask sa.frozen p = false) (hfb : ∀ p, inMask sb.frozen p = false) (key : List Char) (n : Nat)
    (h1 : ∀ c ∈ key, c = 'o' ∨ c = 'v')     (d : Dict (List Char) (NDArray R))
    (hd : ∀ comb ∈ generateSpinCombinations n false true, ∃ x, d.get? comb = some x ∧ x.WF ∧
      x.shape = (uActiveClasses sa sb comb key).map (List.count true)) :
    ∃ d', inflateBlocks sa sb key n d = .ok d' ∧ UInflated65 sa sb key n d d' := by
  have hone : ∀ comb ∈ generateSpinCombinations n false true, ∀ x, d.get? comb = some x →
      ∃ y, inflateBlock sa sb key comb x = .ok y ∧ Inflated65 (uActiveClasses sa sb comb key) x y := by
    intro comb hc x hx
    obtain ⟨x', q1, q2, q3⟩ := hd comb hc
    rw [hx] at q1
    cases q1
    obtain ⟨y, y1, y2⟩ := inflate_ok65 _ x q2 q3
    refine ⟨y, ?_, y2⟩
    obtain ⟨c1, c2⟩ := uClasses_ok65 hsa hsb hfa hfb key comb h1 (combos_ab65 n comb hc)
    unfold inflateBlock
    rw [c1, c2]
    exact y1
  obtain ⟨d', e1, e2, e3, e4⟩ := replaceKey65 (fun comb : List Char => some comb)
    (fun comb x => inflateBlock sa sb key comb x) (generateSpinCombinations n false true) (by simpa using combos_nodup n) d (by
      intro comb hc k hk
      cases hk
      obtain ⟨x, q1, _⟩ := hd comb hc
      obtain ⟨y, hy, _⟩ := hone comb hc x q1
      exact ⟨x, y, q1, hy⟩)
  refine ⟨d', e1, e2, ?_, ?_⟩
  · intro comb hc x hx
    obtain ⟨y, hy, hy2⟩ := hone comb hc x hx
    obtain ⟨y', hy', hg⟩ := e3 comb hc comb x rfl hx
    replace hy' := hy.symm.trans hy'
    cases hy'
    exact ⟨y, hg, hy2⟩
  · intro comb hc
    apply e4
    intro r hr e
    cases e
    exact hc hr

/-- C65, unrestricted: the names and addresses returned are those of the caller, and the namespaces at these addresses hold
the inflated blocks; other namespaces are unchanged.  The blocks are inflated in the namespaces of the caller. -/
theorem C65_external_unrestricted_partial [Zero R] {oa fa aa ob fb ab : List Bool} {sa sb : Space}
    (hsa : Space.new oa fa aa = .ok sa) (hsb : Space.new ob fb ab = .ok sb)
    (hfa : ∀ p, inMask sa.frozen p = false) (hfb : ∀ p, inMask sb.frozen p = false) (an : Ansatz) (fs : List Rank)
    (hf : fermionicClusterRanks an.fermionAnsatz .U .t = .ok fs)
    (hk : ∀ r ∈ fs, ∀ c ∈ r.2.1, c = 'o' ∨ c = 'v')
    (amps : Dict (List Char) Nat) (heap : NsHeap R) (hnd : (fs.filterMap fun r => amps.get? r.1).Nodup)
    (hx : ∀ r ∈ fs, ∀ ref, amps.get? r.1 = some ref → ∃ d, heap.get? ref = some d ∧
      ∀ comb ∈ generateSpinCombinations r.2.2 false true, ∃ x, d.get? comb = some x ∧ x.WF ∧
        x.shape = (uActiveClasses sa sb comb r.2.1).map (List.count true)) :
    ∃ heap', uExternalAmplitudes an sa sb amps heap = .ok (amps, heap') ∧
      (∀ r ∈ fs, ∀ ref d, amps.get? r.1 = some ref → heap.get? ref = some d →
        ∃ d', heap'.get? ref = some d' ∧ UInflated65 sa sb r.2.1 r.2.2 d d') ∧
      ∀ ref, (∀ r ∈ fs, amps.get? r.1 ≠ some ref) → heap'.get? ref = heap.get? ref := by
  have hone : ∀ r ∈ fs, ∀ ref d, amps.get? r.1 = some ref → heap.get? ref = some d →
      ∃ d', inflateBlocks sa sb r.2.1 r.2.2 d = .ok d' ∧ UInflated65 sa sb r.2.1 r.2.2 d d' := by
    intro r hr ref d h1 h2
    obtain ⟨d1, q1, q2⟩ := hx r hr ref h1
    rw [h2] at q1
    cases q1
    exact inflateBlocks_ok65 hsa hsb hfa hfb r.2.1 r.2.2 (hk r hr) d q2
  obtain ⟨d', e1, e2, e3, e4⟩ := replaceKey65 (fun r : Rank => amps.get? r.1)
    (fun r d => inflateBlocks sa sb r.2.1 r.2.2 d) fs hnd heap (by
      intro r hr ref hg
      obtain ⟨d, q1, _⟩ := hx r hr ref hg
      obtain ⟨d', hd', _⟩ := hone r hr ref d hg q1
      exact ⟨d, d', q1, hd'⟩)
  refine ⟨d', ?_, ?_, e4⟩
  · unfold uExternalAmplitudes
    rw [hf]
    have hloop : uExternalLoop sa sb amps fs heap = .ok d' := by
      rw [← e1]
      unfold uExternalLoop
      apply foldlM_congr_mem
      intro r _ h
      cases amps.get? r.1 <;> rfl
    simp only [bind, Except.bind, hloop]
    rfl
  · intro r hr ref d h1 h2
    obtain ⟨y, hy, hy2⟩ := hone r hr ref d h1 h2
    obtain ⟨y', hy', hg⟩ := e3 r hr ref d h1 h2
    replace hy' := hy.symm.trans hy'
    cases hy'
    exact ⟨y, hg, hy2⟩

/-! ### Unrestricted corrections -/

/-- The classes of the axes of a spin block for the key of a correction. -/
def uClasses65 (sa sb : Space) (comb key : List Char) : List (List Bool) :=
  (comb.zip key).map fun p => axisClass (if p.1 = 'a' then sa else sb) p.2

/-- Adding a block, whatever the masks come from. -/
theorem addBlock_ok65 [Ring R] (cls : List (List Bool)) (x ext : NDArray R) (hx : x.WF) (he : ext.WF)
    (hxs : x.shape = cls.map List.length) (hes : ext.shape = cls.map (List.count true)) :
    ((cls.map maskInds).length = x.shape.length ∧
      (prodL (cls.map maskInds)).all (fun t => decide (t ∈ box x.shape)) = true) ∧
    ∃ y, (do
        let v ← (ixGet x (cls.map maskInds)).add ext
        putIx x (cls.map maskInds) v) = .ok y ∧ y.shape = x.shape ∧ y.WF ∧
      ∀ idx, InBox x.shape idx → y.get idx = x.get idx + blockElem cls ext idx := by
  have hsh : (ixGet x (cls.map maskInds)).shape = cls.map (List.count true) := by
    change (cls.map maskInds).map List.length = _
    rw [List.map_map]
    apply List.map_congr_left
    intro m _
    exact maskInds_length m
  obtain ⟨v, hv1, hv2, hv3, hv4⟩ := add_ok (ixGet x (cls.map maskInds)) ext (NDArray.ofFn_wf _ _) he (by rw [hsh, hes])
  obtain ⟨y, y1, y2, y3, y4⟩ := put_block x cls v hx hv3 hxs (by rw [hv2, hsh])
  refine ⟨?_, y, ?_, y2, y3, ?_⟩
  · by_contra hn
    unfold putIx at y1
    rw [if_neg hn] at y1
    cases y1
  · rw [hv1]
    exact y1
  · intro idx hidx
    rw [y4 idx hidx]
    unfold blockElem
    by_cases hb : inBlock cls idx = true
    · rw [if_pos hb, if_pos hb, hv4]
      congr 1
      have hb' : (List.zipWith (fun (l : List Nat) i => decide (i ∈ l)) (cls.map maskInds) idx).all id = true := by
        rw [← hb]
        unfold inBlock
        rw [List.zipWith_map_left]
        congr 2
        funext m i
        rw [Bool.eq_iff_iff, decide_eq_true_eq, mem_maskInds]
      have hlen : (cls.map maskInds).length = idx.length := by
        rw [hidx.length_eq, hxs]; simp
      obtain ⟨z1, z2⟩ := zip_getD_idxOf _ idx hlen hb'
      have hbi : List.zipWith (fun (l : List Nat) i => l.idxOf i) (cls.map maskInds) idx = blockIdx cls idx := by
        clear hidx hxs hes hsh hv1 hv2 hv4 y1 y4 hb' hlen z1 z2
        unfold blockIdx
        unfold inBlock at hb
        rw [List.zipWith_map_left]
        induction cls generalizing idx with
        | nil => rfl
        | cons m cls ih =>
          cases idx with
          | nil => rfl
          | cons i idx =>
            simp only [List.zipWith_cons_cons, List.all_cons, id_eq, Bool.and_eq_true] at hb ⊢
            rw [ih idx hb.2, maskInds_idxOf m i hb.1]
      rw [hbi] at z1 z2
      unfold ixGet
      rw [NDArray.get_ofFn _ _ (mem_box.1 z1), z2]
    · rw [if_neg hb, if_neg hb, add_zero]

/-- The corrections of a spin block fit it. -/
def UBlocksFit65 (sa sb : Space) (comb : List Char) (x : NDArray R) (blocks : Dict (List Char) (NDArray R)) : Prop :=
  ∀ kv ∈ blocks, (∀ c ∈ kv.1, c ∈ ['o', 'O', 'i', 'v', 'V', 'a']) ∧ kv.2.WF ∧
    x.shape = (uClasses65 sa sb comb kv.1).map List.length ∧
    kv.2.shape = (uClasses65 sa sb comb kv.1).map (List.count true)

/-- Every element of a spin block is increased by the sum of its corrections. -/
def UCorrected65 [Ring R] (sa sb : Space) (comb : List Char) (blocks : Dict (List Char) (NDArray R)) (x y : NDArray R) :
    Prop :=
  y.shape = x.shape ∧ y.WF ∧ ∀ idx, InBox x.shape idx →
    y.get idx = x.get idx + (blocks.map fun kv => blockElem (uClasses65 sa sb comb kv.1) kv.2 idx).sum

theorem uAddKeys_ok65 [Ring R] {oa fa aa ob fb ab : List Bool} {sa sb : Space}
    (hsa : Space.new oa fa aa = .ok sa) (hsb : Space.new ob fb ab = .ok sb)
    (hfa : ∀ p, inMask sa.frozen p = false) (hfb : ∀ p, inMask sb.frozen p = false) (comb : List Char)
    (hab : ∀ c ∈ comb, c = 'a' ∨ c = 'b') (blocks : Dict (List Char) (NDArray R)) (x : NDArray R) (hx : x.WF)
    (hb : UBlocksFit65 sa sb comb x blocks) :
    ∃ y, blocks.foldlM (fun x (kv : List Char × NDArray R) => uAddExternal sa sb comb x kv.1 kv.2) x = .ok y ∧
      UCorrected65 sa sb comb blocks x y := by
  induction blocks generalizing x with
  | nil => exact ⟨x, rfl, rfl, hx, fun idx _ => by simp⟩
  | cons kv blocks ih =>
    obtain ⟨b1, b2, b3, b4⟩ := hb kv (by simp)
    obtain ⟨hcond, y, y1, y2, y3, y4⟩ := addBlock_ok65 _ x kv.2 hx b2 b3 b4
    have hstep : uAddExternal sa sb comb x kv.1 kv.2 = .ok y := by
      have hm : ((comb.zip kv.1).mapM fun (p : Char × Char) => do
          let sp ← spinSpace sa sb p.1
          extMask sp p.2) = .ok (uClasses65 sa sb comb kv.1) := by
        apply mapM_ok
        intro p hp
        have hp1 := hab _ (List.of_mem_zip hp).1
        have hp2 := b1 _ (List.of_mem_zip hp).2
        obtain ⟨c, k⟩ := p
        rcases hp1 with rfl | rfl
        · exact extMask_ok hsa hfa k hp2
        · exact extMask_ok hsb hfb k hp2
      unfold uAddExternal
      rw [hm]
      simp only [bind, Except.bind]
      rw [if_pos hcond]
      exact y1
    obtain ⟨z, z1, z2, z3, z4⟩ := ih y y3 (by
      intro kv' hkv'
      rw [y2]
      exact hb kv' (by simp [hkv']))
    refine ⟨z, ?_, by rw [z2, y2], z3, ?_⟩
    · rw [List.foldlM_cons, hstep]
      exact z1
    · intro idx hidx
      rw [z4 idx (by rw [y2]; exact hidx), y4 idx hidx, List.map_cons, List.sum_cons, add_assoc]

/-- A loop over the entries of one dictionary that changes the entries of another one; entries without work are
skipped. -/
theorem loopEntries65 {κ V E : Type} [DecidableEq κ] (work : E → Bool) (F : κ → E → V → Except PyErr V)
    (exts : Dict κ E) (hnd : exts.keys.Nodup) (d : Dict κ V)
    (h : ∀ k e, exts.get? k = some e → work e = true → ∃ x y, d.get? k = some x ∧ F k e x = .ok y) :
    ∃ d', exts.foldlM (fun (d : Dict κ V) ke =>
        if work ke.2 = false then (pure d : Except PyErr _) else do
          let x ← d.getItem ke.1
          let y ← F ke.1 ke.2 x
          pure (d.set ke.1 y)) d = .ok d' ∧ d'.keys = d.keys ∧
      (∀ k e x, exts.get? k = some e → work e = true → d.get? k = some x → ∃ y, F k e x = .ok y ∧ d'.get? k = some y) ∧
      ∀ k, (∀ e, exts.get? k = some e → work e = false) → d'.get? k = d.get? k := by
  induction exts generalizing d with
  | nil => exact ⟨d, rfl, rfl, fun _ _ _ h => (by cases h), fun _ _ => rfl⟩
  | cons ke exts ih =>
    obtain ⟨k0, e0⟩ := ke
    have hnd' : k0 ∉ Dict.keys exts ∧ (Dict.keys exts).Nodup := by
      simpa [Dict.keys] using hnd
    have hne : ∀ k e, Dict.get? exts k = some e → k0 ≠ k := by
      rintro k e h rfl
      exact hnd'.1 ((Dict.mem_keys_iff _ _).2 ⟨e, h⟩)
    have hcons : ∀ k, Dict.get? ((k0, e0) :: exts) k = if k0 = k then some e0 else Dict.get? exts k := fun k => rfl
    have hup : ∀ k e, Dict.get? exts k = some e → Dict.get? ((k0, e0) :: exts) k = some e := by
      intro k e he
      rw [hcons, if_neg (hne k e he)]; exact he
    have hn : Dict.get? exts k0 = none := by
      cases hg : Dict.get? exts k0 with
      | none => rfl
      | some b => exact absurd rfl (hne k0 b hg)
    rw [List.foldlM_cons]
    cases hw : work e0 with
    | false =>
      obtain ⟨d', q1, q2, q3, q4⟩ := ih hnd'.2 d fun k e he => h k e (hup k e he)
      refine ⟨d', ?_, q2, ?_, ?_⟩
      · simp only [if_true]
        exact q1
      · intro k e x he hwe
        rw [hcons] at he
        split at he
        · cases he; rw [hw] at hwe; cases hwe
        · exact q3 k e x he hwe
      · intro k hk
        exact q4 k fun e he => hk e (hup k e he)
    | true =>
      obtain ⟨x0, y0, hx0, hy0⟩ := h k0 e0 (by rw [hcons, if_pos rfl]) hw
      obtain ⟨d', q1, q2, q3, q4⟩ := ih hnd'.2 (d.set k0 y0) (by
        intro k e he hwe
        obtain ⟨x, y, h1, h2⟩ := h k e (hup k e he) hwe
        exact ⟨x, y, by rw [Dict.get?_set, if_neg (hne k e he)]; exact h1, h2⟩)
      refine ⟨d', ?_, ?_, ?_, ?_⟩
      · have hg : d.getItem k0 = .ok x0 := by simp [Dict.getItem, hx0]
        simp only [Bool.true_eq_false, if_false, hg, hy0, bind, Except.bind, pure, Except.pure] at q1 ⊢
        exact q1
      · rw [q2, Dict.keys_set_of_mem _ _ _ ((Dict.mem_keys_iff _ _).2 ⟨x0, hx0⟩)]
      · intro k e x he hwe hx
        rw [hcons] at he
        split at he
        · rename_i hk
          subst hk
          cases he
          rw [hx0] at hx
          cases hx
          refine ⟨y0, hy0, ?_⟩
          rw [q4 k0 fun e he => absurd he (by rw [hn]; simp), Dict.get?_set, if_pos rfl]
        · rename_i hk
          exact q3 k e x he hwe (by rw [Dict.get?_set, if_neg hk]; exact hx)
      · intro k hk
        have hk0 : k0 ≠ k := by
          rintro rfl
          have := hk e0 (by rw [hcons, if_pos rfl])
          rw [hw] at this; cases this
        rw [q4 k fun e he => hk e (hup k e he), Dict.get?_set, if_neg hk0]

/-- C47, unrestricted, without frozen orbitals: every spin block for which there are corrections is increased by them,
nothing else changes. -/
theorem C47_corrected_unrestricted_partial [Ring R] {oa fa aa ob fb ab : List Bool} {sa sb : Space}
    (hsa : Space.new oa fa aa = .ok sa) (hsb : Space.new ob fb ab = .ok sb)
    (hfa : ∀ p, inMask sa.frozen p = false) (hfb : ∀ p, inMask sb.frozen p = false)
    (amps : Dict (List Char) (UVal R)) (exts : Dict (List Char) (Dict (List Char) (Dict (List Char) (NDArray R))))
    (hnd : exts.keys.Nodup)
    (hfit : ∀ nm v e, amps.get? nm = some v → exts.get? nm = some e → e.keys.Nodup ∧ ∃ d, v = .spins d ∧
      ∀ comb blocks, e.get? comb = some blocks → ∃ x, d.get? comb = some x ∧ x.WF ∧
        (∀ c ∈ comb, c = 'a' ∨ c = 'b') ∧ UBlocksFit65 sa sb comb x blocks) :
    ∃ amps', uAddToAmps sa sb amps exts = .ok amps' ∧ amps'.keys = amps.keys ∧
      (∀ nm d e, amps.get? nm = some (.spins d) → exts.get? nm = some e →
        ∃ d', amps'.get? nm = some (.spins d') ∧ d'.keys = d.keys ∧
          (∀ comb blocks x, e.get? comb = some blocks → d.get? comb = some x →
            ∃ y, d'.get? comb = some y ∧ UCorrected65 sa sb comb blocks x y) ∧
          ∀ comb, e.get? comb = none → d'.get? comb = d.get? comb) ∧
      ∀ nm, exts.get? nm = none → amps'.get? nm = amps.get? nm := by
  have hone : ∀ nm d e, amps.get? nm = some (.spins d) → exts.get? nm = some e →
      ∃ d', uAddBlocks sa sb d e = .ok d' ∧ d'.keys = d.keys ∧
          (∀ comb blocks x, e.get? comb = some blocks → d.get? comb = some x →
            ∃ y, d'.get? comb = some y ∧ UCorrected65 sa sb comb blocks x y) ∧
          ∀ comb, e.get? comb = none → d'.get? comb = d.get? comb := by
    intro nm d e h1 h2
    obtain ⟨hen, d1, hd1, hfit1⟩ := hfit nm _ e h1 h2
    cases hd1
    obtain ⟨d', q1, q2, q3, q4⟩ := loopEntries65 (fun b : Dict (List Char) (NDArray R) => !b.isEmpty)
      (fun comb b x => b.foldlM (fun x (kv : List Char × NDArray R) => uAddExternal sa sb comb x kv.1 kv.2) x) e hen d (by
        intro comb b hb _
        obtain ⟨x, x1, x2, x3, x4⟩ := hfit1 comb b hb
        obtain ⟨y, y1, _⟩ := uAddKeys_ok65 hsa hsb hfa hfb comb x3 b x x2 x4
        exact ⟨x, y, x1, y1⟩)
    refine ⟨d', ?_, q2, ?_, ?_⟩
    · rw [← q1]
      unfold uAddBlocks
      apply foldlM_congr_mem
      intro ke _ dd
      cases hb : ke.2.isEmpty <;> simp
    · intro comb b x hb hx
      obtain ⟨x', x1, x2, x3, x4⟩ := hfit1 comb b hb
      rw [hx] at x1
      cases x1
      obtain ⟨y, y1, y2⟩ := uAddKeys_ok65 hsa hsb hfa hfb comb x3 b x x2 x4
      cases hw : b.isEmpty with
      | false =>
        obtain ⟨y', hy', hg⟩ := q3 comb b x hb (by simp [hw]) hx
        replace hy' := y1.symm.trans hy'
        cases hy'
        exact ⟨y, hg, y2⟩
      | true =>
        have hbn : b = [] := List.isEmpty_iff.1 hw
        subst hbn
        refine ⟨x, ?_, rfl, x2, fun idx _ => by simp⟩
        rw [q4 comb fun e' he' => by rw [hb] at he'; cases he'; rfl]
        exact hx
    · intro comb hc
      exact q4 comb fun e' he' => by rw [hc] at he'; cases he'
  have hsp : ∀ nm v e, amps.get? nm = some v → exts.get? nm = some e → ∃ d, v = .spins d := by
    intro nm v e h1 h2
    obtain ⟨_, d, hd, _⟩ := hfit nm v e h1 h2
    exact ⟨d, hd⟩
  unfold uAddToAmps
  clear hfit
  induction exts generalizing amps with
  | nil => exact ⟨amps, rfl, rfl, fun _ _ _ _ h => (by cases h), fun _ _ => rfl⟩
  | cons e exts ih =>
    obtain ⟨nm0, b0⟩ := e
    have hnd' : nm0 ∉ Dict.keys exts ∧ (Dict.keys exts).Nodup := by
      simpa [Dict.keys] using hnd
    have hne : ∀ nm blocks, Dict.get? exts nm = some blocks → nm ≠ nm0 := by
      rintro nm blocks h rfl
      exact hnd'.1 ((Dict.mem_keys_iff _ _).2 ⟨blocks, h⟩)
    have hcons : ∀ nm, Dict.get? ((nm0, b0) :: exts) nm = if nm0 = nm then some b0 else Dict.get? exts nm := by
      intro nm
      rfl
    have hup : ∀ nm blocks, Dict.get? exts nm = some blocks → Dict.get? ((nm0, b0) :: exts) nm = some blocks := by
      intro nm blocks h2
      rw [hcons, if_neg (hne nm blocks h2).symm]; exact h2
    rw [List.foldlM_cons]
    cases h0 : amps.get? nm0 with
    | none =>
      obtain ⟨d', e1, e2, e3, e4⟩ := ih amps hnd'.2 (fun nm d e h1 h2 => hone nm d e h1 (hup nm e h2))
        (fun nm v e h1 h2 => hsp nm v e h1 (hup nm e h2))
      refine ⟨d', e1, e2, ?_, ?_⟩
      · intro nm d e h1 h2
        rw [hcons] at h2
        split at h2
        · rename_i e; subst e; rw [h0] at h1; cases h1
        · exact e3 nm d e h1 h2
      · intro nm h
        rw [hcons] at h
        split at h
        · cases h
        · exact e4 nm h
    | some v0 =>
      have hb0 : Dict.get? ((nm0, b0) :: exts) nm0 = some b0 := by rw [hcons, if_pos rfl]
      obtain ⟨x0, rfl⟩ := hsp nm0 v0 b0 h0 hb0
      obtain ⟨y0, r1, r2⟩ := hone nm0 x0 b0 h0 hb0
      have hset : ∀ nm blocks v, Dict.get? exts nm = some blocks → (amps.set nm0 (UVal.spins y0)).get? nm = some v →
          amps.get? nm = some v := by
        intro nm blocks v h2 h1
        rwa [Dict.get?_set, if_neg (hne nm blocks h2).symm] at h1
      obtain ⟨d', e1, e2, e3, e4⟩ := ih (amps.set nm0 (.spins y0)) hnd'.2
        (fun nm d e h1 h2 => hone nm d e (hset nm e _ h2 h1) (hup nm e h2))
        (fun nm v e h1 h2 => hsp nm v e (hset nm e _ h2 h1) (hup nm e h2))
      refine ⟨d', ?_, ?_, ?_, ?_⟩
      · simp only [bind, Except.bind, pure, Except.pure] at r1 e1 ⊢
        rw [r1]
        exact e1
      · rw [e2, Dict.keys_set_of_mem _ _ _ ((Dict.mem_keys_iff _ _).2 ⟨_, h0⟩)]
      · intro nm d e h1 h2
        rw [hcons] at h2
        split at h2
        · rename_i e
          subst e
          cases h2
          rw [h0] at h1
          cases h1
          have hn : Dict.get? exts nm0 = none := by
            cases h : Dict.get? exts nm0 with
            | none => rfl
            | some b => exact absurd rfl (hne nm0 b h)
          exact ⟨y0, by rw [e4 nm0 hn, Dict.get?_set, if_pos rfl], r2⟩
        · rename_i hnn
          exact e3 nm d e (by rw [Dict.get?_set, if_neg hnn]; exact h1) h2
      · intro nm h
        rw [hcons] at h
        split at h
        · cases h
        · rename_i e
          rw [e4 nm h, Dict.get?_set, if_neg e]

end

/-! ### Examples -/

/-- Two active orbitals of four: the amplitude is placed in a `2 × 2` array. -/
example : externalAmplitudes ccs47 .R space47 [(['t', '1'], (⟨[1, 1], [9]⟩ : NDArray Int)), (['t', '3'], ⟨[1], [5]⟩)]
    = .ok [(['t', '1'], ⟨[2, 2], [0, 0, 9, 0]⟩), (['t', '3'], ⟨[1], [5]⟩)] := by decide +kernel

/-- C65 (negative): with a frozen orbital the masks count it and the arrays do not: the amplitude of the active orbital is
placed at the inactive one (compare `C47_frozen_fails`). -/
theorem C65_frozen_fails : axisClass frozen47 'O' = [true, false] ∧
    externalAmplitudes ccs47 .R frozen47 [(['t', '1'], (⟨[1, 1], [9]⟩ : NDArray Int))]
      = .ok [(['t', '1'], ⟨[2, 1], [0, 9]⟩)] := by decide +kernel

/-- The spin blocks given for the active orbitals of `space47`. -/
def heap65 : NsHeap Int := [(0, [(['a', 'a'], ⟨[1, 1], [9]⟩), (['b', 'b'], ⟨[1, 1], [8]⟩)])]

/-- Unrestricted singles: the blocks are inflated in the namespace of the caller. -/
example : uExternalAmplitudes ccs47 space47 space47 [(['t', '1'], 0)] heap65 = .ok ([(['t', '1'], 0)],
    [(0, [(['a', 'a'], ⟨[2, 2], [0, 0, 9, 0]⟩), (['b', 'b'], ⟨[2, 2], [0, 0, 8, 0]⟩)])]) := by rfl

/-- C65 (negative): the unrestricted amplitudes passed by the caller are changed, so that entering the same context a second
time inflates the inflated arrays: no error is raised and the amplitudes are lost (`np.put` ignores surplus values). -/
theorem C65_reentry_fails :
    (uExternalAmplitudes ccs47 space47 space47 [(['t', '1'], 0)] heap65 >>= fun r =>
      uExternalAmplitudes ccs47 space47 space47 r.1 r.2) = .ok ([(['t', '1'], 0)],
    [(0, [(['a', 'a'], ⟨[2, 2], [0, 0, 0, 0]⟩), (['b', 'b'], ⟨[2, 2], [0, 0, 0, 0]⟩)])]) := by rfl

/-- Unrestricted corrections: the active block of the `aa` amplitude is increased. -/
example : uAddToAmps space47 space47 [(['t', '1'], .spins [(['a', 'a'], (⟨[2, 2], [1, 2, 3, 4]⟩ : NDArray Int)),
      (['b', 'b'], ⟨[2, 2], [5, 6, 7, 8]⟩)])] [(['t', '1'], [(['a', 'a'], [(['O', 'V'], ⟨[1, 1], [10]⟩), (['i', 'v'], ⟨[1, 2], [20, 30]⟩)])])]
    = .ok [(['t', '1'], .spins [(['a', 'a'], ⟨[2, 2], [21, 32, 13, 4]⟩), (['b', 'b'], ⟨[2, 2], [5, 6, 7, 8]⟩)])] := by
  decide +kernel

end Ebcc
