import Verif.Lemmas.EomVectors
import Verif.Thms.C34

/-!
C43: EOM amplitudes and vectors.

For restricted and generalised objects packing and unpacking are mutually inverse.  For unrestricted objects they
are not: unpacking divides every spin block by the larger of the numbers of alpha and beta indices among the first
`n`, which packing does not undo (`C43_unrestricted_fails`).  `C43_unrestricted_amplitudes_partial` and
`C43_unrestricted_vectors_partial` state what is returned instead; the round trip holds for the blocks whose
factor is 1.
-/

namespace Ebcc

open Dict

/-- The types of EOM calculation. -/
def IsEom (which : Which) : Prop := which = .ip ∨ which = .ea ∨ which = .ee

theorem eomOnlyFermions_ok {a : Ansatz} {spin : SpinType} {which : Which} {fs : List Rank}
    (h : HasRanks a spin which fs [] []) : eomOnlyFermions a which = .ok () := by
  simp only [eomOnlyFermions, h.b, h.c, bind, Except.bind, ne_eq, not_true_eq_false, if_false, pure, Except.pure]

/-! ### Restricted -/

section
variable {R : Type}

/-- Blocks of the right shapes. -/
def RBlocks (space : Space) (fs : List Rank) (T : Dict (List Char) (NDArray R)) : Prop :=
  ∀ r ∈ fs, ∃ x, T.get? r.1 = some x ∧ x.WF ∧ x.shape = r.2.1.map (szOf space)

/-- The number of elements. -/
def rEomLength (space : Space) (fs : List Rank) : Nat := (fs.map fun r => (r.2.1.map (szOf space)).prod).sum

theorem rEomToVector_eq {a : Ansatz} {which : Which} {fs : List Rank} (h : HasRanks a .R which fs [] [])
    (T : Dict (List Char) (NDArray R)) : rEomToVector a which T = amplitudesToVector a .R which T := by
  unfold rEomToVector amplitudesToVector
  simp only [h.f, h.b, h.c, bind, Except.bind, eomOnlyFermions_ok h]
  cases ravelBlocks T (fs.map fun r => r.1) with
  | error e => rfl
  | ok v => simp [ravelBlocks, pure, Except.pure]

theorem rVectorToEom_eq {a : Ansatz} {which : Which} {fs : List Rank} (h : HasRanks a .R which fs [] [])
    (space : Space) (v : List R) : rVectorToEom a which space v = vectorToAmplitudes a .R which space 0 v := by
  unfold rVectorToEom vectorToAmplitudes
  simp only [h.f, h.b, h.c, bind, Except.bind, eomOnlyFermions_ok h, List.foldlM_nil, pure, Except.pure]

theorem layout_fermions (space : Space) (fs : List Rank) :
    layout space 0 fs [] [] = fs.map fun r => (r.1, r.2.1.map (szOf space)) := by
  simp [layout]

theorem rLength_eq (space : Space) (fs : List Rank) : layoutSize (layout space 0 fs [] []) = rEomLength space fs := by
  simp [layoutSize, layout_fermions, rEomLength, Function.comp_def, prodN_eq_prod]

/-- Restricted EOM amplitudes: unpacking the packed amplitudes gives back every block. -/
theorem C43_restricted_amplitudes {a : Ansatz} {which : Which} {fs : List Rank}
    (h : HasRanks a .R which fs [] []) (hne : fs ≠ []) (hnd : (fs.map fun r => r.1).Nodup) (space : Space)
    (T : Dict (List Char) (NDArray R)) (hT : RBlocks space fs T) :
    ∃ x T', rEomToVector a which T = .ok x ∧ x.length = rEomLength space fs ∧
      rVectorToEom a which space x = .ok T' ∧ T'.keys = fs.map (fun r => r.1) ∧
      ∀ r ∈ fs, T'.get? r.1 = T.get? r.1 := by
  obtain ⟨x, T', h1, h2, h3, h4, h5⟩ := vector_amplitudes h space 0 (by rw [layout_fermions]; simpa using hne)
    (by rw [layout_fermions, List.map_map]; exact hnd) T (by
      intro p hp
      rw [layout_fermions, List.mem_map] at hp
      obtain ⟨r, hr, rfl⟩ := hp
      exact hT r hr)
  refine ⟨x, T', by rw [rEomToVector_eq h, h1], by rw [h2, rLength_eq], by rw [rVectorToEom_eq h, h3], ?_, ?_⟩
  · rw [h4, layout_fermions, List.map_map]; rfl
  · intro r hr
    exact h5 (r.1, r.2.1.map (szOf space)) (by rw [layout_fermions]; exact List.mem_map_of_mem hr)

/-- Every vector of the right length unpacks to blocks of the right shapes, which pack to the same vector. -/
theorem C43_restricted_vectors {a : Ansatz} {which : Which} {fs : List Rank}
    (h : HasRanks a .R which fs [] []) (hne : fs ≠ []) (hnd : (fs.map fun r => r.1).Nodup) (space : Space)
    (x : List R) (hx : x.length = rEomLength space fs) :
    ∃ T, rVectorToEom a which space x = .ok T ∧ T.keys = fs.map (fun r => r.1) ∧ RBlocks space fs T ∧
      rEomToVector a which T = .ok x := by
  obtain ⟨T, h1, h2, h3, h4⟩ := C32_vectors_partial h space 0 (by rw [layout_fermions]; simpa using hne)
    (by rw [layout_fermions, List.map_map]; exact hnd) x (by rw [hx, rLength_eq])
  refine ⟨T, by rw [rVectorToEom_eq h, h1], ?_, ?_, by rw [rEomToVector_eq h, h4]⟩
  · rw [h2, layout_fermions, List.map_map]; rfl
  · intro r hr
    exact h3 (r.1, r.2.1.map (szOf space)) (by rw [layout_fermions]; exact List.mem_map_of_mem hr)

end

/-! ### Generalised -/

section
variable {R : Type} [Ring R]

/-- Blocks of the right shapes, antisymmetric in the axes of the same class. -/
def GBlocks (space : Space) (fs : List Rank) (T : Dict (List Char) (NDArray R)) : Prop :=
  ∀ r ∈ fs, ∃ x, T.get? r.1 = some x ∧ GoodGBlock space r.2.1 x

/-- The number of packed elements. -/
def gEomLength (space : Space) (fs : List Rank) : Nat := (fs.map fun r => gBlockSize space r.2.1).sum

theorem key_nonempty {ansatz : List Char} {spin : SpinType} {which : Which} {fs : List Rank}
    (h : fermionicClusterRanks ansatz spin which = .ok fs) (r : Rank) (hr : r ∈ fs) : r.2.1 ≠ [] := by
  obtain ⟨k, rfl⟩ := (C24_well_formed ansatz spin which fs h).2.2 r hr
  cases which <;> cases k <;> decide

theorem gItems_ok (h2 : ∀ x : R, x + x = 0 → x = 0) {a : Ansatz} {which : Which} {fs : List Rank}
    (h : HasRanks a .G which fs [] []) (space : Space) : ∀ it ∈ fs.map (gItem R space), it.OK := by
  intro it hit
  obtain ⟨r, hr, rfl⟩ := List.mem_map.1 hit
  exact gItem_ok h2 space r (key_nonempty h.f r hr) (key_chars h.f r hr)

theorem gToVector_eq {a : Ansatz} {which : Which} {fs : List Rank} (h : HasRanks a .G which fs [] [])
    (hne : fs ≠ []) (space : Space) (T : Dict (List Char) (NDArray R)) :
    gEomToVector a which T = (packItems (fs.map (gItem R space)) T).map List.flatten := by
  let F : Rank → Except PyErr (List R) := fun r => do
    let x ← T.getItem r.1
    let c ← compressAxes r.2.1 x false
    pure c.ravel
  have e : packItems (fs.map (gItem R space)) T = fs.mapM F := by
    unfold packItems
    rw [mapM_map']
    rfl
  have e1 : gEomToVector a which T = (fs.mapM F).bind concatenate := by
    unfold gEomToVector
    simp only [h.f, eomOnlyFermions_ok h]
    rfl
  rw [e, e1]
  cases hp : fs.mapM F with
  | error er => rfl
  | ok vs =>
    have hl := mapM_length hp
    simp only [Except.map, Except.bind, concatenate]
    rw [if_neg]
    rintro rfl
    exact hne (List.length_eq_zero_iff.1 hl.symm)

theorem gOfVector_eq {a : Ansatz} {which : Which} {fs : List Rank} (h : HasRanks a .G which fs [] [])
    (space : Space) (v : List R) :
    gVectorToEom a which space v = (unItems (fs.map (gItem R space)) v ([], 0)).map Prod.fst := by
  have e1 : ∀ st, fs.foldlM (fun (st : Dict (List Char) (NDArray R) × Nat) r => do
      let sizes ← gSizes space r.2.1
      let size ← getCompressedSize r.2.1 sizes
      let shape ← r.2.1.mapM space.size
      let vn ← decompressAxes r.2.1 (vecSlice v st.2 size) shape false none
      pure (st.1.set r.1 vn, st.2 + size)) st = unItems (fs.map (gItem R space)) v st := by
    intro st
    unfold unItems
    rw [List.foldlM_map]
    apply foldlM_congr_mem
    intro r _ st
    simp only [gItem, bind, Except.bind, pure, Except.pure]
    cases gSizes space r.2.1 with
    | error e => rfl
    | ok sizes =>
      simp only
      cases getCompressedSize r.2.1 sizes with
      | error e => rfl
      | ok m =>
        simp only
        cases r.2.1.mapM space.size with
        | error e => rfl
        | ok sh =>
          simp only
          cases decompressAxes r.2.1 (vecSlice v st.2 m) sh false none <;> rfl
  unfold gVectorToEom
  rw [h.f]
  simp only [bind, Except.bind] at e1 ⊢
  rw [e1]
  cases unItems (fs.map (gItem R space)) v ([], 0) with
  | error e => rfl
  | ok st => simp only [eomOnlyFermions_ok h]; rfl

/-- Generalised EOM amplitudes: unpacking the packed amplitudes gives back every block. -/
theorem C43_general_amplitudes (h2 : ∀ x : R, x + x = 0 → x = 0) {a : Ansatz} {which : Which} {fs : List Rank}
    (h : HasRanks a .G which fs [] []) (hne : fs ≠ []) (hnd : (fs.map fun r => r.1).Nodup) (space : Space)
    (T : Dict (List Char) (NDArray R)) (hT : GBlocks space fs T) :
    ∃ x T', gEomToVector a which T = .ok x ∧ x.length = gEomLength space fs ∧
      gVectorToEom a which space x = .ok T' ∧ T'.keys = fs.map (fun r => r.1) ∧
      ∀ r ∈ fs, T'.get? r.1 = T.get? r.1 := by
  have hn : (fs.map (gItem R space)).map (·.name) = fs.map fun r => r.1 := by rw [List.map_map]; rfl
  obtain ⟨vs, T', p1, p2, _, ⟨p3, p4⟩, p5⟩ := items_pack _ (gItems_ok h2 h space) (by rw [hn]; exact hnd) T (by
    intro it hit
    obtain ⟨r, hr, rfl⟩ := List.mem_map.1 hit
    exact hT r hr)
  refine ⟨vs.flatten, T', by rw [gToVector_eq h hne space, p1]; rfl, ?_, ?_, by rw [p3, hn], ?_⟩
  · rw [p2]; simp [totalSize, gEomLength, gItem, Function.comp_def]
  · have := p5 [] [] [] (by simp [Dict.keys])
    rw [List.append_nil, List.nil_append, List.length_nil] at this
    rw [gOfVector_eq h, this]
    rfl
  · intro r hr
    obtain ⟨y', y, f1, f2, f3⟩ := p4 (gItem R space r) (List.mem_map_of_mem hr)
    have f3 : y' = y := f3
    subst f3
    exact f1.trans f2.symm

/-- Every vector of the right length unpacks to antisymmetric blocks, which pack to the same vector. -/
theorem C43_general_vectors (h2 : ∀ x : R, x + x = 0 → x = 0) {a : Ansatz} {which : Which} {fs : List Rank}
    (h : HasRanks a .G which fs [] []) (hne : fs ≠ []) (hnd : (fs.map fun r => r.1).Nodup) (space : Space)
    (x : List R) (hx : x.length = gEomLength space fs) :
    ∃ T, gVectorToEom a which space x = .ok T ∧ T.keys = fs.map (fun r => r.1) ∧ GBlocks space fs T ∧
      gEomToVector a which T = .ok x := by
  have hn : (fs.map (gItem R space)).map (·.name) = fs.map fun r => r.1 := by rw [List.map_map]; rfl
  obtain ⟨vs, T, p1, p2, p3, p4, p5⟩ := items_un _ (gItems_ok h2 h space) (by rw [hn]; exact hnd) x (by
    rw [hx]; simp [totalSize, gEomLength, gItem, Function.comp_def])
  refine ⟨T, ?_, by rw [p2, hn], ?_, ?_⟩
  · have := p5 [] [] [] (by simp [Dict.keys])
    rw [List.append_nil, List.nil_append, List.length_nil] at this
    rw [gOfVector_eq h, this]
    rfl
  · intro r hr
    exact p1 (gItem R space r) (List.mem_map_of_mem hr)
  · rw [gToVector_eq h hne space, p3]
    exact congrArg Except.ok p4

end

/-! ### Unrestricted -/

/-- The larger of the numbers of alpha and beta indices among the first `n`. -/
def sameSpin (n : Nat) (spin : List Char) : Nat := max ((spin.take n).count 'a') ((spin.take n).count 'b')

theorem foldl_max_spec (l : List Nat) (c : Nat) : l.foldl max c ∈ c :: l ∧ ∀ x ∈ c :: l, x ≤ l.foldl max c := by
  induction l generalizing c with
  | nil => simp
  | cons d l ih =>
    obtain ⟨h1, h2⟩ := ih (max c d)
    rw [List.foldl_cons]
    constructor
    · rcases List.mem_cons.1 h1 with h | h
      · rw [h]
        rcases max_choice c d with e | e <;> rw [e] <;> simp
      · exact List.mem_cons_of_mem _ (List.mem_cons_of_mem _ h)
    · intro x hx
      rcases List.mem_cons.1 hx with rfl | hx
      · exact (le_max_left _ _).trans (h2 _ List.mem_cons_self)
      · rcases List.mem_cons.1 hx with rfl | hx
        · exact (le_max_right _ _).trans (h2 _ List.mem_cons_self)
        · exact h2 x (List.mem_cons_of_mem _ hx)

theorem eomFactor_ok {n : Nat} {spin : List Char} (hne : spin.take n ≠ []) (hs : ∀ c ∈ spin, c = 'a' ∨ c = 'b') :
    eomFactor n spin = .ok (sameSpin n spin) := by
  unfold eomFactor sameSpin
  have hs' : ∀ c ∈ spin.take n, c = 'a' ∨ c = 'b' := fun c hc => hs c (List.mem_of_mem_take hc)
  generalize spin.take n = t at hne hs' ⊢
  have hm : ∀ m, m ∈ (unique t).map (fun s => t.count s) ↔ ∃ c ∈ t, t.count c = m := by
    intro m; simp [List.mem_map, mem_unique]
  cases hu : (unique t).map fun s => t.count s with
  | nil =>
    obtain ⟨c, t', rfl⟩ := List.exists_cons_of_ne_nil hne
    have := (hm _).2 ⟨c, List.mem_cons_self, rfl⟩
    rw [hu] at this
    cases this
  | cons d ds =>
    obtain ⟨h1, h2⟩ := foldl_max_spec ds d
    simp only [Except.ok.injEq]
    apply le_antisymm
    · rw [← hu] at h1
      obtain ⟨c, hc, he⟩ := (hm _).1 h1
      rw [← he]
      rcases hs' c hc with rfl | rfl
      · exact le_max_left _ _
      · exact le_max_right _ _
    · have hle : ∀ c, t.count c ≤ ds.foldl max d := by
        intro c
        by_cases hc : c ∈ t
        · exact h2 _ (by rw [← hu]; exact (hm _).2 ⟨c, hc, rfl⟩)
        · rw [List.count_eq_zero_of_not_mem hc]; exact Nat.zero_le _
      exact max_le (hle _) (hle _)

section
variable {R : Type} [Field R]

/-- The spin combinations of one rank. -/
def eomSpins (which : Which) (n : Nat) : List (List Char) := generateSpinCombinations n (eomExcited which) true

/-- For every rank and spin combination a block of the right shape, antisymmetric in axes of equal class and
spin. -/
def UEomBlocks (which : Which) (sa sb : Space) (fs : List Rank) (T : Dict (List Char) (UVal R)) : Prop :=
  ∀ r ∈ fs, ∃ d, T.get? r.1 = some (.spins d) ∧ ∀ spin ∈ eomSpins which r.2.2,
    ∃ x, d.get? spin = some x ∧ GoodBlock sa sb r.2.1 spin x

/-- The sizes and factors of all blocks in order. -/
def eomBlocks (which : Which) (sa sb : Space) (fs : List Rank) : List (Nat × Nat) :=
  fs.flatMap fun r => (eomSpins which r.2.2).map fun spin => (blockSize sa sb r.2.1 spin, sameSpin r.2.2 spin)

/-- The number of packed elements. -/
def uEomLength (which : Which) (sa sb : Space) (fs : List Rank) : Nat :=
  ((eomBlocks which sa sb fs).map Prod.fst).sum

/-- Divide consecutive parts of a vector, given by their lengths, by numbers. -/
def divideParts : List (Nat × Nat) → List R → List R
  | [], _ => []
  | (m, f) :: l, v => (v.take m).map (fun y => y / (f : R)) ++ divideParts l (v.drop m)

theorem divideParts_append (l m : List (Nat × Nat)) (v : List R) :
    divideParts (l ++ m) v = divideParts l (v.take (l.map Prod.fst).sum)
      ++ divideParts m (v.drop (l.map Prod.fst).sum) := by
  induction l generalizing v with
  | nil => simp [divideParts]
  | cons p l ih =>
    obtain ⟨k, f⟩ := p
    simp only [List.cons_append, divideParts, List.map_cons, List.sum_cons]
    rw [ih, List.append_assoc, List.take_take, min_eq_left (Nat.le_add_right _ _), List.drop_drop, List.drop_take]
    simp

theorem combos_excited (n : Nat) (spin : List Char) (h : spin ∈ generateSpinCombinations n true true) :
    spin.length = n + n - 1 ∧ ∀ c ∈ spin, c = 'a' ∨ c = 'b' := by
  obtain ⟨t, h1, h2, rfl⟩ := (C11_all_excited n spin).1 ((C11_unique n true).1 spin h)
  refine ⟨by simp [h1], ?_⟩
  intro c hc
  rcases List.mem_append.1 (List.mem_of_mem_dropLast hc) with h | h <;> exact h2 c h

theorem eomSpins_nodup (which : Which) (n : Nat) : (eomSpins which n).Nodup :=
  (C11_unique n _).2.1.of_map _

/-- The spin combinations fit the keys. -/
theorem eom_keySpin {ansatz : List Char} {spin : SpinType} {which : Which} {fs : List Rank} (hw : IsEom which)
    (h : fermionicClusterRanks ansatz spin which = .ok fs) (r : Rank) (hr : r ∈ fs)
    (hq : which = .ee ∨ r.2.2 ≤ 3) (s : List Char) (hs : s ∈ eomSpins which r.2.2) :
    KeySpin r.2.1 s ∧ s.take r.2.2 ≠ [] := by
  have hl : r.2.1.length = (if which = .ee then r.2.2 + r.2.2 else r.2.2 + r.2.2 - 1) ∧ 1 ≤ r.2.2 := by
    obtain ⟨k, rfl⟩ := (C24_well_formed ansatz spin which fs h).2.2 r hr
    rcases hw with rfl | rfl | rfl <;> cases k <;> revert hq <;> decide
  have hs' : s.length = (if which = .ee then r.2.2 + r.2.2 else r.2.2 + r.2.2 - 1) ∧ ∀ c ∈ s, c = 'a' ∨ c = 'b' := by
    unfold eomSpins at hs
    rcases hw with rfl | rfl | rfl
    · exact combos_excited _ s hs
    · exact combos_excited _ s hs
    · exact combos_spin _ s hs
  refine ⟨⟨by rw [hl.1, hs'.1], key_nonempty h r hr, key_chars h r hr, hs'.2⟩, ?_⟩
  intro he
  have h0 : (s.take r.2.2).length = 0 := by rw [he]; rfl
  rw [List.length_take, hs'.1] at h0
  have := hl.2
  split at h0 <;> omega

/-- The spin blocks of one rank. -/
def eomSpinItems (R : Type) [Field R] (which : Which) (sa sb : Space) (sizes : Dict (List Char) Nat) (r : Rank) :
    List (Item R (NDArray R)) :=
  (eomSpins which r.2.2).map fun spin =>
    dividedItem R sa sb sizes r.2.1 spin (sameSpin r.2.2 spin : R)

/-- The change of one spin block. -/
def spinChange (n : Nat) (it : Item R (NDArray R)) (v : List R) : List R :=
  v.map fun y => y / (sameSpin n it.name : R)

/-- One rank. -/
def eomItem (R : Type) [Field R] (which : Which) (sa sb : Space) (sizes : Dict (List Char) Nat) (r : Rank) :
    Item R (UVal R) where
  name := r.1
  pack v := ((eomSpins which r.2.2).mapM fun spin => do
      let vn ← v.block spin
      let (subscript, _) ← combineSubscripts [r.2.1, spin] []
      let c ← compressAxes subscript vn false
      pure c.ravel).map List.flatten
  un vec i := (uEomCut sa sb sizes which vec i r.2.1 r.2.2).map fun p => (.spins p.1, p.2)
  size := totalSize (eomSpinItems R which sa sb sizes r)
  P v := ∃ d, v = .spins d ∧ GoodDict (eomSpinItems R which sa sb sizes r) d
  E v' v := ∃ d' d, v' = .spins d' ∧ v = .spins d ∧ SameDict (eomSpinItems R which sa sb sizes r) d' d

theorem eomItem_pack (which : Which) (sa sb : Space) (sizes : Dict (List Char) Nat) (r : Rank)
    (d : Dict (List Char) (NDArray R)) : (eomItem R which sa sb sizes r).pack (.spins d)
      = (packItems (eomSpinItems R which sa sb sizes r) d).map List.flatten := by
  unfold packItems eomSpinItems
  rw [mapM_map']
  rfl

theorem eomCut_eq (which : Which) (sa sb : Space) (sizes : Dict (List Char) Nat) (r : Rank) (vec : List R) (i : Nat)
    (hf : ∀ spin ∈ eomSpins which r.2.2, eomFactor r.2.2 spin = .ok (sameSpin r.2.2 spin)) :
    uEomCut sa sb sizes which vec i r.2.1 r.2.2 = unItems (eomSpinItems R which sa sb sizes r) vec ([], i) := by
  unfold uEomCut unItems eomSpinItems
  rw [List.foldlM_map]
  apply foldlM_congr_mem
  intro spin hsp st
  simp only [dividedItem, spinItem, bind, Except.bind, pure, Except.pure, hf spin hsp]
  cases combineSubscripts [r.2.1, spin] sizes with
  | error e => rfl
  | ok p =>
    simp only
    cases getCompressedSize p.1 p.2 with
    | error e => rfl
    | ok m =>
      simp only
      cases uShape sa sb spin r.2.1 with
      | error e => rfl
      | ok sh =>
        simp only
        cases decompressAxes p.1 (vecSlice vec st.2 m) sh false none <;> rfl

/-- The blocks of one rank. -/
def rankBlocks (which : Which) (sa sb : Space) (r : Rank) : List (Nat × Nat) :=
  (eomSpins which r.2.2).map fun spin => (blockSize sa sb r.2.1 spin, sameSpin r.2.2 spin)

theorem change_spins (sa sb : Space) (sizes : Dict (List Char) Nat) (key : List Char) (n : Nat)
    (spins : List (List Char)) (v : List R) :
    changeItems (spins.map fun spin => dividedItem R sa sb sizes key spin (sameSpin n spin : R)) (spinChange n) v
      = divideParts (spins.map fun spin => (blockSize sa sb key spin, sameSpin n spin)) v := by
  induction spins generalizing v with
  | nil => rfl
  | cons s spins ih =>
    simp only [List.map_cons, changeItems, divideParts, ih]
    rfl

theorem eomItem_ok (h2 : ∀ x : R, x + x = 0 → x = 0) {which : Which} {sa sb : Space}
    {sizes : Dict (List Char) Nat} {r : Rank}
    (hr : ∀ spin ∈ eomSpins which r.2.2, KeySpin r.2.1 spin ∧ spin.take r.2.2 ≠ [])
    (hs : ∀ c s, (c = 'o' ∨ c = 'O' ∨ c = 'v' ∨ c = 'V') → (s = 'a' ∨ s = 'b') →
      sizes.get? [c, s] = some (sz2 sa sb (c, s))) :
    (eomItem R which sa sb sizes r).Scaled (divideParts (rankBlocks which sa sb r)) := by
  have hf : ∀ spin ∈ eomSpins which r.2.2, eomFactor r.2.2 spin = .ok (sameSpin r.2.2 spin) :=
    fun spin hsp => eomFactor_ok (hr spin hsp).2 (hr spin hsp).1.spin
  have hok : ∀ it ∈ eomSpinItems R which sa sb sizes r, it.Scaled (spinChange r.2.2 it) := by
    intro it hit
    obtain ⟨spin, hsp, rfl⟩ := List.mem_map.1 hit
    exact dividedItem_ok h2 _ (hr spin hsp).1 hs
  have hnd : ((eomSpinItems R which sa sb sizes r).map (·.name)).Nodup := by
    simp only [eomSpinItems, List.map_map, Function.comp_def, dividedItem, List.map_id']
    exact eomSpins_nodup which r.2.2
  refine ⟨?_, ?_, ?_⟩
  · rintro v ⟨d, rfl, hd⟩
    obtain ⟨vs, d', p1, p2, _, p3, p4⟩ := scaled_pack _ _ hok hnd d hd
    refine ⟨vs.flatten, .spins d', ?_, p2, ⟨d', d, rfl, rfl, p3⟩, fun pre post => ?_⟩
    · rw [eomItem_pack, p1]; rfl
    · simp only [eomItem]
      rw [eomCut_eq which sa sb sizes r _ _ hf, p4 pre post [] (by simp [Dict.keys])]
      rfl
  · intro v hv
    obtain ⟨vs, d, p1, p2, p3, p4, p5⟩ := scaled_un _ _ hok hnd v hv
    refine ⟨.spins d, ⟨d, rfl, p1⟩, ?_, fun pre post => ?_⟩
    · rw [eomItem_pack, p3]
      have e : changeItems (eomSpinItems R which sa sb sizes r) (spinChange r.2.2) v
          = divideParts (rankBlocks which sa sb r) v := change_spins _ _ _ _ _ _ _
      exact congrArg Except.ok (p4.trans e)
    · simp only [eomItem]
      rw [eomCut_eq which sa sb sizes r _ _ hf, p5 pre post [] (by simp [Dict.keys])]
      rfl
  · intro vec i x j h
    simp only [eomItem] at h ⊢
    rw [eomCut_eq which sa sb sizes r _ _ hf] at h
    cases hu : unItems (eomSpinItems R which sa sb sizes r) vec ([], i) with
    | error e => rw [hu] at h; cases h
    | ok st =>
      rw [hu] at h
      cases h
      exact scaled_pos _ _ hok _ _ _ hu

theorem uEomToVector_eq {a : Ansatz} {which : Which} {fs : List Rank} (h : HasRanks a .U which fs [] [])
    (hne : fs ≠ []) (h0 : ∀ r ∈ fs, eomSpins which r.2.2 ≠ []) (sa sb : Space) (sizes : Dict (List Char) Nat)
    (T : Dict (List Char) (UVal R)) :
    uEomToVector a which T = (packItems (fs.map (eomItem R which sa sb sizes)) T).map List.flatten := by
  let g : Rank → Except PyErr (List (List R)) := fun r => do
    let v ← T.getItem r.1
    (eomSpins which r.2.2).mapM fun spin => do
      let vn ← v.block spin
      let (subscript, _) ← combineSubscripts [r.2.1, spin] []
      let c ← compressAxes subscript vn false
      pure c.ravel
  have e : packItems (fs.map (eomItem R which sa sb sizes)) T = (fs.mapM g).map (List.map List.flatten) := by
    unfold packItems
    rw [mapM_map', ← mapM_map_result]
    apply mapM_congr_mem
    intro r _
    simp only [eomItem, g, bind, Except.bind]
    cases T.getItem r.1 <;> rfl
  have e1 : uEomToVector a which T = (fs.mapM g).bind fun v => concatenate v.flatten := by
    unfold uEomToVector
    simp only [h.f, bind, Except.bind, eomOnlyFermions_ok h, g, eomSpins]
  rw [e, e1]
  cases hg : fs.mapM g with
  | error er => rfl
  | ok vs =>
    simp only [Except.bind, Except.map, concatenate]
    rw [if_neg, flatten_map_flatten]
    intro hf
    rw [List.flatten_eq_nil_iff] at hf
    have m := mapM_length hg
    cases vs with
    | nil => exact hne (List.length_eq_zero_iff.1 m.symm)
    | cons y ys =>
      obtain ⟨r, hr, he⟩ := mapM_mem hg y List.mem_cons_self
      have hy := hf y List.mem_cons_self
      subst hy
      simp only [g, bind, Except.bind] at he
      cases hx : T.getItem r.1 with
      | error e => simp [hx] at he
      | ok v =>
        simp only [hx] at he
        have := mapM_length he
        exact h0 r hr (List.length_eq_zero_iff.1 this.symm)

theorem uEomOfVector_eq {a : Ansatz} {which : Which} {fs : List Rank} (h : HasRanks a .U which fs [] [])
    (sa sb : Space) (sizes : Dict (List Char) Nat) (hsz : uSizes sa sb = .ok sizes) (vector : List R) :
    uVectorToEom a which sa sb vector =
      (unItems (fs.map (eomItem R which sa sb sizes)) vector ([], 0)).bind fun st =>
        if st.2 = vector.length then .ok st.1 else .error .assertionError := by
  have e1 : ∀ st, fs.foldlM (fun (st : Dict (List Char) (UVal R) × Nat) r => do
      let (d, i0) ← uEomCut sa sb sizes which vector st.2 r.2.1 r.2.2
      pure (st.1.set r.1 (.spins d), i0)) st = unItems (fs.map (eomItem R which sa sb sizes)) vector st := by
    intro st
    unfold unItems
    rw [List.foldlM_map]
    apply foldlM_congr_mem
    intro r _ st
    simp only [eomItem, bind, Except.bind, pure, Except.pure]
    cases uEomCut sa sb sizes which vector st.2 r.2.1 r.2.2 <;> rfl
  unfold uVectorToEom
  rw [h.f, hsz]
  simp only [bind, Except.bind] at e1 ⊢
  rw [e1]
  cases unItems (fs.map (eomItem R which sa sb sizes)) vector ([], 0) with
  | error e => rfl
  | ok st => simp only [eomOnlyFermions_ok h]; rfl

theorem eomSpins_nonempty {which : Which} (hw : IsEom which) (n : Nat) : eomSpins which n ≠ [] := by
  intro he
  have hall := (C11_unique n (eomExcited which)).2.2
  have : ∃ s, s ∈ generateSpinCombinations n (eomExcited which) false := by
    unfold eomExcited
    rcases hw with rfl | rfl | rfl
    · exact ⟨_, (C11_all_excited n _).2 ⟨List.replicate n 'a', by simp, fun c hc => Or.inl (List.eq_of_mem_replicate hc), rfl⟩⟩
    · exact ⟨_, (C11_all_excited n _).2 ⟨List.replicate n 'a', by simp, fun c hc => Or.inl (List.eq_of_mem_replicate hc), rfl⟩⟩
    · exact ⟨_, (C11_all n _).2 ⟨List.replicate n 'a', by simp, fun c hc => Or.inl (List.eq_of_mem_replicate hc), rfl⟩⟩
  obtain ⟨s, hs⟩ := this
  obtain ⟨t, ht, _⟩ := hall s hs
  unfold eomSpins at he
  rw [he] at ht
  cases ht

/-- The change of one rank. -/
def rankChange (which : Which) (sa sb : Space) (fs : List Rank) (it : Item R (UVal R)) (v : List R) : List R :=
  match fs.find? fun r => r.1 == it.name with
  | some r => divideParts (rankBlocks which sa sb r) v
  | none => v

theorem find_rank {fs : List Rank} (hnd : (fs.map fun r => r.1).Nodup) (r : Rank) (hr : r ∈ fs) :
    fs.find? (fun q => q.1 == r.1) = some r := by
  induction fs with
  | nil => cases hr
  | cons q fs ih =>
    rw [List.map_cons, List.nodup_cons] at hnd
    rcases List.mem_cons.1 hr with rfl | hr
    · simp
    · rw [List.find?_cons_of_neg, ih hnd.2 hr]
      simp only [beq_iff_eq]
      intro he
      exact hnd.1 (he ▸ List.mem_map_of_mem hr)

theorem change_ranks (which : Which) (sa sb : Space) (sizes : Dict (List Char) Nat) (fs gs : List Rank)
    (hnd : (fs.map fun r => r.1).Nodup) (hg : ∀ r ∈ gs, r ∈ fs) (v : List R) :
    changeItems (gs.map (eomItem R which sa sb sizes)) (rankChange which sa sb fs) v
      = divideParts (eomBlocks which sa sb gs) v := by
  induction gs generalizing v with
  | nil => rfl
  | cons r gs ih =>
    have hsz : ((rankBlocks which sa sb r).map Prod.fst).sum = (eomItem R which sa sb sizes r).size := by
      simp [rankBlocks, eomItem, totalSize, eomSpinItems, dividedItem, Function.comp_def]
    have he : eomBlocks which sa sb (r :: gs) = rankBlocks which sa sb r ++ eomBlocks which sa sb gs := by
      simp [eomBlocks, rankBlocks]
    rw [he, divideParts_append, hsz, List.map_cons, changeItems, ih fun q hq => hg q (List.mem_cons_of_mem _ hq)]
    congr 1
    unfold rankChange
    have := find_rank hnd r (hg r List.mem_cons_self)
    simp only [show (eomItem R which sa sb sizes r).name = r.1 from rfl, this]

theorem eomItems_ok (h2 : ∀ x : R, x + x = 0 → x = 0) {a : Ansatz} {which : Which} {fs : List Rank}
    (hw : IsEom which) (h : HasRanks a .U which fs [] []) (hq : which = .ee ∨ ∀ r ∈ fs, r.2.2 ≤ 3)
    (hnd : (fs.map fun r => r.1).Nodup) {sa sb : Space} {sizes : Dict (List Char) Nat}
    (hs : ∀ c s, (c = 'o' ∨ c = 'O' ∨ c = 'v' ∨ c = 'V') → (s = 'a' ∨ s = 'b') →
      sizes.get? [c, s] = some (sz2 sa sb (c, s))) :
    ∀ it ∈ fs.map (eomItem R which sa sb sizes), it.Scaled (rankChange which sa sb fs it) := by
  intro it hit
  obtain ⟨r, hr, rfl⟩ := List.mem_map.1 hit
  have e : rankChange which sa sb fs (eomItem R which sa sb sizes r) = divideParts (rankBlocks which sa sb r) := by
    funext v
    unfold rankChange
    simp only [show (eomItem R which sa sb sizes r).name = r.1 from rfl, find_rank hnd r hr]
  rw [e]
  exact eomItem_ok h2 (fun s hsp => eom_keySpin hw h.f r hr (hq.imp id fun h3 => h3 r hr) s hsp) hs

theorem eomItems_size (which : Which) (sa sb : Space) (sizes : Dict (List Char) Nat) (fs : List Rank) :
    totalSize (fs.map (eomItem R which sa sb sizes)) = uEomLength which sa sb fs := by
  induction fs with
  | nil => rfl
  | cons r fs ih =>
    have : totalSize ((r :: fs).map (eomItem R which sa sb sizes)) = (eomItem R which sa sb sizes r).size
        + totalSize (fs.map (eomItem R which sa sb sizes)) := by simp [totalSize]
    rw [this, ih]
    simp [uEomLength, eomBlocks, eomItem, totalSize, eomSpinItems, dividedItem, Function.comp_def]

theorem eomItems_good (which : Which) (sa sb : Space) (sizes : Dict (List Char) Nat) (fs : List Rank)
    (T : Dict (List Char) (UVal R)) :
    GoodDict (fs.map (eomItem R which sa sb sizes)) T ↔ UEomBlocks which sa sb fs T := by
  constructor
  · intro h r hr
    obtain ⟨x, h1, d, rfl, h2⟩ := h (eomItem R which sa sb sizes r) (List.mem_map_of_mem hr)
    refine ⟨d, h1, fun spin hsp => ?_⟩
    exact h2 (dividedItem R sa sb sizes r.2.1 spin (sameSpin r.2.2 spin : R)) (by
      unfold eomSpinItems; exact List.mem_map.2 ⟨spin, hsp, rfl⟩)
  · intro h it hit
    obtain ⟨r, hr, rfl⟩ := List.mem_map.1 hit
    obtain ⟨d, h1, h2⟩ := h r hr
    refine ⟨.spins d, h1, d, rfl, ?_⟩
    intro it' hit'
    obtain ⟨spin, hsp, rfl⟩ := List.mem_map.1 hit'
    exact h2 spin hsp

/-- Unrestricted EOM amplitudes: unpacking the packed amplitudes gives back every block divided by the larger of
the numbers of alpha and beta indices.  The full property would have the block itself, which is false. -/
theorem C43_unrestricted_amplitudes_partial (h2 : ∀ x : R, x + x = 0 → x = 0) {a : Ansatz} {which : Which}
    {fs : List Rank} (hw : IsEom which) (h : HasRanks a .U which fs [] []) (hne : fs ≠ [])
    (hnd : (fs.map fun r => r.1).Nodup) (hq : which = .ee ∨ ∀ r ∈ fs, r.2.2 ≤ 3) (sa sb : Space)
    (T : Dict (List Char) (UVal R)) (hT : UEomBlocks which sa sb fs T) :
    ∃ x T', uEomToVector a which T = .ok x ∧ x.length = uEomLength which sa sb fs ∧
      uVectorToEom a which sa sb x = .ok T' ∧ T'.keys = fs.map (fun r => r.1) ∧
      ∀ r ∈ fs, ∃ d' d, T'.get? r.1 = some (.spins d') ∧ T.get? r.1 = some (.spins d) ∧
        d'.keys = eomSpins which r.2.2 ∧
        ∀ spin ∈ eomSpins which r.2.2, ∃ y, d.get? spin = some y ∧
          d'.get? spin = some (y.map fun z => z / (sameSpin r.2.2 spin : R)) := by
  obtain ⟨sizes, hsz, hs⟩ := uSizes_ok sa sb
  have hn : (fs.map (eomItem R which sa sb sizes)).map (·.name) = fs.map fun r => r.1 := by rw [List.map_map]; rfl
  obtain ⟨vs, T', p1, p2, _, ⟨p3, p4⟩, p5⟩ := scaled_pack _ _ (eomItems_ok h2 hw h hq hnd hs)
    (by rw [hn]; exact hnd) T ((eomItems_good which sa sb sizes fs T).2 hT)
  have hl : vs.flatten.length = uEomLength which sa sb fs := by rw [p2, eomItems_size]
  refine ⟨vs.flatten, T', ?_, hl, ?_, by rw [p3, hn], ?_⟩
  · rw [uEomToVector_eq h hne (fun r _ => eomSpins_nonempty hw r.2.2) sa sb sizes, p1]; rfl
  · rw [uEomOfVector_eq h sa sb sizes hsz]
    have := p5 [] [] [] (by simp [Dict.keys])
    rw [List.append_nil, List.nil_append, List.length_nil] at this
    rw [this]
    simp only [Except.bind]
    rw [if_pos (by rw [p2, Nat.zero_add])]
    rfl
  · intro r hr
    obtain ⟨x', x, e1, e2, d', d, rfl, rfl, k1, k2⟩ := p4 (eomItem R which sa sb sizes r) (List.mem_map_of_mem hr)
    refine ⟨d', d, e1, e2, ?_, fun spin hsp => ?_⟩
    · rw [k1]; simp [eomSpinItems, dividedItem, Function.comp_def]
    · obtain ⟨y', y, f1, f2, f3⟩ := k2 (dividedItem R sa sb sizes r.2.1 spin (sameSpin r.2.2 spin : R)) (by
        unfold eomSpinItems; exact List.mem_map.2 ⟨spin, hsp, rfl⟩)
      have f3 : y' = y.map fun z => z / (sameSpin r.2.2 spin : R) := f3
      subst f3
      exact ⟨y, f2, f1⟩

/-- Every vector of the right length unpacks to antisymmetric blocks; packing them gives the vector with the part
of every block divided by the larger of the numbers of alpha and beta indices. -/
theorem C43_unrestricted_vectors_partial (h2 : ∀ x : R, x + x = 0 → x = 0) {a : Ansatz} {which : Which}
    {fs : List Rank} (hw : IsEom which) (h : HasRanks a .U which fs [] []) (hne : fs ≠ [])
    (hnd : (fs.map fun r => r.1).Nodup) (hq : which = .ee ∨ ∀ r ∈ fs, r.2.2 ≤ 3) (sa sb : Space)
    (x : List R) (hx : x.length = uEomLength which sa sb fs) :
    ∃ T, uVectorToEom a which sa sb x = .ok T ∧ T.keys = fs.map (fun r => r.1) ∧ UEomBlocks which sa sb fs T ∧
      uEomToVector a which T = .ok (divideParts (eomBlocks which sa sb fs) x) := by
  obtain ⟨sizes, hsz, hs⟩ := uSizes_ok sa sb
  have hn : (fs.map (eomItem R which sa sb sizes)).map (·.name) = fs.map fun r => r.1 := by rw [List.map_map]; rfl
  obtain ⟨vs, T, p1, p2, p3, p4, p5⟩ := scaled_un _ _ (eomItems_ok h2 hw h hq hnd hs)
    (by rw [hn]; exact hnd) x (by rw [hx, eomItems_size])
  refine ⟨T, ?_, by rw [p2, hn], (eomItems_good which sa sb sizes fs T).1 p1, ?_⟩
  · rw [uEomOfVector_eq h sa sb sizes hsz]
    have := p5 [] [] [] (by simp [Dict.keys])
    rw [List.append_nil, List.nil_append, List.length_nil] at this
    rw [this]
    simp only [Except.bind]
    rw [if_pos (by rw [hx, eomItems_size, Nat.zero_add])]
    rfl
  · rw [uEomToVector_eq h hne (fun r _ => eomSpins_nonempty hw r.2.2) sa sb sizes, p3,
      ← change_ranks which sa sb sizes fs fs hnd (fun _ h => h), ← p4]
    rfl

theorem divideParts_one (l : List (Nat × Nat)) (hl : ∀ p ∈ l, p.2 = 1) (v : List R)
    (hv : v.length = (l.map Prod.fst).sum) : divideParts l v = v := by
  induction l generalizing v with
  | nil => simpa [divideParts, eq_comm] using hv
  | cons p l ih =>
    obtain ⟨m, f⟩ := p
    have hf : f = 1 := hl _ List.mem_cons_self
    subst hf
    simp only [List.map_cons, List.sum_cons] at hv
    rw [divideParts, ih (fun q hq => hl q (List.mem_cons_of_mem _ hq)) _ (by rw [List.length_drop]; omega)]
    simp

/-- Unrestricted EOM amplitudes with singles only: packing and unpacking are mutually inverse. -/
theorem C43_unrestricted_singles (h2 : ∀ x : R, x + x = 0 → x = 0) {a : Ansatz} {which : Which}
    {fs : List Rank} (hw : IsEom which) (h : HasRanks a .U which fs [] []) (hne : fs ≠ [])
    (hnd : (fs.map fun r => r.1).Nodup) (h1 : ∀ r ∈ fs, r.2.2 = 1) (sa sb : Space) :
    (∀ T : Dict (List Char) (UVal R), UEomBlocks which sa sb fs T → ∃ x T', uEomToVector a which T = .ok x ∧
      uVectorToEom a which sa sb x = .ok T' ∧
      ∀ r ∈ fs, ∃ d' d, T'.get? r.1 = some (.spins d') ∧ T.get? r.1 = some (.spins d) ∧
        ∀ spin ∈ eomSpins which r.2.2, d'.get? spin = d.get? spin) ∧
    ∀ x : List R, x.length = uEomLength which sa sb fs → ∃ T, uVectorToEom a which sa sb x = .ok T ∧
      uEomToVector a which T = .ok x := by
  have hq : which = .ee ∨ ∀ r ∈ fs, r.2.2 ≤ 3 := Or.inr fun r hr => by rw [h1 r hr]; decide
  have hone : ∀ spin ∈ eomSpins which 1, sameSpin 1 spin = 1 := by
    unfold eomSpins eomExcited
    rcases hw with rfl | rfl | rfl <;> decide
  refine ⟨fun T hT => ?_, fun x hx => ?_⟩
  · obtain ⟨x, T', e1, _, e3, _, e5⟩ := C43_unrestricted_amplitudes_partial h2 hw h hne hnd hq sa sb T hT
    refine ⟨x, T', e1, e3, fun r hr => ?_⟩
    obtain ⟨d', d, f1, f2, _, f4⟩ := e5 r hr
    refine ⟨d', d, f1, f2, fun spin hsp => ?_⟩
    obtain ⟨y, g1, g2⟩ := f4 spin hsp
    rw [g1, g2, h1 r hr, hone spin (by rw [← h1 r hr]; exact hsp)]
    simp [NDArray.map]
  · obtain ⟨T, e1, _, _, e4⟩ := C43_unrestricted_vectors_partial h2 hw h hne hnd hq sa sb x hx
    refine ⟨T, e1, ?_⟩
    rw [e4, divideParts_one _ _ _ hx]
    intro p hp
    unfold eomBlocks at hp
    rw [List.mem_flatMap] at hp
    obtain ⟨r, hr, hp⟩ := hp
    obtain ⟨spin, hsp, rfl⟩ := List.mem_map.1 hp
    rw [h1 r hr] at hsp ⊢
    exact hone spin hsp

end

/-- Unrestricted vectors of any other length are rejected. -/
theorem C43_unrestricted_wrong_length {R : Type} [Field R] (h2 : ∀ x : R, x + x = 0 → x = 0) {a : Ansatz}
    {which : Which} {fs : List Rank} (hw : IsEom which) (h : HasRanks a .U which fs [] [])
    (hnd : (fs.map fun r => r.1).Nodup) (hq : which = .ee ∨ ∀ r ∈ fs, r.2.2 ≤ 3) (sa sb : Space)
    (x : List R) (hx : x.length ≠ uEomLength which sa sb fs) : ∃ e, uVectorToEom a which sa sb x = .error e := by
  obtain ⟨sizes, hsz, hs⟩ := uSizes_ok sa sb
  rw [uEomOfVector_eq h sa sb sizes hsz]
  cases hu : unItems (fs.map (eomItem R which sa sb sizes)) x ([], 0) with
  | error e => exact ⟨e, rfl⟩
  | ok st =>
    have := scaled_pos _ _ (eomItems_ok h2 hw h hq hnd hs) _ _ _ hu
    rw [eomItems_size] at this
    simp only [Nat.zero_add] at this
    refine ⟨.assertionError, ?_⟩
    simp only [Except.bind]
    rw [if_neg (by rw [this]; exact fun he => hx he.symm)]

/-- Two occupied orbitals and one virtual orbital. -/
def space21 : Space := ⟨[true, true, false], [false, false, false], [false, false, false]⟩

/-- Same-spin doubles of an unrestricted ionisation are halved by the round trip: the property is false. -/
theorem C43_unrestricted_fails :
    ∃ (T : Dict (List Char) (UVal Rat)) (x x' : List Rat),
      uVectorToEom ⟨"CCSD".toList, [], 0, 0, false, none⟩ .ip space21 space21 x = .ok T ∧
      uEomToVector ⟨"CCSD".toList, [], 0, 0, false, none⟩ .ip T = .ok x' ∧ x' ≠ x := by
  refine ⟨((uVectorToEom ⟨"CCSD".toList, [], 0, 0, false, none⟩ .ip space21 space21
    [1, 2, 3, 4, 10, 20, 21, 22, 23, 30, 31, 32, 33, 11]).toOption).getD [],
    [1, 2, 3, 4, 10, 20, 21, 22, 23, 30, 31, 32, 33, 11], [1, 2, 3, 4, 5, 20, 21, 22, 23, 30, 31, 32, 33, 11/2],
    ?_, ?_, ?_⟩ <;> decide +kernel

/-- An ansatz with bosons has no EOM vectors. -/
theorem C43_bosons {R : Type} [Field R] {a : Ansatz} {which : Which} {bs : List Rank}
    (hb : bosonicClusterRanks a.bosonAnsatz which = .ok bs) (hne : bs ≠ []) :
    (∀ T x, rEomToVector (R := R) a which T ≠ .ok x) ∧ (∀ s v T, rVectorToEom (R := R) a which s v ≠ .ok T) ∧
    (∀ T x, gEomToVector (R := R) a which T ≠ .ok x) ∧ (∀ s v T, gVectorToEom (R := R) a which s v ≠ .ok T) ∧
    (∀ T x, uEomToVector (R := R) a which T ≠ .ok x) ∧
    ∀ sa sb v T, uVectorToEom (R := R) a which sa sb v ≠ .ok T := by
  have he : eomOnlyFermions a which = .error .modelNotImplemented := by
    simp only [eomOnlyFermions, hb, bind, Except.bind, ne_eq, hne, not_false_eq_true, if_true]
    rfl
  refine ⟨fun T x h => ?_, fun s v T h => ?_, fun T x h => ?_, fun s v T h => ?_, fun T x h => ?_,
    fun sa sb v T h => ?_⟩
  · unfold rEomToVector at h
    simp only [bind, Except.bind, he] at h
    repeat' split at h
    all_goals cases h
  · unfold rVectorToEom at h
    simp only [bind, Except.bind, he] at h
    repeat' split at h
    all_goals cases h
  · unfold gEomToVector at h
    simp only [bind, Except.bind, he] at h
    repeat' split at h
    all_goals cases h
  · unfold gVectorToEom at h
    simp only [bind, Except.bind, he] at h
    repeat' split at h
    all_goals cases h
  · unfold uEomToVector at h
    simp only [bind, Except.bind, he] at h
    repeat' split at h
    all_goals cases h
  · unfold uVectorToEom at h
    simp only [bind, Except.bind, he] at h
    repeat' split at h
    all_goals cases h

/-! ### Named ansatzes -/

/-- The hypotheses for one ansatz. -/
def eomGood (a : Ansatz) (spin : SpinType) (which : Which) : Bool :=
  match fermionicClusterRanks a.fermionAnsatz spin which, bosonicClusterRanks a.bosonAnsatz which,
      couplingClusterRanks a.fermionCouplingRank a.bosonCouplingRank which with
  | .ok fs, .ok bs, .ok cs => decide (bs = []) && decide (cs = []) && decide (fs ≠ []) &&
      decide ((fs.map fun r => r.1).Nodup)
  | _, _, _ => false

/-- The hypotheses hold for every named ansatz without bosons. -/
theorem C43_named (s : List Char) (df : Bool) (a : Ansatz) (ha : Ansatz.fromString s df = .ok a)
    (hb : a.bosonAnsatz = []) (hc : a.fermionCouplingRank = 0) (spin : SpinType) (which : Which) (hw : IsEom which) :
    ∃ fs, HasRanks a spin which fs [] [] ∧ fs ≠ [] ∧ (fs.map fun r => r.1).Nodup := by
  have hfin : ∀ x ∈ namedAnsatzes, x.2.2.1 = [] → x.2.2.2.1 = 0 → ∀ sp ∈ [SpinType.R, .U, .G],
      ∀ w ∈ [Which.ip, .ea, .ee], eomGood ⟨x.2.1, x.2.2.1, x.2.2.2.1, x.2.2.2.2, false, none⟩ sp w = true := by
    decide +kernel
  have hg : eomGood a spin which = true := by
    unfold Ansatz.fromString at ha
    cases hl : namedAnsatzes.lookup s with
    | none => rw [hl] at ha; cases ha
    | some v =>
      rw [hl] at ha
      cases ha
      refine hfin _ (mem_of_lookup hl) hb hc spin ?_ which ?_
      · cases spin <;> decide
      · rcases hw with rfl | rfl | rfl <;> decide
  unfold eomGood at hg
  split at hg
  · rename_i fs bs cs e1 e2 e3
    simp only [Bool.and_eq_true, decide_eq_true_eq] at hg
    obtain ⟨⟨⟨rfl, rfl⟩, h3⟩, h4⟩ := hg
    exact ⟨fs, ⟨e1, e2, e3⟩, h3, h4⟩
  · cases hg

/-! ### Examples -/

/-- Generalised ionisation with two occupied orbitals and one virtual orbital: 2 singles and 1 packed double. -/
example : gEomLength space21 [("r1".toList, "o".toList, 1), ("r2".toList, "oov".toList, 2)] = 3 := by decide +kernel

example : ((gVectorToEom ⟨"CCSD".toList, [], 0, 0, false, none⟩ .ip space21 [(1 : Int), 2, 7]).toOption.bind
    fun T => T.get? "r2".toList).map (fun x => x.data) = some [0, -7, 7, 0] := by decide +kernel

/-- Quadruples of an unrestricted ionisation: the key has eight indices and the spin seven. -/
example : uVectorToEom (R := Rat) ⟨"CCSDTQ".toList, [], 0, 0, false, none⟩ .ip space21 space21
    (List.replicate 14 0) = .error .valueError := by decide +kernel

end Ebcc
