import Verif.Lemmas.Vectors
import Verif.Thms.C23

/-!
C32: the vector of restricted amplitudes.
-/

namespace Ebcc

open Dict

/-- The amplitudes have an array of the right shape for every block. -/
def HasBlocks {R : Type} (l : List (List Char × List Nat)) (T : Dict (List Char) (NDArray R)) : Prop :=
  ∀ p ∈ l, ∃ a, T.get? p.1 = some a ∧ a.WF ∧ a.shape = p.2

/-- The number of elements of all blocks. -/
def layoutSize (l : List (List Char × List Nat)) : Nat := (l.map fun p => p.2.prod).sum

theorem totalSize_itemsOf (R : Type) (l : List (List Char × List Nat)) :
    totalSize (itemsOf R l) = layoutSize l := by
  simp [totalSize, itemsOf, layoutSize, Function.comp_def, reshapeItem, prodN_eq_prod]

theorem itemsOf_ok (R : Type) (l : List (List Char × List Nat)) : ∀ it ∈ itemsOf R l, it.OK := by
  intro it hit
  obtain ⟨p, _, rfl⟩ := List.mem_map.1 hit
  exact reshapeItem_ok R p.1 p.2

theorem itemsOf_names (R : Type) (l : List (List Char × List Nat)) :
    (itemsOf R l).map (·.name) = l.map fun p => p.1 := by
  simp [itemsOf, Function.comp_def, reshapeItem]

theorem mapM_length {α β : Type} {f : α → Except PyErr β} {l : List α} {r : List β} (h : l.mapM f = .ok r) :
    r.length = l.length := by
  induction l generalizing r with
  | nil => cases h; rfl
  | cons x l ih =>
    rw [List.mapM_cons] at h
    simp only [bind, Except.bind, pure, Except.pure] at h
    cases hx : f x with
    | error e => simp [hx] at h
    | ok y =>
      simp only [hx] at h
      cases hl : l.mapM f with
      | error e => simp [hl] at h
      | ok ys =>
        simp only [hl, Except.ok.injEq] at h
        subst h
        simp [ih hl]

theorem concatenate_of_length {R : Type} (vs : List (List R)) (n : Nat) (h : vs.length = n) (hn : n ≠ 0) :
    concatenate vs = .ok vs.flatten := by
  rw [concatenate, if_neg]
  rintro rfl
  exact hn h.symm

/-- Amplitudes to vector and back, for the restricted and the general case. -/
theorem vector_amplitudes {R : Type} {a : Ansatz} {spin : SpinType} {which : Which} {fs bs : List Rank}
    {cs : List CRank} (h : HasRanks a spin which fs bs cs) (space : Space) (nbos : Nat)
    (hne : layout space nbos fs bs cs ≠ []) (hnd : ((layout space nbos fs bs cs).map fun p => p.1).Nodup)
    (T : Dict (List Char) (NDArray R)) (hT : HasBlocks (layout space nbos fs bs cs) T) :
    ∃ x T', amplitudesToVector a spin which T = .ok x ∧ x.length = layoutSize (layout space nbos fs bs cs) ∧
      (vectorToAmplitudes a spin which space nbos x : Except PyErr _) = .ok T' ∧
      T'.keys = (layout space nbos fs bs cs).map (fun p => p.1) ∧
      ∀ p ∈ layout space nbos fs bs cs, T'.get? p.1 = T.get? p.1 := by
  obtain ⟨vs, d', h1, h2, h2', ⟨h3, h4⟩, h5⟩ := items_pack (itemsOf R (layout space nbos fs bs cs)) (itemsOf_ok R _)
    (by rw [itemsOf_names]; exact hnd) T (by
      intro it hit
      obtain ⟨p, hp, rfl⟩ := List.mem_map.1 hit
      exact hT p hp)
  refine ⟨vs.flatten, d', ?_, by rw [h2, totalSize_itemsOf], ?_, by rw [h3, itemsOf_names], ?_⟩
  · rw [amplitudesToVector_eq h space nbos, h1]
    refine concatenate_of_length vs _ h2' ?_
    rw [itemsOf, List.length_map]
    exact fun h0 => hne (List.length_eq_zero_iff.1 h0)
  · rw [vectorToAmplitudes_eq h]
    have := h5 [] [] [] (by simp [Dict.keys])
    rw [List.append_nil, List.nil_append, List.length_nil] at this
    rw [this]
    rfl
  · intro p hp
    obtain ⟨x', x, e1, e2, e3⟩ := h4 (reshapeItem R p.1 p.2) (List.mem_map_of_mem hp)
    have e3 : x' = x := e3
    subst e3
    exact e1.trans e2.symm

/-- Vector to amplitudes and back; what follows the blocks is not looked at. -/
theorem vector_vector {R : Type} {a : Ansatz} {spin : SpinType} {which : Which} {fs bs : List Rank}
    {cs : List CRank} (h : HasRanks a spin which fs bs cs) (space : Space) (nbos : Nat)
    (hne : layout space nbos fs bs cs ≠ []) (hnd : ((layout space nbos fs bs cs).map fun p => p.1).Nodup)
    (x : List R) (hx : x.length = layoutSize (layout space nbos fs bs cs)) (post : List R) :
    ∃ T, vectorToAmplitudes a spin which space nbos (x ++ post) = .ok T ∧
      T.keys = (layout space nbos fs bs cs).map (fun p => p.1) ∧
      HasBlocks (layout space nbos fs bs cs) T ∧ amplitudesToVector a spin which T = .ok x := by
  obtain ⟨vs, d, h0, h1, h2, h3, h5⟩ := items_un (itemsOf R (layout space nbos fs bs cs)) (itemsOf_ok R _)
    (by rw [itemsOf_names]; exact hnd) x (by rw [hx, totalSize_itemsOf])
  refine ⟨d, ?_, by rw [h1, itemsOf_names], ?_, ?_⟩
  · rw [vectorToAmplitudes_eq h]
    have := h5 [] post [] (by simp [Dict.keys])
    rw [List.nil_append, List.length_nil] at this
    rw [this]
    rfl
  · intro p hp
    exact h0 (reshapeItem R p.1 p.2) (List.mem_map_of_mem hp)
  · rw [amplitudesToVector_eq h space nbos, h2]
    have hl : vs.length = (itemsOf R (layout space nbos fs bs cs)).length := by
      have := mapM_length h2
      exact this
    rw [← h3]
    refine concatenate_of_length vs _ hl ?_
    rw [itemsOf, List.length_map]
    exact fun h0 => hne (List.length_eq_zero_iff.1 h0)

/-- Restricted amplitudes (and lambda amplitudes): unpacking the packed amplitudes gives back every block, under
the names of the ansatz and nothing else; the length of the vector is the sum of the sizes of the blocks.
Missing: an ansatz with two blocks of one name (two kinds of triples), for which it is false (`C32_two_triples`). -/
theorem C32_amplitudes_partial {R : Type} {a : Ansatz} {which : Which} {fs bs : List Rank}
    {cs : List CRank} (h : HasRanks a .R which fs bs cs) (space : Space) (nbos : Nat)
    (hne : layout space nbos fs bs cs ≠ []) (hnd : ((layout space nbos fs bs cs).map fun p => p.1).Nodup)
    (T : Dict (List Char) (NDArray R)) (hT : HasBlocks (layout space nbos fs bs cs) T) :
    ∃ x T', amplitudesToVector a .R which T = .ok x ∧ x.length = layoutSize (layout space nbos fs bs cs) ∧
      (vectorToAmplitudes a .R which space nbos x : Except PyErr _) = .ok T' ∧
      T'.keys = (layout space nbos fs bs cs).map (fun p => p.1) ∧
      ∀ p ∈ layout space nbos fs bs cs, T'.get? p.1 = T.get? p.1 :=
  vector_amplitudes h space nbos hne hnd T hT

/-- Every vector of the right length unpacks to blocks of the right shapes, which pack to the same vector.
Missing: an ansatz with two blocks of one name (two kinds of triples), for which it is false (`C32_two_triples`). -/
theorem C32_vectors_partial {R : Type} {a : Ansatz} {which : Which} {fs bs : List Rank}
    {cs : List CRank} (h : HasRanks a .R which fs bs cs) (space : Space) (nbos : Nat)
    (hne : layout space nbos fs bs cs ≠ []) (hnd : ((layout space nbos fs bs cs).map fun p => p.1).Nodup)
    (x : List R) (hx : x.length = layoutSize (layout space nbos fs bs cs)) :
    ∃ T, vectorToAmplitudes a .R which space nbos x = .ok T ∧
      T.keys = (layout space nbos fs bs cs).map (fun p => p.1) ∧
      HasBlocks (layout space nbos fs bs cs) T ∧ amplitudesToVector a .R which T = .ok x := by
  have := vector_vector h space nbos hne hnd x hx []
  rwa [List.append_nil] at this

/-- The names are distinct when the ansatz has at most one kind of triples and coupling ranks of one digit. -/
theorem C32_names {a : Ansatz} {which : Which} {fs bs : List Rank} {cs : List CRank}
    (h : HasRanks a .R which fs bs cs) (hw : which = .t ∨ which = .l)
    (h3 : ∀ r ∈ fs, ∀ r' ∈ fs, r.2.2 = 3 → r'.2.2 = 3 → r = r')
    (h9 : a.fermionCouplingRank ≤ 9 ∧ a.bosonCouplingRank ≤ 9) (space : Space) (nbos : Nat) :
    ((layout space nbos fs bs cs).map fun p => p.1).Nodup :=
  names_nodup h hw h3 h9 space nbos

/-- A check of the ranks of an ansatz that implies the hypotheses of the round trip. -/
def ranksGood (a : Ansatz) (spin : SpinType) (which : Which) : Bool :=
  match fermionicClusterRanks a.fermionAnsatz spin which, bosonicClusterRanks a.bosonAnsatz which,
      couplingClusterRanks a.fermionCouplingRank a.bosonCouplingRank which with
  | .ok fs, .ok _, .ok _ => decide (fs ≠ []) && decide (∀ r ∈ fs, ∀ r' ∈ fs, r.2.2 = 3 → r'.2.2 = 3 → r = r') &&
      decide (a.fermionCouplingRank ≤ 9) && decide (a.bosonCouplingRank ≤ 9)
  | _, _, _ => false

theorem ranksGood_spec {a : Ansatz} {spin : SpinType} {which : Which} (hw : which = .t ∨ which = .l)
    (h : ranksGood a spin which = true) :
    ∃ fs bs cs, HasRanks a spin which fs bs cs ∧ ∀ space nbos, layout space nbos fs bs cs ≠ [] ∧
      ((layout space nbos fs bs cs).map fun p => p.1).Nodup := by
  unfold ranksGood at h
  split at h
  · rename_i fs bs cs e1 e2 e3
    simp only [Bool.and_eq_true, decide_eq_true_eq] at h
    refine ⟨fs, bs, cs, ⟨e1, e2, e3⟩, fun space nbos => ⟨?_, ?_⟩⟩
    · have h1 := h.1.1.1
      cases fs with
      | nil => exact absurd rfl h1
      | cons r fs => simp [layout]
    · exact names_nodup ⟨e1, e2, e3⟩ hw h.1.1.2 ⟨h.1.2, h.2⟩ space nbos
  · cases h

/-- Every named ansatz satisfies the hypotheses, for every spin type. -/
theorem named_ranks (s : List Char) (df : Bool) (a : Ansatz) (ha : Ansatz.fromString s df = .ok a)
    (spin : SpinType) (which : Which) (hw : which = .t ∨ which = .l) :
    ∃ fs bs cs, HasRanks a spin which fs bs cs ∧ ∀ space nbos, layout space nbos fs bs cs ≠ [] ∧
      ((layout space nbos fs bs cs).map fun p => p.1).Nodup := by
  refine ranksGood_spec hw ?_
  unfold Ansatz.fromString at ha
  have hfin : ∀ x ∈ namedAnsatzes,
      ranksGood ⟨x.2.1, x.2.2.1, x.2.2.2.1, x.2.2.2.2, df, none⟩ spin .t = true ∧
      ranksGood ⟨x.2.1, x.2.2.1, x.2.2.2.1, x.2.2.2.2, df, none⟩ spin .l = true := by
    cases spin <;> cases df <;> decide +kernel
  cases hr : namedAnsatzes.lookup s with
  | none => rw [hr] at ha; cases ha
  | some v =>
    rw [hr] at ha
    cases ha
    obtain ⟨h1, h2⟩ := hfin _ (mem_of_lookup hr)
    rcases hw with rfl | rfl
    · exact h1
    · exact h2

/-- Restricted calculations with a named ansatz: the round trips hold for every space and number of bosons. -/
theorem C32_named {R : Type} (s : List Char) (df : Bool) (a : Ansatz) (ha : Ansatz.fromString s df = .ok a)
    (which : Which) (hw : which = .t ∨ which = .l) :
    ∃ fs bs cs, HasRanks a .R which fs bs cs ∧ ∀ space nbos,
      (∀ T : Dict (List Char) (NDArray R), HasBlocks (layout space nbos fs bs cs) T →
        ∃ x T', amplitudesToVector a .R which T = .ok x ∧
          vectorToAmplitudes a .R which space nbos x = .ok T' ∧
          T'.keys = (layout space nbos fs bs cs).map (fun p => p.1) ∧
          ∀ p ∈ layout space nbos fs bs cs, T'.get? p.1 = T.get? p.1) ∧
      (∀ x : List R, x.length = layoutSize (layout space nbos fs bs cs) →
        ∃ T, vectorToAmplitudes a .R which space nbos x = .ok T ∧ amplitudesToVector a .R which T = .ok x) := by
  obtain ⟨fs, bs, cs, h, hs⟩ := named_ranks s df a ha .R which hw
  refine ⟨fs, bs, cs, h, fun space nbos => ⟨fun T hT => ?_, fun x hx => ?_⟩⟩
  · obtain ⟨x, T', h1, _, h2⟩ := C32_amplitudes_partial h space nbos (hs space nbos).1 (hs space nbos).2 T hT
    exact ⟨x, T', h1, h2⟩
  · obtain ⟨T, h1, _, _, h2⟩ := C32_vectors_partial h space nbos (hs space nbos).1 (hs space nbos).2 x hx
    exact ⟨T, h1, h2⟩

/-- One occupied and two virtual orbitals. -/
def space12 : Space := ⟨[true, false, false], [false, false, false], [false, false, false]⟩

/-- An array of zeros of some shape. -/
def zerosInt (shape : List Nat) : NDArray Int := ⟨shape, List.replicate (prodN shape) 0⟩

/-- Quadruple lambda amplitudes, whose proper shape is virtual first, come back with the wrong shape. -/
theorem C32_quadruples_reshaped :
    ∃ (T T' : Dict (List Char) (NDArray Int)) (x : List Int),
      T.get? "l4a".toList = some (zerosInt [2, 2, 2, 2, 1, 1, 1, 1]) ∧
      amplitudesToVector ⟨"CCSDTQ".toList, [], 0, 0, false, none⟩ .R .l T = .ok x ∧
      vectorToAmplitudes ⟨"CCSDTQ".toList, [], 0, 0, false, none⟩ .R .l space12 0 x = .ok T' ∧
      T'.get? "l4a".toList = some (zerosInt [1, 1, 1, 1, 2, 2, 2, 2]) := by
  refine ⟨[("l1".toList, zerosInt [2, 1]), ("l2".toList, zerosInt [2, 2, 1, 1]),
    ("l3".toList, zerosInt [2, 2, 2, 1, 1, 1]), ("l4a".toList, zerosInt [2, 2, 2, 2, 1, 1, 1, 1]),
    ("l4b".toList, zerosInt [2, 2, 2, 2, 1, 1, 1, 1])], _, _, by decide +kernel, rfl, rfl, by decide +kernel⟩

/-- With two kinds of triples the vector has a length that packing never gives back. -/
theorem C32_two_triples :
    ∃ (T : Dict (List Char) (NDArray Int)) (y : List Int),
      vectorToAmplitudes ⟨"CCSDTt'".toList, [], 0, 0, false, none⟩ .R .t space12 0 (List.replicate 14 0) = .ok T ∧
      amplitudesToVector ⟨"CCSDTt'".toList, [], 0, 0, false, none⟩ .R .t T = .ok y ∧ y.length = 22 :=
  ⟨_, _, rfl, rfl, by decide +kernel⟩

/-- A case with bosons and coupling. -/
example : layout space12 2 [("t1".toList, "ov".toList, 1), ("t2".toList, "oovv".toList, 2)]
    [("s1".toList, "b".toList, 1)] [("u11".toList, "bov".toList, 1, 1)]
    = [("t1".toList, [1, 2]), ("t2".toList, [1, 1, 2, 2]), ("s1".toList, [2]), ("u11".toList, [2, 1, 2])] := by
  decide +kernel

example : (amplitudesToVector ⟨"CCSD".toList, "S".toList, 1, 1, false, none⟩ .R .t
    [("u11".toList, ⟨[2, 1, 2], [9, 10, 11, 12]⟩), ("t1".toList, ⟨[1, 2], [1, 2]⟩), ("s1".toList, ⟨[2], [7, 8]⟩),
     ("t2".toList, ⟨[1, 1, 2, 2], [3, 4, 5, 6]⟩)] : Except PyErr (List Int))
    = .ok [1, 2, 3, 4, 5, 6, 7, 8, 9, 10, 11, 12] := by decide +kernel

end Ebcc
