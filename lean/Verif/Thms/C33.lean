import Verif.Thms.C32

/-!
C33: the vector of general amplitudes.  `GEBCC.amplitudes_to_vector` has the same text as the restricted method:
nothing is packed, so the round trip holds for all amplitudes, antisymmetric or not.
-/

namespace Ebcc

/-- General amplitudes (and lambda amplitudes): unpacking the packed amplitudes gives back every block.
Missing: an ansatz with two blocks of one name (two kinds of triples), for which it is false (`C32_two_triples`). -/
theorem C33_amplitudes_partial {R : Type} {a : Ansatz} {which : Which} {fs bs : List Rank}
    {cs : List CRank} (h : HasRanks a .G which fs bs cs) (space : Space) (nbos : Nat)
    (hne : layout space nbos fs bs cs ≠ []) (hnd : ((layout space nbos fs bs cs).map fun p => p.1).Nodup)
    (T : Dict (List Char) (NDArray R)) (hT : HasBlocks (layout space nbos fs bs cs) T) :
    ∃ x T', amplitudesToVector a .G which T = .ok x ∧ x.length = layoutSize (layout space nbos fs bs cs) ∧
      (vectorToAmplitudes a .G which space nbos x : Except PyErr _) = .ok T' ∧
      T'.keys = (layout space nbos fs bs cs).map (fun p => p.1) ∧
      ∀ p ∈ layout space nbos fs bs cs, T'.get? p.1 = T.get? p.1 :=
  vector_amplitudes h space nbos hne hnd T hT

/-- Every vector of the right length unpacks to blocks of the right shapes, which pack to the same vector.
Missing: an ansatz with two blocks of one name (two kinds of triples), for which it is false (`C32_two_triples`). -/
theorem C33_vectors_partial {R : Type} {a : Ansatz} {which : Which} {fs bs : List Rank}
    {cs : List CRank} (h : HasRanks a .G which fs bs cs) (space : Space) (nbos : Nat)
    (hne : layout space nbos fs bs cs ≠ []) (hnd : ((layout space nbos fs bs cs).map fun p => p.1).Nodup)
    (x : List R) (hx : x.length = layoutSize (layout space nbos fs bs cs)) :
    ∃ T, vectorToAmplitudes a .G which space nbos x = .ok T ∧
      T.keys = (layout space nbos fs bs cs).map (fun p => p.1) ∧
      HasBlocks (layout space nbos fs bs cs) T ∧ amplitudesToVector a .G which T = .ok x := by
  have := vector_vector h space nbos hne hnd x hx []
  rwa [List.append_nil] at this

/-- General calculations with a named ansatz: the round trips hold for every space and number of bosons. -/
theorem C33_named {R : Type} (s : List Char) (df : Bool) (a : Ansatz) (ha : Ansatz.fromString s df = .ok a)
    (which : Which) (hw : which = .t ∨ which = .l) :
    ∃ fs bs cs, HasRanks a .G which fs bs cs ∧ ∀ space nbos,
      (∀ T : Dict (List Char) (NDArray R), HasBlocks (layout space nbos fs bs cs) T →
        ∃ x T', amplitudesToVector a .G which T = .ok x ∧
          vectorToAmplitudes a .G which space nbos x = .ok T' ∧
          T'.keys = (layout space nbos fs bs cs).map (fun p => p.1) ∧
          ∀ p ∈ layout space nbos fs bs cs, T'.get? p.1 = T.get? p.1) ∧
      (∀ x : List R, x.length = layoutSize (layout space nbos fs bs cs) →
        ∃ T, vectorToAmplitudes a .G which space nbos x = .ok T ∧ amplitudesToVector a .G which T = .ok x) := by
  obtain ⟨fs, bs, cs, h, hs⟩ := named_ranks s df a ha .G which hw
  refine ⟨fs, bs, cs, h, fun space nbos => ⟨fun T hT => ?_, fun x hx => ?_⟩⟩
  · obtain ⟨x, T', h1, _, h2⟩ := C33_amplitudes_partial h space nbos (hs space nbos).1 (hs space nbos).2 T hT
    exact ⟨x, T', h1, h2⟩
  · obtain ⟨T, h1, _, _, h2⟩ := C33_vectors_partial h space nbos (hs space nbos).1 (hs space nbos).2 x hx
    exact ⟨T, h1, h2⟩

/-- The vector is not packed: its length for doubles of two occupied and two virtual spin orbitals is 4 + 16. -/
example : layoutSize (layout ⟨[true, true, false, false], [false, false, false, false],
    [false, false, false, false]⟩ 0 [("t1".toList, "ov".toList, 1), ("t2".toList, "oovv".toList, 2)] [] []) = 20 := by
  decide +kernel

end Ebcc
