import Verif.Lemmas.Perms

/-!
C01: `permutations_with_signs` enumerates every arrangement exactly once with its parity.
-/

namespace Ebcc

private theorem map_fst_pws {α : Type} (seq : List α) :
    (permutationsWithSigns seq).map Prod.fst = permsRev seq.reverse := by
  simp only [permutationsWithSigns, List.map_map]
  have : (Prod.fst ∘ fun (x : List α × Nat) =>
      match x with | (item, i) => (item, if (i % 2 == 1) = true then (-1 : Int) else 1))
      = Prod.fst := by funext ⟨a, i⟩; rfl
  rw [this]; simp

/-- C01: there are exactly `n!` entries. -/
theorem C01_count {α : Type} (seq : List α) :
    (permutationsWithSigns seq).length = Nat.factorial seq.length := by
  simp [permutationsWithSigns, length_permsRev]

/-- C01: the arrangements listed are exactly the rearrangements of the sequence. -/
theorem C01_complete {α : Type} (seq l : List α) :
    l ∈ (permutationsWithSigns seq).map Prod.fst ↔ l.Perm seq := by
  rw [map_fst_pws]
  constructor
  · intro h; exact (perm_of_mem_permsRev _ _ h).trans (List.reverse_perm seq)
  · intro h; exact mem_permsRev_of_perm _ _ (h.trans (List.reverse_perm seq).symm)

/-- C01: for distinct items no arrangement is listed twice. -/
theorem C01_nodup {α : Type} [DecidableEq α] (seq : List α) (h : seq.Nodup) :
    ((permutationsWithSigns seq).map Prod.fst).Nodup := by
  rw [map_fst_pws]; exact nodup_permsRev _ (List.nodup_reverse.2 h)

/-- C01: the first entry is the sequence itself with sign `+1`. -/
theorem C01_head {α : Type} (seq : List α) :
    (permutationsWithSigns seq)[0]? = some (seq, 1) := by
  simp only [permutationsWithSigns, List.getElem?_map, List.getElem?_zipIdx, permsRev_head]
  simp

/-- C01: for distinct items, the sign is the parity of the arrangement. -/
theorem C01_sign {α : Type} [DecidableEq α] (seq : List α) (h : seq.Nodup) :
    ∀ l s, (l, s) ∈ permutationsWithSigns seq → s = arrangementSign seq l := by
  intro l s hmem
  simp only [permutationsWithSigns, List.mem_map] at hmem
  obtain ⟨⟨item, i⟩, hz, heq⟩ := hmem
  rw [List.mem_zipIdx_iff_getElem?] at hz
  simp only [Prod.mk.injEq] at heq
  obtain ⟨rfl, rfl⟩ := heq
  have hp : seq.reverse.Pairwise fun a b => seq.idxOf b < seq.idxOf a := by
    rw [List.pairwise_reverse, List.pairwise_iff_getElem]
    intro i j hi hj hij
    rw [h.idxOf_getElem, h.idxOf_getElem]; exact hij
  have e := inversions_permsRev (fun a => seq.idxOf a) _ hp i item hz
  unfold arrangementSign signOfParity
  by_cases hi : i % 2 = 1
  · simp [hi, show inversions (item.map fun a => seq.idxOf a) % 2 = 1 by omega]
  · simp [hi, show inversions (item.map fun a => seq.idxOf a) % 2 = 0 by omega]

/-- C01: the enumeration does not depend on what the items are, so the arrangements and signs for a
sequence with repeated items are the images of those for distinct items (e.g. its positions). -/
theorem C01_natural {α β : Type} (f : α → β) (seq : List α) :
    permutationsWithSigns (seq.map f)
      = (permutationsWithSigns seq).map fun (l, s) => (l.map f, s) := by
  simp only [permutationsWithSigns, ← List.map_reverse, permsRev_map, List.zipIdx_map,
    List.map_map]
  congr 1

/-- Non-vacuity: three distinct items, and an odd arrangement with its sign. -/
example : ([3, 1, 2] : List Nat).Nodup ∧ ([1, 3, 2], -1) ∈ permutationsWithSigns [3, 1, 2]
    ∧ arrangementSign [3, 1, 2] [1, 3, 2] = -1 := by decide

end Ebcc
