import Verif.Lemmas.Packed

/-!
C05: `compress_axes` after `decompress_axes` is the identity.
-/

namespace Ebcc

section
variable {κ : Type} [DecidableEq κ]

/-- C05: unpacking and packing again returns the packed elements: for every symmetry string in block
form (and the default), diagonal excluded, or included when no `'-'` block is declared. -/
theorem C05_roundtrip {R : Type} [Ring R] (sub : List κ) (hsub : sub ≠ []) (sz : κ → Nat)
    (diag : Bool) (symm : Option (List Char)) (s : κ → Char)
    (hsymm : symm.getD (List.replicate sub.length '-') = blockString sub s)
    (hcond : diag = false ∨ ∀ c ∈ sub, s c ≠ '-')
    (flat : List R)
    (hflat : flat.length = ((firstOccurrences sub).map
      fun c => ntrilNdim (sz c) (sub.count c) diag).prod) :
    ∃ out packed, decompressAxes sub flat (sub.map sz) diag symm = .ok out ∧
      compressAxes sub out diag = .ok packed ∧ packed.data = flat := by
  obtain ⟨out, h1, h2, h3, _, _, h6⟩ := decompress_main sub hsub sz diag symm s hsymm hcond flat
    (by rw [hflat, packedLength, prodN_eq_prod])
  have hc : Consistent sub out.shape := ⟨sz, h2⟩
  refine ⟨out, _, h1, compressAxes_ok sub out diag hc, ?_⟩
  simp only
  rw [h2]
  have hlen : (prodL (gtrils sub (sub.map sz) diag)).length = flat.length := by
    rw [length_gtrils, hflat, packedLength, prodN_eq_prod]
  apply List.ext_getElem
  · simp [hlen]
  · intro K hK1 hK2
    have hK : K < (prodL (gtrils sub (sub.map sz) diag)).length := by omega
    obtain ⟨p1, p2, p3⟩ := packed_index (⟨sz, rfl⟩ : Consistent sub (sub.map sz))
      (List.getElem_mem hK)
    rw [List.getElem_map, h6 _ K p1 p3 (by rw [p2]; simp [hK])]
    simp [hK2]

/-- C05: a symmetry string with one character per axis is accepted exactly when it is in block form,
whatever the packed data of the right length. -/
theorem C05_accepts_iff {R : Type} [Ring R] (sub : List κ) (hsub : sub ≠ []) (sz : κ → Nat)
    (symm : List Char) (hl : symm.length = sub.length) (flat : List R)
    (hflat : flat.length = ((firstOccurrences sub).map
      fun c => ntrilNdim (sz c) (sub.count c) false).prod) :
    (∃ out, decompressAxes sub flat (sub.map sz) false (some symm) = .ok out) ↔
      ∃ s, symm = blockString sub s := by
  constructor
  · rintro ⟨out, h⟩
    match hs : symmetryLoop symm ((List.range (ngroups sub)).map (mult sub)) 0 with
    | .ok chars => exact block_of_symmetryLoop sub symm chars hl hs
    | .error e =>
      rw [decompressAxes_reject sub (sub.map sz) ⟨sz, rfl⟩ false (some symm) e hs] at h
      simp at h
  · rintro ⟨s, rfl⟩
    obtain ⟨out, _, h, _⟩ := C05_roundtrip sub hsub sz false (some (blockString sub s)) s rfl
      (Or.inl rfl) flat hflat
    exact ⟨out, h⟩

/-- C05, finding: a symmetry string written axis by axis is rejected when equally named axes are not
adjacent: the string is read in the order of the sorted groups, not of the axes. -/
theorem C05_axiswise_string_rejected :
    decompressAxes "iaia".toList [(1 : Int)] [2, 2, 2, 2] false (some "+-+-".toList)
      = .error .assertionError ∧
    decompressAxes "iaia".toList [(1 : Int)] [2, 2, 2, 2] false (some "++--".toList)
      ≠ .error .assertionError := by
  constructor
  · decide
  · obtain ⟨out, _, h, _⟩ := C05_roundtrip "iaia".toList (by decide) (fun _ => 2) false
      (some "++--".toList) (fun c => if c = 'i' then '+' else '-') (by decide) (Or.inl rfl)
      [(1 : Int)] (by decide)
    have h' : decompressAxes "iaia".toList [(1 : Int)] [2, 2, 2, 2] false (some "++--".toList)
      = .ok out := h
    rw [h']; simp

/-- C05, finding: with the diagonal included the round trip fails for `'-'` groups. -/
theorem C05_diag_antisym_fails :
    ∃ out packed, decompressAxes "ii".toList [(1 : Int), 2, 3] [2, 2] true none = .ok out ∧
      compressAxes "ii".toList out true = .ok packed ∧ packed.data ≠ [1, 2, 3] := by
  refine ⟨⟨[2, 2], [-1, -2, 2, -3]⟩, ⟨[3], [-1, 2, -3]⟩, by decide, by decide, by decide⟩

/-- Non-vacuity: a mixed subscript and symmetry string meeting the hypotheses. -/
example : blockString "ijji".toList (fun c => if c = 'i' then '-' else '+') = "--++".toList ∧
    ((firstOccurrences "ijji".toList).map fun c => ntrilNdim 3 ("ijji".toList.count c) false).prod
      = 9 := by
  constructor <;> decide

end
end Ebcc
