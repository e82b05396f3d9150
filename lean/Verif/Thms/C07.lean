import Verif.Lemmas.Packed

/-!
C07: arrays returned by `decompress_axes` have the declared symmetry.
-/

namespace Ebcc

section
variable {κ : Type} [DecidableEq κ]

/-- C07: exchanging two equally named axes multiplies by the declared sign, and (diagonal excluded)
the array vanishes when two such indices coincide. -/
theorem C07_symmetry {R : Type} [Ring R] (sub : List κ) (hsub : sub ≠ []) (sz : κ → Nat)
    (diag : Bool) (symm : Option (List Char)) (s : κ → Char)
    (hsymm : symm.getD (List.replicate sub.length '-') = blockString sub s)
    (hcond : diag = false ∨ ∀ c ∈ sub, s c ≠ '-')
    (flat : List R)
    (hflat : flat.length = ((firstOccurrences sub).map
      fun c => ntrilNdim (sz c) (sub.count c) diag).prod) :
    ∃ out, decompressAxes sub flat (sub.map sz) diag symm = .ok out ∧ out.shape = sub.map sz ∧
      GroupSymmetric sub s out ∧ (diag = false → VanishesOnDiagonal sub out) := by
  obtain ⟨out, h1, h2, _, h4, h5, _⟩ := decompress_main sub hsub sz diag symm s hsymm hcond flat
    (by rw [hflat, packedLength, prodN_eq_prod])
  exact ⟨out, h1, h2, h4, h5⟩

/-- C07, finding: with the diagonal included, a `'-'` group does not give an antisymmetric array (the
diagonal survives, with a changed sign). -/
theorem C07_diag_antisym_fails :
    ∃ out : NDArray Int, decompressAxes "ii".toList [(1 : Int), 2, 3] [2, 2] true none = .ok out ∧
      ¬ GroupSymmetric "ii".toList (fun _ => '-') out := by
  refine ⟨⟨[2, 2], [-1, -2, 2, -3]⟩, by decide, ?_⟩
  intro h
  have := h 0 1 'i' (by decide) (by decide) (by decide) [0, 0] (by simp [ValidIdx])
  revert this
  decide

/-- Non-vacuity. -/
example : ∃ out, decompressAxes "ijji".toList ((List.range 9).map fun n => (n : Int)) [3, 3, 3, 3]
    false (some "--++".toList) = .ok out ∧ out.shape = [3, 3, 3, 3] := by
  obtain ⟨out, h1, h2, _⟩ := C07_symmetry "ijji".toList (by decide) (fun _ => 3) false
    (some "--++".toList) (fun c => if c = 'i' then '-' else '+') (by decide) (Or.inl rfl)
    ((List.range 9).map fun n => (n : Int)) (by decide)
  exact ⟨out, h1, h2⟩

end
end Ebcc
