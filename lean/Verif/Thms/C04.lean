import Verif.Lemmas.Packed

/-!
C04: `get_compressed_size` is the number of elements of `compress_axes`.
-/

namespace Ebcc

section
variable {κ : Type} [DecidableEq κ]

/-- C04: for an array with axis sizes `sz` by symbol, and the same sizes given to
`get_compressed_size`, both calls succeed and the packed array has that many elements, namely the
product of binomial coefficients. -/
theorem C04_size {R : Type} [Zero R] (sub : List κ) (sz : κ → Nat) (sizes : Dict κ Nat)
    (hsizes : ∀ c ∈ sub, sizes.get? c = some (sz c)) (a : NDArray R) (ha : a.shape = sub.map sz) :
    ∃ out, compressAxes sub a false = .ok out ∧ out.WF ∧
      getCompressedSize sub sizes = .ok out.data.length ∧
      out.data.length = ((firstOccurrences sub).map fun c => (sz c).choose (sub.count c)).prod := by
  have hc : Consistent sub a.shape := ⟨sz, ha⟩
  refine ⟨_, compressAxes_ok sub a false hc, ?_, ?_, ?_⟩
  · simp only [NDArray.WF, List.length_map, length_prodL]
  · simp only [List.length_map]
    rw [ha, length_gtrils]
    unfold getCompressedSize packedLength
    rw [← unique_eq_firstOccurrences]
    rw [mapM_ok _ (fun c => ntrilNdim (sz c) (sub.count c) false)]
    · rfl
    · intro c hcm
      simp [Dict.getItem, hsizes c (mem_unique.1 hcm)]
  · simp only [List.length_map]
    rw [ha, length_gtrils, packedLength, prodN_eq_prod]
    congr 1
    apply List.map_congr_left
    intro c _
    exact (C03_binomial _ _).1

/-- Non-vacuity: a subscript with a repeated and interleaved symbol. -/
example : getCompressedSize "iaib".toList [('i', 3), ('a', 2), ('b', 2)] = .ok 12 ∧
    (compressAxes "iaib".toList (NDArray.zeros (R := Int) [3, 2, 3, 2]) false).toOption.map
      (fun o => o.data.length) = some 12 := by
  refine ⟨by decide, by decide⟩

end
end Ebcc
