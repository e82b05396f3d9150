import Verif.Lemmas.Tril

/-!
C03: lower triangular indices: exactly the decreasing tuples, once each, in row-major order, and the
count agrees with `ntril_ndim` and with the binomial coefficient.
-/

namespace Ebcc

/-- The index tuples promised for `include_diagonal = diag`: strictly or weakly decreasing. -/
def IsTrilTuple (n dims : Nat) (diag : Bool) (l : List Nat) : Prop :=
  l.length = dims ∧ (∀ i ∈ l, i < n) ∧
    l.Pairwise (fun a b => if diag then b ≤ a else b < a)

/-- C03: for at least one dimension the call succeeds, its tuples are exactly the decreasing ones,
without repetition, in lexicographic (row-major) order. -/
theorem C03_enumeration (n dims : Nat) (diag : Bool) (hd : 1 ≤ dims) :
    ∃ L, trilIndices n dims diag = .ok L ∧ (∀ l, l ∈ L ↔ IsTrilTuple n dims diag l) ∧ L.Nodup ∧
      L.Pairwise (List.Lex (· < ·)) := by
  refine ⟨_, trilIndices_ok n dims diag (by omega), ?_, nodup_decTuples _ _ _,
    sorted_decTuples _ _ _⟩
  intro l
  cases diag
  · simpa [IsTrilTuple, wOf] using mem_decTuples_strict dims n l
  · simpa [IsTrilTuple, wOf] using mem_decTuples_weak dims n l

/-- C03: `ntril_ndim` is the number of tuples `tril_indices_ndim` returns. -/
theorem C03_count (n dims : Nat) (diag : Bool) (L : List (List Nat))
    (h : trilIndices n dims diag = .ok L) : L.length = ntrilNdim n dims diag := by
  have hd : dims ≠ 0 := by
    rintro rfl; simp [trilIndices] at h
  rw [trilIndices_ok n dims diag hd] at h
  injection h with h
  subst h
  cases diag
  · simp [ntrilNdim, wOf, length_decTuples_strict, length_combinations]
  · simp [ntrilNdim, wOf, length_decTuples_weak, length_combinationsWithReplacement]

/-- C03: the count is a binomial coefficient. -/
theorem C03_binomial (n dims : Nat) :
    ntrilNdim n dims false = n.choose dims ∧ ntrilNdim n dims true = (n + dims - 1).choose dims := by
  simp [ntrilNdim, length_combinations, length_combinationsWithReplacement]

/-- With no dimension at all the call raises. -/
theorem C03_zero_dims (n : Nat) (diag : Bool) : trilIndices n 0 diag = .error .typeError := by
  simp [trilIndices]

/-- Non-vacuity: two dimensions of size four. -/
example : trilIndices 4 2 false = .ok [[1, 0], [2, 0], [2, 1], [3, 0], [3, 1], [3, 2]] ∧
    ntrilNdim 4 2 false = 6 ∧ IsTrilTuple 4 2 false [2, 1] ∧ ¬ IsTrilTuple 4 2 false [2, 2] := by
  refine ⟨by decide, by decide, ?_, ?_⟩ <;> simp [IsTrilTuple]

end Ebcc
