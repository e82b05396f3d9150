import Verif.Model.Array
/-!
Model of `ebcc/util/permutations.py` lines 76-120.
-/

namespace Ebcc

/-- permutations.py:96-104: the conjunction over neighbouring axes of `x >= y` (`include_diagonal`)
or `x > y`. -/
def adjacentDecreasing (diag : Bool) : List Nat → Bool
  | [] => true
  | [_] => true
  | x :: y :: t => (if diag then decide (x ≥ y) else decide (x > y)) && adjacentDecreasing diag (y :: t)

/-- permutations.py:76-110 `tril_indices_ndim`.  The result in Python is a tuple of `dims` index
arrays; here it is the list of the index tuples (row `k` collects the `k`th entries of the arrays).
Boolean masking (line 107) visits the elements in row-major order.  With `dims = 0` Python raises
`TypeError` (`reduce` of an empty iterable, line 98/102). -/
def trilIndices (n dims : Nat) (diag : Bool) : Except PyErr (List (List Nat)) :=
  if dims = 1 then .ok ((List.range n).map fun i => [i])
  else if dims = 0 then .error .typeError
  else .ok ((box (List.replicate dims n)).filter (adjacentDecreasing diag))

/-- `itertools.combinations`. -/
def combinations {α : Type} : List α → Nat → List (List α)
  | _, 0 => [[]]
  | [], _ + 1 => []
  | x :: xs, k + 1 => (combinations xs k).map (x :: ·) ++ combinations xs (k + 1)

/-- `itertools.combinations_with_replacement`. -/
def combinationsWithReplacement {α : Type} : List α → Nat → List (List α)
  | _, 0 => [[]]
  | [], _ + 1 => []
  | x :: xs, k + 1 =>
    (combinationsWithReplacement (x :: xs) k).map (x :: ·) ++ combinationsWithReplacement xs (k + 1)
termination_by xs k => (xs.length, k)

/-- permutations.py:113-120 `ntril_ndim`; lines 122-131 are unreachable. -/
def ntrilNdim (n dims : Nat) (diag : Bool) : Nat :=
  if diag then (combinationsWithReplacement (List.range n) dims).length
  else (combinations (List.range n) dims).length

end Ebcc
