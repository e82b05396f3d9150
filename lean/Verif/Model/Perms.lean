/-!
Model of `ebcc/util/permutations.py` lines 181-207 (`permutations_with_signs`).
-/

namespace Ebcc

/-- Python `item[:i] + [x] + item[i:]` (permutations.py:203, `seq[-1:]` is the one-element list). -/
def insertAt {α : Type} (item : List α) (x : α) (i : Nat) : List α :=
  item.take i ++ x :: item.drop i

/-- permutations.py:199-202, the positions at which the last element is inserted: ascending
`range(len(item)+1)` for odd `i`, descending `range(len(item), -1, -1)` for even `i`. -/
def insertPositions (i len : Nat) : List Nat :=
  if i % 2 == 1 then List.range (len + 1) else (List.range (len + 1)).reverse

/-- permutations.py:193-205, the inner function `_permutations`.  The Python recursion strips the
last element (`seq[:-1]`, `seq[-1:]`); here the argument is the reversed sequence, so that this is
structural recursion. -/
def permsRev {α : Type} : List α → List (List α)
  | [] => [[]]
  | x :: xs =>
    (permsRev xs).zipIdx.flatMap fun (item, i) =>
      (insertPositions i item.length).map fun j => insertAt item x j

/-- permutations.py:181-207 `permutations_with_signs`: the sign is decided by the position in the
enumeration (line 207). -/
def permutationsWithSigns {α : Type} (seq : List α) : List (List α × Int) :=
  (permsRev seq.reverse).zipIdx.map fun (item, i) => (item, if i % 2 == 1 then -1 else 1)

end Ebcc
