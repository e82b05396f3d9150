import Verif.Model.Compress
import Mathlib.Data.List.Sort
/-!
Model of `ebcc/util/permutations.py` lines 134-178 (`generate_spin_combinations`) and 271-273
(`is_mixed_spin`).
-/

namespace Ebcc

/-- Python's `sorted` on the characters of a string. -/
def sortChars (l : List Char) : List Char := l.insertionSort (· ≤ ·)

/-- permutations.py:171-176: `("ab" * n)[:n]`, for the two letters in either order. -/
def alternate (x y : Char) (n : Nat) : List Char := ((List.replicate n [x, y]).flatten).take n

/-- permutations.py:161-163: `"".join(list(tup) * 2)` and `comb[:-1]` for excited amplitudes. -/
def spinComb (excited : Bool) (tup : List Char) : List Char :=
  if excited then (tup ++ tup).dropLast else tup ++ tup

/-- permutations.py:166: the key of a combination. -/
def spinKey (n : Nat) (comb : List Char) : List Char :=
  sortChars (comb.take n) ++ sortChars (comb.drop n)

/-- permutations.py:171-176: the representative yielded for a new key. -/
def spinCanon (n : Nat) (excited : Bool) (comb : List Char) : List Char :=
  if excited then comb else
  let nab := ((comb.take n).count 'a', (comb.take n).count 'b')
  if nab = (n / 2, n - n / 2) then alternate 'a' 'b' n ++ alternate 'a' 'b' n
  else if nab = (n - n / 2, n / 2) then alternate 'b' 'a' n ++ alternate 'b' 'a' n
  else comb

/-- permutations.py:160-178: the loop; `check` is the set of keys seen. -/
def spinLoop (n : Nat) (excited uniq : Bool) (check : List (List Char)) :
    List (List Char) → List (List Char)
  | [] => []
  | tup :: rest =>
    let comb := spinComb excited tup
    if uniq then
      let key := spinKey n comb
      if key ∈ check then spinLoop n excited uniq check rest
      else spinCanon n excited comb :: spinLoop n excited uniq (key :: check) rest
    else comb :: spinLoop n excited uniq check rest

/-- permutations.py:134-178 `generate_spin_combinations`, as the list of the generated items. -/
def generateSpinCombinations (n : Nat) (excited uniq : Bool) : List (List Char) :=
  spinLoop n excited uniq [] (prodL (List.replicate n ['a', 'b']))

/-- permutations.py:271-273 `is_mixed_spin`. -/
def isMixedSpin {α : Type} [DecidableEq α] (spin : List α) : Bool := decide ((unique spin).length ≠ 1)

end Ebcc
