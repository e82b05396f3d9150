import Verif.Model.Py
/-!
Model of `ebcc/util/permutations.py` lines 30-73.  Strings are lists of characters.
-/

namespace Ebcc

/-- `string[i]` for a non-negative `i`. -/
def strIndex (s : List Char) (i : Nat) : Except PyErr Char :=
  match s[i]? with
  | some c => .ok c
  | none => .error .indexError

/-- permutations.py:30-44 `permute_string`.  Simplification: the permutation has no negative
entries. -/
def permuteString (s : List Char) (perm : List Nat) : Except PyErr (List Char) :=
  perm.mapM (strIndex s)

/-- permutations.py:64-66: the dictionary of the positions of each character.  The order of the keys
of `set(string)` is arbitrary in Python; it is not observable here. -/
def charPositions (s : List Char) : Dict Char (List Nat) :=
  s.zipIdx.foldl (fun d (c, i) => d.set c ((d.get? c).getD [] ++ [i]))
    (s.eraseDups.map fun c => (c, []))

/-- permutations.py:69-73: take the first unused position of each target character. -/
def takePositions (d : Dict Char (List Nat)) : List Char → Except PyErr (List Nat)
  | [] => .ok []
  | c :: t =>
    match d.get? c with
    | none => .error .keyError
    | some [] => .error .indexError
    | some (i :: is) => do
      let rest ← takePositions (d.set c is) t
      pure (i :: rest)

/-- permutations.py:47-73 `get_string_permutation`. -/
def getStringPermutation (s t : List Char) : Except PyErr (List Nat) :=
  takePositions (charPositions s) t

end Ebcc
