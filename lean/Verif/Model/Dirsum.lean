import Verif.Model.Einsum
/-!
Model of `ebcc/util/einsumfunc.py` lines 544-575 (`dirsum`).
-/

namespace Ebcc

section
variable {R : Type}

/-- `np.reshape(res, res.shape + (1,) * array.ndim) + array`: by the broadcasting rules of numpy the
axes of `array` meet the new axes of size one, so the result has the axes of both. -/
def outerAdd [CommRing R] (res array : NDArray R) : NDArray R :=
  NDArray.ofFn (res.shape ++ array.shape) fun idx =>
    res.get (idx.take res.shape.length) + array.get (idx.drop res.shape.length)

/-- einsumfunc.py:559-570: one pass of the loop for one operand.  `setOrder` is the order in which
Python enumerates `set(chars)`, which is arbitrary. -/
def dirsumOperand [CommRing R] (setOrder : List Char → List Char) (chars : List Char)
    (array : NDArray R) : Except PyErr (List Char × NDArray R) := do
  if chars.length ≠ array.shape.length then .error .valueError
  else if (unique chars).length ≠ chars.length then do
    let a ← transposeBackend chars (setOrder chars) array 1 0 none
    pure (setOrder chars, a)
  else pure (chars, array)

/-- einsumfunc.py:558-570: the loop.  Returns the labels, joined, and the sum; the labels left over
when there are fewer arrays are joined unchanged, surplus arrays are ignored (`zip`). -/
def dirsumLoop [CommRing R] (setOrder : List Char → List Char) : List (List Char) → List (NDArray R) →
    Option (NDArray R) → Except PyErr (List Char × Option (NDArray R))
  | c :: cs, a :: as, res => do
    let (c', a') ← dirsumOperand setOrder c a
    let res' := match res with
      | none => a'
      | some r => outerAdd r a'
    let (l, r) ← dirsumLoop setOrder cs as (some res')
    pure (c' ++ l, r)
  | cs, _, res => .ok (cs.flatten, res)

/-- einsumfunc.py:544-575 `dirsum`.  The final call of `einsum` has a single operand. -/
def dirsum [CommRing R] (setOrder : List Char → List Char) (operands : List (EinArg R)) :
    Except PyErr (NDArray R) := do
  let (inp, outs, arrays) ← parseEinsumInput operands
  let (joined, res) ← dirsumLoop setOrder (splitComma inp) arrays none
  match res with
  | none => .error .nameError
  | some r => do
    let (inp2, outs2, args2) ← parseEinsumInput [.str (joined ++ "->".toList ++ outs), .arr r]
    match args2 with
    | [a] => transposeBackend inp2 outs2 a 1 0 none
    | _ => .error .valueError

end

end Ebcc
