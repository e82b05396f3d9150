import Verif.Model.Einsum

/-!
Model of `_contract_tblis` of `ebcc/util/einsumfunc.py` (lines 350-453).

Simplifications: the subscript is split into its parts, which consist of ASCII letters (`encode` fails on others); arrays have
no data types or strides; the strides of the operands are passed to the library, which is
taken to do what its interface says.  `viewed` says whether `np.reshape(out, shape_c)` is a view of `out`; `junk` are the
elements of `np.empty`.
-/

namespace Ebcc

section
variable {R : Type}

/-- `as_einsum` of TBLIS (external): `c` becomes `alpha` times the Einstein sum plus `beta` times `c`. -/
def asEinsum [CommRing R] (sz : Char → Nat) (inpA inpB outs : List Char) (a b : NDArray R) (alpha beta : R)
    (c : NDArray R) : NDArray R :=
  NDArray.ofFn c.shape fun idx =>
    alpha * einValue sz [(inpA, a), (inpB, b)] outs (assignOf outs idx) + beta * c.get idx

/-- einsumfunc.py:350-453 `_contract_tblis`; the subscript is `inpA,inpB->outs`.  The result, and the array `out` after the
call. -/
def contractTblis [CommRing R] (found viewed : Bool) (junk : List Nat → R) (inpA inpB outs : List Char)
    (a b : NDArray R) (alpha beta : R) (out : Option (NDArray R)) : Except PyErr (NDArray R × Option (NDArray R)) :=
  -- 359-360
  if found = false then .error .importError else
  let fallback := (contractBackend inpA inpB outs a b alpha beta out).map fun r => (r, out)
  -- 367-368
  if min (prodN a.shape) (prodN b.shape) < backendEinsumSize then fallback else
  -- 371-373
  let indices := inpA ++ inpB ++ outs
  if indices.any fun x => decide (indices.count x ≠ 2) then fallback else
  -- 376-380
  if inpA.length ≠ a.shape.length ∨ inpB.length ≠ b.shape.length then .error .assertionError else
  -- 383-384
  if inpA.length ≠ (unique inpA).length ∨ inpB.length ≠ (unique inpB).length then fallback else
  -- 387-389
  let dummy := inpA.filter fun x => decide (x ∈ inpB)
  if dummy = [] ∨ (∀ x ∈ inpA, x ∈ dummy) ∨ (∀ x ∈ inpB, x ∈ dummy) then fallback else do
  -- 392-402
  let ranges ← symbolSizes (inpA.zip a.shape ++ inpB.zip b.shape) []
  let sz := fun c => (ranges.get? c).getD 0
  -- 411-413
  let shapeC := outs.map sz
  -- 416-421 cannot be reached, as the sizes are at least 1000
  -- 424-453
  match out with
  | none => pure (asEinsum sz inpA inpB outs a b alpha beta (NDArray.ofFn shapeC junk), none)
  | some o =>
    if o.data.length ≠ prodN shapeC then .error .assertionError
    else do
      let c ← NDArray.reshape o.data shapeC
      let c := asEinsum sz inpA inpB outs a b alpha beta c
      pure (c, some (if viewed then ⟨o.shape, c.data⟩ else o))

end
end Ebcc
