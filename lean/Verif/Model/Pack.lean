import Verif.Model.GenCode
/-!
Model of `pack_2e` (`ebcc/util/permutations.py`) and of `np.block`, with which density matrices are put together.
-/

namespace Ebcc

section
variable {R : Type}

/-- `np.concatenate([a, b], axis=k)`: `ValueError` unless the shapes agree at all other axes. -/
def npConcat2 [Zero R] (k : Nat) (a b : NDArray R) : Except PyErr (NDArray R) :=
  if k < a.shape.length ∧ b.shape = a.shape.set k (b.shape.getD k 0) then
    .ok (.ofFn (a.shape.set k (a.shape.getD k 0 + b.shape.getD k 0)) fun idx =>
      if idx.getD k 0 < a.shape.getD k 0 then a.get idx
      else b.get (idx.set k (idx.getD k 0 - a.shape.getD k 0)))
  else .error .valueError

/-- Nested lists with two entries each. -/
inductive Nested (α : Type)
  | leaf (a : α)
  | pair (x y : Nested α)

/-- The number of levels, along the first entries. -/
def Nested.depth {α : Type} : Nested α → Nat
  | .leaf _ => 0
  | .pair x _ => x.depth + 1

/-- `np.block(blocks)`: the innermost lists are joined along the last axis, those around them along the axis before, and
so on.  Simplification: all entries have the same number of levels, and the arrays at least as many axes. -/
def npBlock [Zero R] : Nested (NDArray R) → Except PyErr (NDArray R)
  | .leaf a => .ok a
  | .pair x y => do
    let a ← npBlock x
    let b ← npBlock y
    npConcat2 (a.shape.length - (x.depth + 1)) a b

/-- permutations.py:586-603 `ov_2e`. -/
def ov2e : List (List Char) :=
  [chars! "oooo", chars! "ooov", chars! "oovo", chars! "ovoo", chars! "vooo", chars! "oovv", chars! "ovov", chars! "ovvo",
    chars! "voov", chars! "vovo", chars! "vvoo", chars! "ovvv", chars! "vovv", chars! "vvov", chars! "vvvo", chars! "vvvv"]

/-- `"ov".index(x)`. -/
def ovIndex (c : Char) : Except PyErr Nat :=
  if c = 'o' then .ok 0 else if c = 'v' then .ok 1 else .error .valueError

/-- permutations.py:608-610: the loop that puts the arguments into `blocks`, here a dictionary of the entries that are
no longer `None`. -/
def packLoop : List (List Char × NDArray R) → Dict (List Nat) (NDArray R) → Except PyErr (Dict (List Nat) (NDArray R))
  | [], d => .ok d
  | (key, a) :: l, d => do
    let ijkl ← key.mapM ovIndex
    packLoop l (d.set ijkl a)

/-- The nested lists `blocks` with `levels` levels; an entry that is still `None` is taken to be a `TypeError`. -/
def packNested (d : Dict (List Nat) (NDArray R)) : Nat → List Nat → Except PyErr (Nested (NDArray R))
  | 0, pre => match d.get? pre with
    | some a => .ok (.leaf a)
    | none => .error .typeError
  | levels + 1, pre => do
    let x ← packNested d levels (pre ++ [0])
    let y ← packNested d levels (pre ++ [1])
    pure (.pair x y)

/-- permutations.py:582-612 `pack_2e`. -/
def pack2e [Zero R] (args : List (NDArray R)) : Except PyErr (NDArray R) :=
  if args.length ≠ 16 then .error .assertionError
  else do
    let d ← packLoop (ov2e.zip args) []
    let blocks ← packNested d 4 []
    npBlock blocks

/-- `np.block([[oo, ov], [vo, vv]])`, e.g. codegen/GCCSD.py:508. -/
def pack1e [Zero R] (oo ov vo vv : NDArray R) : Except PyErr (NDArray R) :=
  npBlock (.pair (.pair (.leaf oo) (.leaf ov)) (.pair (.leaf vo) (.leaf vv)))

end

end Ebcc
