import Verif.Model.EinsumParse
import Verif.Spec.Einsum
import Mathlib.Data.Char
/-!
Model of `ebcc/util/einsumfunc.py` lines 200-347 (`_transpose_backend`, `_contract_backend`,
`_contract_ttgt`) and 456-541 (`einsum`).

`numpy.einsum` is an external function; it is modelled by its documented meaning, the Einstein sum.
Simplifications: numpy also broadcasts axes of size one with other sizes, which raises `valueError`
here; results are exact.  `_contract_tblis` (350-453) calls an external C library and is not modelled.
-/

namespace Ebcc

section
variable {R : Type}

/-- Sizes of the symbols, `ValueError` if inconsistent (einsumfunc.py:271-281; also checked inside
`numpy.einsum`). -/
def symbolSizes : List (Char × Nat) → Dict Char Nat → Except PyErr (Dict Char Nat)
  | [], d => .ok d
  | (c, n) :: l, d =>
    match d.get? c with
    | some m => if m = n then symbolSizes l (d.set c n) else .error .valueError
    | none => symbolSizes l (d.set c n)

/-- The assignment that gives the symbols of the output the values of a multi-index. -/
def assignOf (outs : List Char) (idx : List Nat) (c : Char) : Nat := idx.getD (outs.idxOf c) 0

/-- `numpy.einsum` (external). -/
def numpyEinsum [CommRing R] (inputs : List (List Char × NDArray R)) (outs : List Char) :
    Except PyErr (NDArray R) := do
  if inputs.all fun x => decide (x.1.length = x.2.shape.length) then
    let d ← symbolSizes (inputs.flatMap fun x => x.1.zip x.2.shape) []
    let sz := fun c => (d.get? c).getD 0
    pure (NDArray.ofFn (outs.map sz) fun idx => einValue sz inputs outs (assignOf outs idx))
  else .error .valueError

/-- `res = x * alpha; if out is not None: res += beta * out`. -/
def scaleAdd [CommRing R] (x : NDArray R) (alpha beta : R) (out : Option (NDArray R)) :
    Except PyErr (NDArray R) :=
  match out with
  | none => .ok (x.map fun v => v * alpha)
  | some o => (x.map fun v => v * alpha).add (o.map fun v => beta * v)

/-- einsumfunc.py:200-211 `_transpose_backend`. -/
def transposeBackend [CommRing R] (inp outs : List Char) (a : NDArray R) (alpha beta : R)
    (out : Option (NDArray R)) : Except PyErr (NDArray R) := do
  let r ← numpyEinsum [(inp, a)] outs
  scaleAdd r alpha beta out

/-- einsumfunc.py:214-227 `_contract_backend`. -/
def contractBackend [CommRing R] (inpA inpB outs : List Char) (a b : NDArray R) (alpha beta : R)
    (out : Option (NDArray R)) : Except PyErr (NDArray R) := do
  let r ← numpyEinsum [(inpA, a), (inpB, b)] outs
  scaleAdd r alpha beta out

/-- einsumfunc.py:39 `BACKEND_EINSUM_SIZE`. -/
def backendEinsumSize : Nat := 1000

/-- `l.insert(j, l.pop(l.index(x)))`. -/
def moveTo (l : List Char) (x : Char) (j : Nat) : List Char :=
  (l.eraseIdx (l.idxOf x)).insertIdx j x

/-- einsumfunc.py:284-291: the dummy indices, in order, go to the end of `a` and the front of `b`. -/
def moveDummies : List Char → Nat → List Char → List Char → List Char × List Char
  | [], _, at_, bt => (at_, bt)
  | x :: xs, i, at_, bt => moveDummies xs (i + 1) (moveTo at_ x (at_.length - 1)) (moveTo bt x i)

/-- einsumfunc.py:300-305: the part of `inp_at` before the first dummy. -/
def beforeDummy (dummy : List Char) : List Char → List Char
  | [] => []
  | x :: l => if x ∈ dummy then [] else x :: beforeDummy dummy l

/-- `blas.dgemm(alpha, at, bt, beta=beta, c=out)`, and the equivalent lines 337-339 for the other
backends, for matrices of `m` by `k` and `k` by `n` elements. -/
def gemm [CommRing R] (m k n : Nat) (alpha : R) (at_ bt : NDArray R) (beta : R)
    (out : Option (NDArray R)) : NDArray R :=
  NDArray.ofFn [m, n] fun idx =>
    alpha * ((List.range k).map fun l => at_.get [idx.getD 0 0, l] * bt.get [l, idx.getD 1 0]).sum
      + match out with
        | none => 0
        | some o => beta * o.get idx

/-- `-1` in `numpy.reshape`: the size that remains; `ValueError` when it does not divide. -/
def inferSize (total known : Nat) : Except PyErr Nat :=
  if known ≠ 0 ∧ total % known = 0 then .ok (total / known) else .error .valueError

/-- einsumfunc.py:230-347 `_contract_ttgt`; the subscript is `inpA,inpB->outs`. -/
def contractTtgt [CommRing R] (inpA inpB outs : List Char) (a b : NDArray R) (alpha beta : R)
    (out : Option (NDArray R)) : Except PyErr (NDArray R) :=
  let fallback := contractBackend inpA inpB outs a b alpha beta out
  -- 247-248
  if min (prodN a.shape) (prodN b.shape) < backendEinsumSize then fallback else
  -- 251-253
  let indices := inpA ++ inpB ++ outs
  if indices.any fun x => decide (indices.count x ≠ 2) then fallback else
  -- 256-260
  if inpA.length ≠ a.shape.length ∨ inpB.length ≠ b.shape.length then .error .assertionError else
  -- 263-264
  if inpA.length ≠ (unique inpA).length ∨ inpB.length ≠ (unique inpB).length then fallback else
  -- 267-269
  let dummy := inpA.filter fun x => decide (x ∈ inpB)
  if dummy = [] ∨ (∀ x ∈ inpA, x ∈ dummy) ∨ (∀ x ∈ inpB, x ∈ dummy) then fallback else do
  -- 272-281
  let ranges ← symbolSizes (inpA.zip a.shape ++ inpB.zip b.shape) []
  let sz := fun c => (ranges.get? c).getD 0
  -- 284-291
  let sorted := sortChars dummy
  let (at_, bt_) := moveDummies sorted 0 inpA inpB
  let inner := prodN (sorted.map sz)
  -- 294-311
  let orderA := at_.map inpA.idxOf
  let orderB := bt_.map inpB.idxOf
  let inpCt := beforeDummy dummy at_ ++ bt_.filter fun x => decide (x ∉ dummy)
  let shapeCt := inpCt.map sz
  let orderCt := outs.map inpCt.idxOf
  -- 314-319 cannot be reached, as the sizes are at least 1000
  -- 322-327
  let ta ← a.transpose orderA
  let tb ← b.transpose orderB
  let m ← inferSize ta.data.length inner
  let n ← inferSize tb.data.length inner
  let ta ← NDArray.reshape ta.data [m, inner]
  let tb ← NDArray.reshape tb.data [inner, n]
  -- 330-334
  let out2 ← match out with
    | none => pure none
    | some o => do
      let t ← o.transpose (inpCt.map outs.idxOf)
      let t ← NDArray.reshape t.data [m, n]
      pure (some t)
  -- 337-347
  let ct := gemm m inner n alpha ta tb beta out2
  let ct ← NDArray.reshape ct.data shapeCt
  ct.transpose orderCt

/-- einsumfunc.py:35-36, 494-499: the contraction method. -/
inductive ContractMethod | backend | ttgt
  deriving DecidableEq

/-- The pairwise contraction selected by `CONTRACTION_METHOD`. -/
def contractWith [CommRing R] : ContractMethod → List Char → List Char → List Char → NDArray R →
    NDArray R → R → R → Option (NDArray R) → Except PyErr (NDArray R)
  | .backend => contractBackend
  | .ttgt => contractTtgt

/-- `s.split(",")`. -/
def splitComma : List Char → List (List Char)
  | [] => [[]]
  | c :: l =>
    if c = ',' then [] :: splitComma l
    else match splitComma l with
      | [] => [[c]]
      | s :: rest => (c :: s) :: rest

/-- One entry of the list returned by `numpy.einsum_path`: positions of the operands and the string
`strIn[0],strIn[1],...->strOut`. -/
structure Contraction where
  inds : List Nat
  strIn : List (List Char)
  strOut : List Char

/-- `[args.pop(x) for x in inds]`: the popped elements and the remaining list. -/
def popAll {α : Type} : List Nat → List α → Except PyErr (List α × List α)
  | [], args => .ok ([], args)
  | i :: is, args =>
    match args[i]? with
    | none => .error .indexError
    | some a => do
      let r ← popAll is (args.eraseIdx i)
      pure (a :: r.1, r.2)

/-- einsumfunc.py:524-538 one contraction of the chain. -/
def chainContract [CommRing R] (method : ContractMethod) (strIn : List (List Char)) (strOut : List Char)
    (cargs : List (NDArray R)) : Except PyErr (NDArray R) :=
  match strIn, cargs with
  | [s], [a] => transposeBackend s strOut a 1 0 none
  | [s, t], [a, b] => contractWith method s t strOut a b 1 0 none
  | _, _ =>
    if strIn.length = cargs.length then numpyEinsum (strIn.zip cargs) strOut else .error .valueError

/-- einsumfunc.py:515-539 the loop over the contractions; the second component is the last result. -/
def chainLoop [CommRing R] (method : ContractMethod) : List Contraction → List (NDArray R) →
    Option (NDArray R) → Except PyErr (Option (NDArray R))
  | [], _, res => .ok res
  | c :: cs, args, _ => do
    let (cargs, rest) ← popAll c.inds args
    let r ← chainContract method c.strIn c.strOut cargs
    chainLoop method cs (rest ++ [r]) (some r)

/-- einsumfunc.py:496-541: `einsum` after parsing.  `path` stands for `numpy.einsum_path` (external).  `alpha` and
`beta` other than 1 and 0 are rejected for chains (`scaled`). -/
def einsumParsed [CommRing R] [DecidableEq R] (method : ContractMethod)
    (path : List (List Char) → List Char → List (NDArray R) → List Contraction)
    (inp outs : List Char) (args : List (NDArray R)) (alpha beta : R) (out : Option (NDArray R)) :
    Except PyErr (NDArray R) :=
  match splitComma inp, args with
  | _, [] => .error .valueError
  | [s], [a] => transposeBackend s outs a alpha beta out
  | [s, t], [a, b] => contractWith method s t outs a b alpha beta out
  | subs, args =>
    if subs.length ≠ args.length then .error .valueError
    else
      let cs := path subs outs args
      if cs ≠ [] ∧ (alpha ≠ 1 ∨ beta ≠ 0) then .error .notImplementedError
      else do
        let r ← chainLoop method cs args none
        match r with
        | some r => pure r
        | none => .error .nameError

/-- einsumfunc.py:456-541 `einsum`. -/
def einsum [CommRing R] [DecidableEq R] (method : ContractMethod)
    (path : List (List Char) → List Char → List (NDArray R) → List Contraction)
    (operands : List (EinArg R)) (alpha beta : R) (out : Option (NDArray R)) :
    Except PyErr (NDArray R) := do
  let (inp, outs, args) ← parseEinsumInput operands
  einsumParsed method path inp outs args alpha beta out

end

end Ebcc
