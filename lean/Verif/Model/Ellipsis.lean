import Verif.Model.Einsum
/-!
Model of the ellipses in `ebcc/util/einsumfunc.py` (lines 117-174).  `so` stands for the arbitrary order
in which Python lists a set of characters.
-/

namespace Ebcc

section
variable {R : Type}

/-- `s.replace("...", w)`. -/
def replaceDots (w : List Char) : List Char → List Char
  | a :: b :: c :: l =>
    if a = '.' ∧ b = '.' ∧ c = '.' then w ++ replaceDots w l else a :: replaceDots w (b :: c :: l)
  | l => l

/-- `s.count("...")`. -/
def countDots : List Char → Nat
  | a :: b :: c :: l => if a = '.' ∧ b = '.' ∧ c = '.' then countDots l + 1 else countDots (b :: c :: l)
  | _ => 0

/-- `s[-k:]` for `k > 0`, and the empty string for `k = 0` (lines 148-152, 155-158). -/
def lastChars (s : List Char) (k : Nat) : List Char := s.drop (s.length - k)

/-- einsumfunc.py:132-152: one input subscript; also returns `ellipse_count`. -/
def expandPiece (inds : List Char) (op : Option (NDArray R)) (ssub : List Char) :
    Except PyErr (List Char × Nat) :=
  if '.' ∈ ssub then
    if ssub.count '.' ≠ 3 ∨ countDots ssub ≠ 1 then .error .valueError
    else match op with
      | none => .error .indexError
      | some a =>
        let k : Int := if a.shape = [] then 0 else max (a.shape.length : Int) 1 - ((ssub.length : Int) - 3)
        if k < 0 then .error .valueError
        else .ok (replaceDots (lastChars inds k.toNat) ssub, k.toNat)
  else .ok (ssub, 0)

/-- einsumfunc.py:131-152: the loop over the input subscripts; also returns `longest`. -/
def expandPieces (inds : List Char) : List (List Char) → List (NDArray R) →
    Except PyErr (List (List Char) × Nat)
  | [], _ => .ok ([], 0)
  | s :: l, ops => do
    let p ← expandPiece inds ops.head? s
    let r ← expandPieces inds l ops.tail
    pure (p.1 :: r.1, max p.2 r.2)

/-- einsumfunc.py:162-172: the output without an arrow. -/
def dotsImplicit (joined outEllipse : List Char) : Except PyErr (List Char) := do
  let o ← implicitOutput joined
  pure (outEllipse ++ sortChars (unique (o.filter fun c => decide (c ∉ outEllipse))))

/-- einsumfunc.py:118-174: the subscripts with the ellipses replaced. -/
def expandEllipses (so : List Char → List Char) (sub : List Char) (ops : List (NDArray R)) :
    Except PyErr (List Char) := do
  let used := sub.filter fun c => decide (c ∉ ".,->".toList)
  let inds := so (einsumSymbols.filter fun c => decide (c ∉ used))
  if countArrow sub = 1 then do
    let r ← expandPieces inds (splitComma (splitArrow sub).1) ops
    pure (commaJoin r.1 ++ '-' :: '>' :: replaceDots (lastChars inds r.2) (splitArrow sub).2)
  else do
    let r ← expandPieces inds (splitComma sub) ops
    let o ← dotsImplicit (commaJoin r.1) (lastChars inds r.2)
    pure (commaJoin r.1 ++ '-' :: '>' :: o)

/-- einsumfunc.py:111-197 with the ellipses. -/
def parseDots (so : List Char → List Char) (bound : Bool) (sub : List Char) (ops : List (NDArray R)) :
    Except PyErr (EinInput R) :=
  if ('-' ∈ sub ∨ '>' ∈ sub) ∧ (sub.count '-' > 1 ∨ sub.count '>' > 1 ∨ countArrow sub ≠ 1) then
    .error .valueError
  else if '.' ∈ sub then do
    let sub ← expandEllipses so sub ops
    parseTail bound sub ops
  else parseTail bound sub ops

/-- einsumfunc.py:55-197 `_parse_einsum_input` with the ellipses. -/
def parseEinsumDots [Neg R] (so : List Char → List Char) (operands : List (EinArg R)) :
    Except PyErr (EinInput R) :=
  match operands with
  | [] => .error .valueError
  | .str s :: rest => do
    let ops ← rest.mapM EinArg.asArr
    let r ← parseStr s ops
    parseDots so true r.1 r.2
  | _ => do
    let r ← parseList operands
    parseDots so (decide (operands.length % 2 = 0 ∧ r.1 ≠ [])) r.1 r.2

/-- einsumfunc.py:456-541 `einsum` with the ellipses. -/
def einsumDots [CommRing R] [DecidableEq R] (so : List Char → List Char) (method : ContractMethod)
    (path : List (List Char) → List Char → List (NDArray R) → List Contraction)
    (operands : List (EinArg R)) (alpha beta : R) (out : Option (NDArray R)) :
    Except PyErr (NDArray R) := do
  let (inp, outs, args) ← parseEinsumDots so operands
  einsumParsed method path inp outs args alpha beta out

end

end Ebcc
