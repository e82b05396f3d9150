import Verif.Model.Symmetrise
import Verif.Model.Spin
/-!
Model of `ebcc/util/einsumfunc.py` lines 44-197 (`_parse_einsum_input`).

A subscript containing `.` raises `notImplementedError` here; ellipses (lines 118-174) are modelled in `Ellipsis`.
-/

namespace Ebcc

/-- einsumfunc.py:45 `EINSUM_SYMBOLS`. -/
def einsumSymbols : List Char := "abcdefghijklmnopqrstuvwxyzABCDEFGHIJKLMNOPQRSTUVWXYZ".toList

/-- An argument of `einsum`: the string, an array, or a tuple of integers. -/
inductive EinArg (R : Type)
  | str (s : List Char)
  | arr (a : NDArray R)
  | idx (l : List Nat)

/-- Result of parsing: input subscripts (with commas), output subscript, arrays. -/
abbrev EinInput (R : Type) := List Char × List Char × List (NDArray R)

section
variable {R : Type}

/-- `-array`. -/
def NDArray.neg [Neg R] (a : NDArray R) : NDArray R := ⟨a.shape, a.data.map fun x => -x⟩

/-- `operand_list[j] = -operand_list[j]`. -/
def negAt [Neg R] (ops : List (NDArray R)) (j : Nat) : Except PyErr (List (NDArray R)) :=
  match ops[j]? with
  | some a => .ok (ops.set j a.neg)
  | none => .error .indexError

/-- einsumfunc.py:72-82: the signs of `dirsum` become commas, operands behind a minus are negated.  The
argument is the rest of the string; the characters before it are already replaced. -/
def signLoop [Neg R] : List Char → Nat → List (NDArray R) → Except PyErr (List Char × List (NDArray R))
  | [], _, ops => .ok ([], ops)
  | s :: rest, j, ops =>
    if s = '+' then do
      let r ← signLoop rest (j + 1) ops
      pure (',' :: r.1, r.2)
    else if s = '-' then
      match rest with
      | [] => .error .indexError
      | t :: _ =>
        if t ≠ '>' then do
          let ops ← negAt ops j
          let r ← signLoop rest (j + 1) ops
          pure (',' :: r.1, r.2)
        else do
          let r ← signLoop rest j ops
          pure (s :: r.1, r.2)
    else do
      let r ← signLoop rest (if s = ',' then j + 1 else j) ops
      pure (s :: r.1, r.2)

/-- einsumfunc.py:68-88: the string form. -/
def parseStr [Neg R] (s : List Char) (ops : List (NDArray R)) :
    Except PyErr (List Char × List (NDArray R)) := do
  let sub := s.filter fun c => decide (c ≠ ' ')
  match sub with
  | [] => .error .indexError
  | c :: _ =>
    let j := if c = '+' ∨ c = '-' then 0 else 1
    -- the index `j` counts positions in the list of operands; `j = 1` is the second one
    let r ← signLoop sub j ops
    if r.1.all fun c => decide (c ∈ ".,->".toList ∨ c ∈ einsumSymbols) then pure r
    else .error .valueError

/-- Every second element, from the first. -/
def everySecond {α : Type} : List α → List α
  | [] => []
  | [a] => [a]
  | a :: _ :: l => a :: everySecond l

/-- `EINSUM_SYMBOLS[i]` for each `i`. -/
def symbolsOf (l : List Nat) : Except PyErr (List Char) :=
  l.mapM fun i => match einsumSymbols[i]? with
    | some c => .ok c
    | none => .error .indexError

def EinArg.asArr : EinArg R → Except PyErr (NDArray R)
  | .arr a => .ok a
  | _ => .error .typeError

def EinArg.asIdx : EinArg R → Except PyErr (List Nat)
  | .idx l => .ok l
  | _ => .error .typeError

/-- `",".join`. -/
def commaJoin : List (List Char) → List Char
  | [] => []
  | [s] => s
  | s :: l => s ++ ',' :: commaJoin l

/-- einsumfunc.py:90-109: the integer list form. -/
def parseList (operands : List (EinArg R)) : Except PyErr (List Char × List (NDArray R)) := do
  let ops ← (everySecond operands.dropLast).mapM EinArg.asArr
  let subs ← (everySecond operands.tail).mapM EinArg.asIdx
  let strs ← subs.mapM symbolsOf
  if operands.length % 2 = 1 then
    match operands.getLast? with
    | some o => do
      let out ← o.asIdx
      let o ← symbolsOf out
      pure (commaJoin strs ++ "->".toList ++ o, ops)
    | none => .error .indexError
  else pure (commaJoin strs, ops)

/-- `s.count("->")`. -/
def countArrow : List Char → Nat
  | [] => 0
  | [_] => 0
  | a :: b :: l => if a = '-' ∧ b = '>' then countArrow l + 1 else countArrow (b :: l)

/-- `s.split("->")` for a string with one arrow. -/
def splitArrow : List Char → List Char × List Char
  | [] => ([], [])
  | [a] => ([a], [])
  | a :: b :: l =>
    if a = '-' ∧ b = '>' then ([], l)
    else ((a :: (splitArrow (b :: l)).1), (splitArrow (b :: l)).2)

/-- einsumfunc.py:183-188: the implicit output. -/
def implicitOutput (sub : List Char) : Except PyErr (List Char) :=
  let tmp := sub.filter fun c => decide (c ≠ ',')
  let cs := sortChars (unique tmp)
  if cs.all fun c => decide (c ∈ einsumSymbols) then .ok (cs.filter fun c => decide (tmp.count c = 1))
  else .error .valueError

/-- einsumfunc.py:176-197: the output and its check. -/
def parseTail (bound : Bool) (sub : List Char) (ops : List (NDArray R)) : Except PyErr (EinInput R) := do
  let (inp, out) ← if countArrow sub = 1 then pure (splitArrow sub)
    else do
      let o ← implicitOutput sub
      pure (sub, o)
  if out.all fun c => decide (out.count c = 1) && decide (c ∈ inp) then pure (inp, out, ops)
  else if bound then .error .valueError else .error .nameError

/-- einsumfunc.py:111-197: the part common to both forms.  `bound` tells whether the variable `s` used
in the error messages (193, 195) has been assigned: it has in the string form and in the implicit
output loop, but not in the list form with an output list, where formatting the message raises
`UnboundLocalError` (a `NameError`). -/
def parseCommon (bound : Bool) (sub : List Char) (ops : List (NDArray R)) :
    Except PyErr (EinInput R) :=
  if ('-' ∈ sub ∨ '>' ∈ sub) ∧ (sub.count '-' > 1 ∨ sub.count '>' > 1 ∨ countArrow sub ≠ 1) then
    .error .valueError
  else if '.' ∈ sub then .error .notImplementedError
  else parseTail bound sub ops

/-- einsumfunc.py:55-197 `_parse_einsum_input`. -/
def parseEinsumInput [Neg R] (operands : List (EinArg R)) : Except PyErr (EinInput R) :=
  match operands with
  | [] => .error .valueError
  | .str s :: rest => do
    let ops ← rest.mapM EinArg.asArr
    let r ← parseStr s ops
    parseCommon true r.1 r.2
  | _ => do
    let r ← parseList operands
    parseCommon (decide (operands.length % 2 = 0 ∧ r.1 ≠ [])) r.1 r.2

end

end Ebcc
