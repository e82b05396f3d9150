import Verif.Model.Py
/-!
Model of `ebcc/core/precision.py` lines 20-82: the global dictionary `types`, `set_precision`, the context managers
`precision` and `single_precision`, and the programs that use them.
-/

namespace Ebcc

/-- precision.py:20-30 the dictionary `types`, with the keys `float` and `complex`. -/
structure Prec (D : Type) where
  float : D
  complex : D
  deriving DecidableEq

section
variable {D : Type}

/-- precision.py:50-58 `set_precision`; other keyword arguments are ignored. -/
def setPrecision (kwargs : Dict (List Char) D) (t : Prec D) : Prec D :=
  ⟨(kwargs.get? "float".toList).getD t.float, (kwargs.get? "complex".toList).getD t.complex⟩

/-- precision.py:69-72: the saved settings. -/
def oldPrecision (t : Prec D) : Dict (List Char) D := [("float".toList, t.float), ("complex".toList, t.complex)]

/-- Programs: look at the settings (`astype`, precision.py:33-47), call `set_precision`, return from the function,
raise, sequences, `with precision(**kwargs): …`, `try: … except: pass`, and a call of a function with the given
body. -/
inductive PrecProg (D : Type)
  | look
  | set (kwargs : Dict (List Char) D)
  | ret
  | fail (e : PyErr)
  | skip
  | seq (p q : PrecProg D)
  | within (kwargs : Dict (List Char) D) (p : PrecProg D)
  | attempt (p : PrecProg D)
  | func (p : PrecProg D)

/-- How a statement ends. -/
inductive PyExit
  | normal
  | returned
  | raised (e : PyErr)
  deriving DecidableEq

/-- The result of a statement: the settings, how it ended, and the settings that were looked at. -/
abbrev PrecRun (D : Type) := Prec D × PyExit × List (Prec D)

/-- Execution.  `contextmanager` resumes the generator after the `yield` if the body ends normally or by a `return`;
if the body raises, the exception is thrown into the generator at the `yield`, which has no `try`, so line 75 is not
executed (precision.py:61-75).  `single_precision` (78-82) is `within [float32, complex64]`: the exception passes through both generators. -/
def execPrec : PrecProg D → Prec D → PrecRun D
  | .look, t => (t, .normal, [t])
  | .set kw, t => (setPrecision kw t, .normal, [])
  | .ret, t => (t, .returned, [])
  | .fail e, t => (t, .raised e, [])
  | .skip, t => (t, .normal, [])
  | .seq p q, t =>
    let r := execPrec p t
    match r.2.1 with
    | .normal =>
      let r' := execPrec q r.1
      (r'.1, r'.2.1, r.2.2 ++ r'.2.2)
    | x => (r.1, x, r.2.2)
  | .within kw p, t =>
    let old := oldPrecision t
    let r := execPrec p (setPrecision kw t)
    match r.2.1 with
    | .raised e => (r.1, .raised e, r.2.2)
    | x => (setPrecision old r.1, x, r.2.2)
  | .attempt p, t =>
    let r := execPrec p t
    match r.2.1 with
    | .raised _ => (r.1, .normal, r.2.2)
    | x => (r.1, x, r.2.2)
  | .func p, t =>
    let r := execPrec p t
    match r.2.1 with
    | .raised e => (r.1, .raised e, r.2.2)
    | _ => (r.1, .normal, r.2.2)

end

end Ebcc
