import Verif.Model.Py
import Mathlib.Logic.Function.Basic
/-!
Model of the context managers of `ebcc/ext/tcc.py` (`BaseTailor`, lines 41-126) and `ebcc/ext/eccc.py`
(`BaseExternalCorrection`, lines 49-166), and of the programs that use them.

Context objects are numbers.  The function stored in `cc.update_amps` is either the method of the class or the closure
created by the last `__enter__` of a context object; the closure refers to the object, not to the function saved at the
time (tcc.py:109-110, eccc.py:147-148).  What a closure does besides calling the saved function is a parameter, the
same at every entry of the object.
-/

namespace Ebcc

/-- The value of `cc.update_amps`. -/
inductive UpdateFn
  | original
  | wrapped (c : Nat)
  deriving DecidableEq

/-- `cc.update_amps`, and `_update_amps_old` of every context object. -/
structure CtxState where
  current : UpdateFn
  saved : Nat → Option UpdateFn

/-- What the functions do. -/
structure CtxEnv (A : Type) where
  /-- the method `update_amps` of the class -/
  orig : A → Except PyErr A
  /-- eccc.py:113-121: the work in `__enter__` that can fail; does nothing for tailoring -/
  prepare : Nat → Except PyErr Unit
  /-- eccc.py:127-144: the work of the closure before it calls the saved function; does nothing for tailoring -/
  before : Nat → A → Except PyErr Unit
  /-- tcc.py:112-113, eccc.py:150-153: the change made to the result of the saved function; the arguments of the closure
  are passed as well -/
  after : Nat → A → A → Except PyErr A

section
variable {A : Type}

/-- A call of an update function (tcc.py:103-115, eccc.py:123-155); `fuel` is the depth of the Python stack that is
left. -/
def callUpdate (env : CtxEnv A) (saved : Nat → Option UpdateFn) : Nat → UpdateFn → A → Except PyErr A
  | 0, _, _ => .error .recursionError
  | _ + 1, .original, x => env.orig x
  | fuel + 1, .wrapped c, x => do
    env.before c x
    match saved c with
    | none => .error .assertionError
    | some f => do
      let r ← callUpdate env saved fuel f x
      env.after c x r

/-- Programs: calls of `cc.update_amps`, exceptions, sequences, `with c: …` and `try: … except: pass`. -/
inductive CtxProg (A : Type)
  | call (x : A)
  | fail (e : PyErr)
  | skip
  | seq (p q : CtxProg A)
  | within (c : Nat) (p : CtxProg A)
  | attempt (p : CtxProg A)

/-- What a program shows: whether it ended with an exception, and the results of the calls. -/
abbrev Shown (A : Type) := Except PyErr Unit × List (Except PyErr A)

/-- The outcome of a call that is not caught. -/
def outcome {B : Type} (r : Except PyErr B) : Except PyErr Unit := r.map fun _ => ()

/-- tcc.py:98-119, eccc.py:109-159 `__enter__`; with the error raised, if any. -/
def ctxEnter (env : CtxEnv A) (c : Nat) (st : CtxState) : CtxState × Except PyErr Unit :=
  let st1 : CtxState := { st with saved := Function.update st.saved c (some st.current) }
  match env.prepare c with
  | .error e => (st1, .error e)
  | .ok _ => ({ st1 with current := .wrapped c }, .ok ())

/-- tcc.py:121-126, eccc.py:161-166 `__exit__`. -/
def ctxExit (c : Nat) (st : CtxState) : CtxState × Except PyErr Unit :=
  match st.saved c with
  | none => (st, .error .assertionError)
  | some f => (⟨f, Function.update st.saved c none⟩, .ok ())

/-- Execution of a program.  `__exit__` returns `None`, so exceptions of the body go on; an exception in `__exit__`
replaces that of the body; if `__enter__` raises neither the body nor `__exit__` is executed. -/
def execCtx (env : CtxEnv A) (fuel : Nat) : CtxProg A → CtxState → CtxState × Shown A
  | .call x, st =>
    let r := callUpdate env st.saved fuel st.current x
    (st, outcome r, [r])
  | .fail e, st => (st, .error e, [])
  | .skip, st => (st, .ok (), [])
  | .seq p q, st =>
    let r := execCtx env fuel p st
    match r.2.1 with
    | .error e => (r.1, .error e, r.2.2)
    | .ok _ =>
      let r' := execCtx env fuel q r.1
      (r'.1, r'.2.1, r.2.2 ++ r'.2.2)
  | .within c p, st =>
    match ctxEnter env c st with
    | (st1, .error e) => (st1, .error e, [])
    | (st1, .ok _) =>
      let r := execCtx env fuel p st1
      match ctxExit c r.1 with
      | (st2, .error e) => (st2, .error e, r.2.2)
      | (st2, .ok _) => (st2, r.2.1, r.2.2)
  | .attempt p, st =>
    let r := execCtx env fuel p st
    (r.1, .ok (), r.2.2)

end

end Ebcc
