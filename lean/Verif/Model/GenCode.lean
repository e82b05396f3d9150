import Verif.Model.Einsum
import Verif.Model.Compress
import Mathlib.Algebra.Field.Defs
/-!
Model of the generated functions in `ebcc/codegen/*.py`.

The body of a generated function is a sequence of statements of a few forms: a contraction, a copy or a
transpose, times a number, is assigned or added to a variable; variables are deleted; a dictionary of
variables is returned.  `GenStmt` is the syntax of these statements and `GenFun.call` runs them, with the
model of `einsum`.  The functions themselves are in `Verif/Gen`, written by `tools/gencode.py` from the
text of the modules.

Simplifications: variables are numbered (the comments in `Verif/Gen` have the names); an attribute of a namespace, like
`t2.aaaa`, counts as a variable; `einsum` with a string is written with integer labels (the two forms
agree, C16); a coefficient like `0.16666666666666` is the fraction it approximates, here `1/6`; a scalar
is an array without axes.
-/

namespace Ebcc

open Lean in
/-- `chars! "abc"` is the list of characters `['a', 'b', 'c']`. -/
macro "chars!" s:str : term => do
  let cs := s.getString.toList.toArray.map fun c => (Syntax.mkCharLit c : TSyntax `term)
  `([$cs,*])

/-- Expressions: `np.copy(y)`, `np.transpose(y, perm)` and `einsum(y, labels, ..., out)`. -/
inductive GenExpr
  | cp (y : Nat)
  | tr (y : Nat) (perm : List Nat)
  | ein (ops : List (Nat × List Nat)) (out : List Nat)

/-- Statements: `x = e * (num / den)`, `x += e * (num / den)`, `x = np.zeros(...)` with the sizes of the
given spaces, `x = np.eye(n)` with the size of the given space, `del x`. -/
inductive GenStmt
  | set (x : Nat) (e : GenExpr) (num : Int) (den : Nat)
  | add (x : Nat) (e : GenExpr) (num : Int) (den : Nat)
  | zeros (x : Nat) (spaces : List Nat)
  | eye (x : Nat) (space : Nat)
  | del (x : Nat)

/-- A generated function.  The variables numbered below `args.length` are the arguments, with the given
names; `ret` are the entries of the returned dictionary. -/
structure GenFun where
  args : List (List Char)
  body : List GenStmt
  ret : List (List Char × Nat)

section
variable {R : Type}

/-- The values of the variables. -/
abbrev GenStore (R : Type) := Nat → Option (NDArray R)

/-- The value of a variable, `NameError` (or `AttributeError`) if there is none. -/
def GenStore.load (st : GenStore R) (x : Nat) : Except PyErr (NDArray R) :=
  match st x with
  | some a => .ok a
  | none => .error .nameError

/-- The arguments of a call of `einsum` with integer labels. -/
def einArgs (ops : List (NDArray R × List Nat)) (out : List Nat) : List (EinArg R) :=
  ops.flatMap (fun p => [.arr p.1, .idx p.2]) ++ [.idx out]

/-- The values of the operands of a contraction. -/
def GenStore.loadAll (st : GenStore R) : List (Nat × List Nat) → Except PyErr (List (NDArray R × List Nat))
  | [] => .ok []
  | (y, ls) :: ops => do
    let a ← st.load y
    let r ← GenStore.loadAll st ops
    pure ((a, ls) :: r)

/-- The value of an expression.  `method` is the contraction method of the package and `path` stands for
`numpy.einsum_path`. -/
def GenExpr.eval [Field R] [DecidableEq R] (method : ContractMethod)
    (path : List (List Char) → List Char → List (NDArray R) → List Contraction) (st : GenStore R) :
    GenExpr → Except PyErr (NDArray R)
  | .cp y => st.load y
  | .tr y perm => do
    let a ← st.load y
    a.transpose perm
  | .ein ops out => do
    let l ← st.loadAll ops
    einsum method path (einArgs l out) 1 0 none

/-- The value times the coefficient. -/
def NDArray.times [Field R] (a : NDArray R) (num : Int) (den : Nat) : NDArray R :=
  a.map fun x => x * ((num : R) / (den : R))

/-- `np.eye(n)`. -/
def eyeArr [Field R] (n : Nat) : NDArray R :=
  NDArray.ofFn [n, n] fun idx => if idx.getD 0 0 = idx.getD 1 0 then 1 else 0

/-- One statement; `sizes` gives the number of orbitals of each space. -/
def GenStmt.exec [Field R] [DecidableEq R] (method : ContractMethod)
    (path : List (List Char) → List Char → List (NDArray R) → List Contraction) (sizes : Nat → Nat)
    (st : GenStore R) : GenStmt → Except PyErr (GenStore R)
  | .set x e num den => do
    let a ← e.eval method path st
    pure (Function.update st x (some (a.times num den)))
  | .add x e num den => do
    let a ← e.eval method path st
    let b ← st.load x
    let c ← b.add (a.times num den)
    pure (Function.update st x (some c))
  | .zeros x sp => .ok (Function.update st x (some (NDArray.zeros (sp.map sizes))))
  | .eye x s => .ok (Function.update st x (some (eyeArr (sizes s))))
  | .del x =>
    match st x with
    | some _ => .ok (Function.update st x none)
    | none => .error .nameError

/-- The statements in order. -/
def execAll [Field R] [DecidableEq R] (method : ContractMethod)
    (path : List (List Char) → List Char → List (NDArray R) → List Contraction) (sizes : Nat → Nat) :
    List GenStmt → GenStore R → Except PyErr (GenStore R)
  | [], st => .ok st
  | s :: l, st => do
    let st' ← s.exec method path sizes st
    execAll method path sizes l st'

/-- The arguments as variables. -/
def bindPositional (vals : List Char → Option (NDArray R)) : List (List Char) → Nat → GenStore R →
    Except PyErr (GenStore R)
  | [], _, st => .ok st
  | name :: l, k, st =>
    match vals name with
    | some a => bindPositional vals l (k + 1) (Function.update st k (some a))
    | none => .error .attributeError

/-- The returned dictionary. -/
def collect (st : GenStore R) : List (List Char × Nat) → Except PyErr (Dict (List Char) (NDArray R))
  | [] => .ok []
  | (name, x) :: l => do
    let a ← st.load x
    let r ← collect st l
    pure ((name, a) :: r)

/-- A call of a generated function, with the values of the arguments by name. -/
def GenFun.call [Field R] [DecidableEq R] (g : GenFun) (method : ContractMethod)
    (path : List (List Char) → List Char → List (NDArray R) → List Contraction) (sizes : Nat → Nat)
    (vals : List Char → Option (NDArray R)) : Except PyErr (Dict (List Char) (NDArray R)) := do
  let st ← bindPositional vals g.args 0 (fun _ => none)
  let st ← execAll method path sizes g.body st
  collect st g.ret

end

end Ebcc
