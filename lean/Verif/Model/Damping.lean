import Verif.Model.Py
import Mathlib.Algebra.Field.Defs
import Mathlib.Algebra.Module.Defs
import Mathlib.Order.Defs.LinearOrder
import Mathlib.Data.List.Sort

/-!
Model of `ebcc/core/damping.py`: `LinearDamping` and `DIIS`.

The arrays are elements of a module over the field of scalars with an inner product `dot`
(`np.dot(np.conj(np.ravel(x)), np.ravel(y))`).  Simplifications: exact arithmetic, real data (conjugation
is the identity), the backend switch is not modelled.  The solution of the linear system (lines 289-303,
`linalg.solve`, or the pseudo-inverse when that raises) is an external function `solve`.
-/

namespace Ebcc

/-! ### Linear damping -/

section
variable {V R : Type} [Add V] [One R] [Sub R] [SMul R V]

/-- damping.py:33-41 and 131-147, the state of `LinearDamping`. -/
structure LinState (V : Type) where
  arrays : Dict Nat V
  counter : Nat

/-- damping.py:37-41. -/
def LinState.init : LinState V := ⟨[], 0⟩

/-- `min(d.keys())`, `ValueError` for an empty dictionary. -/
def minKey (d : Dict Nat V) : Except PyErr Nat :=
  match d.keys with
  | [] => .error .valueError
  | k :: l => .ok (l.foldl min k)

/-- damping.py:149-159 `LinearDamping.push`. -/
def LinState.push (st : LinState V) (array : V) : Except PyErr (LinState V) := do
  let arrays ← if st.arrays.length = 2 then do
      let k ← minKey st.arrays
      pure (st.arrays.erase k)
    else pure st.arrays
  pure ⟨arrays.set st.counter array, st.counter + 1⟩

/-- damping.py:161-170 `LinearDamping.extrapolate`.  `next(iter({}.values()))` raises `StopIteration`,
modelled as `ValueError`; unpacking anything but two items raises `ValueError`. -/
def LinState.extrapolate (factor : R) (st : LinState V) : Except PyErr V :=
  if st.arrays.length < 2 then
    match st.arrays with
    | (_, x) :: _ => .ok x
    | [] => .error .valueError
  else
    match st.arrays.insertionSort fun a b => a.1 ≤ b.1 with
    | [(_, previous), (_, current)] => .ok ((1 - factor) • current + factor • previous)
    | _ => .error .valueError

/-- damping.py:43-54 `__call__`; the error is ignored. -/
def LinState.call (factor : R) (st : LinState V) (array : V) : Except PyErr (V × LinState V) := do
  let st ← st.push array
  let x ← st.extrapolate factor
  pure (x, st)

/-- A sequence of calls, with all outputs. -/
def LinState.run (factor : R) : LinState V → List V → Except PyErr (List V × LinState V)
  | st, [] => .ok ([], st)
  | st, a :: l => do
    let (x, st) ← st.call factor a
    let (xs, st) ← st.run factor l
    pure (x :: xs, st)

end

/-! ### DIIS -/

/-- damping.py:33-41 and 204, the state of `DIIS`. -/
structure DIIS (V R : Type) where
  arrays : Dict Int V
  errors : Dict Int V
  counter : Int
  cache : Dict (Int × Int) R
deriving DecidableEq, Repr

/-- damping.py:176-203, the settings of `DIIS`. -/
structure DIISConfig (R : Type) where
  space : Nat
  minSpace : Nat
  factor : R

section
variable {V R : Type} [Field R] [LinearOrder R] [AddCommGroup V] [Module R V]

/-- damping.py:37-41, 204 and 324-327 `__init__` and `reset`. -/
def DIIS.init : DIIS V R := ⟨[], [], 0, []⟩

/-- damping.py:206-225 `_error_norm`: the value and the new cache. -/
def errorNorm (dot : V → V → R) (errors : Dict Int V) (cache : Dict (Int × Int) R) (i j : Int) :
    Except PyErr (R × Dict (Int × Int) R) :=
  match cache.get? (i, j) with
  | some x => .ok (x, cache)
  | none => do
    let ei ← errors.getItem i
    let ej ← errors.getItem j
    let inner := dot ei ej
    pure (inner, (cache.set (i, j) inner).set (j, i) inner)

/-- The norms for a list of pairs of keys, in order. -/
def errorNorms (dot : V → V → R) (errors : Dict Int V) :
    Dict (Int × Int) R → List (Int × Int) → Except PyErr (List R × Dict (Int × Int) R)
  | cache, [] => .ok ([], cache)
  | cache, (i, j) :: l => do
    let (x, cache) ← errorNorm dot errors cache i j
    let (xs, cache) ← errorNorms dot errors cache l
    pure (x :: xs, cache)

/-- damping.py:274-279: the rows of the matrix of inner products. -/
def errorRows (dot : V → V → R) (errors : Dict Int V) (counters : List Int) :
    Dict (Int × Int) R → List Int → Except PyErr (List (List R) × Dict (Int × Int) R)
  | cache, [] => .ok ([], cache)
  | cache, i :: l => do
    let (row, cache) ← errorNorms dot errors cache (counters.map fun j => (i, j))
    let (rows, cache) ← errorRows dot errors counters cache l
    pure (row :: rows, cache)

/-- `max(errors, key=errors.__getitem__)`: the first key with the largest value. -/
def argMax : Int × R → List (Int × R) → Int
  | best, [] => best.1
  | best, x :: l => if best.2 < x.2 then argMax x l else argMax best l

/-- damping.py:241-253: store a vector and its error, remove the one with the largest error. -/
def DIIS.store (dot : V → V → R) (cfg : DIISConfig R) (st : DIIS V R) (array error : V) :
    Except PyErr (DIIS V R) := do
  let arrays := st.arrays.set st.counter array
  let errors := st.errors.set st.counter error
  let counter := st.counter + 1
  if arrays.length > cfg.space then
    let (norms, cache) ← errorNorms dot errors st.cache (errors.keys.map fun k => (k, k))
    match errors.keys.zip norms with
    | [] => .error .valueError
    | x :: l =>
      let k := argMax x l
      pure ⟨arrays.erase k, errors.erase k, counter, cache⟩
  else pure ⟨arrays, errors, counter, st.cache⟩

/-- damping.py:227-253 `push`. -/
def DIIS.push (dot : V → V → R) (cfg : DIISConfig R) (st : DIIS V R) (array : V) (error : Option V) :
    Except PyErr (DIIS V R) :=
  match error, st.arrays.get? (-1) with
  | none, some prev => st.store dot cfg array (array - prev)
  | none, none => .ok { st with arrays := st.arrays.set (-1) array }
  | some e, _ =>
    if st.arrays.length = 0 then .ok { st with arrays := st.arrays.set (-1) array }
    else st.store dot cfg array e

/-- damping.py:280-282: the matrix of the linear system. -/
def diisMatrix (rows : List (List R)) : List (List R) :=
  rows.map (fun row => row ++ [-1]) ++ [List.replicate rows.length (-1) ++ [0]]

/-- damping.py:284-287: the right-hand side. -/
def diisResidual (n : Nat) : List R := List.replicate n 0 ++ [-1]

/-- damping.py:306-311: a combination of stored vectors. -/
def combine (d : Dict Int V) (counters : List Int) (c : List R) : Except PyErr V := do
  let terms ← (counters.zip c).mapM fun (k, x) => do
    let v ← d.getItem k
    pure (x • v)
  pure (terms.foldl (· + ·) 0)

/-- damping.py:255-322 `extrapolate`.  With no stored error and `min_space = 0` the block matrix cannot be
built (`ValueError`). -/
def DIIS.extrapolate (dot : V → V → R) (solve : List (List R) → List R → List R) (cfg : DIISConfig R)
    (st : DIIS V R) : Except PyErr (V × DIIS V R) := do
  let counters := st.errors.keys.insertionSort (· ≤ ·)
  let size := counters.length
  if size < cfg.minSpace then
    let x ← st.arrays.getItem (-1)
    pure (x, st)
  else if size = 0 then .error .valueError
  else
    let (rows, cache) ← errorRows dot st.errors counters st.cache counters
    let c := solve (diisMatrix rows) (diisResidual size)
    let array ← combine st.arrays counters c
    let error ← combine st.errors counters c
    let array ← if cfg.factor ≠ 0 then do
        let prev ← st.arrays.getItem (-1)
        pure ((1 - cfg.factor) • array + cfg.factor • prev)
      else pure array
    pure (array, ⟨(st.arrays.set (-1) array).set st.counter array, st.errors.set st.counter error,
      st.counter, cache⟩)

/-- damping.py:43-54 `__call__`. -/
def DIIS.call (dot : V → V → R) (solve : List (List R) → List R → List R) (cfg : DIISConfig R)
    (st : DIIS V R) (array : V) (error : Option V) : Except PyErr (V × DIIS V R) := do
  let st ← st.push dot cfg array error
  st.extrapolate dot solve cfg

/-- The operations of a user. -/
inductive DIISOp (V : Type) where
  | call (array : V) (error : Option V)
  | reset

/-- A sequence of operations; outputs of the calls are collected. -/
def DIIS.run (dot : V → V → R) (solve : List (List R) → List R → List R) (cfg : DIISConfig R) :
    DIIS V R → List (DIISOp V) → Except PyErr (List V × DIIS V R)
  | st, [] => .ok ([], st)
  | st, .call a e :: l => do
    let (x, st) ← st.call dot solve cfg a e
    let (xs, st) ← DIIS.run dot solve cfg st l
    pure (x :: xs, st)
  | _, .reset :: l => DIIS.run dot solve cfg DIIS.init l

end

end Ebcc
