import Verif.Model.Tailor
import Mathlib.Algebra.BigOperators.Fin
import Mathlib.Algebra.Star.Basic
/-!
Model of `ebcc/core/davidson.py` lines 134-408.

Arrays with `d` columns are lists of functions on `Fin d` (their rows); an array of eigenvectors is the list of its
columns with the number of its rows.  The contractions `util.einsum` are written as the sums they stand for (C17).
Parameters: the product with the matrix, the eigensolver together with `pick` (lines 70-131), the preconditioner (lines
37-67), the 2-norm, and the comparisons with the tolerances.  The callback is not modelled.
-/

namespace Ebcc

section
variable {K : Type} [Field K] [StarRing K] {d : Nat}

/-- A row of an array with `d` columns. -/
abbrev DVec (K : Type) (d : Nat) := Fin d → K

/-- `np.dot(np.conj(a), b)`. -/
def dotc (a b : DVec K d) : K := ∑ k, star (a k) * b k

/-- `util.einsum("ik,jk->ij", np.conj(a), b)`. -/
def gram (a b : List (DVec K d)) : NDArray K :=
  NDArray.ofFn [a.length, b.length] fun idx => dotc (a.getD (idx.getD 0 0) 0) (b.getD (idx.getD 1 0) 0)

/-- davidson.py:134-177 `_fill_subspace_matrix`. -/
def fillSubspace (matrix : NDArray K) (basis mbasis trial mtrial : List (DVec K d)) : Except PyErr (NDArray K) := do
  let row1 := mbasis.length
  let row0 := row1 - mtrial.length
  let num := row1 - row0
  let itrial := List.range' row0 (row1 - row0)
  let ibasis := List.range row0
  let matrix ← putIx matrix [itrial, itrial] (gram trial mtrial)
  let matrix ← putIx matrix [ibasis, itrial] (gram (basis.take row0) (mtrial.take num))
  putIx matrix [itrial, ibasis] (gram (trial.take num) (mbasis.take row0))

/-- The numerical parameters. -/
structure DavEnv (K : Type) (d : Nat) where
  /-- the product with the matrix -/
  matvec : DVec K d → DVec K d
  /-- lines 344-346: eigenvalues and eigenvectors (columns) of the given matrix, after `pick` -/
  solve : NDArray K → Nat → List (DVec K d) → List K × List (Nat → K)
  /-- lines 400-403: the same, with the left eigenvectors of the chosen roots -/
  solveLeft : NDArray K → Nat → List (DVec K d) → List K × List (Nat → K)
  /-- line 379: the preconditioner -/
  precond : K → DVec K d → DVec K d
  /-- `np.linalg.norm(x, ord=2)` -/
  norm : DVec K d → K
  /-- `norm**2 > lindep_tol` -/
  indep : K → Bool
  /-- `np.abs(dw) < e_tol` -/
  steady : K → Bool
  /-- `norm < loose_tol` -/
  below : K → Bool
  /-- `np.max(norms) > 1` -/
  large : List K → Bool
  /-- `abs(x) < abs(y)` -/
  absLt : K → K → Bool

/-- `np.stack`: needs at least one array. -/
def npStack {X : Type} (l : List X) : Except PyErr (List X) := if l = [] then .error .valueError else .ok l

variable (env : DavEnv K d)

/-- davidson.py:218-220: one vector made orthogonal to others. -/
def orthogonalise (outs : List (DVec K d)) (v : DVec K d) : DVec K d :=
  outs.foldl (fun u o => fun k => u k - o k * dotc o u) v

/-- davidson.py:216-223 the loop of `_orthonormalise_vectors`. -/
def orthonormaliseLoop (vectors : List (DVec K d)) : List (DVec K d) :=
  vectors.foldl (fun outs v =>
    let u := orthogonalise outs v
    if env.indep (env.norm u) then outs ++ [fun k => u k / env.norm u] else outs) []

/-- davidson.py:206-224 `_orthonormalise_vectors`. -/
def orthonormalise (vectors : List (DVec K d)) : Except PyErr (List (DVec K d)) := npStack (orthonormaliseLoop env vectors)

/-- davidson.py:227-243 `_project_vectors`. -/
def projectVectors (vectors basis : List (DVec K d)) : List (DVec K d) :=
  vectors.map fun v => fun j => v j - (basis.map fun b => (∑ k, v k * star (b k)) * b j).sum

/-- davidson.py:246-258 `_normalise_vectors`. -/
def normaliseVectors (vectors : List (DVec K d)) : List (DVec K d) :=
  (vectors.filter fun v => env.indep (env.norm v)).map fun v => fun k => v k / env.norm v

/-- davidson.py:261-272 `_outer_product_to_subspace`; the number of rows must agree. -/
def outerProduct (rows : Nat) (v : List (Nat → K)) (basis : List (DVec K d)) : Except PyErr (List (DVec K d)) :=
  if rows = basis.length then
    .ok (v.map fun c => fun j => ((List.range rows).map fun x => c x * basis.getD x 0 j).sum)
  else .error .valueError

/-- `np.argmax` of the absolute values. -/
def argmaxAbs (l : List K) : Nat :=
  (List.range l.length).foldl (fun m i => if env.absLt (l.getD m 0) (l.getD i 0) then i else m) 0

/-- davidson.py:180-203 `_sort_eigenvalues`: the eigenvalues of the last iteration (the sorted flags are not used). -/
def sortEigenvalues (wPrev : List K) (head : Nat) (vPrev v : List (Nat → K)) : Except PyErr (List K) :=
  v.mapM fun c =>
    if vPrev = [] then .error .valueError
    else
      let i := argmaxAbs env (vPrev.map fun p => ((List.range head).map fun x => star (c x) * p x).sum)
      match wPrev[i]? with
      | none => .error .indexError
      | some x => .ok x

/-- The variables of the loop; `rows` is the number of rows of `v`. -/
structure DavState (K : Type) (d : Nat) where
  basis : List (DVec K d)
  mbasis : List (DVec K d)
  space : Nat
  matrix : NDArray K
  w : List K
  v : List (Nat → K)
  rows : Nat
  dw : List K
  norms : List K
  conv : List Bool
  restart : Bool
  vectors : List (DVec K d)
  trial : List (DVec K d)

/-- davidson.py:319-330: the basis to which the trial vectors are added, its products, its size, and the trial
vectors. -/
def davTrial (maxTrials : Nat) (st : DavState K d) :
    Except PyErr (List (DVec K d) × List (DVec K d) × Nat × List (DVec K d)) :=
  if st.restart then do
    let t ← orthonormalise env st.vectors
    pure ([], [], 0, t)
  else if st.trial.length > 1 then do
    let t ← orthonormalise env st.trial
    pure (st.basis, st.mbasis, st.space, t.take maxTrials)
  else pure (st.basis, st.mbasis, st.space, st.trial)

/-- davidson.py:355-356: the eigenvalues of the last iteration, sorted unless the subspace was restarted. -/
def prevValues (st : DavState K d) (v : List (Nat → K)) : Except PyErr (List K) :=
  if st.restart then .ok st.w else sortEigenvalues env st.w st.rows st.v v

/-- `matrix[:space, :space]`. -/
def leading (matrix : NDArray K) (space : Nat) : NDArray K := NDArray.ofFn [space, space] fun idx => matrix.get idx

/-- davidson.py:318-372 one iteration up to the convergence check. -/
def davSolve (nroots maxTrials : Nat) (st : DavState K d) : Except PyErr (DavState K d) := do
  let (basis, mbasis, space, trial) ← davTrial env maxTrials st
  let mtrial ← npStack (trial.map env.matvec)
  let basis := basis ++ trial
  let mbasis := mbasis ++ mtrial
  let space := space + trial.length
  let matrix ← fillSubspace st.matrix basis mbasis trial mtrial
  let sol := env.solve (leading matrix space) nroots basis
  if sol.1 = [] then .error .runtimeError
  else
    let w := sol.1.take nroots
    let v := sol.2.take nroots
    let wPrev ← prevValues env st v
    let dw := if wPrev.length = w.length then List.zipWith (· - ·) w wPrev else w
    let vectors ← outerProduct space v basis
    let mvectors ← outerProduct space v mbasis
    let residuals := (List.zip w (List.zip mvectors vectors)).map fun t => fun j => t.2.1 j - t.1 * t.2.2 j
    let norms := residuals.map env.norm
    let conv := (List.range w.length).map fun k => env.steady (dw.getD k 0) && env.below (norms.getD k 0)
    pure { basis := basis, mbasis := mbasis, space := space, matrix := matrix, w := w, v := v, rows := space, dw := dw,
           norms := norms, conv := conv, restart := st.restart, vectors := vectors, trial := residuals }

/-- davidson.py:318-393 one iteration, and whether the loop is left. -/
def davStep (nroots maxSpace maxTrials : Nat) (follow : Bool) (levelShift : K) (st : DavState K d) :
    Except PyErr (DavState K d × Bool) := do
  let s ← davSolve env nroots maxTrials st
  if s.conv.all id then pure (s, true)
  else if follow && env.large s.norms && decide (s.space > nroots + 4) then do
    let vectors ← outerProduct st.rows st.v s.basis
    pure ({ s with vectors := vectors, restart := true }, false)
  else
    let trial := normaliseVectors env (projectVectors (s.trial.map (env.precond (s.w.getD 0 0 - levelShift))) s.basis)
    if trial = [] then
      pure ({ s with trial := trial, conv := (s.conv.zip s.norms).map fun cn => cn.1 || env.below cn.2 }, true)
    else
      pure ({ s with trial := trial, restart := decide (s.space + nroots > maxSpace) }, false)

/-- The `for` loop: the state after the last iteration that is executed, and whether the loop was left by `break`. -/
def davLoop (nroots maxSpace maxTrials : Nat) (follow : Bool) (levelShift : K) :
    Nat → DavState K d → Except PyErr (DavState K d × Bool)
  | 0, st => .ok (st, false)
  | n + 1, st => do
    let (st, stop) ← davStep env nroots maxSpace maxTrials follow levelShift st
    if stop then pure (st, true) else davLoop nroots maxSpace maxTrials follow levelShift n st

/-- davidson.py:295, 305-316 the initial values; `junk` is the content of `np.empty`. -/
def davInit (nroots maxSpace : Nat) (junk : List Nat → K) (vectors : List (DVec K d)) : DavState K d :=
  { basis := [], mbasis := [], space := 0, matrix := NDArray.ofFn [maxSpace + nroots, maxSpace + nroots] junk,
    w := [], v := [], rows := 0, dw := [], norms := [], conv := List.replicate nroots false, restart := true,
    vectors := vectors, trial := [] }

/-- davidson.py:275-408 `davidson`: the flags, the eigenvalues and the (transposed) vectors. -/
def davidson (nroots maxIter maxSpace maxTrials : Nat) (follow left : Bool) (levelShift : K) (junk : List Nat → K)
    (vectors : List (DVec K d)) : Except PyErr (List Bool × List K × List (DVec K d)) := do
  let maxSpace := maxSpace + (nroots - 1) * 6
  let (st, _) ← davLoop env nroots maxSpace maxTrials follow levelShift maxIter (davInit nroots maxSpace junk vectors)
  if left then
    let sol := env.solveLeft (leading st.matrix st.space) nroots st.basis
    if sol.1 = [] then .error .runtimeError
    else do
      let vs ← outerProduct st.space (sol.2.take nroots) st.basis
      pure (st.conv, sol.1.take nroots, vs)
  else pure (st.conv, st.w, st.vectors)

end

end Ebcc
