import Verif.Model.Einsum
import Verif.Model.InitAmps
import Verif.Model.Convert
/-!
Model of `ebcc/opt/gbrueckner.py`, `rbrueckner.py`, `ubrueckner.py`: `transform_amplitudes`,
`mo_to_correlated`, `mo_update_correlated`, `update_coefficients`.  `get_rotation_matrix` uses `expm`,
`logm` and `det` of scipy and numpy and is not modelled: the rotation matrices are arguments.
-/

namespace Ebcc

section
variable {R : Type}

/-- The type of `numpy.einsum_path` as used by `util.einsum`. -/
abbrev PathFn (R : Type) := List (List Char) → List Char → List (NDArray R) → List Contraction

/-- `u[lo:hi, lo:hi]` of a matrix. -/
def squareSlice [Zero R] (u : NDArray R) (lo hi : Nat) : NDArray R :=
  NDArray.ofFn ((u.shape.take 2).map fun n => min hi n - lo) fun idx => u.get (idx.map fun i => i + lo)

/-- gbrueckner.py:96-104, rbrueckner.py:96-104 (ubrueckner.py:116-121): the arguments of `einsum` that rotate an
array with `n` occupied and `n` virtual indices. -/
def rotateArgs (n : Nat) (x : NDArray R) (ci ca : Nat → Except PyErr (NDArray R)) : Except PyErr (List (EinArg R)) := do
  let args : List (EinArg R) := [.arr x, .idx (List.range (n * 2))]
  let args ← (List.range n).foldlM (fun args i => do
    let c ← ci i
    pure (args ++ [.arr c, .idx [i, i + n * 2]])) args
  let args ← (List.range n).foldlM (fun args i => do
    let c ← ca i
    pure (args ++ [.arr c, .idx [i + n, i + n * 3]])) args
  pure (args ++ [.idx ((List.range (n * 2)).map fun i => i + n * 2)])

/-- Raises `ModelNotImplemented` unless the ansatz has fermionic amplitudes only (gbrueckner.py:107-113). -/
def noBosons (a : Ansatz) : Except PyErr Unit := do
  let bs ← bosonicClusterRanks a.bosonAnsatz .t
  if bs ≠ [] then throw PyErr.modelNotImplemented
  let cs ← couplingClusterRanks a.fermionCouplingRank a.bosonCouplingRank .t
  if cs ≠ [] then throw PyErr.modelNotImplemented

/-- gbrueckner.py:75-115, rbrueckner.py:75-115 `transform_amplitudes`.  The amplitudes are always those of the
coupled cluster object (`self.cc.amplitudes`), which are changed in place: the argument `amplitudes` has no effect and
is left out.  When `ModelNotImplemented` is raised the fermionic amplitudes have already been replaced; here only the
exception is returned. -/
def transformAmplitudes [CommRing R] [DecidableEq R] (method : ContractMethod) (path : PathFn R) (a : Ansatz)
    (spin : SpinType) (space : Space) (u : NDArray R) (amps : Dict (List Char) (NDArray R)) :
    Except PyErr (Dict (List Char) (NDArray R)) := do
  let nocc := space.ncocc
  let ci := squareSlice u 0 nocc
  let ca := squareSlice u nocc (u.shape.headD 0)
  let fs ← fermionicClusterRanks a.fermionAnsatz spin .t
  let amps ← fs.foldlM (fun (amps : Dict (List Char) (NDArray R)) r => do
    let x ← amps.getItem r.1
    let args ← rotateArgs r.2.2 x (fun _ => .ok ci) (fun _ => .ok ca)
    let y ← einsum method path args 1 0 none
    pure (amps.set r.1 y)) amps
  noBosons a
  pure amps

/-- `{"a": x, "b": y}[s]`. -/
def spinItem2 {V : Type} (x y : V) (s : Option Char) : Except PyErr V :=
  match s with
  | some 'a' => .ok x
  | some 'b' => .ok y
  | some _ => .error .keyError
  | none => .error .indexError

/-- `setattr(namespace, spin, value)`. -/
def UVal.setAttr (v : UVal R) (s : List Char) (y : NDArray R) : Except PyErr (UVal R) :=
  match v with
  | .spins d => .ok (.spins (d.set s y))
  | .array _ => .error .attributeError

/-- ubrueckner.py:114-122: one rank.  The loop over the spin combinations only assigns `args` (its body is the one
line 116), so that after the loop `args` and `comb` are those of the last combination. -/
def uRotateRank [CommRing R] [DecidableEq R] (method : ContractMethod) (path : PathFn R) (ci ca : Option Char →
    Except PyErr (NDArray R)) (n : Nat) (v : UVal R) : Except PyErr (UVal R) := do
  let last ← (generateSpinCombinations n false true).foldlM (fun _ comb => do
    let x ← v.attr comb
    pure (some (comb, x))) (none : Option (List Char × NDArray R))
  match last with
  | none => .error .nameError
  | some (comb, x) => do
    let args ← rotateArgs n x (fun i => ci comb[i]?) (fun i => ca comb[i + n]?)
    let y ← einsum method path args 1 0 none
    v.setAttr comb y

/-- ubrueckner.py:94-132 `transform_amplitudes`. -/
def uTransformAmplitudes [CommRing R] [DecidableEq R] (method : ContractMethod) (path : PathFn R) (a : Ansatz)
    (sa sb : Space) (ua ub : NDArray R) (amps : Dict (List Char) (UVal R)) :
    Except PyErr (Dict (List Char) (UVal R)) := do
  let ci := spinItem2 (squareSlice ua 0 sa.ncocc) (squareSlice ub 0 sb.ncocc)
  let ca := spinItem2 (squareSlice ua sa.ncocc (ua.shape.headD 0)) (squareSlice ub sb.ncocc (ub.shape.headD 0))
  let fs ← fermionicClusterRanks a.fermionAnsatz .U .t
  let amps ← fs.foldlM (fun (amps : Dict (List Char) (UVal R)) r => do
    let v ← amps.getItem r.1
    let w ← uRotateRank method path ci ca r.2.2 v
    pure (amps.set r.1 w)) amps
  noBosons a
  pure amps

/-! ### Orbital coefficients -/

/-- `np.nonzero(mask)[0]`. -/
def maskInds (mask : List Bool) : List Nat := (List.range mask.length).filter fun i => mask.getD i false

/-- gbrueckner.py:131-140 `mo_to_correlated`: `mo_coeff[:, correlated]`.  numpy raises `IndexError` if the mask has
not one element for each column. -/
def moToCorrelated [Zero R] (space : Space) (mo : NDArray R) : Except PyErr (NDArray R) :=
  match mo.shape with
  | [r, c] =>
    if c = space.correlated.length then .ok (ixGet mo [List.range r, maskInds space.correlated])
    else .error .indexError
  | _ => .error .indexError

/-- gbrueckner.py:142-157 `mo_update_correlated`: `_put(mo_coeff, np.ix_(arange, correlated), mo_coeff_corr)`,
with `_put` of the numpy backend (backend/__init__.py:127-133): `ravel_multi_index` of the grid (`ValueError` if an
index is too large), then `np.put` on the flattened array. -/
def moUpdateCorrelated [Zero R] (space : Space) (mo corr : NDArray R) : Except PyErr (NDArray R) :=
  match mo.shape with
  | [r, c] =>
    if (maskInds space.correlated).all fun q => decide (q < c) then
      .ok ⟨[r, c], putFlat mo.data ((List.range r).flatMap fun p =>
        (maskInds space.correlated).map fun q => ravelIdx [r, c] [p, q]) corr.data⟩
    else .error .valueError
  | _ => .error .indexError

/-- gbrueckner.py:159-174 `update_coefficients`. -/
def updateCoefficients [CommRing R] [DecidableEq R] (method : ContractMethod) (path : PathFn R) (space : Space)
    (uTot mo ref : NDArray R) : Except PyErr (NDArray R) := do
  let new ← einsum method path [.str "pi,ij->pj".toList, .arr ref, .arr uTot] 1 0 none
  moUpdateCorrelated space mo new

/-- ubrueckner.py:195-216 `update_coefficients`: both spins. -/
def uUpdateCoefficients [CommRing R] [DecidableEq R] (method : ContractMethod) (path : PathFn R) (sa sb : Space)
    (ua ub : NDArray R) (mo ref : NDArray R × NDArray R) : Except PyErr (NDArray R × NDArray R) := do
  let na ← einsum method path [.str "pi,ij->pj".toList, .arr ref.1, .arr ua] 1 0 none
  let nb ← einsum method path [.str "pi,ij->pj".toList, .arr ref.2, .arr ub] 1 0 none
  let xa ← moUpdateCorrelated sa mo.1 na
  let xb ← moUpdateCorrelated sb mo.2 nb
  pure (xa, xb)

end

end Ebcc
