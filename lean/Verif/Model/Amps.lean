import Verif.Model.Dirsum
import Verif.Model.Vectors

/-!
Model of the energy denominators and of the amplitude updates: `energy_sum` (`ebcc/cc/rebcc.py` 446-487,
`ebcc/cc/gebcc.py` 688-729 with the same text, `ebcc/cc/uebcc.py` 597-638), `update_amps` (`rebcc.py` 225-265,
`gebcc.py` 467-507 with the same text, `uebcc.py` 343-394) and `update_lams` (`rebcc.py` 267-329).

The residuals (generated code, 256 of `rebcc.py`) enter as an arbitrary function.  Arithmetic is exact; a
division by zero gives zero here and `inf` or `nan` in numpy, the theorems assume non-zero denominators.
-/

namespace Ebcc

section
variable {R : Type}

/-- The part of the object that `energy_sum` reads.  The first argument of `fock` is the spin (`'_'` in the
restricted and the generalised code), the second one the orbital class: `self.fock[s + s][k + k]`. -/
structure EnergyEnv (R : Type) where
  fock : Char → Char → Except PyErr (NDArray R)
  omega : Option (NDArray R)

/-- `np.diag` of a matrix. -/
def npDiag [Zero R] (a : NDArray R) : Except PyErr (NDArray R) :=
  match a.shape with
  | [m, n] => .ok (NDArray.ofFn [min m n] fun idx => a.get [idx.getD 0 0, idx.getD 0 0])
  | _ => .error .valueError

/-- rebcc.py:460-467 `next_char`. -/
def nextChar (n : Nat) : Char := Char.ofNat ((if n < 26 then 97 else 65) + n)

/-- rebcc.py:471 `zip("vVaoOib", "---+++-")`. -/
def defaultSigns : List (Char × List Char) := "vVaoOib".toList.zip ("---+++-".toList.map fun c => [c])

/-- rebcc.py:471-473: the defaults are written into the dictionary of the caller. -/
def fillSigns (signs : Dict Char (List Char)) : Dict Char (List Char) :=
  defaultSigns.foldl (fun d p => if d.contains p.1 then d else d.set p.1 p.2) signs

/-- rebcc.py:477-482: the energies of one index with their sign. -/
def energyTerm [CommRing R] (env : EnergyEnv R) (signs : Dict Char (List Char)) (p : Char × Char) :
    Except PyErr (NDArray R) := do
  let s ← signs.getItem p.1
  let factor : R := if s = ['+'] then 1 else -1
  if p.1 = 'b' then
    match env.omega with
    | none => .error .assertionError
    | some w => pure (w.map fun x => x * factor)
  else do
    let f ← env.fock p.2 p.1
    let d ← npDiag f
    pure (d.map fun x => x * factor)

/-- rebcc.py:475-487: the sum for a list of (class, spin). -/
def energySumPairs [CommRing R] (setOrder : List Char → List Char) (env : EnergyEnv R) (key : List Char)
    (pairs : List (Char × Char)) (signs : Dict Char (List Char)) : Except PyErr (NDArray R) := do
  let energies ← pairs.mapM (energyTerm env signs)
  let subscript := commaJoin ((List.range key.length).map fun n => [nextChar n])
  dirsum setOrder (.str subscript :: energies.map .arr)

/-- rebcc.py:446-487, gebcc.py:688-729 `energy_sum`.  Returns the result and the dictionary `signs_dict` of
the caller afterwards (`{}` stands for `None`). -/
def energySum [CommRing R] (setOrder : List Char → List Char) (env : EnergyEnv R) (key : List Char)
    (signs : Dict Char (List Char)) : Except PyErr (NDArray R) × Dict Char (List Char) :=
  let signs' := fillSigns signs
  (energySumPairs setOrder env key (key.map fun k => (k, '_')) signs', signs')

/-- uebcc.py:597-638 `energy_sum`. -/
def uEnergySum [CommRing R] (setOrder : List Char → List Char) (env : EnergyEnv R) (key spins : List Char)
    (signs : Dict Char (List Char)) : Except PyErr (NDArray R) × Dict Char (List Char) :=
  let signs' := fillSigns signs
  (energySumPairs setOrder env key (key.zip spins) signs', signs')

/-- Elementwise quotient of arrays of one shape; numpy broadcasts unequal shapes, here they raise
`ValueError`. -/
def NDArray.div [Div R] (a b : NDArray R) : Except PyErr (NDArray R) :=
  if a.shape = b.shape then .ok ⟨a.shape, List.zipWith (· / ·) a.data b.data⟩ else .error .valueError

/-- `key.rstrip("new")`. -/
def rstripNew (s : List Char) : List Char := (s.reverse.dropWhile fun c => decide (c ∈ ['n', 'e', 'w'])).reverse

/-- rebcc.py:250: the renamed residuals. -/
def renameNew {V : Type} (res : Dict (List Char) V) : Dict (List Char) V :=
  res.foldl (fun d p => d.set (rstripNew p.1) p.2) []

/-- rebcc.py:254-255: one residual becomes one amplitude. -/
def updateItem [Field R] (energy : Except PyErr (NDArray R)) (old : Dict (List Char) (NDArray R)) (addOld : Bool)
    (res : Dict (List Char) (NDArray R)) (name : List Char) : Except PyErr (Dict (List Char) (NDArray R)) := do
  let x ← res.getItem name
  let e ← energy
  let q ← x.div e
  if addOld then do
    let t ← old.getItem name
    let y ← q.add t
    pure (res.set name y)
  else pure (res.set name q)

/-- rebcc.py:252-263 and 300-325: the loops over the amplitudes.  `energy key` is `self.energy_sum(key)`. -/
def updateLoops [Field R] (energy : List Char → Except PyErr (NDArray R)) (fs bs : List Rank)
    (cs : List (List Char × List Char × Nat × Nat)) (old : Dict (List Char) (NDArray R)) (addOld : Bool)
    (res : Dict (List Char) (NDArray R)) : Except PyErr (Dict (List Char) (NDArray R)) := do
  let res ← fs.foldlM (fun res r => updateItem (energy r.2.1) old addOld res r.1) res
  let res ← bs.foldlM (fun res r => updateItem (energy r.2.1) old addOld res r.1) res
  cs.foldlM (fun res r =>
    if r.2.2.1 ≠ 1 then .error .modelNotImplemented
    else updateItem (energy r.2.1) old addOld res r.1) res

/-- rebcc.py:225-265, gebcc.py:467-507 `update_amps`. -/
def updateAmps [Field R] (a : Ansatz) (spin : SpinType) (energy : List Char → Except PyErr (NDArray R))
    (func : Dict (List Char) (NDArray R) → Except PyErr (Dict (List Char) (NDArray R)))
    (amps : Dict (List Char) (NDArray R)) : Except PyErr (Dict (List Char) (NDArray R)) := do
  let res ← func amps
  let fs ← fermionicClusterRanks a.fermionAnsatz spin .t
  let bs ← bosonicClusterRanks a.bosonAnsatz .t
  let cs ← couplingClusterRanks a.fermionCouplingRank a.bosonCouplingRank .t
  updateLoops energy fs bs cs amps true (renameNew res)

/-- rebcc.py:267-329 `update_lams`; gebcc.py:509-571 raises `NameError` at the end when `perturbative` is set.
`func` also receives the flag, which selects the generated function. -/
def updateLams [Field R] (a : Ansatz) (spin : SpinType) (energy : List Char → Except PyErr (NDArray R))
    (func : Bool → Dict (List Char) (NDArray R) → Except PyErr (Dict (List Char) (NDArray R)))
    (lams : Dict (List Char) (NDArray R)) (perturbative : Bool) :
    Except PyErr (Dict (List Char) (NDArray R)) := do
  let res ← func perturbative lams
  let fs ← fermionicClusterRanks a.fermionAnsatz spin .l
  let bs ← bosonicClusterRanks a.bosonAnsatz .l
  let cs ← couplingClusterRanks a.fermionCouplingRank a.bosonCouplingRank .l
  let res ← updateLoops energy fs bs cs lams (!perturbative) (renameNew res)
  if perturbative then
    if spin = .G then .error .nameError
    else pure (res.foldl (fun d p => d.set (p.1 ++ "pert".toList) p.2) [])
  else pure res

/-! ### Unrestricted -/

/-- uebcc.py:369-375: one spin block. -/
def uUpdateBlock [Field R] (energy : List Char → List Char → Except PyErr (NDArray R)) (key : List Char) (n : Nat)
    (v old : UVal R) (d : Dict (List Char) (NDArray R)) (comb : List Char) :
    Except PyErr (Dict (List Char) (NDArray R)) := do
  let (subscript, _) ← combineSubscripts [key, comb] []
  let x ← v.block comb
  let e ← energy key comb
  let q ← x.div e
  let t ← old.block comb
  let y ← q.add t
  let z ← symmetrise subscript y (some (List.replicate (2 * n) '-')) true
  pure (d.set comb z)

/-- The spin blocks of a namespace. -/
def UVal.blocks : UVal R → Dict (List Char) (NDArray R)
  | .spins d => d
  | .array _ => []

/-- uebcc.py:368-375: the spin blocks of one rank.  Each block is read once and then replaced. -/
def uUpdateFermion [Field R] (energy : List Char → List Char → Except PyErr (NDArray R))
    (old : Dict (List Char) (UVal R)) (res : Dict (List Char) (UVal R)) (r : Rank) :
    Except PyErr (Dict (List Char) (UVal R)) := do
  let v ← res.getItem r.1
  let o ← old.getItem r.1
  let d ← (generateSpinCombinations r.2.2 false true).foldlM (uUpdateBlock energy r.2.1 r.2.2 v o) v.blocks
  pure (res.set r.1 (.spins d))

/-- An array, not a namespace. -/
def UVal.asArray : UVal R → Except PyErr (NDArray R)
  | .array a => .ok a
  | .spins _ => .error .typeError

/-- uebcc.py:378-379: bosonic amplitudes. -/
def uUpdateBoson [Field R] (energy : List Char → List Char → Except PyErr (NDArray R))
    (old : Dict (List Char) (UVal R)) (res : Dict (List Char) (UVal R)) (r : Rank) :
    Except PyErr (Dict (List Char) (UVal R)) := do
  let v ← res.getItem r.1
  let x ← v.asArray
  let e ← energy r.2.1 (List.replicate r.2.2 '_')
  let q ← x.div e
  let o ← old.getItem r.1
  let t ← o.asArray
  let y ← q.add t
  pure (res.set r.1 (.array y))

/-- uebcc.py:385-388: one spin of a coupled amplitude. -/
def uUpdateSpin [Field R] (energy : List Char → List Char → Except PyErr (NDArray R)) (key : List Char) (nb : Nat)
    (v old : UVal R) (s : List Char) : Except PyErr (NDArray R) := do
  let x ← v.attr s
  let e ← energy key (List.replicate nb '_' ++ s)
  let q ← x.div e
  let t ← old.attr s
  q.add t

/-- uebcc.py:382-392: a coupled amplitude. -/
def uUpdateCoupling [Field R] (energy : List Char → List Char → Except PyErr (NDArray R))
    (old : Dict (List Char) (UVal R)) (res : Dict (List Char) (UVal R)) (r : List Char × List Char × Nat × Nat) :
    Except PyErr (Dict (List Char) (UVal R)) := do
  if r.2.2.1 ≠ 1 then throw PyErr.modelNotImplemented
  let v ← res.getItem r.1
  let o ← old.getItem r.1
  let aa ← uUpdateSpin energy r.2.1 r.2.2.2 v o ['a', 'a']
  let bb ← uUpdateSpin energy r.2.1 r.2.2.2 v o ['b', 'b']
  pure (res.set r.1 (.spins ((v.blocks.set ['a', 'a'] aa).set ['b', 'b'] bb)))

/-- uebcc.py:343-394 and 396-461: what `update_amps` and `update_lams` do with the function of the generated code. -/
def uUpdate [Field R] (a : Ansatz) (which : Which) (energy : List Char → List Char → Except PyErr (NDArray R))
    (func : Dict (List Char) (UVal R) → Except PyErr (Dict (List Char) (UVal R)))
    (amps : Dict (List Char) (UVal R)) : Except PyErr (Dict (List Char) (UVal R)) := do
  let res ← func amps
  let res := renameNew res
  let fs ← fermionicClusterRanks a.fermionAnsatz .U which
  let bs ← bosonicClusterRanks a.bosonAnsatz which
  let cs ← couplingClusterRanks a.fermionCouplingRank a.bosonCouplingRank which
  let res ← fs.foldlM (uUpdateFermion energy amps) res
  let res ← bs.foldlM (uUpdateBoson energy amps) res
  cs.foldlM (uUpdateCoupling energy amps) res

/-- uebcc.py:343-394 `update_amps`. -/
def uUpdateAmps [Field R] (a : Ansatz) (energy : List Char → List Char → Except PyErr (NDArray R))
    (func : Dict (List Char) (UVal R) → Except PyErr (Dict (List Char) (UVal R)))
    (amps : Dict (List Char) (UVal R)) : Except PyErr (Dict (List Char) (UVal R)) :=
  uUpdate a .t energy func amps

/-- uebcc.py:396-461 `update_lams`; `func` is the generated `update_lams` as a function of `lambdas_pert` and the
lambda amplitudes.  The flag `perturbative` is not used by the code. -/
def uUpdateLams [Field R] (a : Ansatz) (energy : List Char → List Char → Except PyErr (NDArray R))
    (func : Option (Dict (List Char) (UVal R)) → Dict (List Char) (UVal R) → Except PyErr (Dict (List Char) (UVal R)))
    (lams : Dict (List Char) (UVal R)) (lamsPert : Option (Dict (List Char) (UVal R))) (_perturbative : Bool) :
    Except PyErr (Dict (List Char) (UVal R)) :=
  uUpdate a .l energy (func lamsPert) lams

end

end Ebcc
