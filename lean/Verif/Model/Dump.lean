import Verif.Model.Ansatz
import Verif.Model.Space
import Mathlib.Data.List.Sort
/-!
Model of `ebcc/core/dump.py` lines 36-260 (`Dump.write`, `Dump.read`) and of the part of the constructor
`ebcc/cc/base.py` lines 132-194 that `read` goes through.

Numbers and arrays are elements of an arbitrary type `V` and are stored and returned unchanged.  The functions `dump` and
`load` of PySCF are not part of the repository; they are modelled as: `dump` replaces the section of that name in the
file and keeps the other sections; texts come back as bytes; `load` gives `None` for a missing section; the members of
a group come back in the order of their names.  The molecule (`dump_mol`, `load_mol`), the logger, the Fock matrix and the
import of the module with the equations are not modelled.
-/

namespace Ebcc

/-- A value in the file. -/
inductive H5Val (V : Type)
  | num (v : V)
  | rank (n : Nat)
  | text (s : List Char)
  | bytes (s : List Char)
  | mask (m : List Bool)
  | masks (a b : List Bool)
  | group (d : Dict (List Char) V)
  deriving DecidableEq

abbrev H5Section (V : Type) := Dict (List Char) (H5Val V)
abbrev H5File (V : Type) := Dict (List Char) (H5Section V)

section
variable {V : Type}

/-- The order in which the members of a group are read. -/
def byName {X : Type} (d : Dict (List Char) X) : Dict (List Char) X :=
  List.insertionSort (fun a b => a.1 ≤ b.1) d

/-- What is read for a stored value. -/
def H5Val.readBack : H5Val V → H5Val V
  | .text s => .bytes s
  | .group d => .group (byName d)
  | x => x

/-- `pyscf.lib.chkfile.dump`. -/
def h5dump (file : H5File V) (name : List Char) (sec : H5Section V) : H5File V := file.set name sec

/-- `pyscf.lib.chkfile.load`. -/
def h5load (file : H5File V) (name : List Char) : Option (H5Section V) :=
  (file.get? name).map fun sec => byName (sec.map fun kv => (kv.1, kv.2.readBack))

/-- The amplitudes of a calculation: arrays, or namespaces of spin blocks. -/
inductive DumpAmp (V : Type)
  | array (v : V)
  | spins (d : Dict (List Char) V)
  deriving DecidableEq

/-- The value of `density_fitting`; `Dump.read` passes `module_name` for it. -/
inductive DFVal
  | bool (b : Bool)
  | none
  | bytes (s : List Char)
  deriving DecidableEq

/-- `bool(density_fitting)`. -/
def DFVal.truthy : DFVal → Bool
  | .bool b => b
  | .none => false
  | .bytes s => decide (s ≠ [])

/-- ansatz.py:115-120 an ansatz, with the values that can occur for `density_fitting`. -/
structure DumpAnsatz where
  fermionAnsatz : List Char
  bosonAnsatz : List Char
  fermionCouplingRank : Nat
  bosonCouplingRank : Nat
  densityFitting : DFVal
  moduleName : Option (List Char)
  deriving DecidableEq

/-- `space`. -/
inductive DumpSpace
  | one (s : Space)
  | two (a b : Space)
  deriving DecidableEq

/-- The calculation: what `write` looks at. -/
structure Calc (V : Type) where
  spin : SpinType
  options : Dict (List Char) (Option V)
  mfETot : V
  mfMoEnergy : V
  mfMoCoeff : V
  mfMoOcc : V
  moCoeff : V
  moOcc : V
  ansatz : DumpAnsatz
  space : DumpSpace
  omega : Option V
  bareg : Option V
  bareG : Option V
  eCorr : Option V
  converged : Option V
  convergedLambda : Option V
  amplitudes : Option (Dict (List Char) (DumpAmp V))
  lambdas : Option (Dict (List Char) (DumpAmp V))
  deriving DecidableEq

/-- An entry that is only written when it is not `None`. -/
def entry {X : Type} (name : List Char) (x : Option X) (f : X → H5Val V) : H5Section V :=
  match x with
  | none => []
  | some x => [(name, f x)]

/-- `self.spin_type`. -/
def spinLetter : SpinType → List Char
  | .R => ['R']
  | .U => ['U']
  | .G => ['G']

/-- dump.py:117-141 the dictionary that is written for the amplitudes; for R and G the values are written as they are. -/
def dumpAmps (spin : SpinType) (amps : Dict (List Char) (DumpAmp V)) : Except PyErr (H5Section V) :=
  amps.mapM fun kv =>
    match kv.2 with
    | .array v => .ok (kv.1, .num v)
    | .spins d => if spin = .U then .ok (kv.1, .group d) else .error .typeError

/-- dump.py:77-90. -/
def dumpSpace : SpinType → DumpSpace → Except PyErr (H5Section V)
  | .U, .two a b => .ok [("occupied".toList, .masks a.occupied b.occupied), ("frozen".toList, .masks a.frozen b.frozen),
      ("active".toList, .masks a.active b.active)]
  | .U, .one _ => .error .typeError
  | _, .one s => .ok [("occupied".toList, .mask s.occupied), ("frozen".toList, .mask s.frozen),
      ("active".toList, .mask s.active)]
  | _, .two _ _ => .error .attributeError

/-- dump.py:36-141 `write`. -/
def dumpWrite (file : H5File V) (c : Calc V) : Except PyErr (H5File V) := do
  let file := h5dump file "options".toList (c.options.flatMap fun kv => entry kv.1 kv.2 .num)
  let file := h5dump file "mean-field".toList [("e_tot".toList, .num c.mfETot), ("mo_energy".toList, .num c.mfMoEnergy),
    ("mo_coeff".toList, .num c.mfMoCoeff), ("mo_occ".toList, .num c.mfMoOcc)]
  let file := h5dump file "mo".toList [("mo_coeff".toList, .num c.moCoeff), ("mo_occ".toList, .num c.moOcc)]
  let file := h5dump file "ansatz".toList ([("fermion_ansatz".toList, .text c.ansatz.fermionAnsatz),
    ("boson_ansatz".toList, .text c.ansatz.bosonAnsatz), ("fermion_coupling_rank".toList, .rank c.ansatz.fermionCouplingRank),
    ("boson_coupling_rank".toList, .rank c.ansatz.bosonCouplingRank)] ++
    entry "module_name".toList c.ansatz.moduleName .text)
  let sp ← dumpSpace c.spin c.space
  let file := h5dump file "space".toList sp
  let file := h5dump file "bosons".toList (entry "omega".toList c.omega .num ++ entry "bare_g".toList c.bareg .num ++
    entry "bare_G".toList c.bareG .num)
  let file := h5dump file "misc".toList ([("spin_type".toList, .text (spinLetter c.spin))] ++
    entry "e_corr".toList c.eCorr .num ++ entry "converged".toList c.converged .num ++
    entry "converged_lambda".toList c.convergedLambda .num)
  let file ← match c.amplitudes with
    | none => pure file
    | some a => do pure (h5dump file "amplitudes".toList (← dumpAmps c.spin a))
  match c.lambdas with
  | none => pure file
  | some a => do pure (h5dump file "lambdas".toList (← dumpAmps c.spin a))

/-- A section that has been loaded: `None` has no items. -/
def needSection (file : H5File V) (name : List Char) : Except PyErr (H5Section V) :=
  match h5load file name with
  | none => .error .attributeError
  | some s => .ok s

/-- A number or an array. -/
def H5Val.asNum : H5Val V → Except PyErr V
  | .num v => .ok v
  | _ => .error .typeError

/-- `dic.get(name, None)` for a number or array. -/
def getNum (sec : H5Section V) (name : List Char) : Except PyErr (Option V) :=
  match sec.get? name with
  | none => .ok none
  | some x => do pure (some (← x.asNum))

/-- `dic.get(name, default).decode("ascii")`. -/
def getText (sec : H5Section V) (name default : List Char) : Except PyErr (List Char) :=
  match sec.get? name with
  | none => .ok default
  | some (.bytes s) => .ok s
  | some _ => .error .attributeError

/-- `dic.get(name, 0)`. -/
def getRank (sec : H5Section V) (name : List Char) : Except PyErr Nat :=
  match sec.get? name with
  | none => .ok 0
  | some (.rank n) => .ok n
  | some _ => .error .typeError

/-- dump.py:193-197: `dic.get("occupied", None)` for one space; `None` has no length. -/
def getMask (sec : H5Section V) (name : List Char) : Except PyErr (List Bool) :=
  match sec.get? name with
  | some (.mask m) => .ok m
  | _ => .error .typeError

/-- `dic.get("occupied", None)[i]`. -/
def getMasks (sec : H5Section V) (name : List Char) : Except PyErr (List Bool × List Bool) :=
  match sec.get? name with
  | some (.masks a b) => .ok (a, b)
  | _ => .error .typeError

/-- dump.py:188-209 the space. -/
def readSpace (spin : SpinType) (sec : H5Section V) : Except PyErr DumpSpace :=
  if spin = .U then do
    let o ← getMasks sec "occupied".toList
    let f ← getMasks sec "frozen".toList
    let a ← getMasks sec "active".toList
    let sa ← Space.new o.1 f.1 a.1
    let sb ← Space.new o.2 f.2 a.2
    pure (.two sa sb)
  else do
    let o ← getMask sec "occupied".toList
    let f ← getMask sec "frozen".toList
    let a ← getMask sec "active".toList
    pure (.one (← Space.new o f a))

/-- dump.py:220-240 the amplitudes. -/
def readAmps (spin : SpinType) (sec : H5Section V) : Except PyErr (Dict (List Char) (DumpAmp V)) :=
  sec.mapM fun kv =>
    match kv.2 with
    | .num v => .ok (kv.1, .array v)
    | .group d => if spin = .U then .ok (kv.1, .spins d) else .error .typeError
    | _ => .error .typeError

/-- dump.py:155-157 the options: `setattr` for each item, on the defaults. -/
def readOptions (defaults : Dict (List Char) (Option V)) (sec : H5Section V) :
    Except PyErr (Dict (List Char) (Option V)) :=
  sec.foldlM (fun o kv => do pure (o.set kv.1 (some (← kv.2.asNum)))) defaults

/-- dump.py:160-161. -/
def readSpin (misc : H5Section V) : Except PyErr SpinType := do
  match misc.get? "spin_type".toList with
  | none => .error .keyError
  | some (.bytes s) =>
    if s = ['G'] then .ok .G else if s = ['U'] then .ok .U else if s = ['R'] then .ok .R else .error .keyError
  | some _ => .error .attributeError

/-- base.py:149-194 the checks and changes of the constructor; `nbos` is the number of bosons of `omega` and `false_` and
`zero` the values `False` and `0.0`. -/
def construct (nbos : Option V → Nat) (false_ zero : V) (c : Calc V) : Except PyErr (Calc V) :=
  if decide (c.ansatz.fermionCouplingRank ≠ 0) ≠ decide (c.ansatz.bosonCouplingRank ≠ 0) then .error .valueError
  else
    let c := { c with eCorr := some zero, converged := some false_, convergedLambda := some false_,
                      amplitudes := some [], lambdas := some [] }
    if c.ansatz.bosonAnsatz ≠ [] then .ok c
    else if nbos c.omega = 0 then .ok { c with options := c.options.set "shift".toList (some false_) }
    else .error .assertionError

/-- An entry of `misc` that replaces the attribute (dump.py:256 `cc.__dict__.update(misc)`). -/
def updateNum (sec : H5Section V) (name : List Char) (old : Option V) : Except PyErr (Option V) := do
  match ← getNum sec name with
  | none => pure old
  | some v => pure (some v)

/-- A required number. -/
def needNum (sec : H5Section V) (name : List Char) : Except PyErr V := do
  match ← getNum sec name with
  | none => .error .attributeError
  | some v => .ok v

/-- dump.py:143-260 `read`; `defaults` are the options of `cls.Options()`. -/
def dumpRead (defaults : Dict (List Char) (Option V)) (nbos : Option V → Nat) (false_ zero : V) (file : H5File V) :
    Except PyErr (Calc V) := do
  let options ← readOptions defaults (← needSection file "options".toList)
  let misc ← needSection file "misc".toList
  let spin ← readSpin misc
  let mf ← needSection file "mean-field".toList
  let e ← needNum mf "e_tot".toList
  let en ← needNum mf "mo_energy".toList
  let mc ← needNum mf "mo_coeff".toList
  let mo ← needNum mf "mo_occ".toList
  let mos ← needSection file "mo".toList
  let moc ← getNum mos "mo_coeff".toList
  let moo ← getNum mos "mo_occ".toList
  let an ← needSection file "ansatz".toList
  let fa ← getText an "fermion_ansatz".toList "CCSD".toList
  let ba ← getText an "boson_ansatz".toList []
  let fr ← getRank an "fermion_coupling_rank".toList
  let br ← getRank an "boson_coupling_rank".toList
  let df ← match an.get? "module_name".toList with
    | none => pure DFVal.none
    | some (.bytes s) => pure (DFVal.bytes s)
    | some _ => .error .typeError
  let space ← readSpace spin (← needSection file "space".toList)
  let bos ← needSection file "bosons".toList
  let omega ← getNum bos "omega".toList
  let g ← getNum bos "bare_g".toList
  let G ← getNum bos "bare_G".toList
  let amplitudes ← (h5load file "amplitudes".toList).mapM (readAmps spin)
  let lambdas ← (h5load file "lambdas".toList).mapM (readAmps spin)
  let c ← construct nbos false_ zero
    { spin := spin, options := options, mfETot := e, mfMoEnergy := en, mfMoCoeff := mc, mfMoOcc := mo,
      moCoeff := moc.getD mc, moOcc := moo.getD mo, ansatz := ⟨fa, ba, fr, br, df, none⟩, space := space,
      omega := omega, bareg := g, bareG := G, eCorr := none, converged := none, convergedLambda := none,
      amplitudes := none, lambdas := none }
  let eCorr ← updateNum misc "e_corr".toList c.eCorr
  let conv ← updateNum misc "converged".toList c.converged
  let convl ← updateNum misc "converged_lambda".toList c.convergedLambda
  pure { c with eCorr := eCorr, converged := conv, convergedLambda := convl, amplitudes := amplitudes,
                lambdas := lambdas }

end

end Ebcc
