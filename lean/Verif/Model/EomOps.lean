import Verif.Model.EomVectors
import Verif.Model.InitAmps
import Verif.Model.Arguments

/-!
Model of the diagonal and of the matrix-vector products of EOM calculations: `ebcc/eom/reom.py` 48-67, 142-161,
236-255, `ebcc/eom/geom.py` 48-67, 144-163, 240-259, `ebcc/eom/ueom.py` 48-70, 163-185, 278-300 (`diag`) and
`ebcc/eom/base.py` 374-425, 435-486, 496-547 (`matvec`, `matvec_intermediates`).
-/

namespace Ebcc

section
variable {R : Type} [CommRing R]

/-- Whether `diag` negates `energy_sum`: reom.py:62 (no), 156 (no), 250 (yes); ueom.py:64 (no), 179 (yes),
294 (no); geom.py:62 (no), 158 (yes), 254 (yes). -/
def diagNegated (spin : SpinType) (which : Which) : Bool :=
  match spin, which with
  | .R, .ee => true
  | .U, .ea => true
  | .G, .ea => true
  | .G, .ee => true
  | _, _ => false

/-- `-x` or `x`. -/
def negIf (neg : Bool) (x : NDArray R) : NDArray R := if neg then x.map fun y => -y else x

/-- reom.py:64-65: a bosonic rank raises `ModelNotImplemented`. -/
def diagOnlyFermions (a : Ansatz) (which : Which) : Except PyErr Unit := do
  let bs ← bosonicClusterRanks a.bosonAnsatz which
  if bs ≠ [] then throw PyErr.modelNotImplemented
  pure ()

/-- reom.py:57-65: `parts`. -/
def diagParts (setOrder : List Char → List Char) (env : EnergyEnv R) (a : Ansatz) (spin : SpinType) (which : Which) :
    Except PyErr (Dict (List Char) (NDArray R)) := do
  let fs ← fermionicClusterRanks a.fermionAnsatz spin which
  let parts ← initLoop (fun r => r.1)
    (fun r => (energySum setOrder env r.2.1 []).1.map (negIf (diagNegated spin which))) fs []
  diagOnlyFermions a which
  pure parts

/-- reom.py:48-67 `diag`.  The argument `eris` is not used. -/
def rEomDiag (setOrder : List Char → List Char) (env : EnergyEnv R) (a : Ansatz) (which : Which) :
    Except PyErr (List R) := do
  let parts ← diagParts setOrder env a .R which
  rEomToVector a which parts

/-- geom.py:48-67 `diag`. -/
def gEomDiag (setOrder : List Char → List Char) (env : EnergyEnv R) (a : Ansatz) (which : Which) :
    Except PyErr (List R) := do
  let parts ← diagParts setOrder env a .G which
  gEomToVector a which parts

/-- ueom.py:63, 178: all spin combinations; 293: the unique ones. -/
def diagSpins (which : Which) (n : Nat) : List (List Char) :=
  generateSpinCombinations n (eomExcited which) (which = .ee)

/-- ueom.py:62-65: `spin_part`. -/
def uDiagPart (setOrder : List Char → List Char) (env : EnergyEnv R) (which : Which) (r : Rank) :
    Except PyErr (Dict (List Char) (NDArray R)) :=
  initLoop (fun comb => comb)
    (fun comb => (uEnergySum setOrder env r.2.1 comb []).1.map (negIf (diagNegated .U which)))
    (diagSpins which r.2.2) []

/-- ueom.py:48-70 `diag`. -/
def uEomDiag (setOrder : List Char → List Char) (env : EnergyEnv R) (a : Ansatz) (which : Which) :
    Except PyErr (List R) := do
  let fs ← fermionicClusterRanks a.fermionAnsatz .U which
  let parts ← initLoop (fun r => r.1) (fun r => (uDiagPart setOrder env which r).map UVal.spins) fs []
  diagOnlyFermions a which
  uEomToVector a which parts

end

/-! ### Matrix-vector products -/

/-- Values of keyword arguments: the amplitudes of one name, or another object. -/
inductive EomVal (V I : Type) where
  | amp (v : V)
  | obj (i : I)

section
variable {ε V I R : Type}

/-- base.py:124-127: `excitation_type`. -/
def excitationType : Which → List Char
  | .ip => "ip".toList
  | .ea => "ea".toList
  | .ee => "ee".toList
  | .t => "t".toList
  | .l => "l".toList

/-- base.py:396, 457, 518: the name of the function. -/
def matvecName (which : Which) (left : Bool) : List Char :=
  "hbar_".toList ++ (if left then ['l'] else []) ++ "matvec_".toList ++ excitationType which

/-- The amplitudes of a namespace.  (Other values are never read by `amplitudes_to_vector`, which looks up the names of
the amplitudes only; if one of those is not an array, the code raises another exception than the model.) -/
def ampsOf (d : Dict (List Char) (EomVal V I)) : Dict (List Char) V :=
  d.filterMap fun p => match p.2 with
    | .amp v => some (p.1, v)
    | .obj _ => none

/-- base.py:406-424, 467-485, 528-546 `matvec_intermediates`. -/
def Session.eomInts (s : Session ε (EomVal V I) (Dict (List Char) (EomVal V I))) (which : Which) (left : Bool)
    (eris : EriArg ε) : Except PyErr (Dict (List Char) (EomVal V I)) := do
  let (f, kw) ← s.load (matvecName which left ++ "_intermediates".toList) eris (.given (some s.amplitudes)) .omitted
    none []
  f kw

/-- base.py:392-393: intermediates that are `None` or empty are computed. -/
def Session.theInts (s : Session ε (EomVal V I) (Dict (List Char) (EomVal V I))) (which : Which) (left : Bool)
    (eris : EriArg ε) (ints : Option (Dict (List Char) (EomVal V I))) :
    Except PyErr (Dict (List Char) (EomVal V I)) :=
  if truthy ints then .ok (ints.getD []) else s.eomInts which left eris

/-- base.py:395-403: the namespace returned by the generated function, renamed. -/
def Session.eomAction (s : Session ε (EomVal V I) (Dict (List Char) (EomVal V I)))
    (wrap : Dict (List Char) (EomVal V I) → I) (which : Which) (left : Bool) (eris : EriArg ε)
    (ints : Dict (List Char) (EomVal V I)) (amps : Dict (List Char) V) : Except PyErr (Dict (List Char) V) := do
  let (f, kw) ← s.load (matvecName which left) eris (.given (some s.amplitudes)) .omitted
    (some (amps.map fun p => (p.1, .amp p.2))) [("ints".toList, .obj (wrap ints))]
  let res ← f kw
  pure (ampsOf (renameNew res))

/-- base.py:374-404, 435-465, 496-526 `matvec`.  `pack` is `amplitudes_to_vector` and `unpack` is
`vector_to_amplitudes`; `wrap` is a namespace as an argument. -/
def Session.matvec (s : Session ε (EomVal V I) (Dict (List Char) (EomVal V I)))
    (wrap : Dict (List Char) (EomVal V I) → I) (pack : Dict (List Char) V → Except PyErr (List R))
    (unpack : List R → Except PyErr (Dict (List Char) V)) (which : Which) (left : Bool) (eris : EriArg ε)
    (ints : Option (Dict (List Char) (EomVal V I))) (vector : List R) : Except PyErr (List R) := do
  let i ← s.theInts which left eris ints
  let amps ← unpack vector
  let res ← s.eomAction wrap which left eris i amps
  pack res

end

end Ebcc
