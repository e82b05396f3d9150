import Verif.Model.Ansatz

/-!
Model of `ebcc/__init__.py:97-173` (`EBCC`, `_factory`, `available_models`), of the decisions of
`ebcc/cc/base.py:98-216` (`BaseEBCC.__init__`) and of `ebcc/util/misc.py:164-183` (`Timer.format_time`).

The options are objects that the caller may hold: they live in a heap, and a constructor returns the heap after it even
when it raises.  Not modelled: the conversion of the mean-field object, the conversions of arrays, the construction of
the default space, the couplings and the Fock matrix (which are taken to succeed), and logging.
-/

namespace Ebcc

/-- The values of arguments, as far as the constructor looks at them: an array is known by its first dimension. -/
inductive PyVal
  | none
  | bool (b : Bool)
  | dec (mantissa exponent : Int)
  | str (s : List Char)
  | ansatz (a : Ansatz)
  | ref (r : Nat)
  | arr (n : Nat) (data : Nat)
  | other (n : Nat)
deriving DecidableEq

/-- The classes of mean-field objects: the two `isinstance` tests, and whether the converted object has `with_df`. -/
structure MFObj where
  isUHF : Bool
  isGHF : Bool
  withDF : Bool
deriving DecidableEq

/-- The attributes of an options object. -/
abbrev OptObj := Dict (List Char) PyVal

/-- base.py:98-112: the parameters of the constructor after `self` and `mf`. -/
def initParams : List (List Char) :=
  ["log".toList, "ansatz".toList, "options".toList, "space".toList, "omega".toList, "g".toList, "G".toList,
   "mo_coeff".toList, "mo_occ".toList, "fock".toList]

/-- base.py:64-70: the options of a new options object. -/
def defaultOptions : OptObj :=
  [("e_tol".toList, .dec 1 (-8)), ("t_tol".toList, .dec 1 (-8)), ("max_iter".toList, .dec 200 0),
   ("diis_space".toList, .dec 9 0), ("diis_min_space".toList, .dec 1 0), ("damping".toList, .dec 0 0),
   ("shift".toList, .bool true)]

/-- base.py:98-112: the default of a parameter. -/
def paramDefault (p : List Char) : PyVal := if p = "ansatz".toList then .str "CCSD".toList else .none

/-- The call of a function with the parameters `initParams` and `**kwargs`: the values of the parameters, and the
surplus keyword arguments.  Too many positional arguments, and arguments given twice (`self` and `mf` are always given
by position), raise `TypeError`. -/
def bindArgs (args : List PyVal) (kwargs : Dict (List Char) PyVal) :
    Except PyErr ((List Char → PyVal) × Dict (List Char) PyVal) :=
  if initParams.length < args.length then .error .typeError
  else if kwargs.contains "self".toList || kwargs.contains "mf".toList then .error .typeError
  else
    let given := initParams.zip args
    if given.any (fun pa => kwargs.contains pa.1) then .error .typeError
    else .ok (fun p => ((Dict.get? given p).orElse fun _ => kwargs.get? p).getD (paramDefault p),
      kwargs.filter fun kv => kv.1 ∉ initParams)

/-- `setattr(self.options, key, val)` for the items of a dictionary. -/
def setAttrs (heap : List OptObj) (r : Nat) (kwargs : Dict (List Char) PyVal) : List OptObj :=
  heap.modify r fun o => kwargs.foldl (fun o kv => o.set kv.1 kv.2) o

/-- The letter of a class. -/
def solverLetter : SpinType → Char
  | .R => 'R'
  | .U => 'U'
  | .G => 'G'

/-- A solver: its class, ansatz, module of equations, options, and the other parameters. -/
structure Solver where
  cls : SpinType
  ansatz : Ansatz
  module_ : List Char
  options : Nat
  param : List Char → PyVal

/-- ansatz.py:121-127 `_get_eqns`: the name of the module, which has to exist. -/
def getEqns (modules : List (List Char)) (a : Ansatz) (spin : SpinType) : Except PyErr (List Char) :=
  let name := a.moduleName.getD (solverLetter spin :: nameToIdentifier a.name)
  if name ∈ modules then .ok name else .error .importError

/-- base.py:149-158: the ansatz. -/
def initAnsatz (mf : MFObj) : PyVal → Except PyErr Ansatz
  | .ansatz a => .ok a
  | .str s => Ansatz.fromString s mf.withDF
  | _ => .error .typeError

/-- base.py:1068-1076 `nbos`. -/
def constructNbos : PyVal → Nat
  | .arr n _ => n
  | _ => 0

/-- base.py:149-181: the part of the constructor after the options; the flag tells whether `options.shift` is set to
`False`. -/
def initRest (modules : List (List Char)) (cls : SpinType) (mf : MFObj) (param : List Char → PyVal) (r : Nat) :
    Except PyErr (Solver × Bool) := do
  let a ← initAnsatz mf (param "ansatz".toList)
  let m ← getEqns modules a cls
  if decide (a.fermionCouplingRank = 0) != decide (a.bosonCouplingRank = 0) then .error .valueError
  else if a.bosonAnsatz ≠ [] then pure (⟨cls, a, m, r, param⟩, false)
  else if constructNbos (param "omega".toList) = 0 then pure (⟨cls, a, m, r, param⟩, true)
  else .error .assertionError

/-- base.py:98-216 `BaseEBCC.__init__` for the class `cls`.  A value for `options` that is no options object raises in
one of the assignments to its attributes (simplification: at the first). -/
def buildSolver (modules : List (List Char)) (cls : SpinType) (mf : MFObj) (args : List PyVal)
    (kwargs : Dict (List Char) PyVal) (heap : List OptObj) : Except PyErr Solver × List OptObj :=
  match bindArgs args kwargs with
  | .error e => (.error e, heap)
  | .ok (param, rest) =>
    let go (r : Nat) (heap : List OptObj) : Except PyErr Solver × List OptObj :=
      let heap := setAttrs heap r rest
      match initRest modules cls mf param r with
      | .error e => (.error e, heap)
      | .ok (s, shiftOff) =>
        (.ok s, if shiftOff then setAttrs heap r [("shift".toList, .bool false)] else heap)
    match param "options".toList with
    | .none => go heap.length (heap ++ [defaultOptions])
    | .ref r => if r < heap.length then go r heap else (.error .attributeError, heap)
    | _ => (.error .attributeError, heap)

/-- `__init__.py:97-106` `EBCC`; a keyword argument `mf` is given twice. -/
def ebccNew (modules : List (List Char)) (mf : MFObj) (args : List PyVal) (kwargs : Dict (List Char) PyVal)
    (heap : List OptObj) : Except PyErr Solver × List OptObj :=
  if kwargs.contains "mf".toList then (.error .typeError, heap)
  else if mf.isUHF then buildSolver modules .U mf args kwargs heap
  else if mf.isGHF then buildSolver modules .G mf args kwargs heap
  else buildSolver modules .R mf args kwargs heap

/-- `__init__.py:112-127` `_factory(ansatz)`. -/
def factoryNew (modules : List (List Char)) (ansatz : List Char) (mf : MFObj) (args : List PyVal)
    (kwargs : Dict (List Char) PyVal) (heap : List OptObj) : Except PyErr Solver × List OptObj :=
  if kwargs.contains "mf".toList then (.error .typeError, heap)
  else
    let kwargs := kwargs.set "ansatz".toList (.str ansatz)
    if mf.isUHF then buildSolver modules .U mf args kwargs heap
    else if mf.isGHF then buildSolver modules .G mf args kwargs heap
    else buildSolver modules .R mf args kwargs heap

/-- `s.rstrip(chars)`. -/
def pyRstrip (chars s : List Char) : List Char := (s.reverse.dropWhile fun c => c ∈ chars).reverse

/-- `__init__.py:153-156`: the name made from a file name. -/
def modelName (f : List Char) : Option (List Char) :=
  if ".py".toList.isSuffixOf f then
    some (identifierToName (replaceChar '_' '-' (pyRstrip ".py".toList f)))
  else none

/-- `sorted(l)` for strings. -/
def sortedStrings (l : List (List Char)) : List (List Char) := l.insertionSort fun a b => a ≤ b

/-- `__init__.py:138-173` `available_models`: the names for each spin type, for the files of the directory. -/
def availableModels (files : List (List Char)) : SpinType → List (List Char) := fun spin =>
  sortedStrings ((files.filterMap modelName).filter fun f => f.head? = some (solverLetter spin))

/-- The units of `format_time`. -/
inductive TimeUnit
  | h | m | s | ms
deriving DecidableEq

/-- The text of a unit. -/
def TimeUnit.text : TimeUnit → List Char
  | .h => "h".toList
  | .m => "m".toList
  | .s => "s".toList
  | .ms => "ms".toList

/-- misc.py:166-182: the parts for a time of `t` seconds (an exact rational number instead of a floating point number):
the number that is shown (`%d` truncates) and its unit. -/
def timeParts (t : Rat) : List (Int × TimeUnit) :=
  let whole := t.floor
  let milliseconds := (t - whole) * 1000
  let minutes := whole.fdiv 60
  let seconds := whole.fmod 60
  let hours := minutes.fdiv 60
  let minutes := minutes.fmod 60
  (if hours ≠ 0 then [(hours, .h)] else []) ++ (if minutes ≠ 0 then [(minutes, .m)] else []) ++
  (if seconds ≠ 0 then [(seconds, .s)] else []) ++ (if milliseconds ≠ 0 then [(milliseconds.floor, .ms)] else [])

/-- `"%d"`. -/
def showInt (n : Int) : List Char := (if n < 0 then ['-'] else []) ++ Nat.toDigits 10 n.natAbs

/-- `xs[-k:]`. -/
def lastSlice {α : Type} (xs : List α) (k : Int) : List α :=
  if k = 0 then xs else if 0 < k then xs.drop (xs.length - k.toNat) else xs.drop k.natAbs

/-- misc.py:183: the parts that are shown. -/
def shownParts (t : Rat) (precision : Int) : List (Int × TimeUnit) :=
  let out := timeParts t
  lastSlice out (max precision out.length)

/-- misc.py:164-183 `Timer.format_time`. -/
def formatTime (t : Rat) (precision : Int) : List Char :=
  List.intercalate [' '] ((shownParts t precision).map fun p => showInt p.1 ++ ' ' :: p.2.text)

end Ebcc
