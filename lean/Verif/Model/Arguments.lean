import Verif.Model.Rdm

/-!
Model of the choice and packing of the arguments of generated functions: `ebcc/cc/base.py` 509-553
(`_load_function`), 587-607 (`_get_amps`, `_get_lams`), 940-965 (`get_eris`), 609-655 and 696-758 (methods that call
a generated function), and `_pack_codegen_kwargs` in `ebcc/cc/rebcc.py` 117-140, `ebcc/cc/uebcc.py` 209-232 and
`ebcc/cc/gebcc.py` 363-383.

Integral containers are elements of an arbitrary type `ε`; all other argument values are elements of an arbitrary
type `α`.  The generated functions are arbitrary functions of the dictionary of keyword arguments; they do not keep
or change it.
-/

namespace Ebcc

/-- The value of a keyword argument: an integral container or anything else. -/
inductive ArgVal (ε α : Type)
  | eris (e : ε)
  | val (x : α)
  deriving DecidableEq

/-- The argument `eris`: the literal `False`, `None`, a container, or an object of another type. -/
inductive EriArg (ε : Type)
  | omitted
  | default
  | obj (e : ε)
  | other

/-- The arguments `amplitudes` and `lambdas`: the literal `False`, or `None` or a namespace. -/
inductive AmpArg (α : Type)
  | omitted
  | given (d : Option (Dict (List Char) α))

/-- What the modelled methods read of a coupled cluster object.  `freshEris` and `freshCderis` are the containers
made by `self.ERIs(...)` and `self.CDERIs(...)`; `initAmps e` is `self.init_amps(eris=e)` and `initLams t` is
`self.init_lams(amplitudes=t)`; `naux` is `self.mf.with_df.get_naoaux()`. -/
structure Session (ε α β : Type) where
  spin : SpinType
  withDf : Bool
  freshEris : ε
  freshCderis : ε
  isCderis : ε → Bool
  fock : α
  g : α
  G : α
  w : α
  space : α
  nocc : α
  nvir : α
  nbos : α
  naux : α
  amplitudes : Dict (List Char) α
  lambdas : Dict (List Char) α
  initAmps : ε → Except PyErr (Dict (List Char) α)
  initLams : Dict (List Char) α → Except PyErr (Dict (List Char) α)
  eqns : Dict (List Char) (Dict (List Char) (ArgVal ε α) → Except PyErr β)

section
variable {ε α β : Type}

/-- base.py:940-965 `get_eris`.  `GEBCC` has no attribute `CDERIs`: base.py:81 is an annotation only.  (`False` is
not `None` and not a container.) -/
def Session.getEris (s : Session ε α β) : EriArg ε → Except PyErr ε
  | .obj e => .ok e
  | .omitted => .error .typeError
  | .other => .error .typeError
  | .default =>
    if s.withDf then
      if s.spin = .G then .error .attributeError else .ok s.freshCderis
    else .ok s.freshEris

/-- The truth value of `None` or a namespace (misc.py: the length). -/
def truthy (d : Option (Dict (List Char) α)) : Bool :=
  match d with
  | none => false
  | some d => !d.isEmpty

/-- base.py:587-595 `_get_amps`.  `self.init_amps()` fetches the integrals itself (rebcc.py:151, uebcc.py:243,
gebcc.py:394: `eris = self.get_eris(eris)` with `eris=None`). -/
def Session.getAmps (s : Session ε α β) (given : Option (Dict (List Char) α)) :
    Except PyErr (Dict (List Char) α) :=
  let amps := if truthy given then given.getD [] else s.amplitudes
  if truthy (some amps) then .ok amps
  else do
    let e ← s.getEris .default
    s.initAmps e

/-- base.py:597-607 `_get_lams`. -/
def Session.getLams (s : Session ε α β) (lambdas amplitudes : Option (Dict (List Char) α)) :
    Except PyErr (Dict (List Char) α) :=
  let lams := if truthy lambdas then lambdas.getD [] else s.lambdas
  if truthy (some lams) then .ok lams
  else do
    let t ← s.getAmps amplitudes
    s.initLams t

/-- `kwargs.update(kw)`. -/
def updateDict {κ ν : Type} [DecidableEq κ] (d kw : Dict κ ν) : Dict κ ν :=
  kw.foldl (fun d p => d.set p.1 p.2) d

/-- `None` or a container. -/
def EriArg.ofOption : Option ε → EriArg ε
  | none => .default
  | some e => .obj e

/-- Whether `naux` is added: the restricted code (rebcc.py:133) asks for the type of the container in use, the
unrestricted code (uebcc.py:225) for the type of the argument; the general code never adds it. -/
def Session.fitted (s : Session ε α β) (v : ε) (eris : Option ε) : Bool :=
  match s.spin with
  | .R => s.isCderis v
  | .U => (eris.map s.isCderis).getD false
  | .G => false

/-- rebcc.py:121-131, uebcc.py:213-223, gebcc.py:367-377. -/
def Session.baseArgs (s : Session ε α β) (v : ε) : Dict (List Char) (ArgVal ε α) :=
  [(['f'], .val s.fock), (['v'], .eris v), (['g'], .val s.g), (['G'], .val s.G), (['w'], .val s.w),
   ("space".toList, .val s.space), ("nocc".toList, .val s.nocc), ("nvir".toList, .val s.nvir),
   ("nbos".toList, .val s.nbos)]

/-- rebcc.py:117-140, uebcc.py:209-232, gebcc.py:363-383 `_pack_codegen_kwargs`.  `eris` is `none` for `None`. -/
def Session.pack (s : Session ε α β) (extra : List (Dict (List Char) (ArgVal ε α))) (eris : Option ε) :
    Except PyErr (Dict (List Char) (ArgVal ε α)) := do
  let v ← s.getEris (.ofOption eris)
  let kwargs := s.baseArgs v
  let kwargs := if s.fitted v eris then kwargs.set "naux".toList (.val s.naux) else kwargs
  pure (extra.foldl updateDict kwargs)

/-- A namespace of amplitudes as keyword arguments. -/
def asArgs (d : Dict (List Char) α) : Dict (List Char) (ArgVal ε α) := d.map fun p => (p.1, .val p.2)

/-- base.py:521-525: `False` becomes `None`. -/
def Session.loadEris (s : Session ε α β) : EriArg ε → Except PyErr (Option ε)
  | .omitted => .ok none
  | .default => (s.getEris .default).map some
  | .obj e => (s.getEris (.obj e)).map some
  | .other => (s.getEris .other).map some

/-- base.py:528-529. -/
def Session.loadAmps (s : Session ε α β) : AmpArg α → Except PyErr (List (Dict (List Char) (ArgVal ε α)))
  | .omitted => .ok []
  | .given t => (s.getAmps t).map fun t => [asArgs t]

/-- base.py:532-536. -/
def Session.loadLams (s : Session ε α β) (amplitudes : AmpArg α) :
    AmpArg α → Except PyErr (List (Dict (List Char) (ArgVal ε α)))
  | .omitted => .ok []
  | .given l =>
    match amplitudes with
    | .omitted => (s.getLams l none).map fun l => [asArgs l]
    | .given t => (s.getLams l t).map fun l => [asArgs l]

/-- base.py:543-545. -/
def Session.loadFunc (s : Session ε α β) (name : List Char) :
    Except PyErr (Dict (List Char) (ArgVal ε α) → Except PyErr β) :=
  match s.eqns.get? name with
  | none => .error .modelNotImplemented
  | some f => .ok f

/-- base.py:509-553 `_load_function`. -/
def Session.load (s : Session ε α β) (name : List Char) (eris : EriArg ε) (amplitudes lambdas : AmpArg α)
    (excitations : Option (Dict (List Char) α)) (kwargs : Dict (List Char) α) :
    Except PyErr ((Dict (List Char) (ArgVal ε α) → Except PyErr β) × Dict (List Char) (ArgVal ε α)) := do
  let e ← s.loadEris eris
  let d1 ← s.loadAmps amplitudes
  let d2 ← s.loadLams amplitudes lambdas
  let d3 := if truthy excitations then [asArgs (excitations.getD [])] else []
  let f ← s.loadFunc name
  let d4 := if kwargs.isEmpty then [] else [asArgs kwargs]
  let all ← s.pack (d1 ++ d2 ++ d3 ++ d4) e
  pure (f, all)

/-- The common form of the methods that evaluate a generated function of the amplitudes: base.py:623-628. -/
def Session.callAmps (s : Session ε α β) (name : List Char) (eris : EriArg ε)
    (amplitudes : Option (Dict (List Char) α)) : Except PyErr β := do
  let (f, kw) ← s.load name eris (.given amplitudes) .omitted none []
  f kw

/-- The common form of the methods that evaluate a generated function of the amplitudes and lambda amplitudes:
base.py:647-654, 712-719, 742-748, rebcc.py:349-355, 380-386, 423-429 and the same in uebcc.py, gebcc.py. -/
def Session.callLams (s : Session ε α β) (name : List Char) (eris : EriArg ε)
    (amplitudes lambdas : Option (Dict (List Char) α)) : Except PyErr β := do
  let (f, kw) ← s.load name eris (.given amplitudes) (.given lambdas) none []
  f kw

end

/-! ### Density matrices

The generated functions return the list of the arrays of a density matrix: one array, or the two blocks (first axis)
of the electron-boson density matrix. -/

section
variable {ε α R : Type} [Field R]

/-- The array of a list of one. -/
def theArray (l : List (NDArray R)) : Except PyErr (NDArray R) :=
  match l with
  | [x] => .ok x
  | _ => .error .valueError

/-- The pair of a list of two. -/
def thePair (l : List (NDArray R)) : Except PyErr (NDArray R × NDArray R) :=
  match l with
  | [x, y] => .ok (x, y)
  | _ => .error .valueError

/-- rebcc.py:331-361, gebcc.py:573-603 `make_rdm1_f`. -/
def Session.makeRdm1f (s : Session ε α (List (NDArray R))) (eris : EriArg ε)
    (amplitudes lambdas : Option (Dict (List Char) α)) (hermitise : Bool) : Except PyErr (NDArray R) := do
  let r ← s.callLams "make_rdm1_f".toList eris amplitudes lambdas
  let dm ← theArray r
  finishRdm1 dm hermitise

/-- rebcc.py:363-392, gebcc.py:605-634 `make_rdm2_f`. -/
def Session.makeRdm2f (s : Session ε α (List (NDArray R))) (eris : EriArg ε)
    (amplitudes lambdas : Option (Dict (List Char) α)) (hermitise : Bool) : Except PyErr (NDArray R) := do
  let r ← s.callLams "make_rdm2_f".toList eris amplitudes lambdas
  let dm ← theArray r
  finishRdm2 dm hermitise

/-- base.py:696-719 `make_sing_b_dm`. -/
def Session.makeSingB (s : Session ε α (List (NDArray R))) (eris : EriArg ε)
    (amplitudes lambdas : Option (Dict (List Char) α)) : Except PyErr (NDArray R) := do
  let r ← s.callLams "make_sing_b_dm".toList eris amplitudes lambdas
  theArray r

/-- base.py:721-758 `make_rdm1_b`; `shift` is `self.options.shift` and `xi` is `self.xi`. -/
def Session.makeRdm1b (s : Session ε α (List (NDArray R))) (shift : Bool) (xi : NDArray R) (eris : EriArg ε)
    (amplitudes lambdas : Option (Dict (List Char) α)) (unshifted hermitise : Bool) : Except PyErr (NDArray R) := do
  let r ← s.callLams "make_rdm1_b".toList eris amplitudes lambdas
  let dm ← theArray r
  let sing ← if unshifted && shift then s.makeSingB .default none none else pure (NDArray.zeros [0])
  finishRdm1b dm hermitise unshifted shift xi sing

/-- rebcc.py:394-444, gebcc.py:636-686 `make_eb_coup_rdm`. -/
def Session.makeEbCoup (s : Session ε α (List (NDArray R))) (shift : Bool) (xi : NDArray R) (eris : EriArg ε)
    (amplitudes lambdas : Option (Dict (List Char) α)) (unshifted hermitise : Bool) :
    Except PyErr (NDArray R × NDArray R) := do
  let r ← s.callLams "make_eb_coup_rdm".toList eris amplitudes lambdas
  let (dm0, dm1) ← thePair r
  finishEbCoup dm0 dm1 hermitise unshifted shift xi fun h => s.makeRdm1f .default none none h

end

end Ebcc
