import Verif.Model.Amps
import Verif.Model.External
import Verif.Model.GenCode
/-!
Model of a step of the amplitude equations with external corrections: `_update_external_corrections` (`ebcc/ext/eccc.py`
lines 482-515, spin orbitals), what `__enter__` computes (lines 113-121) and the closure `update_amps` (lines 123-155).
-/

namespace Ebcc

/-- The option `mixed_terms_strategy` (eccc.py:31-41). -/
inductive MixedStrategy | ignore | fixed | update
  deriving DecidableEq

section
variable {R : Type}

/-- Namespaces of namespaces: the results of the generated functions have names such as `t2new.OOVV` in the model of
generated code, that is the entry `OOVV` of the namespace `t2new`; with the renaming of eccc.py:506. -/
def nestResults (r : Dict (List Char) (NDArray R)) : Dict (List Char) (Dict (List Char) (NDArray R)) :=
  r.foldl (fun d p =>
    let name := rstripNew (p.1.takeWhile (· ≠ '.'))
    d.set name (((d.get? name).getD []).set ((p.1.dropWhile (· ≠ '.')).drop 1) p.2)) []

/-- eccc.py:512-513: division by the energies.  The assignments
in place keep the keys and their order. -/
def divideExternal [Field R] (energy : List Char → Except PyErr (NDArray R)) (d : Dict (List Char) (NDArray R)) :
    Except PyErr (Dict (List Char) (NDArray R)) :=
  d.mapM fun kv => do
    let e ← energy kv.1
    let q ← kv.2.div e
    pure (kv.1, q)

/-- eccc.py:482-515 `_update_external_corrections`; `func` is the generated function with all its arguments. -/
def externalCorrections [Field R] (a : Ansatz) (spin : SpinType) (energy : List Char → Except PyErr (NDArray R))
    (func : Dict (List Char) (NDArray R) → Except PyErr (Dict (List Char) (NDArray R)))
    (amps : Dict (List Char) (NDArray R)) : Except PyErr (Dict (List Char) (Dict (List Char) (NDArray R))) := do
  let res ← func amps
  let fs ← fermionicClusterRanks a.fermionAnsatz spin .t
  fs.foldlM (fun (ext : Dict (List Char) (Dict (List Char) (NDArray R))) r =>
    match ext.get? r.1 with
    | none => pure ext
    | some d => do
      let d' ← divideExternal energy d
      pure (ext.set r.1 d')) (nestResults res)

/-- eccc.py:113-121: the corrections computed in `__enter__` from the given amplitudes `own`.  Without mixed terms the second
one is not assigned, here it is empty. -/
def externalEnter [Field R] (a : Ansatz) (spin : SpinType) (space : Space)
    (energy : List Char → Except PyErr (NDArray R))
    (external mixed : Dict (List Char) (NDArray R) → Except PyErr (Dict (List Char) (NDArray R)))
    (strategy : MixedStrategy) (own : Dict (List Char) (NDArray R)) :
    Except PyErr (Dict (List Char) (Dict (List Char) (NDArray R)) × Dict (List Char) (Dict (List Char) (NDArray R))) := do
  let amps ← externalAmplitudes a spin space own
  let ext ← externalCorrections a spin energy external amps
  let mix ← if strategy = .ignore then pure [] else externalCorrections a spin energy mixed amps
  pure (ext, mix)

/-- eccc.py:135-138 `amplitudes_full`. -/
def fullAmplitudes (amps own : Dict (List Char) (NDArray R)) : Dict (List Char) (NDArray R) :=
  own.foldl (fun d p => if d.contains p.1 then d else d.set p.1 p.2) amps

/-- eccc.py:123-155, the closure `update_amps`, called with amplitudes; `old` is the saved `update_amps` and `em` are the
corrections computed before: the mixed terms are computed again with the strategy `update`. -/
def externalUpdate [Field R] (a : Ansatz) (spin : SpinType) (space : Space)
    (energy : List Char → Except PyErr (NDArray R))
    (mixed : Dict (List Char) (NDArray R) → Except PyErr (Dict (List Char) (NDArray R)))
    (old : Dict (List Char) (NDArray R) → Except PyErr (Dict (List Char) (NDArray R)))
    (strategy : MixedStrategy) (own : Dict (List Char) (NDArray R))
    (em : Dict (List Char) (Dict (List Char) (NDArray R)) × Dict (List Char) (Dict (List Char) (NDArray R)))
    (amps : Dict (List Char) (NDArray R)) : Except PyErr (Dict (List Char) (NDArray R)) := do
  let mix ← if strategy = .update then externalCorrections a spin energy mixed (fullAmplitudes amps own) else pure em.2
  let new ← old amps
  let new ← addToAmps space new em.1
  if strategy = .ignore then pure new else addToAmps space new mix

/-- The arguments of a generated function (`_pack_codegen_kwargs`): amplitudes by name, and integrals. -/
def packArgs (ints : List Char → Option (NDArray R)) (amps : Dict (List Char) (NDArray R)) (name : List Char) :
    Option (NDArray R) :=
  match amps.get? name with
  | some x => some x
  | none => ints name

end
end Ebcc
