import Verif.Model.Brueckner
/-!
Model of the changes that the tailored and externally corrected closures make to the amplitudes:
`_set_active_space` (`ebcc/ext/tcc.py` lines 163-179, 202-221, 244-260) and `_add_to_amps` (`ebcc/ext/eccc.py` lines
237-258, 344-366, 459-480).
-/

namespace Ebcc

section
variable {R : Type}

/-- `_put(array, np.ix_(*lists), values)` of the numpy backend (backend/__init__.py:127-133): `ravel_multi_index`
raises `ValueError` if the number of lists is not the number of axes or an index is out of bounds. -/
def putIx [Zero R] (x : NDArray R) (lists : List (List Nat)) (v : NDArray R) : Except PyErr (NDArray R) :=
  if lists.length = x.shape.length ∧ (prodL lists).all (fun t => decide (t ∈ box x.shape)) = true then
    .ok ⟨x.shape, putFlat x.data ((prodL lists).map (ravelIdx x.shape)) v.data⟩
  else .error .valueError

/-- tcc.py:36-38, eccc.py:44-46 `_mask`. -/
def extMask (space : Space) (k : Char) : Except PyErr (List Bool) :=
  if k ∈ "ioO".toList then space.omask k else space.vmask k

/-- tcc.py:176-179 (258-260): one amplitude. -/
def tailorArray [Zero R] (mask : Char → Except PyErr (List Bool)) (key : List Char) (x act : NDArray R) :
    Except PyErr (NDArray R) := do
  let masks ← key.mapM fun k => mask k.toUpper
  putIx x (masks.map maskInds) act

/-- tcc.py:163-179, 244-260 `_set_active_space`, restricted and general. -/
def setActiveSpace [Zero R] (a : Ansatz) (spin : SpinType) (space : Space) (amps active : Dict (List Char) (NDArray R)) :
    Except PyErr (Dict (List Char) (NDArray R)) := do
  let fs ← fermionicClusterRanks a.fermionAnsatz spin .t
  fs.foldlM (fun (amps : Dict (List Char) (NDArray R)) r =>
    match active.get? r.1 with
    | none => pure amps
    | some act => do
      let x ← amps.getItem r.1
      let y ← tailorArray (extMask space) r.2.1 x act
      pure (amps.set r.1 y)) amps

/-- `self.cc.space["ab".index(s)]`. -/
def spinSpace (sa sb : Space) (s : Char) : Except PyErr Space :=
  if s = 'a' then .ok sa else if s = 'b' then .ok sb else .error .valueError

/-- tcc.py:215-221: the spin blocks of one amplitude. -/
def uTailorBlocks [Zero R] (sa sb : Space) (key : List Char) (d act : Dict (List Char) (NDArray R)) :
    Except PyErr (Dict (List Char) (NDArray R)) :=
  d.keys.foldlM (fun (d : Dict (List Char) (NDArray R)) comb => do
    let masks ← (comb.zip key).mapM fun p => do
      let sp ← spinSpace sa sb p.1
      extMask sp p.2.toUpper
    let x ← d.getItem comb
    let v ← act.getItem comb
    let y ← putIx x (masks.map maskInds) v
    pure (d.set comb y)) d

/-- tcc.py:202-221 `_set_active_space`, unrestricted. -/
def uSetActiveSpace [Zero R] (a : Ansatz) (sa sb : Space) (amps active : Dict (List Char) (UVal R)) :
    Except PyErr (Dict (List Char) (UVal R)) := do
  let fs ← fermionicClusterRanks a.fermionAnsatz .U .t
  fs.foldlM (fun (amps : Dict (List Char) (UVal R)) r =>
    match active.get? r.1 with
    | none => pure amps
    | some act => do
      let x ← amps.getItem r.1
      match x, act with
      | .spins d, .spins da => do
        let d' ← uTailorBlocks sa sb r.2.1 d da
        pure (amps.set r.1 (.spins d'))
      | _, _ => .error .attributeError) amps

/-- eccc.py:252-258 (474-480): one block of corrections added to an array. -/
def addExternal [Ring R] (space : Space) (x : NDArray R) (key : List Char) (ext : NDArray R) :
    Except PyErr (NDArray R) := do
  let masks ← key.mapM (extMask space)
  let lists := masks.map maskInds
  if lists.length = x.shape.length ∧ (prodL lists).all (fun t => decide (t ∈ box x.shape)) = true then do
    let v ← (ixGet x lists).add ext
    putIx x lists v
  else .error .indexError

/-- eccc.py:237-258, 459-480 `_add_to_amps`, restricted and general. -/
def addToAmps [Ring R] (space : Space) (amps : Dict (List Char) (NDArray R))
    (exts : Dict (List Char) (Dict (List Char) (NDArray R))) : Except PyErr (Dict (List Char) (NDArray R)) :=
  exts.foldlM (fun (amps : Dict (List Char) (NDArray R)) e =>
    match amps.get? e.1 with
    | none => pure amps
    | some x => do
      let y ← e.2.foldlM (fun x (kv : List Char × NDArray R) => addExternal space x kv.1 kv.2) x
      pure (amps.set e.1 y)) amps

end

end Ebcc
