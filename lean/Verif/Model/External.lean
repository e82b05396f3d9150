import Verif.Model.Tailor

/-!
Model of the amplitudes handed to the external corrections: `_get_external_amplitudes` (`ebcc/ext/eccc.py` lines 295-321,
408-435, 514-540), `_inflate` (`ebcc/backend/__init__.py` lines 164-180) and the unrestricted `_add_to_amps` (344-366).

The unrestricted version shares the inner namespaces with the caller, so it is modelled with a heap of namespaces.
-/

namespace Ebcc

section
variable {R : Type}

/-- backend/__init__.py:164-180 `_inflate`. -/
def inflate [Zero R] (shape : List Nat) (lists : List (List Nat)) (v : NDArray R) : Except PyErr (NDArray R) :=
  putIx (NDArray.zeros shape) lists v

/-- eccc.py:310-319 (529-538): one amplitude. -/
def inflateAmp [Zero R] (space : Space) (key : List Char) (x : NDArray R) : Except PyErr (NDArray R) := do
  let shape ← key.mapM space.size
  let masks ← key.mapM fun k => extMask space k.toUpper
  inflate shape (masks.map maskInds) x

/-- eccc.py:295-321, 514-540 `_get_external_amplitudes`, restricted and general; the assignments go to a copy, the amplitudes
of the caller are not changed. -/
def externalAmplitudes [Zero R] (a : Ansatz) (spin : SpinType) (space : Space) (amps : Dict (List Char) (NDArray R)) :
    Except PyErr (Dict (List Char) (NDArray R)) := do
  let fs ← fermionicClusterRanks a.fermionAnsatz spin .t
  fs.foldlM (fun (d : Dict (List Char) (NDArray R)) r =>
    match d.get? r.1 with
    | none => pure d
    | some x => do
      let y ← inflateAmp space r.2.1 x
      pure (d.set r.1 y)) amps

/-- eccc.py:426-433: one spin block. -/
def inflateBlock [Zero R] (sa sb : Space) (key comb : List Char) (x : NDArray R) : Except PyErr (NDArray R) := do
  let shape ← (comb.zip key).mapM fun p => do
    let sp ← spinSpace sa sb p.1
    sp.size p.2
  let masks ← (comb.zip key).mapM fun p => do
    let sp ← spinSpace sa sb p.1
    extMask sp p.2.toUpper
  inflate shape (masks.map maskInds) x

/-- eccc.py:424-433: the spin blocks of one amplitude, replaced in its namespace. -/
def inflateBlocks [Zero R] (sa sb : Space) (key : List Char) (n : Nat) (d : Dict (List Char) (NDArray R)) :
    Except PyErr (Dict (List Char) (NDArray R)) :=
  (generateSpinCombinations n false true).foldlM (fun (d : Dict (List Char) (NDArray R)) comb => do
    let x ← d.getItem comb
    let y ← inflateBlock sa sb key comb x
    pure (d.set comb y)) d

/-- The namespaces of the spin blocks, by address. -/
abbrev NsHeap (R : Type) := Dict Nat (Dict (List Char) (NDArray R))

/-- eccc.py:419-433: the loop over the amplitudes of the ansatz. -/
def uExternalLoop [Zero R] (sa sb : Space) (amps : Dict (List Char) Nat) (fs : List Rank) (heap : NsHeap R) :
    Except PyErr (NsHeap R) :=
  fs.foldlM (fun (heap : NsHeap R) r =>
    match amps.get? r.1 with
    | none => pure heap
    | some ref => do
      let d ← heap.getItem ref
      let d' ← inflateBlocks sa sb r.2.1 r.2.2 d
      pure (heap.set ref d')) heap

/-- eccc.py:408-435 `_get_external_amplitudes`, unrestricted: `amps` maps the names to the addresses of the namespaces of the
spin blocks.  `self.amplitudes.copy()` copies the names and addresses (misc.py:135-137), so the result is the same
dictionary and the blocks are replaced in the shared namespaces: the result is the changed heap. -/
def uExternalAmplitudes [Zero R] (a : Ansatz) (sa sb : Space) (amps : Dict (List Char) Nat) (heap : NsHeap R) :
    Except PyErr (Dict (List Char) Nat × NsHeap R) := do
  let fs ← fermionicClusterRanks a.fermionAnsatz .U .t
  let heap ← uExternalLoop sa sb amps fs heap
  pure (amps, heap)

/-- eccc.py:359-366: one block of corrections added to a spin block. -/
def uAddExternal [Ring R] (sa sb : Space) (comb : List Char) (x : NDArray R) (key : List Char) (ext : NDArray R) :
    Except PyErr (NDArray R) := do
  let masks ← (comb.zip key).mapM fun p => do
    let sp ← spinSpace sa sb p.1
    extMask sp p.2
  let lists := masks.map maskInds
  if lists.length = x.shape.length ∧ (prodL lists).all (fun t => decide (t ∈ box x.shape)) = true then do
    let v ← (ixGet x lists).add ext
    putIx x lists v
  else .error .indexError

/-- eccc.py:357-366: the spin blocks of one amplitude; a combination without an amplitude is a `KeyError`. -/
def uAddBlocks [Ring R] (sa sb : Space) (d : Dict (List Char) (NDArray R))
    (exts : Dict (List Char) (Dict (List Char) (NDArray R))) : Except PyErr (Dict (List Char) (NDArray R)) :=
  exts.foldlM (fun (d : Dict (List Char) (NDArray R)) e =>
    if e.2.isEmpty then pure d
    else do
      let x ← d.getItem e.1
      let y ← e.2.foldlM (fun x (kv : List Char × NDArray R) => uAddExternal sa sb e.1 x kv.1 kv.2) x
      pure (d.set e.1 y)) d

/-- eccc.py:344-366 `_add_to_amps`, unrestricted. -/
def uAddToAmps [Ring R] (sa sb : Space) (amps : Dict (List Char) (UVal R))
    (exts : Dict (List Char) (Dict (List Char) (Dict (List Char) (NDArray R)))) :
    Except PyErr (Dict (List Char) (UVal R)) :=
  exts.foldlM (fun (amps : Dict (List Char) (UVal R)) e =>
    match amps.get? e.1 with
    | none => pure amps
    | some (.spins d) => do
      let d' ← uAddBlocks sa sb d e.2
      pure (amps.set e.1 (.spins d'))
    | some (.array _) => .error .attributeError) amps

end

end Ebcc
