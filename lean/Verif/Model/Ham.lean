import Verif.Model.Space
import Verif.Model.Array
import Mathlib.Algebra.BigOperators.Fin
/-!
Model of the integral containers: `ebcc/ham/base.py` lines 35-114, `ebcc/ham/eris.py`, `ebcc/ham/fock.py`,
`ebcc/ham/elbos.py` and `ebcc/ham/cderis.py`.

A container is the dictionary of its members.  Reading takes the container to a result and to the container after the
read; what was stored before an exception stays stored.  The integral transformations of PySCF are parameters; the
contractions `util.einsum` are written as the sums they stand for (C17).  The conversions between backends and
precisions are not modelled.
-/

namespace Ebcc

section
variable {R : Type} [CommRing R]

/-- A read: the result and the state after it. -/
abbrev HRead (S V : Type) := S → Except PyErr V × S

/-- The start and the length of a numpy slice of an axis with `n` elements. -/
def sliceExtent (n : Nat) (ab : Int × Int) : Nat × Nat :=
  (sliceBound n ab.1, sliceBound n ab.2 - sliceBound n ab.1)

/-- `x[slices]` for a tuple of slices; axes without slice are taken in full. -/
def npSlices (x : NDArray R) (slices : List (Int × Int)) : Except PyErr (NDArray R) :=
  if slices.length ≤ x.shape.length then
    let full := (x.shape.drop slices.length).map fun n : Nat => ((0 : Int), (n : Int))
    let ext := List.zipWith sliceExtent x.shape (slices ++ full)
    .ok (NDArray.ofFn (ext.map Prod.snd) fun idx => x.get (List.zipWith (fun e i => e.1 + i) ext idx))
  else .error .indexError

/-- base.py:85-95 `_get_slices`. -/
def getSlices (spaces : List Space) (key : List Char) : Except PyErr (List (Int × Int)) :=
  (List.zip spaces key).mapM fun sk => sk.1.slice sk.2

/-- `np.eye(n)`. -/
def npEye (n : Nat) : NDArray R := NDArray.ofFn [n, n] fun idx => if idx.getD 0 0 = idx.getD 1 0 then 1 else 0

/-- base.py:97-114 `_get_coeffs`: the coefficients of one index. -/
def getCoeff (spaces : List Space) (coeffs : List (NDArray R)) (i : Nat) (k : Char) : Except PyErr (NDArray R) :=
  match coeffs[i]? with
  | none => .error .indexError
  | some c =>
    if k = 'p' then .ok (npEye (c.shape.getD 0 0))
    else match spaces[i]? with
      | none => .error .indexError
      | some s => do
        let ab ← s.slice k
        npSlices c [((0 : Int), (c.shape.getD 0 0 : Int)), ab]

/-- base.py:97-114 `_get_coeffs`. -/
def getCoeffs (spaces : List Space) (coeffs : List (NDArray R)) (key : List Char) (offset : Nat) :
    Except PyErr (List (NDArray R)) :=
  key.zipIdx.mapM fun ki => getCoeff spaces coeffs (ki.2 + offset) ki.1

/-- `if key not in self._members: self._members[key] = block`, then `self._members[key]`. -/
def cacheRead {V : Type} (block : List Char → Except PyErr V) (key : List Char) : HRead (Dict (List Char) V) V :=
  fun members =>
    match members.get? key with
    | some v => (.ok v, members)
    | none =>
      match block key with
      | .ok v => (.ok v, members.set key v)
      | .error e => (.error e, members)

/-- eris.py:36-50: the block of a key; `ao2mo` is the integral transformation of PySCF with the reshape. -/
def eriBlock (ao2mo : List (NDArray R) → Except PyErr (NDArray R)) (spaces : List Space) (coeffs : List (NDArray R))
    (key : List Char) : Except PyErr (NDArray R) := do
  let cs ← getCoeffs spaces coeffs key 0
  ao2mo cs

/-- eris.py:26-52 `RERIs.__getitem__`. -/
def reriRead (ao2mo : List (NDArray R) → Except PyErr (NDArray R)) (spaces : List Space) (coeffs : List (NDArray R))
    (key : List Char) : HRead (Dict (List Char) (NDArray R)) (NDArray R) :=
  cacheRead (eriBlock ao2mo spaces coeffs) key

/-- `"ab".index(c)` for one of the two characters. -/
def spinIndex (c : Char) : Nat := if c = 'a' then 0 else 1

/-- The entries of a list of pairs for the spins of the four (or two) indices. -/
def pickSpins {X : Type} (pairs : List (X × X)) (spins : List Nat) : List X :=
  List.zipWith (fun (p : X × X) i => if i = 0 then p.1 else p.2) pairs spins

/-- The spins of the four indices for a key such as `aabb`. -/
def eriSpins (key : List Char) : List Nat :=
  let i := spinIndex (key.getD 0 ' ')
  let j := spinIndex (key.getD 2 ' ')
  [i, i, j, j]

/-- eris.py:60-87 `UERIs.__getitem__` followed by a read of a block of the result: the members are containers. -/
def ueriRead (ao2mo : List (NDArray R) → Except PyErr (NDArray R)) (spaces : List (Space × Space))
    (coeffs : List (NDArray R × NDArray R)) (spin key : List Char) :
    HRead (Dict (List Char) (Dict (List Char) (NDArray R))) (NDArray R) :=
  fun members =>
    if spin ∉ ["aaaa".toList, "aabb".toList, "bbaa".toList, "bbbb".toList] then (.error .keyError, members)
    else
      let inner := (members.get? spin).getD []
      let r := reriRead ao2mo (pickSpins spaces (eriSpins spin)) (pickSpins coeffs (eriSpins spin)) key inner
      (r.1, members.set spin r.2)

/-- elbos.py:32-40 (89-97): the block of a key. -/
def elbosBlock (g : NDArray R) (spaces : List Space) (key : List Char) : Except PyErr (NDArray R) :=
  match key with
  | [] => .error .indexError
  | c :: rest =>
    if c ≠ 'b' then .error .assertionError
    else if 'p' ∈ key then .error .notImplementedError
    else do
      let slices ← getSlices spaces rest
      npSlices g (((0 : Int), (g.shape.getD 0 0 : Int)) :: slices)

/-- A member of a coupling container: a block, or the number that line 69 of elbos.py stores by attribute
assignment. -/
inductive GVal (R : Type)
  | block (x : NDArray R)
  | index (i : Nat)

/-- elbos.py:22-42, 79-99 `RElectronBoson.__getitem__`, `GElectronBoson.__getitem__`. -/
def relbosRead (g : NDArray R) (spaces : List Space) (key : List Char) :
    HRead (Dict (List Char) (GVal R)) (GVal R) :=
  cacheRead (fun k => (elbosBlock g spaces k).map GVal.block) key

/-- elbos.py:62-69: a new member of the unrestricted container; the attribute assignment of line 69 is a member,
because `Namespace.__setattr__` stores members. -/
def newElbos (i : Nat) : Dict (List Char) (GVal R) := Dict.set [] "_spin_index".toList (.index i)

/-- elbos.py:66: the array for a spin. -/
def spinCoupling (g : NDArray R) (i : Nat) : NDArray R :=
  if g.shape.length = 4 then NDArray.ofFn (g.shape.drop 1) fun idx => g.get (i :: idx) else g

/-- elbos.py:50-71 `UElectronBoson.__getitem__` followed by a read of a block. -/
def uelbosRead (g : NDArray R) (spaces : List (Space × Space)) (spin key : List Char) :
    HRead (Dict (List Char) (Dict (List Char) (GVal R))) (GVal R) :=
  fun members =>
    if spin ∉ ["aa".toList, "bb".toList] then (.error .keyError, members)
    else
      let i := spinIndex (spin.getD 0 ' ')
      let inner := (members.get? spin).getD (newElbos i)
      let r := relbosRead (spinCoupling g i) (pickSpins spaces [i, i]) key inner
      (r.1, members.set spin r.2)

/-- eris.py:126: `np.transpose(array, (0, 2, 1, 3)) - np.transpose(array, (0, 2, 3, 1))`. -/
def antisymERI (chem : NDArray R) : NDArray R :=
  let n := fun k => chem.shape.getD k 0
  NDArray.ofFn [n 0, n 2, n 1, n 3] fun idx =>
    chem.get [idx.getD 0 0, idx.getD 2 0, idx.getD 1 0, idx.getD 3 0]
      - chem.get [idx.getD 0 0, idx.getD 3 0, idx.getD 1 0, idx.getD 2 0]

/-- The transformation of the integrals over `nao` functions by four blocks of coefficients. -/
def transformERI (nao : Nat) (eri : Nat → Nat → Nat → Nat → R) (c : Nat → Nat → Nat → R) (p q r s : Nat) : R :=
  ((List.range nao).map fun m => ((List.range nao).map fun n => ((List.range nao).map fun l =>
    ((List.range nao).map fun k => eri m n l k * (c 0 m p * c 1 n q) * (c 2 l r * c 3 k s)).sum).sum).sum).sum

/-- eris.py:100-123: the integrals in chemists' notation, from the blocks of the coefficients for the two spins.  The
packing and unpacking of equivalent elements by PySCF (`compact`, `restore`) is not modelled. -/
def generalChem (nao nmo : Nat) (eri : Nat → Nat → Nat → Nat → R) (mo : List (NDArray R)) : NDArray R :=
  let a : Nat → Nat → Nat → R := fun x m p => (mo.getD x ⟨[], []⟩).get [m, p]
  let b : Nat → Nat → Nat → R := fun x m p => (mo.getD x ⟨[], []⟩).get [nao + m, p]
  let ab : Nat → Nat → Nat → R := fun x => if x < 2 then a x else b x
  let ba : Nat → Nat → Nat → R := fun x => if x < 2 then b x else a x
  NDArray.ofFn [nmo, nmo, nmo, nmo] fun idx =>
    let p := idx.getD 0 0
    let q := idx.getD 1 0
    let r := idx.getD 2 0
    let s := idx.getD 3 0
    transformERI nao eri a p q r s + transformERI nao eri b p q r s + transformERI nao eri ab p q r s
      + transformERI nao eri ba p q r s

/-- eris.py:96-129 `GERIs.__init__`: the stored array; the four sets of coefficients must have the same number of
columns. -/
def geriArray (nao : Nat) (eri : Nat → Nat → Nat → Nat → R) (mo : List (NDArray R)) : Except PyErr (NDArray R) :=
  let nmo := (mo.getD 0 ⟨[], []⟩).shape.getD 1 0
  if mo.all fun c => decide (c.shape.getD 1 0 = nmo) then .ok (antisymERI (generalChem nao nmo eri mo))
  else .error .valueError

/-- eris.py:131-142 `GERIs.__getitem__`. -/
def geriRead (array : NDArray R) (spaces : List Space) (key : List Char) : Except PyErr (NDArray R) :=
  if 'p' ∈ key then .error .notImplementedError
  else do
    let slices ← getSlices spaces key
    npSlices array slices

/-- fock.py:37-44: the block before the shift. -/
def fockBlock (fock : NDArray R) (spaces : List Space) (coeffs : List (NDArray R)) (key : List Char) :
    Except PyErr (NDArray R) := do
  let cs ← getCoeffs spaces coeffs key 0
  match cs with
  | [ci, cj] => pure (NDArray.ofFn [ci.shape.getD 1 0, cj.shape.getD 1 0] fun idx =>
      ((List.range (fock.shape.getD 0 0)).map fun p => ((List.range (fock.shape.getD 1 0)).map fun q =>
        fock.get [p, q] * ci.get [p, idx.getD 0 0] * cj.get [q, idx.getD 1 0]).sum).sum)
  | _ => .error .valueError

/-- fock.py:49-54: the shift of a block. -/
def shiftBlock (xi : List R) (block g gRev : NDArray R) : NDArray R :=
  NDArray.ofFn block.shape fun idx =>
    block.get idx - ((List.range xi.length).map fun b =>
      xi.getD b 0 * (g.get (b :: idx) + gRev.get [b, idx.getD 1 0, idx.getD 0 0])).sum

/-- `self.g.__getattr__("b" + key)` (misc.py:84-91): `KeyError` becomes `AttributeError`; a number in place of a block
has no axes to work on. -/
def couplingAttr (g : NDArray R) (spaces : List Space) (key : List Char) :
    HRead (Dict (List Char) (GVal R)) (NDArray R) :=
  fun members =>
    match relbosRead g spaces ('b' :: key) members with
    | (.ok (.block x), m) => (.ok x, m)
    | (.ok (.index _), m) => (.error .valueError, m)
    | (.error .keyError, m) => (.error .attributeError, m)
    | (.error e, m) => (.error e, m)

/-- A Fock container and the coupling container it reads. -/
structure FockState (R : Type) where
  fock : Dict (List Char) (NDArray R)
  g : Dict (List Char) (GVal R)

/-- The data of a Fock container: the Fock matrix, the coupling, the spaces and coefficients, `shift` and `xi`. -/
structure FockData (R : Type) where
  fock : NDArray R
  g : NDArray R
  spaces : List Space
  coeffs : List (NDArray R)
  shift : Bool
  xi : List R

/-- fock.py:27-56 `RFock.__getitem__`: the block is stored before the coupling is read. -/
def fockRead (D : FockData R) (key : List Char) : HRead (FockState R) (NDArray R) :=
  fun st =>
    match st.fock.get? key with
    | some v => (.ok v, st)
    | none =>
      match fockBlock D.fock D.spaces D.coeffs key with
      | .error e => (.error e, st)
      | .ok block =>
        let st : FockState R := ⟨st.fock.set key block, st.g⟩
        if D.shift then
          match couplingAttr D.g D.spaces key st.g with
          | (.error e, g) => (.error e, ⟨st.fock, g⟩)
          | (.ok x, g) =>
            match couplingAttr D.g D.spaces key.reverse g with
            | (.error e, g) => (.error e, ⟨st.fock, g⟩)
            | (.ok y, g) => (.ok (shiftBlock D.xi block x y), ⟨st.fock.set key (shiftBlock D.xi block x y), g⟩)
        else (.ok block, st)

/-- Reads of a Fock container and of its coupling. -/
inductive FockOp
  | fock (key : List Char)
  | g (key : List Char)

/-- What a read returns. -/
def fockOp (D : FockData R) : FockOp → HRead (FockState R) (GVal R)
  | .fock key => fun st => let r := fockRead D key st; (r.1.map GVal.block, r.2)
  | .g key => fun st => let r := relbosRead D.g D.spaces key st.g; (r.1, ⟨st.fock, r.2⟩)

/-- An unrestricted Fock container and the coupling container it reads. -/
structure UFockState (R : Type) where
  fock : Dict (List Char) (Dict (List Char) (NDArray R))
  g : Dict (List Char) (Dict (List Char) (GVal R))

/-- The data of an unrestricted Fock container. -/
structure UFockData (R : Type) where
  fock : NDArray R × NDArray R
  g : NDArray R
  spaces : List (Space × Space)
  coeffs : List (NDArray R × NDArray R)
  shift : Bool
  xi : List R

/-- fock.py:76-86: the data of the container for one spin. -/
def UFockData.spin (D : UFockData R) (i : Nat) : FockData R :=
  ⟨if i = 0 then D.fock.1 else D.fock.2, spinCoupling D.g i, pickSpins D.spaces [i, i], pickSpins D.coeffs [i, i],
    D.shift, D.xi⟩

/-- fock.py:64-88 `UFock.__getitem__` followed by a read of a block, for a container with a coupling: the container
for a spin shares the coupling container of that spin. -/
def ufockRead (D : UFockData R) (spin key : List Char) : HRead (UFockState R) (NDArray R) :=
  fun st =>
    if spin ∉ ["aa".toList, "bb".toList] then (.error .keyError, st)
    else
      let i := spinIndex (spin.getD 0 ' ')
      let r := fockRead (D.spin i) key ⟨(st.fock.get? spin).getD [], (st.g.get? spin).getD (newElbos i)⟩
      (r.1, ⟨st.fock.set spin r.2.fock, st.g.set spin r.2.g⟩)

/-- Reads of an unrestricted Fock container and of its coupling. -/
inductive UFockOp
  | fock (spin key : List Char)
  | g (spin key : List Char)

/-- What a read returns. -/
def ufockOp (D : UFockData R) : UFockOp → HRead (UFockState R) (GVal R)
  | .fock spin key => fun st => let r := ufockRead D spin key st; (r.1.map GVal.block, r.2)
  | .g spin key => fun st => let r := uelbosRead D.g D.spaces spin key st.g; (r.1, ⟨st.fock, r.2⟩)

/-- cderis.py:52-71: a three-index block; `nrE2` is the transformation of PySCF with the reshape. -/
def cderiBlock (nrE2 : NDArray R → NDArray R → NDArray R) (spaces : List Space) (coeffs : List (NDArray R))
    (e2 : Bool) (key : List Char) : Except PyErr (NDArray R) := do
  let cs ← getCoeffs spaces coeffs key (if e2 then 2 else 0)
  match cs with
  | [ci, cj] => pure (nrE2 ci cj)
  | _ => .error .valueError

/-- cderis.py:45 the key of the cache. -/
def cderiKey (key : List Char) (e2 : Bool) : List Char := key ++ (if e2 then "_e2".toList else "_e1".toList)

/-- cderis.py:45-73: the read of a three-index block, whose key has lost its first character. -/
def cderiRead3 (nrE2 : NDArray R → NDArray R → NDArray R) (spaces : List Space) (coeffs : List (NDArray R))
    (e2 : Bool) (key : List Char) : HRead (Dict (List Char) (NDArray R)) (NDArray R) :=
  fun members =>
    match members.get? (cderiKey key e2) with
    | some v => (.ok v, members)
    | none =>
      match cderiBlock nrE2 spaces coeffs e2 key with
      | .ok v => (.ok v, members.set (cderiKey key e2) v)
      | .error e => (.error e, members)

/-- The position of a pair in the packed triangle. -/
def trilPos (m n : Nat) : Nat := if n ≤ m then m * (m + 1) / 2 + n else n * (n + 1) / 2 + m

/-- `_ao2mo.nr_e2(cderi, coeffs, ijslice, aosym="s2", mosym="s1")` of PySCF with the reshape of cderis.py:66: the
auxiliary integrals are stored for the pairs `m ≥ n` of `nao` functions. -/
def nrE2Packed (nao : Nat) (cderi : NDArray R) (ci cj : NDArray R) : NDArray R :=
  NDArray.ofFn [cderi.shape.getD 0 0, ci.shape.getD 1 0, cj.shape.getD 1 0] fun idx =>
    ((List.range nao).map fun m => ((List.range nao).map fun n =>
      cderi.get [idx.getD 0 0, trilPos m n] * (ci.get [m, idx.getD 1 0] * cj.get [n, idx.getD 2 0])).sum).sum

/-- cderis.py:40 `util.einsum("Qij,Qkl->ijkl", v1, v2)`. -/
def contractQ (v1 v2 : NDArray R) : NDArray R :=
  let n := fun (v : NDArray R) k => v.shape.getD k 0
  NDArray.ofFn [n v1 1, n v1 2, n v2 1, n v2 2] fun idx =>
    ((List.range (n v1 0)).map fun Q =>
      v1.get [Q, idx.getD 0 0, idx.getD 1 0] * v2.get [Q, idx.getD 2 0, idx.getD 3 0]).sum

/-- cderis.py:27-73 `RCDERIs.__getitem__`. -/
def rcderiRead (nrE2 : NDArray R → NDArray R → NDArray R) (spaces : List Space) (coeffs : List (NDArray R))
    (key : List Char) : HRead (Dict (List Char) (NDArray R)) (NDArray R) :=
  fun members =>
    if key.length = 4 then
      match cderiRead3 nrE2 spaces coeffs false (key.take 2) members with
      | (.error e, m) => (.error e, m)
      | (.ok v1, m) =>
        match cderiRead3 nrE2 spaces coeffs true (key.drop 2) m with
        | (.error e, m) => (.error e, m)
        | (.ok v2, m) => (.ok (contractQ v1 v2), m)
    else if key.length = 3 then cderiRead3 nrE2 spaces coeffs false (key.drop 1) members
    else (.error .keyError, members)

/-- cderis.py:90-95: the key of the member. -/
def ucderiKey (spin : List Char) : Except PyErr (List Char) :=
  let spin := if spin.length = 3 then spin.drop 1 else spin
  if spin ∉ ["aa".toList, "bb".toList, "aaaa".toList, "aabb".toList, "bbaa".toList, "bbbb".toList] then .error .keyError
  else .ok (if spin.length = 2 then spin ++ spin else spin)

/-- cderis.py:81-111 `UCDERIs.__getitem__` followed by a read of a block. -/
def ucderiRead (nrE2 : NDArray R → NDArray R → NDArray R) (spaces : List (Space × Space))
    (coeffs : List (NDArray R × NDArray R)) (spin key : List Char) :
    HRead (Dict (List Char) (Dict (List Char) (NDArray R))) (NDArray R) :=
  fun members =>
    match ucderiKey spin with
    | .error e => (.error e, members)
    | .ok spin =>
      let inner := (members.get? spin).getD []
      let r := rcderiRead nrE2 (pickSpins spaces (eriSpins spin)) (pickSpins coeffs (eriSpins spin)) key inner
      (r.1, members.set spin r.2)

/-- The results and the final state of a sequence of reads. -/
def runReads {S V O : Type} (read : O → HRead S V) : List O → S → List (Except PyErr V) × S
  | [], s => ([], s)
  | o :: os, s =>
    let r := read o s
    let rs := runReads read os r.2
    (r.1 :: rs.1, rs.2)

end

end Ebcc
