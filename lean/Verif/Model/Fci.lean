import Verif.Model.Tailor
import Verif.Model.Strings
import Mathlib.Algebra.Field.Defs
/-!
Model of the packing of coefficient amplitudes into a CI vector and of their extraction (`ebcc/ext/fci.py` lines 107-174,
363-440 and 480-593).

The conversions between coefficients and cluster amplitudes are in `FciConvert.lean`; here the coefficients are the input
of the packing and the output of the extraction.  Not modelled: PySCF's `tn_addrs_signs`, whose result is a parameter.
-/

namespace Ebcc

/-- fci.py:111-115, 367-374, 489-495: the addresses and signs of one spin channel, for each order. -/
structure CIAddresses where
  /-- `addrs[order]` -/
  addrs : Nat → List Nat
  /-- `signs[order]` -/
  signs : Nat → List Int

/-- fci.py:124-135 (383-394, 509-520): the addresses, the integer zero if there are no electrons of this spin. -/
def CIAddresses.at (A : CIAddresses) (n : Nat) : List Nat := if n = 0 then [0] else A.addrs n

/-- fci.py:126-137 (385-396, 511-522): the signs, the integer one if there are no electrons of this spin. -/
def CIAddresses.signAt (A : CIAddresses) (n : Nat) : List Int := if n = 0 then [1] else A.signs n

/-- fci.py:134-140 (393-399, 519-522, 552-553): the signs of the elements of a block, in row-major order. -/
def blockSigns (A B : CIAddresses) (na nb : Nat) : List Int := (prodL [A.signAt na, B.signAt nb]).map prodZ

/-- Multiplication of the elements by the signs. -/
def scaleSigns {R : Type} [Ring R] (v : List R) (s : List Int) : List R := List.zipWith (fun x (k : Int) => x * (k : R)) v s

/-- fci.py:146 (408, 525) `subscript`. -/
def fciSubscript (na nb : Nat) : List Char :=
  List.replicate na 'i' ++ List.replicate na 'a' ++ (List.replicate nb 'j' ++ List.replicate nb 'b')

/-- fci.py:150-154 (412-416, 526-530) `subscript_target`. -/
def fciTarget (spins : List Char) : List Char := spins.map (fun s => if s = 'a' then 'i' else 'j') ++ spins

/-- fci.py:144, 406: the kinds of the axes. -/
def fciKinds (na nb : Nat) : List Char :=
  List.replicate na 'O' ++ List.replicate na 'V' ++ (List.replicate nb 'O' ++ List.replicate nb 'V')

/-- fci.py:143-145: the shape used by the restricted extraction; `size` is `space.size`. -/
def fciShapeR (size : Char → Nat) (spins : List Char) : List Nat :=
  (fciKinds (spins.count 'a') (spins.count 'b')).map size

/-- `l[::2]`. -/
def everyOther {α : Type} : List α → List α
  | [] => []
  | [x] => [x]
  | x :: _ :: l => x :: everyOther l

/-- fci.py:402-407: the shape used by the unrestricted extraction; `size s k` is `space["ab".index(s)].size(k)`. -/
def fciShapeU (size : Char → Char → Nat) (spins : List Char) : List Nat :=
  let full := spins ++ spins
  let full := everyOther full ++ everyOther (full.drop 1)
  List.zipWith (fun k s => size s k) (fciKinds (spins.count 'a') (spins.count 'b')) full

section
variable {R : Type}

/-- fci.py:117-161 (376-423) `_get_c` for a given shape.  Simplification: signs whose number is not that of the addresses
raise `ValueError` (numpy would broadcast a single sign). -/
def fciGetC [Field R] (ci : NDArray R) (A B : CIAddresses) (shape : List Nat) (spins : List Char) :
    Except PyErr (NDArray R) := do
  let na := spins.count 'a'
  let nb := spins.count 'b'
  let rows := A.at na
  let cols := B.at nb
  if rows.all (fun i => decide (i < ci.shape.getD 0 0)) && cols.all (fun j => decide (j < ci.shape.getD 1 0)) then
    if rows.length = (A.signAt na).length ∧ cols.length = (B.signAt nb).length then do
      let vals := scaleSigns ((prodL [rows, cols]).map ci.get) (blockSigns A B na nb)
      let out ← decompressAxes (fciSubscript na nb) vals shape false none
      let perm ← getStringPermutation (fciSubscript na nb) (fciTarget spins)
      let out ← out.transpose perm
      pure (out.map fun x => x / ci.get [0, 0])
    else .error .valueError
  else .error .indexError

/-- fci.py:163-172: the restricted coefficients, each with its name and spins. -/
def fciBlocksR (maxOrder : Nat) : List (List Char × List Char) :=
  [("c1".toList, "b".toList)] ++ (if 1 < maxOrder then [("c2".toList, "ab".toList)] else [])
    ++ (if 2 < maxOrder then [("c3".toList, "aba".toList)] else [])
    ++ (if 3 < maxOrder then [("c4".toList, "abab".toList), ("c4a".toList, "abaa".toList)] else [])

/-- fci.py:94-174 `_ci_vector_to_coefficients_restricted`. -/
def fciExtractR [Field R] (ci : NDArray R) (A : CIAddresses) (size : Char → Nat) (maxOrder : Nat) :
    Except PyErr (Dict (List Char) (NDArray R)) :=
  if 4 < maxOrder then .error .notImplementedError
  else if maxOrder = 0 then .error .keyError
  else (fciBlocksR maxOrder).mapM fun b => do
    let c ← fciGetC ci A A (fciShapeR size b.2) b.2
    pure (b.1, c)

/-- fci.py:425-438, 564-565: the spin combinations of all orders, with their order. -/
def fciCombs (maxOrder : Nat) : List (Nat × List Char) :=
  (List.range' 1 maxOrder).flatMap fun n => (generateSpinCombinations n false true).map fun c => (n, c)

/-- fci.py:349-440 `_ci_vector_to_coefficients_unrestricted`.  The blocks of `c1`, .., `c4` are entries of one dictionary
(the length of the spin string tells the order).  `max_order = 0` finds no addresses for `c1`. -/
def fciExtractU [Field R] (ci : NDArray R) (A B : CIAddresses) (size : Char → Char → Nat) (maxOrder : Nat) :
    Except PyErr (Dict (List Char) (NDArray R)) :=
  if 4 < maxOrder then .error .notImplementedError
  else if maxOrder = 0 then .error .keyError
  else (fciCombs maxOrder).mapM fun c => do
    let x ← fciGetC ci A B (fciShapeU size (c.2.take c.1)) (c.2.take c.1)
    pure (c.2, x)

/-- A block of the CI vector: rows, columns and values in row-major order. -/
structure CIBlock (R : Type) where
  /-- addresses of the alpha strings -/
  rows : List Nat
  /-- addresses of the beta strings -/
  cols : List Nat
  /-- values -/
  vals : List R

/-- fci.py:497-555 `_pack_vector`; `size s k` is the size of the space `k` of spin `s`.  Simplification: signs whose number
is not that of the values raise `ValueError`, as does the later `_put` for addresses whose number is not that of the
values. -/
def fciPack [Ring R] (A B : CIAddresses) (size : Char → Char → Nat) (spins : List Char) (cn : NDArray R) :
    Except PyErr (CIBlock R) := do
  let na := spins.count 'a'
  let nb := spins.count 'b'
  let sub := fciSubscript na nb
  let perm ← getStringPermutation sub (fciTarget spins)
  let t ← cn.transpose (argsort perm)
  let c ← compressAxes sub t false
  let n1 ← getCompressedSize (sub.filter fun s => decide (s ∈ ['i', 'a'])) [('i', size 'a' 'O'), ('a', size 'a' 'V')]
  let n2 ← getCompressedSize (sub.filter fun s => decide (s ∈ ['j', 'b'])) [('j', size 'b' 'O'), ('b', size 'b' 'V')]
  let shape := [n1, n2]
  let shape := if 'j' ∉ sub ∧ 'b' ∉ sub then shape.dropLast else shape
  let shape := if 'i' ∉ sub ∧ 'a' ∉ sub then shape.drop 1 else shape
  let r ← NDArray.reshape c.data shape
  if r.data.length = (blockSigns A B na nb).length ∧ r.data.length = (A.at na).length * (B.at nb).length then
    pure ⟨A.at na, B.at nb, scaleSigns r.data (blockSigns A B na nb)⟩
  else .error .valueError

/-- The largest element, zero for an empty list. -/
def maxNat (l : List Nat) : Nat := l.foldl Nat.max 0

/-- fci.py:571-587: the CI vector with the given blocks, in intermediate normalisation. -/
def fciAssemble [Ring R] (bs : List (CIBlock R)) : Except PyErr (NDArray R) :=
  if bs.isEmpty then .error .valueError
  else do
    let shape := [maxNat (bs.flatMap (·.rows)) + 1, maxNat (bs.flatMap (·.cols)) + 1]
    let ci ← bs.foldlM (fun (ci : NDArray R) b => putIx ci [b.rows, b.cols] ⟨[b.rows.length, b.cols.length], b.vals⟩)
      (NDArray.zeros shape)
    pure ⟨ci.shape, ci.data.set (ravelIdx ci.shape [0, 0]) 1⟩

/-- fci.py:466-593 `_amplitudes_to_ci_vector_unrestricted`, from the coefficient amplitudes (line 558) on.  `norm` is
`np.linalg.norm`. -/
def fciVectorU [Field R] (norm : NDArray R → R) (A B : CIAddresses) (size : Char → Char → Nat)
    (camps : Dict (List Char) (NDArray R)) (maxOrder : Nat) (normalise : Bool) : Except PyErr (NDArray R) :=
  if 4 < maxOrder then .error .notImplementedError
  else do
    let bs ← (fciCombs maxOrder).mapM fun c => do
      let x ← camps.getItem c.2
      fciPack A B size (c.2.take c.1) x
    let ci ← fciAssemble bs
    pure (if normalise then ci.map fun x => x / norm ci else ci)

end

end Ebcc
