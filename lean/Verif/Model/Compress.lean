import Verif.Model.Array
import Verif.Model.Tril
import Verif.Model.Perms
import Verif.Model.Misc
import Mathlib.Algebra.Ring.Defs
import Mathlib.Algebra.Ring.Int.Defs
import Mathlib.Data.Int.Cast.Defs
/-!
Model of `ebcc/util/permutations.py` lines 324-521: `compress_axes`, `decompress_axes`,
`get_compressed_size`, and of the numpy branch of `_put` (`ebcc/backend/__init__.py` lines 109-133).

Subscripts are lists over any type of symbols with decidable equality (Python: characters).  The
assertion `"->" not in subscript` (346, 419) is not modelled: symbols are single characters.
-/

namespace Ebcc

/-- `itertools.product(*ls)`: the last factor varies fastest. -/
def prodL {α : Type} : List (List α) → List (List α)
  | [] => [[]]
  | l :: ls => l.flatMap fun x => (prodL ls).map fun t => x :: t

/-- permutations.py:349-355, 436-442, 543-549: the `i`th new character of the subscript is replaced
by `chr(97 + i)`; represented by `i` (only equality and order are used afterwards). -/
def canon {κ : Type} [DecidableEq κ] (sub : List κ) : List Nat :=
  sub.map fun c => (unique sub).idxOf c

/-- The multi-index `idx` of the original array with `idx[axes[j]] = T[j]`. -/
def unpermute (axes T : List Nat) : List Nat :=
  (List.range axes.length).map fun p => T.getD (axes.idxOf p) 0

/-- `numpy.transpose(a, axes)`; `ValueError` unless `axes` is a permutation of the axes. -/
def NDArray.transpose {R : Type} [Zero R] (a : NDArray R) (axes : List Nat) :
    Except PyErr (NDArray R) :=
  if axes.isPerm (List.range a.shape.length) then
    .ok (NDArray.ofFn (axes.map fun p => a.shape.getD p 0) fun T => a.get (unpermute axes T))
  else .error .valueError

/-- permutations.py:363-368, 450-455: the size of each character, asserting consistency. -/
def sizesLoop : List (Nat × Nat) → Dict Nat Nat → Except PyErr (Dict Nat Nat)
  | [], d => .ok d
  | (c, n) :: l, d =>
    match d.get? c with
    | some m => if m = n then sizesLoop l d else .error .assertionError
    | none => sizesLoop l (d.set c n)

/-- Fancy indexing `array[numpy.ix_(*inds)]` (permutations.py:384-388). -/
def takeIx {R : Type} [Zero R] (a : NDArray R) (inds : List (List Nat)) : NDArray R :=
  ⟨inds.map List.length, (prodL inds).map a.get⟩

/-- permutations.py:324-390 `compress_axes`.  `sorted(set(subscript))` is `0, .., k-1` by
construction of the substituted characters. -/
def compressAxes {κ R : Type} [DecidableEq κ] [Zero R] (sub : List κ) (a : NDArray R) (diag : Bool) :
    Except PyErr (NDArray R) := do
  let codes := canon sub
  let arg := argsort codes
  let ta ← a.transpose arg
  let csub := arg.map fun p => codes.getD p 0
  let sizes ← sizesLoop (csub.zip ta.shape) []
  let chars := List.range (unique sub).length
  let size := fun c => (sizes.get? c).getD 0
  let af ← NDArray.reshape ta.data (chars.map fun c => size c ^ csub.count c)
  let trils ← chars.mapM fun c => trilIndices (size c) (csub.count c) diag
  let inds := List.zipWith
    (fun c t => t.map fun row => ravelIdx (List.replicate (csub.count c) (size c)) row) chars trils
  pure (takeIx af inds)

/-- `numpy.put(array, pos, vals)` on the flattened data: in order, later writes win, `vals` is
repeated when it is too short, nothing happens when it is empty. -/
def putFlat {R : Type} [Zero R] (data : List R) (pos : List Nat) (vals : List R) : List R :=
  if vals.isEmpty then data
  else pos.zipIdx.foldl (fun d (p, k) => d.set p (vals.getD (k % vals.length) 0)) data

/-- permutations.py:461-466, 554-559: one symmetry character per group, asserting that the slice of
the symmetry string belonging to the group is uniform (`set` has exactly one element). -/
def symmetryLoop (symm : List Char) : List Nat → Nat → Except PyErr (List Char)
  | [], _ => .ok []
  | cnt :: rest, n =>
    match (symm.drop n).take cnt with
    | [] => .error .assertionError
    | x :: xs =>
      if xs.all (· == x) then do
        let r ← symmetryLoop symm rest (n + cnt)
        pure (x :: r)
      else .error .assertionError

/-- `util.prod` (misc.py:186-191) of signs. -/
def prodZ : List Int → Int
  | [] => 1
  | x :: xs => x * prodZ xs

/-- Apply a permutation of positions to an index tuple. -/
def applyPerm (p row : List Nat) : List Nat := p.map fun i => row.getD i 0

/-- permutations.py:393-500 `decompress_axes` with `out = None` and `shape` given.
`permutations_with_signs(ind)` (475) permutes the tuple of index arrays; here the permutations of the
positions are enumerated and applied to each index tuple (see `C01_natural`).  An empty subscript
raises `ValueError` (`zip(*tup)` with nothing to unpack, 476).  `symm = none` is the default
`"-" * len(subscript)`. -/
def decompressAxes {κ R : Type} [DecidableEq κ] [Ring R] (sub : List κ) (flat : List R)
    (shape : List Nat) (diag : Bool) (symm : Option (List Char)) : Except PyErr (NDArray R) := do
  let symm := symm.getD (List.replicate sub.length '-')
  let codes := canon sub
  let arg := argsort codes
  let ta ← (NDArray.zeros (R := R) shape).transpose arg
  let csub := arg.map fun p => codes.getD p 0
  let sizes ← sizesLoop (csub.zip ta.shape) []
  let chars := List.range (unique sub).length
  let size := fun c => (sizes.get? c).getD 0
  let fshape := chars.map fun c => size c ^ csub.count c
  let af ← NDArray.reshape ta.data fshape
  let scomp ← symmetryLoop symm (chars.map csub.count) 0
  let trils ← chars.mapM fun c => trilIndices (size c) (csub.count c) diag
  if chars.isEmpty then .error .valueError else
  let data := (prodL (chars.map fun c => permutationsWithSigns (List.range (csub.count c)))).foldl
    (fun data tup =>
      let signs := List.zipWith (fun (t : List Nat × Int) s => if s = '-' then t.2 else 1) tup scomp
      let inds := List.zipWith (fun c (tp : (List Nat × Int) × List (List Nat)) =>
        tp.2.map fun row => ravelIdx (List.replicate (csub.count c) (size c)) (applyPerm tp.1.1 row))
        chars (tup.zip trils)
      let pos := (prodL inds).map (ravelIdx fshape)
      putFlat data pos (flat.map fun x => x * ((prodZ signs : Int) : R)))
    af.data
  let full := (chars.map fun c => List.replicate (csub.count c) (size c)).flatten
  let a2 ← NDArray.reshape data full
  a2.transpose (argsort arg)

/-- permutations.py:503-521 `get_compressed_size`; `sizes` are the keyword arguments.  `set` order is
not observable (a product). -/
def getCompressedSize {κ : Type} [DecidableEq κ] (sub : List κ) (sizes : Dict κ Nat) :
    Except PyErr Nat := do
  let l ← (unique sub).mapM fun c => do
    let n ← sizes.getItem c
    pure (ntrilNdim n (sub.count c) false)
  pure (prodN l)

end Ebcc
