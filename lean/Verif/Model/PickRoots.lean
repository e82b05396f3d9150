import Verif.Model.Py
import Mathlib.Algebra.Order.Group.Abs
import Mathlib.Algebra.Order.Field.Basic
import Mathlib.Data.List.Sort

/-!
Model of `ebcc/core/davidson.py` lines 38-131 and of `BaseEOM.get_pick` (`ebcc/eom/base.py` lines 198-228).

Complex numbers are pairs (real part, imaginary part).  The eigenvectors are given as the list of the columns of `v`.
`np.argsort` is a parameter: NumPy's default sort is not stable, so nothing but sortedness is known about it.
-/

namespace Ebcc

section
variable {R : Type} [AddCommGroup R] [LinearOrder R]

/-- `np.sort`. -/
def npSort (l : List R) : List R := l.insertionSort (· ≤ ·)

/-- A Python index into a list: a negative index counts from the end. -/
def pyIndex {X : Type} (l : List X) (i : Int) : Except PyErr X :=
  match (if 0 ≤ i then l[i.toNat]? else if 0 ≤ i + l.length then l[(i + l.length).toNat]? else none) with
  | some x => .ok x
  | none => .error .indexError

/-- `l[1::2]`. -/
def odds {X : Type} : List X → List X
  | _ :: b :: l => b :: odds l
  | _ => []

/-- `np.where(...)[0]`. -/
def npWhere (n : Nat) (p : Nat → Bool) : List Nat := (List.range n).filter p

/-- davidson.py:95-131 `make_eigenvectors_real` with `real_eigenvectors=True`: the eigenvalues, the columns of the
eigenvectors and the indices. -/
def makeEigenvectorsReal (argsort : List R → List Nat) (w : List (R × R)) (v : List (List (R × R)))
    (realIdx : List Nat) : List R × List (List R) × List Nat :=
  let idx := (argsort (realIdx.map fun i => (w.getD i (0, 0)).1)).map fun k => realIdx.getD k 0
  let w := idx.map fun i => w.getD i (0, 0)
  let v := idx.map fun i => v.getD i []
  let degen := npWhere w.length fun i => decide ((w.getD i (0, 0)).2 ≠ 0)
  let v := v.mapIdx fun i c => if i ∈ odds degen then c.map fun z => z.2 else c.map fun z => z.1
  (w.map fun z => z.1, v, idx)

/-- davidson.py:71-92 `pick_real_eigenvalues`; `tol` is the constant `1e-3` of line 88. -/
def pickRealEigenvalues (argsort : List R → List Nat) (tol : R) (w : List (R × R)) (v : List (List (R × R)))
    (nroots : Nat) : Except PyErr (List R × List (List R) × List Nat) := do
  let absImag := w.map fun z => |z.2|
  let x ← pyIndex (npSort absImag) ((min w.length nroots : Nat) - 1 : Int)
  let maxTol := max tol x
  let realIdx := npWhere w.length fun i => decide (absImag.getD i 0 < maxTol)
  .ok (makeEigenvectorsReal argsort w v realIdx)

/-- base.py:210-223 `pick` with the option `koopmans`; `s` holds the norms of the overlaps with the guesses (219-221). -/
def pickKoopmans (argsort : List R → List Nat) (s : List R) (w : List (R × R)) (v : List (List (R × R)))
    (nroots : Nat) : List R × List (List R) × List Nat :=
  makeEigenvectorsReal argsort w v ((argsort (s.map fun x => -x)).take nroots)

end

/-- davidson.py:57-66 `preconditioner`, for one energy `e`. -/
def precondition {R : Type} [Field R] [LinearOrder R] (diag : List R) (levelShift tol : R) (dx : List R) (e : R) :
    List R :=
  let shifted := diag.map fun x => x - (e - levelShift)
  let shifted := shifted.map fun x => if |x| < tol then tol else x
  List.zipWith (fun x y => x / y) dx shifted

end Ebcc
