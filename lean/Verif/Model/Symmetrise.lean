import Verif.Model.Compress
import Mathlib.Algebra.Field.Defs
/-!
Model of `ebcc/util/permutations.py` lines 210-268 (`get_symmetry_factor`, `symmetry_factor`,
`antisymmetrise_array`) and 524-579 (`symmetrise`).
-/

namespace Ebcc

/-- Elementwise sum of arrays of one shape.  numpy broadcasts unequal shapes; here they raise
`ValueError` (the callers below only add transposes of one array, whose shapes agree for consistent
axis sizes). -/
def NDArray.add {R : Type} [Add R] (a b : NDArray R) : Except PyErr (NDArray R) :=
  if a.shape = b.shape then .ok ⟨a.shape, List.zipWith (· + ·) a.data b.data⟩ else .error .valueError

/-- Elementwise map. -/
def NDArray.map {R S : Type} (f : R → S) (a : NDArray R) : NDArray S := ⟨a.shape, a.data.map f⟩

/-- permutations.py:226-229: `ntot`, the sum of `max(0, n - 1)`. -/
def symmetryExponent (numbers : List Nat) : Nat := (numbers.map fun n => n - 1).sum

/-- permutations.py:210-230 `get_symmetry_factor`. -/
def getSymmetryFactor {K : Type} [Field K] (numbers : List Nat) : K :=
  1 / 2 ^ symmetryExponent numbers

/-- permutations.py:233-243 `symmetry_factor`; the order of the set is irrelevant for a sum. -/
def symmetryFactor {κ K : Type} [DecidableEq κ] [Field K] (sub : List κ) : K :=
  getSymmetryFactor ((unique sub).map fun c => sub.count c)

/-- permutations.py:259-266 one term of `antisymmetrise_array`: the transposition of all axes. -/
def embedPerm (ndim : Nat) (axes perm : List Nat) : List Nat :=
  (List.range ndim).map fun ax => if ax ∈ axes then perm.getD (axes.idxOf ax) 0 else ax

/-- permutations.py:246-268 `antisymmetrise_array`; axes are non-negative (Python would leave an axis
given by a negative number alone, as `ax in axes` compares numbers). -/
def antisymmetriseArray {R : Type} [Ring R] (v : NDArray R) (axes : Option (List Nat)) :
    Except PyErr (NDArray R) :=
  let axes := axes.getD (List.range v.shape.length)
  (permutationsWithSigns axes).foldlM (fun acc ps => do
    let t ← v.transpose (embedPerm v.shape.length axes ps.1)
    acc.add (t.map fun x => x * ((ps.2 : Int) : R))) (NDArray.zeros v.shape)

/-- permutations.py:566-570: the transposition of all axes made of one permutation per group. -/
def assemblePerm (n : Nat) (inds perms : List (List Nat)) : List Nat :=
  ((inds.zip perms).flatMap fun ip => ip.1.zip ip.2).foldl (fun perm ip => perm.set ip.1 ip.2)
    (List.range n)

/-- permutations.py:524-579 `symmetrise`.  `sorted(set(zip(...)))` (563) lists the groups in order of
their character.  An empty subscript raises `ValueError` at line 566.  Line 571 reads the symmetry
string at `perm[0]`. -/
def symmetrise {κ K : Type} [DecidableEq κ] [Field K] (sub : List κ) (array : NDArray K)
    (symm : Option (List Char)) (applyFactor : Bool) : Except PyErr (NDArray K) := do
  let symm := symm.getD (List.replicate sub.length '-')
  let codes := canon sub
  let chars := List.range (unique sub).length
  let _ ← symmetryLoop symm (chars.map codes.count) 0
  let inds := chars.map fun c => (List.range sub.length).filter fun p => decide (codes.getD p 0 = c)
  if chars.isEmpty then .error .valueError else
  let out ← (prodL (inds.map permutationsWithSigns)).foldlM (fun acc tup => do
    let perm := assemblePerm sub.length inds (tup.map Prod.fst)
    let x ← match symm[perm.getD 0 0]? with
      | some x => pure x
      | none => .error .indexError
    let sign : Int := if x = '-' then prodZ (tup.map Prod.snd) else 1
    let t ← array.transpose perm
    acc.add (t.map fun x => x * ((sign : Int) : K))) (NDArray.zeros array.shape)
  if applyFactor then
    pure (out.map fun x => x * getSymmetryFactor (chars.map codes.count))
  else pure out

end Ebcc
