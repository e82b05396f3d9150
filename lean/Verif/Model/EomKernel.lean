import Verif.Model.Davidson
import Verif.Model.PickRoots
import Verif.Model.Guesses

/-!
Model of `BaseEOM.davidson`, also called `kernel` (`ebcc/eom/base.py` lines 264-349), with the tolerances and the functions
that `ebcc/core/davidson.py` uses: the parameters of `Model/Davidson.lean` are given here, except `np.linalg.eig`,
`np.argsort` and the square root.

Numbers are real: the arrays of complex type stay real, because the picked eigenvectors are (davidson.py:129).  The products
with the Hamiltonian are a function that does not raise (C71).  Log output is not modelled.
-/

namespace Ebcc

section
variable {R : Type} [Field R] [LinearOrder R] {d : Nat}

/-- The options of an EOM calculation (base.py:33-57); `left` is used by the products only. -/
structure EomOptions (R : Type) where
  nroots : Nat
  koopmans : Bool
  eTol : R
  maxIter : Nat
  maxSpace : Nat

/-- base.py:219-221: the norms of the overlaps of eigenvectors, columns of `v`, with the guesses. -/
def koopmansOverlaps (sqrt : R → R) (guesses basis : List (DVec R d)) (v : List (List (R × R))) : List R :=
  v.map fun c =>
    let part (f : R × R → R) (g : DVec R d) : R :=
      ∑ j, g j * ((List.range basis.length).map fun x => f (c.getD x (0, 0)) * basis.getD x 0 j).sum
    sqrt (guesses.map fun g => part (·.1) g * part (·.1) g + part (·.2) g * part (·.2) g).sum

/-- base.py:198-228: the function returned by `get_pick`; the constant is that of davidson.py:88. -/
def eomPick (sqrt : R → R) (argsort : List R → List Nat) (koopmans : Bool) (guesses basis : List (DVec R d))
    (w : List (R × R)) (v : List (List (R × R))) (nroots : Nat) : Except PyErr (List R × List (List R) × List Nat) :=
  if koopmans then .ok (pickKoopmans argsort (koopmansOverlaps sqrt guesses basis v) w v nroots)
  else pickRealEigenvalues argsort (1 / 1000) w v nroots

/-- What the solver is called with (base.py:302-312) and its default arguments (davidson.py:275-291).  `pick` raises only
without eigenvalues, which a matrix with a row does not give; here it is as if nothing was picked. -/
def eomEnv (sqrt : R → R) (argsort : List R → List Nat) (eig : NDArray R → List (R × R) × List (List (R × R)))
    (o : EomOptions R) (matvec : DVec R d → DVec R d) (diag : DVec R d) (guesses : List (DVec R d)) : DavEnv R d where
  matvec := matvec
  solve m n basis :=
    match eomPick sqrt argsort o.koopmans guesses basis (eig m).1 (eig m).2 n with
    | .ok r => (r.1, r.2.1.map fun c => fun x => c.getD x 0)
    | .error _ => ([], [])
  solveLeft _ _ _ := ([], [])
  precond e dx := fun j => (precondition (List.ofFn diag) 0 (1 / 10 ^ 8) (List.ofFn dx) e).getD j 0
  norm v := sqrt (∑ k, v k * v k)
  indep x := decide (1 / 10 ^ 14 < x * x)
  steady x := decide (|x| < o.eTol)
  below x := decide (x < sqrt o.eTol)
  large l := l.any fun x => decide (1 < x)
  absLt x y := decide (|x| < |y|)

/-- base.py:296-298: the guesses; `singles` is the number of elements of `r1`, used with `koopmans`. -/
def kernelGuesses (which : Which) (singles : Nat) (o : EomOptions R) (diag : DVec R d)
    (guesses : Option (List (DVec R d))) : Except PyErr (List (DVec R d)) :=
  match guesses with
  | some g => .ok g
  | none => do
    let g ← getGuesses which (if o.koopmans then some singles else none) o.nroots (List.ofFn diag)
    pure (g.map fun l => fun j => l.getD j 0)

/-- base.py:264-349 `davidson`: the attributes `converged` and `e`, and the columns of `v`. -/
def eomKernel [StarRing R] (sqrt : R → R) (argsort : List R → List Nat)
    (eig : NDArray R → List (R × R) × List (List (R × R))) (junk : List Nat → R) (which : Which) (singles : Nat)
    (o : EomOptions R) (matvec : DVec R d → DVec R d) (diag : DVec R d) (guesses : Option (List (DVec R d))) :
    Except PyErr (Bool × List R × List (DVec R d)) := do
  let guesses ← kernelGuesses which singles o diag guesses
  let nroots := min guesses.length o.nroots
  let (conv, e, v) ← davidson (eomEnv sqrt argsort eig o matvec diag guesses) nroots o.maxIter o.maxSpace 40 false false 0
    junk guesses
  pure (conv.all id, e, v)

end
end Ebcc
