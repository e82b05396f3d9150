import Verif.Model.Py
import Mathlib.Algebra.Field.Defs
import Mathlib.Order.Defs.LinearOrder
/-!
Model of `ebcc/ham/space.py` lines 32-374 (`Space`), 387-415 (`construct_default_space`) and 418-522
(`construct_fno_space`, the part that builds the space).

Masks are lists of Booleans.  The properties are functions of the three stored arrays; the caching of
`functools` has no observable effect, as the arrays are never written.
-/

namespace Ebcc

/-- space.py:66-68 the three stored arrays. -/
structure Space where
  occupied : List Bool
  frozen : List Bool
  active : List Bool
  deriving DecidableEq

/-- `np.bitwise_and` on arrays of equal size. -/
def maskAnd (a b : List Bool) : List Bool := a.zipWith (· && ·) b

/-- `np.bitwise_not`. -/
def maskNot (a : List Bool) : List Bool := a.map (!·)

/-- `np.count_nonzero`. -/
def countTrue (a : List Bool) : Nat := a.count true

/-- `x[mask]` for a Boolean mask. -/
def selectMask {α : Type} (mask : List Bool) (x : List α) : List α :=
  (mask.zip x).filterMap fun p => if p.1 then some p.2 else none

namespace Space

/-- space.py:53-74 `Space.__init__`. -/
def new (occupied frozen active : List Bool) : Except PyErr Space :=
  if ¬ (occupied.length = frozen.length ∧ frozen.length = active.length) then .error .valueError
  else if (maskAnd frozen active).any id then .error .valueError
  else .ok ⟨occupied, frozen, active⟩

variable (s : Space)

/-- space.py:229-232. -/
def virtual : List Bool := maskNot s.occupied
/-- space.py:234-237. -/
def nmo : Nat := s.occupied.length
/-- space.py:239-247. -/
def nocc : Nat := countTrue s.occupied
def nvir : Nat := countTrue s.virtual
/-- space.py:251-264. -/
def correlated : List Bool := maskNot s.frozen
def correlatedOccupied : List Bool := maskAnd s.correlated s.occupied
def correlatedVirtual : List Bool := maskAnd s.correlated s.virtual
/-- space.py:266-279. -/
def ncorr : Nat := countTrue s.correlated
def ncocc : Nat := countTrue s.correlatedOccupied
def ncvir : Nat := countTrue s.correlatedVirtual
/-- space.py:283-296. -/
def inactive : List Bool := maskNot s.active
def inactiveOccupied : List Bool := maskAnd s.inactive s.occupied
def inactiveVirtual : List Bool := maskAnd s.inactive s.virtual
/-- space.py:298-311. -/
def ninact : Nat := countTrue s.inactive
def niocc : Nat := countTrue s.inactiveOccupied
def nivir : Nat := countTrue s.inactiveVirtual
/-- space.py:320-328. -/
def frozenOccupied : List Bool := maskAnd s.frozen s.occupied
def frozenVirtual : List Bool := maskAnd s.frozen s.virtual
/-- space.py:330-343. -/
def nfroz : Nat := countTrue s.frozen
def nfocc : Nat := countTrue s.frozenOccupied
def nfvir : Nat := countTrue s.frozenVirtual
/-- space.py:352-360. -/
def activeOccupied : List Bool := maskAnd s.active s.occupied
def activeVirtual : List Bool := maskAnd s.active s.virtual
/-- space.py:362-375. -/
def nact : Nat := countTrue s.active
def naocc : Nat := countTrue s.activeOccupied
def navir : Nat := countTrue s.activeVirtual

/-- space.py:88-105 `Space.size`. -/
def size (c : Char) : Except PyErr Nat :=
  Dict.getItem [('x', s.ncorr), ('o', s.ncocc), ('O', s.naocc), ('i', s.niocc), ('v', s.ncvir),
    ('V', s.navir), ('a', s.nivir)] c

/-- space.py:107-124 `Space.mask`. -/
def mask (c : Char) : Except PyErr (List Bool) :=
  Dict.getItem [('x', s.correlated), ('o', s.correlatedOccupied), ('O', s.activeOccupied),
    ('i', s.inactiveOccupied), ('v', s.correlatedVirtual), ('V', s.activeVirtual),
    ('a', s.inactiveVirtual)] c

/-- `np.argmax` of a Boolean array: the first `True`, or 0; `ValueError` for an empty array. -/
def argmax (m : List Bool) : Except PyErr Nat :=
  if m = [] then .error .valueError else .ok (if true ∈ m then m.idxOf true else 0)

/-- space.py:126-147 `Space.slice`: start and stop. -/
def slice (c : Char) : Except PyErr (Int × Int) := do
  let m ← s.mask c
  let first ← argmax m
  let n ← s.size c
  if ((m.take (first + n)).drop first).all id then pure ((first : Int), ((first + n : Nat) : Int))
  else .error .valueError

/-- space.py:149-180 `omask`, `vmask`, `xmask`. -/
def omask (c : Char) : Except PyErr (List Bool) := do
  let m ← s.mask c
  pure (selectMask s.occupied m)
def vmask (c : Char) : Except PyErr (List Bool) := do
  let m ← s.mask c
  pure (selectMask s.virtual m)
def xmask (c : Char) : Except PyErr (List Bool) := do
  let m ← s.mask c
  pure (selectMask s.correlated m)

/-- space.py:182-193 `oslice`. -/
def oslice (c : Char) : Except PyErr (Int × Int) := do
  let (a, b) ← s.slice c
  pure (a, min b (s.nocc : Int))

/-- space.py:195-206 `vslice`. -/
def vslice (c : Char) : Except PyErr (Int × Int) := do
  let (a, b) ← s.slice c
  pure (max a (s.nocc : Int) - s.nocc, b - s.nocc)

/-- space.py:208-219 `xslice`. -/
def xslice (c : Char) : Except PyErr (Int × Int) := do
  let (a, b) ← s.slice c
  pure (a - s.nfocc, b - s.nfocc)

end Space

/-- A bound of a Python slice applied to a sequence of length `n`. -/
def sliceBound (n : Nat) (i : Int) : Nat :=
  if i < 0 then (i + n).toNat else min i.toNat n

/-- `x[a:b]` with the wrap-around of negative bounds. -/
def pySlice {α : Type} (x : List α) (ab : Int × Int) : List α :=
  (x.take (sliceBound x.length ab.2)).drop (sliceBound x.length ab.1)

section
variable {R : Type} [Zero R] [LT R] [DecidableRel (α := R) (· < ·)]

/-- space.py:398-407 `construct_default_space._construct`. -/
def constructDefaultSpace (moOcc : List R) : Except PyErr Space :=
  Space.new (moOcc.map fun x => decide (0 < x)) (List.replicate moOcc.length false)
    (List.replicate moOcc.length false)

end

section
variable {R : Type} [Field R] [LinearOrder R]

/-- `np.cumsum`. -/
def cumsum (acc : R) : List R → List R
  | [] => []
  | x :: l => (acc + x) :: cumsum (acc + x) l

/-- space.py:465-470: the natural orbitals that are kept; `n` are the natural occupations from
`eigh`, reversed.  Simplification: exact arithmetic; a vanishing sum gives 0 here, where numpy divides
0 by 0 and compares NaN (false). -/
def fnoActive (n : List R) (occTol : R) (occFrac : Option R) : List Bool :=
  match occFrac with
  | none => n.map fun x => decide (occTol < x)
  | some f => (cumsum 0 (n.map fun x => x / n.sum)).map fun x => decide (x ≤ f)

/-- space.py:452-499 `construct_fno_space._construct`, without the coefficients.  `eigs` are the
eigenvalues of the virtual block of the density matrix in the ascending order of `np.linalg.eigh`
(external). -/
def constructFnoSpace (moOcc eigs : List R) (occTol : R) (occFrac : Option R) : Except PyErr Space :=
  let occ := moOcc.map fun x => decide (0 < x)
  let nocc := countTrue occ
  let nact := countTrue (fnoActive eigs.reverse occTol occFrac)
  Space.new occ (List.replicate (nocc + nact) false ++ List.replicate (moOcc.length - nocc - nact) true)
    (List.replicate moOcc.length false)

end

end Ebcc
