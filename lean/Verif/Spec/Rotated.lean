import Verif.Spec.GenArgs
import Verif.Lemmas.GenEinsum
/-!
Rotations of the orbitals within each space.
-/

namespace Ebcc

section
variable {R : Type}

/-- The sum over new values of all indices: each index `i`, of an axis of the space `s`, is replaced by `j`
with the coefficient `C s i j`. -/
def rotSum [CommRing R] (sz : Nat → Nat) (C : Nat → Nat → Nat → R) :
    List Nat → List Nat → (List Nat → R) → R
  | s :: sp, i :: idx, F =>
    ((List.range (sz s)).map fun j => C s i j * rotSum sz C sp idx fun js => F (j :: js)).sum
  | _, _, F => F []

/-- The array in terms of rotated orbitals; `sp` are the spaces of its axes, and the matrix of the space `s`
has the elements `C s i j`. -/
def rotated [CommRing R] (sz : Nat → Nat) (C : Nat → Nat → Nat → R) (sp : List Nat) (a : NDArray R) : NDArray R :=
  NDArray.ofFn (sp.map sz) fun idx => rotSum sz C sp idx a.get

/-- The matrix of each space is orthogonal. -/
def Orthogonal [CommRing R] (sz : Nat → Nat) (C : Nat → Nat → Nat → R) : Prop :=
  ∀ s i j, i < sz s → j < sz s →
    ((List.range (sz s)).map fun k => C s k i * C s k j).sum = (if i = j then 1 else 0) ∧
    ((List.range (sz s)).map fun k => C s i k * C s j k).sum = if i = j then 1 else 0

/-- The arguments in terms of rotated orbitals; `ty` gives the spaces of the axes of an argument. -/
def rotatedVals [CommRing R] (sz : Nat → Nat) (C : Nat → Nat → Nat → R) (ty : List Char → Option (List Nat))
    (vals : List Char → Option (NDArray R)) (name : List Char) : Option (NDArray R) :=
  match ty name, vals name with
  | some sp, some a => some (rotated sz C sp a)
  | _, v => v

/-- The arguments have axes of the given spaces. -/
def HasSpaces [CommRing R] (sz : Nat → Nat) (ty : List Char → Option (List Nat))
    (vals : List Char → Option (NDArray R)) : Prop :=
  ∀ name sp, ty name = some sp → ∃ a, vals name = some a ∧ a.shape = sp.map sz ∧ a.WF

/-- `res` are results with the spaces of their axes, and the results `r'` are `r` in terms of rotated
orbitals. -/
def RotatedResults [CommRing R] (sz : Nat → Nat) (C : Nat → Nat → Nat → R) (res : Dict (List Char) (List Nat))
    (r r' : Dict (List Char) (NDArray R)) : Prop :=
  ∀ name sp, res.get? name = some sp →
    ∃ a, r.get? name = some a ∧ a.shape = sp.map sz ∧ r'.get? name = some (rotated sz C sp a)

/-- The intermediates are arguments with names such as `ints.tmp0`. -/
def withInts (ints : Dict (List Char) (NDArray R)) (vals : List Char → Option (NDArray R)) :
    List Char → Option (NDArray R)
  | 'i' :: 'n' :: 't' :: 's' :: '.' :: name => ints.get? name
  | name => vals name

end

/-- A generated function gives rotated results for rotated arguments: for all sizes of the spaces, all
orthogonal matrices and all arguments with axes of the given spaces. -/
def RotCovariant (g : GenFun) (ty : List Char → Option (List Nat)) (res : Dict (List Char) (List Nat)) : Prop :=
  ∀ (R : Type) [Field R] [DecidableEq R] (sz : Nat → Nat) (C : Nat → Nat → Nat → R) (_ : Orthogonal sz C)
    (method : ContractMethod)
    (path : List (List Char) → List Char → List (NDArray R) → List Contraction) (_ : PathOk path)
    (vals : List Char → Option (NDArray R)) (_ : HasSpaces sz ty vals),
    ∃ r r', g.call method path sz vals = .ok r ∧ g.call method path sz (rotatedVals sz C ty vals) = .ok r' ∧
      RotatedResults sz C res r r'

/-- The result `n`, a number, is the same for rotated arguments. -/
def ScalarInvariant (g : GenFun) (ty : List Char → Option (List Nat)) (n : List Char) : Prop :=
  ∀ (R : Type) [Field R] [DecidableEq R] (sz : Nat → Nat) (C : Nat → Nat → Nat → R) (_ : Orthogonal sz C)
    (method : ContractMethod)
    (path : List (List Char) → List Char → List (NDArray R) → List Contraction) (_ : PathOk path)
    (vals : List Char → Option (NDArray R)) (_ : HasSpaces sz ty vals),
    ∃ r r' a a', g.call method path sz vals = .ok r ∧ g.call method path sz (rotatedVals sz C ty vals) = .ok r' ∧
      r.get? n = some a ∧ r'.get? n = some a' ∧ a'.get [] = a.get []

/-- Rotated results as in `RotCovariant`, for a function `g` with intermediates, results of `gi`, that are computed from the same
arguments. -/
def RotCovariantInts (gi g : GenFun) (ty : List Char → Option (List Nat)) (res : Dict (List Char) (List Nat)) : Prop :=
  ∀ (R : Type) [Field R] [DecidableEq R] (sz : Nat → Nat) (C : Nat → Nat → Nat → R) (_ : Orthogonal sz C)
    (method : ContractMethod)
    (path : List (List Char) → List Char → List (NDArray R) → List Contraction) (_ : PathOk path)
    (vals : List Char → Option (NDArray R)) (_ : HasSpaces sz ty vals),
    ∃ i i' r r', gi.call method path sz vals = .ok i ∧
      gi.call method path sz (rotatedVals sz C ty vals) = .ok i' ∧
      g.call method path sz (withInts i vals) = .ok r ∧
      g.call method path sz (withInts i' (rotatedVals sz C ty vals)) = .ok r' ∧
      RotatedResults sz C res r r'

/-- The space of the orbitals of a spin: `a` as given, `b` four further. -/
def rotSpinSpace (c : Char) (s : Nat) : Nat := if c = 'b' then s + 4 else s

/-- The spaces of the axes of the arguments of functions without spin; the spaces are 0 for occupied and 1
for virtual orbitals, 2 for bosons and 3 for auxiliary functions. -/
def argSpaces : List Char → Option (List Nat)
  | ['t', '1'] => some [0, 1]
  | ['t', '2'] => some [0, 0, 1, 1]
  | ['t', '3'] => some [0, 0, 0, 1, 1, 1]
  | ['t', '4'] => some [0, 0, 0, 0, 1, 1, 1, 1]
  | ['t', '4', 'a'] => some [0, 0, 0, 0, 1, 1, 1, 1]
  | ['c', '1'] => some [0, 1]
  | ['c', '2'] => some [0, 0, 1, 1]
  | ['c', '3'] => some [0, 0, 0, 1, 1, 1]
  | ['c', '4'] => some [0, 0, 0, 0, 1, 1, 1, 1]
  | ['c', '4', 'a'] => some [0, 0, 0, 0, 1, 1, 1, 1]
  | ['l', '1'] => some [1, 0]
  | ['l', '2'] => some [1, 1, 0, 0]
  | ['l', '3'] => some [1, 1, 1, 0, 0, 0]
  | ['s', '1'] => some [2]
  | ['s', '2'] => some [2, 2]
  | ['u', '1', '1'] => some [2, 0, 1]
  | ['u', '1', '2'] => some [2, 2, 0, 1]
  | ['l', 's', '1'] => some [2]
  | ['l', 's', '2'] => some [2, 2]
  | ['l', 'u', '1', '1'] => some [2, 1, 0]
  | ['l', 'u', '1', '2'] => some [2, 2, 1, 0]
  | ['G'] => some [2]
  | ['w'] => some [2, 2]
  | 'f' :: '.' :: key => spacesOf key
  | 'v' :: '.' :: key => spacesOf key
  | 'g' :: '.' :: key => spacesOf key
  | _ => none

/-- The spaces of letters with spins. -/
def rotSpinSpaces : List Char → List Char → Option (List Nat)
  | [], [] => some []
  | c :: spins, k :: key => match spaceOf k, rotSpinSpaces spins key with
    | some s, some r => some (rotSpinSpace c s :: r)
    | _, _ => none
  | _, _ => none

/-- Half of the axes of amplitudes are of the space `s`, half of `s'`. -/
def ampSpaces (s s' : Nat) (spins : List Char) : List Nat :=
  (spins.take (spins.length / 2)).map (rotSpinSpace · s) ++ (spins.drop (spins.length / 2)).map (rotSpinSpace · s')

/-- The spaces of the axes of the arguments of unrestricted functions. -/
def uArgSpaces : List Char → Option (List Nat)
  | 't' :: _ :: '.' :: spins => some (ampSpaces 0 1 spins)
  | 'c' :: _ :: '.' :: spins => some (ampSpaces 0 1 spins)
  | 'l' :: _ :: '.' :: spins => some (ampSpaces 1 0 spins)
  | ['u', '1', '1', '.', a, b] => some (2 :: ampSpaces 0 1 [a, b])
  | ['u', '1', '2', '.', a, b] => some (2 :: 2 :: ampSpaces 0 1 [a, b])
  | ['l', 'u', '1', '1', '.', a, b] => some (2 :: ampSpaces 1 0 [a, b])
  | ['l', 'u', '1', '2', '.', a, b] => some (2 :: 2 :: ampSpaces 1 0 [a, b])
  | ['f', '.', a, b, '.', p, q] => rotSpinSpaces [a, b] [p, q]
  | ['v', '.', a, b, c, d, '.', p, q, r, s] => rotSpinSpaces [a, b, c, d] [p, q, r, s]
  | ['v', '.', _, a, b, '.', 'x', p, q] => (rotSpinSpaces [a, b] [p, q]).map (3 :: ·)
  | ['g', '.', a, b, '.', 'b', p, q] => (rotSpinSpaces [a, b] [p, q]).map (2 :: ·)
  | name => argSpaces name

/-- The spaces of the axes of excitations that remove an electron, add one, or excite one. -/
def ipSpaces (ty : List Char → Option (List Nat)) : List Char → Option (List Nat)
  | ['r', '1'] => some [0]
  | ['r', '2'] => some [0, 0, 1]
  | ['r', '1', '.', a] => some [rotSpinSpace a 0]
  | ['r', '2', '.', a, b, c] => some [rotSpinSpace a 0, rotSpinSpace b 0, rotSpinSpace c 1]
  | name => ty name

def eaSpaces (ty : List Char → Option (List Nat)) : List Char → Option (List Nat)
  | ['r', '1'] => some [1]
  | ['r', '2'] => some [1, 1, 0]
  | ['r', '1', '.', a] => some [rotSpinSpace a 1]
  | ['r', '2', '.', a, b, c] => some [rotSpinSpace a 1, rotSpinSpace b 1, rotSpinSpace c 0]
  | name => ty name

def eeSpaces (ty : List Char → Option (List Nat)) : List Char → Option (List Nat)
  | ['r', '1'] => some [0, 1]
  | ['r', '2'] => some [0, 0, 1, 1]
  | name => ty name

end Ebcc
