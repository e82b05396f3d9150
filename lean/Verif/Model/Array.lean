import Verif.Model.Py
/-!
Model of numpy arrays: a shape and the elements in row-major (C) order.  Used by every model of code
that handles `NDArray`s.  Elements are exact scalars (no floating point rounding); `dtype`s are not
modelled; numpy views are values (aliasing is not modelled).
-/

namespace Ebcc

/-- All multi-indices of a shape, in row-major order (`numpy.ndindex`). -/
def box : List Nat → List (List Nat)
  | [] => [[]]
  | n :: s => (List.range n).flatMap fun i => (box s).map fun t => i :: t

/-- Product of a shape (`util.prod`, misc.py:186-191, and `ndarray.size`). -/
def prodN : List Nat → Nat
  | [] => 1
  | n :: s => n * prodN s

/-- `numpy.ravel_multi_index` for one multi-index (row-major order). -/
def ravelIdx : List Nat → List Nat → Nat
  | [], _ => 0
  | _ :: s, [] => prodN s * 0
  | _ :: s, i :: idx => i * prodN s + ravelIdx s idx

/-- A numpy array. -/
structure NDArray (R : Type) where
  /-- `ndarray.shape` -/
  shape : List Nat
  /-- elements in row-major order -/
  data : List R
  deriving DecidableEq, Repr

namespace NDArray
variable {R : Type}

/-- The number of elements agrees with the shape (always the case for a numpy array). -/
def WF (a : NDArray R) : Prop := a.data.length = prodN a.shape

/-- Array with given elements. -/
def ofFn (shape : List Nat) (f : List Nat → R) : NDArray R := ⟨shape, (box shape).map f⟩

/-- Element access; numpy raises `IndexError` outside the shape, here the element is then `0`: all
uses are inside the shape. -/
def get [Zero R] (a : NDArray R) (idx : List Nat) : R := a.data.getD (ravelIdx a.shape idx) 0

/-- `numpy.zeros`. -/
def zeros [Zero R] (shape : List Nat) : NDArray R := ofFn shape fun _ => 0

/-- `numpy.ravel`. -/
def ravel (a : NDArray R) : List R := a.data

/-- `numpy.reshape`; raises `ValueError` when the sizes differ. -/
def reshape (data : List R) (shape : List Nat) : Except PyErr (NDArray R) :=
  if data.length = prodN shape then .ok ⟨shape, data⟩ else .error .valueError

end NDArray

end Ebcc
