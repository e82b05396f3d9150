import Verif.Model.Fci
import Verif.Model.GenCode
import Verif.Gen.GecCC
import Verif.Gen.UecCC
import Verif.Gen.RecCC
import Mathlib.Data.Nat.Factorial.Basic
/-!
Model of the conversion between coefficient amplitudes and cluster amplitudes (`ebcc/ext/fci.py` lines 64-91 and
289-346) with the generated functions `codegen/RecCC.py` and `codegen/UecCC.py`; `codegen/GecCC.py` has the same
functions for spin orbitals.

Simplifications: a namespace of namespaces like `amps.t2.abab` is one dictionary with keys like `t2.abab`; an argument
which is missing raises `NameError` (Python: `AttributeError`).
-/

namespace Ebcc

/-- The digit of an order. -/
def orderChar : Nat → Char
  | 1 => '1'
  | 2 => '2'
  | 3 => '3'
  | 4 => '4'
  | _ => '?'

/-- codegen/GecCC.py:78-215: the functions `convert_c1_to_t1`, .., `convert_c4_to_t4`. -/
def toAmpsG : Nat → GenFun
  | 1 => Gen.GecCC.convert_c1_to_t1
  | 2 => Gen.GecCC.convert_c2_to_t2
  | 3 => Gen.GecCC.convert_c3_to_t3
  | _ => Gen.GecCC.convert_c4_to_t4

/-- codegen/GecCC.py:217-354: the functions `convert_t1_to_c1`, .., `convert_t4_to_c4`. -/
def toCoefsG : Nat → GenFun
  | 1 => Gen.GecCC.convert_t1_to_c1
  | 2 => Gen.GecCC.convert_t2_to_c2
  | 3 => Gen.GecCC.convert_t3_to_c3
  | _ => Gen.GecCC.convert_t4_to_c4

/-- codegen/UecCC.py:325-922. -/
def toAmpsU : Nat → GenFun
  | 1 => Gen.UecCC.convert_c1_to_t1
  | 2 => Gen.UecCC.convert_c2_to_t2
  | 3 => Gen.UecCC.convert_c3_to_t3
  | _ => Gen.UecCC.convert_c4_to_t4

/-- codegen/UecCC.py:924-1521. -/
def toCoefsU : Nat → GenFun
  | 1 => Gen.UecCC.convert_t1_to_c1
  | 2 => Gen.UecCC.convert_t2_to_c2
  | 3 => Gen.UecCC.convert_t3_to_c3
  | _ => Gen.UecCC.convert_t4_to_c4

/-- codegen/RecCC.py:166-317. -/
def toAmpsR : Nat → GenFun
  | 1 => Gen.RecCC.convert_c1_to_t1
  | 2 => Gen.RecCC.convert_c2_to_t2
  | 3 => Gen.RecCC.convert_c3_to_t3
  | _ => Gen.RecCC.convert_c4_to_t4

/-- codegen/RecCC.py:319-470. -/
def toCoefsR : Nat → GenFun
  | 1 => Gen.RecCC.convert_t1_to_c1
  | 2 => Gen.RecCC.convert_t2_to_c2
  | 3 => Gen.RecCC.convert_t3_to_c3
  | _ => Gen.RecCC.convert_t4_to_c4

/-- fci.py:77-86, 303-309, 337-346: the orders which are converted. -/
def convOrders (maxOrder : Nat) : List Nat :=
  [1] ++ (if 1 < maxOrder then [2] else []) ++ (if 2 < maxOrder then [3] else []) ++ (if 3 < maxOrder then [4] else [])

/-- The key of a block of amplitudes or coefficients. -/
def convKey (c : Char) (n : Nat) (s : List Char) : List Char := c :: orderChar n :: '.' :: s

section
variable {R : Type} [Field R] [DecidableEq R] (method : ContractMethod)
  (path : List (List Char) → List Char → List (NDArray R) → List Contraction) (sizes : Nat → Nat)

/-- Calls of functions one after the other: each takes the values with names beginning with the given characters from
`src` and the other ones from the results of the former functions. -/
def convertChain (src : List Char → Option (NDArray R)) : List (List Char × GenFun) → Dict (List Char) (NDArray R) →
    Except PyErr (Dict (List Char) (NDArray R))
  | [], d => .ok d
  | (pre, f) :: l, d => do
    let r ← f.call method path sizes fun name => if name.take pre.length = pre then src name else d.get? name
    convertChain src l (d ++ r)

/-- fci.py:76-91 `_coefficients_to_amplitudes_restricted`. -/
def coefficientsToAmplitudesR (camps : Dict (List Char) (NDArray R)) (maxOrder : Nat) :
    Except PyErr (Dict (List Char) (NDArray R)) :=
  convertChain method path sizes camps.get? ((convOrders maxOrder).map fun n => (['c', orderChar n], toAmpsR n)) []

/-- fci.py:313-319: division by the factorials. -/
def divideBlocks (maxOrder : Nat) (amps : Dict (List Char) (NDArray R)) : Except PyErr (Dict (List Char) (NDArray R)) :=
  (fciCombs maxOrder).foldlM (fun amps c => do
    let x ← amps.getItem (convKey 't' c.1 c.2)
    let w : Nat := ((c.2.take c.1).count 'a').factorial * ((c.2.take c.1).count 'b').factorial
    pure (amps.set (convKey 't' c.1 c.2) (x.map fun v => v / (w : R)))) amps

/-- fci.py:289-321 `_coefficients_to_amplitudes_unrestricted`. -/
def coefficientsToAmplitudesU (camps : Dict (List Char) (NDArray R)) (maxOrder : Nat) :
    Except PyErr (Dict (List Char) (NDArray R)) := do
  let amps ← convertChain method path sizes camps.get?
    ((convOrders maxOrder).map fun n => (['c', orderChar n], toAmpsU n)) []
  divideBlocks maxOrder amps

/-- fci.py:324-346 `_amplitudes_to_coefficients_unrestricted`. -/
def amplitudesToCoefficientsU (amps : Dict (List Char) (NDArray R)) (maxOrder : Nat) :
    Except PyErr (Dict (List Char) (NDArray R)) :=
  convertChain method path sizes amps.get? ((convOrders maxOrder).map fun n => ([], toCoefsU n)) []

end
end Ebcc
