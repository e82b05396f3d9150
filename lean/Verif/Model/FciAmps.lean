import Verif.Model.FciConvert
import Verif.Model.Symmetrise
/-!
Model of the conversions between CI vectors and cluster amplitudes (`ebcc/ext/fci.py` lines 175-268 and 443-593),
composed of the extraction and packing of `Fci.lean` and the conversions of `FciConvert.lean`.
-/

namespace Ebcc

section
variable {R : Type} [Field R] [DecidableEq R] (method : ContractMethod)
  (path : List (List Char) → List Char → List (NDArray R) → List Contraction)

/-- The sizes of the spaces with the numbers used for the generated functions: α occupied, α virtual, β occupied,
β virtual. -/
def fciSizes (size : Char → Char → Nat) (k : Nat) : Nat :=
  if k = 0 then size 'a' 'O' else if k = 1 then size 'a' 'V' else if k = 4 then size 'b' 'O' else
    if k = 5 then size 'b' 'V' else 0

/-- fci.py:425-438: the blocks of the namespaces `c1`, .., `c4`, named by order and spins. -/
def nameBlocks (d : Dict (List Char) (NDArray R)) : Dict (List Char) (NDArray R) :=
  d.map fun p => (convKey 'c' (p.1.length / 2) p.1, p.2)

/-- fci.py:565: the blocks `camps[f"c{order}"][spins]`, those which exist. -/
def blocksBySpins (d : Dict (List Char) (NDArray R)) (maxOrder : Nat) : Dict (List Char) (NDArray R) :=
  (fciCombs maxOrder).filterMap fun c => (d.get? (convKey 'c' c.1 c.2)).map fun x => (c.2, x)

/-- fci.py:443-463 `_ci_vector_to_amplitudes_unrestricted`. -/
def ciToAmplitudesU (ci : NDArray R) (A B : CIAddresses) (size : Char → Char → Nat) (maxOrder : Nat) :
    Except PyErr (Dict (List Char) (NDArray R)) := do
  let camps ← fciExtractU ci A B size maxOrder
  coefficientsToAmplitudesU method path (fciSizes size) (nameBlocks camps) maxOrder

/-- fci.py:466-593 `_amplitudes_to_ci_vector_unrestricted`.  `size` are the sizes read from `amps.t1` (484-487). -/
def amplitudesToCiU (norm : NDArray R → R) (A B : CIAddresses) (size : Char → Char → Nat)
    (amps : Dict (List Char) (NDArray R)) (maxOrder : Nat) (normalise : Bool) : Except PyErr (NDArray R) :=
  if 4 < maxOrder then .error .notImplementedError
  else do
    let camps ← amplitudesToCoefficientsU method path (fciSizes size) amps maxOrder
    fciVectorU norm A B size (blocksBySpins camps maxOrder) maxOrder normalise

/-- fci.py:175-195 `_ci_vector_to_amplitudes_restricted`. -/
def ciToAmplitudesR (ci : NDArray R) (A : CIAddresses) (size : Char → Nat) (maxOrder : Nat) :
    Except PyErr (Dict (List Char) (NDArray R)) := do
  let camps ← fciExtractR ci A size maxOrder
  coefficientsToAmplitudesR method path (fciSizes fun _ => size) camps maxOrder

omit [DecidableEq R] in
/-- `symmetrise(sub, x, apply_factor=False) / w`. -/
def symmetriseOver (sub : List Char) (x : NDArray R) (w : R) : Except PyErr (NDArray R) := do
  let y ← symmetrise sub x none false
  pure (y.map fun v => v / w)

omit [DecidableEq R] in
/-- fci.py:219-266: the amplitudes with unrestricted spins. -/
def toUnrestricted (amps : Dict (List Char) (NDArray R)) (maxOrder : Nat) : Except PyErr (Dict (List Char) (NDArray R)) := do
  let t1 ← amps.getItem (chars! "t1")
  let d1 := [(chars! "t1.aa", t1), (chars! "t1.bb", t1)]
  let d2 ← if 1 < maxOrder then do
      let t2 ← amps.getItem (chars! "t2")
      let aa ← symmetriseOver (chars! "iiaa") t2 (2 ^ 2)
      pure [(chars! "t2.aaaa", aa), (chars! "t2.abab", t2), (chars! "t2.bbbb", aa)]
    else pure []
  let d3 ← if 2 < maxOrder then do
      let t3 ← amps.getItem (chars! "t3")
      let aaa ← symmetriseOver (chars! "iiiaaa") t3 (6 ^ 2 * 2)
      let aba ← symmetriseOver (chars! "ijiaba") t3 (2 ^ 2 * 2)
      pure [(chars! "t3.aaaaaa", aaa), (chars! "t3.abaaba", aba), (chars! "t3.babbab", aba), (chars! "t3.bbbbbb", aaa)]
    else pure []
  let d4 ← if 3 < maxOrder then do
      let t4 ← amps.getItem (chars! "t4")
      let t4a ← amps.getItem (chars! "t4a")
      let aaaa ← symmetriseOver (chars! "iiiiaaaa") t4 (24 ^ 2 * 4)
      let x ← t4a.transpose [0, 2, 3, 1, 4, 6, 7, 5]
      let aaab ← symmetriseOver (chars! "iiijaaab") x (6 ^ 2 * 6)
      let y ← t4a.transpose [1, 0, 2, 3, 5, 4, 6, 7]
      let baaa ← symmetriseOver (chars! "jiiibaaa") y (6 ^ 2 * 6)
      let abab ← symmetriseOver (chars! "ijijabab") t4 (2 ^ 6)
      pure [(chars! "t4.aaaaaaaa", aaaa), (chars! "t4.aaabaaab", aaab), (chars! "t4.abababab", abab),
        (chars! "t4.abbbabbb", baaa), (chars! "t4.bbbbbbbb", aaaa)]
    else pure []
  pure (d1 ++ d2 ++ d3 ++ d4)

/-- fci.py:198-268 `_amplitudes_to_ci_vector_restricted`. -/
def amplitudesToCiR (norm : NDArray R → R) (A : CIAddresses) (size : Char → Nat) (amps : Dict (List Char) (NDArray R))
    (maxOrder : Nat) (normalise : Bool) : Except PyErr (NDArray R) :=
  if 4 < maxOrder then .error .notImplementedError
  else do
    let u ← toUnrestricted amps maxOrder
    amplitudesToCiU method path norm A A (fun _ => size) u maxOrder normalise

end
end Ebcc
