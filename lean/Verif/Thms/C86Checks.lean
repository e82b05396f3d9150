import Verif.Model.FciConvert
import Verif.Gen.Hints.ExpR
import Verif.Tensor.SetupRes
import Verif.Tensor.Value
import Verif.Lemmas.GenInts
/-!
Checks for C86, the conversions between coefficients and amplitudes with restricted spins (`codegen/RecCC.py`).
-/

namespace Ebcc

set_option maxRecDepth 1000000

/-- The names of the arguments and results of order `n`, and the tensors. -/
def resNames (c : Char) : Nat → List (List Char × Nat)
  | 1 => [([c, '1'], 17)]
  | 2 => [([c, '2'], 18)]
  | 3 => [([c, '3'], 19)]
  | 4 => [([c, '4'], 20), ([c, '4', 'a'], 21)]
  | _ => []

/-- Coefficients as an argument. -/
def coefArgD (pos t : Nat) : TArg := (coefArgR pos (resPattern t)).getD ([], [])

def argsToAmpsR (n : Nat) : List (List Char × TArg) :=
  (resNames 'c' n).map (fun p => (p.1, coefArgD 2 p.2))
    ++ (List.range' 1 (n - 1)).flatMap fun k => (resNames 't' k).map fun p => (p.1, ampArgR p.2)

def argsToCoefsR (n : Nat) : List (List Char × TArg) :=
  (List.range' 1 n).flatMap fun k => (resNames 't' k).map fun p => (p.1, ampArgR p.2)

def hintsToAmpsR : Nat → List Nat
  | 1 => Hints.RecCC_c1_to_t1
  | 2 => Hints.RecCC_c2_to_t2
  | 3 => Hints.RecCC_c3_to_t3
  | _ => Hints.RecCC_c4_to_t4

def hintsToCoefsR : Nat → List Nat
  | 1 => Hints.RecCC_t1_to_c1
  | 2 => Hints.RecCC_t2_to_c2
  | 3 => Hints.RecCC_t3_to_c3
  | _ => Hints.RecCC_t4_to_c4

noncomputable def checkToAmpsR (n : Nat) : Bool :=
  checkFun (canonByHints resSym) (hintsToAmpsR n) (toAmpsR n) (Dict.get? (argsToAmpsR n))
    ((resNames 't' n).map fun p => (p.1, ampArgR p.2))

noncomputable def checkToCoefsR (n : Nat) : Bool :=
  checkFun (canonByHints resSym) (hintsToCoefsR n) (toCoefsR n) (Dict.get? (argsToCoefsR n))
    ((resNames 'c' n).map fun p => (p.1, coefArgD 1 p.2))

theorem checkToAmpsR_ok : ∀ n ∈ [1, 2, 3, 4], checkToAmpsR n = true := by decide +kernel

theorem checkToCoefsR_ok : ∀ n ∈ [1, 2, 3, 4], checkToCoefsR n = true := by decide +kernel

theorem coefArgR_some : ∀ pos ∈ [1, 2], ∀ t ∈ [17, 18, 19, 20, 21], (coefArgR pos (resPattern t)).isSome = true := by
  decide +kernel

theorem resNames_tensor : ∀ n ∈ [1, 2, 3, 4], ∀ p ∈ resNames 'c' n ++ resNames 't' n, p.2 ∈ [17, 18, 19, 20, 21] := by
  decide

section
variable {R : Type} [Field R] {T : List Orb → List Orb → R} {sz : Nat → Nat}

theorem coefArgD_rep (hz : SpinSizes sz) (hT : Antisymmetric T) (hC : SpinConserving T) (hS : Singlet T) {pos t : Nat}
    (hp : pos ∈ [1, 2]) (ht : t ∈ [17, 18, 19, 20, 21]) :
    ArgRep sz (resTensor T) (coefArgD pos t) (coefArr sz T (excSpaces (resPattern t))) := by
  obtain ⟨a, ha⟩ := Option.isSome_iff_exists.1 (coefArgR_some pos hp t ht)
  have := coefArgR_rep hz hT hC hS ha
  unfold coefArgD
  rw [ha]
  exact this

end
end Ebcc
