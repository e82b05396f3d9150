import Verif.Model.FciConvert
import Verif.Gen.Hints.Exp
import Verif.Tensor.SetupE
import Verif.Tensor.Value
import Verif.Lemmas.GenInts
import Mathlib.Tactic.NormNum
import Mathlib.Tactic.IntervalCases
/-!
Checks for C84, the conversions between coefficients of determinants and cluster amplitudes (`ext/fci.py`,
`codegen/GecCC.py`, `codegen/UecCC.py`).
-/

namespace Ebcc

set_option maxRecDepth 1000000

/-- The spaces of the axes of spin-orbital amplitudes. -/
def gAxes (n : Nat) : List Nat := List.replicate n 0 ++ List.replicate n 1

def nameG (c : Char) (n : Nat) : List Char := [c, orderChar n]

/-- The spin combinations of an order. -/
def combs84 (n : Nat) : List (List Char) := generateSpinCombinations n false true

/-- `na! nb!` -/
def spinWeight (n : Nat) (s : List Char) : Nat := ((s.take n).count 'a').factorial * ((s.take n).count 'b').factorial

/-! ### The checks -/

def argsToAmpsG (n : Nat) : List (List Char × TArg) :=
  (nameG 'c' n, coefArg false (gAxes n)) :: (List.range' 1 (n - 1)).map fun k => (nameG 't' k, ampArg 1 0 (gAxes k))

def argsToCoefsG (n : Nat) : List (List Char × TArg) :=
  (List.range' 1 n).map fun k => (nameG 't' k, ampArg 1 0 (gAxes k))

def argsToAmpsU (n : Nat) : List (List Char × TArg) :=
  ((combs84 n).map fun s => (convKey 'c' n s, coefArg true (excSpaces (s.take n))))
    ++ (List.range' 1 (n - 1)).flatMap fun k => (combs84 k).map fun s => (convKey 't' k s, ampArg 1 0 (excSpaces (s.take k)))

def argsToCoefsU (n : Nat) : List (List Char × TArg) :=
  (List.range' 1 n).flatMap fun k => (combs84 k).map fun s =>
    (convKey 't' k s, ampArg (24 / spinWeight k s : Nat) 1 (excSpaces (s.take k)))

def hintsToAmpsG : Nat → List Nat
  | 1 => Hints.GecCC_c1_to_t1
  | 2 => Hints.GecCC_c2_to_t2
  | 3 => Hints.GecCC_c3_to_t3
  | _ => Hints.GecCC_c4_to_t4

def hintsToCoefsG : Nat → List Nat
  | 1 => Hints.GecCC_t1_to_c1
  | 2 => Hints.GecCC_t2_to_c2
  | 3 => Hints.GecCC_t3_to_c3
  | _ => Hints.GecCC_t4_to_c4

def hintsToAmpsU : Nat → List Nat
  | 1 => Hints.UecCC_c1_to_t1
  | 2 => Hints.UecCC_c2_to_t2
  | 3 => Hints.UecCC_c3_to_t3
  | _ => Hints.UecCC_c4_to_t4

def hintsToCoefsU : Nat → List Nat
  | 1 => Hints.UecCC_t1_to_c1
  | 2 => Hints.UecCC_t2_to_c2
  | 3 => Hints.UecCC_t3_to_c3
  | _ => Hints.UecCC_t4_to_c4

noncomputable def checkToAmpsG (n : Nat) : Bool :=
  checkFun (canonByHints expSym) (hintsToAmpsG n) (toAmpsG n) (Dict.get? (argsToAmpsG n))
    [(nameG 't' n, ampArg 1 0 (gAxes n))]

noncomputable def checkToCoefsG (n : Nat) : Bool :=
  checkFun (canonByHints expSym) (hintsToCoefsG n) (toCoefsG n) (Dict.get? (argsToCoefsG n))
    [(nameG 'c' n, coefArg false (gAxes n))]

/-- The results in the order of the function. -/
def retCombs (f : GenFun) : List (List Char) := f.ret.map fun p => p.1.drop 3

noncomputable def checkToAmpsU (n : Nat) : Bool :=
  checkFun (canonByHints expSym) (hintsToAmpsU n) (toAmpsU n) (Dict.get? (argsToAmpsU n))
    ((retCombs (toAmpsU n)).map fun s => (convKey 't' n s, ampArg 1 0 (excSpaces (s.take n))))

noncomputable def checkToCoefsU (n : Nat) : Bool :=
  checkFun (canonByHints expSym) (hintsToCoefsU n) (toCoefsU n) (Dict.get? (argsToCoefsU n))
    ((retCombs (toCoefsU n)).map fun s => (convKey 'c' n s, coefArg true (excSpaces (s.take n))))

theorem checkToAmpsG_ok : ∀ n ∈ [1, 2, 3, 4], checkToAmpsG n = true := by
  intro n hn
  simp only [List.mem_cons, List.not_mem_nil, or_false] at hn
  rcases hn with rfl | rfl | rfl | rfl <;> decide +kernel

theorem checkToCoefsG_ok : ∀ n ∈ [1, 2, 3, 4], checkToCoefsG n = true := by
  intro n hn
  simp only [List.mem_cons, List.not_mem_nil, or_false] at hn
  rcases hn with rfl | rfl | rfl | rfl <;> decide +kernel

theorem checkToAmpsU_ok : ∀ n ∈ [1, 2, 3, 4], checkToAmpsU n = true := by
  intro n hn
  simp only [List.mem_cons, List.not_mem_nil, or_false] at hn
  rcases hn with rfl | rfl | rfl | rfl <;> decide +kernel

theorem checkToCoefsU_ok : ∀ n ∈ [1, 2, 3, 4], checkToCoefsU n = true := by
  intro n hn
  simp only [List.mem_cons, List.not_mem_nil, or_false] at hn
  rcases hn with rfl | rfl | rfl | rfl <;> decide +kernel

end Ebcc
