import Verif.Model.Array
import Verif.Spec.Antisym
import Mathlib.Algebra.Ring.Defs
import Mathlib.Data.List.Forall2
/-!
Specification vocabulary for arrays whose axes are labelled by symbols: symmetry under exchange of two
equally labelled axes.
-/

namespace Ebcc

section
variable {κ : Type} [DecidableEq κ]

/-- The distinct elements, in order of first occurrence. -/
def firstOccurrences : List κ → List κ
  | [] => []
  | c :: l => c :: (firstOccurrences l).filter fun x => decide (x ≠ c)

/-- The symmetry string that declares the sign `s c` for the axes labelled `c`: one block per symbol,
blocks in order of first occurrence. -/
def blockString (sub : List κ) (s : κ → Char) : List Char :=
  (firstOccurrences sub).flatMap fun c => List.replicate (sub.count c) (s c)

/-- The sign belonging to a symmetry character. -/
def charSign {R : Type} [Ring R] (s : Char) : R := if s = '-' then -1 else 1

omit [DecidableEq κ] in
/-- `idx` is a multi-index of an array of this shape. -/
def ValidIdx (shape idx : List Nat) : Prop := List.Forall₂ (fun i n => i < n) idx shape

/-- Exchanging two axes with the same symbol `c` multiplies the array by the sign of `s c`. -/
def GroupSymmetric {R : Type} [Ring R] (sub : List κ) (s : κ → Char) (a : NDArray R) : Prop :=
  ∀ (i j : Nat) (c : κ), i < j → sub[i]? = some c → sub[j]? = some c → ∀ idx, ValidIdx a.shape idx →
    a.get (swapIdx i j idx) = charSign (s c) * a.get idx

/-- The array vanishes when two indices on axes with the same symbol coincide. -/
def VanishesOnDiagonal {R : Type} [Ring R] (sub : List κ) (a : NDArray R) : Prop :=
  ∀ (i j : Nat) (c : κ), i < j → sub[i]? = some c → sub[j]? = some c → ∀ idx, ValidIdx a.shape idx →
    idx[i]? = idx[j]? → a.get idx = 0

end
end Ebcc
