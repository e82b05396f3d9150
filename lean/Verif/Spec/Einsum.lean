import Verif.Model.Array
import Mathlib.Algebra.BigOperators.Group.List.Basic
import Mathlib.Algebra.Ring.Defs
import Mathlib.Logic.Function.Basic
/-!
Specification of the Einstein summation convention.  Indices are symbols; an assignment gives every
symbol a value.
-/

namespace Ebcc

section
variable {κ R : Type} [DecidableEq κ]

/-- Sum of `F` over all values (below the size of the symbol) of the symbols `ds`; the other symbols
keep the values of the assignment `e`. -/
def einSum [AddMonoid R] (sz : κ → Nat) : List κ → ((κ → Nat) → R) → (κ → Nat) → R
  | [], F, e => F e
  | d :: ds, F, e =>
    ((List.range (sz d)).map fun v => einSum sz ds F (Function.update e d v)).sum

/-- Product of the elements of labelled arrays selected by an assignment. -/
def einProd [CommSemiring R] (inputs : List (List κ × NDArray R)) (e : κ → Nat) : R :=
  (inputs.map fun x => x.2.get (x.1.map e)).prod

/-- The symbols that occur in the inputs but not in the output, each once. -/
def einDummies (inps : List (List κ)) (outs : List κ) : List κ :=
  inps.flatten.dedup.filter fun c => decide (c ∉ outs)

/-- The Einstein sum of labelled arrays. -/
def einValue [CommSemiring R] (sz : κ → Nat) (inputs : List (List κ × NDArray R)) (outs : List κ)
    (e : κ → Nat) : R :=
  einSum sz (einDummies (inputs.map Prod.fst) outs) (einProd inputs) e

end

end Ebcc
