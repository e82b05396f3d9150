import Verif.Model.EomVectors
import Verif.Model.Misc
import Mathlib.Algebra.Order.Group.Unbundled.Abs

/-!
Model of the initial guesses of EOM calculations: `ebcc/eom/base.py` 240-258 `get_guesses` and the methods
`_argsort_guesses` of `ebcc/eom/reom.py` (35-42, 129-136, 223-230), `geom.py` (same lines as the text there) and
`ueom.py` (35-42, 150-157, 265-272).  The diagonal is a parameter (`diag` is not `None`).
-/

namespace Ebcc

section
variable {R : Type} [Field R] [LinearOrder R]

/-- reom.py:39, 41 (`np.abs`, ionisation and attachment) and 227, 229 (excitation). -/
def guessKey (which : Which) (x : R) : R := if which = .ee then x else |x|

/-- reom.py:37-42: with `koopmans` only the first `r1.size` elements are sorted; `m` is that size. -/
def argsortGuesses (which : Which) (koopmans : Option Nat) (diag : List R) : List Nat :=
  match koopmans with
  | some m => argsort ((diag.take m).map (guessKey which))
  | none => argsort (diag.map (guessKey which))

/-- base.py:255: `np.eye(1, diag.size, guess)[0]`. -/
def unitVector (n i : Nat) : List R := (List.range n).map fun j => if j = i then 1 else 0

/-- base.py:240-258 `get_guesses`; `np.stack` of an empty list raises `ValueError`. -/
def getGuesses (which : Which) (koopmans : Option Nat) (nroots : Nat) (diag : List R) :
    Except PyErr (List (List R)) :=
  let arg := argsortGuesses which koopmans diag
  let nroots := min nroots diag.length
  let guesses := (arg.take nroots).map fun i => unitVector diag.length i
  if guesses = [] then .error .valueError else .ok guesses

/-- reom.py:38: `self.vector_to_amplitudes(diag)["r1"].size`. -/
def rSinglesSize (a : Ansatz) (which : Which) (space : Space) (diag : List R) : Except PyErr Nat := do
  let T ← rVectorToEom a which space diag
  let r1 ← T.getItem ['r', '1']
  pure r1.data.length

/-- geom.py:38. -/
def gSinglesSize (a : Ansatz) (which : Which) (space : Space) (diag : List R) : Except PyErr Nat := do
  let T ← gVectorToEom a which space diag
  let r1 ← T.getItem ['r', '1']
  pure r1.data.length

/-- ueom.py:38-39, 268-269: `r1.a.size + r1.b.size`, `r1.aa.size + r1.bb.size`. -/
def uSinglesSize (a : Ansatz) (which : Which) (sa sb : Space) (diag : List R) : Except PyErr Nat := do
  let T ← uVectorToEom a which sa sb diag
  let r1 ← T.getItem ['r', '1']
  let x ← r1.attr (if which = .ee then ['a', 'a'] else ['a'])
  let y ← r1.attr (if which = .ee then ['b', 'b'] else ['b'])
  pure (x.data.length + y.data.length)

end

end Ebcc
