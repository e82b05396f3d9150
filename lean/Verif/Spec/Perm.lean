/-!
Specification vocabulary for permutations: inversions of a list of numbers.
-/

namespace Ebcc

/-- Number of pairs of positions `i < j` with `l[j] < l[i]`. -/
def inversions : List Nat → Nat
  | [] => 0
  | x :: xs => (xs.filter fun y => decide (y < x)).length + inversions xs

/-- `+1` for an even and `-1` for an odd number. -/
def signOfParity (n : Nat) : Int := if n % 2 = 0 then 1 else -1

/-- The sign of an arrangement `l` of the distinct items of `seq`: the parity of the number of
pairs that stand in `l` in the opposite order to `seq`. -/
def arrangementSign {α : Type} [BEq α] (seq l : List α) : Int :=
  signOfParity (inversions (l.map fun a => seq.idxOf a))

end Ebcc
