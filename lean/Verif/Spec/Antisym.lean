import Verif.Spec.Perm
/-!
Specification vocabulary for (anti)symmetric arrays: parity of an index tuple relative to decreasing
order, exchange of two positions.
-/

namespace Ebcc

/-- Number of pairs of positions `i < j` with `l[i] < l[j]`: zero iff the tuple is weakly decreasing.
-/
def ascents : List Nat → Nat
  | [] => 0
  | x :: xs => (xs.filter fun y => decide (x < y)).length + ascents xs

/-- Exchange of two numbers. -/
def swapNat (i j p : Nat) : Nat := if p = i then j else if p = j then i else p

/-- A multi-index with the entries at positions `i` and `j` exchanged. -/
def swapIdx (i j : Nat) (idx : List Nat) : List Nat :=
  (List.range idx.length).map fun p => idx.getD (swapNat i j p) 0

end Ebcc
