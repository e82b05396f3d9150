import Verif.Spec.GenArgsG
/-!
Excitations of the general (spin-orbital) classes: the vectors of the equation-of-motion methods, and the arguments
of the generated functions which apply the Hamiltonian.
-/

namespace Ebcc

/-- The sorts of excitations, eom/base.py:355-580. -/
inductive EomSort | ip | ea | ee

/-- The spaces of the axes of `r1`, eom/geom.py. -/
def EomSort.sp1 : EomSort → List Nat
  | .ip => [0]
  | .ea => [1]
  | .ee => [0, 1]

/-- The spaces of the axes of `r2`. -/
def EomSort.sp2 : EomSort → List Nat
  | .ip => [0, 0, 1]
  | .ea => [1, 1, 0]
  | .ee => [0, 0, 1, 1]

section
variable {R : Type}

/-- Excitation amplitudes `r1` and `r2` by their indices.  `r2` is antisymmetric. -/
structure EomVec (R : Type) [Ring R] (k : EomSort) where
  x1 : List Nat → R
  x2 : List Nat → R
  anti1 : ∀ i j l, x2 (j :: i :: l) = -x2 (i :: j :: l)
  anti2 : k = .ee → ∀ i j a b, x2 [i, j, b, a] = -x2 [i, j, a, b]

/-- The array `r1`. -/
def EomVec.arr1 [Ring R] {k : EomSort} (x : EomVec R k) (sz : Nat → Nat) : NDArray R :=
  NDArray.ofFn (k.sp1.map sz) x.x1

/-- The array `r2`. -/
def EomVec.arr2 [Ring R] {k : EomSort} (x : EomVec R k) (sz : Nat → Nat) : NDArray R :=
  NDArray.ofFn (k.sp2.map sz) x.x2

/-- One over the number of equal values of `r2`. -/
def EomSort.weight [Field R] : EomSort → R
  | .ee => 1 / 4
  | _ => 1 / 2

/-- The sum of the products of excitation amplitudes with the results `r1new` and `r2new`, over all different
amplitudes: the second sum is divided by the number of equal products. -/
def EomVec.dot [Field R] {k : EomSort} (x : EomVec R k) (sz : Nat → Nat) (m : Dict (List Char) (NDArray R)) : R :=
  ((box (k.sp1.map sz)).map fun idx => x.x1 idx * elemOf m (chars! "r1new") idx).sum +
    k.weight *
      ((box (k.sp2.map sz)).map fun idx => x.x2 idx * elemOf m (chars! "r2new") idx).sum

/-- The arguments without lambda amplitudes. -/
def GHam.args0 [Ring R] (h : GHam R) (t : GAmps R) (sz : Nat → Nat) : List Char → Option (NDArray R)
  | 'l' :: _ => none
  | name => h.args t t sz name

/-- The arguments of `hbar_matvec_ip` and the like: the arguments, the intermediates and the excitation amplitudes,
eom/base.py:392-402. -/
def GHam.eomArgs [Ring R] (h : GHam R) (t : GAmps R) (sz : Nat → Nat) (ints : Dict (List Char) (NDArray R))
    (r1 r2 : NDArray R) : List Char → Option (NDArray R)
  | ['r', '1'] => some r1
  | ['r', '2'] => some r2
  | 'i' :: 'n' :: 't' :: 's' :: '.' :: name => ints.get? name
  | name => h.args0 t sz name

/-- The single and double amplitudes as excitation amplitudes. -/
def GAmps.vec [Ring R] (s : GAmps R) : EomVec R .ee where
  x1 | [i, a] => s.a1 i a
     | _ => 0
  x2 | [i, j, a, b] => s.a2 i j a b
     | _ => 0
  anti1 i j l := by
    split
    · rename_i heq
      cases heq
      exact s.a2_occ ..
    · rename_i hn
      split
      · rename_i heq
        cases heq
        exact absurd rfl (hn _ _ _ _)
      · simp
  anti2 _ i j a b := s.a2_vir ..

end

end Ebcc
