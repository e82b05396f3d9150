import Verif.Spec.GenArgs
/-!
Arguments of the generated functions of the general (spin-orbital) classes.
-/

namespace Ebcc

section
variable {R : Type}

def tens1 [Zero R] (f : Orb → R) : List Orb → R
  | [p] => f p
  | _ => 0

def tens6 [Zero R] (f : Orb → Orb → Orb → Orb → Orb → Orb → R) : List Orb → R
  | [p, q, r, s, t, u] => f p q r s t u
  | _ => 0

/-- Integrals of a real calculation with spin orbitals. -/
structure GHam (R : Type) [Ring R] where
  /-- Fock matrix -/
  f : Orb → Orb → R
  /-- antisymmetrised two-electron integrals `<pq||rs>` -/
  v : Orb → Orb → Orb → Orb → R
  /-- electron-boson coupling -/
  g : Nat → Orb → Orb → R
  /-- linear boson term -/
  G : Nat → R
  /-- boson-boson matrix -/
  w : Nat → Nat → R
  f_symm : ∀ p q, f q p = f p q
  v_anti : ∀ p q r s, v q p r s = -v p q r s
  v_pair : ∀ p q r s, v r s p q = v p q r s
  w_symm : ∀ x y, w y x = w x y

/-- Amplitudes, or lambda amplitudes, or changes of amplitudes; occupied orbitals come first. -/
structure GAmps (R : Type) [Ring R] where
  a1 : Nat → Nat → R
  a2 : Nat → Nat → Nat → Nat → R
  a3 : Nat → Nat → Nat → Nat → Nat → Nat → R
  s1 : Nat → R
  s2 : Nat → Nat → R
  u11 : Nat → Nat → Nat → R
  u12 : Nat → Nat → Nat → Nat → R
  a2_occ : ∀ i j a b, a2 j i a b = -a2 i j a b
  a2_vir : ∀ i j a b, a2 i j b a = -a2 i j a b
  a3_occ1 : ∀ i j k a b c, a3 j i k a b c = -a3 i j k a b c
  a3_occ2 : ∀ i j k a b c, a3 i k j a b c = -a3 i j k a b c
  a3_vir1 : ∀ i j k a b c, a3 i j k b a c = -a3 i j k a b c
  a3_vir2 : ∀ i j k a b c, a3 i j k a c b = -a3 i j k a b c
  s2_symm : ∀ x y, s2 y x = s2 x y
  u12_symm : ∀ x y i a, u12 y x i a = u12 x y i a

/-- `t + x * s`. -/
def GAmps.move [CommRing R] (t s : GAmps R) (x : R) : GAmps R where
  a1 i a := t.a1 i a + x * s.a1 i a
  a2 i j a b := t.a2 i j a b + x * s.a2 i j a b
  a3 i j k a b c := t.a3 i j k a b c + x * s.a3 i j k a b c
  s1 n := t.s1 n + x * s.s1 n
  s2 n m := t.s2 n m + x * s.s2 n m
  u11 n i a := t.u11 n i a + x * s.u11 n i a
  u12 n m i a := t.u12 n m i a + x * s.u12 n m i a
  a2_occ i j a b := by rw [t.a2_occ i j, s.a2_occ i j, mul_neg, neg_add]
  a2_vir i j a b := by rw [t.a2_vir i j a, s.a2_vir i j a, mul_neg, neg_add]
  a3_occ1 i j k a b c := by rw [t.a3_occ1 i j, s.a3_occ1 i j, mul_neg, neg_add]
  a3_occ2 i j k a b c := by rw [t.a3_occ2 i j, s.a3_occ2 i j, mul_neg, neg_add]
  a3_vir1 i j k a b c := by rw [t.a3_vir1 i j k a, s.a3_vir1 i j k a, mul_neg, neg_add]
  a3_vir2 i j k a b c := by rw [t.a3_vir2 i j k a, s.a3_vir2 i j k a, mul_neg, neg_add]
  s2_symm n m := by rw [t.s2_symm n m, s.s2_symm n m]
  u12_symm n m i a := by rw [t.u12_symm n m, s.u12_symm n m]

/-- The arguments of a generated function: integrals, amplitudes `t` and lambda amplitudes `l`. -/
def GHam.args [Ring R] (h : GHam R) (t l : GAmps R) (sz : Nat → Nat) : List Char → Option (NDArray R)
  | ['t', '1'] => some (blockArr sz (tens2 fun i a => t.a1 i.2 a.2) [0, 1])
  | ['t', '2'] => some (blockArr sz (tens4 fun i j a b => t.a2 i.2 j.2 a.2 b.2) [0, 0, 1, 1])
  | ['t', '3'] => some (blockArr sz (tens6 fun i j k a b c => t.a3 i.2 j.2 k.2 a.2 b.2 c.2) [0, 0, 0, 1, 1, 1])
  | ['s', '1'] => some (blockArr sz (tens1 fun x => t.s1 x.2) [2])
  | ['s', '2'] => some (blockArr sz (tens2 fun x y => t.s2 x.2 y.2) [2, 2])
  | ['u', '1', '1'] => some (blockArr sz (tens3 fun x i a => t.u11 x.2 i.2 a.2) [2, 0, 1])
  | ['u', '1', '2'] => some (blockArr sz (tens4 fun x y i a => t.u12 x.2 y.2 i.2 a.2) [2, 2, 0, 1])
  | ['l', '1'] => some (blockArr sz (tens2 fun a i => l.a1 i.2 a.2) [1, 0])
  | ['l', '2'] => some (blockArr sz (tens4 fun a b i j => l.a2 i.2 j.2 a.2 b.2) [1, 1, 0, 0])
  | ['l', '3'] => some (blockArr sz (tens6 fun a b c i j k => l.a3 i.2 j.2 k.2 a.2 b.2 c.2) [1, 1, 1, 0, 0, 0])
  | ['l', 's', '1'] => some (blockArr sz (tens1 fun x => l.s1 x.2) [2])
  | ['l', 's', '2'] => some (blockArr sz (tens2 fun x y => l.s2 x.2 y.2) [2, 2])
  | ['l', 'u', '1', '1'] => some (blockArr sz (tens3 fun x a i => l.u11 x.2 i.2 a.2) [2, 1, 0])
  | ['l', 'u', '1', '2'] => some (blockArr sz (tens4 fun x y a i => l.u12 x.2 y.2 i.2 a.2) [2, 2, 1, 0])
  | ['G'] => some (blockArr sz (tens1 fun x => h.G x.2) [2])
  | ['w'] => some (blockArr sz (tens2 fun x y => h.w x.2 y.2) [2, 2])
  | 'f' :: '.' :: key => (spacesOf key).map (blockArr sz (tens2 h.f))
  | 'v' :: '.' :: key => (spacesOf key).map (blockArr sz (tens4 h.v))
  | 'g' :: '.' :: 'b' :: key => (spacesOf key).map fun sp => blockArr sz (tens3 fun x => h.g x.2) (2 :: sp)
  | _ => none

/-- The arguments, and the changes `s` of the amplitudes with the prefix `d`. -/
def GHam.argsD [Ring R] (h : GHam R) (t l s : GAmps R) (sz : Nat → Nat) : List Char → Option (NDArray R)
  | 'd' :: name => h.args s l sz name
  | name => h.args t l sz name

/-- `f 0 + ... + f (n - 1)`. -/
def sumTo [AddMonoid R] (n : Nat) (f : Nat → R) : R := ((List.range n).map f).sum

/-- An element of a result. -/
def elemOf [Zero R] (r : Dict (List Char) (NDArray R)) (name : List Char) (idx : List Nat) : R :=
  ((r.get? name).getD (NDArray.zeros [])).get idx

/-- The result is there, with the sizes of the given spaces. -/
def HasResult (r : Dict (List Char) (NDArray R)) (sz : Nat → Nat) (x : List Char × List Nat) : Prop :=
  ∃ a, r.get? x.1 = some a ∧ a.shape = x.2.map sz

/-- The sorts of amplitudes. -/
inductive GSort | t1 | t2 | t3 | s1 | s2 | u11 | u12

/-- The name and the spaces of the residuals. -/
def GSort.res : GSort → List Char × List Nat
  | .t1 => (chars! "t1new", [0, 1])
  | .t2 => (chars! "t2new", [0, 0, 1, 1])
  | .t3 => (chars! "t3new", [0, 0, 0, 1, 1, 1])
  | .s1 => (chars! "s1new", [2])
  | .s2 => (chars! "s2new", [2, 2])
  | .u11 => (chars! "u11new", [2, 0, 1])
  | .u12 => (chars! "u12new", [2, 2, 0, 1])

/-- The name and the spaces of the results for the lambda amplitudes. -/
def GSort.lamRes : GSort → List Char × List Nat
  | .t1 => (chars! "l1new", [1, 0])
  | .t2 => (chars! "l2new", [1, 1, 0, 0])
  | .t3 => (chars! "l3new", [1, 1, 1, 0, 0, 0])
  | .s1 => (chars! "ls1new", [2])
  | .s2 => (chars! "ls2new", [2, 2])
  | .u11 => (chars! "lu11new", [2, 1, 0])
  | .u12 => (chars! "lu12new", [2, 2, 1, 0])

/-- The sum of the products of amplitudes and other values, over all different amplitudes if the values have
the same symmetry: each sum is divided by the number of equal products.  `r` are the values by the indices of the
amplitudes. -/
def GAmps.dot [Field R] (l : GAmps R) (no nv nb : Nat) (r : GSort → List Nat → R) : GSort → R
  | .t1 => sumTo no fun i => sumTo nv fun a => l.a1 i a * r .t1 [i, a]
  | .t2 => 1 / 4 * sumTo no fun i => sumTo no fun j => sumTo nv fun a => sumTo nv fun b =>
      l.a2 i j a b * r .t2 [i, j, a, b]
  | .t3 => 1 / 36 * sumTo no fun i => sumTo no fun j => sumTo no fun k => sumTo nv fun a => sumTo nv fun b =>
      sumTo nv fun c => l.a3 i j k a b c * r .t3 [i, j, k, a, b, c]
  | .s1 => sumTo nb fun x => l.s1 x * r .s1 [x]
  | .s2 => 1 / 2 * sumTo nb fun x => sumTo nb fun y => l.s2 x y * r .s2 [x, y]
  | .u11 => sumTo nb fun x => sumTo no fun i => sumTo nv fun a => l.u11 x i a * r .u11 [x, i, a]
  | .u12 => 1 / 2 * sumTo nb fun x => sumTo nb fun y => sumTo no fun i => sumTo nv fun a =>
      l.u12 x y i a * r .u12 [x, y, i, a]

/-- The residuals. -/
def resVals [Zero R] (w : Dict (List Char) (NDArray R)) (k : GSort) (idx : List Nat) : R := elemOf w k.res.1 idx

/-- The amplitude equations are satisfied: all residuals are zero. -/
def ResZero [Zero R] (w : Dict (List Char) (NDArray R)) (sz : Nat → Nat) (sorts : List GSort) : Prop :=
  ∀ k ∈ sorts, ∀ idx ∈ box (k.res.2.map sz), resVals w k idx = 0

/-- The results for the lambda amplitudes; these arrays have the virtual orbitals first. -/
def lamVals [Zero R] (m : Dict (List Char) (NDArray R)) : GSort → List Nat → R
  | .t1, [i, a] => elemOf m (chars! "l1new") [a, i]
  | .t2, [i, j, a, b] => elemOf m (chars! "l2new") [a, b, i, j]
  | .t3, [i, j, k, a, b, c] => elemOf m (chars! "l3new") [a, b, c, i, j, k]
  | .s1, idx => elemOf m (chars! "ls1new") idx
  | .s2, idx => elemOf m (chars! "ls2new") idx
  | .u11, [x, i, a] => elemOf m (chars! "lu11new") [x, a, i]
  | .u12, [x, y, i, a] => elemOf m (chars! "lu12new") [x, y, a, i]
  | _, _ => 0

end

end Ebcc
