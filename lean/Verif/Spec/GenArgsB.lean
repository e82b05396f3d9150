import Verif.Spec.GenArgs
import Verif.Spec.GenArgsG
/-!
Arguments of the generated functions with bosons, for a closed-shell calculation.
-/

namespace Ebcc

section
variable {R : Type}

/-- Amplitudes and integrals of a closed-shell calculation with bosons. -/
structure BData (R : Type) extends CCData R where
  /-- electron-boson coupling -/
  g : Nat → Orb → Orb → R
  /-- linear boson term -/
  G : Nat → R
  /-- boson-boson matrix -/
  w : Nat → Nat → R
  s1 : Nat → R
  s2 : Nat → Nat → R
  u11 : Nat → Nat → Nat → R
  u12 : Nat → Nat → Nat → Nat → R
  ls1 : Nat → R
  ls2 : Nat → Nat → R
  lu11 : Nat → Nat → Nat → R
  lu12 : Nat → Nat → Nat → Nat → R
  w_symm : ∀ x y, w y x = w x y
  s2_symm : ∀ x y, s2 y x = s2 x y
  u12_symm : ∀ x y i a, u12 y x i a = u12 x y i a
  ls2_symm : ∀ x y, ls2 y x = ls2 x y
  lu12_symm : ∀ x y a i, lu12 y x a i = lu12 x y a i

/-- The arguments with bosonic axes only. -/
def BData.bArgs [Zero R] (d : BData R) (sz : Nat → Nat) : List Char → Option (NDArray R)
  | ['s', '1'] => some (blockArr sz (tens1 fun x => d.s1 x.2) [2])
  | ['s', '2'] => some (blockArr sz (tens2 fun x y => d.s2 x.2 y.2) [2, 2])
  | ['l', 's', '1'] => some (blockArr sz (tens1 fun x => d.ls1 x.2) [2])
  | ['l', 's', '2'] => some (blockArr sz (tens2 fun x y => d.ls2 x.2 y.2) [2, 2])
  | ['G'] => some (blockArr sz (tens1 fun x => d.G x.2) [2])
  | ['w'] => some (blockArr sz (tens2 fun x y => d.w x.2 y.2) [2, 2])
  | _ => none

/-- The arguments of a restricted function. -/
def BData.rArgs [Zero R] (d : BData R) (sz : Nat → Nat) : List Char → Option (NDArray R)
  | ['t', '1'] => some (blockArr sz (tens2 fun i a => d.t1 i.2 a.2) [0, 1])
  | ['t', '2'] => some (blockArr sz (tens4 fun i j a b => d.t2 i.2 j.2 a.2 b.2) [0, 0, 1, 1])
  | ['l', '1'] => some (blockArr sz (tens2 fun a i => d.l1 a.2 i.2) [1, 0])
  | ['l', '2'] => some (blockArr sz (tens4 fun a b i j => d.l2 a.2 b.2 i.2 j.2) [1, 1, 0, 0])
  | ['u', '1', '1'] => some (blockArr sz (tens3 fun x i a => d.u11 x.2 i.2 a.2) [2, 0, 1])
  | ['u', '1', '2'] => some (blockArr sz (tens4 fun x y i a => d.u12 x.2 y.2 i.2 a.2) [2, 2, 0, 1])
  | ['l', 'u', '1', '1'] => some (blockArr sz (tens3 fun x a i => d.lu11 x.2 a.2 i.2) [2, 1, 0])
  | ['l', 'u', '1', '2'] => some (blockArr sz (tens4 fun x y a i => d.lu12 x.2 y.2 a.2 i.2) [2, 2, 1, 0])
  | 'f' :: '.' :: key => (spacesOf key).map (blockArr sz (tens2 d.f))
  | 'v' :: '.' :: key => (spacesOf key).map (blockArr sz (tens4 d.v))
  | 'g' :: '.' :: key => (spacesOf key).map (blockArr sz (tens3 fun x => d.g x.2))
  | name => d.bArgs sz name

/-- The arguments of an unrestricted function: both spins have the amplitudes and integrals of the restricted
calculation, and the amplitudes of two equal spins are antisymmetrised (`cc/uebcc.py:135-183`). -/
def BData.uArgs [Field R] (d : BData R) (sz : Nat → Nat) : List Char → Option (NDArray R)
  | ['t', '1', '.', _, _] => some (blockArr sz (tens2 fun i a => d.t1 i.2 a.2) [0, 1])
  | ['t', '2', '.', 'a', 'b', 'a', 'b'] => some (blockArr sz (tens4 fun i j a b => d.t2 i.2 j.2 a.2 b.2) [0, 0, 1, 1])
  | ['t', '2', '.', _, _, _, _] =>
    some (blockArr sz (tens4 fun i j a b => (d.t2 i.2 j.2 a.2 b.2 - d.t2 i.2 j.2 b.2 a.2) / 2) [0, 0, 1, 1])
  | ['l', '1', '.', _, _] => some (blockArr sz (tens2 fun a i => d.l1 a.2 i.2) [1, 0])
  | ['l', '2', '.', 'a', 'b', 'a', 'b'] => some (blockArr sz (tens4 fun a b i j => d.l2 a.2 b.2 i.2 j.2) [1, 1, 0, 0])
  | ['l', '2', '.', _, _, _, _] =>
    some (blockArr sz (tens4 fun a b i j => (d.l2 a.2 b.2 i.2 j.2 - d.l2 a.2 b.2 j.2 i.2) / 2) [1, 1, 0, 0])
  | ['u', '1', '1', '.', _, _] => some (blockArr sz (tens3 fun x i a => d.u11 x.2 i.2 a.2) [2, 0, 1])
  | ['u', '1', '2', '.', _, _] => some (blockArr sz (tens4 fun x y i a => d.u12 x.2 y.2 i.2 a.2) [2, 2, 0, 1])
  | ['l', 'u', '1', '1', '.', _, _] => some (blockArr sz (tens3 fun x a i => d.lu11 x.2 a.2 i.2) [2, 1, 0])
  | ['l', 'u', '1', '2', '.', _, _] => some (blockArr sz (tens4 fun x y a i => d.lu12 x.2 y.2 a.2 i.2) [2, 2, 1, 0])
  | 'f' :: '.' :: _ :: _ :: '.' :: key => (spacesOf key).map (blockArr sz (tens2 d.f))
  | 'v' :: '.' :: _ :: _ :: _ :: _ :: '.' :: key => (spacesOf key).map (blockArr sz (tens4 d.v))
  | 'g' :: '.' :: _ :: _ :: '.' :: key => (spacesOf key).map (blockArr sz (tens3 fun x => d.g x.2))
  | name => d.bArgs sz name

end

end Ebcc
