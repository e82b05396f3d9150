import Verif.Spec.GenArgsG
import Verif.Lemmas.GenEinsum
/-!
Integrals and amplitudes of a calculation with orbitals of two spins: the arguments of the generated functions of
the unrestricted classes, and of the general (spin-orbital) classes.
-/

namespace Ebcc

/-- The spin of an orbital: the spaces 0 and 1 are the occupied and virtual orbitals of the first spin, the spaces
4 and 5 those of the second. -/
def spinOf (p : Orb) : Nat := p.1 / 4

/-- The spaces with spin. -/
def spinSpaces : List Nat → List Char → Option (List Nat)
  | [], [] => some []
  | s :: sp, 'a' :: l => (spinSpaces sp l).map (s :: ·)
  | s :: sp, 'b' :: l => (spinSpaces sp l).map ((s + 4) :: ·)
  | _, _ => none

/-- The sizes of the spaces of orbitals of two spins, and the number of bosons. -/
def spinSizes (noa nva nob nvb nb : Nat) : Nat → Nat
  | 0 => noa
  | 1 => nva
  | 2 => nb
  | 4 => nob
  | 5 => nvb
  | _ => 0

section
variable {R : Type}

/-- Integrals of a real calculation with orbitals of two spins.  Only integrals that conserve the spin matter. -/
structure SHam (R : Type) [Ring R] where
  /-- Fock matrices -/
  f : Orb → Orb → R
  /-- two-electron integrals `(pq|rs)` -/
  v : Orb → Orb → Orb → Orb → R
  /-- electron-boson coupling -/
  g : Nat → Orb → Orb → R
  /-- linear boson term -/
  G : Nat → R
  /-- boson-boson matrix -/
  w : Nat → Nat → R
  f_symm : ∀ p q, f q p = f p q
  v_swap : ∀ p q r s, v q p r s = v p q r s
  v_pair : ∀ p q r s, v r s p q = v p q r s
  w_symm : ∀ x y, w y x = w x y

/-- Amplitudes or lambda amplitudes; occupied orbitals come first.  The amplitudes are antisymmetric, as those of
spin orbitals.  Only amplitudes that conserve the spin matter. -/
structure SAmps (R : Type) [Ring R] where
  a1 : Orb → Orb → R
  a2 : Orb → Orb → Orb → Orb → R
  a3 : Orb → Orb → Orb → Orb → Orb → Orb → R
  s1 : Nat → R
  s2 : Nat → Nat → R
  u11 : Nat → Orb → Orb → R
  u12 : Nat → Nat → Orb → Orb → R
  a2_occ : ∀ i j a b, a2 j i a b = -a2 i j a b
  a2_vir : ∀ i j a b, a2 i j b a = -a2 i j a b
  a3_occ1 : ∀ i j k a b c, a3 j i k a b c = -a3 i j k a b c
  a3_occ2 : ∀ i j k a b c, a3 i k j a b c = -a3 i j k a b c
  a3_vir1 : ∀ i j k a b c, a3 i j k b a c = -a3 i j k a b c
  a3_vir2 : ∀ i j k a b c, a3 i j k a c b = -a3 i j k a b c
  s2_symm : ∀ x y, s2 y x = s2 x y
  u12_symm : ∀ x y i a, u12 y x i a = u12 x y i a

/-- The unrestricted classes keep half the amplitudes of two equal spins (`C42_blocks`). -/
def pairWeight [Field R] (sp : List Char) : R := if sp = ['a', 'a', 'a', 'a'] ∨ sp = ['b', 'b', 'b', 'b'] then 1 / 2 else 1

/-- The weight of the amplitudes of three spins: one over the number of permutations of equal spins. -/
def tripleWeight [Field R] (sp : List Char) : R :=
  if sp = ['a', 'a', 'a', 'a', 'a', 'a'] ∨ sp = ['b', 'b', 'b', 'b', 'b', 'b'] then 1 / 6 else 1 / 2

/-- The arguments of a function of an unrestricted class. -/
def SHam.uArgs [Field R] (h : SHam R) (t l : SAmps R) (sz : Nat → Nat) : List Char → Option (NDArray R)
  | 't' :: '1' :: '.' :: sp => (spinSpaces [0, 1] sp).map (blockArr sz (tens2 t.a1))
  | 't' :: '2' :: '.' :: sp =>
    (spinSpaces [0, 0, 1, 1] sp).map (blockArr sz (tens4 fun i j a b => pairWeight sp * t.a2 i j a b))
  | 't' :: '3' :: '.' :: sp => (spinSpaces [0, 0, 0, 1, 1, 1] sp).map
      (blockArr sz (tens6 fun i j k a b c => tripleWeight sp * t.a3 i j k a b c))
  | ['s', '1'] => some (blockArr sz (tens1 fun x => t.s1 x.2) [2])
  | ['s', '2'] => some (blockArr sz (tens2 fun x y => t.s2 x.2 y.2) [2, 2])
  | 'u' :: '1' :: '1' :: '.' :: sp =>
    (spinSpaces [0, 1] sp).map fun s => blockArr sz (tens3 fun x => t.u11 x.2) (2 :: s)
  | 'u' :: '1' :: '2' :: '.' :: sp =>
    (spinSpaces [0, 1] sp).map fun s => blockArr sz (tens4 fun x y => t.u12 x.2 y.2) (2 :: 2 :: s)
  | 'l' :: '1' :: '.' :: sp => (spinSpaces [1, 0] sp).map (blockArr sz (tens2 fun a i => l.a1 i a))
  | 'l' :: '2' :: '.' :: sp =>
    (spinSpaces [1, 1, 0, 0] sp).map (blockArr sz (tens4 fun a b i j => pairWeight sp * l.a2 i j a b))
  | 'l' :: '3' :: '.' :: sp => (spinSpaces [1, 1, 1, 0, 0, 0] sp).map
      (blockArr sz (tens6 fun a b c i j k => tripleWeight sp * l.a3 i j k a b c))
  | ['l', 's', '1'] => some (blockArr sz (tens1 fun x => l.s1 x.2) [2])
  | ['l', 's', '2'] => some (blockArr sz (tens2 fun x y => l.s2 x.2 y.2) [2, 2])
  | 'l' :: 'u' :: '1' :: '1' :: '.' :: sp =>
    (spinSpaces [1, 0] sp).map fun s => blockArr sz (tens3 fun x a i => l.u11 x.2 i a) (2 :: s)
  | 'l' :: 'u' :: '1' :: '2' :: '.' :: sp =>
    (spinSpaces [1, 0] sp).map fun s => blockArr sz (tens4 fun x y a i => l.u12 x.2 y.2 i a) (2 :: 2 :: s)
  | ['G'] => some (blockArr sz (tens1 fun x => h.G x.2) [2])
  | ['w'] => some (blockArr sz (tens2 fun x y => h.w x.2 y.2) [2, 2])
  | 'f' :: '.' :: x :: y :: '.' :: key =>
    ((spacesOf key).bind (spinSpaces · [x, y])).map (blockArr sz (tens2 h.f))
  | 'v' :: '.' :: x :: y :: z :: w :: '.' :: key =>
    ((spacesOf key).bind (spinSpaces · [x, y, z, w])).map (blockArr sz (tens4 h.v))
  | 'g' :: '.' :: x :: y :: '.' :: 'b' :: key =>
    ((spacesOf key).bind (spinSpaces · [x, y])).map fun s => blockArr sz (tens3 fun x => h.g x.2) (2 :: s)
  | _ => none

/-- Every occupied orbital of either spin is one of the `no` occupied spin orbitals, and each once; also for the
virtual orbitals.  `occ x` is the orbital with spin of the spin orbital `x`.  The order is arbitrary. -/
structure SpinOrbitals (occ vir : Nat → Orb) (no nv noa nva nob nvb : Nat) : Prop where
  occ : ((List.range no).map occ).Perm
    ((List.range noa).map (fun x => (0, x)) ++ (List.range nob).map fun x => (4, x))
  vir : ((List.range nv).map vir).Perm
    ((List.range nva).map (fun x => (1, x)) ++ (List.range nvb).map fun x => (5, x))

/-- The orbital with spin of a spin orbital. -/
def spinOrb (occ vir : Nat → Orb) : Nat → Nat → Orb
  | 0, x => occ x
  | 1, x => vir x
  | s, x => (s, x)

/-- The integrals over spin orbitals: zero unless the spin is conserved, and antisymmetrised. -/
def SHam.toG [Field R] (h : SHam R) (so : Nat → Nat → Orb) : GHam R where
  f p q := if spinOf (so p.1 p.2) = spinOf (so q.1 q.2) then h.f (so p.1 p.2) (so q.1 q.2) else 0
  v p q r s :=
    (if spinOf (so p.1 p.2) = spinOf (so r.1 r.2) ∧ spinOf (so q.1 q.2) = spinOf (so s.1 s.2) then
      h.v (so p.1 p.2) (so r.1 r.2) (so q.1 q.2) (so s.1 s.2) else 0)
    - (if spinOf (so p.1 p.2) = spinOf (so s.1 s.2) ∧ spinOf (so q.1 q.2) = spinOf (so r.1 r.2) then
      h.v (so p.1 p.2) (so s.1 s.2) (so q.1 q.2) (so r.1 r.2) else 0)
  g x p q := if spinOf (so p.1 p.2) = spinOf (so q.1 q.2) then h.g x (so p.1 p.2) (so q.1 q.2) else 0
  G := h.G
  w := h.w
  f_symm p q := by
    simp only [h.f_symm (so p.1 p.2), eq_comm (a := spinOf (so q.1 q.2))]
  v_anti p q r s := by
    have e1 := h.v_pair (so p.1 p.2) (so s.1 s.2) (so q.1 q.2) (so r.1 r.2)
    have e2 := h.v_pair (so p.1 p.2) (so r.1 r.2) (so q.1 q.2) (so s.1 s.2)
    simp only [e1, e2, and_comm (a := spinOf (so q.1 q.2) = _)]
    exact (neg_sub _ _).symm
  v_pair p q r s := by
    have e1 : h.v (so r.1 r.2) (so p.1 p.2) (so s.1 s.2) (so q.1 q.2)
        = h.v (so p.1 p.2) (so r.1 r.2) (so q.1 q.2) (so s.1 s.2) := by
      rw [h.v_swap, h.v_pair, h.v_swap, h.v_pair]
    have e2 : h.v (so r.1 r.2) (so q.1 q.2) (so s.1 s.2) (so p.1 p.2)
        = h.v (so p.1 p.2) (so s.1 s.2) (so q.1 q.2) (so r.1 r.2) := by
      rw [h.v_swap, h.v_pair, h.v_swap]
    simp only [e1, e2, eq_comm (a := spinOf (so r.1 r.2)), eq_comm (a := spinOf (so s.1 s.2)),
      and_comm (a := spinOf (so q.1 q.2) = spinOf (so r.1 r.2))]
  w_symm := h.w_symm

/-- The amplitudes of spin orbitals: zero unless the spin is conserved. -/
def SAmps.toG [Field R] (t : SAmps R) (occ vir : Nat → Orb) : GAmps R where
  a1 i a := if spinOf (occ i) = spinOf (vir a) then t.a1 (occ i) (vir a) else 0
  a2 i j a b := if spinOf (occ i) + spinOf (occ j) = spinOf (vir a) + spinOf (vir b) then
    t.a2 (occ i) (occ j) (vir a) (vir b) else 0
  a3 i j k a b c := if spinOf (occ i) + spinOf (occ j) + spinOf (occ k)
      = spinOf (vir a) + spinOf (vir b) + spinOf (vir c) then
    t.a3 (occ i) (occ j) (occ k) (vir a) (vir b) (vir c) else 0
  s1 := t.s1
  s2 := t.s2
  u11 x i a := if spinOf (occ i) = spinOf (vir a) then t.u11 x (occ i) (vir a) else 0
  u12 x y i a := if spinOf (occ i) = spinOf (vir a) then t.u12 x y (occ i) (vir a) else 0
  a2_occ i j a b := by
    rw [Nat.add_comm (spinOf (occ j)), t.a2_occ (occ i)]
    split <;> simp
  a2_vir i j a b := by
    rw [Nat.add_comm (spinOf (vir b)), t.a2_vir _ _ (vir a)]
    split <;> simp
  a3_occ1 i j k a b c := by
    rw [Nat.add_comm (spinOf (occ j)), t.a3_occ1 (occ i)]
    split <;> simp
  a3_occ2 i j k a b c := by
    rw [Nat.add_right_comm (spinOf (occ i)), t.a3_occ2 _ (occ j)]
    split <;> simp
  a3_vir1 i j k a b c := by
    rw [Nat.add_comm (spinOf (vir b)), t.a3_vir1 _ _ _ (vir a)]
    split <;> simp
  a3_vir2 i j k a b c := by
    rw [Nat.add_right_comm (spinOf (vir a)), t.a3_vir2 _ _ _ _ (vir b)]
    split <;> simp
  s2_symm := t.s2_symm
  u12_symm x y i a := by rw [t.u12_symm x y]

/-- An element of the tensor of spin orbitals that belongs to results of an unrestricted function: its spin block,
by antisymmetry if there is no block of that order of spins, zero if the spin is not conserved.  The first `nb`
axes are bosons. -/
def spinElem [Ring R] (u : Dict (List Char) (NDArray R)) (name : List Char) (nb : Nat) (os : List Orb) : R :=
  match os.drop nb with
  | [p, q] => match spinOf p, spinOf q with
    | 0, 0 => elemOf u (name ++ chars! ".aa") ((os.take nb).map Prod.snd ++ [p.2, q.2])
    | 1, 1 => elemOf u (name ++ chars! ".bb") ((os.take nb).map Prod.snd ++ [p.2, q.2])
    | _, _ => 0
  | [p, q, r, s] => match spinOf p, spinOf q, spinOf r, spinOf s with
    | 0, 0, 0, 0 => elemOf u (name ++ chars! ".aaaa") [p.2, q.2, r.2, s.2]
    | 1, 1, 1, 1 => elemOf u (name ++ chars! ".bbbb") [p.2, q.2, r.2, s.2]
    | 0, 1, 0, 1 => elemOf u (name ++ chars! ".abab") [p.2, q.2, r.2, s.2]
    | 0, 1, 1, 0 => -elemOf u (name ++ chars! ".abab") [p.2, q.2, s.2, r.2]
    | 1, 0, 0, 1 => -elemOf u (name ++ chars! ".abab") [q.2, p.2, r.2, s.2]
    | 1, 0, 1, 0 => elemOf u (name ++ chars! ".abab") [q.2, p.2, s.2, r.2]
    | _, _, _, _ => 0
  | _ => elemOf u name (os.map Prod.snd)

/-- The number of bosonic axes. -/
def bosonAxes (sp : List Nat) : Nat := (sp.takeWhile fun s => decide (s = 2)).length

/-- The spin blocks of a result. -/
def spinBlocks (x : List Char × List Nat) : List (List Char × List Nat) :=
  match x.2.drop (bosonAxes x.2) with
  | [s1, s2] => [(x.1 ++ chars! ".aa", x.2), (x.1 ++ chars! ".bb", x.2.take (bosonAxes x.2) ++ [s1 + 4, s2 + 4])]
  | [s1, s2, s3, s4] => [(x.1 ++ chars! ".aaaa", x.2), (x.1 ++ chars! ".abab", [s1, s2 + 4, s3, s4 + 4]),
      (x.1 ++ chars! ".bbbb", [s1 + 4, s2 + 4, s3 + 4, s4 + 4])]
  | _ => [x]

/-- The result `x` (name and spaces) of a general function is made of the spin blocks of the unrestricted one. -/
def SplitsInto [Ring R] (szG szU : Nat → Nat) (so : Nat → Nat → Orb) (g u : Dict (List Char) (NDArray R))
    (x : List Char × List Nat) : Prop :=
  HasResult g szG x ∧ (∀ y ∈ spinBlocks x, HasResult u szU y) ∧
    ∀ I ∈ box (x.2.map szG), elemOf g x.1 I = spinElem u x.1 (bosonAxes x.2) (List.zipWith so x.2 I)

/-- The general function `gf` and the unrestricted function `uf` have the same results, for all integrals and
amplitudes, all numbers of orbitals and all orders of the spin orbitals. -/
def GeneralAgrees (gf uf : GenFun) (results : List (List Char × List Nat)) : Prop :=
  ∀ (R : Type) [Field R] [CharZero R] [DecidableEq R] (h : SHam R) (t l : SAmps R) (occ vir : Nat → Orb)
    (no nv noa nva nob nvb nb : Nat), SpinOrbitals occ vir no nv noa nva nob nvb →
    ∀ (method : ContractMethod) (path : List (List Char) → List Char → List (NDArray R) → List Contraction),
    PathOk path → ∃ g u,
      gf.call method path (spaceSizes no nv nb 0) ((h.toG (spinOrb occ vir)).args (t.toG occ vir) (l.toG occ vir)
        (spaceSizes no nv nb 0)) = .ok g ∧
      uf.call method path (spinSizes noa nva nob nvb nb) (h.uArgs t l (spinSizes noa nva nob nvb nb)) = .ok u ∧
      ∀ x ∈ results, SplitsInto (spaceSizes no nv nb 0) (spinSizes noa nva nob nvb nb) (spinOrb occ vir) g u x

end

end Ebcc
