import Verif.Spec.GenArgsG
import Verif.Model.Tailor
/-!
Arguments of the generated functions of calculations with an active space.
-/

namespace Ebcc

/-- Which of the occupied and of the virtual orbitals are active. -/
structure ActiveMasks where
  occ : List Bool
  vir : List Bool

/-- For every orbital of the axis that the letter belongs to, whether the letter includes it. -/
def ActiveMasks.cls (m : ActiveMasks) (c : Char) : List Bool :=
  if c = 'O' then m.occ else if c = 'V' then m.vir
  else if c = 'o' then List.replicate m.occ.length true else List.replicate m.vir.length true

/-- The orbital with the number `k` of the letter `c`. -/
def ActiveMasks.orb (m : ActiveMasks) (c : Char) (k : Nat) : Orb :=
  (if c = 'o' ∨ c = 'O' then 0 else 1, (maskInds (m.cls c)).getD k 0)

/-- The number of orbitals of the letter. -/
def ActiveMasks.size (m : ActiveMasks) (c : Char) : Nat := (m.cls c).count true

section
variable {R : Type}

/-- A block of integrals, such as `v.oVOO`. -/
def ActiveMasks.block [Zero R] (m : ActiveMasks) (F : List Orb → R) (key : List Char) : NDArray R :=
  NDArray.ofFn (key.map m.size) fun idx => F (List.zipWith m.orb key idx)

/-- Amplitudes of the active space, by the numbers of the active orbitals. -/
def ActiveMasks.amp [Zero R] (m : ActiveMasks) (F : List Nat → R) (key : List Char) : NDArray R :=
  NDArray.ofFn (key.map m.size) F

/-- The elements are zero unless all orbitals are active. -/
def ActiveMasks.inflated [Zero R] (m : ActiveMasks) (F : List Nat → R) (key : List Char) : NDArray R :=
  NDArray.ofFn ((key.map m.cls).map List.length) fun idx =>
    if (List.zipWith (fun (l : List Bool) i => l.getD i false) (key.map m.cls) idx).all id
    then F (List.zipWith (fun (l : List Bool) i => (l.take i).count true) (key.map m.cls) idx) else 0

/-- The letters of spaces with and without an active part. -/
def isActiveKey (key : List Char) : Bool := key.all fun c => ['o', 'O', 'v', 'V'].contains c

/-- The amplitudes of third order, as a function on lists. -/
def GAmps.list3 [Ring R] (t : GAmps R) : List Nat → R
  | [i, j, k, a, b, c] => t.a3 i j k a b c
  | _ => 0

/-- The arguments of the generated functions for external corrections: integrals over all or the active orbitals,
amplitudes `t1` and `t2` of the full space, and the amplitudes of higher order: those of the active space. -/
def GHam.activeArgs [Ring R] (h : GHam R) (t : GAmps R) (t4 : List Nat → R) (m : ActiveMasks) :
    List Char → Option (NDArray R)
  | ['t', '1'] => some (m.block (tens2 fun i a => t.a1 i.2 a.2) ['o', 'v'])
  | ['t', '2'] => some (m.block (tens4 fun i j a b => t.a2 i.2 j.2 a.2 b.2) ['o', 'o', 'v', 'v'])
  | ['t', '3'] => some (m.amp t.list3 ['O', 'O', 'O', 'V', 'V', 'V'])
  | ['t', '4'] => some (m.amp t4 ['O', 'O', 'O', 'O', 'V', 'V', 'V', 'V'])
  | 'f' :: '.' :: key => if isActiveKey key then some (m.block (tens2 h.f) key) else none
  | 'v' :: '.' :: key => if isActiveKey key then some (m.block (tens4 h.v) key) else none
  | _ => none

/-- The same with the amplitudes of higher order over the full space, zero unless all orbitals are active. -/
def GHam.inflatedArgs [Ring R] (h : GHam R) (t : GAmps R) (t4 : List Nat → R) (m : ActiveMasks) :
    List Char → Option (NDArray R)
  | ['t', '3'] => some (m.inflated t.list3 ['O', 'O', 'O', 'V', 'V', 'V'])
  | ['t', '4'] => some (m.inflated t4 ['O', 'O', 'O', 'O', 'V', 'V', 'V', 'V'])
  | name => h.activeArgs t t4 m name

/-- The sizes of the spaces: all occupied and virtual orbitals, and the active ones. -/
def ActiveMasks.sizes (m : ActiveMasks) : Nat → Nat
  | 0 => m.occ.length
  | 1 => m.vir.length
  | 4 => m.occ.count true
  | 5 => m.vir.count true
  | _ => 0

end
end Ebcc
