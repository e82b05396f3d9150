import Verif.Model.GenCode
/-!
Arguments of the generated functions: amplitudes and integrals of a closed-shell calculation, as the
restricted, the unrestricted and the density-fitted functions take them.
-/

namespace Ebcc

/-- An orbital (or an auxiliary function, or a boson): its space and its number in the space.  The spaces
are 0 occupied, 1 virtual, 2 bosons, 3 auxiliary functions. -/
abbrev Orb := Nat × Nat

/-- The sizes of the spaces; the spaces 4 and 5 are the occupied and virtual orbitals of the second
spin. -/
def spaceSizes (no nv nb nx : Nat) (s : Nat) : Nat :=
  match s % 4 with
  | 0 => no
  | 1 => nv
  | 2 => nb
  | _ => nx

/-- The space of a letter of a key like `ovov`. -/
def spaceOf : Char → Option Nat
  | 'o' => some 0
  | 'v' => some 1
  | 'b' => some 2
  | 'x' => some 3
  | _ => none

/-- The spaces of a key. -/
def spacesOf : List Char → Option (List Nat)
  | [] => some []
  | c :: l => match spaceOf c, spacesOf l with
    | some s, some r => some (s :: r)
    | _, _ => none

section
variable {R : Type}

/-- A function of orbitals on a list. -/
def tens2 [Zero R] (f : Orb → Orb → R) : List Orb → R
  | [p, q] => f p q
  | _ => 0

def tens3 [Zero R] (f : Orb → Orb → Orb → R) : List Orb → R
  | [p, q, r] => f p q r
  | _ => 0

def tens4 [Zero R] (f : Orb → Orb → Orb → Orb → R) : List Orb → R
  | [p, q, r, s] => f p q r s
  | _ => 0

/-- The array with the elements of a tensor, for axes with the given spaces. -/
def blockArr [Zero R] (sz : Nat → Nat) (f : List Orb → R) (sp : List Nat) : NDArray R :=
  NDArray.ofFn (sp.map sz) fun idx => f (sp.zip idx)

/-- Amplitudes and integrals of a closed-shell calculation.  The functions are given for all orbitals;
only the values for the spaces of a block matter. -/
structure CCData (R : Type) where
  /-- Fock matrix -/
  f : Orb → Orb → R
  /-- two-electron integrals `(pq|rs)` -/
  v : Orb → Orb → Orb → Orb → R
  t1 : Nat → Nat → R
  t2 : Nat → Nat → Nat → Nat → R
  l1 : Nat → Nat → R
  l2 : Nat → Nat → Nat → Nat → R
  f_symm : ∀ p q, f q p = f p q
  v_swap : ∀ p q r s, v q p r s = v p q r s
  v_pair : ∀ p q r s, v r s p q = v p q r s
  t2_symm : ∀ i j a b, t2 j i b a = t2 i j a b
  l2_symm : ∀ a b i j, l2 b a j i = l2 a b i j

/-- Arrays with two and four axes. -/
def arr2 [Zero R] (m n : Nat) (f : Nat → Nat → R) : NDArray R :=
  NDArray.ofFn [m, n] fun idx => f (idx.getD 0 0) (idx.getD 1 0)

def arr4 [Zero R] (k l m n : Nat) (f : Nat → Nat → Nat → Nat → R) : NDArray R :=
  NDArray.ofFn [k, l, m, n] fun idx => f (idx.getD 0 0) (idx.getD 1 0) (idx.getD 2 0) (idx.getD 3 0)

/-- The arguments of a restricted function. -/
def CCData.rArgs [Zero R] (d : CCData R) (no nv : Nat) : List Char → Option (NDArray R)
  | ['t', '1'] => some (arr2 no nv d.t1)
  | ['t', '2'] => some (arr4 no no nv nv d.t2)
  | ['l', '1'] => some (arr2 nv no d.l1)
  | ['l', '2'] => some (arr4 nv nv no no d.l2)
  | 'f' :: '.' :: key => (spacesOf key).map (blockArr (spaceSizes no nv 0 0) (tens2 d.f))
  | 'v' :: '.' :: key => (spacesOf key).map (blockArr (spaceSizes no nv 0 0) (tens4 d.v))
  | _ => none

/-- The arguments of an unrestricted function: both spins have the amplitudes and integrals of the
restricted calculation, and the amplitudes of two equal spins are antisymmetrised
(`cc/uebcc.py:138-149, 164-172`, where the restricted amplitudes are converted). -/
def CCData.uArgs [Field R] (d : CCData R) (no nv : Nat) : List Char → Option (NDArray R)
  | ['t', '1', '.', _, _] => some (arr2 no nv d.t1)
  | ['t', '2', '.', 'a', 'b', 'a', 'b'] => some (arr4 no no nv nv d.t2)
  | ['t', '2', '.', _, _, _, _] => some (arr4 no no nv nv fun i j a b => (d.t2 i j a b - d.t2 i j b a) / 2)
  | ['l', '1', '.', _, _] => some (arr2 nv no d.l1)
  | ['l', '2', '.', 'a', 'b', 'a', 'b'] => some (arr4 nv nv no no d.l2)
  | ['l', '2', '.', _, _, _, _] => some (arr4 nv nv no no fun a b i j => (d.l2 a b i j - d.l2 a b j i) / 2)
  | 'f' :: '.' :: _ :: _ :: '.' :: key => (spacesOf key).map (blockArr (spaceSizes no nv 0 0) (tens2 d.f))
  | 'v' :: '.' :: _ :: _ :: _ :: _ :: '.' :: key =>
    (spacesOf key).map (blockArr (spaceSizes no nv 0 0) (tens4 d.v))
  | _ => none

/-- Amplitudes and integrals of a closed-shell calculation with density fitting: `b x p q` are the
three-centre integrals. -/
structure DFData (R : Type) where
  f : Orb → Orb → R
  b : Nat → Orb → Orb → R
  t1 : Nat → Nat → R
  t2 : Nat → Nat → Nat → Nat → R
  l1 : Nat → Nat → R
  l2 : Nat → Nat → Nat → Nat → R
  f_symm : ∀ p q, f q p = f p q
  b_symm : ∀ x p q, b x q p = b x p q
  t2_symm : ∀ i j a b, t2 j i b a = t2 i j a b
  l2_symm : ∀ a b i j, l2 b a j i = l2 a b i j

/-- The two-electron integrals made from three-centre integrals with `nx` auxiliary functions,
`(pq|rs) = Σ_x b[x,p,q] b[x,r,s]` (`ham/cderis.py:36-40`). -/
def DFData.toCC [Field R] (d : DFData R) (nx : Nat) : CCData R where
  f := d.f
  v p q r s := ((List.range nx).map fun x => d.b x p q * d.b x r s).sum
  t1 := d.t1
  t2 := d.t2
  l1 := d.l1
  l2 := d.l2
  f_symm := d.f_symm
  v_swap p q r s := by simp only [d.b_symm]
  v_pair p q r s := by simp only [mul_comm]
  t2_symm := d.t2_symm
  l2_symm := d.l2_symm

/-- The arguments of a restricted function with density fitting. -/
def DFData.dfArgs [Zero R] (d : DFData R) (no nv nx : Nat) : List Char → Option (NDArray R)
  | ['t', '1'] => some (arr2 no nv d.t1)
  | ['t', '2'] => some (arr4 no no nv nv d.t2)
  | ['l', '1'] => some (arr2 nv no d.l1)
  | ['l', '2'] => some (arr4 nv nv no no d.l2)
  | 'f' :: '.' :: key => (spacesOf key).map (blockArr (spaceSizes no nv 0 nx) (tens2 d.f))
  | 'v' :: '.' :: 'x' :: key =>
    (spacesOf key).map fun sp => blockArr (spaceSizes no nv 0 nx) (tens3 fun x => d.b x.2) (3 :: sp)
  | _ => none

end

end Ebcc
