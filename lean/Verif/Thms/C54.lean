import Verif.Model.Ham
import Verif.Lemmas.Lists
import Verif.Thms.C32
import Mathlib.Tactic.Ring
/-!
C54: antisymmetry of the general-spin integrals.
-/

namespace Ebcc

section
variable {R : Type} [CommRing R]

theorem inBox4 {a b c d i j k l : Nat} : InBox [a, b, c, d] [i, j, k, l] ↔ i < a ∧ j < b ∧ k < c ∧ l < d := by
  simp [InBox]

theorem antisymERI_get (chem : NDArray R) (n p q r s : Nat) (hs : chem.shape = [n, n, n, n]) (hp : p < n) (hq : q < n)
    (hr : r < n) (ht : s < n) :
    (antisymERI chem).get [p, q, r, s] = chem.get [p, r, q, s] - chem.get [p, s, q, r] := by
  unfold antisymERI
  simp only [hs]
  change (NDArray.ofFn [n, n, n, n] _).get [p, q, r, s] = _
  rw [NDArray.get_ofFn _ _ (inBox4.2 ⟨hp, hq, hr, ht⟩)]
  rfl

/-- The array that is stored is antisymmetric in its last two indices, whatever the integrals are. -/
theorem C54_last_pair (chem : NDArray R) (n p q r s : Nat) (hs : chem.shape = [n, n, n, n]) (hp : p < n) (hq : q < n)
    (hr : r < n) (ht : s < n) : (antisymERI chem).get [p, q, r, s] = -(antisymERI chem).get [p, q, s, r] := by
  rw [antisymERI_get chem n p q r s hs hp hq hr ht, antisymERI_get chem n p q s r hs hp hq ht hr]
  ring

/-- It is antisymmetric in its first two indices if the integrals do not change on exchange of the pairs. -/
theorem C54_first_pair (chem : NDArray R) (n p q r s : Nat) (hs : chem.shape = [n, n, n, n])
    (hsym : ∀ a b c d, a < n → b < n → c < n → d < n → chem.get [a, b, c, d] = chem.get [c, d, a, b])
    (hp : p < n) (hq : q < n) (hr : r < n) (ht : s < n) :
    (antisymERI chem).get [p, q, r, s] = -(antisymERI chem).get [q, p, r, s] := by
  rw [antisymERI_get chem n p q r s hs hp hq hr ht, antisymERI_get chem n q p r s hs hq hp hr ht,
    hsym q r p s hq hr hp ht, hsym q s p r hq ht hp hr]
  ring

theorem sum_comm_list {X Y : Type} (l : List X) (l' : List Y) (f : X → Y → R) :
    (l.map fun x => (l'.map fun y => f x y).sum).sum = (l'.map fun y => (l.map fun x => f x y).sum).sum := by
  induction l with
  | nil =>
    simp
  | cons x l ih =>
    simp only [List.map_cons, List.sum_cons, ih]
    clear ih
    induction l' with
    | nil => simp
    | cons y l' ih =>
      simp only [List.map_cons, List.sum_cons, ← ih]
      ring

/-- Exchange of the pairs in the transformation. -/
theorem transformERI_swap (nao : Nat) (eri : Nat → Nat → Nat → Nat → R) (c c' : Nat → Nat → Nat → R)
    (hsym : ∀ m n l k, eri m n l k = eri l k m n) (h0 : c 0 = c' 2) (h1 : c 1 = c' 3) (h2 : c 2 = c' 0) (h3 : c 3 = c' 1)
    (p q r s : Nat) : transformERI nao eri c p q r s = transformERI nao eri c' r s p q := by
  unfold transformERI
  have e : ∀ m n l k, eri m n l k * (c 0 m p * c 1 n q) * (c 2 l r * c 3 k s)
      = eri l k m n * (c' 0 l r * c' 1 k s) * (c' 2 m p * c' 3 n q) := by
    intro m n l k
    rw [hsym m n l k, h0, h1, h2, h3]
    ring
  simp only [e]
  rw [show (fun m => ((List.range nao).map fun n => ((List.range nao).map fun l => ((List.range nao).map fun k =>
        eri l k m n * (c' 0 l r * c' 1 k s) * (c' 2 m p * c' 3 n q)).sum).sum).sum)
      = fun m => ((List.range nao).map fun l => ((List.range nao).map fun n => ((List.range nao).map fun k =>
        eri l k m n * (c' 0 l r * c' 1 k s) * (c' 2 m p * c' 3 n q)).sum).sum).sum from
    funext fun m => sum_comm_list _ _ _]
  rw [sum_comm_list (List.range nao) (List.range nao)]
  congr 1
  refine List.map_congr_left fun l _ => ?_
  rw [show (fun m => ((List.range nao).map fun n => ((List.range nao).map fun k =>
        eri l k m n * (c' 0 l r * c' 1 k s) * (c' 2 m p * c' 3 n q)).sum).sum)
      = fun m => ((List.range nao).map fun k => ((List.range nao).map fun n =>
        eri l k m n * (c' 0 l r * c' 1 k s) * (c' 2 m p * c' 3 n q)).sum).sum from
    funext fun m => sum_comm_list _ _ _]
  exact sum_comm_list _ _ _

theorem generalChem_get (nao nmo : Nat) (eri : Nat → Nat → Nat → Nat → R) (c : NDArray R) (p q r s : Nat) (hp : p < nmo)
    (hq : q < nmo) (hr : r < nmo) (hs : s < nmo) :
    (generalChem nao nmo eri [c, c, c, c]).get [p, q, r, s] =
      transformERI nao eri (fun x m p => ([c, c, c, c].getD x ⟨[], []⟩).get [m, p]) p q r s
      + transformERI nao eri (fun x m p => ([c, c, c, c].getD x ⟨[], []⟩).get [nao + m, p]) p q r s
      + transformERI nao eri (fun x => if x < 2 then fun m p => ([c, c, c, c].getD x ⟨[], []⟩).get [m, p]
          else fun m p => ([c, c, c, c].getD x ⟨[], []⟩).get [nao + m, p]) p q r s
      + transformERI nao eri (fun x => if x < 2 then fun m p => ([c, c, c, c].getD x ⟨[], []⟩).get [nao + m, p]
          else fun m p => ([c, c, c, c].getD x ⟨[], []⟩).get [m, p]) p q r s := by
  unfold generalChem
  rw [NDArray.get_ofFn _ _ (inBox4.2 ⟨hp, hq, hr, hs⟩)]
  rfl

/-- With the same coefficients for the four indices, integrals over the atomic basis that do not change on exchange of
the pairs give such integrals over the molecular basis. -/
theorem generalChem_swap (nao nmo : Nat) (eri : Nat → Nat → Nat → Nat → R) (c : NDArray R)
    (hsym : ∀ m n l k, eri m n l k = eri l k m n) (p q r s : Nat) (hp : p < nmo) (hq : q < nmo) (hr : r < nmo) (hs : s < nmo) :
    (generalChem nao nmo eri [c, c, c, c]).get [p, q, r, s] = (generalChem nao nmo eri [c, c, c, c]).get [r, s, p, q] := by
  rw [generalChem_get nao nmo eri c p q r s hp hq hr hs, generalChem_get nao nmo eri c r s p q hr hs hp hq]
  rw [transformERI_swap nao eri _ (fun x m p => ([c, c, c, c].getD x ⟨[], []⟩).get [m, p]) hsym rfl rfl rfl rfl p q r s,
    transformERI_swap nao eri _ (fun x m p => ([c, c, c, c].getD x ⟨[], []⟩).get [nao + m, p]) hsym rfl rfl rfl rfl p q r s,
    transformERI_swap nao eri _ (fun x => if x < 2 then fun m p => ([c, c, c, c].getD x ⟨[], []⟩).get [nao + m, p]
          else fun m p => ([c, c, c, c].getD x ⟨[], []⟩).get [m, p]) hsym rfl rfl rfl rfl p q r s,
    transformERI_swap nao eri _ (fun x => if x < 2 then fun m p => ([c, c, c, c].getD x ⟨[], []⟩).get [m, p]
          else fun m p => ([c, c, c, c].getD x ⟨[], []⟩).get [nao + m, p]) hsym rfl rfl rfl rfl p q r s]
  ring

theorem sliceBound_le (n : Nat) (i : Int) : sliceBound n i ≤ n := by
  unfold sliceBound
  split <;> omega

/-- An element of a block of an array with four equal axes. -/
theorem npSlices4 (x y : NDArray R) (n : Nat) (hs : x.shape = [n, n, n, n]) (a b c d : Int × Int)
    (h : npSlices x [a, b, c, d] = .ok y) :
    y.shape = [(sliceExtent n a).2, (sliceExtent n b).2, (sliceExtent n c).2, (sliceExtent n d).2] ∧
    ∀ p q r s, p < (sliceExtent n a).2 → q < (sliceExtent n b).2 → r < (sliceExtent n c).2 → s < (sliceExtent n d).2 →
      y.get [p, q, r, s]
        = x.get [(sliceExtent n a).1 + p, (sliceExtent n b).1 + q, (sliceExtent n c).1 + r, (sliceExtent n d).1 + s] := by
  unfold npSlices at h
  rw [if_pos (by simp [hs])] at h
  simp only [hs] at h
  cases h
  refine ⟨rfl, fun p q r s hp hq hr ht => ?_⟩
  rw [NDArray.get_ofFn _ _ (by
    change InBox [(sliceExtent n a).2, (sliceExtent n b).2, (sliceExtent n c).2, (sliceExtent n d).2] [p, q, r, s]
    exact inBox4.2 ⟨hp, hq, hr, ht⟩)]
  rfl

theorem sliceExtent_lt (n : Nat) (a : Int × Int) {p : Nat} (h : p < (sliceExtent n a).2) : (sliceExtent n a).1 + p < n := by
  have := sliceBound_le n a.2
  unfold sliceExtent at h ⊢
  simp only at h ⊢
  omega

theorem getSlices4 (s : Space) (a b c d : Char) (l : List (Int × Int)) (h : getSlices [s, s, s, s] [a, b, c, d] = .ok l) :
    ∃ x y z w, s.slice a = .ok x ∧ s.slice b = .ok y ∧ s.slice c = .ok z ∧ s.slice d = .ok w ∧ l = [x, y, z, w] := by
  simp only [getSlices, List.zip_cons_cons, List.zip_nil_right, List.mapM_cons, List.mapM_nil, bind, Except.bind, pure,
    Except.pure] at h
  cases ha : s.slice a with
  | error e => rw [ha] at h; cases h
  | ok x =>
    cases hb : s.slice b with
    | error e => rw [ha, hb] at h; cases h
    | ok y =>
      cases hc : s.slice c with
      | error e => rw [ha, hb, hc] at h; cases h
      | ok z =>
        cases hd : s.slice d with
        | error e => rw [ha, hb, hc, hd] at h; cases h
        | ok w =>
          rw [ha, hb, hc, hd] at h
          cases h
          exact ⟨x, y, z, w, rfl, rfl, rfl, rfl, rfl⟩

theorem geriRead4 {array : NDArray R} {s : Space} {a b c d : Char} {x : NDArray R}
    (h : geriRead array [s, s, s, s] [a, b, c, d] = .ok x) :
    ∃ sa sb sc sd, s.slice a = .ok sa ∧ s.slice b = .ok sb ∧ s.slice c = .ok sc ∧ s.slice d = .ok sd ∧
      npSlices array [sa, sb, sc, sd] = .ok x := by
  unfold geriRead at h
  split at h
  · cases h
  · simp only [bind, Except.bind] at h
    cases hl : getSlices [s, s, s, s] [a, b, c, d] with
    | error e => rw [hl] at h; cases h
    | ok l =>
      rw [hl] at h
      obtain ⟨x, y, z, w, h1, h2, h3, h4, rfl⟩ := getSlices4 s a b c d l hl
      exact ⟨x, y, z, w, h1, h2, h3, h4, h⟩

/-- The blocks of the container: exchanging the last two characters of the key and the last two indices changes the
sign; so does exchanging the first two, if the integrals over the atomic basis do not change on exchange of the
pairs. -/
theorem C54_blocks (nao : Nat) (eri : Nat → Nat → Nat → Nat → R) (mo array : NDArray R) (s : Space)
    (ha : geriArray nao eri [mo, mo, mo, mo] = .ok array) (a b c d : Char) (x : NDArray R)
    (hx : geriRead array [s, s, s, s] [a, b, c, d] = .ok x) :
    (∀ y, geriRead array [s, s, s, s] [a, b, d, c] = .ok y → ∀ p q r t, InBox x.shape [p, q, r, t] →
      x.get [p, q, r, t] = -y.get [p, q, t, r]) ∧
    ((∀ m n l k, eri m n l k = eri l k m n) →
      ∀ y, geriRead array [s, s, s, s] [b, a, c, d] = .ok y → ∀ p q r t, InBox x.shape [p, q, r, t] →
      x.get [p, q, r, t] = -y.get [q, p, r, t]) := by
  unfold geriArray at ha
  simp only at ha
  split at ha
  · cases ha
    obtain ⟨sa, sb, sc, sd, h1, h2, h3, h4, h5⟩ := geriRead4 hx
    obtain ⟨hsx, hgx⟩ := npSlices4 _ x _ rfl _ _ _ _ h5
    constructor
    · intro y hy p q r t hb
      obtain ⟨ta, tb, td, tc, k1, k2, k3, k4, k5⟩ := geriRead4 hy
      rw [h1] at k1; cases k1
      rw [h2] at k2; cases k2
      rw [h4] at k3; cases k3
      rw [h3] at k4; cases k4
      obtain ⟨hsy, hgy⟩ := npSlices4 _ y _ rfl _ _ _ _ k5
      rw [hsx, inBox4] at hb
      obtain ⟨b1, b2, b3, b4⟩ := hb
      rw [hgx p q r t b1 b2 b3 b4, hgy p q t r b1 b2 b4 b3]
      exact C54_last_pair _ _ _ _ _ _ rfl (sliceExtent_lt _ _ b1) (sliceExtent_lt _ _ b2) (sliceExtent_lt _ _ b3)
        (sliceExtent_lt _ _ b4)
    · intro hsym y hy p q r t hb
      obtain ⟨tb, ta, tc, td, k1, k2, k3, k4, k5⟩ := geriRead4 hy
      rw [h2] at k1; cases k1
      rw [h1] at k2; cases k2
      rw [h3] at k3; cases k3
      rw [h4] at k4; cases k4
      obtain ⟨hsy, hgy⟩ := npSlices4 _ y _ rfl _ _ _ _ k5
      rw [hsx, inBox4] at hb
      obtain ⟨b1, b2, b3, b4⟩ := hb
      rw [hgx p q r t b1 b2 b3 b4, hgy q p r t b2 b1 b3 b4]
      exact C54_first_pair _ _ _ _ _ _ rfl
        (fun a b c d ha hb hc hd => generalChem_swap nao _ eri mo hsym a b c d ha hb hc hd)
        (sliceExtent_lt _ _ b1) (sliceExtent_lt _ _ b2) (sliceExtent_lt _ _ b3) (sliceExtent_lt _ _ b4)
  · cases ha

end

/-- Integrals over one atomic function, with four orbitals. -/
def eri54 : Nat → Nat → Nat → Nat → Int := fun _ _ _ _ => 2

def mo54 : NDArray Int := ⟨[2, 4], [1, 0, 2, 0, 0, 1, 0, 3]⟩

def space54 : Space := ⟨[true, true, false, false], List.replicate 4 false, List.replicate 4 false⟩

def array54 : NDArray Int := (geriArray 1 eri54 [mo54, mo54, mo54, mo54]).toOption.getD ⟨[], []⟩

/-- A block with elements of both signs. -/
example : (geriRead array54 [space54, space54, space54, space54] "oovv".toList).toOption.map NDArray.data
    = some [0, 0, 0, 0, 0, 12, -12, 0, 0, -12, 12, 0, 0, 0, 0, 0] := by decide +kernel

/-- Integrals without the exchange symmetry give blocks that are not antisymmetric in the first two indices. -/
example : ∃ chem : NDArray Int, chem.shape = [2, 2, 2, 2] ∧
    (antisymERI chem).get [0, 1, 0, 1] ≠ -(antisymERI chem).get [1, 0, 0, 1] :=
  ⟨NDArray.ofFn [2, 2, 2, 2] fun idx => if idx = [0, 0, 1, 1] then 1 else 0, rfl, by decide +kernel⟩

end Ebcc
