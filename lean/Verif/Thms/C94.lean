import Verif.Thms.C66
import Verif.Lemmas.AxSum
/-!
C94: integrals of rotated orbitals.  If the orbitals of each class are rotated among themselves, the blocks which the
containers return are the rotated ones, in the sense of C93.
-/

namespace Ebcc

section
variable {R : Type} [CommRing R]

/-- `pyscf.ao2mo.incore.general` with the reshape of eris.py:48 (external): the integrals over the orbitals with the
given coefficients. -/
def ao2mo94 (nao : Nat) (eri : Nat → Nat → Nat → Nat → R) : List (NDArray R) → Except PyErr (NDArray R)
  | [c0, c1, c2, c3] => .ok (NDArray.ofFn [c0.shape.getD 1 0, c1.shape.getD 1 0, c2.shape.getD 1 0, c3.shape.getD 1 0]
      fun idx => transformERI nao eri (fun x m p => ([c0, c1, c2, c3].getD x ⟨[], []⟩).get [m, p]) (idx.getD 0 0)
        (idx.getD 1 0) (idx.getD 2 0) (idx.getD 3 0))
  | _ => .error .valueError

/-- The coefficients `C'` are those of orbitals rotated by `U`. -/
def RotatedCoeffs94 (nao nmo : Nat) (U : Nat → Nat → R) (C C' : NDArray R) : Prop :=
  ∀ m < nao, ∀ p < nmo, C'.get [m, p] = ((List.range nmo).map fun q => U p q * C.get [m, q]).sum

/-- The code `n` stands for the class `k`: `sz n` is the number of its orbitals, `U` does not mix them with others, and
within the class it is the matrix `M n`. -/
def IsClass94 (s : Space) (U : Nat → Nat → R) (sz : Nat → Nat) (M : Nat → Nat → Nat → R) (k : Char) (n : Nat) : Prop :=
  k ≠ 'p' ∧ ∃ mask, s.mask k = .ok mask ∧ sz n = (orbitals66 mask).length ∧
    (∀ p ∈ orbitals66 mask, ∀ q < s.nmo, q ∉ orbitals66 mask → U p q = 0) ∧
    ∀ i < sz n, ∀ j < sz n, M n i j = U ((orbitals66 mask).getD i 0) ((orbitals66 mask).getD j 0)

theorem sum_filter94 (l : List Nat) (P : Nat → Bool) (f : Nat → R) (h : ∀ q ∈ l, P q = false → f q = 0) :
    (l.map f).sum = ((l.filter P).map f).sum := by
  induction l with
  | nil => rfl
  | cons a l ih =>
    have ih' := ih fun q hq => h q (List.mem_cons_of_mem _ hq)
    cases hP : P a with
    | true => simp [hP, ih']
    | false => simp [hP, ih', h a (List.mem_cons_self ..) hP]

omit [CommRing R] in
theorem map_getD94 (l : List Nat) (f : Nat → R) : ((List.range l.length).map fun j => f (l.getD j 0)) = l.map f := by
  apply List.ext_getElem
  · simp
  · intro k h1 h2
    simp at h1
    simp [h1]

/-- The coefficients of a class are rotated among themselves. -/
theorem coeff94 {nao : Nat} {s : Space} {U : Nat → Nat → R} {C C' c c' : NDArray R} {sz : Nat → Nat}
    {M : Nat → Nat → Nat → R} {k : Char} {n : Nat} (hs : Made66 s) (hr : RotatedCoeffs94 nao s.nmo U C C')
    (hk : IsClass94 s U sz M k n) (hc : IsCoeff66 nao s C k c) (hc' : IsCoeff66 nao s C' k c') :
    c.shape = [nao, sz n] ∧ c'.shape = [nao, sz n] ∧ ∀ m < nao, ∀ i < sz n,
      c'.get [m, i] = ((List.range (sz n)).map fun j => M n i j * c.get [m, j]).sum := by
  obtain ⟨hp, mask, k1, k2, k3, k4⟩ := hk
  obtain ⟨mk, a1, a2, a3⟩ := hc.2.2 hp
  obtain ⟨mk', b1, b2, b3⟩ := hc'.2.2 hp
  rw [k1] at a1 b1
  cases a1
  cases b1
  refine ⟨by rw [a2, k2], by rw [b2, k2], fun m hm i hi => ?_⟩
  rw [k2] at hi
  have hmem : (orbitals66 mask).getD i 0 ∈ orbitals66 mask := by
    rw [getD_eq _ _ _ hi]
    exact List.getElem_mem hi
  rw [b3 m hm i hi, hr m hm _ (orbital_lt66 hs k1 hi)]
  have hlen : mask.length = s.nmo := by
    obtain ⟨o, f, a, hs⟩ := hs
    exact mask_length hs k1
  rw [sum_filter94 (List.range s.nmo) (inMask mask) _ fun q hq hqm => by
    rw [k3 _ hmem q (List.mem_range.1 hq) (fun h => by
      rw [(List.mem_filter.1 h).2] at hqm; cases hqm)]
    exact zero_mul _]
  rw [show (List.range s.nmo).filter (inMask mask) = orbitals66 mask by rw [orbitals66, hlen], ← map_getD94, k2]
  congr 1
  apply List.map_congr_left
  intro j hj
  rw [List.mem_range] at hj
  rw [k4 i (by rw [k2]; exact hi) j (by rw [k2]; exact hj), a3 m hm j hj]

/-- The transformation as sums over the axes. -/
theorem transformERI_axSum94 (nao : Nat) (eri : Nat → Nat → Nat → Nat → R) (c : Nat → Nat → Nat → R) (p q r s : Nat) :
    transformERI nao eri c p q r s = axSum ([0, 1, 2, 3].map fun x => (nao, fun i m => c x m i)) [p, q, r, s]
      fun ms => eri (ms.getD 0 0) (ms.getD 1 0) (ms.getD 2 0) (ms.getD 3 0) := by
  simp only [transformERI, List.map_cons, List.map_nil, axSum, ← List.sum_map_mul_left, List.getD_cons_zero,
    List.getD_cons_succ]
  congr 1
  apply List.map_congr_left
  intro _ _
  congr 1
  apply List.map_congr_left
  intro _ _
  congr 1
  apply List.map_congr_left
  intro _ _
  congr 1
  apply List.map_congr_left
  intro _ _
  ring

/-- Sums with coefficients of rotated orbitals. -/
theorem axSum_coeffs94 (nao : Nat) (sz : Nat → Nat) (M : Nat → Nat → Nat → R) (sp : List Nat)
    (cs cs' : List (Nat → Nat → R)) (hl : cs.length = sp.length) (hl' : cs'.length = sp.length)
    (h : ∀ k < sp.length, ∀ m < nao, ∀ i < sz (sp.getD k 0), (cs'.getD k fun _ _ => 0) i m =
      ((List.range (sz (sp.getD k 0))).map fun j => M (sp.getD k 0) i j * (cs.getD k fun _ _ => 0) j m).sum)
    (T : List Nat → R) (idx : List Nat) (hi : InBox (sp.map sz) idx) :
    axSum (cs'.map fun c => (nao, c)) idx T = rotSum sz M sp idx fun js => axSum (cs.map fun c => (nao, c)) js T := by
  have hil : idx.length = sp.length := by simpa using InBox.length_eq hi
  rw [rotSum_axSum, axSum_comp _ _ (by simp [hl]) _ (by simpa using hil)]
  apply axSum_congr _ (by simp [hil, hl'])
  unfold InBox at hi
  clear hil
  induction sp generalizing cs cs' idx with
  | nil =>
    cases hi
    simp at hl hl'
    subst hl
    subst hl'
    exact .nil
  | cons s sp ih =>
    cases cs with
    | nil => simp at hl
    | cons c cs => cases cs' with
      | nil => simp at hl'
      | cons c' cs' =>
        cases hi with
        | cons h1 h2 =>
          refine .cons ⟨rfl, fun m hm => ?_⟩
            (ih cs cs' (by simpa using hl) (by simpa using hl') (fun k hk => by simpa using h (k + 1) (by simpa using hk)) _ h2)
          exact h 0 (by simp) m hm _ h1

theorem rotSum_congr94 (sz : Nat → Nat) (M : Nat → Nat → Nat → R) (sp idx : List Nat) (hl : idx.length = sp.length)
    {F G : List Nat → R} (h : ∀ js, InBox (sp.map sz) js → F js = G js) :
    rotSum sz M sp idx F = rotSum sz M sp idx G := by
  induction sp generalizing idx F G with
  | nil => cases idx with
    | nil => exact h [] .nil
    | cons _ _ => simp at hl
  | cons s sp ih => cases idx with
    | nil => simp at hl
    | cons i idx =>
      simp only [rotSum]
      congr 1
      apply List.map_congr_left
      intro j hj
      rw [ih idx (by simpa using hl) fun js hjs => h (j :: js) (.cons (List.mem_range.1 hj) hjs)]

/-- An array of sums with coefficients, and the one with coefficients of rotated orbitals. -/
theorem rotated_of_coeffs94 (nao : Nat) (sz : Nat → Nat) (M : Nat → Nat → Nat → R) (sp : List Nat)
    (cs cs' : List (Nat → Nat → R)) (hl : cs.length = sp.length) (hl' : cs'.length = sp.length)
    (h : ∀ k < sp.length, ∀ m < nao, ∀ i < sz (sp.getD k 0), (cs'.getD k fun _ _ => 0) i m =
      ((List.range (sz (sp.getD k 0))).map fun j => M (sp.getD k 0) i j * (cs.getD k fun _ _ => 0) j m).sum)
    (T : List Nat → R) (F F' : List Nat → R)
    (hF : ∀ idx, idx.length = sp.length → F idx = axSum (cs.map fun c => (nao, c)) idx T)
    (hF' : ∀ idx, idx.length = sp.length → F' idx = axSum (cs'.map fun c => (nao, c)) idx T) :
    NDArray.ofFn (sp.map sz) F' = rotated sz M sp (NDArray.ofFn (sp.map sz) F) := by
  refine NDArray.ext_get (NDArray.ofFn_wf _ _) (NDArray.ofFn_wf _ _) rfl fun idx hidx => ?_
  have hidx' : InBox (sp.map sz) idx := hidx
  have hil : idx.length = sp.length := by simpa using InBox.length_eq hidx'
  rw [NDArray.get_ofFn _ _ hidx', rotated, NDArray.get_ofFn _ _ hidx', hF' idx hil,
    axSum_coeffs94 nao sz M sp cs cs' hl hl' h T idx hidx']
  apply rotSum_congr94 _ _ _ _ hil
  intro js hjs
  rw [NDArray.get_ofFn _ _ hjs, hF js (by simpa using InBox.length_eq hjs)]

theorem getCoeff_total94 {nao : Nat} {spaces : List Space} {coeffs coeffs' : List (NDArray R)} {i : Nat} {k : Char}
    {s : Space} {C C' c : NDArray R} (hs : spaces[i]? = some s) (hC : coeffs[i]? = some C) (hC' : coeffs'[i]? = some C')
    (hf' : Fits66 nao s C') (h : getCoeff spaces coeffs i k = .ok c) :
    ∃ c', getCoeff spaces coeffs' i k = .ok c' := by
  unfold getCoeff at h ⊢
  rw [hC, hs] at h
  rw [hC', hs]
  simp only at h ⊢
  split
  · exact ⟨_, rfl⟩
  · rename_i hk
    rw [if_neg hk] at h
    simp only [bind, Except.bind] at h ⊢
    cases hsl : s.slice k with
    | error e => rw [hsl] at h; cases h
    | ok ab =>
      simp only
      rw [npSlices_full66 _ _ (by simp [hf'.2])]
      exact ⟨_, rfl⟩

/-- C94, Fock matrix: the block of rotated orbitals is the rotated block. -/
theorem C94_fock (nao : Nat) (fock : NDArray R) (hF : fock.shape = [nao, nao]) (s : Space) (U : Nat → Nat → R)
    (C C' : NDArray R) (hf : Fits66 nao s C) (hf' : Fits66 nao s C') (hr : RotatedCoeffs94 nao s.nmo U C C')
    (sz : Nat → Nat) (M : Nat → Nat → Nat → R) (a b : Char) (na nb : Nat) (ha : IsClass94 s U sz M a na)
    (hb : IsClass94 s U sz M b nb) (x : NDArray R) (h : fockBlock fock [s, s] [C, C] [a, b] = .ok x) :
    x.shape = [na, nb].map sz ∧ fockBlock fock [s, s] [C', C'] [a, b] = .ok (rotated sz M [na, nb] x) := by
  unfold fockBlock getCoeffs at h ⊢
  simp only [List.zipIdx_cons, List.zipIdx_nil, List.mapM_cons, List.mapM_nil, Nat.zero_add, Nat.add_zero] at h ⊢
  cases h0 : getCoeff [s, s] [C, C] 0 a with
  | error e => rw [h0] at h; cases h
  | ok c0 =>
  cases h1 : getCoeff [s, s] [C, C] 1 b with
  | error e => rw [h0, h1] at h; cases h
  | ok c1 =>
  obtain ⟨d0, g0⟩ := getCoeff_total94 (coeffs' := [C', C']) rfl rfl rfl hf' h0
  obtain ⟨d1, g1⟩ := getCoeff_total94 (coeffs' := [C', C']) rfl rfl rfl hf' h1
  rw [h0, h1] at h
  rw [g0, g1]
  obtain ⟨p1, p2, p3⟩ := coeff94 hf.1 hr ha (getCoeff_ok66 rfl rfl hf h0) (getCoeff_ok66 rfl rfl hf' g0)
  obtain ⟨q1, q2, q3⟩ := coeff94 hf.1 hr hb (getCoeff_ok66 rfl rfl hf h1) (getCoeff_ok66 rfl rfl hf' g1)
  cases h
  have e1 : ∀ (c d : NDArray R) (idx : List Nat), idx.length = 2 →
      ((List.range nao).map fun p => ((List.range nao).map fun q =>
        fock.get [p, q] * c.get [p, idx.getD 0 0] * d.get [q, idx.getD 1 0]).sum).sum =
      axSum ([fun i m => c.get [m, i], fun i m => d.get [m, i]].map fun c => (nao, c)) idx fock.get := by
    intro c d idx hl
    match idx, hl with
    | [i, j], _ =>
      simp only [List.map_cons, List.map_nil, axSum, ← List.sum_map_mul_left, List.getD_cons_zero, List.getD_cons_succ]
      congr 1
      apply List.map_congr_left
      intro _ _
      congr 1
      apply List.map_congr_left
      intro _ _
      ring
  rw [show c0.shape.getD 1 0 = sz na by rw [p1]; rfl, show c1.shape.getD 1 0 = sz nb by rw [q1]; rfl]
  simp only [pure, Except.pure, bind, Except.bind]
  rw [show d0.shape.getD 1 0 = sz na by rw [p2]; rfl, show d1.shape.getD 1 0 = sz nb by rw [q2]; rfl]
  rw [show fock.shape.getD 0 0 = nao by rw [hF]; rfl, show fock.shape.getD 1 0 = nao by rw [hF]; rfl]
  refine ⟨rfl, congrArg Except.ok ?_⟩
  refine rotated_of_coeffs94 nao sz M [na, nb] _ _ rfl rfl ?_ fock.get _ _ (e1 c0 c1) (e1 d0 d1)
  intro k hk m hm i hi
  match k, hk with
  | 0, _ => exact p3 m hm i hi
  | 1, _ => exact q3 m hm i hi

/-- C94, two-electron integrals of the restricted class (and each set of spins of the unrestricted class, with the
spaces and rotations of the spins): the block of rotated orbitals is the rotated block. -/
theorem C94_eris (nao : Nat) (eri : Nat → Nat → Nat → Nat → R) (s s' : Space) (U U' : Nat → Nat → R)
    (A A' B B' : NDArray R) (hf : Fits66 nao s A) (hf' : Fits66 nao s A') (hr : RotatedCoeffs94 nao s.nmo U A A')
    (kf : Fits66 nao s' B) (kf' : Fits66 nao s' B') (kr : RotatedCoeffs94 nao s'.nmo U' B B')
    (sz : Nat → Nat) (M : Nat → Nat → Nat → R) (a b c d : Char) (na nb nc nd : Nat) (ha : IsClass94 s U sz M a na)
    (hb : IsClass94 s U sz M b nb) (hc : IsClass94 s' U' sz M c nc) (hd : IsClass94 s' U' sz M d nd) (x : NDArray R)
    (h : eriBlock (ao2mo94 nao eri) [s, s, s', s'] [A, A, B, B] [a, b, c, d] = .ok x) :
    x.shape = [na, nb, nc, nd].map sz ∧
      eriBlock (ao2mo94 nao eri) [s, s, s', s'] [A', A', B', B'] [a, b, c, d] = .ok (rotated sz M [na, nb, nc, nd] x) := by
  unfold eriBlock getCoeffs at h ⊢
  simp only [List.zipIdx_cons, List.zipIdx_nil, List.mapM_cons, List.mapM_nil, Nat.zero_add, Nat.add_zero, Nat.reduceAdd]
    at h ⊢
  cases h0 : getCoeff [s, s, s', s'] [A, A, B, B] 0 a with
  | error e => rw [h0] at h; cases h
  | ok c0 =>
  cases h1 : getCoeff [s, s, s', s'] [A, A, B, B] 1 b with
  | error e => rw [h0, h1] at h; cases h
  | ok c1 =>
  cases h2 : getCoeff [s, s, s', s'] [A, A, B, B] 2 c with
  | error e => rw [h0, h1, h2] at h; cases h
  | ok c2 =>
  cases h3 : getCoeff [s, s, s', s'] [A, A, B, B] 3 d with
  | error e => rw [h0, h1, h2, h3] at h; cases h
  | ok c3 =>
  obtain ⟨d0, g0⟩ := getCoeff_total94 (coeffs' := [A', A', B', B']) rfl rfl rfl hf' h0
  obtain ⟨d1, g1⟩ := getCoeff_total94 (coeffs' := [A', A', B', B']) rfl rfl rfl hf' h1
  obtain ⟨d2, g2⟩ := getCoeff_total94 (coeffs' := [A', A', B', B']) rfl rfl rfl kf' h2
  obtain ⟨d3, g3⟩ := getCoeff_total94 (coeffs' := [A', A', B', B']) rfl rfl rfl kf' h3
  rw [h0, h1, h2, h3] at h
  rw [g0, g1, g2, g3]
  obtain ⟨o1, o2, o3⟩ := coeff94 hf.1 hr ha (getCoeff_ok66 rfl rfl hf h0) (getCoeff_ok66 rfl rfl hf' g0)
  obtain ⟨p1, p2, p3⟩ := coeff94 hf.1 hr hb (getCoeff_ok66 rfl rfl hf h1) (getCoeff_ok66 rfl rfl hf' g1)
  obtain ⟨q1, q2, q3⟩ := coeff94 kf.1 kr hc (getCoeff_ok66 rfl rfl kf h2) (getCoeff_ok66 rfl rfl kf' g2)
  obtain ⟨r1, r2, r3⟩ := coeff94 kf.1 kr hd (getCoeff_ok66 rfl rfl kf h3) (getCoeff_ok66 rfl rfl kf' g3)
  cases h
  simp only [pure, Except.pure, bind, Except.bind, ao2mo94]
  rw [o1, o2, p1, p2, q1, q2, r1, r2]
  refine ⟨rfl, congrArg Except.ok ?_⟩
  refine rotated_of_coeffs94 nao sz M [na, nb, nc, nd]
    [fun i m => c0.get [m, i], fun i m => c1.get [m, i], fun i m => c2.get [m, i], fun i m => c3.get [m, i]]
    [fun i m => d0.get [m, i], fun i m => d1.get [m, i], fun i m => d2.get [m, i], fun i m => d3.get [m, i]] rfl rfl ?_
    (fun ms => eri (ms.getD 0 0) (ms.getD 1 0) (ms.getD 2 0) (ms.getD 3 0)) _ _ ?_ ?_
  · intro k hk m hm i hi
    match k, hk with
    | 0, _ => exact o3 m hm i hi
    | 1, _ => exact p3 m hm i hi
    | 2, _ => exact q3 m hm i hi
    | 3, _ => exact r3 m hm i hi
  · intro idx hl
    match idx, hl with
    | [i, j, k, l], _ => exact transformERI_axSum94 _ _ _ _ _ _ _
  · intro idx hl
    match idx, hl with
    | [i, j, k, l], _ => exact transformERI_axSum94 _ _ _ _ _ _ _

/-- An axis that is not rotated. -/
theorem rotSum_first94 (sz : Nat → Nat) (M : Nat → Nat → Nat → R) (n : Nat) (sp : List Nat) (i : Nat) (idx : List Nat)
    (hM : ∀ i < sz n, ∀ j < sz n, M n i j = if i = j then 1 else 0) (hi : i < sz n) (F : List Nat → R) :
    rotSum sz M (n :: sp) (i :: idx) F = rotSum sz M sp idx fun js => F (i :: js) := by
  rw [rotSum, sum_range_eq_finset, Finset.sum_eq_single i]
  · rw [hM i hi i hi, if_pos rfl, one_mul]
  · intro j hj hne
    rw [hM i hi j (Finset.mem_range.1 hj), if_neg hne.symm, zero_mul]
  · intro h
    exact absurd (Finset.mem_range.2 hi) h

/-- C94, density fitted integrals; the auxiliary functions, with the code `nq`, are not rotated. -/
theorem C94_cderis (nao naux : Nat) (cderi : NDArray R) (hq : cderi.shape.getD 0 0 = naux) (s : Space) (U : Nat → Nat → R)
    (C C' : NDArray R) (hf : Fits66 nao s C) (hf' : Fits66 nao s C') (hr : RotatedCoeffs94 nao s.nmo U C C')
    (sz : Nat → Nat) (M : Nat → Nat → Nat → R) (a b : Char) (nq na nb : Nat) (ha : IsClass94 s U sz M a na)
    (hb : IsClass94 s U sz M b nb) (hn : sz nq = naux) (hM : ∀ i < naux, ∀ j < naux, M nq i j = if i = j then 1 else 0)
    (x : NDArray R) (h : cderiBlock (nrE2Packed nao cderi) [s, s] [C, C] false [a, b] = .ok x) :
    x.shape = [nq, na, nb].map sz ∧
      cderiBlock (nrE2Packed nao cderi) [s, s] [C', C'] false [a, b] = .ok (rotated sz M [nq, na, nb] x) := by
  unfold cderiBlock getCoeffs at h ⊢
  simp only [List.zipIdx_cons, List.zipIdx_nil, List.mapM_cons, List.mapM_nil, Nat.zero_add, Nat.add_zero, Bool.false_eq_true,
    if_false] at h ⊢
  cases h0 : getCoeff [s, s] [C, C] 0 a with
  | error e => rw [h0] at h; cases h
  | ok c0 =>
  cases h1 : getCoeff [s, s] [C, C] 1 b with
  | error e => rw [h0, h1] at h; cases h
  | ok c1 =>
  obtain ⟨d0, g0⟩ := getCoeff_total94 (coeffs' := [C', C']) rfl rfl rfl hf' h0
  obtain ⟨d1, g1⟩ := getCoeff_total94 (coeffs' := [C', C']) rfl rfl rfl hf' h1
  rw [h0, h1] at h
  rw [g0, g1]
  obtain ⟨p1, p2, p3⟩ := coeff94 hf.1 hr ha (getCoeff_ok66 rfl rfl hf h0) (getCoeff_ok66 rfl rfl hf' g0)
  obtain ⟨q1, q2, q3⟩ := coeff94 hf.1 hr hb (getCoeff_ok66 rfl rfl hf h1) (getCoeff_ok66 rfl rfl hf' g1)
  cases h
  simp only [pure, Except.pure, bind, Except.bind, nrE2Packed]
  rw [p1, p2, q1, q2, hq, ← hn]
  rw [show [sz nq, [nao, sz na].getD 1 0, [nao, sz nb].getD 1 0] = [nq, na, nb].map sz from rfl]
  refine ⟨rfl, congrArg Except.ok ?_⟩
  refine NDArray.ext_get (NDArray.ofFn_wf _ _) (NDArray.ofFn_wf _ _) rfl fun idx hidx => ?_
  have e1 : ∀ (c d : NDArray R) (Q i j : Nat),
      ((List.range nao).map fun m => ((List.range nao).map fun n =>
        cderi.get [Q, trilPos m n] * (c.get [m, i] * d.get [n, j])).sum).sum =
      axSum ([fun i m => c.get [m, i], fun i m => d.get [m, i]].map fun c => (nao, c)) [i, j]
        fun ms => cderi.get [Q, trilPos (ms.getD 0 0) (ms.getD 1 0)] := by
    intro c d Q i j
    simp only [List.map_cons, List.map_nil, axSum, ← List.sum_map_mul_left, List.getD_cons_zero, List.getD_cons_succ]
    congr 1
    apply List.map_congr_left
    intro _ _
    congr 1
    apply List.map_congr_left
    intro _ _
    ring
  have hidx' : InBox ([nq, na, nb].map sz) idx := hidx
  rw [NDArray.get_ofFn _ _ hidx', rotated, NDArray.get_ofFn _ _ hidx']
  match idx, hidx' with
  | [Q, i, j], .cons hQ hij =>
    simp only [List.getD_cons_zero, List.getD_cons_succ]
    rw [e1, axSum_coeffs94 nao sz M [na, nb] [fun i m => c0.get [m, i], fun i m => c1.get [m, i]]
      [fun i m => d0.get [m, i], fun i m => d1.get [m, i]] rfl rfl
      (fun k hk m hm i hi => match k, hk with
        | 0, _ => p3 m hm i hi
        | 1, _ => q3 m hm i hi) _ [i, j] hij]
    rw [rotSum_first94 sz M nq [na, nb] Q [i, j] (hn ▸ hM) hQ]
    apply rotSum_congr94 sz M [na, nb] [i, j] rfl
    intro js hjs
    rw [NDArray.get_ofFn _ _ (show InBox ([nq, na, nb].map sz) (Q :: js) from .cons hQ hjs)]
    match js, hjs with
    | [k, l], _ => exact (e1 c0 c1 Q k l).symm

/-- The coefficients of the orbitals of a class are rotated among themselves. -/
theorem column94 {N : Nat} {s : Space} {U : Nat → Nat → R} {C C' : NDArray R} {sz : Nat → Nat} {M : Nat → Nat → Nat → R}
    {k : Char} {n : Nat} {mask : List Bool} (hs : Made66 s) (hr : RotatedCoeffs94 N s.nmo U C C')
    (hk : IsClass94 s U sz M k n) (hm : s.mask k = .ok mask) :
    sz n = (orbitals66 mask).length ∧ ∀ m < N, ∀ i < sz n, C'.get [m, (orbitals66 mask).getD i 0] =
      ((List.range (sz n)).map fun j => M n i j * C.get [m, (orbitals66 mask).getD j 0]).sum := by
  have hk' := hk
  obtain ⟨hp, mask', k1, k2, _⟩ := hk'
  rw [hm] at k1
  cases k1
  have hc : ∀ D : NDArray R, IsCoeff66 N s D k (NDArray.ofFn [N, (orbitals66 mask).length] fun idx =>
      D.get [idx.getD 0 0, (orbitals66 mask).getD (idx.getD 1 0) 0]) := fun D =>
    ⟨NDArray.ofFn_wf _ _, fun h => absurd h hp, fun _ => ⟨mask, hm, rfl, fun m hm p hp => by
      rw [NDArray.get_ofFn _ _ (inBox266.2 ⟨hm, hp⟩)]; rfl⟩⟩
  obtain ⟨_, _, h3⟩ := coeff94 hs hr hk (hc C) (hc C')
  refine ⟨k2, fun m hm i hi => ?_⟩
  have e := h3 m hm i hi
  rw [NDArray.get_ofFn _ _ (inBox266.2 ⟨hm, k2 ▸ hi⟩)] at e
  refine Eq.trans e ?_
  congr 1
  apply List.map_congr_left
  intro j hj
  rw [NDArray.get_ofFn _ _ (inBox266.2 ⟨hm, k2 ▸ List.mem_range.1 hj⟩)]
  rfl

/-- The sum for the spins given by `σ` and `τ`, in the order of the axes. -/
theorem direct_axSum94 (nao : Nat) (eri : Nat → Nat → Nat → Nat → R) (f g h k : Nat → Nat → R) (p q r t : Nat) :
    ((List.range nao).map fun m => ((List.range nao).map fun n => ((List.range nao).map fun l =>
      ((List.range nao).map fun o => eri m n l o * (f p m * h r n) * (g q l * k t o)).sum).sum).sum).sum =
    axSum ([f, g, h, k].map fun c => (nao, c)) [p, q, r, t] fun ms =>
      eri (ms.getD 0 0) (ms.getD 2 0) (ms.getD 1 0) (ms.getD 3 0) := by
  simp only [List.map_cons, List.map_nil, axSum, List.getD_cons_zero, List.getD_cons_succ, sum_range_eq_finset,
    Finset.mul_sum]
  apply Finset.sum_congr rfl
  intro m _
  rw [Finset.sum_comm]
  apply Finset.sum_congr rfl
  intro l _
  apply Finset.sum_congr rfl
  intro n _
  apply Finset.sum_congr rfl
  intro o _
  ring

theorem exchange_axSum94 (nao : Nat) (eri : Nat → Nat → Nat → Nat → R) (f g h k : Nat → Nat → R) (p q r t : Nat) :
    ((List.range nao).map fun m => ((List.range nao).map fun n => ((List.range nao).map fun l =>
      ((List.range nao).map fun o => eri m n l o * (f p m * k t n) * (g q l * h r o)).sum).sum).sum).sum =
    axSum ([f, g, h, k].map fun c => (nao, c)) [p, q, r, t] fun ms =>
      eri (ms.getD 0 0) (ms.getD 3 0) (ms.getD 1 0) (ms.getD 2 0) := by
  simp only [List.map_cons, List.map_nil, axSum, List.getD_cons_zero, List.getD_cons_succ, sum_range_eq_finset,
    Finset.mul_sum]
  apply Finset.sum_congr rfl
  intro m _
  rw [Finset.sum_comm]
  apply Finset.sum_congr rfl
  intro l _
  rw [Finset.sum_comm]
  apply Finset.sum_congr rfl
  intro o _
  apply Finset.sum_congr rfl
  intro n _
  ring

theorem rotSum_add94 (sz : Nat → Nat) (M : Nat → Nat → Nat → R) (sp idx : List Nat) (F G : List Nat → R) :
    rotSum sz M sp idx (fun js => F js + G js) = rotSum sz M sp idx F + rotSum sz M sp idx G := by
  induction sp generalizing idx F G with
  | nil => rfl
  | cons s sp ih => cases idx with
    | nil => rfl
    | cons i idx => simp only [rotSum, ih, mul_add, List.sum_map_add]

theorem rotSum_neg94 (sz : Nat → Nat) (M : Nat → Nat → Nat → R) (sp idx : List Nat) (F : List Nat → R) :
    rotSum sz M sp idx (fun js => - F js) = - rotSum sz M sp idx F := by
  induction sp generalizing idx F with
  | nil => rfl
  | cons s sp ih => cases idx with
    | nil => rfl
    | cons i idx => 
      simp only [rotSum, ih, mul_neg, sum_range_eq_finset, Finset.sum_neg_distrib]

/-- C94, antisymmetrised integrals of the general class; the rows of the coefficients are those of alpha and beta, and the
rotation may mix spins. -/
theorem C94_eris_general (nao : Nat) (eri : Nat → Nat → Nat → Nat → R) (s : Space) (U : Nat → Nat → R) (C C' array array' : NDArray R)
    (hf : Fits66 (2 * nao) s C) (hf' : Fits66 (2 * nao) s C') (hr : RotatedCoeffs94 (2 * nao) s.nmo U C C')
    (hg : geriArray nao eri [C, C, C, C] = .ok array) (hg' : geriArray nao eri [C', C', C', C'] = .ok array')
    (sz : Nat → Nat) (M : Nat → Nat → Nat → R) (a b c d : Char) (na nb nc nd : Nat) (ha : IsClass94 s U sz M a na)
    (hb : IsClass94 s U sz M b nb) (hc : IsClass94 s U sz M c nc) (hd : IsClass94 s U sz M d nd) (x : NDArray R)
    (h : geriRead array [s, s, s, s] [a, b, c, d] = .ok x) :
    x.shape = [na, nb, nc, nd].map sz ∧
      geriRead array' [s, s, s, s] [a, b, c, d] = .ok (rotated sz M [na, nb, nc, nd] x) := by
  have hmo : C.shape.getD 1 0 = s.nmo := by rw [hf.2]; rfl
  have hmo' : C'.shape.getD 1 0 = s.nmo := by rw [hf'.2]; rfl
  have hsh' : array'.shape.length = 4 := by
    unfold geriArray at hg'
    simp only at hg'
    split at hg'
    · cases hg'
      rfl
    · cases hg'
  have hx' : ∃ x', geriRead array' [s, s, s, s] [a, b, c, d] = .ok x' ∧ x'.WF := by
    unfold geriRead at h ⊢
    split at h
    · cases h
    · rename_i hp
      rw [if_neg hp]
      simp only [bind, Except.bind] at h ⊢
      cases hl : getSlices [s, s, s, s] [a, b, c, d] with
      | error e => rw [hl] at h; cases h
      | ok l =>
        obtain ⟨_, _, _, _, _, _, _, _, rfl⟩ := getSlices4 s a b c d l hl
        simp only
        rw [npSlices_full66 _ _ (by simp [hsh'])]
        exact ⟨_, rfl, NDArray.ofFn_wf _ _⟩
  obtain ⟨x', hx', hw'⟩ := hx'
  obtain ⟨ma, mb, mc, md, a1, b1, c1, d1, e1, e2⟩ := C66_eris_general nao eri C array s hf.1 hmo hg a b c d x h
  obtain ⟨ma', mb', mc', md', a1', b1', c1', d1', e1', e2'⟩ := C66_eris_general nao eri C' array' s hf.1 hmo' hg' a b c d x' hx'
  rw [a1] at a1'
  rw [b1] at b1'
  rw [c1] at c1'
  rw [d1] at d1'
  cases a1'
  cases b1'
  cases c1'
  cases d1'
  obtain ⟨a2, a3⟩ := column94 hf.1 hr ha a1
  obtain ⟨b2, b3⟩ := column94 hf.1 hr hb b1
  obtain ⟨c2, c3⟩ := column94 hf.1 hr hc c1
  obtain ⟨d2, d3⟩ := column94 hf.1 hr hd d1
  have hsh : x.shape = [na, nb, nc, nd].map sz := by simp [e1, a2, b2, c2, d2]
  have hshx' : x'.shape = [na, nb, nc, nd].map sz := by simp [e1', a2, b2, c2, d2]
  refine ⟨hsh, hx'.trans (congrArg Except.ok ?_)⟩
  let f : NDArray R → List Bool → Nat → Nat → Nat → R := fun D mask σ i m => D.get [σ + m, (orbitals66 mask).getD i 0]
  let S : NDArray R → Nat → Nat → List Nat → R := fun D σ τ idx =>
    axSum ([f D ma σ, f D mb τ, f D mc σ, f D md τ].map fun c => (nao, c)) idx (fun ms =>
      eri (ms.getD 0 0) (ms.getD 2 0) (ms.getD 1 0) (ms.getD 3 0))
  let X : NDArray R → Nat → Nat → List Nat → R := fun D σ τ idx =>
    axSum ([f D ma σ, f D mb τ, f D mc τ, f D md σ].map fun c => (nao, c)) idx (fun ms =>
      eri (ms.getD 0 0) (ms.getD 3 0) (ms.getD 1 0) (ms.getD 2 0))
  have eS : ∀ (D : NDArray R) (p q r t : Nat),
      spinIntegral66 nao eri D ((orbitals66 ma).getD p 0) ((orbitals66 mc).getD r 0) ((orbitals66 mb).getD q 0)
        ((orbitals66 md).getD t 0) - spinIntegral66 nao eri D ((orbitals66 ma).getD p 0) ((orbitals66 md).getD t 0)
        ((orbitals66 mb).getD q 0) ((orbitals66 mc).getD r 0) =
      S D 0 0 [p, q, r, t] + S D 0 nao [p, q, r, t] + (S D nao 0 [p, q, r, t] + S D nao nao [p, q, r, t]) +
      -(X D 0 0 [p, q, r, t] + X D 0 nao [p, q, r, t] + (X D nao 0 [p, q, r, t] + X D nao nao [p, q, r, t])) := by
    intro D p q r t
    rw [sub_eq_add_neg]
    congr 1
    · have e := fun σ τ => direct_axSum94 nao eri (f D ma σ) (f D mb τ) (f D mc σ) (f D md τ) p q r t
      rw [spinIntegral66]
      simp only [List.map_cons, List.map_nil, List.sum_cons, List.sum_nil, add_zero]
      exact congrArg₂ (· + ·) (congrArg₂ (· + ·) (e 0 0) (e 0 nao)) (congrArg₂ (· + ·) (e nao 0) (e nao nao))
    · have e := fun σ τ => exchange_axSum94 nao eri (f D ma σ) (f D mb τ) (f D mc τ) (f D md σ) p q r t
      rw [spinIntegral66]
      simp only [List.map_cons, List.map_nil, List.sum_cons, List.sum_nil, add_zero]
      exact congrArg Neg.neg (congrArg₂ (· + ·) (congrArg₂ (· + ·) (e 0 0) (e 0 nao)) (congrArg₂ (· + ·) (e nao 0) (e nao nao)))
  have cl : ∀ (k : Char) (n : Nat) (mask : List Bool) (σ : Nat), σ = 0 ∨ σ = nao →
      (∀ m < 2 * nao, ∀ i < sz n, C'.get [m, (orbitals66 mask).getD i 0] =
        ((List.range (sz n)).map fun j => M n i j * C.get [m, (orbitals66 mask).getD j 0]).sum) →
      ∀ m < nao, ∀ i < sz n, f C' mask σ i m = ((List.range (sz n)).map fun j => M n i j * f C mask σ j m).sum :=
    fun k n mask σ hσ h m hm i hi => h (σ + m) (by omega) i hi
  have rS : ∀ σ τ, σ = 0 ∨ σ = nao → τ = 0 ∨ τ = nao → ∀ idx, InBox ([na, nb, nc, nd].map sz) idx →
      S C' σ τ idx = rotSum sz M [na, nb, nc, nd] idx (S C σ τ) := by
    intro σ τ hσ hτ idx hidx
    refine axSum_coeffs94 nao sz M [na, nb, nc, nd] _ _ rfl rfl (fun k hk => ?_) _ idx hidx
    match k, hk with
    | 0, _ => exact cl a na ma σ hσ a3
    | 1, _ => exact cl b nb mb τ hτ b3
    | 2, _ => exact cl c nc mc σ hσ c3
    | 3, _ => exact cl d nd md τ hτ d3
  have rX : ∀ σ τ, σ = 0 ∨ σ = nao → τ = 0 ∨ τ = nao → ∀ idx, InBox ([na, nb, nc, nd].map sz) idx →
      X C' σ τ idx = rotSum sz M [na, nb, nc, nd] idx (X C σ τ) := by
    intro σ τ hσ hτ idx hidx
    refine axSum_coeffs94 nao sz M [na, nb, nc, nd] _ _ rfl rfl (fun k hk => ?_) _ idx hidx
    match k, hk with
    | 0, _ => exact cl a na ma σ hσ a3
    | 1, _ => exact cl b nb mb τ hτ b3
    | 2, _ => exact cl c nc mc τ hτ c3
    | 3, _ => exact cl d nd md σ hσ d3
  refine NDArray.ext_get hw' (NDArray.ofFn_wf _ _) hshx' fun idx hidx => ?_
  have hidx' : InBox ([na, nb, nc, nd].map sz) idx := hshx' ▸ hidx
  rw [rotated, NDArray.get_ofFn _ _ hidx']
  have hil : idx.length = 4 := by simpa using InBox.length_eq hidx'
  rw [rotSum_congr94 sz M [na, nb, nc, nd] idx hil (G := fun js =>
    S C 0 0 js + S C 0 nao js + (S C nao 0 js + S C nao nao js) +
      -(X C 0 0 js + X C 0 nao js + (X C nao 0 js + X C nao nao js))) fun js hjs => by
        match js, hjs with
        | [p, q, r, t], hjs => rw [e2 p q r t (hsh ▸ hjs), eS]]
  simp only [rotSum_add94, rotSum_neg94]
  rw [← rS 0 0 (.inl rfl) (.inl rfl) idx hidx', ← rS 0 nao (.inl rfl) (.inr rfl) idx hidx',
    ← rS nao 0 (.inr rfl) (.inl rfl) idx hidx', ← rS nao nao (.inr rfl) (.inr rfl) idx hidx',
    ← rX 0 0 (.inl rfl) (.inl rfl) idx hidx', ← rX 0 nao (.inl rfl) (.inr rfl) idx hidx',
    ← rX nao 0 (.inr rfl) (.inl rfl) idx hidx', ← rX nao nao (.inr rfl) (.inr rfl) idx hidx']
  match idx, hil with
  | [p, q, r, t], _ => rw [e2' p q r t hidx, eS]

end

/-- Three orbitals, two of them occupied, and the occupied ones rotated. -/
def space94 : Space := ⟨[true, true, false], [false, false, false], [false, false, false]⟩

def rot94 (p q : Nat) : Rat :=
  if p = 2 ∨ q = 2 then if p = q then 1 else 0
  else if p = q then 3 / 5 else if p = 0 then 4 / 5 else -(4 / 5)

def mo94 : NDArray Rat := ⟨[2, 3], [1, 2, 3, 4, 5, 6]⟩

def moRot94 : NDArray Rat := ⟨[2, 3], [11 / 5, 2 / 5, 3, 32 / 5, -(1 / 5), 6]⟩

def matrix94 (s i j : Nat) : Rat := if s = 0 then rot94 i j else if i = j then 1 else 0

def sizes94 (s : Nat) : Nat := if s = 0 then 2 else 1

/-- The hypotheses of the theorems hold for these. -/
theorem hyps94 : Fits66 2 space94 mo94 ∧ Fits66 2 space94 moRot94 ∧ RotatedCoeffs94 2 space94.nmo rot94 mo94 moRot94 ∧
    IsClass94 space94 rot94 sizes94 matrix94 'o' 0 ∧ IsClass94 space94 rot94 sizes94 matrix94 'v' 1 ∧
    Orthogonal sizes94 matrix94 := by
  refine ⟨⟨⟨_, _, _, (rfl : Space.new [true, true, false] [false, false, false] [false, false, false] = .ok space94)⟩, rfl⟩,
    ⟨⟨_, _, _, (rfl : Space.new [true, true, false] [false, false, false] [false, false, false] = .ok space94)⟩, rfl⟩,
    show ∀ m < 2, ∀ p < 3, _ by decide +kernel, ⟨by decide, _, rfl, by decide, ?_, ?_⟩, ⟨by decide, _, rfl, by decide, ?_, ?_⟩, ?_⟩
  · show ∀ p ∈ orbitals66 _, ∀ q < 3, _
    decide +kernel
  · show ∀ i < 2, ∀ j < 2, _
    decide +kernel
  · show ∀ p ∈ orbitals66 _, ∀ q < 3, _
    decide +kernel
  · show ∀ i < 1, ∀ j < 1, _
    decide +kernel
  · intro s i j hi hj
    by_cases hs : s = 0
    · subst hs
      have : ∀ i < 2, ∀ j < 2, ((List.range 2).map fun k => matrix94 0 k i * matrix94 0 k j).sum = (if i = j then 1 else 0) ∧
        ((List.range 2).map fun k => matrix94 0 i k * matrix94 0 j k).sum = if i = j then 1 else 0 := by decide +kernel
      exact this i hi j hj
    · simp only [sizes94, if_neg hs] at hi hj ⊢
      obtain rfl : i = 0 := by omega
      obtain rfl : j = 0 := by omega
      simp [matrix94, hs]

/-- The occupied-virtual block of a Fock matrix, with the orbitals as given and rotated. -/
example : (fockBlock ⟨[2, 2], [1, 2, 3, 4]⟩ [space94, space94] [mo94, mo94] "ov".toList).toOption =
      some ⟨[2, 1], [147, 195]⟩ ∧
    (fockBlock ⟨[2, 2], [1, 2, 3, 4]⟩ [space94, space94] [moRot94, moRot94] "ov".toList).toOption =
      some ⟨[2, 1], [1221 / 5, -(3 / 5)]⟩ := by
  refine ⟨by decide +kernel, by decide +kernel⟩

end Ebcc
