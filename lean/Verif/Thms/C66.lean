import Verif.Thms.C21
import Verif.Thms.C54
import Verif.Thms.C55

/-!
C66: the elements of the blocks of the integral containers.  In every state of a container, each index of a block runs
over the orbitals of the class that its character names, with the coefficients and the space of its position and spin.
-/

namespace Ebcc

/-- The orbitals of a class: the positions of the mask. -/
def orbitals66 (m : List Bool) : List Nat := (List.range m.length).filter (inMask m)

theorem orbitals_block66 {m : List Bool} {i j : Nat} (h : IsBlock m i j) : orbitals66 m = List.range' i (j - i) := by
  unfold orbitals66
  apply eq_of_sorted_of_mem (sorted_filter_range _ _) List.pairwise_lt_range'
  intro x
  rw [List.mem_filter, List.mem_range, h.2.2, List.mem_range'_1]
  have := h.1
  have := h.2.1
  omega

/-- A space that the constructor accepts. -/
def Made66 (s : Space) : Prop := ∃ o f a, Space.new o f a = .ok s

/-- The slice of a class: its extent is the orbitals of the class. -/
theorem slice_orbitals66 {s : Space} (hs : Made66 s) {k : Char} {ab : Int × Int} (h : s.slice k = .ok ab) :
    ∃ m, s.mask k = .ok m ∧ (sliceExtent s.nmo ab).2 = (orbitals66 m).length ∧
      ∀ p < (orbitals66 m).length, (sliceExtent s.nmo ab).1 + p = (orbitals66 m).getD p 0 := by
  obtain ⟨o, f, a, hs⟩ := hs
  cases hm : s.mask k with
  | error e =>
    unfold Space.slice at h
    rw [hm] at h
    cases h
  | ok m =>
    obtain ⟨i, j, rfl, hb⟩ := slice_block hm h
    have hl := mask_length hs hm
    have h1 := hb.1
    have h2 := hb.2.1
    rw [hl] at h2
    have e : sliceExtent s.nmo ((i : Int), (j : Int)) = (i, j - i) := by
      simp only [sliceExtent, sliceBound]
      rw [if_neg (by omega), if_neg (by omega)]
      simp only [Int.toNat_natCast]
      rw [Nat.min_eq_left h2, Nat.min_eq_left (by omega)]
    refine ⟨m, rfl, ?_, ?_⟩
    · rw [e, orbitals_block66 hb, List.length_range']
    · intro p hp
      rw [orbitals_block66 hb] at hp ⊢
      rw [List.length_range'] at hp
      rw [e, getD_eq _ _ _ (by rw [List.length_range']; exact hp), List.getElem_range']
      simp

theorem orbital_lt66 {s : Space} (hs : Made66 s) {k : Char} {m : List Bool} (h : s.mask k = .ok m) {p : Nat}
    (hp : p < (orbitals66 m).length) : (orbitals66 m).getD p 0 < s.nmo := by
  obtain ⟨o, f, a, hs⟩ := hs
  rw [getD_eq _ _ _ hp, ← mask_length hs h]
  exact List.mem_range.1 (List.mem_filter.1 (List.getElem_mem hp)).1

section
variable {R : Type} [CommRing R]

/-- The coefficients of an index with character `k`: the columns for the orbitals of the class, or the identity for
the atomic basis. -/
def IsCoeff66 (nao : Nat) (s : Space) (C : NDArray R) (k : Char) (c : NDArray R) : Prop :=
  c.WF ∧
  (k = 'p' → c.shape = [nao, nao] ∧ ∀ m < nao, ∀ p < nao, c.get [m, p] = if m = p then 1 else 0) ∧
  (k ≠ 'p' → ∃ mask, s.mask k = .ok mask ∧ c.shape = [nao, (orbitals66 mask).length] ∧
    ∀ m < nao, ∀ p < (orbitals66 mask).length, c.get [m, p] = C.get [m, (orbitals66 mask).getD p 0])

/-- A space and coefficients that fit each other. -/
def Fits66 (nao : Nat) (s : Space) (C : NDArray R) : Prop := Made66 s ∧ C.shape = [nao, s.nmo]

theorem inBox266 {a b i j : Nat} : InBox [a, b] [i, j] ↔ i < a ∧ j < b := by simp [InBox]

theorem npSlices_full66 (x : NDArray R) (slices : List (Int × Int)) (h : slices.length = x.shape.length) :
    npSlices x slices = .ok (NDArray.ofFn ((List.zipWith sliceExtent x.shape slices).map Prod.snd) fun idx =>
      x.get (List.zipWith (fun e i => e.1 + i) (List.zipWith sliceExtent x.shape slices) idx)) := by
  unfold npSlices
  rw [if_pos h.le, h, List.drop_length]
  simp only [List.map_nil, List.append_nil]

theorem getCoeff_ok66 {nao : Nat} {spaces : List Space} {coeffs : List (NDArray R)} {i : Nat} {s : Space}
    {C : NDArray R} (hs : spaces[i]? = some s) (hC : coeffs[i]? = some C) (hf : Fits66 nao s C) {k : Char}
    {c : NDArray R} (h : getCoeff spaces coeffs i k = .ok c) : IsCoeff66 nao s C k c := by
  unfold getCoeff at h
  rw [hC, hs] at h
  simp only at h
  have hn : C.shape.getD 0 0 = nao := by rw [hf.2]; rfl
  by_cases hk : k = 'p'
  · rw [if_pos hk] at h
    cases h
    refine ⟨NDArray.ofFn_wf _ _, fun _ => ?_, fun h => absurd hk h⟩
    rw [hn]
    refine ⟨rfl, fun m hm p hp => ?_⟩
    unfold npEye
    rw [NDArray.get_ofFn _ _ (inBox266.2 ⟨hm, hp⟩)]
    rfl
  · rw [if_neg hk] at h
    simp only [bind, Except.bind] at h
    cases hsl : s.slice k with
    | error e => rw [hsl] at h; cases h
    | ok ab =>
      rw [hsl] at h
      simp only at h
      obtain ⟨mask, m1, m2, m3⟩ := slice_orbitals66 hf.1 hsl
      rw [npSlices_full66 _ _ (by simp [hf.2])] at h
      simp only [hf.2] at h
      have e0 : sliceExtent nao ((0 : Int), ((nao : Nat) : Int)) = (0, nao) := by
        simp [sliceExtent, sliceBound]
      have e1 : [nao, s.nmo].getD 0 0 = nao := rfl
      rw [e1] at h
      simp only [List.zipWith_cons_cons, List.map_nil, List.zipWith_nil_left, e0, List.map_cons] at h
      cases h
      refine ⟨NDArray.ofFn_wf _ _, fun h => absurd h hk, fun _ => ⟨mask, m1, ?_, fun m hm p hp => ?_⟩⟩
      · rw [m2.symm]
        rfl
      · rw [NDArray.get_ofFn _ _ (inBox266.2 ⟨hm, by rw [m2]; exact hp⟩)]
        simp only [List.zipWith_cons_cons, List.zipWith_nil_left, Nat.zero_add]
        rw [m3 p hp]

theorem mapM_get66 {α β : Type} {f : α → Except PyErr β} {l : List α} {r : List β} (h : l.mapM f = .ok r) (i : Nat)
    (a : α) (ha : l[i]? = some a) : ∃ b, r[i]? = some b ∧ f a = .ok b := by
  induction l generalizing r i with
  | nil => cases ha
  | cons x l ih =>
    rw [List.mapM_cons] at h
    simp only [bind, Except.bind, pure, Except.pure] at h
    cases hx : f x with
    | error e => rw [hx] at h; cases h
    | ok y =>
      rw [hx] at h
      simp only at h
      cases hr : l.mapM f with
      | error e => rw [hr] at h; cases h
      | ok ys =>
        rw [hr] at h
        cases h
        cases i with
        | zero => cases ha; exact ⟨y, rfl, hx⟩
        | succ i => exact ih hr i ha

/-- The coefficients of all indices of a key. -/
def AreCoeffs66 (nao : Nat) (spaces : List Space) (coeffs : List (NDArray R)) (key : List Char)
    (cs : List (NDArray R)) : Prop :=
  cs.length = key.length ∧ ∀ (i : Nat) (k : Char) (s : Space) (C : NDArray R), key[i]? = some k → spaces[i]? = some s →
    coeffs[i]? = some C → ∃ c, cs[i]? = some c ∧ IsCoeff66 nao s C k c

/-- The spaces and coefficients of a container. -/
def AllFit66 (nao : Nat) (spaces : List Space) (coeffs : List (NDArray R)) : Prop :=
  ∀ (i : Nat) (s : Space) (C : NDArray R), spaces[i]? = some s → coeffs[i]? = some C → Fits66 nao s C

theorem eriBlock_ok66 {ao2mo : List (NDArray R) → Except PyErr (NDArray R)} {nao : Nat} {spaces : List Space}
    {coeffs : List (NDArray R)} (hf : AllFit66 nao spaces coeffs) {key : List Char} {x : NDArray R}
    (h : eriBlock ao2mo spaces coeffs key = .ok x) :
    ∃ cs, AreCoeffs66 nao spaces coeffs key cs ∧ ao2mo cs = .ok x := by
  unfold eriBlock at h
  simp only [bind, Except.bind] at h
  cases hc : getCoeffs spaces coeffs key 0 with
  | error e => rw [hc] at h; cases h
  | ok cs =>
    rw [hc] at h
    refine ⟨cs, ⟨?_, fun i k s C hk hs hC => ?_⟩, h⟩
    · rw [mapM_length hc, List.length_zipIdx]
    · obtain ⟨c, c1, c2⟩ := mapM_get66 hc i (k, i) (by simp [hk])
      exact ⟨c, c1, getCoeff_ok66 (by simpa using hs) (by simpa using hC) (hf i s C hs hC) c2⟩

/-- C66, restricted two-electron integrals: after any reads, a block is the integral transformation of PySCF applied to
the coefficients of the orbitals that the key names. -/
theorem C66_eris (ao2mo : List (NDArray R) → Except PyErr (NDArray R)) (nao : Nat) (spaces : List Space)
    (coeffs : List (NDArray R)) (hf : AllFit66 nao spaces coeffs) (before : List (List Char)) (key : List Char)
    (x : NDArray R)
    (h : (reriRead ao2mo spaces coeffs key (runReads (reriRead ao2mo spaces coeffs) before []).2).1 = .ok x) :
    ∃ cs, AreCoeffs66 nao spaces coeffs key cs ∧ ao2mo cs = .ok x := by
  have hs := runReads_spec (reriRead ao2mo spaces coeffs) (CacheSound (eriBlock ao2mo spaces coeffs))
    (fun key => eriBlock ao2mo spaces coeffs key) before
    (fun o _ s hs => ⟨(cacheRead_sound _ o s hs).1, (cacheRead_sound _ o s hs).2.1⟩) [] (fun k v h => by cases h)
  rw [reriRead, (cacheRead_sound _ key _ hs.2).1] at h
  exact eriBlock_ok66 hf h

/-- One of a pair by the character of a spin. -/
def ofSpin66 {X : Type} (c : Char) (p : X × X) : X := if c = 'a' then p.1 else p.2

theorem pick_eri66 {X : Type} (x0 x1 x2 x3 : X × X) {spin : List Char}
    (hs : spin ∈ ["aaaa".toList, "aabb".toList, "bbaa".toList, "bbbb".toList]) :
    pickSpins [x0, x1, x2, x3] (eriSpins spin) = List.zipWith ofSpin66 spin [x0, x1, x2, x3] := by
  simp only [List.mem_cons, List.not_mem_nil, or_false] at hs
  rcases hs with rfl | rfl | rfl | rfl <;> rfl

/-- C66, unrestricted two-electron integrals: position `i` of the block has the space and the coefficients of position
`i` and of the spin at position `i` of the spin key. -/
theorem C66_eris_unrestricted (ao2mo : List (NDArray R) → Except PyErr (NDArray R)) (nao : Nat)
    (s0 s1 s2 s3 : Space × Space) (c0 c1 c2 c3 : NDArray R × NDArray R)
    (before : List (List Char × List Char)) (spin key : List Char)
    (hf : AllFit66 nao (List.zipWith ofSpin66 spin [s0, s1, s2, s3]) (List.zipWith ofSpin66 spin [c0, c1, c2, c3]))
    (x : NDArray R)
    (h : (ueriRead ao2mo [s0, s1, s2, s3] [c0, c1, c2, c3] spin key
      (runReads (fun o => ueriRead ao2mo [s0, s1, s2, s3] [c0, c1, c2, c3] o.1 o.2) before []).2).1 = .ok x) :
    ∃ cs, AreCoeffs66 nao (List.zipWith ofSpin66 spin [s0, s1, s2, s3]) (List.zipWith ofSpin66 spin [c0, c1, c2, c3]) key
      cs ∧ ao2mo cs = .ok x := by
  have hs : NestedSound (fun spin => CacheSound (eriBlock ao2mo (pickSpins [s0, s1, s2, s3] (eriSpins spin))
      (pickSpins [c0, c1, c2, c3] (eriSpins spin))))
      (runReads (fun o => ueriRead ao2mo [s0, s1, s2, s3] [c0, c1, c2, c3] o.1 o.2) before []).2 := by
    refine (runReads_spec (fun o => ueriRead ao2mo [s0, s1, s2, s3] [c0, c1, c2, c3] o.1 o.2) (NestedSound fun spin =>
      CacheSound (eriBlock ao2mo (pickSpins [s0, s1, s2, s3] (eriSpins spin)) (pickSpins [c0, c1, c2, c3] (eriSpins spin))))
      (fun o => (ueriRead ao2mo [s0, s1, s2, s3] [c0, c1, c2, c3] o.1 o.2 []).1) before (fun o _ s hs => ?_) []
      (fun _ _ h => by cases h)).2
    simp only [ueriRead]
    split
    · exact ⟨rfl, hs⟩
    · have hi := nested_getD hs o.1 [] fun k v h => by cases h
      obtain ⟨h1, h2, -⟩ := cacheRead_sound _ o.2 _ hi
      refine ⟨?_, nested_set hs _ _ h2⟩
      simp only [reriRead]
      rw [h1]
      exact (cacheRead_nil _ _).symm
  simp only [ueriRead] at h
  split at h
  · cases h
  · rename_i hm
    rw [Decidable.not_not] at hm
    simp only [reriRead] at h
    rw [(cacheRead_sound _ key _ (nested_getD hs spin [] fun k v h => by cases h)).1, pick_eri66 _ _ _ _ hm,
      pick_eri66 _ _ _ _ hm] at h
    exact eriBlock_ok66 hf h

/-- The two-electron integral over four spin orbitals with coefficients `c` for alpha (rows from 0) and beta (rows from
`nao`): the sum over the spins of the two electrons. -/
def spinIntegral66 (nao : Nat) (eri : Nat → Nat → Nat → Nat → R) (c : NDArray R) (p q r s : Nat) : R :=
  ([0, nao].map fun σ => ([0, nao].map fun τ =>
    ((List.range nao).map fun m => ((List.range nao).map fun n => ((List.range nao).map fun l =>
      ((List.range nao).map fun k => eri m n l k * (c.get [σ + m, p] * c.get [σ + n, q])
        * (c.get [τ + l, r] * c.get [τ + k, s])).sum).sum).sum).sum).sum).sum

theorem generalChem_spin66 (nao nmo : Nat) (eri : Nat → Nat → Nat → Nat → R) (c : NDArray R) (p q r s : Nat)
    (hp : p < nmo) (hq : q < nmo) (hr : r < nmo) (hs : s < nmo) :
    (generalChem nao nmo eri [c, c, c, c]).get [p, q, r, s] = spinIntegral66 nao eri c p q r s := by
  rw [generalChem_get nao nmo eri c p q r s hp hq hr hs]
  unfold spinIntegral66 transformERI
  simp only [List.map_cons, List.map_nil, List.sum_cons, List.sum_nil, add_zero, Nat.zero_add]
  simp only [List.getD_cons_zero, List.getD_cons_succ, show (0 : Nat) < 2 from by omega, show (1 : Nat) < 2 from by omega,
    show ¬ (2 : Nat) < 2 from by omega, show ¬ (3 : Nat) < 2 from by omega, if_true, if_false]
  ring

/-- C66, general two-electron integrals: an element is the antisymmetrised integral over the orbitals that the key
names, in physicists' notation. -/
theorem C66_eris_general (nao : Nat) (eri : Nat → Nat → Nat → Nat → R) (mo array : NDArray R) (s : Space)
    (hs : Made66 s) (hmo : mo.shape.getD 1 0 = s.nmo) (ha : geriArray nao eri [mo, mo, mo, mo] = .ok array)
    (a b c d : Char) (x : NDArray R) (hx : geriRead array [s, s, s, s] [a, b, c, d] = .ok x) :
    ∃ ma mb mc md, s.mask a = .ok ma ∧ s.mask b = .ok mb ∧ s.mask c = .ok mc ∧ s.mask d = .ok md ∧
      x.shape = [(orbitals66 ma).length, (orbitals66 mb).length, (orbitals66 mc).length, (orbitals66 md).length] ∧
      ∀ p q r t, InBox x.shape [p, q, r, t] → x.get [p, q, r, t]
        = spinIntegral66 nao eri mo ((orbitals66 ma).getD p 0) ((orbitals66 mc).getD r 0) ((orbitals66 mb).getD q 0)
            ((orbitals66 md).getD t 0)
          - spinIntegral66 nao eri mo ((orbitals66 ma).getD p 0) ((orbitals66 md).getD t 0) ((orbitals66 mb).getD q 0)
            ((orbitals66 mc).getD r 0) := by
  unfold geriArray at ha
  simp only at ha
  split at ha
  · cases ha
    obtain ⟨sa, sb, sc, sd, h1, h2, h3, h4, h5⟩ := geriRead4 hx
    have e : ([mo, mo, mo, mo].getD 0 ⟨[], []⟩).shape.getD 1 0 = s.nmo := hmo
    rw [e] at h5
    obtain ⟨hsx, hgx⟩ := npSlices4 _ x s.nmo rfl _ _ _ _ h5
    obtain ⟨ma, a1, a2, a3⟩ := slice_orbitals66 hs h1
    obtain ⟨mb, b1, b2, b3⟩ := slice_orbitals66 hs h2
    obtain ⟨mc, c1, c2, c3⟩ := slice_orbitals66 hs h3
    obtain ⟨md, d1, d2, d3⟩ := slice_orbitals66 hs h4
    refine ⟨ma, mb, mc, md, a1, b1, c1, d1, by rw [hsx, a2, b2, c2, d2], fun p q r t hb => ?_⟩
    rw [hsx, inBox4] at hb
    obtain ⟨l1, l2, l3, l4⟩ := hb
    rw [hgx p q r t l1 l2 l3 l4, ← a3 p (a2 ▸ l1), ← b3 q (b2 ▸ l2), ← c3 r (c2 ▸ l3), ← d3 t (d2 ▸ l4)]
    have n1 := sliceExtent_lt _ _ l1
    have n2 := sliceExtent_lt _ _ l2
    have n3 := sliceExtent_lt _ _ l3
    have n4 := sliceExtent_lt _ _ l4
    rw [antisymERI_get _ s.nmo _ _ _ _ rfl n1 n2 n3 n4, generalChem_spin66 _ _ _ _ _ _ _ _ n1 n3 n2 n4,
      generalChem_spin66 _ _ _ _ _ _ _ _ n1 n4 n2 n3]
  · cases ha

/-- The block of a coupling: each boson has the elements of the orbitals that the key names. -/
def IsCoupling66 (g : NDArray R) (s s' : Space) (a b : Char) (x : NDArray R) : Prop :=
  ∃ ma mb, s.mask a = .ok ma ∧ s'.mask b = .ok mb ∧
    x.shape = [g.shape.getD 0 0, (orbitals66 ma).length, (orbitals66 mb).length] ∧
    ∀ n p q, InBox x.shape [n, p, q] → x.get [n, p, q] = g.get [n, (orbitals66 ma).getD p 0, (orbitals66 mb).getD q 0]

theorem elbosBlock_ok66 {g : NDArray R} {nb : Nat} {s s' : Space} (hs : Made66 s) (hs' : Made66 s')
    (hg : g.shape = [nb, s.nmo, s'.nmo]) {a b : Char} {x : NDArray R}
    (h : elbosBlock g [s, s'] ['b', a, b] = .ok x) : IsCoupling66 g s s' a b x := by
  unfold elbosBlock at h
  simp only at h
  rw [if_neg (by simp)] at h
  split at h
  · cases h
  · simp only [getSlices, List.zip_cons_cons, List.zip_nil_right, List.mapM_cons, List.mapM_nil, bind, Except.bind, pure,
      Except.pure] at h
    cases ha : s.slice a with
    | error e => rw [ha] at h; cases h
    | ok u =>
      cases hb : s'.slice b with
      | error e => rw [ha, hb] at h; cases h
      | ok v =>
        rw [ha, hb] at h
        simp only at h
        obtain ⟨ma, a1, a2, a3⟩ := slice_orbitals66 hs ha
        obtain ⟨mb, b1, b2, b3⟩ := slice_orbitals66 hs' hb
        rw [npSlices_full66 _ _ (by simp [hg])] at h
        simp only [hg] at h
        have e0 : sliceExtent nb ((0 : Int), ((nb : Nat) : Int)) = (0, nb) := by simp [sliceExtent, sliceBound]
        have e1 : [nb, s.nmo, s'.nmo].getD 0 0 = nb := rfl
        rw [e1] at h
        simp only [List.zipWith_cons_cons, List.map_nil, List.zipWith_nil_left, e0, List.map_cons] at h
        cases h
        refine ⟨ma, mb, a1, b1, ?_, fun n p q hbox => ?_⟩
        · rw [hg, ← a2, ← b2]
          rfl
        · obtain ⟨i1, i2, i3⟩ := inBox3.1 hbox
          rw [NDArray.get_ofFn _ _ (inBox3.2 ⟨i1, i2, i3⟩)]
          simp only [List.zipWith_cons_cons, List.zipWith_nil_left, Nat.zero_add]
          rw [a3 p (a2 ▸ i2), b3 q (b2 ▸ i3)]

/-- C66, couplings of the restricted and the general class. -/
theorem C66_couplings (g : NDArray R) (nb : Nat) (s s' : Space) (hs : Made66 s) (hs' : Made66 s')
    (hg : g.shape = [nb, s.nmo, s'.nmo]) (before : List (List Char)) (a b : Char) (x : NDArray R)
    (h : (relbosRead g [s, s'] ['b', a, b] (runReads (relbosRead g [s, s']) before []).2).1 = .ok (.block x)) :
    IsCoupling66 g s s' a b x := by
  have hr := runReads_spec (relbosRead g [s, s']) (CacheSound fun k => (elbosBlock g [s, s'] k).map GVal.block)
    (fun key => (elbosBlock g [s, s'] key).map GVal.block) before
    (fun o _ s hs => ⟨(cacheRead_sound _ o s hs).1, (cacheRead_sound _ o s hs).2.1⟩) [] (fun k v h => by cases h)
  rw [relbosRead, (cacheRead_sound _ _ _ hr.2).1] at h
  cases hb : elbosBlock g [s, s'] ['b', a, b] with
  | error e => rw [hb] at h; cases h
  | ok y =>
    rw [hb] at h
    cases h
    exact elbosBlock_ok66 hs hs' hg hb

/-- C66, unrestricted couplings: the spin selects the part of an array with four axes; one with three axes serves for
both spins. -/
theorem C66_couplings_unrestricted (g : NDArray R) (nb : Nat) (s s' : Space × Space) (before : List (List Char × List Char))
    (σ : Char) (hs : Made66 (ofSpin66 σ s)) (hs' : Made66 (ofSpin66 σ s')) (a b : Char) (x : NDArray R)
    (hg : g.shape = [nb, (ofSpin66 σ s).nmo, (ofSpin66 σ s').nmo] ∨ g.shape = [2, nb, (ofSpin66 σ s).nmo, (ofSpin66 σ s').nmo])
    (h : (uelbosRead g [s, s'] [σ, σ] ['b', a, b]
      (runReads (fun o => uelbosRead g [s, s'] o.1 o.2) before []).2).1 = .ok (.block x)) :
    ∃ ma mb, (ofSpin66 σ s).mask a = .ok ma ∧ (ofSpin66 σ s').mask b = .ok mb ∧
      x.shape = [nb, (orbitals66 ma).length, (orbitals66 mb).length] ∧
      ∀ n p q, InBox x.shape [n, p, q] → x.get [n, p, q]
        = if g.shape.length = 4 then g.get [if σ = 'a' then 0 else 1, n, (orbitals66 ma).getD p 0, (orbitals66 mb).getD q 0]
          else g.get [n, (orbitals66 ma).getD p 0, (orbitals66 mb).getD q 0] := by
  have hr : NestedSound (fun spin => CouplingSound (spinIndex (spin.getD 0 ' ')) fun k =>
      (elbosBlock (spinCoupling g (spinIndex (spin.getD 0 ' ')))
        (pickSpins [s, s'] [spinIndex (spin.getD 0 ' '), spinIndex (spin.getD 0 ' ')]) k).map GVal.block)
      (runReads (fun o => uelbosRead g [s, s'] o.1 o.2) before []).2 := by
    refine (runReads_spec (fun o => uelbosRead g [s, s'] o.1 o.2) (NestedSound fun spin =>
      CouplingSound (spinIndex (spin.getD 0 ' ')) fun k => (elbosBlock (spinCoupling g (spinIndex (spin.getD 0 ' ')))
        (pickSpins [s, s'] [spinIndex (spin.getD 0 ' '), spinIndex (spin.getD 0 ' ')]) k).map GVal.block)
      (fun o => (uelbosRead g [s, s'] o.1 o.2 []).1) before (fun o _ st hst => ?_) [] (fun _ _ h => by cases h)).2
    simp only [uelbosRead]
    split
    · exact ⟨rfl, hst⟩
    · have hi := nested_getD hst o.1 (newElbos (spinIndex (o.1.getD 0 ' '))) (newElbos_sound _ _)
      obtain ⟨h1, h2⟩ := coupling_read _ _ o.2 _ hi
      refine ⟨?_, nested_set hst _ _ h2⟩
      simp only [relbosRead]
      rw [h1]
      exact (coupling_read _ _ o.2 _ (newElbos_sound _ _)).1.symm
  simp only [uelbosRead] at h
  split at h
  · cases h
  · rename_i hm
    rw [Decidable.not_not] at hm
    have hi := nested_getD hr [σ, σ] (newElbos (spinIndex ([σ, σ].getD 0 ' '))) (newElbos_sound _ _)
    obtain ⟨h1, -⟩ := coupling_read _ _ ['b', a, b] _ hi
    simp only [relbosRead] at h
    rw [h1, couplingSpec, if_neg (coupling_key_ne [a, b])] at h
    have hσ : σ = 'a' ∨ σ = 'b' := by simpa using hm
    have hsp : spinIndex ([σ, σ].getD 0 ' ') = if σ = 'a' then 0 else 1 := rfl
    have hpick : pickSpins [s, s'] [if σ = 'a' then 0 else 1, if σ = 'a' then 0 else 1] = [ofSpin66 σ s, ofSpin66 σ s'] := by
      rcases hσ with rfl | rfl <;> rfl
    rw [hsp, hpick] at h
    cases hb : elbosBlock (spinCoupling g (if σ = 'a' then 0 else 1)) [ofSpin66 σ s, ofSpin66 σ s'] ['b', a, b] with
    | error e => rw [hb] at h; cases h
    | ok y =>
      rw [hb] at h
      cases h
      have hshape : (spinCoupling g (if σ = 'a' then 0 else 1)).shape = [nb, (ofSpin66 σ s).nmo, (ofSpin66 σ s').nmo] := by
        unfold spinCoupling
        rcases hg with hg | hg
        · rw [if_neg (by simp [hg]), hg]
        · rw [if_pos (by simp [hg]), hg]; rfl
      obtain ⟨ma, mb, m1, m2, m3, m4⟩ := elbosBlock_ok66 hs hs' hshape hb
      refine ⟨ma, mb, m1, m2, by rw [m3, hshape]; rfl, fun n p q hbox => ?_⟩
      rw [m4 n p q hbox]
      unfold spinCoupling
      split
      · rename_i h4
        refine NDArray.get_ofFn _ _ ?_
        rcases hg with hg | hg
        · simp [hg] at h4
        · rw [m3, hshape, inBox3] at hbox
          rw [hg]
          refine inBox3.2 ⟨hbox.1, ?_, ?_⟩
          · exact orbital_lt66 hs m1 hbox.2.1
          · exact orbital_lt66 hs' m2 hbox.2.2
      · rfl

/-- C66, density fitted integrals with three indices. -/
theorem C66_cderis (nrE2 : NDArray R → NDArray R → NDArray R) (nao : Nat) (spaces : List Space)
    (coeffs : List (NDArray R)) (m : Dict (List Char) (NDArray R)) (hm : CderiReached nrE2 spaces coeffs m)
    (s0 s1 : Space) (C0 C1 : NDArray R) (hs0 : spaces[0]? = some s0) (hs1 : spaces[1]? = some s1)
    (hC0 : coeffs[0]? = some C0) (hC1 : coeffs[1]? = some C1) (hf0 : Fits66 nao s0 C0) (hf1 : Fits66 nao s1 C1)
    (Q a b : Char) (x : NDArray R) (hx : (rcderiRead nrE2 spaces coeffs [Q, a, b] m).1 = .ok x) :
    ∃ ca cb, IsCoeff66 nao s0 C0 a ca ∧ IsCoeff66 nao s1 C1 b cb ∧ x = nrE2 ca cb := by
  rw [(rcderiRead_sound nrE2 spaces coeffs _ m hm.sound).1] at hx
  obtain ⟨ca, cb, h1, h2, rfl⟩ := cderiBlock_two (show cderiBlock nrE2 spaces coeffs false [a, b] = .ok x from hx)
  exact ⟨ca, cb, getCoeff_ok66 hs0 hC0 hf0 h1, getCoeff_ok66 hs1 hC1 hf1 h2, rfl⟩

/-- C66, density fitted integrals with three indices, unrestricted: the spin key, with or without a character for the
auxiliary index, names the spin of both indices. -/
theorem C66_cderis_unrestricted (nrE2 : NDArray R → NDArray R → NDArray R) (nao : Nat)
    (s0 s1 s2 s3 : Space × Space) (c0 c1 c2 c3 : NDArray R × NDArray R)
    (m : Dict (List Char) (Dict (List Char) (NDArray R)))
    (hm : UCderiReached nrE2 [s0, s1, s2, s3] [c0, c1, c2, c3] m) (σ : Char) (hσ : σ ∈ ['a', 'b']) (spin : List Char)
    (hspin : spin = [σ, σ] ∨ ∃ Q, spin = [Q, σ, σ])
    (hf0 : Fits66 nao (ofSpin66 σ s0) (ofSpin66 σ c0)) (hf1 : Fits66 nao (ofSpin66 σ s1) (ofSpin66 σ c1))
    (Q a b : Char) (x : NDArray R)
    (hx : (ucderiRead nrE2 [s0, s1, s2, s3] [c0, c1, c2, c3] spin [Q, a, b] m).1 = .ok x) :
    ∃ ca cb, IsCoeff66 nao (ofSpin66 σ s0) (ofSpin66 σ c0) a ca ∧ IsCoeff66 nao (ofSpin66 σ s1) (ofSpin66 σ c1) b cb ∧
      x = nrE2 ca cb := by
  have hk : ucderiKey spin = .ok [σ, σ, σ, σ] := by
    simp only [List.mem_cons, List.not_mem_nil, or_false] at hσ
    rcases hspin with rfl | ⟨P, rfl⟩ <;> rcases hσ with rfl | rfl <;> rfl
  have hm4 : [σ, σ, σ, σ] ∈ ["aaaa".toList, "aabb".toList, "bbaa".toList, "bbbb".toList] := by
    simp only [List.mem_cons, List.not_mem_nil, or_false] at hσ
    rcases hσ with rfl | rfl <;> decide
  rw [ucderiRead_spec hm hk, pick_eri66 _ _ _ _ hm4, pick_eri66 _ _ _ _ hm4] at hx
  obtain ⟨ca, cb, h1, h2, rfl⟩ := cderiBlock_two (e2 := false) (show cderiBlock nrE2 _ _ false [a, b] = .ok x from hx)
  exact ⟨ca, cb, getCoeff_ok66 rfl rfl hf0 h1, getCoeff_ok66 rfl rfl hf1 h2, rfl⟩

/-- C66, density fitted integrals with four indices, unrestricted: the first pair has the first two spins of the spin
key, the second pair the last two. -/
theorem C66_cderis_four_unrestricted (nrE2 : NDArray R → NDArray R → NDArray R) (nao : Nat)
    (s0 s1 s2 s3 : Space × Space) (c0 c1 c2 c3 : NDArray R × NDArray R)
    (m : Dict (List Char) (Dict (List Char) (NDArray R)))
    (hm : UCderiReached nrE2 [s0, s1, s2, s3] [c0, c1, c2, c3] m) (σ τ : Char) (hσ : σ ∈ ['a', 'b']) (hτ : τ ∈ ['a', 'b'])
    (hf0 : Fits66 nao (ofSpin66 σ s0) (ofSpin66 σ c0)) (hf1 : Fits66 nao (ofSpin66 σ s1) (ofSpin66 σ c1))
    (hf2 : Fits66 nao (ofSpin66 τ s2) (ofSpin66 τ c2)) (hf3 : Fits66 nao (ofSpin66 τ s3) (ofSpin66 τ c3))
    (a b c d : Char) (x : NDArray R)
    (hx : (ucderiRead nrE2 [s0, s1, s2, s3] [c0, c1, c2, c3] [σ, σ, τ, τ] [a, b, c, d] m).1 = .ok x) :
    ∃ ca cb cc cd, IsCoeff66 nao (ofSpin66 σ s0) (ofSpin66 σ c0) a ca ∧ IsCoeff66 nao (ofSpin66 σ s1) (ofSpin66 σ c1) b cb ∧
      IsCoeff66 nao (ofSpin66 τ s2) (ofSpin66 τ c2) c cc ∧ IsCoeff66 nao (ofSpin66 τ s3) (ofSpin66 τ c3) d cd ∧
      ∀ i j k l, InBox x.shape [i, j, k, l] → x.get [i, j, k, l]
        = ((List.range ((nrE2 ca cb).shape.getD 0 0)).map fun Q =>
          (nrE2 ca cb).get [Q, i, j] * (nrE2 cc cd).get [Q, k, l]).sum := by
  have hm4 : [σ, σ, τ, τ] ∈ ["aaaa".toList, "aabb".toList, "bbaa".toList, "bbbb".toList] := by
    simp only [List.mem_cons, List.not_mem_nil, or_false] at hσ hτ
    rcases hσ with rfl | rfl <;> rcases hτ with rfl | rfl <;> decide
  have hk : ucderiKey [σ, σ, τ, τ] = .ok [σ, σ, τ, τ] := by
    simp only [List.mem_cons, List.not_mem_nil, or_false] at hσ hτ
    rcases hσ with rfl | rfl <;> rcases hτ with rfl | rfl <;> rfl
  rw [ucderiRead_spec hm hk, pick_eri66 _ _ _ _ hm4, pick_eri66 _ _ _ _ hm4] at hx
  obtain ⟨v1, v2, h1, h2, rfl⟩ := cderiSpec_four hx
  obtain ⟨ca, cb, g1, g2, rfl⟩ := cderiBlock_two h1
  obtain ⟨cc, cd, g3, g4, rfl⟩ := cderiBlock_two h2
  refine ⟨ca, cb, cc, cd, getCoeff_ok66 rfl rfl hf0 g1, getCoeff_ok66 rfl rfl hf1 g2, getCoeff_ok66 rfl rfl hf2 g3,
    getCoeff_ok66 rfl rfl hf3 g4, fun i j k l hb => ?_⟩
  obtain ⟨b1, b2, b3, b4⟩ := inBox4.1 hb
  exact contractQ_get _ _ i j k l b1 b2 b3 b4

theorem runReads_last66 {S V O : Type} (read : O → HRead S V) (ops : List O) (o : O) (s : S) :
    (runReads read (ops ++ [o]) s).1 = (runReads read ops s).1 ++ [(read o (runReads read ops s).2).1] := by
  induction ops generalizing s with
  | nil => rfl
  | cons a ops ih =>
    rw [List.cons_append]
    simp only [runReads, List.cons_append]
    rw [ih]

theorem read_after66 {S V O : Type} {read : O → HRead S V} {s : S} {ops : List O} {o : O}
    (h : Transparent read s (ops ++ [o])) : (read o (runReads read ops s).2).1 = (read o s).1 := by
  unfold Transparent at h
  rw [runReads_last66, List.map_append, List.map_cons, List.map_nil] at h
  exact List.head_eq_of_cons_eq (List.append_inj_right' h rfl)

/-- The block of a Fock matrix: the matrix over the orbitals that the key names, minus the coupling to the shifted
bosons. -/
def IsFock66 (nao : Nat) (F g : NDArray R) (xi : List R) (shift : Bool) (s : Space) (C C' : NDArray R) (a b : Char)
    (x : NDArray R) : Prop :=
  ∃ ma mb, s.mask a = .ok ma ∧ s.mask b = .ok mb ∧ x.shape = [(orbitals66 ma).length, (orbitals66 mb).length] ∧
    ∀ p q, InBox x.shape [p, q] → x.get [p, q]
      = ((List.range nao).map fun m => ((List.range nao).map fun n => F.get [m, n]
          * C.get [m, (orbitals66 ma).getD p 0] * C'.get [n, (orbitals66 mb).getD q 0]).sum).sum
        - if shift then ((List.range xi.length).map fun n => xi.getD n 0 *
            (g.get [n, (orbitals66 ma).getD p 0, (orbitals66 mb).getD q 0]
              + g.get [n, (orbitals66 mb).getD q 0, (orbitals66 ma).getD p 0])).sum
          else 0

theorem fockBlock_ok66 {nao : Nat} {F : NDArray R} (hF : F.shape = [nao, nao]) {s : Space} {C C' : NDArray R}
    (hf : Fits66 nao s C) (hf' : Fits66 nao s C') {a b : Char} (ha : a ≠ 'p') (hb : b ≠ 'p') {x : NDArray R}
    (h : fockBlock F [s, s] [C, C'] [a, b] = .ok x) (g : NDArray R) (xi : List R) :
    IsFock66 nao F g xi false s C C' a b x := by
  unfold fockBlock at h
  simp only [bind, Except.bind, pure, Except.pure] at h
  cases hc : getCoeffs [s, s] [C, C'] [a, b] 0 with
  | error e => rw [hc] at h; cases h
  | ok cs =>
    rw [hc] at h
    obtain ⟨ca, a1, a2⟩ := mapM_get66 hc 0 (a, 0) rfl
    obtain ⟨cb, b1, b2⟩ := mapM_get66 hc 1 (b, 1) rfl
    have hl : cs.length = 2 := mapM_length hc
    obtain ⟨-, -, A⟩ := getCoeff_ok66 (spaces := [s, s]) (coeffs := [C, C']) (i := 0) rfl rfl hf a2
    obtain ⟨-, -, B⟩ := getCoeff_ok66 (spaces := [s, s]) (coeffs := [C, C']) (i := 1) rfl rfl hf' b2
    obtain ⟨ma, m1, m2, m3⟩ := A ha
    obtain ⟨mb, n1, n2, n3⟩ := B hb
    match cs, hl with
    | [u, v], _ =>
      cases a1
      cases b1
      simp only at h
      cases h
      refine ⟨ma, mb, m1, n1, ?_, fun p q hbox => ?_⟩
      · rw [m2, n2]
        rfl
      · have e1 : ca.shape.getD 1 0 = (orbitals66 ma).length := by rw [m2]; rfl
        have e2 : cb.shape.getD 1 0 = (orbitals66 mb).length := by rw [n2]; rfl
        obtain ⟨i1, i2⟩ := inBox266.1 hbox
        rw [NDArray.get_ofFn _ _ (inBox266.2 ⟨i1, i2⟩), hF, if_neg (by simp), sub_zero]
        rw [e1] at i1
        rw [e2] at i2
        refine congrArg List.sum (List.map_congr_left fun m hm => congrArg List.sum (List.map_congr_left fun n hn => ?_))
        rw [← m3 m (List.mem_range.1 hm) p i1, ← n3 n (List.mem_range.1 hn) q i2]
        rfl

theorem couplingAttr_ok66 {g : NDArray R} {nb : Nat} {s : Space} (hs : Made66 s) (hg : g.shape = [nb, s.nmo, s.nmo])
    {g0 : Dict (List Char) (GVal R)} {a b : Char} (h0 : g0.get? ['b', a, b] = none) {x : NDArray R}
    (h : (couplingAttr g [s, s] [a, b] g0).1 = .ok x) : IsCoupling66 g s s a b x := by
  rw [couplingAttr_eq] at h
  simp only [relbosRead, cacheRead, h0] at h
  cases hb : elbosBlock g [s, s] ['b', a, b] with
  | error e =>
    rw [hb] at h
    cases e <;> cases h
  | ok y =>
    rw [hb] at h
    cases h
    exact elbosBlock_ok66 hs hs hg hb

theorem coupling_keeps66 {g : NDArray R} {s : Space} {g0 : Dict (List Char) (GVal R)} {a b c d : Char}
    (h0 : g0.get? ['b', c, d] = none) (hne : [a, b] ≠ [c, d]) :
    (couplingAttr g [s, s] [a, b] g0).2.get? ['b', c, d] = none := by
  rw [couplingAttr_eq]
  simp only [relbosRead, cacheRead]
  cases g0.get? ['b', a, b] with
  | some v => exact h0
  | none =>
    cases elbosBlock g [s, s] ['b', a, b] with
    | error e => exact h0
    | ok y =>
      simp only [Except.map]
      rw [Dict.get?_set, if_neg (fun h => hne (List.cons.inj h).2)]
      exact h0

theorem coupling_again66 {g : NDArray R} {s : Space} {g0 : Dict (List Char) (GVal R)} {a b : Char}
    (h0 : g0.get? ['b', a, b] = none) {x y : NDArray R} {g1 : Dict (List Char) (GVal R)}
    (h : couplingAttr g [s, s] [a, b] g0 = (.ok x, g1)) (h' : (couplingAttr g [s, s] [a, b] g1).1 = .ok y) : y = x := by
  rw [couplingAttr_eq] at h h'
  simp only [relbosRead, cacheRead, h0] at h
  cases hb : elbosBlock g [s, s] ['b', a, b] with
  | error e =>
    rw [hb] at h
    cases e <;> cases h
  | ok z =>
    rw [hb] at h
    simp only [Except.map, attrResult, Prod.mk.injEq, Except.ok.injEq] at h
    obtain ⟨rfl, rfl⟩ := h
    simp only [relbosRead, cacheRead, Dict.get?_set, if_true, attrResult, Except.ok.injEq] at h'
    exact h'.symm

theorem fockRead_ok66 {nao nb : Nat} {D : FockData R} {s : Space} {C C' : NDArray R} (hs : D.spaces = [s, s])
    (hC : D.coeffs = [C, C']) (hF : D.fock.shape = [nao, nao]) (hg : D.g.shape = [nb, s.nmo, s.nmo])
    (hxi : D.xi.length ≤ nb) (hf : Fits66 nao s C) (hf' : Fits66 nao s C') {a b : Char} (ha : a ≠ 'p') (hb : b ≠ 'p')
    {g0 : Dict (List Char) (GVal R)} (h0 : ∀ k, g0.get? ('b' :: k) = none) {x : NDArray R}
    (h : (fockRead D [a, b] ⟨[], g0⟩).1 = .ok x) : IsFock66 nao D.fock D.g D.xi D.shift s C C' a b x := by
  unfold fockRead at h
  rw [hs, hC] at h
  simp only [Dict.get?] at h
  cases hbl : fockBlock D.fock [s, s] [C, C'] [a, b] with
  | error e => rw [hbl] at h; cases h
  | ok block =>
    rw [hbl] at h
    simp only at h
    have hB := fockBlock_ok66 hF hf hf' ha hb hbl D.g D.xi
    cases hsh : D.shift with
    | false =>
      rw [hsh] at h
      cases h
      exact hB
    | true =>
      rw [hsh] at h
      simp only [if_true] at h
      rcases hx : couplingAttr D.g [s, s] [a, b] g0 with ⟨r, g1⟩
      rw [hx] at h
      cases r with
      | error e => cases h
      | ok u =>
        simp only at h
        rcases hy : couplingAttr D.g [s, s] [a, b].reverse g1 with ⟨r', g2⟩
        rw [hy] at h
        cases r' with
        | error e => cases h
        | ok v =>
          cases h
          have hU := couplingAttr_ok66 hf.1 hg (h0 [a, b]) (show (couplingAttr D.g [s, s] [a, b] g0).1 = .ok u by rw [hx])
          have hy' : (couplingAttr D.g [s, s] [b, a] g1).1 = .ok v := congrArg Prod.fst hy
          have hV : IsCoupling66 D.g s s b a v := by
            by_cases hab : a = b
            · subst hab
              rw [coupling_again66 (h0 _) hx hy']
              exact hU
            · refine couplingAttr_ok66 hf.1 hg ?_ hy'
              have := coupling_keeps66 (g := D.g) (s := s) (a := a) (b := b) (h0 [b, a]) (by simp [hab])
              rw [hx] at this
              exact this
          obtain ⟨ma, mb, m1, m2, m3, m4⟩ := hB
          obtain ⟨ma', mb', u1, u2, u3, u4⟩ := hU
          obtain ⟨mb'', ma'', v1, v2, v3, v4⟩ := hV
          rw [m1] at u1 v2
          rw [m2] at u2 v1
          cases u1
          cases u2
          cases v1
          cases v2
          refine ⟨ma, mb, m1, m2, m3, fun p q hbox => ?_⟩
          have hbox' : InBox block.shape [p, q] := hbox
          have hpq := hbox'
          rw [m3, inBox266] at hpq
          rw [if_pos rfl, show (shiftBlock D.xi block u v).get [p, q] = _ from NDArray.get_ofFn _ _ hbox', m4 p q hbox',
            if_neg (by simp), sub_zero]
          refine congrArg (_ - ·) (congrArg List.sum (List.map_congr_left fun n hn => ?_))
          have hn' : n < nb := lt_of_lt_of_le (List.mem_range.1 hn) hxi
          have hg0 : D.g.shape.getD 0 0 = nb := by rw [hg]; rfl
          rw [u4 n p q (by rw [u3, hg0]; exact inBox3.2 ⟨hn', hpq.1, hpq.2⟩)]
          have e : v.get [n, [p, q].getD 1 0, [p, q].getD 0 0] = v.get [n, q, p] := rfl
          rw [e, v4 n q p (by rw [v3, hg0]; exact inBox3.2 ⟨hn', hpq.2, hpq.1⟩)]

/-- C66, Fock matrices of the restricted and the general class, after any reads of Fock matrix and coupling in the
molecular basis.  Missing: with a shift, indices in the atomic basis, which raise (C53). -/
theorem C66_fock_partial (nao nb : Nat) (D : FockData R) (s : Space) (C C' : NDArray R) (hs : D.spaces = [s, s])
    (hC : D.coeffs = [C, C']) (hF : D.fock.shape = [nao, nao]) (hg : D.g.shape = [nb, s.nmo, s.nmo])
    (hxi : D.xi.length ≤ nb) (hf : Fits66 nao s C) (hf' : Fits66 nao s C') (before : List FockOp)
    (hops : FockReads D.shift (before.filterMap FockOp.fockKey)) (a b : Char) (ha : a ≠ 'p') (hb : b ≠ 'p')
    (x : NDArray R)
    (h : (fockOp D (.fock [a, b]) (runReads (fockOp D) before ⟨[], []⟩).2).1 = .ok (.block x)) :
    IsFock66 nao D.fock D.g D.xi D.shift s C C' a b x := by
  have hT := C53_fock_partial D s hs (by rw [hg]; rfl) (before ++ [.fock [a, b]]) (by
    rcases hops with h | h
    · exact Or.inl h
    · refine Or.inr fun k hk => ?_
      rw [List.filterMap_append, List.mem_append] at hk
      rcases hk with hk | hk
      · exact h k hk
      · simp only [List.filterMap_cons, FockOp.fockKey, List.filterMap_nil, List.mem_singleton] at hk
        subst hk
        simp [ha.symm, hb.symm])
  rw [read_after66 hT] at h
  simp only [fockOp] at h
  cases hr : (fockRead D [a, b] ⟨[], []⟩).1 with
  | error e => rw [hr] at h; cases h
  | ok y =>
    rw [hr] at h
    cases h
    exact fockRead_ok66 hs hC hF hg hxi hf hf' ha hb (fun _ => rfl) hr

/-- C66, unrestricted Fock matrices: the matrix, coefficients and orbitals of the spin; the part of the coupling of the
spin. -/
theorem C66_fock_unrestricted_partial (nao nb : Nat) (D : UFockData R) (s : Space × Space) (C C' : NDArray R × NDArray R)
    (hs : D.spaces = [s, s]) (hC : D.coeffs = [C, C']) (σ : Char) (hσ : σ ∈ ['a', 'b'])
    (hF : (ofSpin66 σ D.fock).shape = [nao, nao])
    (hg : D.g.shape = [nb, (ofSpin66 σ s).nmo, (ofSpin66 σ s).nmo] ∨
      D.g.shape = [2, nb, (ofSpin66 σ s).nmo, (ofSpin66 σ s).nmo])
    (hxi : D.xi.length ≤ nb) (hf : Fits66 nao (ofSpin66 σ s) (ofSpin66 σ C))
    (hf' : Fits66 nao (ofSpin66 σ s) (ofSpin66 σ C')) (before : List UFockOp)
    (hops : FockReads D.shift (before.filterMap UFockOp.fockKey)) (a b : Char) (ha : a ≠ 'p') (hb : b ≠ 'p')
    (x : NDArray R)
    (h : (ufockOp D (.fock [σ, σ] [a, b]) (runReads (ufockOp D) before ⟨[], []⟩).2).1 = .ok (.block x)) :
    ∃ gσ : NDArray R,
      (∀ n p q, n < nb → p < (ofSpin66 σ s).nmo → q < (ofSpin66 σ s).nmo → gσ.get [n, p, q]
        = if D.g.shape.length = 4 then D.g.get [if σ = 'a' then 0 else 1, n, p, q] else D.g.get [n, p, q]) ∧
      IsFock66 nao (ofSpin66 σ D.fock) gσ D.xi D.shift (ofSpin66 σ s) (ofSpin66 σ C) (ofSpin66 σ C') a b x := by
  have hT := C53_fock_unrestricted_partial D s hs (by rcases hg with hg | hg <;> simp [hg])
    (before ++ [.fock [σ, σ] [a, b]]) (by
    rcases hops with h | h
    · exact Or.inl h
    · refine Or.inr fun k hk => ?_
      rw [List.filterMap_append, List.mem_append] at hk
      rcases hk with hk | hk
      · exact h k hk
      · simp only [List.filterMap_cons, UFockOp.fockKey, List.filterMap_nil, List.mem_singleton] at hk
        subst hk
        simp [ha.symm, hb.symm])
  rw [read_after66 hT] at h
  simp only [ufockOp, ufockRead] at h
  have hmem : [σ, σ] ∈ ["aa".toList, "bb".toList] := by
    simp only [List.mem_cons, List.not_mem_nil, or_false] at hσ
    rcases hσ with rfl | rfl <;> decide
  rw [if_neg (not_not.2 hmem)] at h
  have hi : spinIndex ([σ, σ].getD 0 ' ') = if σ = 'a' then 0 else 1 := rfl
  rw [hi] at h
  simp only [Dict.get?, Option.getD_none] at h
  cases hr : (fockRead (D.spin (if σ = 'a' then 0 else 1)) [a, b] ⟨[], newElbos (if σ = 'a' then 0 else 1)⟩).1 with
  | error e => rw [hr] at h; cases h
  | ok y =>
    rw [hr] at h
    cases h
    have hshape : (spinCoupling D.g (if σ = 'a' then 0 else 1)).shape
        = [nb, (ofSpin66 σ s).nmo, (ofSpin66 σ s).nmo] := by
      unfold spinCoupling
      rcases hg with hg | hg
      · rw [if_neg (by simp [hg]), hg]
      · rw [if_pos (by simp [hg]), hg]; rfl
    refine ⟨spinCoupling D.g (if σ = 'a' then 0 else 1), fun n p q hn hp hq => ?_, ?_⟩
    · unfold spinCoupling
      split
      · rename_i h4
        refine NDArray.get_ofFn _ _ ?_
        rcases hg with hg | hg
        · simp [hg] at h4
        · rw [hg]
          exact inBox3.2 ⟨hn, hp, hq⟩
      · rfl
    · have e1 : (D.spin (if σ = 'a' then 0 else 1)).fock = ofSpin66 σ D.fock := by
        simp only [UFockData.spin, ofSpin66]
        split <;> simp_all
      have e2 : (D.spin (if σ = 'a' then 0 else 1)).spaces = [ofSpin66 σ s, ofSpin66 σ s] := by
        simp only [UFockData.spin, ofSpin66, hs, pickSpins, List.zipWith_cons_cons, List.zipWith_nil_left]
        split <;> simp_all
      have e3 : (D.spin (if σ = 'a' then 0 else 1)).coeffs = [ofSpin66 σ C, ofSpin66 σ C'] := by
        simp only [UFockData.spin, ofSpin66, hC, pickSpins, List.zipWith_cons_cons, List.zipWith_nil_left]
        split <;> simp_all
      have := fockRead_ok66 e2 e3 (e1.symm ▸ hF) hshape hxi hf hf' ha hb (newElbos_none _) hr
      rw [e1] at this
      exact this

end

/-- Three orbitals: one occupied, two virtual, of which the first is frozen. -/
def space66 : Space := ⟨[true, false, false], [false, true, false], [false, false, false]⟩

/-- Three orbitals: two occupied, one virtual. -/
def space66b : Space := ⟨[true, true, false], [false, false, false], [false, false, false]⟩

def moA66 : NDArray Int := ⟨[2, 3], [1, 2, 3, 4, 5, 6]⟩

def moB66 : NDArray Int := ⟨[2, 3], [10, 20, 30, 40, 50, 60]⟩

/-- Non-vacuity: the third index of the block `ovov` for spins `aabb` has the beta coefficients of the two occupied beta
orbitals; the second has those of the virtual alpha orbital that is not frozen; one in the atomic basis has the
identity. -/
example : (ueriRead (fun cs => .ok (cs.getD 2 ⟨[], []⟩)) (List.replicate 4 (space66, space66b))
      (List.replicate 4 (moA66, moB66)) "aabb".toList "ovov".toList []).1.toOption.map (fun x => (x.shape, x.data))
      = some ([2, 2], [10, 20, 40, 50]) ∧
    (ueriRead (fun cs => .ok (cs.getD 1 ⟨[], []⟩)) (List.replicate 4 (space66, space66b))
      (List.replicate 4 (moA66, moB66)) "aabb".toList "ovov".toList []).1.toOption.map (fun x => (x.shape, x.data))
      = some ([2, 1], [3, 6]) ∧
    (ueriRead (fun cs => .ok (cs.getD 3 ⟨[], []⟩)) (List.replicate 4 (space66, space66b))
      (List.replicate 4 (moA66, moB66)) "aabb".toList "ovop".toList []).1.toOption.map (fun x => (x.shape, x.data))
      = some ([2, 2], [1, 0, 0, 1]) := by
  refine ⟨by decide +kernel, by decide +kernel, by decide +kernel⟩

/-- The hypotheses of the theorems hold for these. -/
example : Fits66 2 space66 moA66 ∧ Fits66 2 space66b moB66 ∧
    orbitals66 space66.correlatedVirtual = [2] ∧ orbitals66 space66b.correlatedOccupied = [0, 1] :=
  ⟨⟨⟨_, _, _, (rfl : Space.new [true, false, false] [false, true, false] [false, false, false] = .ok space66)⟩, rfl⟩,
    ⟨⟨_, _, _, (rfl : Space.new [true, true, false] [false, false, false] [false, false, false] = .ok space66b)⟩, rfl⟩,
    by decide, by decide⟩

/-- A block of a Fock matrix with a shift. -/
example : (fockOp ⟨⟨[2, 2], [1, 2, 3, 4]⟩, ⟨[1, 3, 3], [1, 2, 3, 4, 5, 6, 7, 8, 9]⟩, [space66, space66], [moA66, moA66],
      true, [2]⟩ (.fock "ov".toList) ⟨[], []⟩).1.toOption.map
        (fun | .block x => (x.shape, x.data) | .index _ => ([], [])) = some ([1, 1], [3 + 12 + 36 + 96 - 2 * (3 + 7)]) := by
  decide +kernel

end Ebcc
