import Verif.Tensor.SetupRes
import Verif.Lemmas.Symmetrise
import Verif.Lemmas.Amps
import Verif.Model.FciAmps
import Mathlib.Tactic.LinearCombination
/-!
Sums over the permutations of the axes of amplitudes: each term is an amplitude with the spins moved.
-/

namespace Ebcc

theorem unpermute_map86 (axes idx : List Nat) :
    unpermute axes idx = ((List.range axes.length).map fun p => axes.idxOf p).map fun k => idx.getD k 0 := by
  unfold unpermute
  rw [List.map_map]
  rfl

/-- The spins of the orbitals after a permutation `p` of the positions, of which the first one is `b`. -/
def movedSpins (b : Nat) (s : List Char) (p : List Nat) : List Char :=
  (List.range s.length).map fun k => s.getD (p.idxOf (b + k)) 'a'

/-- The positions of the axes after a transposition: the occupied and the virtual ones. -/
def axesOcc (n : Nat) (axes : List Nat) : List Nat := ((List.range axes.length).map fun p => axes.idxOf p).take n
def axesVir (n : Nat) (axes : List Nat) : List Nat := ((List.range axes.length).map fun p => axes.idxOf p).drop n

/-- The transposition moves the occupied and the virtual axes among themselves, with the given sign. -/
def termGood (s : List Char) (q : List Nat × Int) : Bool :=
  q.1.length == 2 * s.length && (sortS (axesOcc s.length q.1)).2 == List.range s.length
    && (sortS (axesVir s.length q.1)).2 == List.range' s.length s.length
    && q.2 == (if xor (sortS (axesOcc s.length q.1)).1 (sortS (axesVir s.length q.1)).1 then -1 else 1)
    && (axesOcc s.length q.1).map (fun k => (movedSpins 0 s (axesOcc s.length q.1)).getD k 'a') == s
    && (axesVir s.length q.1).map (fun k => (movedSpins s.length s (axesVir s.length q.1)).getD (k - s.length) 'a') == s
    && (axesOcc s.length q.1).all (fun k => Nat.blt k s.length)
    && (axesVir s.length q.1).all (fun k => Nat.ble s.length k && Nat.blt k (2 * s.length))

section
variable {R : Type} [Field R] {T : List Orb → List Orb → R} {sz : Nat → Nat}

/-- The amplitude of given orbitals and spins. -/
def spinVal (T : List Orb → List Orb → R) (idx : List Nat) (s1 s2 : List Char) : R :=
  T (resOrbs 0 s1 (idx.take s1.length)) (resOrbs 1 s2 (idx.drop s1.length))

theorem range_getD86 (l : List Nat) (d : Nat) : (List.range l.length).map (fun k => l.getD k d) = l := range_map_getD_exp l d

theorem moved_length86 (b : Nat) (s : List Char) (p : List Nat) : (movedSpins b s p).length = s.length := by simp [movedSpins]

theorem forall₂_const86 (l : List Nat) (m : Nat) (h : ∀ i ∈ l, i < m) : List.Forall₂ (fun i n => i < n) l (List.replicate l.length m) := by
  induction l with
  | nil => exact .nil
  | cons i l ih =>
    rw [List.length_cons, List.replicate_succ]
    exact .cons (h i (List.mem_cons_self ..)) (ih fun j hj => h j (List.mem_cons_of_mem _ hj))

theorem forall₂_append86 {l l' m m' : List Nat} (h : List.Forall₂ (fun i n => i < n) l m)
    (h' : List.Forall₂ (fun i n => i < n) l' m') : List.Forall₂ (fun i n => i < n) (l ++ l') (m ++ m') := by
  induction h with
  | nil => exact h'
  | cons a _ ih => exact .cons a ih

theorem inBox_pair86 {n a b : Nat} {idx : List Nat} : InBox (List.replicate n a ++ List.replicate n b) idx ↔
    idx.length = 2 * n ∧ (∀ k, k < n → idx.getD k 0 < a) ∧ ∀ k, n ≤ k → k < 2 * n → idx.getD k 0 < b := by
  constructor
  · intro h
    have hl := h.length_eq
    simp only [List.length_append, List.length_replicate] at hl
    unfold InBox at h
    rw [List.forall₂_iff_get] at h
    refine ⟨by omega, fun k hk => ?_, fun k hk hk' => ?_⟩
    · have := h.2 k (by omega) (by simp; omega)
      simp only [List.get_eq_getElem] at this
      rw [List.getElem_append_left (by simpa using hk), List.getElem_replicate] at this
      rw [getD_eq_getElem_chk _ _ (by omega)]
      exact this
    · have := h.2 k (by omega) (by simp; omega)
      simp only [List.get_eq_getElem] at this
      rw [List.getElem_append_right (by simpa using hk), List.getElem_replicate] at this
      rw [getD_eq_getElem_chk _ _ (by omega)]
      exact this
  · rintro ⟨hl, h1, h2⟩
    have e : idx = idx.take n ++ idx.drop n := (List.take_append_drop n idx).symm
    unfold InBox
    have l1 : (idx.take n).length = n := by simp; omega
    have l2 : (idx.drop n).length = n := by simp; omega
    rw [e]
    refine forall₂_append86 ?_ ?_
    · have := forall₂_const86 (idx.take n) a (fun i hi => by
        obtain ⟨k, hk, rfl⟩ := List.mem_iff_getElem.1 hi
        rw [l1] at hk
        rw [List.getElem_take]
        have := h1 k hk
        rwa [getD_eq_getElem_chk _ _ (by omega)] at this)
      rwa [l1] at this
    · have := forall₂_const86 (idx.drop n) b (fun i hi => by
        obtain ⟨k, hk, rfl⟩ := List.mem_iff_getElem.1 hi
        rw [l2] at hk
        rw [List.getElem_drop]
        have := h2 (n + k) (by omega) (by omega)
        rwa [getD_eq_getElem_chk _ _ (by omega)] at this)
      rwa [l2] at this

theorem SpinSizes.shape (hz : SpinSizes sz) (s : List Char) :
    (excSpaces s).map sz = List.replicate s.length (sz 0) ++ List.replicate s.length (sz 1) := by
  rw [hz.axes]
  simp

/-- An element of a transposed array of amplitudes. -/
theorem termGood_sound (hT : Antisymmetric T) (hz : SpinSizes sz) {s : List Char} {q : List Nat × Int}
    (h : termGood s q = true) {idx : List Nat} (hidx : InBox ((excSpaces s).map sz) idx) :
    (ampArr sz T 1 (excSpaces s)).get (unpermute q.1 idx) * ((q.2 : Int) : R)
      = spinVal T idx (movedSpins 0 s (axesOcc s.length q.1)) (movedSpins s.length s (axesVir s.length q.1)) := by
  simp only [termGood, Bool.and_eq_true, beq_iff_eq, List.all_eq_true] at h
  obtain ⟨⟨⟨⟨⟨⟨⟨h0, h1⟩, h2⟩, h3⟩, h4⟩, h5⟩, h6⟩, h7⟩ := h
  set n := s.length with hn
  set p1 := axesOcc n q.1 with hp1
  set p2 := axesVir n q.1 with hp2
  have hl1 : p1.length = n := by simp [hp1, axesOcc, h0]; omega
  have hl2 : p2.length = n := by simp [hp2, axesVir, h0]; omega
  rw [hz.shape] at hidx
  obtain ⟨i0, i1, i2⟩ := inBox_pair86.1 hidx
  have hu : unpermute q.1 idx = p1.map (fun k => idx.getD k 0) ++ p2.map fun k => idx.getD k 0 := by
    rw [unpermute_map86, ← List.map_append]
    congr 1
    exact (List.take_append_drop n _).symm
  have hbox : InBox ((excSpaces s).map sz) (unpermute q.1 idx) := by
    rw [hu, hz.shape]
    unfold InBox
    refine forall₂_append86 ?_ ?_
    · have := forall₂_const86 (p1.map fun k => idx.getD k 0) (sz 0) (fun i hi => by
        obtain ⟨k, hk, rfl⟩ := List.mem_map.1 hi
        exact i1 k (by simpa [Nat.blt, Nat.succ_le_iff] using h6 k hk))
      simpa [hl1] using this
    · have := forall₂_const86 (p2.map fun k => idx.getD k 0) (sz 1) (fun i hi => by
        obtain ⟨k, hk, rfl⟩ := List.mem_map.1 hi
        have := h7 k hk
        simp only [Nat.ble_eq, Nat.blt_eq] at this
        exact i2 k this.1 this.2)
      simpa [hl2] using this
  rw [ampArr, NDArray.get_ofFn _ _ hbox, mul_one,
    resOrbs_axes s (by have := hbox.length_eq; simpa using this), hu, ← hn,
    List.take_left' (by simpa using hl1), List.drop_left' (by simpa using hl1)]
  let f : Nat → Nat := fun k => idx.getD k 0
  let m1 := movedSpins 0 s p1
  let m2 := movedSpins n s p2
  let g0 : Nat → Orb := fun k => (if m1.getD k 'a' = 'a' then 0 else 0 + 4, f k)
  let g1 : Nat → Orb := fun k => (if m2.getD (k - n) 'a' = 'a' then 1 else 1 + 4, f k)
  have e1 := sortS_sound (fun I => T I (p2.map g1)) (fun I J x y => hT.occ I J x y _) g0 p1 []
  have e2 := sortS_sound (fun A => T ((List.range n).map g0) A) (fun I J x y => hT.vir _ I J x y) g1 p2 []
  simp only [List.nil_append, h1, h2] at e1 e2
  have u1 : resOrbs 0 s (p1.map f) = p1.map g0 := by
    have := resOrbs_map 0 p1 (fun k => m1.getD k 'a') f
    rwa [h4] at this
  have u2 : resOrbs 1 s (p2.map f) = p2.map g1 := by
    have := resOrbs_map 1 p2 (fun k => m2.getD (k - n) 'a') f
    rwa [h5] at this
  have hm1 : m1.length = n := moved_length86 _ _ _
  have hm2 : m2.length = n := moved_length86 _ _ _
  have r0 := range_getD86 idx 0
  have hr : List.range idx.length = List.range n ++ List.range' n n := by
    rw [i0, ← hn, two_mul, List.range_eq_range', List.range_eq_range', ← List.range'_append]
    simp
  rw [hr, List.map_append] at r0
  have r1 : idx.take n = (List.range n).map f := by
    conv_lhs => rw [← r0]
    rw [List.take_left' (by simp)]
  have r2 : idx.drop n = (List.range' n n).map f := by
    conv_lhs => rw [← r0]
    rw [List.drop_left' (by simp)]
  have t1 : resOrbs 0 m1 ((List.range n).map f) = (List.range n).map g0 := by
    have := resOrbs_map 0 (List.range n) (fun k => m1.getD k 'a') f
    rwa [← hm1, range_res, hm1] at this
  have t2 : resOrbs 1 m2 ((List.range' n n).map f) = (List.range' n n).map g1 := by
    have := resOrbs_map 1 (List.range' n n) (fun k => m2.getD (k - n) 'a') f
    rwa [← hm2, range'_res, hm2] at this
  have hv : spinVal T idx m1 m2 = T ((List.range n).map g0) ((List.range' n n).map g1) := by
    unfold spinVal
    rw [hm1, r1, r2, t1, t2]
  change T (resOrbs 0 s (p1.map f)) (resOrbs 1 s (p2.map f)) * _ = spinVal T idx m1 m2
  rw [u1, u2, hv, e1, e2, h3]
  have hx := sgnB_xor (R := R) (sortS p1).1 (sortS p2).1
  have hc : (((if ((sortS p1).1 ^^ (sortS p2).1) = true then -1 else 1 : Int)) : R) = sgnB (sortS p1).1 * sgnB (sortS p2).1 := by
    rw [← hx]
    unfold sgnB
    split <;> simp
  rw [hc]
  have s1 : ∀ b : Bool, (sgnB b : R) * sgnB b = 1 := by intro b; cases b <;> simp [sgnB]
  linear_combination (s1 (sortS p1).1) * (sgnB (sortS p2).1 * sgnB (sortS p2).1) * T ((List.range n).map g0) ((List.range' n n).map g1) + (s1 (sortS p2).1) * T ((List.range n).map g0) ((List.range' n n).map g1)

theorem ampArr_spinVal (sz : Nat → Nat) (T : List Orb → List Orb → R) (w : R) (s : List Char) :
    ampArr sz T w (excSpaces s) = NDArray.ofFn ((excSpaces s).map sz) fun idx => spinVal T idx s s * w := by
  simp only [ampArr, NDArray.ofFn]
  congr 1
  apply List.map_congr_left
  intro idx hidx
  have hl := (mem_box.1 hidx).length_eq
  rw [resOrbs_axes s (by simpa using hl)]
  rfl

/-- The transposed array. -/
theorem transpose_amp86 (hT : Antisymmetric T) (hz : SpinSizes sz) {s s' : List Char} {axes : List Nat}
    (h : termGood s (axes, 1) = true) (hs : movedSpins 0 s (axesOcc s.length axes) = s')
    (hs' : movedSpins s.length s (axesVir s.length axes) = s') (hp : axes.isPerm (List.range (2 * s.length)) = true)
    (hb : axes.map (fun p => decide (p < s.length)) = List.replicate s.length true ++ List.replicate s.length false) :
    (ampArr sz T 1 (excSpaces s)).transpose axes = .ok (ampArr sz T 1 (excSpaces s')) := by
  have hsh : (ampArr sz T 1 (excSpaces s)).shape = List.replicate s.length (sz 0) ++ List.replicate s.length (sz 1) := by
    rw [ampArr, NDArray.ofFn_shape, hz.shape]
  have hlen : s'.length = s.length := by rw [← hs]; exact moved_length86 _ _ _
  rw [transpose_ok _ _ (by rw [hsh]; simpa [two_mul, List.isPerm_iff] using hp)]
  congr 1
  rw [ampArr_spinVal sz T 1 s']
  have hshape : (axes.map fun p => (ampArr sz T 1 (excSpaces s)).shape.getD p 0) = (excSpaces s').map sz := by
    rw [hz.shape, hlen, hsh]
    have e1 : ∀ p ∈ axes, (List.replicate s.length (sz 0) ++ List.replicate s.length (sz 1)).getD p 0
        = (if decide (p < s.length) = true then sz 0 else sz 1) := by
      intro p hp'
      have hlt : p < 2 * s.length := by
        have := (List.isPerm_iff.1 hp).mem_iff.1 hp'
        simpa using this
      rw [getD_eq_getElem_chk _ _ (by simp; omega)]
      by_cases hps : p < s.length
      · rw [List.getElem_append_left (by simpa using hps)]; simp [hps]
      · rw [List.getElem_append_right (by simpa using hps)]; simp [hps]
    rw [List.map_congr_left e1]
    have : (axes.map fun p => if decide (p < s.length) = true then sz 0 else sz 1)
        = (axes.map fun p => decide (p < s.length)).map fun b => if b = true then sz 0 else sz 1 := by
      rw [List.map_map]; rfl
    rw [this, hb]
    simp
  rw [hshape]
  simp only [NDArray.ofFn]
  congr 1
  apply List.map_congr_left
  intro idx hidx
  have hidx' : InBox ((excSpaces s).map sz) idx := by
    have := mem_box.1 hidx
    rwa [hz.shape, hlen, ← hz.shape] at this
  have := termGood_sound hT hz h hidx'
  simp only [Int.cast_one, mul_one] at this ⊢
  rw [this, hs, hs']

/-- `symmetrise` sums the amplitudes with the spins moved. -/
theorem symmetriseOver_ok (hT : Antisymmetric T) (hz : SpinSizes sz) {s s' : List Char} {sub : List Char} {c w w' : R}
    (hsub : sub = (sub.take s.length) ++ (sub.drop s.length) ∧ (sub.take s.length).length = s.length ∧
      (sub.drop s.length).length = s.length ∧ (∀ x ∈ sub.take s.length, x = 'i' ∨ x = 'j') ∧
      ∀ x ∈ sub.drop s.length, x ≠ 'i' ∧ x ≠ 'j')
    (hne : sub ≠ []) (scomp : List Char)
    (hsymm : symmetryLoop (List.replicate sub.length '-') ((List.range (ngroups sub)).map (mult sub)) 0 = .ok scomp)
    (hx : ∀ p ∈ posOf sub 0, (List.replicate sub.length '-')[p]? = some '-')
    (hg : (symTerms sub true).all (termGood s) = true) (hlen : s'.length = s.length)
    (hsum : ∀ idx, idx.length = 2 * s.length → ((symTerms sub true).map fun q =>
      spinVal T idx (movedSpins 0 s (axesOcc s.length q.1)) (movedSpins s.length s (axesVir s.length q.1))).sum
        = c * spinVal T idx s' s') (hw : c / w = w') :
    symmetriseOver sub (ampArr sz T 1 (excSpaces s)) w = .ok (ampArr sz T w' (excSpaces s')) := by
  obtain ⟨b1, b2, b3, b4, b5⟩ := hsub
  have hsh : (ampArr sz T 1 (excSpaces s)).shape = List.replicate s.length (sz 0) ++ List.replicate s.length (sz 1) := by
    rw [ampArr, NDArray.ofFn_shape, hz.shape]
  have hcons : Consistent sub (ampArr sz T 1 (excSpaces s)).shape := by
    refine ⟨fun x => if x = 'i' ∨ x = 'j' then sz 0 else sz 1, ?_⟩
    rw [hsh, b1, List.map_append]
    congr 1
    · symm
      rw [List.eq_replicate_iff]
      refine ⟨by simpa using b2, fun x hx => ?_⟩
      obtain ⟨y, hy, rfl⟩ := List.mem_map.1 hx
      rw [if_pos (b4 y hy)]
    · symm
      rw [List.eq_replicate_iff]
      refine ⟨by simpa using b3, fun x hx => ?_⟩
      obtain ⟨y, hy, rfl⟩ := List.mem_map.1 hx
      rw [if_neg (not_or.2 (b5 y hy))]
  have := symmetrise_ok sub hne (ampArr sz T 1 (excSpaces s)) hcons none scomp hsymm '-' hx false
  unfold symmetriseOver
  rw [this]
  simp only [bind, Except.bind, pure, Except.pure]
  congr 1
  rw [ampArr_spinVal sz T w' s', hz.shape, hlen, hsh]
  simp only [NDArray.ofFn, NDArray.map, List.map_map]
  congr 1
  apply List.map_congr_left
  intro idx hidx
  have hidx' : InBox ((excSpaces s).map sz) idx := by
    rw [hz.shape]; exact mem_box.1 hidx
  have hl : idx.length = 2 * s.length := by
    have := (mem_box.1 hidx).length_eq
    simp only [List.length_append, List.length_replicate] at this
    omega
  have e : permSum (symTerms sub true) (ampArr sz T 1 (excSpaces s)) idx = c * spinVal T idx s' s' := by
    rw [← hsum idx hl]
    unfold permSum
    congr 1
    apply List.map_congr_left
    intro q hq
    exact termGood_sound hT hz (List.all_eq_true.1 hg q hq) hidx'
  simp only [Function.comp, decide_true, Bool.false_eq_true, if_false, mul_one]
  rw [e, ← hw]
  ring

/-! ### The ladder for spins -/

def lowC : List Char → List (List Char)
  | [] => []
  | x :: l => (if x = 'a' then ['b' :: l] else []) ++ (lowC l).map fun m => x :: m

def raiC : List Char → List (List Char)
  | [] => []
  | x :: l => (if x = 'a' then [] else ['a' :: l]) ++ (raiC l).map fun m => x :: m

theorem lowered_resOrbs {b : Nat} (hb : b < 4) (s : List Char) (v : List Nat) (h : v.length = s.length) :
    lowered (resOrbs b s v) = (lowC s).map fun m => resOrbs b m v := by
  induction s generalizing v with
  | nil => rfl
  | cons c s ih =>
    cases v with
    | nil => simp at h
    | cons i v =>
      have := ih v (by simpa using h)
      simp only [resOrbs, List.zipWith_cons_cons, lowered, lowC] at this ⊢
      rw [this]
      by_cases hc : c = 'a'
      · simp [hc, hb, flipSpin, Function.comp_def]
      · simp [hc, Function.comp_def]

theorem raised_resOrbs {b : Nat} (hb : b < 4) (s : List Char) (v : List Nat) (h : v.length = s.length) :
    raised (resOrbs b s v) = (raiC s).map fun m => resOrbs b m v := by
  induction s generalizing v with
  | nil => rfl
  | cons c s ih =>
    cases v with
    | nil => simp at h
    | cons i v =>
      have := ih v (by simpa using h)
      simp only [resOrbs, List.zipWith_cons_cons, raised, raiC] at this ⊢
      rw [this]
      by_cases hc : c = 'a'
      · simp [hc, hb, Function.comp_def]
      · simp [hc, flipSpin, Function.comp_def]

theorem lowC_length (s m : List Char) (h : m ∈ lowC s) : m.length = s.length := by
  induction s generalizing m with
  | nil => cases h
  | cons c s ih =>
    simp only [lowC, List.mem_append, List.mem_map] at h
    rcases h with h | ⟨k, hk, rfl⟩
    · split at h
      · simp at h; subst h; rfl
      · cases h
    · simp [ih k hk]

theorem raiC_length (s m : List Char) (h : m ∈ raiC s) : m.length = s.length := by
  induction s generalizing m with
  | nil => cases h
  | cons c s ih =>
    simp only [raiC, List.mem_append, List.mem_map] at h
    rcases h with h | ⟨k, hk, rfl⟩
    · split at h
      · cases h
      · simp at h; subst h; rfl
    · simp [ih k hk]

/-- The ladder condition for the spins of given orbitals. -/
theorem Singlet.spins (hS : Singlet T) {idx : List Nat} {s1 s2 : List Char} (h1 : idx.length = 2 * s1.length)
    (h2 : s2.length = s1.length) :
    ((lowC s2).map fun s => spinVal T idx s1 s).sum = ((raiC s1).map fun s => spinVal T idx s s2).sum := by
  have := hS.ladder (resOrbs 0 s1 (idx.take s1.length)) (resOrbs 1 s2 (idx.drop s1.length))
    (fun x hx => resOrbs_space _ _ _ x hx) (fun x hx => resOrbs_space _ _ _ x hx)
  rw [lowered_resOrbs (by omega) _ _ (by simp; omega), raised_resOrbs (by omega) _ _ (by simp; omega), List.map_map,
    List.map_map] at this
  refine Eq.trans ?_ (this.trans ?_)
  · rfl
  · congr 1
    apply List.map_congr_left
    intro m hm
    simp only [Function.comp, spinVal, raiC_length s1 m hm]

theorem Singlet.flipVal (hS : Singlet T) (idx : List Nat) (s1 s2 : List Char) :
    spinVal T idx (s1.map flipC) (s2.map flipC) = spinVal T idx s1 s2 := by
  unfold spinVal
  rw [← resOrbs_flip (by omega), ← resOrbs_flip (by omega), List.length_map]
  exact hS.flip _ _ (fun x hx => resOrbs_space _ _ _ x hx) (fun x hx => resOrbs_space _ _ _ x hx)

theorem ampArr_flip (hS : Singlet T) (hz : SpinSizes sz) (w : R) (s : List Char) :
    ampArr sz T w (excSpaces (s.map flipC)) = ampArr sz T w (excSpaces s) := by
  rw [ampArr_spinVal, ampArr_spinVal, hz.shape, hz.shape, List.length_map]
  congr 1
  funext idx
  rw [hS.flipVal]

end
end Ebcc
