import Verif.Thms.C20
import Verif.Thms.C19
import Mathlib.Algebra.Order.Field.Rat
import Mathlib.Data.Rat.Defs

/-!
C22: the default space and the frozen natural orbital space.
-/

namespace Ebcc

theorem inMask_map {α : Type} (f : α → Bool) (l : List α) (p : Nat) (hp : p < l.length) :
    inMask (l.map f) p = f l[p] := by
  rw [inMask_eq_getElem (by simpa using hp), List.getElem_map]

theorem inMask_replicate_false (n p : Nat) : inMask (List.replicate n false) p = false := by
  by_cases h : p < n
  · rw [inMask_eq_getElem (by simpa using h), List.getElem_replicate]
  · have : ¬ inMask (List.replicate n false) p = true := fun h' => h (by simpa using inMask_lt h')
    simpa using this

theorem inMask_tail (n k p : Nat) :
    inMask (List.replicate n false ++ List.replicate k true) p = true ↔ n ≤ p ∧ p < n + k := by
  constructor
  · intro h
    have hlt := inMask_lt h
    rw [inMask_eq_getElem hlt] at h
    simp only [List.length_append, List.length_replicate] at hlt
    refine ⟨?_, hlt⟩
    by_contra hcon
    rw [List.getElem_append_left (by simpa using hcon), List.getElem_replicate] at h
    cases h
  · rintro ⟨h1, h2⟩
    rw [inMask_eq_getElem (by simpa using h2), List.getElem_append_right (by simpa using h1),
      List.getElem_replicate]

theorem new_ok (o f a : List Bool) (h1 : o.length = f.length) (h2 : f.length = a.length)
    (h3 : ∀ p, inMask a p = false) : Space.new o f a = .ok ⟨o, f, a⟩ := by
  apply C20_accepts
  rw [Ne, C20_rejects_iff]
  rintro (h | ⟨p, _, h⟩)
  · exact h ⟨h1, h2⟩
  · rw [h3 p] at h; cases h

theorem map_eq_replicate {α : Type} (f : α → Bool) (b : Bool) (l : List α) (h : ∀ x ∈ l, f x = b) :
    l.map f = List.replicate l.length b := by
  induction l with
  | nil => rfl
  | cons x l ih =>
    rw [List.map_cons, List.length_cons, List.replicate_succ, h x List.mem_cons_self,
      ih fun y hy => h y (List.mem_cons_of_mem _ hy)]

/-- The default space always exists; an orbital is occupied if and only if its occupation is positive;
no orbital is frozen or active. -/
theorem C22_default {R : Type} [Zero R] [LT R] [DecidableRel (α := R) (· < ·)] (moOcc : List R) :
    ∃ s, constructDefaultSpace moOcc = .ok s ∧ s.nmo = moOcc.length ∧
      (∀ (p : Nat) (hp : p < moOcc.length), inMask s.occupied p = true ↔ 0 < moOcc[p]) ∧
      (∀ p, inMask s.frozen p = false ∧ inMask s.active p = false) ∧
      s.nfroz = 0 ∧ s.nact = 0 := by
  have hne : Space.new (moOcc.map fun x => decide (0 < x)) (List.replicate moOcc.length false)
      (List.replicate moOcc.length false) =
        .ok ⟨moOcc.map fun x => decide (0 < x), List.replicate moOcc.length false,
          List.replicate moOcc.length false⟩ := by
    apply new_ok
    · simp
    · simp
    · exact fun p => inMask_replicate_false _ _
  refine ⟨_, hne, by simp [Space.nmo], fun p hp => ?_, fun p => ⟨inMask_replicate_false _ _, inMask_replicate_false _ _⟩, ?_, ?_⟩
  · rw [inMask_map _ _ _ hp, decide_eq_true_iff]
  · simp [Space.nfroz, countTrue, List.count_replicate]
  · simp [Space.nact, countTrue, List.count_replicate]

section
variable {R : Type} [Field R] [LinearOrder R]

theorem countTrue_map {α : Type} (f : α → Bool) (l : List α) : countTrue (l.map f) = l.countP f := by
  unfold countTrue
  induction l with
  | nil => rfl
  | cons x l ih => rw [List.map_cons, List.count_cons, List.countP_cons, ih]; simp

omit [LinearOrder R] in
theorem length_cumsum (acc : R) (l : List R) : (cumsum acc l).length = l.length := by
  induction l generalizing acc with
  | nil => rfl
  | cons x l ih => simp [cumsum, ih]

theorem length_fnoActive (n : List R) (t : R) (fr : Option R) : (fnoActive n t fr).length = n.length := by
  unfold fnoActive
  split
  · simp
  · simp [length_cumsum]

theorem countTrue_le (l : List Bool) : countTrue l ≤ l.length := List.count_le_length

/-- The number of orbitals kept. -/
theorem fno_kept_le (eigs : List R) (t : R) (fr : Option R) :
    countTrue (fnoActive eigs.reverse t fr) ≤ eigs.length := by
  have := countTrue_le (fnoActive eigs.reverse t fr)
  rwa [length_fnoActive, List.length_reverse] at this

/-- Occupied orbitals listed first, one natural occupation for each virtual orbital: the space is
accepted, the occupied orbitals are those with positive occupation and are not frozen, nothing is
active, and the frozen orbitals are those behind the kept natural orbitals. -/
theorem C22_fno_partial (occ vir : List R) (ho : ∀ x ∈ occ, 0 < x) (hv : ∀ x ∈ vir, ¬ 0 < x)
    (eigs : List R) (hlen : eigs.length = vir.length) (t : R) (fr : Option R) :
    ∃ s, constructFnoSpace (occ ++ vir) eigs t fr = .ok s ∧ s.nmo = occ.length + vir.length ∧
      (∀ p, inMask s.occupied p = true ↔ p < occ.length) ∧
      (∀ p, inMask s.occupied p = true → inMask s.frozen p = false) ∧
      (∀ p, inMask s.active p = false) ∧
      (∀ p, inMask s.frozen p = true ↔
        occ.length + countTrue (fnoActive eigs.reverse t fr) ≤ p ∧ p < occ.length + vir.length) := by
  have hkept := fno_kept_le eigs t fr
  obtain ⟨nact, hna⟩ : ∃ k, k = countTrue (fnoActive eigs.reverse t fr) := ⟨_, rfl⟩
  have hmask : (occ ++ vir).map (fun x => decide (0 < x))
      = List.replicate occ.length true ++ List.replicate vir.length false := by
    rw [List.map_append]
    congr 1
    · exact map_eq_replicate _ _ _ fun x hx => decide_eq_true (ho x hx)
    · exact map_eq_replicate _ _ _ fun x hx => decide_eq_false (hv x hx)
  have hcount : countTrue (List.replicate occ.length true ++ List.replicate vir.length false) = occ.length := by
    simp [countTrue, List.count_append, List.count_replicate]
  have hocc : ∀ p, inMask (List.replicate occ.length true ++ List.replicate vir.length false) p = true ↔
      p < occ.length := by
    intro p
    constructor
    · intro h
      by_contra hcon
      have hlt := inMask_lt h
      rw [inMask_eq_getElem hlt, List.getElem_append_right (by simpa using hcon), List.getElem_replicate] at h
      cases h
    · intro h
      rw [inMask_eq_getElem (by simp; omega), List.getElem_append_left (by simpa using h),
        List.getElem_replicate]
  have hnew : constructFnoSpace (occ ++ vir) eigs t fr = .ok
      ⟨List.replicate occ.length true ++ List.replicate vir.length false,
       List.replicate (occ.length + nact) false ++ List.replicate (vir.length - nact) true,
       List.replicate (occ.length + vir.length) false⟩ := by
    unfold constructFnoSpace
    simp only [hmask, hcount, ← hna, List.length_append]
    rw [show occ.length + vir.length - occ.length - nact = vir.length - nact from by omega]
    apply new_ok
    · simp; omega
    · simp; omega
    · exact fun p => inMask_replicate_false _ _
  refine ⟨_, hnew, by simp [Space.nmo], hocc, fun p hp => ?_, fun p => inMask_replicate_false _ _,
    fun p => ?_⟩
  · have h1 := (hocc p).1 hp
    have : ¬ inMask (List.replicate (occ.length + nact) false ++ List.replicate (vir.length - nact) true) p = true := by
      rw [inMask_tail]; omega
    simpa using this
  · show inMask (List.replicate (occ.length + nact) false ++ List.replicate (vir.length - nact) true) p = true ↔ _
    rw [inMask_tail, ← hna]
    omega

/-- The position of a virtual natural orbital: position `nocc + k` of the new orbitals has the `k`-th
largest natural occupation.  A frozen one never has a larger occupation than one that is kept. -/
theorem C22_fno_freezes_lowest_partial (occ vir : List R) (ho : ∀ x ∈ occ, 0 < x) (hv : ∀ x ∈ vir, ¬ 0 < x)
    (eigs : List R) (hlen : eigs.length = vir.length) (hsorted : eigs.Pairwise (· ≤ ·)) (t : R)
    (fr : Option R) (s : Space) (hs : constructFnoSpace (occ ++ vir) eigs t fr = .ok s) (k l : Nat)
    (hk : k < eigs.reverse.length) (hl : l < eigs.reverse.length)
    (hkept : inMask s.frozen (occ.length + k) = false) (hfroz : inMask s.frozen (occ.length + l) = true) :
    eigs.reverse[l] ≤ eigs.reverse[k] := by
  obtain ⟨s', h1, h2, h3, h4, h5, h6⟩ := C22_fno_partial occ vir ho hv eigs hlen t fr
  rw [hs] at h1
  cases h1
  have hl' := (h6 _).1 hfroz
  have hk' : ¬ inMask s.frozen (occ.length + k) = true := by simp [hkept]
  rw [h6] at hk'
  rw [List.length_reverse] at hk
  have hkl : k < l := by omega
  have hrev : eigs.reverse.Pairwise (fun a b => b ≤ a) := List.pairwise_reverse.2 hsorted
  exact List.pairwise_iff_getElem.1 hrev k l _ hl hkl

theorem countP_prefix {α : Type} (f : α → Bool) (l : List α)
    (hmono : l.Pairwise fun a b => f b = true → f a = true) (k : Nat) (hk : k < l.length) :
    f l[k] = true ↔ k < l.countP f := by
  induction l generalizing k with
  | nil => simp at hk
  | cons x l ih =>
    rw [List.pairwise_cons] at hmono
    rw [List.countP_cons]
    cases k with
    | zero =>
      simp only [List.getElem_cons_zero]
      constructor
      · intro h; simp [h]
      · intro h
        by_contra hx
        rw [if_neg hx, Nat.add_zero, List.countP_pos_iff] at h
        obtain ⟨b, hb, hfb⟩ := h
        exact hx (hmono.1 b hb hfb)
    | succ k =>
      simp only [List.getElem_cons_succ]
      rw [ih hmono.2 k (by simpa using hk)]
      by_cases hx : f x = true
      · simp [hx]
      · rw [if_neg hx]
        have : l.countP f = 0 := by
          rw [List.countP_eq_zero]
          intro b hb hfb
          exact hx (hmono.1 b hb hfb)
        omega

/-- By threshold: a natural orbital is kept if and only if its occupation exceeds `occ_tol`. -/
theorem C22_fno_threshold_partial (occ vir : List R) (ho : ∀ x ∈ occ, 0 < x) (hv : ∀ x ∈ vir, ¬ 0 < x)
    (eigs : List R) (hlen : eigs.length = vir.length) (hsorted : eigs.Pairwise (· ≤ ·)) (t : R)
    (s : Space) (hs : constructFnoSpace (occ ++ vir) eigs t none = .ok s) (k : Nat)
    (hk : k < eigs.reverse.length) :
    inMask s.frozen (occ.length + k) = false ↔ t < eigs.reverse[k] := by
  obtain ⟨s', h1, h2, h3, h4, h5, h6⟩ := C22_fno_partial occ vir ho hv eigs hlen t none
  rw [hs] at h1
  cases h1
  have hrev : eigs.reverse.Pairwise (fun a b => b ≤ a) := List.pairwise_reverse.2 hsorted
  have hpre := countP_prefix (fun x => decide (t < x)) eigs.reverse
    (hrev.imp fun {a b} hab => by simpa using fun h : t < b => lt_of_lt_of_le h hab) k hk
  have h7 := h6 (occ.length + k)
  have hc : countTrue (fnoActive eigs.reverse t none) = eigs.reverse.countP (fun x => decide (t < x)) := by
    simp only [fnoActive]; exact countTrue_map _ _
  rw [hc] at h7
  rw [← Bool.not_eq_true, h7]
  rw [decide_eq_true_iff] at hpre
  rw [hpre]
  rw [List.length_reverse] at hk
  omega

/-- A larger `occ_tol` never freezes fewer orbitals: every orbital frozen with the smaller threshold is
frozen with the larger one.  No assumption on the spectrum. -/
theorem C22_fno_tol_monotone_partial (occ vir : List R) (ho : ∀ x ∈ occ, 0 < x) (hv : ∀ x ∈ vir, ¬ 0 < x)
    (eigs : List R) (hlen : eigs.length = vir.length) (t t' : R) (htt : t ≤ t') (s s' : Space)
    (hs : constructFnoSpace (occ ++ vir) eigs t none = .ok s)
    (hs' : constructFnoSpace (occ ++ vir) eigs t' none = .ok s') (p : Nat)
    (hp : inMask s.frozen p = true) : inMask s'.frozen p = true := by
  obtain ⟨u, h1, -, -, -, -, h6⟩ := C22_fno_partial occ vir ho hv eigs hlen t none
  obtain ⟨u', h1', -, -, -, -, h6'⟩ := C22_fno_partial occ vir ho hv eigs hlen t' none
  rw [hs] at h1
  rw [hs'] at h1'
  cases h1
  cases h1'
  rw [h6] at hp
  rw [h6']
  have : countTrue (fnoActive eigs.reverse t' none) ≤ countTrue (fnoActive eigs.reverse t none) := by
    simp only [fnoActive]
    rw [countTrue_map, countTrue_map]
    apply List.countP_mono_left
    intro x _ hx
    rw [decide_eq_true_iff] at hx ⊢
    exact lt_of_le_of_lt htt hx
  omega

/-- A larger `occ_frac` never freezes more orbitals. -/
theorem C22_fno_frac_monotone_partial (occ vir : List R) (ho : ∀ x ∈ occ, 0 < x) (hv : ∀ x ∈ vir, ¬ 0 < x)
    (eigs : List R) (hlen : eigs.length = vir.length) (t f f' : R) (hff : f ≤ f') (s s' : Space)
    (hs : constructFnoSpace (occ ++ vir) eigs t (some f) = .ok s)
    (hs' : constructFnoSpace (occ ++ vir) eigs t (some f') = .ok s') (p : Nat)
    (hp : inMask s'.frozen p = true) : inMask s.frozen p = true := by
  obtain ⟨u, h1, -, -, -, -, h6⟩ := C22_fno_partial occ vir ho hv eigs hlen t (some f)
  obtain ⟨u', h1', -, -, -, -, h6'⟩ := C22_fno_partial occ vir ho hv eigs hlen t (some f')
  rw [hs] at h1
  rw [hs'] at h1'
  cases h1
  cases h1'
  rw [h6'] at hp
  rw [h6]
  have : countTrue (fnoActive eigs.reverse t (some f)) ≤ countTrue (fnoActive eigs.reverse t (some f')) := by
    simp only [fnoActive]
    rw [countTrue_map, countTrue_map]
    apply List.countP_mono_left
    intro x _ hx
    rw [decide_eq_true_iff] at hx ⊢
    exact le_trans hx hff
  omega

end

/-- When the occupied orbitals are not listed first an occupied orbital is frozen: occupations (0, 2),
natural occupation 0 of the virtual, any threshold. -/
theorem C22_fno_freezes_occupied :
    ∃ s : Space, constructFnoSpace ([0, 2] : List Rat) [0] 0 none = .ok s ∧
      inMask s.occupied 1 = true ∧ inMask s.frozen 1 = true :=
  ⟨⟨[false, true], [false, true], [false, false]⟩, by decide +kernel, by decide, by decide⟩

example : constructDefaultSpace ([2, 2, 0, 1, 0] : List Int) =
    .ok ⟨[true, true, false, true, false], [false, false, false, false, false],
      [false, false, false, false, false]⟩ := by decide

/-- Two occupied and three virtual orbitals with natural occupations 1/100, 1/1000, 0. -/
example : constructFnoSpace ([2, 2, 0, 0, 0] : List Rat) [0, 1/1000, 1/100] (1/100000) none =
    .ok ⟨[true, true, false, false, false], [false, false, false, false, true],
      [false, false, false, false, false]⟩ := by decide +kernel

example : constructFnoSpace ([2, 2, 0, 0, 0] : List Rat) [0, 1/1000, 1/100] 0 (some (19/20)) =
    .ok ⟨[true, true, false, false, false], [false, false, false, true, true],
      [false, false, false, false, false]⟩ := by decide +kernel

end Ebcc
