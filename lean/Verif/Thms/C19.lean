import Verif.Thms.C20

/-!
C19: the orbital space is partitioned.
-/

namespace Ebcc

/-- The number of orbitals with a property. -/
def countOrb (n : Nat) (f : Nat → Bool) : Nat := ((List.range n).filter f).length

theorem countOrb_split (n : Nat) (f g : Nat → Bool) :
    countOrb n f = countOrb n (fun p => f p && g p) + countOrb n (fun p => f p && !g p) := by
  unfold countOrb
  induction List.range n with
  | nil => rfl
  | cons x l ih =>
    simp only [List.filter_cons]
    cases f x <;> cases g x <;> simp <;> omega

theorem countOrb_split' (n : Nat) (f g : Nat → Bool) :
    countOrb n f = countOrb n (fun p => g p && f p) + countOrb n (fun p => !g p && f p) := by
  rw [countOrb_split n f g]
  simp only [Bool.and_comm]

theorem countOrb_congr {n : Nat} {f g : Nat → Bool} (h : ∀ p < n, f p = g p) :
    countOrb n f = countOrb n g := by
  unfold countOrb
  rw [List.filter_congr]
  intro x hx
  exact h x (List.mem_range.1 hx)

theorem countTrue_orb {m : List Bool} {n : Nat} (h : m.length = n) :
    countTrue m = countOrb n (inMask m) := by
  rw [countTrue_eq, h]; rfl

/-- The masks of an accepted assignment, orbital by orbital. -/
theorem C19_masks (o f a : List Bool) (s : Space) (h : Space.new o f a = .ok s) (p : Nat)
    (hp : p < s.nmo) :
    (inMask s.virtual p = !inMask o p) ∧ (inMask s.correlated p = !inMask f p) ∧
    (inMask s.inactive p = !inMask a p) ∧
    (inMask s.correlatedOccupied p = (!inMask f p && inMask o p)) ∧
    (inMask s.correlatedVirtual p = (!inMask f p && !inMask o p)) ∧
    (inMask s.frozenOccupied p = (inMask f p && inMask o p)) ∧
    (inMask s.frozenVirtual p = (inMask f p && !inMask o p)) ∧
    (inMask s.activeOccupied p = (inMask a p && inMask o p)) ∧
    (inMask s.activeVirtual p = (inMask a p && !inMask o p)) ∧
    (inMask s.inactiveOccupied p = (!inMask a p && inMask o p)) ∧
    (inMask s.inactiveVirtual p = (!inMask a p && !inMask o p)) := by
  obtain ⟨rfl, h1, h2, _⟩ := C20_accepted_is_valid o f a s h
  have hp : p < o.length := hp
  have ho : inMask (maskNot o) p = !inMask o p := inMask_not hp
  have hf : inMask (maskNot f) p = !inMask f p := inMask_not (by omega)
  have ha : inMask (maskNot a) p = !inMask a p := inMask_not (by omega)
  simp only [Space.virtual, Space.correlated, Space.inactive, Space.correlatedOccupied,
    Space.correlatedVirtual, Space.frozenOccupied, Space.frozenVirtual, Space.activeOccupied,
    Space.activeVirtual, Space.inactiveOccupied, Space.inactiveVirtual, inMask_and, ho, hf, ha]
  simp

/-- Occupied and virtual, correlated and frozen, active and inactive are complementary; every class is
split by occupation; the active orbitals are correlated. -/
theorem C19_partition (o f a : List Bool) (s : Space) (h : Space.new o f a = .ok s) (p : Nat)
    (hp : p < s.nmo) :
    (inMask s.occupied p = true ↔ ¬ inMask s.virtual p = true) ∧
    (inMask s.correlated p = true ↔ ¬ inMask s.frozen p = true) ∧
    (inMask s.correlated p = true ↔
      (inMask s.correlatedOccupied p = true ∨ inMask s.correlatedVirtual p = true)) ∧
    ¬ (inMask s.correlatedOccupied p = true ∧ inMask s.correlatedVirtual p = true) ∧
    (inMask s.frozen p = true ↔ (inMask s.frozenOccupied p = true ∨ inMask s.frozenVirtual p = true)) ∧
    (inMask s.occupied p = true ↔
      (inMask s.correlatedOccupied p = true ∨ inMask s.frozenOccupied p = true)) ∧
    (inMask s.virtual p = true ↔
      (inMask s.correlatedVirtual p = true ∨ inMask s.frozenVirtual p = true)) ∧
    (inMask s.activeOccupied p = true → inMask s.correlatedOccupied p = true) ∧
    (inMask s.activeVirtual p = true → inMask s.correlatedVirtual p = true) := by
  have hm := C19_masks o f a s h p hp
  obtain ⟨rfl, h1, h2, h3⟩ := C20_accepted_is_valid o f a s h
  have h3 := h3 p
  obtain ⟨m1, m2, m3, m4, m5, m6, m7, m8, m9, m10, m11⟩ := hm
  rw [m1, m2, m4, m5, m6, m7, m8, m9]
  revert h3
  simp only
  generalize inMask o p = x
  generalize inMask f p = y
  generalize inMask a p = z
  revert x y z
  decide

theorem mask_lengths {o f a : List Bool} {s : Space} (h : Space.new o f a = .ok s) :
    s.occupied.length = s.nmo ∧ s.frozen.length = s.nmo ∧ s.active.length = s.nmo ∧
    s.virtual.length = s.nmo ∧ s.correlated.length = s.nmo ∧ s.inactive.length = s.nmo ∧
    s.correlatedOccupied.length = s.nmo ∧ s.correlatedVirtual.length = s.nmo ∧
    s.frozenOccupied.length = s.nmo ∧ s.frozenVirtual.length = s.nmo ∧
    s.activeOccupied.length = s.nmo ∧ s.activeVirtual.length = s.nmo ∧
    s.inactiveOccupied.length = s.nmo ∧ s.inactiveVirtual.length = s.nmo := by
  obtain ⟨rfl, h1, h2, _⟩ := C20_accepted_is_valid o f a s h
  simp only [Space.nmo, Space.virtual, Space.correlated, Space.inactive, Space.correlatedOccupied,
    Space.correlatedVirtual, Space.frozenOccupied, Space.frozenVirtual, Space.activeOccupied,
    Space.activeVirtual, Space.inactiveOccupied, Space.inactiveVirtual, maskNot, maskAnd]
  simp [h1, h2]

/-- Every reported count is the number of orbitals in the class. -/
theorem C19_counts (o f a : List Bool) (s : Space) (h : Space.new o f a = .ok s) :
    s.nocc = countOrb s.nmo (inMask s.occupied) ∧ s.nvir = countOrb s.nmo (inMask s.virtual) ∧
    s.ncorr = countOrb s.nmo (inMask s.correlated) ∧ s.nfroz = countOrb s.nmo (inMask s.frozen) ∧
    s.nact = countOrb s.nmo (inMask s.active) ∧ s.ninact = countOrb s.nmo (inMask s.inactive) ∧
    s.ncocc = countOrb s.nmo (inMask s.correlatedOccupied) ∧
    s.ncvir = countOrb s.nmo (inMask s.correlatedVirtual) ∧
    s.nfocc = countOrb s.nmo (inMask s.frozenOccupied) ∧
    s.nfvir = countOrb s.nmo (inMask s.frozenVirtual) ∧
    s.naocc = countOrb s.nmo (inMask s.activeOccupied) ∧
    s.navir = countOrb s.nmo (inMask s.activeVirtual) ∧
    s.niocc = countOrb s.nmo (inMask s.inactiveOccupied) ∧
    s.nivir = countOrb s.nmo (inMask s.inactiveVirtual) := by
  obtain ⟨l1, l2, l3, l4, l5, l6, l7, l8, l9, l10, l11, l12, l13, l14⟩ := mask_lengths h
  exact ⟨countTrue_orb l1, countTrue_orb l4, countTrue_orb l5, countTrue_orb l2, countTrue_orb l3,
    countTrue_orb l6, countTrue_orb l7, countTrue_orb l8, countTrue_orb l9, countTrue_orb l10,
    countTrue_orb l11, countTrue_orb l12, countTrue_orb l13, countTrue_orb l14⟩

/-- The sums of the counts.  The inactive orbitals of the code are all orbitals that are not active, so
the frozen ones appear in the last two equations. -/
theorem C19_sums (o f a : List Bool) (s : Space) (h : Space.new o f a = .ok s) :
    s.nocc + s.nvir = s.nmo ∧ s.ncorr + s.nfroz = s.nmo ∧ s.nact + s.ninact = s.nmo ∧
    s.ncocc + s.ncvir = s.ncorr ∧ s.nfocc + s.nfvir = s.nfroz ∧ s.naocc + s.navir = s.nact ∧
    s.niocc + s.nivir = s.ninact ∧ s.ncocc + s.nfocc = s.nocc ∧ s.ncvir + s.nfvir = s.nvir ∧
    s.naocc + s.niocc = s.ncocc + s.nfocc ∧ s.navir + s.nivir = s.ncvir + s.nfvir := by
  obtain ⟨c1, c2, c3, c4, c5, c6, c7, c8, c9, c10, c11, c12, c13, c14⟩ := C19_counts o f a s h
  have hm := C19_masks o f a s h
  obtain ⟨rfl, h1, h2, _⟩ := C20_accepted_is_valid o f a s h
  have htot : countOrb (Space.nmo ⟨o, f, a⟩) (fun _ => true) = Space.nmo ⟨o, f, a⟩ := by simp [countOrb]
  have s1 : countOrb (Space.nmo ⟨o, f, a⟩) (fun _ => true) = countOrb (Space.nmo ⟨o, f, a⟩) (inMask o)
      + countOrb (Space.nmo ⟨o, f, a⟩) (fun p => !inMask o p) :=
    countOrb_split (Space.nmo ⟨o, f, a⟩) (fun _ => true) (inMask o)
  have s2 : countOrb (Space.nmo ⟨o, f, a⟩) (fun _ => true) = countOrb (Space.nmo ⟨o, f, a⟩) (inMask f)
      + countOrb (Space.nmo ⟨o, f, a⟩) (fun p => !inMask f p) :=
    countOrb_split (Space.nmo ⟨o, f, a⟩) (fun _ => true) (inMask f)
  have s3 : countOrb (Space.nmo ⟨o, f, a⟩) (fun _ => true) = countOrb (Space.nmo ⟨o, f, a⟩) (inMask a)
      + countOrb (Space.nmo ⟨o, f, a⟩) (fun p => !inMask a p) :=
    countOrb_split (Space.nmo ⟨o, f, a⟩) (fun _ => true) (inMask a)
  have s4 := countOrb_split (Space.nmo ⟨o, f, a⟩) (fun p => !inMask f p) (inMask o)
  have s5 := countOrb_split (Space.nmo ⟨o, f, a⟩) (inMask f) (inMask o)
  have s6 := countOrb_split (Space.nmo ⟨o, f, a⟩) (inMask a) (inMask o)
  have s7 := countOrb_split (Space.nmo ⟨o, f, a⟩) (fun p => !inMask a p) (inMask o)
  have s8 := countOrb_split' (Space.nmo ⟨o, f, a⟩) (inMask o) (inMask f)
  have s9 := countOrb_split' (Space.nmo ⟨o, f, a⟩) (fun p => !inMask o p) (inMask f)
  have s10 := countOrb_split' (Space.nmo ⟨o, f, a⟩) (inMask o) (inMask a)
  have s11 := countOrb_split' (Space.nmo ⟨o, f, a⟩) (fun p => !inMask o p) (inMask a)
  rw [countOrb_congr fun p hp => (hm p hp).1] at c2
  rw [countOrb_congr fun p hp => (hm p hp).2.1] at c3
  rw [countOrb_congr fun p hp => (hm p hp).2.2.1] at c6
  rw [countOrb_congr fun p hp => (hm p hp).2.2.2.1] at c7
  rw [countOrb_congr fun p hp => (hm p hp).2.2.2.2.1] at c8
  rw [countOrb_congr fun p hp => (hm p hp).2.2.2.2.2.1] at c9
  rw [countOrb_congr fun p hp => (hm p hp).2.2.2.2.2.2.1] at c10
  rw [countOrb_congr fun p hp => (hm p hp).2.2.2.2.2.2.2.1] at c11
  rw [countOrb_congr fun p hp => (hm p hp).2.2.2.2.2.2.2.2.1] at c12
  rw [countOrb_congr fun p hp => (hm p hp).2.2.2.2.2.2.2.2.2.1] at c13
  rw [countOrb_congr fun p hp => (hm p hp).2.2.2.2.2.2.2.2.2.2] at c14
  simp only at c1 c4 c5
  rw [c1, c2, c3, c4, c5, c6, c7, c8, c9, c10, c11, c12, c13, c14]
  refine ⟨?_, ?_, ?_, ?_, ?_, ?_, ?_, ?_, ?_, ?_, ?_⟩ <;> omega

/-- With nothing frozen, the correlated occupied orbitals split into active and inactive occupied ones,
likewise for virtuals.  This is the claim with the additional hypothesis that nothing is frozen. -/
theorem C19_active_inactive_partial (o f a : List Bool) (s : Space) (h : Space.new o f a = .ok s)
    (hnf : s.nfroz = 0) :
    s.naocc + s.niocc = s.ncocc ∧ s.navir + s.nivir = s.ncvir ∧ ∀ p < s.nmo,
      (inMask s.correlatedOccupied p = true ↔
        (inMask s.activeOccupied p = true ∨ inMask s.inactiveOccupied p = true)) ∧
      ¬ (inMask s.activeOccupied p = true ∧ inMask s.inactiveOccupied p = true) ∧
      (inMask s.correlatedVirtual p = true ↔
        (inMask s.activeVirtual p = true ∨ inMask s.inactiveVirtual p = true)) ∧
      ¬ (inMask s.activeVirtual p = true ∧ inMask s.inactiveVirtual p = true) := by
  have hs := C19_sums o f a s h
  refine ⟨by omega, by omega, fun p hp => ?_⟩
  obtain ⟨m1, m2, m3, m4, m5, m6, m7, m8, m9, m10, m11⟩ := C19_masks o f a s h p hp
  obtain ⟨rfl, h1, h2, h3⟩ := C20_accepted_is_valid o f a s h
  have hf : inMask f p = false := by
    by_contra hne
    have ht : inMask f p = true := by simpa using hne
    have : countTrue f = 0 := hnf
    rw [countTrue, List.count_eq_zero] at this
    apply this
    have hl := inMask_lt ht
    rw [inMask_eq_getElem hl] at ht
    exact ht ▸ List.getElem_mem hl
  rw [m4, m5, m8, m9, m10, m11, hf]
  generalize inMask o p = x
  generalize inMask a p = z
  revert x z
  decide

/-- The split fails as soon as something is frozen: the frozen occupied orbital is reported as inactive
occupied but is not correlated. -/
theorem C19_inactive_includes_frozen :
    ∃ s, Space.new [true, true, false] [true, false, false] [false, true, false] = .ok s ∧
      inMask s.inactiveOccupied 0 = true ∧ inMask s.correlatedOccupied 0 = false ∧
      s.naocc + s.niocc ≠ s.ncocc :=
  ⟨_, rfl, rfl, rfl, by decide⟩

example : ∃ s, Space.new [true, true, false, false] [true, false, false, false]
    [false, true, true, false] = .ok s ∧ s.nmo = 4 ∧ s.ncocc = 1 ∧ s.navir = 1 ∧ s.nfroz = 1 :=
  ⟨_, rfl, rfl, rfl, rfl, rfl⟩

end Ebcc
