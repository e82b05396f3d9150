import Verif.Thms.C97
import Verif.Model.T1Norm
/-!
C98: in every Brueckner iteration the energy test is about the change of the total energy.  False: `self.mf` is the object
of the calculation, and its energy is replaced before the previous total energy is read.  In the general class this is so
in all iterations, which compare correlation energies only (`C98_general`), in the other classes in the first
(`C98_separate_partial`).  Total energies after an iteration are right in all classes (`C98_total`).  The other test
bounds all single amplitudes (`C98_t1`).
-/

namespace Ebcc

section
variable {R O : Type} [AddCommGroup R] [LinearOrder R]

/-- Changes of the correlation energy. -/
def corrChanges98 : R → List (O × R) → List R
  | _, [] => []
  | e, (_, e') :: l => |e - e'| :: corrChanges98 e' l

/-- Changes of the total energy, for mean-field energies `E`. -/
def totChanges98 (E : O → R) : R → List (O × R) → List R
  | _, [] => []
  | t, (o, e') :: l => |t - (E o + e')| :: totChanges98 E (E o + e') l

/-- An iteration with an object of its own for the calculation. -/
theorem step_separate98 (env : MfEnv R O) (spin : MfKind) (hs : spin ≠ .general) (o : O) (e : R) (s : BruecknerMf R O)
    (hself : s.selfMf < s.heap.next) (hx : (s.heap.get s.selfMf).xc = false) :
    let r := bruecknerMfStep env spin o e s
    r.1.selfMf = s.selfMf ∧ r.1.ccMf = s.heap.next ∧ r.1.heap.next = s.heap.next + 1 ∧ r.1.eCorr = e ∧
      (r.1.heap.get s.selfMf).xc = false ∧ (r.1.heap.get r.1.ccMf).eTot = env.energyTot false o ∧
      (∀ b < s.heap.next, b ≠ s.selfMf → r.1.heap.get b = s.heap.get b) ∧
      r.2 = |(if s.ccMf = s.selfMf then env.energyTot false o else (s.heap.get s.ccMf).eTot) + s.eCorr
        - (env.energyTot false o + e)| := by
  have hne : s.selfMf ≠ s.heap.next := by omega
  have hb : ∀ b < s.heap.next, b ≠ s.heap.next := fun b h => by omega
  cases spin with
  | general => exact absurd rfl hs
  | restricted =>
    simp only [bruecknerMfStep, MfEnv.convertMf, MfEnv.updateEnergy, MfHeap.set, MfEnv.toKind, MfHeap.alloc, if_true, hx,
      Bool.false_eq_true, if_false, BruecknerMf.ccTot]
    refine ⟨trivial, trivial, trivial, trivial, by simp [hne], trivial, fun b h1 h2 => by simp [hb b h1, h2], ?_⟩
    by_cases hc : s.ccMf = s.selfMf <;> simp [hc]
  | unrestricted =>
    simp only [bruecknerMfStep, MfEnv.convertMf, MfEnv.updateEnergy, MfHeap.set, MfEnv.toKind, MfHeap.alloc, if_true, hx,
      BruecknerMf.ccTot]
    refine ⟨trivial, trivial, trivial, trivial, by simp [hne], trivial, fun b h1 h2 => by simp [hb b h1, h2], ?_⟩
    by_cases hc : s.ccMf = s.selfMf <;> simp [hc]

/-- An iteration of the general class. -/
theorem step_general98 (env : MfEnv R O) (o : O) (e : R) (s : BruecknerMf R O) (hc : s.ccMf = s.selfMf)
    (hk : (s.heap.get s.selfMf).kind = .general) :
    let r := bruecknerMfStep env .general o e s
    r.1.selfMf = s.selfMf ∧ r.1.ccMf = s.selfMf ∧ r.1.eCorr = e ∧
      r.1.heap.get s.selfMf = ⟨.general, (s.heap.get s.selfMf).xc, o, env.energyTot (s.heap.get s.selfMf).xc o⟩ ∧
      r.2 = |s.eCorr - e| := by
  simp only [bruecknerMfStep, MfEnv.convertMf, MfEnv.updateEnergy, MfHeap.set, if_true, hk, BruecknerMf.ccTot, hc]
  exact ⟨trivial, trivial, trivial, trivial, by rw [add_sub_add_left_eq_sub]⟩

theorem run_general98 (env : MfEnv R O) (l : List (O × R)) (s : BruecknerMf R O) (hc : s.ccMf = s.selfMf)
    (hk : (s.heap.get s.selfMf).kind = .general) :
    let r := bruecknerMfRun env .general l s
    r.2 = corrChanges98 s.eCorr l ∧ r.1.selfMf = s.selfMf ∧ r.1.ccMf = s.selfMf ∧
      (r.1.heap.get s.selfMf).kind = .general ∧ (r.1.heap.get s.selfMf).xc = (s.heap.get s.selfMf).xc := by
  induction l generalizing s with
  | nil => exact ⟨rfl, rfl, hc, hk, rfl⟩
  | cons p l ih =>
    obtain ⟨o, e⟩ := p
    obtain ⟨h1, h2, h3, h4, h5⟩ := step_general98 env o e s hc hk
    obtain ⟨k1, k2, k3, k4, k5⟩ := ih (bruecknerMfStep env .general o e s).1 (by rw [h1, h2]) (by rw [h1, h4])
    simp only [bruecknerMfRun, corrChanges98]
    rw [k1, h5, h3]
    rw [h1] at k2 k3 k4 k5
    exact ⟨rfl, k2, k3, k4, by rw [k5, h4]⟩

theorem run_separate98 (env : MfEnv R O) (spin : MfKind) (hs : spin ≠ .general) (l : List (O × R)) (s : BruecknerMf R O)
    (hself : s.selfMf < s.heap.next) (hcc : s.ccMf < s.heap.next) (hne : s.ccMf ≠ s.selfMf)
    (hx : (s.heap.get s.selfMf).xc = false) :
    let r := bruecknerMfRun env spin l s
    r.2 = totChanges98 (env.energyTot false) s.ccTot l ∧ r.1.selfMf = s.selfMf ∧ r.1.selfMf < r.1.heap.next ∧
      (r.1.heap.get s.selfMf).xc = false ∧ ∀ b < s.heap.next, b ≠ s.selfMf → r.1.heap.get b = s.heap.get b := by
  induction l generalizing s with
  | nil => exact ⟨rfl, rfl, hself, hx, fun _ _ _ => rfl⟩
  | cons p l ih =>
    obtain ⟨o, e⟩ := p
    obtain ⟨h1, h2, h3, h4, h5, h6, h7, h8⟩ := step_separate98 env spin hs o e s hself hx
    obtain ⟨k1, k2, k3, k4, k5⟩ := ih (bruecknerMfStep env spin o e s).1 (by omega) (by omega) (by omega) (by rw [h1, h5])
    simp only [bruecknerMfRun, totChanges98]
    rw [if_neg hne] at h8
    rw [h1] at k2 k4 k5
    refine ⟨?_, k2, k3, k4, fun b hb1 hb2 => (k5 b (by omega) hb2).trans (h7 b hb1 hb2)⟩
    rw [k1, h8]
    have ht : (bruecknerMfStep env spin o e s).1.ccTot = env.energyTot false o + e := by
      unfold BruecknerMf.ccTot
      rw [h6, h4]
    rw [ht]
    rfl

/-- In the general class the energy test is about the correlation energy in all iterations. -/
theorem C98_general (env : MfEnv R O) (h : MfHeap R O) (a : Nat) (ha : a < h.next) (e : R) (l : List (O × R)) :
    (bruecknerMfRun env .general l (bruecknerMfInit env .general h a e)).2 = corrChanges98 e l :=
  (run_general98 env l _ rfl (C97_objects env .general h a ha).2.2.2).1

omit [AddCommGroup R] [LinearOrder R] in
theorem init_separate98 (env : MfEnv R O) (spin : MfKind) (hs : spin ≠ .general) (h : MfHeap R O) (a : Nat) (e : R) :
    let s := bruecknerMfInit env spin h a e
    s.selfMf = h.next ∧ s.ccMf = h.next ∧ s.heap.next = h.next + 1 ∧ s.eCorr = e ∧ (s.heap.get s.selfMf).xc = false := by
  cases spin with
  | general => exact absurd rfl hs
  | restricted =>
    cases hx : (h.get a).xc <;>
      simp [bruecknerMfInit, MfEnv.convertMf, hx, MfEnv.toKind, MfEnv.updateEnergy, MfHeap.alloc, MfHeap.set]
  | unrestricted => simp [bruecknerMfInit, MfEnv.convertMf, MfEnv.toKind, MfHeap.alloc]

/-- In the other classes this is so in the first iteration; in all later ones the change is that of the total energy. -/
theorem C98_separate_partial (env : MfEnv R O) (spin : MfKind) (hs : spin ≠ .general) (h : MfHeap R O) (a : Nat) (e : R) (o : O)
    (e' : R) (l : List (O × R)) :
    (bruecknerMfRun env spin ((o, e') :: l) (bruecknerMfInit env spin h a e)).2 =
      |e - e'| :: totChanges98 (env.energyTot false) (env.energyTot false o + e') l := by
  obtain ⟨i1, i2, i3, i4, i5⟩ := init_separate98 env spin hs h a e
  obtain ⟨h1, h2, h3, h4, h5, h6, h7, h8⟩ := step_separate98 env spin hs o e' (bruecknerMfInit env spin h a e) (by omega) i5
  have k := (run_separate98 env spin hs l (bruecknerMfStep env spin o e' (bruecknerMfInit env spin h a e)).1 (by omega) (by omega)
    (by omega) (by rw [h1, h5])).1
  simp only [bruecknerMfRun]
  rw [k, h8, if_pos (i2.trans i1.symm), i4, add_sub_add_left_eq_sub]
  congr 2
  unfold BruecknerMf.ccTot
  rw [h6, h4]

/-- In all classes the total energy after an iteration is that of its orbitals plus its correlation energy. -/
theorem C98_total (env : MfEnv R O) (spin : MfKind) (h : MfHeap R O) (a : Nat) (ha : a < h.next)
    (hk : spin = .general → (h.get a).kind = .general → (h.get a).xc = false) (e : R) (l : List (O × R)) (o : O) (e' : R) :
    (bruecknerMfStep env spin o e' (bruecknerMfRun env spin l (bruecknerMfInit env spin h a e)).1).1.ccTot =
      env.energyTot false o + e' := by
  by_cases hs : spin = .general
  · subst hs
    obtain ⟨-, k2, k3, k4, k5⟩ := run_general98 env l (bruecknerMfInit env .general h a e) rfl
      (C97_objects env .general h a ha).2.2.2
    obtain ⟨h1, h2, h3, h4, -⟩ := step_general98 env o e' (bruecknerMfRun env .general l (bruecknerMfInit env .general h a e)).1
      (k3.trans k2.symm) (by rw [k2]; exact k4)
    have hx : ((bruecknerMfInit env .general h a e).heap.get (bruecknerMfInit env .general h a e).selfMf).xc = false := by
      by_cases hg : (h.get a).kind = .general
      · simp [bruecknerMfInit, MfEnv.convertMf, hg, hk rfl hg]
      · cases hx : (h.get a).xc <;>
          simp [bruecknerMfInit, MfEnv.convertMf, hg, hx, MfEnv.toKind, MfEnv.updateEnergy, MfHeap.alloc, MfHeap.set]
    unfold BruecknerMf.ccTot
    rw [h2, h3, h4, k2, k5, hx]
  · obtain ⟨i1, i2, i3, i4, i5⟩ := init_separate98 env spin hs h a e
    have hrun : (bruecknerMfRun env spin l (bruecknerMfInit env spin h a e)).1.selfMf <
        (bruecknerMfRun env spin l (bruecknerMfInit env spin h a e)).1.heap.next ∧
        ((bruecknerMfRun env spin l (bruecknerMfInit env spin h a e)).1.heap.get
          (bruecknerMfRun env spin l (bruecknerMfInit env spin h a e)).1.selfMf).xc = false := by
      cases l with
      | nil => exact ⟨by simp only [bruecknerMfRun]; omega, i5⟩
      | cons p l =>
        obtain ⟨o1, e1⟩ := p
        obtain ⟨h1, h2, h3, h4, h5, h6, h7, h8⟩ := step_separate98 env spin hs o1 e1 (bruecknerMfInit env spin h a e) (by omega) i5
        obtain ⟨-, k2, k3, k4, -⟩ := run_separate98 env spin hs l
          (bruecknerMfStep env spin o1 e1 (bruecknerMfInit env spin h a e)).1 (by omega) (by omega) (by omega) (by rw [h1, h5])
        exact ⟨k3, by rw [← k2] at k4; exact k4⟩
    obtain ⟨h1, h2, h3, h4, h5, h6, h7, h8⟩ := step_separate98 env spin hs o e' _ hrun.1 hrun.2
    unfold BruecknerMf.ccTot
    rw [h6, h4]

/-- The mean-field object given by the user is left as it was in the restricted and unrestricted class. -/
theorem C98_reference (env : MfEnv R O) (spin : MfKind) (hs : spin ≠ .general) (h : MfHeap R O) (a : Nat) (ha : a < h.next) (e : R)
    (l : List (O × R)) : (bruecknerMfRun env spin l (bruecknerMfInit env spin h a e)).1.heap.get a = h.get a := by
  obtain ⟨i1, i2, i3, i4, i5⟩ := init_separate98 env spin hs h a e
  have h0 : (bruecknerMfInit env spin h a e).heap.get a = h.get a := (C97_objects env spin h a ha).1 a ha
  cases l with
  | nil => exact h0
  | cons p l =>
    obtain ⟨o1, e1⟩ := p
    obtain ⟨h1, h2, h3, h4, h5, h6, h7, h8⟩ := step_separate98 env spin hs o1 e1 (bruecknerMfInit env spin h a e) (by omega) i5
    obtain ⟨-, -, -, -, k5⟩ := run_separate98 env spin hs l
      (bruecknerMfStep env spin o1 e1 (bruecknerMfInit env spin h a e)).1 (by omega) (by omega) (by omega) (by rw [h1, h5])
    exact ((k5 a (by omega) (by omega)).trans (h7 a (by omega) (by omega))).trans h0

/-- In the general class an object of that class given by the user has the new orbitals and their energy after an
iteration. -/
theorem C98_reference_general (env : MfEnv R O) (h : MfHeap R O) (a : Nat) (hk : (h.get a).kind = .general) (e : R)
    (l : List (O × R)) (o : O) (e' : R) :
    (bruecknerMfStep env .general o e' (bruecknerMfRun env .general l (bruecknerMfInit env .general h a e)).1).1.heap.get a =
      ⟨.general, (h.get a).xc, o, env.energyTot (h.get a).xc o⟩ := by
  have hi : bruecknerMfInit env .general h a e = ⟨h, a, a, e⟩ := by simp [bruecknerMfInit, MfEnv.convertMf, hk]
  rw [hi]
  obtain ⟨-, k2, k3, k4, k5⟩ := run_general98 env l ⟨h, a, a, e⟩ rfl hk
  have := (step_general98 env o e' (bruecknerMfRun env .general l ⟨h, a, a, e⟩).1 (k3.trans k2.symm) (by rw [k2]; exact k4)).2.2.2.1
  rw [k2] at this
  simp only at this k5
  rw [this, k5]

end

/-- The property is false in every class: orbitals whose Hartree-Fock energy is lower by 20 pass a test with any
threshold, if the correlation energy is the same. -/
theorem C98_false (spin : MfKind) : ¬ ∀ (env : MfEnv Int Int) (h : MfHeap Int Int) (a : Nat) (e : Int) (l : List (Int × Int)),
    a < h.next → (∀ m, (h.get m).xc = false) → MfFacts97 env (h.get a) →
    (bruecknerMfRun env spin l (bruecknerMfInit env spin h a e)).2 =
      totChanges98 (env.energyTot false) (bruecknerMfInit env spin h a e).ccTot l := by
  intro h
  have := h env97 ⟨fun _ => ⟨spin, false, 5, 10⟩, 1⟩ 0 (-1) [(-5, -1)] Nat.zero_lt_one (fun _ => rfl) ⟨fun _ => rfl, fun _ _ => rfl⟩
  revert this
  cases spin <;> decide

/-- Nor is it the change of the correlation energy, which the documentation of `e_tol` says, in all iterations of the
restricted and unrestricted class. -/
theorem C98_correlation_false (spin : MfKind) (hs : spin ≠ .general) : ¬ ∀ (env : MfEnv Int Int) (h : MfHeap Int Int) (a : Nat)
    (e : Int) (l : List (Int × Int)), a < h.next → (∀ m, (h.get m).xc = false) → MfFacts97 env (h.get a) →
    (bruecknerMfRun env spin l (bruecknerMfInit env spin h a e)).2 = corrChanges98 e l := by
  intro h
  have := h env97 ⟨fun _ => ⟨spin, false, 5, 10⟩, 1⟩ 0 (-1) [(4, -1), (3, -1)] Nat.zero_lt_one (fun _ => rfl)
    ⟨fun _ => rfl, fun _ _ => rfl⟩
  revert this
  cases spin with
  | general => exact absurd rfl hs
  | restricted => decide
  | unrestricted => decide

example : (bruecknerMfRun env97 .restricted [(4, -2), (3, -4)]
    (bruecknerMfInit env97 .restricted (heap97 .restricted) 0 (-1))).2 = [1, 4] := by decide

example : (bruecknerMfRun env97 .general [(4, -2), (3, -4)]
    (bruecknerMfInit env97 .general (heap97 .restricted) 0 (-1))).2 = [1, 2] := by decide

theorem sum_sq_nonneg98 (l : List ℝ) : 0 ≤ (l.map (· ^ 2)).sum :=
  List.sum_nonneg fun x hx => by
    obtain ⟨y, -, rfl⟩ := List.mem_map.1 hx
    exact sq_nonneg y

/-- The norm of the unrestricted class is that of the amplitudes of both spins together, which are the general ones. -/
theorem C98_norm (aa bb : List ℝ) : t1NormU aa bb = t1Norm (aa ++ bb) := by
  unfold t1NormU t1Norm
  rw [Real.sq_sqrt (sum_sq_nonneg98 _), Real.sq_sqrt (sum_sq_nonneg98 _), List.map_append, List.sum_append]

/-- The norm of a restricted calculation is smaller by the square root of two than that of the unrestricted calculation
with the same amplitudes. -/
theorem C98_norm_restricted (t1 : List ℝ) : t1NormU t1 t1 = Real.sqrt 2 * t1Norm t1 := by
  unfold t1NormU t1Norm
  rw [← two_mul, Real.sq_sqrt (sum_sq_nonneg98 _), Real.sqrt_mul (by norm_num)]

/-- If the test of the single amplitudes is passed, all of them are smaller than the threshold. -/
theorem C98_t1 (tTol : ℝ) (t1 : List ℝ) (h : t1Norm t1 < tTol) : ∀ x ∈ t1, |x| < tTol := by
  intro x hx
  refine lt_of_le_of_lt ?_ h
  unfold t1Norm
  rw [← Real.sqrt_sq_eq_abs]
  exact Real.sqrt_le_sqrt (List.single_le_sum (by
    intro y hy
    obtain ⟨z, -, rfl⟩ := List.mem_map.1 hy
    exact sq_nonneg z) _ (List.mem_map.2 ⟨x, hx, rfl⟩))

theorem C98_t1_unrestricted (tTol : ℝ) (aa bb : List ℝ) (h : t1NormU aa bb < tTol) :
    (∀ x ∈ aa, |x| < tTol) ∧ ∀ x ∈ bb, |x| < tTol := by
  rw [C98_norm] at h
  have := C98_t1 tTol _ h
  exact ⟨fun x hx => this x (List.mem_append_left _ hx), fun x hx => this x (List.mem_append_right _ hx)⟩

example : t1Norm [3, -4] = 5 := by
  unfold t1Norm
  rw [show ([3, -4].map (fun x : ℝ => x ^ 2)).sum = 5 ^ 2 by norm_num]
  exact Real.sqrt_sq (by norm_num)

end Ebcc
