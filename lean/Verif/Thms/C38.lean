import Verif.Lemmas.Amps
import Mathlib.Tactic.FieldSimp
import Mathlib.Tactic.Ring

/-!
C38: hermitised density matrices.
-/

namespace Ebcc

section
variable {K : Type} [Field K]

theorem halfSum_ok (a b : NDArray K) (ha : a.WF) (hb : b.WF) (hs : a.shape = b.shape) :
    ∃ q, halfSum a b = .ok q ∧ q.WF ∧ q.shape = a.shape ∧
      ∀ idx, q.get idx = (a.get idx + b.get idx) * 2⁻¹ := by
  obtain ⟨q, q1, q2, q3, q4⟩ := add_ok a b ha hb hs
  refine ⟨q.map fun x => x * 2⁻¹, ?_, map_wf _ _ q3, q2, fun idx => ?_⟩
  · unfold halfSum
    rw [q1]
    rfl
  · rw [map_get q (fun x => x * 2⁻¹) (zero_mul _), q4]

/-- Elements of the hermitised one-particle density matrix. -/
theorem rdm1_elements (dm : NDArray K) (n : Nat) (hw : dm.WF) (hs : dm.shape = [n, n]) :
    ∃ d, finishRdm1 dm true = .ok d ∧ d.WF ∧ d.shape = [n, n] ∧
      ∀ i < n, ∀ j < n, d.get [i, j] = (dm.get [i, j] + dm.get [j, i]) * 2⁻¹ := by
  obtain ⟨t, t1, t2, t3, t4⟩ := transpose_get dm (List.range dm.shape.length).reverse (List.reverse_perm _)
  have hts : t.shape = [n, n] := by rw [t3, hs]; rfl
  obtain ⟨q, q1, q2, q3, q4⟩ := halfSum_ok dm t hw t2 (hs.trans hts.symm)
  refine ⟨q, ?_, q2, q3.trans hs, fun i hi j hj => ?_⟩
  · unfold finishRdm1
    simp only [if_true, t1, bind, Except.bind, q1]
  · rw [q4, t4 [i, j] (by rw [hts]; simp [validIdx_cons, validIdx_nil, hi, hj]), hs]
    rfl

/-- The hermitised one-particle density matrix is symmetric. -/
theorem C38_rdm1_symmetric (dm : NDArray K) (n : Nat) (hw : dm.WF) (hs : dm.shape = [n, n]) :
    ∃ d, finishRdm1 dm true = .ok d ∧ d.WF ∧ d.shape = [n, n] ∧
      ∀ i < n, ∀ j < n, d.get [i, j] = d.get [j, i] := by
  obtain ⟨d, d1, d2, d3, d4⟩ := rdm1_elements dm n hw hs
  refine ⟨d, d1, d2, d3, fun i hi j hj => ?_⟩
  rw [d4 i hi j hj, d4 j hj i hi, add_comm]

/-- A density matrix is returned unchanged exactly when it is symmetric. -/
theorem C38_rdm1_fixed (h2 : (2 : K) ≠ 0) (dm : NDArray K) (n : Nat) (hw : dm.WF) (hs : dm.shape = [n, n]) :
    finishRdm1 dm true = .ok dm ↔ ∀ i < n, ∀ j < n, dm.get [i, j] = dm.get [j, i] := by
  obtain ⟨d, d1, d2, d3, d4⟩ := rdm1_elements dm n hw hs
  rw [d1, Except.ok.injEq]
  constructor
  · rintro rfl i hi j hj
    exact (d4 i hi j hj).trans (by rw [add_comm]; exact (d4 j hj i hi).symm)
  · intro h
    refine NDArray.ext_get d2 hw (d3.trans hs.symm) fun idx hidx => ?_
    change ValidIdx d.shape idx at hidx
    rw [d3, validIdx_cons_iff] at hidx
    obtain ⟨i, t, rfl, hi, hidx⟩ := hidx
    rw [validIdx_cons_iff] at hidx
    obtain ⟨j, t, rfl, hj, hidx⟩ := hidx
    rw [validIdx_nil_iff] at hidx
    subst hidx
    rw [d4 i hi j hj, ← h i hi j hj, ← two_mul, mul_comm (2 : K), mul_assoc, mul_inv_cancel₀ h2, mul_one]

/-- Hermitising twice is hermitising once. -/
theorem C38_rdm1_idempotent (h2 : (2 : K) ≠ 0) (dm : NDArray K) (n : Nat) (hw : dm.WF) (hs : dm.shape = [n, n]) :
    (finishRdm1 dm true).bind (fun d => finishRdm1 d true) = finishRdm1 dm true := by
  obtain ⟨d, d1, d2, d3, d4⟩ := C38_rdm1_symmetric dm n hw hs
  rw [d1]
  exact (C38_rdm1_fixed h2 d n d2 d3).2 d4

/-- Hermitising keeps the trace. -/
theorem C38_rdm1_trace (h2 : (2 : K) ≠ 0) (dm : NDArray K) (n : Nat) (hw : dm.WF) (hs : dm.shape = [n, n]) :
    ∃ d, finishRdm1 dm true = .ok d ∧
      ((List.range n).map fun i => d.get [i, i]).sum = ((List.range n).map fun i => dm.get [i, i]).sum := by
  obtain ⟨d, d1, d2, d3, d4⟩ := rdm1_elements dm n hw hs
  refine ⟨d, d1, congrArg List.sum (List.map_congr_left fun i hi => ?_)⟩
  rw [List.mem_range] at hi
  rw [d4 i hi i hi, ← two_mul, mul_comm (2 : K), mul_assoc, mul_inv_cancel₀ h2, mul_one]

/-! ### Two-particle density matrices -/

theorem transpose_id (x : NDArray K) (hw : x.WF) (n0 n1 n2 n3 : Nat) (hs : x.shape = [n0, n1, n2, n3]) :
    x.transpose [0, 1, 2, 3] = .ok x := by
  obtain ⟨t, t1, t2, t3, t4⟩ := transpose_get x [0, 1, 2, 3] (by rw [hs]; exact List.Perm.refl _)
  have hts : t.shape = x.shape := by rw [t3, hs]; rfl
  rw [t1]
  congr 1
  refine NDArray.ext_get t2 hw hts fun idx hidx => ?_
  change ValidIdx t.shape idx at hidx
  rw [t4 idx hidx]
  congr 1
  have hl := List.Forall₂.length_eq hidx
  rw [hts, hs] at hl
  match idx, hl with
  | [i, j, k, l], _ => rfl

theorem transpose1_elements (dm : NDArray K) (n m : Nat) (hw : dm.WF) (hs : dm.shape = [n, m, n, m]) :
    ∃ d, transpose1 dm = .ok d ∧ d.WF ∧ d.shape = [n, m, n, m] ∧ ∀ i < n, ∀ j < m, ∀ k < n, ∀ l < m,
      d.get [i, j, k, l] = (dm.get [i, j, k, l] + dm.get [k, l, i, j]) * 2⁻¹ := by
  obtain ⟨t, t1, t2, t3, t4⟩ := transpose_get dm [2, 3, 0, 1] (by
    rw [hs]
    show List.Perm [2, 3, 0, 1] (List.range 4)
    decide)
  have hts : t.shape = [n, m, n, m] := by rw [t3, hs]; rfl
  obtain ⟨q, q1, q2, q3, q4⟩ := halfSum_ok dm t hw t2 (hs.trans hts.symm)
  refine ⟨q, ?_, q2, q3.trans hs, fun i hi j hj k hk l hl => ?_⟩
  · unfold transpose1
    rw [transpose_id dm hw _ _ _ _ hs, t1]
    simp only [bind, Except.bind, q1]
  · rw [q4, t4 [i, j, k, l] (by rw [hts]; simp [validIdx_cons, validIdx_nil, hi, hj, hk, hl])]
    rfl

theorem transpose2_elements (dm : NDArray K) (n m : Nat) (hw : dm.WF) (hs : dm.shape = [n, n, m, m]) :
    ∃ d, transpose2 dm = .ok d ∧ d.WF ∧ d.shape = [n, n, m, m] ∧ ∀ i < n, ∀ j < n, ∀ k < m, ∀ l < m,
      d.get [i, j, k, l] = (dm.get [i, j, k, l] + dm.get [j, i, l, k]) * 2⁻¹ := by
  obtain ⟨t, t1, t2, t3, t4⟩ := transpose_get dm [1, 0, 3, 2] (by
    rw [hs]
    show List.Perm [1, 0, 3, 2] (List.range 4)
    decide)
  have hts : t.shape = [n, n, m, m] := by rw [t3, hs]; rfl
  obtain ⟨q, q1, q2, q3, q4⟩ := halfSum_ok dm t hw t2 (hs.trans hts.symm)
  refine ⟨q, ?_, q2, q3.trans hs, fun i hi j hj k hk l hl => ?_⟩
  · unfold transpose2
    rw [transpose_id dm hw _ _ _ _ hs, t1]
    simp only [bind, Except.bind, q1]
  · rw [q4, t4 [i, j, k, l] (by rw [hts]; simp [validIdx_cons, validIdx_nil, hi, hj, hk, hl])]
    rfl

theorem rdm2_elements (dm : NDArray K) (n : Nat) (hw : dm.WF) (hs : dm.shape = [n, n, n, n]) :
    ∃ d, finishRdm2 dm true = .ok d ∧ d.WF ∧ d.shape = [n, n, n, n] ∧ ∀ i < n, ∀ j < n, ∀ k < n, ∀ l < n,
      d.get [i, j, k, l] = ((dm.get [i, j, k, l] + dm.get [k, l, i, j]) * 2⁻¹
        + (dm.get [j, i, l, k] + dm.get [l, k, j, i]) * 2⁻¹) * 2⁻¹ := by
  obtain ⟨x, x1, x2, x3, x4⟩ := transpose1_elements dm n n hw hs
  obtain ⟨d, d1, d2, d3, d4⟩ := transpose2_elements x n n x2 x3
  refine ⟨d, ?_, d2, d3, fun i hi j hj k hk l hl => ?_⟩
  · unfold finishRdm2
    simp only [if_true, x1, bind, Except.bind, d1]
  · rw [d4 i hi j hj k hk l hl, x4 i hi j hj k hk l hl, x4 j hj i hi l hl k hk]

/-- Both symmetries of a two-particle density matrix over one set of `n` orbitals. -/
def Rdm2Symmetric (n : Nat) (d : NDArray K) : Prop :=
  ∀ i < n, ∀ j < n, ∀ k < n, ∀ l < n,
    d.get [i, j, k, l] = d.get [k, l, i, j] ∧ d.get [i, j, k, l] = d.get [j, i, l, k]

/-- The hermitised two-particle density matrix has both symmetries. -/
theorem C38_rdm2_symmetric (dm : NDArray K) (n : Nat) (hw : dm.WF) (hs : dm.shape = [n, n, n, n]) :
    ∃ d, finishRdm2 dm true = .ok d ∧ d.WF ∧ d.shape = [n, n, n, n] ∧ Rdm2Symmetric n d := by
  obtain ⟨d, d1, d2, d3, d4⟩ := rdm2_elements dm n hw hs
  refine ⟨d, d1, d2, d3, fun i hi j hj k hk l hl => ⟨?_, ?_⟩⟩
  · rw [d4 i hi j hj k hk l hl, d4 k hk l hl i hi j hj]
    ring
  · rw [d4 i hi j hj k hk l hl, d4 j hj i hi l hl k hk]
    ring

/-- A two-particle density matrix is returned unchanged exactly when it has both symmetries. -/
theorem C38_rdm2_fixed (h2 : (2 : K) ≠ 0) (dm : NDArray K) (n : Nat) (hw : dm.WF) (hs : dm.shape = [n, n, n, n]) :
    finishRdm2 dm true = .ok dm ↔ Rdm2Symmetric n dm := by
  constructor
  · intro h
    obtain ⟨d, d1, d2, d3, d4⟩ := C38_rdm2_symmetric dm n hw hs
    rw [h, Except.ok.injEq] at d1
    exact d1 ▸ d4
  · intro h
    obtain ⟨d, d1, d2, d3, d4⟩ := rdm2_elements dm n hw hs
    rw [d1, Except.ok.injEq]
    refine NDArray.ext_get d2 hw (d3.trans hs.symm) fun idx hidx => ?_
    change ValidIdx d.shape idx at hidx
    rw [d3, validIdx_cons_iff] at hidx
    obtain ⟨i, t, rfl, hi, hidx⟩ := hidx
    rw [validIdx_cons_iff] at hidx
    obtain ⟨j, t, rfl, hj, hidx⟩ := hidx
    rw [validIdx_cons_iff] at hidx
    obtain ⟨k, t, rfl, hk, hidx⟩ := hidx
    rw [validIdx_cons_iff] at hidx
    obtain ⟨l, t, rfl, hl, hidx⟩ := hidx
    rw [validIdx_nil_iff] at hidx
    subst hidx
    have e1 := h i hi j hj k hk l hl
    have e2 := h j hj i hi l hl k hk
    rw [d4 i hi j hj k hk l hl, ← e2.1, ← e1.1, ← e1.2]
    field_simp
    ring

/-- Hermitising twice is hermitising once. -/
theorem C38_rdm2_idempotent (h2 : (2 : K) ≠ 0) (dm : NDArray K) (n : Nat) (hw : dm.WF)
    (hs : dm.shape = [n, n, n, n]) :
    (finishRdm2 dm true).bind (fun d => finishRdm2 d true) = finishRdm2 dm true := by
  obtain ⟨d, d1, d2, d3, d4⟩ := C38_rdm2_symmetric dm n hw hs
  rw [d1]
  exact (C38_rdm2_fixed h2 d n d2 d3).2 d4

theorem double_sum_comm (n : Nat) (f : Nat → Nat → K) :
    ((List.range n).map fun i => ((List.range n).map fun j => f i j).sum).sum
      = ((List.range n).map fun i => ((List.range n).map fun j => f j i).sum).sum := by
  have h : ∀ (g : Nat → K), ((List.range n).map g).sum = ∑ i ∈ Finset.range n, g i := by
    intro g
    rfl
  simp only [h]
  exact Finset.sum_comm

/-- Hermitising keeps the full traces, in both ways of pairing the indices. -/
theorem C38_rdm2_trace (h2 : (2 : K) ≠ 0) (dm : NDArray K) (n : Nat) (hw : dm.WF) (hs : dm.shape = [n, n, n, n]) :
    ∃ d, finishRdm2 dm true = .ok d ∧
      ((List.range n).map fun i => ((List.range n).map fun j => d.get [i, i, j, j]).sum).sum
        = ((List.range n).map fun i => ((List.range n).map fun j => dm.get [i, i, j, j]).sum).sum ∧
      ((List.range n).map fun i => ((List.range n).map fun j => d.get [i, j, j, i]).sum).sum
        = ((List.range n).map fun i => ((List.range n).map fun j => dm.get [i, j, j, i]).sum).sum := by
  obtain ⟨d, d1, d2, d3, d4⟩ := rdm2_elements dm n hw hs
  have hh : ∀ f g : Nat → Nat → K, (∀ i < n, ∀ j < n, f i j = (g i j + g j i) * 2⁻¹) →
      ((List.range n).map fun i => ((List.range n).map fun j => f i j).sum).sum
        = ((List.range n).map fun i => ((List.range n).map fun j => g i j).sum).sum := by
    intro f g h
    have e : ((List.range n).map fun i => ((List.range n).map fun j => f i j).sum).sum
        = (((List.range n).map fun i => ((List.range n).map fun j => g i j).sum).sum
          + ((List.range n).map fun i => ((List.range n).map fun j => g j i).sum).sum) * 2⁻¹ := by
      rw [← List.sum_map_add, ← List.sum_map_mul_right]
      refine congrArg List.sum (List.map_congr_left fun i hi => ?_)
      rw [← List.sum_map_add, ← List.sum_map_mul_right]
      refine congrArg List.sum (List.map_congr_left fun j hj => ?_)
      exact h i (List.mem_range.1 hi) j (List.mem_range.1 hj)
    rw [e, double_sum_comm n fun i j => g j i, ← two_mul, mul_comm (2 : K), mul_assoc, mul_inv_cancel₀ h2, mul_one]
  refine ⟨d, d1, hh _ _ fun i hi j hj => ?_, hh _ _ fun i hi j hj => ?_⟩
  · rw [d4 i hi i hi j hj j hj]
    field_simp
    ring
  · rw [d4 i hi j hj j hj i hi]
    field_simp
    ring

/-- The mixed block of an unrestricted calculation: Hermitian. -/
theorem C38_rdm2_mixed (dm : NDArray K) (n m : Nat) (hw : dm.WF) (hs : dm.shape = [n, n, m, m]) :
    ∃ d, finishRdm2Mixed dm true = .ok d ∧ d.WF ∧ d.shape = [n, n, m, m] ∧
      (∀ i < n, ∀ j < n, ∀ k < m, ∀ l < m, d.get [i, j, k, l] = d.get [j, i, l, k]) ∧
      ((2 : K) ≠ 0 → ∀ i < n, ∀ k < m, d.get [i, i, k, k] = dm.get [i, i, k, k]) := by
  obtain ⟨d, d1, d2, d3, d4⟩ := transpose2_elements dm n m hw hs
  refine ⟨d, d1, d2, d3, fun i hi j hj k hk l hl => ?_, fun h2 i hi k hk => ?_⟩
  · rw [d4 i hi j hj k hk l hl, d4 j hj i hi l hl k hk, add_comm]
  · rw [d4 i hi i hi k hk k hk, ← two_mul, mul_comm (2 : K), mul_assoc, mul_inv_cancel₀ h2, mul_one]

/-! ### Electron-boson coupling -/

theorem transpose_021 (x : NDArray K) (b n : Nat) (hs : x.shape = [b, n, n]) :
    ∃ y, x.transpose [0, 2, 1] = .ok y ∧ y.WF ∧ y.shape = [b, n, n] ∧
      ∀ I < b, ∀ i < n, ∀ j < n, y.get [I, i, j] = x.get [I, j, i] := by
  obtain ⟨t, t1, t2, t3, t4⟩ := transpose_get x [0, 2, 1] (by
    rw [hs]
    show List.Perm [0, 2, 1] (List.range 3)
    decide)
  have hts : t.shape = [b, n, n] := by rw [t3, hs]; rfl
  refine ⟨t, t1, t2, hts, fun I hI i hi j hj => ?_⟩
  rw [t4 [I, i, j] (by rw [hts]; simp [validIdx_cons, validIdx_nil, hI, hi, hj])]
  rfl

/-- The two blocks are transposes of each other, with and without unshifting. -/
theorem C38_coupling_transposes (dm0 dm1 xi dm : NDArray K) (b n : Nat) (hw0 : dm0.WF) (hw1 : dm1.WF)
    (hs0 : dm0.shape = [b, n, n]) (hs1 : dm1.shape = [b, n, n]) (hxi : xi.shape = [b]) (hdm : dm.WF)
    (hds : dm.shape = [n, n]) (unshifted shift : Bool) :
    ∃ d0 d1, finishEbCoup dm0 dm1 true unshifted shift xi (finishRdm1 dm) = .ok (d0, d1) ∧
      d0.shape = [b, n, n] ∧ d1.shape = [b, n, n] ∧
      ∀ I < b, ∀ i < n, ∀ j < n, d0.get [I, i, j] = d1.get [I, j, i] := by
  obtain ⟨t1, a1, a2, a3, a4⟩ := transpose_021 dm1 b n hs1
  obtain ⟨t0, b1, b2, b3, b4⟩ := transpose_021 dm0 b n hs0
  obtain ⟨y0, c1, c2, c3, c4⟩ := halfSum_ok dm0 t1 hw0 a2 (hs0.trans a3.symm)
  obtain ⟨y1, e1, e2, e3, e4⟩ := halfSum_ok dm1 t0 hw1 b2 (hs1.trans b3.symm)
  obtain ⟨d, f1, f2, f3, f4⟩ := C38_rdm1_symmetric dm n hdm hds
  have hy : ∀ I < b, ∀ i < n, ∀ j < n, y0.get [I, i, j] = y1.get [I, j, i] := by
    intro I hI i hi j hj
    rw [c4, e4, a4 I hI i hi j hj, b4 I hI j hj i hi, add_comm]
  unfold finishEbCoup
  simp only [if_true, a1, b1, c1, e1, bind, Except.bind, pure, Except.pure]
  by_cases hu : (unshifted && shift) = true
  · rw [if_pos hu, f1]
    have hos : (outerShift xi d).shape = [b, n, n] := by
      show xi.shape ++ d.shape = _
      rw [hxi, f3]; rfl
    have how : (outerShift xi d).WF := NDArray.ofFn_wf _ _
    obtain ⟨z0, g1, g2, g3, g4⟩ := add_ok y0 ((outerShift xi d).map fun x => -x) c2 (map_wf _ _ how)
      ((c3.trans hs0).trans hos.symm)
    obtain ⟨z1, h1, h2, h3, h4⟩ := add_ok y1 ((outerShift xi d).map fun x => -x) e2 (map_wf _ _ how)
      ((e3.trans hs1).trans hos.symm)
    simp only [g1, h1]
    refine ⟨z0, z1, rfl, g2.trans (c3.trans hs0), h2.trans (e3.trans hs1), fun I hI i hi j hj => ?_⟩
    have ho : ∀ i < n, ∀ j < n, (outerShift xi d).get [I, i, j] = xi.get [I] * d.get [i, j] := by
      intro i hi j hj
      refine NDArray.get_ofFn _ _ ?_
      show ValidIdx _ _
      rw [hxi, f3]
      simp [validIdx_cons, validIdx_nil, hI, hi, hj]
    rw [g4, h4, map_get _ (fun x => -x) neg_zero, map_get _ (fun x => -x) neg_zero, ho i hi j hj, ho j hj i hi,
      hy I hI i hi j hj, f4 i hi j hj]
  · rw [if_neg hu]
    exact ⟨y0, y1, rfl, c3.trans hs0, e3.trans hs1, hy⟩

end

/-! ### Concrete cases -/

example : finishRdm1 (⟨[2, 2], [1, 2, 4, 3]⟩ : NDArray Rat) true = .ok ⟨[2, 2], [1, 3, 3, 3]⟩ := by
  decide +kernel

example : (finishRdm2 (NDArray.ofFn [2, 2, 2, 2] fun i => (ravelIdx [2, 2, 2, 2] i : Rat)) true).map
    (fun d => (d.get [0, 1, 0, 0], d.get [0, 0, 0, 1], d.get [1, 0, 0, 0])) = .ok (15 / 4, 15 / 4, 15 / 4) := by
  decide +kernel

example : finishEbCoup (⟨[1, 2, 2], [1, 2, 3, 4]⟩ : NDArray Rat) ⟨[1, 2, 2], [5, 6, 7, 8]⟩ true true true ⟨[1], [2]⟩
    (finishRdm1 ⟨[2, 2], [1, 0, 4, 1]⟩)
    = .ok (⟨[1, 2, 2], [1, 1 / 2, 1 / 2, 4]⟩, ⟨[1, 2, 2], [1, 1 / 2, 1 / 2, 4]⟩) := by
  decide +kernel

end Ebcc
