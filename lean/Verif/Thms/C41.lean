import Verif.Thms.C38
import Mathlib.Tactic.LinearCombination

/-!
C41: unshifting the bosonic density matrix.

With `b = b' - xi` (`b'` the shifted operator) the element is
`⟨b†_p b_q⟩ = ⟨b'†_p b'_q⟩ - xi_q ⟨b'†_p⟩ - xi_p ⟨b'_q⟩ + xi_p xi_q`.
The code applies the correction to the diagonal only.
-/

namespace Ebcc

section
variable {K : Type} [Field K]

/-- The element of the density matrix of the unshifted operators.  `sing` holds the expectation values of the shifted
creation operators (row 0) and annihilation operators (row 1). -/
def unshiftedElement (dm xi sing : NDArray K) (p q : Nat) : K :=
  dm.get [p, q] - xi.get [q] * sing.get [0, p] - xi.get [p] * sing.get [1, q] + xi.get [p] * xi.get [q]

/-- The same, made Hermitian. -/
def unshiftedHermitian (dm xi sing : NDArray K) (p q : Nat) : K :=
  (unshiftedElement dm xi sing p q + unshiftedElement dm xi sing q p) * 2⁻¹

theorem rdm1b_elements (dm xi sing : NDArray K) (nb : Nat) (hw : dm.WF) (hs : dm.shape = [nb, nb])
    (hsing : sing.shape = [2, nb]) (hermitise : Bool) :
    ∃ x d, finishRdm1 dm hermitise = .ok x ∧ finishRdm1b dm hermitise true true xi sing = .ok d ∧ d.WF ∧
      d.shape = [nb, nb] ∧
      ∀ p < nb, ∀ q < nb, d.get [p, q] = x.get [p, q]
        - if p = q then xi.get [p] * (sing.get [0, p] + sing.get [1, p]) - xi.get [p] ^ 2 else 0 := by
  obtain ⟨x, x1, x2, x3⟩ : ∃ x, finishRdm1 dm hermitise = .ok x ∧ x.WF ∧ x.shape = [nb, nb] := by
    cases hermitise with
    | false => exact ⟨dm, rfl, hw, hs⟩
    | true =>
      obtain ⟨d, d1, d2, d3, -⟩ := C38_rdm1_symmetric dm nb hw hs
      exact ⟨d, d1, d2, d3⟩
  unfold finishRdm1b
  simp only [x1, bind, Except.bind, Bool.and_true, if_true, hsing]
  have h0 : x.shape.getD 0 0 = nb := by rw [x3]; rfl
  rw [h0]
  obtain ⟨q, q1, q2, q3, q4⟩ := add_ok x _ x2 (map_wf _ (fun y : K => -y) (NDArray.ofFn_wf [nb, nb]
    fun idx => (if idx.getD 0 0 = idx.getD 1 0 then 1 else 0)
        * (xi.get [idx.getD 0 0] * ((List.range (([2, nb] : List Nat).getD 0 0)).map
          fun n => sing.get [n, idx.getD 0 0]).sum - xi.get [idx.getD 0 0] ^ 2))) x3
  refine ⟨x, q, rfl, q1, q3, q2.trans x3, fun i hi j hj => ?_⟩
  rw [q4, map_get _ (fun y => -y) neg_zero, NDArray.get_ofFn _ _ (show ValidIdx _ _ by
    simp [validIdx_cons, validIdx_nil, hi, hj])]
  simp only [List.getD_cons_zero, List.getD_cons_succ]
  by_cases hij : i = j
  · subst hij
    simp only [if_true, one_mul]
    simp [List.range_succ, sub_eq_add_neg]
  · simp [hij]

/-- The diagonal is that of the unshifted operators, for every number of modes.  Missing for the full property: the
off-diagonal elements, where it is false (`C41_off_diagonal_wrong`). -/
theorem C41_diagonal_partial (h2 : (2 : K) ≠ 0) (dm xi sing : NDArray K) (nb : Nat) (hw : dm.WF)
    (hs : dm.shape = [nb, nb]) (hsing : sing.shape = [2, nb]) (hermitise : Bool) :
    ∃ d, finishRdm1b dm hermitise true true xi sing = .ok d ∧ d.shape = [nb, nb] ∧
      ∀ p < nb, d.get [p, p] = unshiftedElement dm xi sing p p := by
  obtain ⟨x, d, h1, d1, d2, d3, d4⟩ := rdm1b_elements dm xi sing nb hw hs hsing hermitise
  refine ⟨d, d1, d3, fun p hp => ?_⟩
  have hx : x.get [p, p] = dm.get [p, p] := by
    cases hermitise with
    | false =>
      have : dm = x := by simpa [finishRdm1, pure, Except.pure] using h1
      rw [this]
    | true =>
      obtain ⟨y, y1, -, -, y4⟩ := rdm1_elements dm nb hw hs
      rw [h1, Except.ok.injEq] at y1
      subst y1
      rw [y4 p hp p hp, ← two_mul, mul_comm (2 : K), mul_assoc, mul_inv_cancel₀ h2, mul_one]
  rw [d4 p hp p hp, if_pos rfl, hx, unshiftedElement]
  ring

/-- With one mode the whole density matrix is right. -/
theorem C41_one_mode (h2 : (2 : K) ≠ 0) (dm xi sing : NDArray K) (hw : dm.WF) (hs : dm.shape = [1, 1])
    (hsing : sing.shape = [2, 1]) (hermitise : Bool) :
    ∃ d, finishRdm1b dm hermitise true true xi sing = .ok d ∧ d.shape = [1, 1] ∧
      ∀ p < 1, ∀ q < 1, d.get [p, q] = unshiftedElement dm xi sing p q := by
  obtain ⟨d, d1, d2, d3⟩ := C41_diagonal_partial h2 dm xi sing 1 hw hs hsing hermitise
  refine ⟨d, d1, d2, fun p hp q hq => ?_⟩
  obtain rfl : p = q := by omega
  exact d3 p hp

/-- With any number of modes the trace is right, which is why checks of the trace pass. -/
theorem C41_trace (h2 : (2 : K) ≠ 0) (dm xi sing : NDArray K) (nb : Nat) (hw : dm.WF) (hs : dm.shape = [nb, nb])
    (hsing : sing.shape = [2, nb]) (hermitise : Bool) :
    ∃ d, finishRdm1b dm hermitise true true xi sing = .ok d ∧
      ∑ p ∈ Finset.range nb, d.get [p, p] = ∑ p ∈ Finset.range nb, unshiftedElement dm xi sing p p := by
  obtain ⟨d, d1, d2, d3⟩ := C41_diagonal_partial h2 dm xi sing nb hw hs hsing hermitise
  exact ⟨d, d1, Finset.sum_congr rfl fun p hp => d3 p (Finset.mem_range.1 hp)⟩

/-- Off the diagonal the code returns the element of the *shifted* operators: it is right exactly when the shift terms
happen to cancel. -/
theorem C41_off_diagonal (dm xi sing : NDArray K) (nb : Nat) (hw : dm.WF)
    (hs : dm.shape = [nb, nb]) (hsing : sing.shape = [2, nb]) :
    ∃ d, finishRdm1b dm false true true xi sing = .ok d ∧
      ∀ p < nb, ∀ q < nb, p ≠ q → d.get [p, q] = dm.get [p, q] ∧
        (d.get [p, q] = unshiftedElement dm xi sing p q ↔
          xi.get [q] * sing.get [0, p] + xi.get [p] * sing.get [1, q] = xi.get [p] * xi.get [q]) := by
  obtain ⟨x, d, h1, d1, d2, d3, d4⟩ := rdm1b_elements dm xi sing nb hw hs hsing false
  have hx : dm = x := by simpa [finishRdm1, pure, Except.pure] using h1
  subst hx
  refine ⟨d, d1, fun p hp q hq hpq => ?_⟩
  have e : d.get [p, q] = dm.get [p, q] := by rw [d4 p hp q hq, if_neg hpq, sub_zero]
  refine ⟨e, ?_⟩
  rw [e, unshiftedElement]
  constructor
  · intro h
    linear_combination h
  · intro h
    linear_combination h

/-- Without `unshifted`, or without a shift, the density matrix is only hermitised. -/
theorem C41_not_unshifted (dm xi sing : NDArray K) (hermitise unshifted shift : Bool)
    (h : (unshifted && shift) = false) :
    finishRdm1b dm hermitise unshifted shift xi sing = finishRdm1 dm hermitise := by
  unfold finishRdm1b
  cases h1 : finishRdm1 dm hermitise with
  | error e => rfl
  | ok x =>
    simp only [bind, Except.bind]
    rw [if_neg (by rw [h]; exact Bool.false_ne_true)]
    rfl

end

/-- Two modes in a coherent state: `⟨b'⟩ = 0`, all shifted elements zero, `xi = (1, 2)`.  The unshifted density matrix is
`xi_p xi_q`, the code leaves zero off the diagonal. -/
theorem C41_off_diagonal_wrong :
    let dm : NDArray Rat := NDArray.zeros [2, 2]
    let xi : NDArray Rat := ⟨[2], [1, 2]⟩
    let sing : NDArray Rat := NDArray.zeros [2, 2]
    finishRdm1b dm true true true xi sing = .ok ⟨[2, 2], [1, 0, 0, 4]⟩ ∧
      unshiftedElement dm xi sing 0 1 = 2 ∧ unshiftedHermitian dm xi sing 0 1 = 2 := by
  decide +kernel

example :
    finishRdm1b (⟨[2, 2], [5, 1, 3, 7]⟩ : NDArray Rat) true true true ⟨[2], [1, 2]⟩ ⟨[2, 2], [1, 2, 3, 4]⟩
      = .ok ⟨[2, 2], [2, 2, 2, -1]⟩ ∧
    unshiftedElement (⟨[2, 2], [5, 1, 3, 7]⟩ : NDArray Rat) ⟨[2], [1, 2]⟩ ⟨[2, 2], [1, 2, 3, 4]⟩ 0 0 = 2 := by
  decide +kernel

end Ebcc
