import Verif.Lemmas.Amps
import Mathlib.Tactic.FieldSimp
import Mathlib.Tactic.Ring

/-!
C40: the shift removes the mean-field boson term.
-/

namespace Ebcc

section
variable {K : Type} [Field K]

/-- The mean-field trace of the coupling of mode `I`: the sum of the diagonal of the occupied block over all occupied
spin orbitals.  `boo` lists the occupied blocks held by the object: one for restricted and generalised objects, two
for unrestricted ones. -/
def couplingTrace (spin : SpinType) (boo : List (NDArray K)) (I : Nat) : K :=
  (if spin = .R then 2 else 1) *
    (boo.map fun x => ∑ p ∈ Finset.range (x.shape.getD 1 0), x.get [I, p, p]).sum

/-- The blocks fit: the right number, all with `nb` modes. -/
structure CouplingBlocks (spin : SpinType) (nb : Nat) (boo : List (NDArray K)) : Prop where
  number : boo.length = if spin = .U then 2 else 1
  modes : ∀ x ∈ boo, x.shape.getD 0 0 = nb

theorem bosonTrace_get (x : NDArray K) (nb : Nat) (hs : x.shape.getD 0 0 = nb) (I : Nat) (hI : I < nb) :
    (bosonTrace x).get [I] = ∑ p ∈ Finset.range (x.shape.getD 1 0), x.get [I, p, p] := by
  have : (bosonTrace x).get [I]
      = ((List.range (x.shape.getD 1 0)).map fun p => x.get [([I] : List Nat).getD 0 0, p, p]).sum := by
    refine NDArray.get_ofFn _ _ ?_
    show ValidIdx _ _
    rw [hs]
    simp [validIdx_cons, validIdx_nil, hI]
  rw [this]
  rfl

theorem bosonTrace_shape (x : NDArray K) (nb : Nat) (hs : x.shape.getD 0 0 = nb) :
    (bosonTrace x).shape = [nb] := by
  show [x.shape.getD 0 0] = _
  rw [hs]

theorem occTrace_ok (spin : SpinType) (nb : Nat) (boo : List (NDArray K)) (h : CouplingBlocks spin nb boo) :
    ∃ t, occTrace spin boo = .ok t ∧ t.WF ∧ t.shape = [nb] ∧ ∀ I < nb, t.get [I] = couplingTrace spin boo I := by
  obtain ⟨hn, hm⟩ := h
  have hw : ∀ x : NDArray K, (bosonTrace x).WF := fun x => NDArray.ofFn_wf _ _
  cases spin with
  | R =>
    match boo, hn with
    | [x], _ =>
      have hx := hm x (List.mem_singleton.2 rfl)
      refine ⟨_, rfl, map_wf _ _ (hw x), bosonTrace_shape x nb hx, fun I hI => ?_⟩
      rw [map_get _ (fun y => y * 2) (zero_mul _), bosonTrace_get x nb hx I hI]
      simp [couplingTrace, mul_comm]
  | G =>
    match boo, hn with
    | [x], _ =>
      have hx := hm x (List.mem_singleton.2 rfl)
      refine ⟨_, rfl, hw x, bosonTrace_shape x nb hx, fun I hI => ?_⟩
      rw [bosonTrace_get x nb hx I hI]
      simp [couplingTrace]
  | U =>
    match boo, hn with
    | [x, y], _ =>
      have hx := hm x (List.mem_cons_self)
      have hy := hm y (List.mem_cons_of_mem _ (List.mem_singleton.2 rfl))
      obtain ⟨q, q1, q2, q3, q4⟩ := add_ok _ _ (hw x) (hw y)
        ((bosonTrace_shape x nb hx).trans (bosonTrace_shape y nb hy).symm)
      refine ⟨q, q1, q3, q2.trans (bosonTrace_shape x nb hx), fun I hI => ?_⟩
      rw [q4, bosonTrace_get x nb hx I hI, bosonTrace_get y nb hy I hI]
      simp [couplingTrace]

/-- The bare term, zero when absent. -/
def bareTerm (bareG : Option (NDArray K)) (I : Nat) : K := (bareG.elim 0 fun g => g.get [I])

/-- Shift off: `xi` is zero and `G` is the bare term plus the trace. -/
theorem C40_unshifted (spin : SpinType) (nb : Nat) (boo : List (NDArray K)) (h : CouplingBlocks spin nb boo)
    (w : NDArray K) (hw : w.WF) (hws : w.shape = [nb]) (bareG : Option (NDArray K))
    (hg : ∀ g ∈ bareG, g.WF ∧ g.shape = [nb]) :
    xiOf spin false (some w) (some boo) bareG = .ok (NDArray.zeros [nb]) ∧
    ∃ G, meanFieldG spin false (some w) (some boo) bareG = .ok G ∧ G.shape = [nb] ∧
      ∀ I < nb, G.get [I] = bareTerm bareG I + couplingTrace spin boo I := by
  have hx : xiOf spin false (some w) (some boo) bareG = .ok (NDArray.zeros [nb]) := by
    simp [xiOf, hws, pure, Except.pure]
  refine ⟨hx, ?_⟩
  obtain ⟨t, t1, t2, t3, t4⟩ := occTrace_ok spin nb boo h
  have hz : (NDArray.zeros [nb] : NDArray K).WF := NDArray.ofFn_wf _ _
  obtain ⟨m, m1, m2, m3, m4⟩ := mul_ok (NDArray.zeros [nb]) w hz hw hws.symm
  obtain ⟨v, v1, v2, v3, v4⟩ := add_ok t (m.map fun y => -y) t2 (map_wf _ _ m3) (t3.trans m2.symm)
  have hv : ∀ I < nb, v.get [I] = couplingTrace spin boo I := by
    intro I hI
    have hz0 : (NDArray.zeros [nb] : NDArray K).get [I] = 0 :=
      NDArray.get_ofFn _ _ (show ValidIdx _ _ by simp [validIdx_cons, validIdx_nil, hI])
    rw [v4, map_get m (fun y => -y) neg_zero, m4, hz0, t4 I hI]
    simp
  unfold meanFieldG
  simp only [t1, hx, m1, v1, bind, Except.bind]
  cases bareG with
  | none =>
    refine ⟨v, rfl, v2.trans t3, fun I hI => ?_⟩
    rw [hv I hI]
    simp [bareTerm]
  | some g =>
    obtain ⟨g1, g2⟩ := hg g rfl
    simp only []
    have hgv : ¬ (spin = .U ∧ g.shape ≠ v.shape) := fun hc => hc.2 (g2.trans (v2.trans t3).symm)
    rw [if_neg hgv]
    obtain ⟨q, q1, q2, q3, q4⟩ := add_ok v g v3 g1 ((v2.trans t3).trans g2.symm)
    refine ⟨q, q1, q2.trans (v2.trans t3), fun I hI => ?_⟩
    rw [q4, hv I hI, add_comm]
    rfl

/-- Shift on: `xi` is the bare term plus the trace, over the frequency. -/
theorem C40_xi (spin : SpinType) (nb : Nat) (boo : List (NDArray K)) (h : CouplingBlocks spin nb boo)
    (w : NDArray K) (hw : w.WF) (hws : w.shape = [nb]) (bareG : Option (NDArray K))
    (hg : ∀ g ∈ bareG, g.WF ∧ g.shape = [nb]) :
    ∃ x, xiOf spin true (some w) (some boo) bareG = .ok x ∧ x.WF ∧ x.shape = [nb] ∧
      ∀ I < nb, x.get [I] = (bareTerm bareG I + couplingTrace spin boo I) / w.get [I] := by
  obtain ⟨t, t1, t2, t3, t4⟩ := occTrace_ok spin nb boo h
  obtain ⟨d, d1, d2, d3, d4⟩ := div_ok t w t2 hw (t3.trans hws.symm)
  unfold xiOf
  simp only [if_true, t1, d1, bind, Except.bind]
  cases bareG with
  | none =>
    refine ⟨d, rfl, d3, d2.trans t3, fun I hI => ?_⟩
    rw [d4, t4 I hI]
    simp [bareTerm]
  | some g =>
    obtain ⟨g1, g2⟩ := hg g rfl
    obtain ⟨q, q1, q2, q3, q4⟩ := div_ok g w g1 hw (g2.trans hws.symm)
    obtain ⟨r, r1, r2, r3, r4⟩ := add_ok d q d3 q3 ((d2.trans t3).trans (q2.trans g2).symm)
    simp only [q1]
    refine ⟨r, r1, r3, r2.trans (d2.trans t3), fun I hI => ?_⟩
    rw [r4, d4, q4, t4 I hI, ← add_div, add_comm]
    rfl

/-- Shift on: the mean-field term vanishes for every mode of non-zero frequency. -/
theorem C40_shifted (spin : SpinType) (nb : Nat) (boo : List (NDArray K)) (h : CouplingBlocks spin nb boo)
    (w : NDArray K) (hw : w.WF) (hws : w.shape = [nb]) (bareG : Option (NDArray K))
    (hg : ∀ g ∈ bareG, g.WF ∧ g.shape = [nb]) :
    ∃ G, meanFieldG spin true (some w) (some boo) bareG = .ok G ∧ G.shape = [nb] ∧
      ∀ I < nb, w.get [I] ≠ 0 → G.get [I] = 0 := by
  obtain ⟨t, t1, t2, t3, t4⟩ := occTrace_ok spin nb boo h
  obtain ⟨x, x1, x2, x3, x4⟩ := C40_xi spin nb boo h w hw hws bareG hg
  obtain ⟨m, m1, m2, m3, m4⟩ := mul_ok x w x2 hw (x3.trans hws.symm)
  obtain ⟨v, v1, v2, v3, v4⟩ := add_ok t (m.map fun y => -y) t2 (map_wf _ _ m3) (t3.trans (m2.trans x3).symm)
  have hv : ∀ I < nb, w.get [I] ≠ 0 → v.get [I] = -bareTerm bareG I := by
    intro I hI hI0
    rw [v4, map_get m (fun y => -y) neg_zero, m4, x4 I hI, t4 I hI, div_mul_cancel₀ _ hI0]
    ring
  unfold meanFieldG
  simp only [t1, x1, m1, v1, bind, Except.bind]
  cases bareG with
  | none =>
    refine ⟨v, rfl, v2.trans t3, fun I hI hI0 => ?_⟩
    rw [hv I hI hI0]
    simp [bareTerm]
  | some g =>
    obtain ⟨g1, g2⟩ := hg g rfl
    simp only []
    have hgv : ¬ (spin = .U ∧ g.shape ≠ v.shape) := fun hc => hc.2 (g2.trans (v2.trans t3).symm)
    rw [if_neg hgv]
    obtain ⟨q, q1, q2, q3, q4⟩ := add_ok v g v3 g1 ((v2.trans t3).trans g2.symm)
    refine ⟨q, q1, q2.trans (v2.trans t3), fun I hI hI0 => ?_⟩
    rw [q4, hv I hI hI0]
    simp [bareTerm]

/-- Without frequencies both raise `AssertionError`. -/
theorem C40_no_bosons (spin : SpinType) (shift : Bool) (boo : Option (List (NDArray K)))
    (bareG : Option (NDArray K)) :
    xiOf spin shift none boo bareG = .error .assertionError ∧
      meanFieldG spin shift none boo bareG = .error .assertionError := ⟨rfl, rfl⟩

end

/-! ### Concrete cases: two modes, two occupied orbitals, a bare term. -/

example :
    let boo : NDArray Rat := ⟨[2, 2, 2], [1, 5, 5, 2, 3, 7, 7, 4]⟩
    let w : NDArray Rat := ⟨[2], [2, 4]⟩
    let g : NDArray Rat := ⟨[2], [1, 1]⟩
    xiOf .R true (some w) (some [boo]) (some g) = .ok ⟨[2], [7 / 2, 15 / 4]⟩ ∧
    meanFieldG .R true (some w) (some [boo]) (some g) = .ok ⟨[2], [0, 0]⟩ ∧
    meanFieldG .R false (some w) (some [boo]) (some g) = .ok ⟨[2], [7, 15]⟩ ∧
    meanFieldG .U false (some w) (some [boo, ⟨[2, 1, 1], [10, 20]⟩]) (some g) = .ok ⟨[2], [14, 28]⟩ ∧
    meanFieldG .G true (some w) (some [boo]) (some g) = .ok ⟨[2], [0, 0]⟩ := by
  decide +kernel

/-- The frequency must not be zero: in exact arithmetic with `x / 0 = 0` the term stays. -/
example : meanFieldG .G true (some (⟨[1], [0]⟩ : NDArray Rat)) (some [⟨[1, 1, 1], [3]⟩]) none = .ok ⟨[1], [3]⟩ := by
  decide +kernel

end Ebcc
