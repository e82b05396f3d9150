import Verif.Thms.C75
import Verif.Tensor.Density
import Verif.Gen.Hints.Density
import Verif.Gen.GCCD
import Verif.Gen.GCC2
import Verif.Gen.GCCSD
import Verif.Gen.GCCSDT
import Verif.Gen.GCCSD_S_1_1
import Verif.Gen.GCCSD_SD_1_1
import Verif.Gen.GCCSD_SD_1_2
/-!
C77: density matrices of the generated functions have the traces of N-electron density matrices, the
symmetries of exchanging electrons, and give the Lagrangian as energy.
-/

set_option maxRecDepth 1000000

namespace Ebcc

/-- For all amplitudes: the one-particle matrix has the number of occupied orbitals as trace; a partial trace of the
two-particle matrix is the one-particle matrix times that number less one; the two-particle matrix is symmetric in
the exchange of pairs and changes its sign when two indices are exchanged. -/
def DensityTraces77 (D1 D2 : GenFun) (n1 n2 : List Char) : Prop :=
  ∀ (R : Type) [Field R] [CharZero R] [DecidableEq R] (h : GHam R) (t l : GAmps R) (no nv nb : Nat)
    (method : ContractMethod) (path : List (List Char) → List Char → List (NDArray R) → List Contraction),
    PathOk path →
    ∃ r1 r2 : Dict (List Char) (NDArray R),
      D1.call method path (spaceSizes no nv nb 0) (h.args t l (spaceSizes no nv nb 0)) = .ok r1 ∧
      D2.call method path (spaceSizes no nv nb 0) (h.args t l (spaceSizes no nv nb 0)) = .ok r2 ∧
      (∀ x ∈ ov2, HasResult r1 (spaceSizes no nv nb 0)
        (n1 ++ ['.', spaceLetter x.1, spaceLetter x.2], [x.1, x.2])) ∧
      (∀ x ∈ ov4, HasResult r2 (spaceSizes no nv nb 0)
        (n2 ++ ['.', spaceLetter x.1.1, spaceLetter x.1.2, spaceLetter x.2.1, spaceLetter x.2.2],
          [x.1.1, x.1.2, x.2.1, x.2.2])) ∧
      (sumOrb no nv fun p => dm1 r1 n1 p p) = no ∧
      (∀ p q, IsOrb no nv p → IsOrb no nv q → (sumOrb no nv fun r => dm2 r2 n2 p q r r) = (no - 1) * dm1 r1 n1 p q) ∧
      (∀ p q r s, IsOrb no nv p → IsOrb no nv q → IsOrb no nv r → IsOrb no nv s →
        dm2 r2 n2 r s p q = dm2 r2 n2 p q r s ∧ dm2 r2 n2 p s r q = -dm2 r2 n2 p q r s)

theorem traces_of_check77 {D1 D2 : GenFun} {n1 n2 : List Char} {hints : List Nat} {dm : Nat → Option Nat}
    (hc : checkClaim gSym hints (· % 4) gVals
      [⟨D1, 'P', argBut densTags⟩, ⟨D2, 'Q', argBut densTags⟩, ⟨eyeFun, 'D', argBut densTags⟩] dm
      (traceIdents n1 n2) = true) : DensityTraces77 D1 D2 n1 n2 := by
  intro R _ _ _ h t l no nv nb method path hpath
  have := checkClaim_sound (ι := Unit) (spaceSizes no nv nb 0) (fun _ => gTensor h t l t) gSym
    (fun _ => gSym_symOk h t l t) method path hpath (spaceSizes no nv nb 0) _ (spaceSizes_mod no nv nb 0)
    gVals (fun _ => h.argsD t l t (spaceSizes no nv nb 0))
    (fun _ => gVals_rep (spaceSizes no nv nb 0) h t l t) _ dm _ hints hc
  simp only [CallsOk] at this
  obtain ⟨r1, h1, r2, h2, r3, h3, key⟩ := this
  have key := key ()
  simp only [argBut_addResA (tags := densTags) 'P' rfl, argBut_addResA (tags := densTags) 'Q' rfl, argBut_args] at h1 h2 h3
  have hd : r3 () = [(chars! "oo", eyeArr no)] := by
    have := h3 ()
    rw [eyeFun_call] at this
    exact (Except.ok.inj this).symm
  refine ⟨r1 (), r2 (), h1 (), h2 (), ?_, ?_, ?_, ?_, ?_⟩
  · intro x hx
    obtain ⟨k1, -⟩ := key _ (List.mem_append_left _ (List.mem_cons_of_mem _ (List.mem_map.2 ⟨x, hx, rfl⟩))) rfl
    obtain ⟨a, a1, _, a3⟩ := k1 _ (List.mem_cons_of_mem _ (List.mem_cons_of_mem _ (List.mem_cons_of_mem _
      (List.mem_singleton.2 rfl)))) _ (List.mem_singleton.2 rfl)
    exact ⟨a, a1, a3⟩
  · intro x hx
    obtain ⟨k1, -⟩ := key _ (List.mem_append_right _ (List.mem_flatMap.2 ⟨x, hx, List.mem_cons_self ..⟩)) rfl
    obtain ⟨a, a1, _, a3⟩ := k1 _ (List.mem_cons_self ..) _ (List.mem_singleton.2 rfl)
    exact ⟨a, a1, a3⟩
  · obtain ⟨-, k2⟩ := key _ (List.mem_append_left _ (List.mem_cons_self ..)) rfl
    have := k2 [] .nil
    simp only [List.map_cons, List.map_nil, List.sum_cons, List.sum_nil, ITerm.val, einValue, List.range_zero] at this
    rw [show einDummies [[0, 0]] ([] : List Nat) = [0] by decide,
      show einDummies [[1, 1]] ([] : List Nat) = [1] by decide] at this
    simp only [einSum_cons_sumTo, einSum_nil, einProd_one] at this
    have e1 : (sumTo no fun k => dm1 (r1 ()) n1 (0, k) (0, k)) + ((sumTo nv fun k => dm1 (r1 ()) n1 (1, k) (1, k)) +
        (-(sumTo no fun k => (eyeArr no : NDArray R).get [k, k]) + 0)) = 0 := by
      refine Eq.trans ?_ this
      refine congrArg₂ (· + ·) ?_ (congrArg₂ (· + ·) ?_ (congrArg₂ (· + ·) ?_ rfl))
      · rw [show ((1 : Int) : R) / ((1 : Nat) : R) = 1 by simp, one_mul]; rfl
      · rw [show ((1 : Int) : R) / ((1 : Nat) : R) = 1 by simp, one_mul]; rfl
      · rw [show ((-1 : Int) : R) / ((1 : Nat) : R) = -1 by simp, neg_one_mul, hd]; rfl
    rw [sumTo_congr (fun k hk => eyeArr_diag no k hk), sumTo_one] at e1
    unfold sumOrb
    linear_combination e1
  · intro p q hp hq
    obtain ⟨-, k2⟩ := key _ (List.mem_append_left _ (List.mem_cons_of_mem _
      (List.mem_map.2 ⟨(p.1, q.1), isOrb_ov hp hq, rfl⟩))) rfl
    have := k2 [p.2, q.2] (.cons (isOrb_lt hp) (.cons (isOrb_lt hq) .nil))
    simp only [List.map_cons, List.map_nil, List.sum_cons, List.sum_nil, ITerm.val, einValue] at this
    rw [show einDummies [[0, 1, 2, 2]] (List.range 2) = [2] by decide,
      show einDummies [[0, 1, 3, 3]] (List.range 2) = [3] by decide,
      show einDummies [[2, 2], [0, 1]] (List.range 2) = [2] by decide,
      show einDummies [[0, 1]] (List.range 2) = [] by decide] at this
    simp only [einSum_cons_sumTo, einSum_nil, einProd_one, einProd_two] at this
    have e1 : (sumTo no fun k => dm2 (r2 ()) n2 p q (0, k) (0, k)) + ((sumTo nv fun k => dm2 (r2 ()) n2 p q (1, k) (1, k)) +
        (-(sumTo no fun k => (eyeArr no : NDArray R).get [k, k] * dm1 (r1 ()) n1 p q) +
          (dm1 (r1 ()) n1 p q + 0))) = 0 := by
      refine Eq.trans ?_ this
      refine congrArg₂ (· + ·) ?_ (congrArg₂ (· + ·) ?_ (congrArg₂ (· + ·) ?_ (congrArg₂ (· + ·) ?_ rfl)))
      · rw [show ((1 : Int) : R) / ((1 : Nat) : R) = 1 by simp, one_mul]; rfl
      · rw [show ((1 : Int) : R) / ((1 : Nat) : R) = 1 by simp, one_mul]; rfl
      · rw [show ((-1 : Int) : R) / ((1 : Nat) : R) = -1 by simp, neg_one_mul, hd]; rfl
      · rw [show ((1 : Int) : R) / ((1 : Nat) : R) = 1 by simp, one_mul]; rfl
    rw [sumTo_mul_right, sumTo_congr (fun k hk => eyeArr_diag no k hk), sumTo_one] at e1
    unfold sumOrb
    linear_combination e1
  · intro p q r s hp hq hr hs
    have hm : ((p.1, q.1), (r.1, s.1)) ∈ ov4 :=
      List.mem_flatMap.2 ⟨_, isOrb_ov hp hq, List.mem_map.2 ⟨_, isOrb_ov hr hs, rfl⟩⟩
    have hbox : InBox ([p.1, q.1, r.1, s.1].map (spaceSizes no nv nb 0)) [p.2, q.2, r.2, s.2] :=
      .cons (isOrb_lt hp) (.cons (isOrb_lt hq) (.cons (isOrb_lt hr) (.cons (isOrb_lt hs) .nil)))
    obtain ⟨-, k1⟩ := key _ (List.mem_append_right _ (List.mem_flatMap.2 ⟨_, hm, List.mem_cons_self ..⟩)) rfl
    obtain ⟨-, k2⟩ := key _ (List.mem_append_right _ (List.mem_flatMap.2 ⟨_, hm,
      List.mem_cons_of_mem _ (List.mem_singleton.2 rfl)⟩)) rfl
    have k1 := k1 _ hbox
    have k2 := k2 _ hbox
    simp only [List.map_cons, List.map_nil, List.sum_cons, List.sum_nil, ITerm.val, einValue] at k1 k2
    rw [show einDummies [[0, 1, 2, 3]] (List.range 4) = [] by decide,
      show einDummies [[2, 3, 0, 1]] (List.range 4) = [] by decide] at k1
    rw [show einDummies [[0, 1, 2, 3]] (List.range 4) = [] by decide,
      show einDummies [[0, 3, 2, 1]] (List.range 4) = [] by decide] at k2
    simp only [einSum_nil, einProd_one] at k1 k2
    have e1 : dm2 (r2 ()) n2 p q r s + (-dm2 (r2 ()) n2 r s p q + 0) = 0 := by
      refine Eq.trans ?_ k1
      refine congrArg₂ (· + ·) ?_ (congrArg₂ (· + ·) ?_ rfl)
      · rw [show ((1 : Int) : R) / ((1 : Nat) : R) = 1 by simp, one_mul]; rfl
      · rw [show ((-1 : Int) : R) / ((1 : Nat) : R) = -1 by simp, neg_one_mul]; rfl
    have e2 : dm2 (r2 ()) n2 p q r s + (dm2 (r2 ()) n2 p s r q + 0) = 0 := by
      refine Eq.trans ?_ k2
      refine congrArg₂ (· + ·) ?_ (congrArg₂ (· + ·) ?_ rfl)
      · rw [show ((1 : Int) : R) / ((1 : Nat) : R) = 1 by simp, one_mul]; rfl
      · rw [show ((1 : Int) : R) / ((1 : Nat) : R) = 1 by simp, one_mul]; rfl
    exact ⟨by linear_combination -e1, by linear_combination e2⟩

theorem C77_CCD_traces :
    DensityTraces77 Gen.GCCD.make_rdm1_f Gen.GCCD.make_rdm2_f (chars! "rdm1") (chars! "rdm2") :=
  traces_of_check77 (hints := Hints.dent_CCD) (dm := gDm) (by decide +kernel)

theorem C77_CC2_traces :
    DensityTraces77 Gen.GCC2.make_rdm1_f Gen.GCC2.make_rdm2_f (chars! "rdm1") (chars! "rdm2") :=
  traces_of_check77 (hints := Hints.dent_CC2) (dm := gDm) (by decide +kernel)

theorem C77_CCSD_traces :
    DensityTraces77 Gen.GCCSD.make_rdm1_f Gen.GCCSD.make_rdm2_f (chars! "rdm1") (chars! "rdm2") :=
  traces_of_check77 (hints := Hints.dent_CCSD) (dm := gDm) (by decide +kernel)

theorem C77_CCSDT_traces :
    DensityTraces77 Gen.GCCSDT.make_rdm1_f Gen.GCCSDT.make_rdm2_f (chars! "rdm1_f") (chars! "rdm2_f") :=
  traces_of_check77 (hints := Hints.dent_CCSDT) (dm := gDm) (by decide +kernel)

theorem C77_CCSD_S_1_1_traces :
    DensityTraces77 Gen.GCCSD_S_1_1.make_rdm1_f Gen.GCCSD_S_1_1.make_rdm2_f (chars! "rdm1_f") (chars! "rdm2_f") :=
  traces_of_check77 (hints := Hints.dent_CCSD_S_1_1) (dm := gDm) (by decide +kernel)

theorem C77_CCSD_SD_1_1_traces :
    DensityTraces77 Gen.GCCSD_SD_1_1.make_rdm1_f Gen.GCCSD_SD_1_1.make_rdm2_f (chars! "rdm1_f") (chars! "rdm2_f") :=
  traces_of_check77 (hints := Hints.dent_CCSD_SD_1_1) (dm := gDm) (by decide +kernel)

theorem C77_CCSD_SD_1_2_traces :
    DensityTraces77 Gen.GCCSD_SD_1_2.make_rdm1_f Gen.GCCSD_SD_1_2.make_rdm2_f (chars! "rdm1_f") (chars! "rdm2_f") :=
  traces_of_check77 (hints := Hints.dent_CCSD_SD_1_2) (dm := gDm) (by decide +kernel)

end Ebcc
