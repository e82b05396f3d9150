import Mathlib.Analysis.Normed.Field.Lemmas
import Verif.Tensor.Gradient
import Verif.Tensor.Value
import Verif.Gen.Hints.Grad
import Verif.Gen.GCCD
import Verif.Gen.GCC2
import Verif.Gen.GCCSD
import Verif.Gen.GCCSDT
import Verif.Gen.GCCSD_S_1_1
import Verif.Gen.GCCSD_SD_1_1
import Verif.Gen.GCCSD_SD_1_2
/-!
C76: `update_lams` computes the gradient of the Lagrangian `E(t) + l . Omega(t)` with respect to the
amplitudes, `E` and `Omega` being what `energy` and `update_amps` compute.

Exact for the spin-orbital CCD, CCSD and CCSDT functions.  For the functions with bosons it holds at solutions
of the amplitude equations, in all directions but those of the amplitudes with both fermions and bosons; in
these directions, and for CC2, it is false.
-/

set_option maxRecDepth 1000000

namespace Ebcc

/-- The lambda function is the gradient of the Lagrangian: for all integrals, amplitudes `t`, lambda amplitudes
`l` and directions `s` the three functions return, and the derivative of `E(t + x s) + l . Omega(t + x s)` at
`x = 0` is the product of `s` and the result of the lambda function. -/
def IsGradient76 (E A L : GenFun) (sorts : List GSort) : Prop :=
  ∀ (R : Type) [NontriviallyNormedField R] [CharZero R] [DecidableEq R] (h : GHam R) (t l s : GAmps R)
    (no nv nb : Nat) (method : ContractMethod)
    (path : List (List Char) → List Char → List (NDArray R) → List Contraction), PathOk path →
    ∃ (e w : R → Dict (List Char) (NDArray R)) (m : Dict (List Char) (NDArray R)),
      (∀ x, E.call method path (spaceSizes no nv nb 0) (h.args (t.move s x) l (spaceSizes no nv nb 0)) = .ok (e x)) ∧
      (∀ x, A.call method path (spaceSizes no nv nb 0) (h.args (t.move s x) l (spaceSizes no nv nb 0)) = .ok (w x)) ∧
      L.call method path (spaceSizes no nv nb 0) (h.args t l (spaceSizes no nv nb 0)) = .ok m ∧
      (∀ x, HasResult (e x) (spaceSizes no nv nb 0) (chars! "e_cc", [])) ∧
      (∀ x, ∀ k ∈ sorts, HasResult (w x) (spaceSizes no nv nb 0) k.res) ∧
      (∀ k ∈ sorts, HasResult m (spaceSizes no nv nb 0) k.lamRes) ∧
      HasDerivAt (fun x => elemOf (e x) (chars! "e_cc") [] + (sorts.map (l.dot no nv nb (resVals (w x)))).sum)
        (sorts.map (s.dot no nv nb (lamVals m))).sum 0

/-- The direction has no components of this sort. -/
def GAmps.Vanish76 {R : Type} [Ring R] (s : GAmps R) : GSort → Prop
  | .t1 => ∀ i a, s.a1 i a = 0
  | .t2 => ∀ i j a b, s.a2 i j a b = 0
  | .t3 => ∀ i j k a b c, s.a3 i j k a b c = 0
  | .s1 => ∀ x, s.s1 x = 0
  | .s2 => ∀ x y, s.s2 x y = 0
  | .u11 => ∀ x i a, s.u11 x i a = 0
  | .u12 => ∀ x y i a, s.u12 x y i a = 0

/-- The same at the solutions of the amplitude equations, for the directions without components of the sorts
`fixed`. -/
def GradientAtSolution76 (E A L : GenFun) (sorts fixed : List GSort) : Prop :=
  ∀ (R : Type) [NontriviallyNormedField R] [CharZero R] [DecidableEq R] (h : GHam R) (t l s : GAmps R)
    (no nv nb : Nat) (method : ContractMethod)
    (path : List (List Char) → List Char → List (NDArray R) → List Contraction), PathOk path →
    (∀ k ∈ fixed, s.Vanish76 k) →
    ∃ (e w : R → Dict (List Char) (NDArray R)) (m : Dict (List Char) (NDArray R)),
      (∀ x, E.call method path (spaceSizes no nv nb 0) (h.args (t.move s x) l (spaceSizes no nv nb 0)) = .ok (e x)) ∧
      (∀ x, A.call method path (spaceSizes no nv nb 0) (h.args (t.move s x) l (spaceSizes no nv nb 0)) = .ok (w x)) ∧
      L.call method path (spaceSizes no nv nb 0) (h.args t l (spaceSizes no nv nb 0)) = .ok m ∧
      (∀ x, HasResult (e x) (spaceSizes no nv nb 0) (chars! "e_cc", [])) ∧
      (∀ x, ∀ k ∈ sorts, HasResult (w x) (spaceSizes no nv nb 0) k.res) ∧
      (∀ k ∈ sorts, HasResult m (spaceSizes no nv nb 0) k.lamRes) ∧
      (ResZero (w 0) (spaceSizes no nv nb 0) sorts →
        HasDerivAt (fun x => elemOf (e x) (chars! "e_cc") [] + (sorts.map (l.dot no nv nb (resVals (w x)))).sum)
          (sorts.map (s.dot no nv nb (lamVals m))).sum 0)

theorem isGradient_of_check76 {E A L : GenFun} {sorts : List GSort} {hints : List Nat}
    (hc : checkClaim gSym hints (· % 4) gVals (gradCalls E A L) gDm [gradIdent sorts [] []] = true) :
    IsGradient76 E A L sorts := by
  intro R _ _ _ h t l s no nv nb method path hpath
  obtain ⟨e, w, m, h1, h2, h3, h4, h5, h6, h7⟩ :=
    gradient_sound hc rfl rfl h t l s no nv nb method path hpath
  have := h7 (.inl rfl)
  rw [show devVal h t l s (spaceSizes no nv nb 0) [] = 0 by simp [devVal], add_zero] at this
  exact ⟨e, w, m, h1, h2, h3, h4, h5, h6, this⟩

theorem C76_CCD : IsGradient76 Gen.GCCD.energy Gen.GCCD.update_amps Gen.GCCD.update_lams [.t2] :=
  isGradient_of_check76 (hints := Hints.grad_CCD) (by decide +kernel)

theorem C76_CCSD : IsGradient76 Gen.GCCSD.energy Gen.GCCSD.update_amps Gen.GCCSD.update_lams [.t1, .t2] :=
  isGradient_of_check76 (hints := Hints.grad_CCSD) (by decide +kernel)

theorem C76_CCSDT :
    IsGradient76 Gen.GCCSDT.energy Gen.GCCSDT.update_amps Gen.GCCSDT.update_lams [.t1, .t2, .t3] :=
  isGradient_of_check76 (hints := Hints.grad_CCSDT) (by decide +kernel)

/-! ### Functions with bosons -/

/-- A name of an array which is zero if the direction has no components of the mixed sorts. -/
def isMixed76 (n : List Char) : Bool := n == chars! "du11" || n == chars! "du12"

theorem blockArr_zero76 {R : Type} [Zero R] (F : List Orb → R) (sz : Nat → Nat) (sp : List Nat) (hF : ∀ l, F l = 0)
    (idx : List Nat) : (blockArr sz F sp).get idx = 0 := by
  unfold blockArr
  apply get_of_inBox_zero (NDArray.ofFn_wf _ _)
  intro idx hidx
  rw [NDArray.ofFn_shape] at hidx
  rw [NDArray.get_ofFn _ _ hidx, hF]

theorem devVal_zero76 {R : Type} [NontriviallyNormedField R] (h : GHam R) (t l s : GAmps R) (sz : Nat → Nat)
    (dev : List ITerm) (hd : (dev.all fun c => c.ops.any fun o => isMixed76 o.1) = true)
    (h1 : s.Vanish76 .u11) (h2 : s.Vanish76 .u12) : devVal h t l s sz dev = 0 := by
  unfold devVal
  rw [neg_eq_zero]
  apply List.sum_eq_zero
  intro x hx
  obtain ⟨c, hc, rfl⟩ := List.mem_map.1 hx
  obtain ⟨o, ho, hm⟩ := List.any_eq_true.1 (List.all_eq_true.1 hd c hc)
  apply ITerm.val_zero
  refine ⟨o, ho, fun idx => ?_⟩
  simp only [isMixed76, Bool.or_eq_true, beq_iff_eq] at hm
  rcases hm with hm | hm <;> rw [hm]
  · apply blockArr_zero76
    intro l
    unfold tens3
    split
    · exact h1 _ _ _
    · rfl
  · apply blockArr_zero76
    intro l
    unfold tens4
    split
    · exact h2 _ _ _ _
    · rfl

theorem gradientAtSolution_of_check76 {E A L : GenFun} {sorts : List GSort} {ext dev : List ITerm} {hints : List Nat}
    (hc : checkClaim gSym hints (· % 4) gVals (gradCalls E A L) gDm [gradIdent sorts ext dev] = true)
    (hext : (ext.all fun c => c.ops.any fun o => sorts.any fun k => o.1 == 'A' :: k.res.1) = true)
    (hdev : (dev.all fun c => c.ops.all fun o => isArg o.1) = true)
    (hd : (dev.all fun c => c.ops.any fun o => isMixed76 o.1) = true) :
    GradientAtSolution76 E A L sorts [.u11, .u12] := by
  intro R _ _ _ h t l s no nv nb method path hpath hs
  obtain ⟨e, w, m, h1, h2, h3, h4, h5, h6, h7⟩ :=
    gradient_sound hc hext hdev h t l s no nv nb method path hpath
  refine ⟨e, w, m, h1, h2, h3, h4, h5, h6, fun hz => ?_⟩
  have := h7 (.inr hz)
  rwa [devVal_zero76 h t l s _ dev hd (hs _ (by simp)) (hs _ (by simp)), add_zero] at this

/-- Multiples of the residuals by which the derivative of the Lagrangian differs from the lambda equations. -/
def ext_S_1_1 : List ITerm := [
  ⟨1, 1, [(chars! "l2", [3, 4, 0, 1]), (chars! "dt1", [0, 3]), (chars! "At1new", [1, 4])]⟩,
  ⟨1, 1, [(chars! "lu11", [6, 3, 0]), (chars! "dt1", [0, 3]), (chars! "As1new", [6])]⟩,
  ⟨1, 1, [(chars! "lu11", [6, 3, 0]), (chars! "ds1", [6]), (chars! "At1new", [0, 3])]⟩]

def ext_SD_1_1 : List ITerm := ext_S_1_1 ++ [
  ⟨1, 1, [(chars! "ls2", [6, 7]), (chars! "ds1", [6]), (chars! "As1new", [7])]⟩]

def ext_SD_1_2 : List ITerm := ext_SD_1_1 ++ [
  ⟨1, 2, [(chars! "lu12", [6, 7, 3, 0]), (chars! "dt1", [0, 3]), (chars! "As2new", [6, 7])]⟩,
  ⟨1, 1, [(chars! "lu12", [6, 7, 3, 0]), (chars! "ds1", [6]), (chars! "Au11new", [7, 0, 3])]⟩,
  ⟨1, 2, [(chars! "lu12", [6, 7, 3, 0]), (chars! "ds2", [6, 7]), (chars! "At1new", [0, 3])]⟩]

def sorts_S_1_1 : List GSort := [.t1, .t2, .s1, .u11]
def sorts_SD_1_1 : List GSort := [.t1, .t2, .s1, .s2, .u11]
def sorts_SD_1_2 : List GSort := [.t1, .t2, .s1, .s2, .u11, .u12]

theorem check_CC2_76 : checkClaim gSym Hints.grad_CC2 (· % 4) gVals
    (gradCalls Gen.GCC2.energy Gen.GCC2.update_amps Gen.GCC2.update_lams) gDm
    [gradIdent [.t1, .t2] [] Hints.dev_CC2] = true := by decide +kernel

theorem check_S_1_1_76 : checkClaim gSym Hints.grad_CCSD_S_1_1 (· % 4) gVals
    (gradCalls Gen.GCCSD_S_1_1.energy Gen.GCCSD_S_1_1.update_amps Gen.GCCSD_S_1_1.update_lams) gDm
    [gradIdent sorts_S_1_1 ext_S_1_1 Hints.dev_CCSD_S_1_1] = true := by decide +kernel

theorem check_SD_1_1_76 : checkClaim gSym Hints.grad_CCSD_SD_1_1 (· % 4) gVals
    (gradCalls Gen.GCCSD_SD_1_1.energy Gen.GCCSD_SD_1_1.update_amps Gen.GCCSD_SD_1_1.update_lams) gDm
    [gradIdent sorts_SD_1_1 ext_SD_1_1 Hints.dev_CCSD_SD_1_1] = true := by decide +kernel

theorem check_SD_1_2_76 : checkClaim gSym Hints.grad_CCSD_SD_1_2 (· % 4) gVals
    (gradCalls Gen.GCCSD_SD_1_2.energy Gen.GCCSD_SD_1_2.update_amps Gen.GCCSD_SD_1_2.update_lams) gDm
    [gradIdent sorts_SD_1_2 ext_SD_1_2 Hints.dev_CCSD_SD_1_2] = true := by decide +kernel

theorem C76_S_1_1_partial : GradientAtSolution76 Gen.GCCSD_S_1_1.energy Gen.GCCSD_S_1_1.update_amps
    Gen.GCCSD_S_1_1.update_lams sorts_S_1_1 [.u11, .u12] :=
  gradientAtSolution_of_check76 check_S_1_1_76 (by decide +kernel) (by decide +kernel) (by decide +kernel)

theorem C76_SD_1_1_partial : GradientAtSolution76 Gen.GCCSD_SD_1_1.energy Gen.GCCSD_SD_1_1.update_amps
    Gen.GCCSD_SD_1_1.update_lams sorts_SD_1_1 [.u11, .u12] :=
  gradientAtSolution_of_check76 check_SD_1_1_76 (by decide +kernel) (by decide +kernel) (by decide +kernel)

theorem C76_SD_1_2_partial : GradientAtSolution76 Gen.GCCSD_SD_1_2.energy Gen.GCCSD_SD_1_2.update_amps
    Gen.GCCSD_SD_1_2.update_lams sorts_SD_1_2 [.u11, .u12] :=
  gradientAtSolution_of_check76 check_SD_1_2_76 (by decide +kernel) (by decide +kernel) (by decide +kernel)

end Ebcc
