import Verif.Tensor.Reduce
import Verif.Tensor.Eom
import Verif.Gen.Hints.Reduce
import Verif.Gen.GMP3
import Verif.Gen.GLCCD
import Verif.Gen.GCCSD
import Verif.Gen.GCCSD_S_1_1
import Verif.Gen.GCCSD_SD_1_1
import Verif.Gen.GCCDEom
import Verif.Gen.GCCSDEom
import Verif.Tensor.Value
/-!
C91, continued: the lambda equations for which the functions are not equal, the energy of third order, and the products
of the equation-of-motion methods.
-/

set_option maxRecDepth 1000000

namespace Ebcc

open Gen

/-! ### The lambda equations with bosons -/

/-- Without amplitudes and coupling of bosons, the results of the lambda equations for the singles of a function with
bosons `L` exceed those of `L'` by the products of lambda amplitudes with the residuals for the singles. -/
def Singles91 (L L' A : GenFun) : Prop :=
  ∀ (R : Type) [Field R] [CharZero R] [DecidableEq R] (h : GHam R) (t l : GAmps R) (no nv nb : Nat)
    (method : ContractMethod) (path : List (List Char) → List Char → List (NDArray R) → List Contraction),
    PathOk path → (∀ x ∈ [GSort.s1, .u11], t.Vanish x) → (∀ x ∈ [GSort.s1, .u11], l.Vanish x) →
    (∀ x p q, h.g x p q = 0) →
    ∃ p q w : Dict (List Char) (NDArray R),
      L.call method path (spaceSizes no nv nb 0) (h.args t l (spaceSizes no nv nb 0)) = .ok p ∧
      L'.call method path (spaceSizes no nv nb 0) (h.args t l (spaceSizes no nv nb 0)) = .ok q ∧
      A.call method path (spaceSizes no nv nb 0) (h.args t l (spaceSizes no nv nb 0)) = .ok w ∧
      HasResult p (spaceSizes no nv nb 0) (chars! "l1new", [1, 0]) ∧
      HasResult q (spaceSizes no nv nb 0) (chars! "l1new", [1, 0]) ∧
      HasResult w (spaceSizes no nv nb 0) (chars! "t1new", [0, 1]) ∧
      ∀ a < nv, ∀ i < no, elemOf p (chars! "l1new") [a, i] = elemOf q (chars! "l1new") [a, i] +
        sumTo no fun j => sumTo nv fun b => l.a2 i j a b * elemOf w (chars! "t1new") [j, b]

def singles91 : Ident := ⟨[1, 0, 1, 0], 2, [], [⟨1, 1, [(chars! "Pl1new", [0, 1])]⟩, ⟨-1, 1, [(chars! "Ql1new", [0, 1])]⟩,
  ⟨-1, 1, [(chars! "l2", [0, 2, 1, 3]), (chars! "At1new", [3, 2])]⟩]⟩

theorem elemOf_eq91 {R : Type} [Zero R] {r : Dict (List Char) (NDArray R)} {name : List Char} {a : NDArray R}
    (h : r.get? name = some a) (idx : List Nat) : elemOf r name idx = a.get idx := by
  rw [elemOf, h]; rfl

theorem C91_lams_S_1_1_singles : Singles91 GCCSD_S_1_1.update_lams GCCSD.update_lams GCCSD.update_amps := by
  intro R _ _ _ h t l no nv nb method path hpath ht hl hg
  have := checkClaim_sound (ι := Unit) (spaceSizes no nv nb 0) (fun _ => gTensor h t l t) gSym
    (fun _ => gSym_symOk h t l t) method path hpath (spaceSizes no nv nb 0) _ (spaceSizes_mod no nv nb 0)
    (zVals [.s1, .u11] true false) (fun _ => h.argsD t l t (spaceSizes no nv nb 0))
    (fun _ => zVals_rep _ true false h t l t (spaceSizes no nv nb 0) ht hl (fun _ => hg) (by simp))
    [⟨GCCSD_S_1_1.update_lams, 'P', argBut densTags⟩, ⟨GCCSD.update_lams, 'Q', argBut densTags⟩,
      ⟨GCCSD.update_amps, 'A', argBut densTags⟩] gDm [singles91] Hints.lams1 (by decide +kernel)
  simp only [CallsOk] at this
  obtain ⟨p, h1, q, h2, w, h3, key⟩ := this
  obtain ⟨k1, k2⟩ := key () _ (List.mem_singleton.2 rfl) rfl
  simp only [argBut_addResA (tags := densTags) 'P' rfl, argBut_addResA (tags := densTags) 'Q' rfl, argBut_args] at h1 h2 h3
  obtain ⟨x, x1, -, x3⟩ := k1 _ (List.mem_cons_self ..) _ (List.mem_singleton.2 rfl)
  obtain ⟨y, y1, -, y3⟩ := k1 _ (List.mem_cons_of_mem _ (List.mem_cons_self ..)) _ (List.mem_singleton.2 rfl)
  obtain ⟨z, z1, -, z3⟩ := k1 _ (List.mem_cons_of_mem _ (List.mem_cons_of_mem _ (List.mem_singleton.2 rfl))) _
    (List.mem_cons_of_mem _ (List.mem_singleton.2 rfl))
  refine ⟨p (), q (), w (), h1 (), h2 (), h3 (), ⟨x, x1, x3⟩, ⟨y, y1, y3⟩, ⟨z, z1, z3⟩, fun a ha i hi => ?_⟩
  have k := k2 [a, i] (.cons ha (.cons hi .nil))
  simp only [singles91, List.map_cons, List.map_nil, List.sum_cons, List.sum_nil, add_zero] at k
  rw [perm_val _ _ _ 1 _ x x1 2 _ _ (by decide), perm_val _ _ _ (-1) _ y y1 2 _ _ (by decide)] at k
  have e : (⟨-1, 1, [(chars! "l2", [0, 2, 1, 3]), (chars! "At1new", [3, 2])]⟩ : ITerm).val (spaceSizes no nv nb 0)
      [1, 0, 1, 0] 2 (addResA 'A' (w ()) (addResA 'Q' (q ()) (addResA 'P' (p ())
        (h.argsD t l t (spaceSizes no nv nb 0))))) [a, i] =
      - sumTo no fun j => sumTo nv fun b => l.a2 i j a b * elemOf (w ()) (chars! "t1new") [j, b] := by
    simp only [ITerm.val, einValue, List.map_cons, List.map_nil]
    rw [z1, show einDummies [[0, 2, 1, 3], [3, 2]] (List.range 2) = [3, 2] by decide]
    simp only [einSum_cons_sumTo, einSum_nil, einProd_two]
    rw [show ((-1 : Int) : R) / ((1 : Nat) : R) = -1 by simp, neg_one_mul]
    refine congrArg _ (sumTo_congr fun j hj => sumTo_congr fun b hb => congrArg₂ (· * ·) ?_ ?_)
    · exact blockArr_get _ _ _ _ (.cons ha (.cons hb (.cons hi (.cons hj .nil))))
    · rw [elemOf_eq91 z1]; rfl
  rw [e] at k
  rw [elemOf_eq91 x1, elemOf_eq91 y1]
  simp only [List.map_cons, List.map_nil, List.getD_cons_zero, List.getD_cons_succ] at k
  push_cast at k
  linear_combination k

/-- An argument which is not a result. -/
def isArg91 : List Char → Bool
  | c :: _ => c != 'P' && c != 'Q'
  | [] => false

theorem isArg91_addResA {R : Type} {name : List Char} (hn : isArg91 name = true) (c : Char) (hc : c = 'P' ∨ c = 'Q')
    (r : Dict (List Char) (NDArray R)) (av : List Char → Option (NDArray R)) : addResA c r av name = av name := by
  cases name with
  | nil => rfl
  | cons d name =>
    simp only [isArg91, Bool.and_eq_true, bne_iff_ne] at hn
    have : d ≠ c := by rcases hc with rfl | rfl; exacts [hn.1, hn.2]
    simp [addResA, beq_eq_false_iff_ne.2 this]

/-- One occupied orbital, one virtual orbital: only the elements of the Fock matrix between them. -/
def exHam91 : GHam ℚ where
  f p q := if p.1 + q.1 = 1 then 1 else 0
  v _ _ _ _ := 0
  g _ _ _ := 0
  G _ := 0
  w _ _ := 0
  f_symm p q := by simp only [add_comm]
  v_anti _ _ _ _ := by simp
  v_pair _ _ _ _ := rfl
  w_symm _ _ := rfl

/-- Amplitudes which are constant for `t1` and `u11` and zero for the other sorts. -/
def exAmps91 (c1 cu : ℚ) : GAmps ℚ where
  a1 _ _ := c1
  a2 _ _ _ _ := 0
  a3 _ _ _ _ _ _ := 0
  s1 _ := 0
  s2 _ _ := 0
  u11 _ _ _ := cu
  u12 _ _ _ _ := 0
  a2_occ _ _ _ _ := by simp
  a2_vir _ _ _ _ := by simp
  a3_occ1 _ _ _ _ _ _ := by simp
  a3_occ2 _ _ _ _ _ _ := by simp
  a3_vir1 _ _ _ _ _ _ := by simp
  a3_vir2 _ _ _ _ _ _ := by simp
  s2_symm _ _ := rfl
  u12_symm _ _ _ _ := rfl

/-- The difference of `lu11new`, with the missing terms. -/
def lu11Ident91 : Ident := ⟨[2, 1, 0] ++ gLabels, 3, [], [⟨1, 1, [(chars! "Plu11new", [0, 1, 2])]⟩,
  ⟨-1, 1, [(chars! "Qlu11new", [0, 1, 2])]⟩] ++ Hints.dev_lu11⟩

/-- Without amplitudes `s2`, `lu11new` of CCSD-SD-1-1 is not that of CCSD-S-1-1. -/
theorem C91_lams_SD_1_1_false : ¬Reduces91 GCCSD_SD_1_1.update_lams GCCSD_S_1_1.update_lams [.s2] false
    [.plain GSort.u11.lamRes] := by
  intro H
  obtain ⟨a, b, ha, hb, hs⟩ := H ℚ exHam91 (exAmps91 1 0) (exAmps91 0 1) 1 1 1 .backend onePath onePath_ok
    (by simp [GAmps.Vanish, exAmps91]) (by simp [GAmps.Vanish, exAmps91]) (by simp)
  obtain ⟨-, -, hs⟩ := hs _ (List.mem_singleton.2 rfl)
  have hs : elemOf a (chars! "lu11new") [0, 0, 0] = elemOf b (chars! "lu11new") [0, 0, 0] :=
    hs [0, 0, 0] (.cons (by decide) (.cons (by decide) (.cons (by decide) .nil)))
  have := checkClaim_sound (ι := Unit) (spaceSizes 1 1 1 0)
    (fun _ => gTensor exHam91 (exAmps91 1 0) (exAmps91 0 1) (exAmps91 1 0)) gSym
    (fun _ => gSym_symOk exHam91 _ _ _) .backend onePath onePath_ok (spaceSizes 1 1 1 0) _ (spaceSizes_mod 1 1 1 0)
    (zVals [.s2] false false) (fun _ => exHam91.argsD (exAmps91 1 0) (exAmps91 0 1) (exAmps91 1 0) (spaceSizes 1 1 1 0))
    (fun _ => zVals_rep _ false false exHam91 (exAmps91 1 0) (exAmps91 0 1) (exAmps91 1 0) (spaceSizes 1 1 1 0)
      (by simp [GAmps.Vanish, exAmps91]) (by simp [GAmps.Vanish, exAmps91]) (by simp) (by simp))
    [⟨GCCSD_SD_1_1.update_lams, 'P', argBut densTags⟩, ⟨GCCSD_S_1_1.update_lams, 'Q', argBut densTags⟩] gDm [lu11Ident91]
    Hints.lu11 (by decide +kernel)
  simp only [CallsOk] at this
  obtain ⟨p, h1, q, h2, key⟩ := this
  obtain ⟨k1, k2⟩ := key () _ (List.mem_singleton.2 rfl) rfl
  have h1 := h1 ()
  have h2 := h2 ()
  simp only [argBut_addResA (tags := densTags) 'P' rfl, argBut_args] at h1 h2
  obtain rfl : a = p () := Except.ok.inj (ha.symm.trans h1)
  obtain rfl : b = q () := Except.ok.inj (hb.symm.trans h2)
  obtain ⟨x, x1, -, x3⟩ := k1 _ (List.mem_cons_self ..) _ (List.mem_singleton.2 rfl)
  obtain ⟨y, y1, -, y3⟩ := k1 _ (List.mem_cons_of_mem _ (List.mem_cons_self ..)) _ (List.mem_singleton.2 rfl)
  have k := k2 [0, 0, 0] (.cons (by decide) (.cons (by decide) (.cons (by decide) .nil)))
  simp only [lu11Ident91, List.cons_append, List.nil_append, List.map_cons, List.sum_cons] at k
  rw [perm_val _ _ _ 1 _ x x1 3 _ _ (by decide), perm_val _ _ _ (-1) _ y y1 3 _ _ (by decide)] at k
  rw [elemOf_eq91 x1, elemOf_eq91 y1] at hs
  simp only [List.map_cons, List.map_nil, List.getD_cons_zero, List.getD_cons_succ] at k
  rw [hs] at k
  rw [List.map_congr_left (g := fun c => c.val (spaceSizes 1 1 1 0) ([2, 1, 0] ++ gLabels) 3
    (exHam91.argsD (exAmps91 1 0) (exAmps91 0 1) (exAmps91 1 0) (spaceSizes 1 1 1 0)) [0, 0, 0])] at k
  · have hd : (Hints.dev_lu11.map fun c => c.val (spaceSizes 1 1 1 0) ([2, 1, 0] ++ gLabels) 3
      (exHam91.argsD (exAmps91 1 0) (exAmps91 0 1) (exAmps91 1 0) (spaceSizes 1 1 1 0)) [0, 0, 0]).sum ≠ 0 := by
      decide +kernel
    apply hd
    push_cast at k
    linarith
  · intro c hc
    apply ITerm.val_congr
    intro o ho
    have hd : (Hints.dev_lu11.all fun c => c.ops.all fun o => isArg91 o.1) = true := by decide +kernel
    have := List.all_eq_true.1 (List.all_eq_true.1 hd c hc) o ho
    rw [isArg91_addResA this 'Q' (.inr rfl), isArg91_addResA this 'P' (.inl rfl)]

/-- With bosons that are absent, a residual which is not zero: `1 - 2 * 2`. -/
example : ∃ r a, GCCSD_S_1_1.update_amps.call .backend onePath (spaceSizes 1 1 1 0)
      (fun n => exHam91.argsD (exAmps91 2 0) (exAmps91 0 0) (exAmps91 0 0) (spaceSizes 1 1 1 0) n) = .ok r ∧
      r.get? (chars! "t1new") = some a ∧ a.get [0, 0] = -3 :=
  symElem_sound (hints := Hints.amps_CCSD_S_1_1_CCSD) (vals := zVals [.s1, .u11] true false) (by decide +kernel)
    (gSym_symOk exHam91 _ _ _) (spaceSizes_mod 1 1 1 0) _
    (zVals_rep _ true false exHam91 _ _ _ _ (by simp [GAmps.Vanish, exAmps91]) (by simp [GAmps.Vanish, exAmps91])
      (by simp [exHam91]) (by simp)) _ _ onePath_ok

/-! ### The energy of third order -/

/-- The energy of MP3 is that of MP2 with a step of the equations of linear CCD: without the Fock matrix, whose part
the denominators contain, `e_mp` is a quarter of the sum of the amplitudes with the results `t2new`. -/
theorem C91_energy_MP3 (R : Type) [Field R] [CharZero R] [DecidableEq R] (h : GHam R) (t l : GAmps R) (no nv nb : Nat)
    (method : ContractMethod) (path : List (List Char) → List Char → List (NDArray R) → List Contraction)
    (hpath : PathOk path) (hf : ∀ p q, h.f p q = 0) :
    ∃ e w : Dict (List Char) (NDArray R),
      GMP3.energy.call method path (spaceSizes no nv nb 0) (h.args t l (spaceSizes no nv nb 0)) = .ok e ∧
      GLCCD.update_amps.call method path (spaceSizes no nv nb 0) (h.args t l (spaceSizes no nv nb 0)) = .ok w ∧
      HasResult e (spaceSizes no nv nb 0) (chars! "e_mp", []) ∧
      HasResult w (spaceSizes no nv nb 0) (chars! "t2new", [0, 0, 1, 1]) ∧
      elemOf e (chars! "e_mp") [] = 1 / 4 * sumTo no fun i => sumTo no fun j => sumTo nv fun a => sumTo nv fun b =>
        t.a2 i j a b * elemOf w (chars! "t2new") [i, j, a, b] := by
  have := checkClaim_sound (ι := Unit) (spaceSizes no nv nb 0) (fun _ => gTensor h t l t) gSym
    (fun _ => gSym_symOk h t l t) method path hpath (spaceSizes no nv nb 0) _ (spaceSizes_mod no nv nb 0)
    (zVals [] false true) (fun _ => h.argsD t l t (spaceSizes no nv nb 0))
    (fun _ => zVals_rep [] false true h t l t (spaceSizes no nv nb 0) (by simp) (by simp) (by simp) (fun _ => hf))
    [⟨GMP3.energy, 'P', argBut densTags⟩, ⟨GLCCD.update_amps, 'Q', argBut densTags⟩] gDm
    [⟨gLabels, 0, [], [⟨1, 1, [(chars! "Pe_mp", [])]⟩, ⟨-1, 4, [(chars! "t2", [0, 1, 3, 4]), (chars! "Qt2new", [0, 1, 3, 4])]⟩]⟩]
    Hints.mp3 (by decide +kernel)
  simp only [CallsOk] at this
  obtain ⟨p, h1, q, h2, key⟩ := this
  obtain ⟨k1, k2⟩ := key () _ (List.mem_singleton.2 rfl) rfl
  simp only [argBut_addResA (tags := densTags) 'P' rfl, argBut_args] at h1 h2
  obtain ⟨x, x1, -, x3⟩ := k1 _ (List.mem_cons_self ..) _ (List.mem_singleton.2 rfl)
  obtain ⟨z, z1, -, z3⟩ := k1 _ (List.mem_cons_of_mem _ (List.mem_singleton.2 rfl)) _
    (List.mem_cons_of_mem _ (List.mem_singleton.2 rfl))
  refine ⟨p (), q (), h1 (), h2 (), ⟨x, x1, x3⟩, ⟨z, z1, z3⟩, ?_⟩
  have k := k2 [] .nil
  simp only [List.map_cons, List.map_nil, List.sum_cons, List.sum_nil, add_zero] at k
  rw [perm_val _ _ _ 1 _ x x1 0 _ _ (by decide)] at k
  have e : (⟨-1, 4, [(chars! "t2", [0, 1, 3, 4]), (chars! "Qt2new", [0, 1, 3, 4])]⟩ : ITerm).val (spaceSizes no nv nb 0)
      gLabels 0 (addResA 'Q' (q ()) (addResA 'P' (p ()) (h.argsD t l t (spaceSizes no nv nb 0)))) [] =
      - (1 / 4 * sumTo no fun i => sumTo no fun j => sumTo nv fun a => sumTo nv fun b =>
        t.a2 i j a b * elemOf (q ()) (chars! "t2new") [i, j, a, b]) := by
    simp only [ITerm.val, einValue, List.map_cons, List.map_nil, List.range_zero]
    rw [z1, show einDummies [[0, 1, 3, 4], [0, 1, 3, 4]] ([] : List Nat) = [0, 1, 3, 4] by decide]
    simp only [einSum_cons_sumTo, einSum_nil, einProd_two]
    rw [show ((-1 : Int) : R) / ((4 : Nat) : R) = -(1 / 4) by push_cast; ring, neg_mul]
    refine congrArg _ (congrArg _ (sumTo_congr fun i hi => sumTo_congr fun j hj => sumTo_congr fun a ha =>
      sumTo_congr fun b hb => congrArg₂ (· * ·) ?_ ?_))
    · exact blockArr_get _ _ _ _ (.cons hi (.cons hj (.cons ha (.cons hb .nil))))
    · rw [elemOf_eq91 z1]; rfl
  rw [e] at k
  rw [elemOf_eq91 x1]
  simp only [List.map_nil] at k
  push_cast at k
  linear_combination k

/-! ### Excitations -/

/-- For all integrals and amplitudes of which the singles are zero, and all excitation amplitudes: the products of the
Hamiltonian (`M` with the intermediates of `I`, and `N` with those of `J`) agree. -/
def EomReduces91 (k : EomSort) (I M J N : GenFun) : Prop :=
  ∀ (R : Type) [Field R] [CharZero R] [DecidableEq R] (h : GHam R) (t : GAmps R) (x : EomVec R k) (no nv nb : Nat)
    (method : ContractMethod) (path : List (List Char) → List Char → List (NDArray R) → List Contraction),
    PathOk path → t.Vanish .t1 →
    ∃ i m j n : Dict (List Char) (NDArray R),
      I.call method path (spaceSizes no nv nb 0) (h.args0 t (spaceSizes no nv nb 0)) = .ok i ∧
      M.call method path (spaceSizes no nv nb 0) (h.eomArgs t (spaceSizes no nv nb 0) i
        (x.arr1 (spaceSizes no nv nb 0)) (x.arr2 (spaceSizes no nv nb 0))) = .ok m ∧
      J.call method path (spaceSizes no nv nb 0) (h.args0 t (spaceSizes no nv nb 0)) = .ok j ∧
      N.call method path (spaceSizes no nv nb 0) (h.eomArgs t (spaceSizes no nv nb 0) j
        (x.arr1 (spaceSizes no nv nb 0)) (x.arr2 (spaceSizes no nv nb 0))) = .ok n ∧
      (SameRes.plain (chars! "r1new", k.sp1)).Holds (spaceSizes no nv nb 0) m n ∧
      (SameRes.plain (chars! "r2new", k.sp2)).Holds (spaceSizes no nv nb 0) m n

/-- The arguments, of which `t1` is zero. -/
def eZVals91 (k : EomSort) (name : List Char) : Option TArg :=
  (eVals k name).map fun v => bif name == ['t', '1'] then (v.1, []) else v

theorem eZVals_rep91 {R : Type} [Field R] (sz : Nat → Nat) (h : GHam R) (t : GAmps R) {k : EomSort} (x : EomVec R k)
    (ht : t.Vanish .t1) (name : List Char) (v : TArg) (hv : eZVals91 k name = some v) :
    ∃ a, eArgs h t t t sz x x name = some a ∧ ArgRep sz (eTensor h t t t x x) v a := by
  unfold eZVals91 at hv
  cases hw : eVals k name with
  | none => rw [hw] at hv; cases hv
  | some w =>
    rw [hw, Option.map_some] at hv
    obtain ⟨a, a1, a2⟩ := eVals_rep sz h t t t x x name w hw
    by_cases hn : name = ['t', '1']
    · subst hn
      cases hv
      have hz : ∀ y ∈ [GSort.t1], t.Vanish y := by simpa using ht
      exact ⟨a, a1, a2.shape, a2.wf, fun idx hidx => args_zero [.t1] false false h t t t sz hz hz (by simp) (by simp)
        ['t', '1'] rfl a a1 idx hidx⟩
    · have : (name == ['t', '1']) = false := beq_eq_false_iff_ne.2 hn
      rw [this] at hv
      cases hv
      exact ⟨a, a1, a2⟩

theorem eomReduces_of_check91 {k : EomSort} {I M J N : GenFun} {hints : List Nat}
    (hc : checkClaim (eSym k) hints (· % 4) (eZVals91 k)
      [⟨I, 'I', argBut eomTags⟩, ⟨M, 'M', eomArg 'I' 'r'⟩, ⟨J, 'J', argBut eomTags⟩, ⟨N, 'N', eomArg 'J' 'r'⟩] gDm
      [(SameRes.plain (chars! "r1new", k.sp1)).ident 'M' 'N', (SameRes.plain (chars! "r2new", k.sp2)).ident 'M' 'N'] = true) :
    EomReduces91 k I M J N := by
  intro R _ _ _ h t x no nv nb method path hpath ht
  have := checkClaim_sound (ι := Unit) (spaceSizes no nv nb 0) (fun _ => eTensor h t t t x x) (eSym k)
    (fun _ => eSym_symOk h t t t x x) method path hpath (spaceSizes no nv nb 0) _ (spaceSizes_mod no nv nb 0)
    (eZVals91 k) (fun _ => eArgs h t t t (spaceSizes no nv nb 0) x x)
    (fun _ => eZVals_rep91 (spaceSizes no nv nb 0) h t x ht) _ gDm _ hints hc
  simp only [CallsOk] at this
  obtain ⟨i, hi, m, hm, j, hj, n, hn, key⟩ := this
  have hi := hi ()
  have hm := hm ()
  have hj := hj ()
  have hn := hn ()
  simp only [eArgs_but] at hi
  rw [eomArg_val _ h t (spaceSizes no nv nb 0) 'I' 'r' (i ()) (x.arr1 _) (x.arr2 _) rfl rfl (fun _ => rfl)
    (fun name => by rw [argBut_addResA (tags := eomTags) 'I' rfl, eArgs_but])] at hm
  simp only [argBut_addResA (tags := eomTags) 'I' rfl, argBut_addResA (tags := eomTags) 'M' rfl, eArgs_but] at hj
  rw [eomArg_val _ h t (spaceSizes no nv nb 0) 'J' 'r' (j ()) (x.arr1 _) (x.arr2 _) rfl rfl (fun _ => rfl)
    (fun name => by rw [argBut_addResA (tags := eomTags) 'J' rfl, argBut_addResA (tags := eomTags) 'M' rfl,
      argBut_addResA (tags := eomTags) 'I' rfl, eArgs_but])] at hn
  obtain ⟨k1, k2⟩ := key () _ (List.mem_cons_self ..) rfl
  obtain ⟨k3, k4⟩ := key () _ (List.mem_cons_of_mem _ (List.mem_singleton.2 rfl)) rfl
  exact ⟨i (), m (), j (), n (), hi, hm, hj, hn,
    SameRes.holds_of_ident _ (by cases k <;> decide) _ _ _ _ _ _ (fun _ => rfl) (fun _ => rfl) k1 k2,
    SameRes.holds_of_ident _ (by cases k <;> decide) _ _ _ _ _ _ (fun _ => rfl) (fun _ => rfl) k3 k4⟩

theorem C91_matvec_ip : EomReduces91 .ip GCCSDEom.hbar_matvec_ip_intermediates GCCSDEom.hbar_matvec_ip
    GCCDEom.hbar_matvec_ip_intermediates GCCDEom.hbar_matvec_ip :=
  eomReduces_of_check91 (hints := Hints.eom_r_ip) (by decide +kernel)

theorem C91_lmatvec_ip : EomReduces91 .ip GCCSDEom.hbar_lmatvec_ip_intermediates GCCSDEom.hbar_lmatvec_ip
    GCCDEom.hbar_lmatvec_ip_intermediates GCCDEom.hbar_lmatvec_ip :=
  eomReduces_of_check91 (hints := Hints.eom_l_ip) (by decide +kernel)

theorem C91_matvec_ea : EomReduces91 .ea GCCSDEom.hbar_matvec_ea_intermediates GCCSDEom.hbar_matvec_ea
    GCCDEom.hbar_matvec_ea_intermediates GCCDEom.hbar_matvec_ea :=
  eomReduces_of_check91 (hints := Hints.eom_r_ea) (by decide +kernel)

theorem C91_lmatvec_ea : EomReduces91 .ea GCCSDEom.hbar_lmatvec_ea_intermediates GCCSDEom.hbar_lmatvec_ea
    GCCDEom.hbar_lmatvec_ea_intermediates GCCDEom.hbar_lmatvec_ea :=
  eomReduces_of_check91 (hints := Hints.eom_l_ea) (by decide +kernel)

end Ebcc
