import Verif.Tensor.SetupG
import Verif.Tensor.Value
/-!
Derivatives of the Lagrangian `E + Λ · Ω` as identities of `Verif/Tensor/Identity.lean`.
-/

namespace Ebcc

/-- The spaces of the labels of identities: `i j k a b c x y`, and further ones. -/
def gLabels : List Nat := [0, 0, 0, 1, 1, 1, 2, 2, 0, 0, 0, 1, 1, 1, 2, 2]

/-- A product of amplitudes and residuals. -/
def GSort.resTerm : GSort → ITerm
  | .t1 => ⟨1, 1, [(chars! "l1", [3, 0]), (chars! "At1new", [0, 3])]⟩
  | .t2 => ⟨1, 4, [(chars! "l2", [3, 4, 0, 1]), (chars! "At2new", [0, 1, 3, 4])]⟩
  | .t3 => ⟨1, 36, [(chars! "l3", [3, 4, 5, 0, 1, 2]), (chars! "At3new", [0, 1, 2, 3, 4, 5])]⟩
  | .s1 => ⟨1, 1, [(chars! "ls1", [6]), (chars! "As1new", [6])]⟩
  | .s2 => ⟨1, 2, [(chars! "ls2", [6, 7]), (chars! "As2new", [6, 7])]⟩
  | .u11 => ⟨1, 1, [(chars! "lu11", [6, 3, 0]), (chars! "Au11new", [6, 0, 3])]⟩
  | .u12 => ⟨1, 2, [(chars! "lu12", [6, 7, 3, 0]), (chars! "Au12new", [6, 7, 0, 3])]⟩

/-- A product of changes of amplitudes and results for the lambda amplitudes. -/
def GSort.lamTerm : GSort → ITerm
  | .t1 => ⟨-1, 1, [(chars! "Ll1new", [3, 0]), (chars! "dt1", [0, 3])]⟩
  | .t2 => ⟨-1, 4, [(chars! "Ll2new", [3, 4, 0, 1]), (chars! "dt2", [0, 1, 3, 4])]⟩
  | .t3 => ⟨-1, 36, [(chars! "Ll3new", [3, 4, 5, 0, 1, 2]), (chars! "dt3", [0, 1, 2, 3, 4, 5])]⟩
  | .s1 => ⟨-1, 1, [(chars! "Lls1new", [6]), (chars! "ds1", [6])]⟩
  | .s2 => ⟨-1, 2, [(chars! "Lls2new", [6, 7]), (chars! "ds2", [6, 7])]⟩
  | .u11 => ⟨-1, 1, [(chars! "Llu11new", [6, 3, 0]), (chars! "du11", [6, 0, 3])]⟩
  | .u12 => ⟨-1, 2, [(chars! "Llu12new", [6, 7, 3, 0]), (chars! "du12", [6, 7, 0, 3])]⟩

/-- The derivative of the Lagrangian is the product of the changes of the amplitudes with the results for the
lambda amplitudes, minus terms with residuals, minus further terms. -/
def gradIdent (sorts : List GSort) (ext dev : List ITerm) : Ident where
  sps := gLabels
  nf := 0
  dterms := ⟨1, 1, [(chars! "Ee_cc", [])]⟩ :: sorts.map GSort.resTerm
  terms := sorts.map GSort.lamTerm ++ (ext ++ dev)

/-- Names of arguments of functions; not those of results and changes. -/
def argOnly : List Char → List Char
  | c :: name => bif c == 'd' || c == 'E' || c == 'A' || c == 'L' then [] else c :: name
  | [] => []

def gradCalls (E A L : GenFun) : List TCall := [⟨E, 'E', argOnly⟩, ⟨A, 'A', argOnly⟩, ⟨L, 'L', argOnly⟩]

section
variable {R : Type} [Field R]

theorem sumTo_congr {n : Nat} {f g : Nat → R} (h : ∀ i < n, f i = g i) : sumTo n f = sumTo n g := by
  unfold sumTo
  rw [List.map_congr_left fun i hi => h i (List.mem_range.1 hi)]

theorem blockArr_get (sz : Nat → Nat) (F : List Orb → R) (sp idx : List Nat) (h : InBox (sp.map sz) idx) :
    (blockArr sz F sp).get idx = F (sp.zip idx) := NDArray.get_ofFn _ _ h

theorem einSum_cons_sumTo (sz : Nat → Nat) (d : Nat) (ds : List Nat) (F : (Nat → Nat) → R) (e : Nat → Nat) :
    einSum sz (d :: ds) F e = sumTo (sz d) fun v => einSum sz ds F (Function.update e d v) := rfl

theorem einSum_nil (sz : Nat → Nat) (F : (Nat → Nat) → R) (e : Nat → Nat) : einSum sz [] F e = F e := rfl

theorem einProd_two (x y : List Nat × NDArray R) (e : Nat → Nat) :
    einProd [x, y] e = x.2.get (x.1.map e) * y.2.get (y.1.map e) := by
  simp [einProd]

theorem resTerm_val (no nv nb : Nat) (l : GAmps R) (av : List Char → Option (NDArray R))
    (w : Dict (List Char) (NDArray R)) (h : GHam R) (t s : GAmps R)
    (hl : ∀ name, av ('l' :: name) = h.argsD t l s (spaceSizes no nv nb 0) ('l' :: name))
    (hw : ∀ name, av ('A' :: name) = w.get? name) (k : GSort) :
    k.resTerm.val (spaceSizes no nv nb 0) gLabels 0 av [] = l.dot no nv nb (resVals w) k := by
  cases k <;> simp only [ITerm.val, GSort.resTerm, einValue, List.map_cons, List.map_nil, List.range_zero]
  · rw [show einDummies [[3, 0], [0, 3]] ([] : List Nat) = [0, 3] from by decide]
    rw [show ((1 : Int) : R) / ((1 : Nat) : R) = 1 by simp, one_mul]
    simp only [einSum_cons_sumTo, einSum_nil, einProd_two]
    refine sumTo_congr fun x0 h0 => ?_
    refine sumTo_congr fun x1 h1 => ?_
    rw [hl]
    refine congrArg₂ (· * ·) ?_ ?_
    · exact blockArr_get _ _ _ _ (.cons h1 (.cons h0 .nil))
    · rw [hw]; rfl
  · rw [show einDummies [[3, 4, 0, 1], [0, 1, 3, 4]] ([] : List Nat) = [0, 1, 3, 4] from by decide]
    rw [show ((1 : Int) : R) / ((4 : Nat) : R) = 1 / 4 by simp]
    apply congrArg
    simp only [einSum_cons_sumTo, einSum_nil, einProd_two]
    refine sumTo_congr fun x0 h0 => ?_
    refine sumTo_congr fun x1 h1 => ?_
    refine sumTo_congr fun x2 h2 => ?_
    refine sumTo_congr fun x3 h3 => ?_
    rw [hl]
    refine congrArg₂ (· * ·) ?_ ?_
    · exact blockArr_get _ _ _ _ (.cons h2 (.cons h3 (.cons h0 (.cons h1 .nil))))
    · rw [hw]; rfl
  · rw [show einDummies [[3, 4, 5, 0, 1, 2], [0, 1, 2, 3, 4, 5]] ([] : List Nat) = [0, 1, 2, 3, 4, 5] from by decide]
    rw [show ((1 : Int) : R) / ((36 : Nat) : R) = 1 / 36 by simp]
    apply congrArg
    simp only [einSum_cons_sumTo, einSum_nil, einProd_two]
    refine sumTo_congr fun x0 h0 => ?_
    refine sumTo_congr fun x1 h1 => ?_
    refine sumTo_congr fun x2 h2 => ?_
    refine sumTo_congr fun x3 h3 => ?_
    refine sumTo_congr fun x4 h4 => ?_
    refine sumTo_congr fun x5 h5 => ?_
    rw [hl]
    refine congrArg₂ (· * ·) ?_ ?_
    · exact blockArr_get _ _ _ _ (.cons h3 (.cons h4 (.cons h5 (.cons h0 (.cons h1 (.cons h2 .nil))))))
    · rw [hw]; rfl
  · rw [show einDummies [[6], [6]] ([] : List Nat) = [6] from by decide]
    rw [show ((1 : Int) : R) / ((1 : Nat) : R) = 1 by simp, one_mul]
    simp only [einSum_cons_sumTo, einSum_nil, einProd_two]
    refine sumTo_congr fun x0 h0 => ?_
    rw [hl]
    refine congrArg₂ (· * ·) ?_ ?_
    · exact blockArr_get _ _ _ _ (.cons h0 .nil)
    · rw [hw]; rfl
  · rw [show einDummies [[6, 7], [6, 7]] ([] : List Nat) = [6, 7] from by decide]
    rw [show ((1 : Int) : R) / ((2 : Nat) : R) = 1 / 2 by simp]
    apply congrArg
    simp only [einSum_cons_sumTo, einSum_nil, einProd_two]
    refine sumTo_congr fun x0 h0 => ?_
    refine sumTo_congr fun x1 h1 => ?_
    rw [hl]
    refine congrArg₂ (· * ·) ?_ ?_
    · exact blockArr_get _ _ _ _ (.cons h0 (.cons h1 .nil))
    · rw [hw]; rfl
  · rw [show einDummies [[6, 3, 0], [6, 0, 3]] ([] : List Nat) = [6, 0, 3] from by decide]
    rw [show ((1 : Int) : R) / ((1 : Nat) : R) = 1 by simp, one_mul]
    simp only [einSum_cons_sumTo, einSum_nil, einProd_two]
    refine sumTo_congr fun x0 h0 => ?_
    refine sumTo_congr fun x1 h1 => ?_
    refine sumTo_congr fun x2 h2 => ?_
    rw [hl]
    refine congrArg₂ (· * ·) ?_ ?_
    · exact blockArr_get _ _ _ _ (.cons h0 (.cons h2 (.cons h1 .nil)))
    · rw [hw]; rfl
  · rw [show einDummies [[6, 7, 3, 0], [6, 7, 0, 3]] ([] : List Nat) = [6, 7, 0, 3] from by decide]
    rw [show ((1 : Int) : R) / ((2 : Nat) : R) = 1 / 2 by simp]
    apply congrArg
    simp only [einSum_cons_sumTo, einSum_nil, einProd_two]
    refine sumTo_congr fun x0 h0 => ?_
    refine sumTo_congr fun x1 h1 => ?_
    refine sumTo_congr fun x2 h2 => ?_
    refine sumTo_congr fun x3 h3 => ?_
    rw [hl]
    refine congrArg₂ (· * ·) ?_ ?_
    · exact blockArr_get _ _ _ _ (.cons h0 (.cons h1 (.cons h3 (.cons h2 .nil))))
    · rw [hw]; rfl

theorem lamTerm_val (no nv nb : Nat) (l : GAmps R) (av : List Char → Option (NDArray R))
    (m : Dict (List Char) (NDArray R)) (h : GHam R) (t s : GAmps R)
    (hd : ∀ name, av ('d' :: name) = h.argsD t l s (spaceSizes no nv nb 0) ('d' :: name))
    (hw : ∀ name, av ('L' :: name) = m.get? name) (k : GSort) :
    k.lamTerm.val (spaceSizes no nv nb 0) gLabels 0 av [] = -s.dot no nv nb (lamVals m) k := by
  cases k <;> simp only [ITerm.val, GSort.lamTerm, einValue, List.map_cons, List.map_nil, List.range_zero]
  · rw [show einDummies [[3, 0], [0, 3]] ([] : List Nat) = [0, 3] from by decide]
    rw [show ((-1 : Int) : R) / ((1 : Nat) : R) = -1 by simp, neg_one_mul]
    apply congrArg Neg.neg
    simp only [einSum_cons_sumTo, einSum_nil, einProd_two]
    refine sumTo_congr fun x0 h0 => ?_
    refine sumTo_congr fun x1 h1 => ?_
    rw [hd, mul_comm]
    refine congrArg₂ (· * ·) ?_ ?_
    · exact blockArr_get _ _ _ _ (.cons h0 (.cons h1 .nil))
    · rw [hw]; rfl
  · rw [show einDummies [[3, 4, 0, 1], [0, 1, 3, 4]] ([] : List Nat) = [0, 1, 3, 4] from by decide]
    rw [show ((-1 : Int) : R) / ((4 : Nat) : R) = -(1 / 4) by simp [neg_div], neg_mul]
    apply congrArg Neg.neg
    apply congrArg
    simp only [einSum_cons_sumTo, einSum_nil, einProd_two]
    refine sumTo_congr fun x0 h0 => ?_
    refine sumTo_congr fun x1 h1 => ?_
    refine sumTo_congr fun x2 h2 => ?_
    refine sumTo_congr fun x3 h3 => ?_
    rw [hd, mul_comm]
    refine congrArg₂ (· * ·) ?_ ?_
    · exact blockArr_get _ _ _ _ (.cons h0 (.cons h1 (.cons h2 (.cons h3 .nil))))
    · rw [hw]; rfl
  · rw [show einDummies [[3, 4, 5, 0, 1, 2], [0, 1, 2, 3, 4, 5]] ([] : List Nat) = [0, 1, 2, 3, 4, 5] from by decide]
    rw [show ((-1 : Int) : R) / ((36 : Nat) : R) = -(1 / 36) by simp [neg_div], neg_mul]
    apply congrArg Neg.neg
    apply congrArg
    simp only [einSum_cons_sumTo, einSum_nil, einProd_two]
    refine sumTo_congr fun x0 h0 => ?_
    refine sumTo_congr fun x1 h1 => ?_
    refine sumTo_congr fun x2 h2 => ?_
    refine sumTo_congr fun x3 h3 => ?_
    refine sumTo_congr fun x4 h4 => ?_
    refine sumTo_congr fun x5 h5 => ?_
    rw [hd, mul_comm]
    refine congrArg₂ (· * ·) ?_ ?_
    · exact blockArr_get _ _ _ _ (.cons h0 (.cons h1 (.cons h2 (.cons h3 (.cons h4 (.cons h5 .nil))))))
    · rw [hw]; rfl
  · rw [show einDummies [[6], [6]] ([] : List Nat) = [6] from by decide]
    rw [show ((-1 : Int) : R) / ((1 : Nat) : R) = -1 by simp, neg_one_mul]
    apply congrArg Neg.neg
    simp only [einSum_cons_sumTo, einSum_nil, einProd_two]
    refine sumTo_congr fun x0 h0 => ?_
    rw [hd, mul_comm]
    refine congrArg₂ (· * ·) ?_ ?_
    · exact blockArr_get _ _ _ _ (.cons h0 .nil)
    · rw [hw]; rfl
  · rw [show einDummies [[6, 7], [6, 7]] ([] : List Nat) = [6, 7] from by decide]
    rw [show ((-1 : Int) : R) / ((2 : Nat) : R) = -(1 / 2) by simp [neg_div], neg_mul]
    apply congrArg Neg.neg
    apply congrArg
    simp only [einSum_cons_sumTo, einSum_nil, einProd_two]
    refine sumTo_congr fun x0 h0 => ?_
    refine sumTo_congr fun x1 h1 => ?_
    rw [hd, mul_comm]
    refine congrArg₂ (· * ·) ?_ ?_
    · exact blockArr_get _ _ _ _ (.cons h0 (.cons h1 .nil))
    · rw [hw]; rfl
  · rw [show einDummies [[6, 3, 0], [6, 0, 3]] ([] : List Nat) = [6, 0, 3] from by decide]
    rw [show ((-1 : Int) : R) / ((1 : Nat) : R) = -1 by simp, neg_one_mul]
    apply congrArg Neg.neg
    simp only [einSum_cons_sumTo, einSum_nil, einProd_two]
    refine sumTo_congr fun x0 h0 => ?_
    refine sumTo_congr fun x1 h1 => ?_
    refine sumTo_congr fun x2 h2 => ?_
    rw [hd, mul_comm]
    refine congrArg₂ (· * ·) ?_ ?_
    · exact blockArr_get _ _ _ _ (.cons h0 (.cons h1 (.cons h2 .nil)))
    · rw [hw]; rfl
  · rw [show einDummies [[6, 7, 3, 0], [6, 7, 0, 3]] ([] : List Nat) = [6, 7, 0, 3] from by decide]
    rw [show ((-1 : Int) : R) / ((2 : Nat) : R) = -(1 / 2) by simp [neg_div], neg_mul]
    apply congrArg Neg.neg
    apply congrArg
    simp only [einSum_cons_sumTo, einSum_nil, einProd_two]
    refine sumTo_congr fun x0 h0 => ?_
    refine sumTo_congr fun x1 h1 => ?_
    refine sumTo_congr fun x2 h2 => ?_
    refine sumTo_congr fun x3 h3 => ?_
    rw [hd, mul_comm]
    refine congrArg₂ (· * ·) ?_ ?_
    · exact blockArr_get _ _ _ _ (.cons h0 (.cons h1 (.cons h2 (.cons h3 .nil))))
    · rw [hw]; rfl

theorem eTerm_val (sz : Nat → Nat) (av : List Char → Option (NDArray R)) (e : Dict (List Char) (NDArray R))
    (he : ∀ name, av ('E' :: name) = e.get? name) :
    ITerm.val sz gLabels 0 av ⟨1, 1, [(chars! "Ee_cc", [])]⟩ [] = elemOf e (chars! "e_cc") [] := by
  simp [ITerm.val, einValue, einDummies, einSum, einProd, he, elemOf]

/-- Names of arguments. -/
def isArg (name : List Char) : Bool :=
  match name with
  | c :: _ => c != 'E' && c != 'A' && c != 'L'
  | [] => true

theorem isArg_addResA {name : List Char} (hn : isArg name = true) (e w m : Dict (List Char) (NDArray R))
    (av : List Char → Option (NDArray R)) : addResA 'L' m (addResA 'A' w (addResA 'E' e av)) name = av name := by
  cases name with
  | nil => rfl
  | cons c name =>
    simp only [isArg, Bool.and_eq_true, bne_iff_ne, ne_eq] at hn
    have h1 : (c == 'E') = false := by simpa using hn.1.1
    have h2 : (c == 'A') = false := by simpa using hn.1.2
    have h3 : (c == 'L') = false := by simpa using hn.2
    simp only [addResA, h1, h2, h3, cond_false]

theorem args_none (h : GHam R) (t l : GAmps R) (sz : Nat → Nat) (c : Char) (name : List Char)
    (hc : c = 'd' ∨ c = 'E' ∨ c = 'A' ∨ c = 'L') : h.args t l sz (c :: name) = none := by
  rcases hc with rfl | rfl | rfl | rfl <;> rfl

theorem argOnly_argsD (h : GHam R) (t l s : GAmps R) (sz : Nat → Nat) :
    (fun name => h.argsD t l s sz (argOnly name)) = h.args t l sz := by
  funext name
  cases name with
  | nil => rfl
  | cons c name =>
    by_cases hc : c = 'd' ∨ c = 'E' ∨ c = 'A' ∨ c = 'L'
    · rw [args_none h t l sz c name hc]
      rcases hc with rfl | rfl | rfl | rfl <;> rfl
    · have : argOnly (c :: name) = c :: name := by
        have : (c == 'd' || c == 'E' || c == 'A' || c == 'L') = false := by simpa [not_or, and_assoc] using hc
        simp only [argOnly, this, cond_false]
      rw [this]
      simp only [not_or] at hc
      unfold GHam.argsD
      split
      · rename_i heq; cases heq; exact absurd rfl hc.1
      · rfl

theorem argOnly_addResA (tag : Char) (ht : tag = 'E' ∨ tag = 'A' ∨ tag = 'L') (r : Dict (List Char) (NDArray R))
    (av : List Char → Option (NDArray R)) (name : List Char) : addResA tag r av (argOnly name) = av (argOnly name) := by
  cases name with
  | nil => rfl
  | cons c name =>
    unfold argOnly
    cases hc : (c == 'd' || c == 'E' || c == 'A' || c == 'L') with
    | true => simp only [hc, cond_true, addResA]
    | false =>
      have : (c == tag) = false := by
        rcases ht with rfl | rfl | rfl <;> simp_all
      simp only [hc, addResA, this, cond_false]

/-- The value of further terms. -/
def devVal (h : GHam R) (t l s : GAmps R) (sz : Nat → Nat) (dev : List ITerm) : R :=
  -(dev.map fun c => c.val sz gLabels 0 (h.argsD t l s sz) []).sum

theorem ITerm.val_congr (sz : Nat → Nat) (sps : List Nat) (nf : Nat) (av av' : List Char → Option (NDArray R))
    (t : ITerm) (idx : List Nat) (h : ∀ o ∈ t.ops, av o.1 = av' o.1) : t.val sz sps nf av idx = t.val sz sps nf av' idx := by
  unfold ITerm.val
  rw [List.map_congr_left fun o ho => by rw [h o ho]]

end

theorem get_of_inBox_zero {R : Type} [Zero R] {a : NDArray R} (ha : a.WF)
    (h : ∀ idx, InBox a.shape idx → a.get idx = 0) (idx : List Nat) : a.get idx = 0 := by
  have : a = NDArray.ofFn a.shape fun _ => 0 := by
    apply NDArray.ext_get ha (NDArray.ofFn_wf _ _)
    · exact (NDArray.ofFn_shape _ _).symm
    · intro idx hidx
      rw [h idx hidx, NDArray.get_ofFn _ _ hidx]
  rw [this]
  simp only [NDArray.get, NDArray.ofFn]
  rw [List.getD_eq_getElem?_getD]
  cases hx : ((box a.shape).map fun _ => (0 : R))[ravelIdx a.shape idx]? with
  | none => rfl
  | some x =>
    obtain ⟨_, _, rfl⟩ := List.mem_map.1 (List.mem_of_getElem? hx)
    rfl

theorem einSum_all_zero {R : Type} [AddMonoid R] (sz : Nat → Nat) (ds : List Nat) (F : (Nat → Nat) → R)
    (h : ∀ e, F e = 0) (e : Nat → Nat) : einSum sz ds F e = 0 := by
  induction ds generalizing e with
  | nil => exact h e
  | cons d ds ih =>
    simp only [einSum, ih]
    simp

/-- A term with an array of zeros. -/
theorem ITerm.val_zero {R : Type} [Field R] (sz : Nat → Nat) (sps : List Nat) (nf : Nat)
    (av : List Char → Option (NDArray R)) (t : ITerm) (idx : List Nat)
    (h : ∃ o ∈ t.ops, ∀ idx, ((av o.1).getD (NDArray.zeros [])).get idx = 0) : t.val sz sps nf av idx = 0 := by
  obtain ⟨o, ho, h0⟩ := h
  unfold ITerm.val einValue
  rw [einSum_all_zero, mul_zero]
  intro e
  unfold einProd
  apply List.prod_eq_zero
  rw [List.map_map]
  exact List.mem_map.2 ⟨o, ho, h0 _⟩

theorem neg_sum_map_neg {α R : Type} [AddCommGroup R] (l : List α) (f : α → R) :
    -(l.map fun k => -f k).sum = (l.map f).sum := by
  induction l with
  | nil => simp
  | cons k l ih => rw [List.map_cons, List.sum_cons, neg_add, ih, neg_neg, List.map_cons, List.sum_cons]

theorem GAmps.move_zero {R : Type} [CommRing R] (t s : GAmps R) : t.move s 0 = t := by
  cases t
  simp [GAmps.move]

/-- The labels of the residuals. -/
def GSort.labels : GSort → List Nat
  | .t1 => [0, 3]
  | .t2 => [0, 1, 3, 4]
  | .t3 => [0, 1, 2, 3, 4, 5]
  | .s1 => [6]
  | .s2 => [6, 7]
  | .u11 => [6, 0, 3]
  | .u12 => [6, 7, 0, 3]

theorem resTerm_ops (k : GSort) : ('A' :: k.res.1, k.labels) ∈ k.resTerm.ops.tail := by
  cases k <;> exact List.mem_cons_self ..

/-- What `checkClaim` shows about the derivative. -/
theorem gradient_sound {E A L : GenFun} {sorts : List GSort} {ext dev : List ITerm} {hints : List Nat}
    (hc : checkClaim gSym hints (· % 4) gVals (gradCalls E A L) gDm [gradIdent sorts ext dev] = true)
    (hext : (ext.all fun c => c.ops.any fun o => sorts.any fun k => o.1 == 'A' :: k.res.1) = true)
    (hdev : (dev.all fun c => c.ops.all fun o => isArg o.1) = true)
    {R : Type} [NontriviallyNormedField R] [CharZero R] [DecidableEq R] (h : GHam R) (t l s : GAmps R)
    (no nv nb : Nat) (method : ContractMethod)
    (path : List (List Char) → List Char → List (NDArray R) → List Contraction) (hpath : PathOk path) :
    ∃ (e w : R → Dict (List Char) (NDArray R)) (m : Dict (List Char) (NDArray R)),
      (∀ x, E.call method path (spaceSizes no nv nb 0) (h.args (t.move s x) l (spaceSizes no nv nb 0)) = .ok (e x)) ∧
      (∀ x, A.call method path (spaceSizes no nv nb 0) (h.args (t.move s x) l (spaceSizes no nv nb 0)) = .ok (w x)) ∧
      L.call method path (spaceSizes no nv nb 0) (h.args t l (spaceSizes no nv nb 0)) = .ok m ∧
      (∀ x, HasResult (e x) (spaceSizes no nv nb 0) (chars! "e_cc", [])) ∧
      (∀ x, ∀ k ∈ sorts, HasResult (w x) (spaceSizes no nv nb 0) k.res) ∧
      (∀ k ∈ sorts, HasResult m (spaceSizes no nv nb 0) k.lamRes) ∧
      (ext = [] ∨ ResZero (w 0) (spaceSizes no nv nb 0) sorts →
      HasDerivAt (fun x => elemOf (e x) (chars! "e_cc") [] + (sorts.map (l.dot no nv nb (resVals (w x)))).sum)
        ((sorts.map (s.dot no nv nb (lamVals m))).sum + devVal h t l s (spaceSizes no nv nb 0) dev) 0) := by
  have := checkClaim_deriv (spaceSizes no nv nb 0) (fun x => gTensor h (t.move s x) l s) gSym
    (fun x => gSym_symOk h (t.move s x) l s) method path hpath (spaceSizes no nv nb 0) _ (spaceSizes_mod no nv nb 0)
    gVals (fun x => h.argsD (t.move s x) l s (spaceSizes no nv nb 0))
    (fun x => gVals_rep (spaceSizes no nv nb 0) h (t.move s x) l s) _ gDm (gTensor_deriv h t l s) _
    (by simp [gradIdent]) hints hc
  simp only [gradCalls, CallsOk] at this
  obtain ⟨e, he, w, hw, m, hm, key⟩ := this
  obtain ⟨k1, k2, k3⟩ := key _ (List.mem_singleton.2 rfl)
  have k4 := k3 [] .nil
  simp only [argOnly_addResA 'E' (.inl rfl), argOnly_addResA 'A' (.inr (.inl rfl)), argOnly_argsD] at he hw hm
  have e1 : ∀ x name, addResA 'L' (m x) (addResA 'A' (w x) (addResA 'E' (e x)
      (h.argsD (t.move s x) l s (spaceSizes no nv nb 0)))) ('E' :: name) = (e x).get? name := fun x name => rfl
  have e2 : ∀ x name, addResA 'L' (m x) (addResA 'A' (w x) (addResA 'E' (e x)
      (h.argsD (t.move s x) l s (spaceSizes no nv nb 0)))) ('A' :: name) = (w x).get? name := fun x name => rfl
  have e3 : ∀ x name, addResA 'L' (m x) (addResA 'A' (w x) (addResA 'E' (e x)
      (h.argsD (t.move s x) l s (spaceSizes no nv nb 0)))) ('L' :: name) = (m x).get? name := fun x name => rfl
  have e4 : ∀ x name, addResA 'L' (m x) (addResA 'A' (w x) (addResA 'E' (e x)
      (h.argsD (t.move s x) l s (spaceSizes no nv nb 0)))) ('l' :: name) =
      h.argsD (t.move s x) l s (spaceSizes no nv nb 0) ('l' :: name) := fun x name => rfl
  have e5 : ∀ name, addResA 'L' (m 0) (addResA 'A' (w 0) (addResA 'E' (e 0)
      (h.argsD (t.move s 0) l s (spaceSizes no nv nb 0)))) ('d' :: name) =
      h.argsD (t.move s 0) l s (spaceSizes no nv nb 0) ('d' :: name) := fun name => rfl
  refine ⟨e, w, m 0, he, hw, ?_, ?_, ?_, ?_, ?_⟩
  · have := hm 0
    rwa [t.move_zero] at this
  · intro x
    obtain ⟨a, a1, _, a3⟩ := k1 x _ (List.mem_cons_self ..) _ (List.mem_cons_self ..)
    exact ⟨a, a1, a3⟩
  · intro x k hk
    have := k1 x _ (List.mem_cons_of_mem _ (List.mem_map_of_mem hk))
    cases k <;> obtain ⟨a, a1, _, a3⟩ := this _ (List.mem_cons_of_mem _ (List.mem_cons_self ..)) <;>
      exact ⟨a, a1, a3⟩
  · intro k hk
    have := k2 _ (List.mem_append_left _ (List.mem_map_of_mem hk))
    cases k <;> obtain ⟨a, a1, _, a3⟩ := this _ (List.mem_cons_self ..) <;> exact ⟨a, a1, a3⟩
  · intro hz
    have r1 : ∀ x k, (GSort.resTerm k).val (spaceSizes no nv nb 0) gLabels 0 (addResA 'L' (m x) (addResA 'A' (w x)
        (addResA 'E' (e x) (h.argsD (t.move s x) l s (spaceSizes no nv nb 0))))) [] =
        l.dot no nv nb (resVals (w x)) k :=
      fun x k => resTerm_val no nv nb l _ (w x) h (t.move s x) s (e4 x) (e2 x) k
    have r2 : ∀ k, (GSort.lamTerm k).val (spaceSizes no nv nb 0) gLabels 0 (addResA 'L' (m 0) (addResA 'A' (w 0)
        (addResA 'E' (e 0) (h.argsD (t.move s 0) l s (spaceSizes no nv nb 0))))) [] =
        -s.dot no nv nb (lamVals (m 0)) k :=
      fun k => lamTerm_val no nv nb l _ (m 0) h (t.move s 0) s e5 (e3 0) k
    have r3 : (dev.map fun c => c.val (spaceSizes no nv nb 0) gLabels 0 (addResA 'L' (m 0) (addResA 'A' (w 0)
        (addResA 'E' (e 0) (h.argsD (t.move s 0) l s (spaceSizes no nv nb 0))))) []) =
        dev.map fun c => c.val (spaceSizes no nv nb 0) gLabels 0 (h.argsD t l s (spaceSizes no nv nb 0)) [] := by
      apply List.map_congr_left
      intro c hcm
      apply ITerm.val_congr
      intro o ho
      have := List.all_eq_true.1 (List.all_eq_true.1 hdev c hcm) o ho
      rw [t.move_zero]
      exact isArg_addResA this _ _ _ _
    have r5 : (ext.map fun c => c.val (spaceSizes no nv nb 0) gLabels 0 (addResA 'L' (m 0) (addResA 'A' (w 0)
        (addResA 'E' (e 0) (h.argsD (t.move s 0) l s (spaceSizes no nv nb 0))))) []).sum = 0 := by
      rcases hz with rfl | hz
      · rfl
      · apply List.sum_eq_zero
        intro x hx
        obtain ⟨c, hcm, rfl⟩ := List.mem_map.1 hx
        apply ITerm.val_zero
        obtain ⟨o, ho, ho'⟩ := List.any_eq_true.1 (List.all_eq_true.1 hext c hcm)
        obtain ⟨k, hk, hko⟩ := List.any_eq_true.1 ho'
        refine ⟨o, ho, ?_⟩
        obtain ⟨a, a1, a2, a3⟩ := k1 0 _ (List.mem_cons_of_mem _ (List.mem_map_of_mem hk)) ('A' :: k.res.1, _)
          (List.mem_of_mem_tail (resTerm_ops k))
        rw [eq_of_beq hko, a1]
        refine get_of_inBox_zero a2 fun idx hidx => ?_
        have := hz k hk idx (mem_box.2 (by change InBox a.shape idx at hidx; rw [a3] at hidx; cases k <;> exact hidx))
        rw [e2] at a1
        simpa [resVals, elemOf, a1] using this
    simp only [gradIdent, List.map_cons, List.sum_cons, List.map_map, List.map_append, List.sum_append, neg_add] at k4
    rw [r3, r5, neg_zero, zero_add] at k4
    simp only [Function.comp_def, r1, r2] at k4
    simp only [eTerm_val _ _ _ (e1 _)] at k4
    have r4 : -(sorts.map fun k => -s.dot no nv nb (lamVals (m 0)) k).sum =
        (sorts.map (s.dot no nv nb (lamVals (m 0)))).sum := by
      exact neg_sum_map_neg _ _
    rw [r4] at k4
    exact k4

end Ebcc
