import Verif.Spec.DensityG
import Verif.Tensor.Gradient
/-!
Identities of density matrices.
-/

namespace Ebcc

/-- The identity matrix of the occupied orbitals. -/
def eyeFun : GenFun := ⟨[], [.eye 0 0], [(chars! "oo", 0)]⟩

/-- The label of axis `k` with space `s`. -/
def axLab (k s : Nat) : Nat := [0, 1, 2, 8].getD k 0 + 3 * s

def ov2 : List (Nat × Nat) := [(0, 0), (0, 1), (1, 0), (1, 1)]

def ov4 : List ((Nat × Nat) × Nat × Nat) := ov2.flatMap fun x => ov2.map fun y => (x, y)

def fTerm (n1 : List Char) (x : Nat × Nat) : ITerm :=
  ⟨-1, 1, [(['f', '.', spaceLetter x.1, spaceLetter x.2], [axLab 0 x.1, axLab 1 x.2]),
    ('P' :: (n1 ++ ['.', spaceLetter x.1, spaceLetter x.2]), [axLab 0 x.1, axLab 1 x.2])]⟩

def vgTerm (n1 : List Char) (x : Nat × Nat) : ITerm :=
  ⟨1, 1, [(['v', '.', spaceLetter x.1, 'o', spaceLetter x.2, 'o'], [axLab 0 x.1, 2, axLab 1 x.2, 2]),
    ('P' :: (n1 ++ ['.', spaceLetter x.1, spaceLetter x.2]), [axLab 0 x.1, axLab 1 x.2])]⟩

def vTerm (n2 : List Char) (x : (Nat × Nat) × Nat × Nat) : ITerm :=
  ⟨-1, 4, [(['v', '.', spaceLetter x.1.1, spaceLetter x.2.1, spaceLetter x.1.2, spaceLetter x.2.2],
      [axLab 0 x.1.1, axLab 2 x.2.1, axLab 1 x.1.2, axLab 3 x.2.2]),
    ('Q' :: (n2 ++ ['.', spaceLetter x.1.1, spaceLetter x.1.2, spaceLetter x.2.1, spaceLetter x.2.2]),
      [axLab 0 x.1.1, axLab 1 x.1.2, axLab 2 x.2.1, axLab 3 x.2.2])]⟩

def refTerms : List ITerm := [⟨1, 1, [(chars! "f.oo", [0, 0])]⟩, ⟨-1, 2, [(chars! "v.oooo", [0, 1, 0, 1])]⟩]

/-- The terms for electrons. -/
def densTerms (sorts : List GSort) (n1 n2 : List Char) : List ITerm :=
  ⟨1, 1, [(chars! "Ee_cc", [])]⟩ :: sorts.map GSort.resTerm ++ ov2.map (fTerm n1) ++ ov2.map (vgTerm n1) ++
    ov4.map (vTerm n2) ++ refTerms

def bosTerms0 : List ITerm := [
  ⟨-1, 1, [(chars! "w", [6, 7]), (chars! "Yrdm1_b", [6, 7])]⟩,
  ⟨-1, 1, [(chars! "G", [6]), (chars! "Xdm_b.0", [6])]⟩,
  ⟨1, 1, [(chars! "g.boo", [6, 0, 0]), (chars! "Xdm_b.0", [6])]⟩,
  ⟨-1, 1, [(chars! "G", [6]), (chars! "Xdm_b.1", [6])]⟩,
  ⟨1, 1, [(chars! "g.boo", [6, 0, 0]), (chars! "Xdm_b.1", [6])]⟩]

def ebTerm0 (x : Nat × Nat) : ITerm :=
  ⟨-1, 1, [(['g', '.', 'b', spaceLetter x.2, spaceLetter x.1], [6, axLab 1 x.2, axLab 0 x.1]),
    (chars! "Zrdm_eb.0" ++ ['.', spaceLetter x.1, spaceLetter x.2], [6, axLab 0 x.1, axLab 1 x.2])]⟩

def ebTerm1 (x : Nat × Nat) : ITerm :=
  ⟨-1, 1, [(['g', '.', 'b', spaceLetter x.1, spaceLetter x.2], [6, axLab 0 x.1, axLab 1 x.2]),
    (chars! "Zrdm_eb.1" ++ ['.', spaceLetter x.1, spaceLetter x.2], [6, axLab 0 x.1, axLab 1 x.2])]⟩

/-- The terms for bosons. -/
def bosTerms : List ITerm := bosTerms0 ++ ov2.map ebTerm0 ++ ov2.map ebTerm1

/-- Names of arguments, not of results. -/
def argBut (tags : List Char) : List Char → List Char
  | c :: name => bif tags.contains c then [] else c :: name
  | [] => []

def densTags : List Char := ['E', 'A', 'P', 'Q', 'X', 'Y', 'Z', 'D', 'd']

section
variable {R : Type} [Field R]

theorem argBut_addResA {tags : List Char} (tag : Char) (ht : tags.contains tag = true)
    (r : Dict (List Char) (NDArray R)) (av : List Char → Option (NDArray R)) (name : List Char) :
    addResA tag r av (argBut tags name) = av (argBut tags name) := by
  cases name with
  | nil => rfl
  | cons c name =>
    cases hc : tags.contains c with
    | true => simp only [argBut, hc, cond_true, addResA]
    | false =>
      have : (c == tag) = false := by
        rw [beq_eq_false_iff_ne]
        rintro rfl
        rw [ht] at hc
        cases hc
      simp only [argBut, hc, cond_false, addResA, this]

theorem argBut_args (h : GHam R) (t l s : GAmps R) (sz : Nat → Nat) :
    (fun name => h.argsD t l s sz (argBut densTags name)) = h.args t l sz := by
  funext name
  cases name with
  | nil => rfl
  | cons c name =>
    cases hc : densTags.contains c with
    | true =>
      simp only [densTags, List.contains_cons, List.contains_nil, Bool.or_false, Bool.or_eq_true, beq_iff_eq] at hc
      rcases hc with rfl | rfl | rfl | rfl | rfl | rfl | rfl | rfl | rfl <;> rfl
    | false =>
      simp only [argBut, hc, cond_false]
      unfold GHam.argsD
      split
      · rename_i heq; cases heq; cases hc
      · rfl

/-- Values of names: the results, and arguments. -/
structure DensVals (h : GHam R) (t l : GAmps R) (sz : Nat → Nat) (e w p q : Dict (List Char) (NDArray R))
    (av : List Char → Option (NDArray R)) : Prop where
  hE : ∀ n, av ('E' :: n) = e.get? n
  hA : ∀ n, av ('A' :: n) = w.get? n
  hP : ∀ n, av ('P' :: n) = p.get? n
  hQ : ∀ n, av ('Q' :: n) = q.get? n
  hl : ∀ n, av ('l' :: n) = h.args t l sz ('l' :: n)
  hf : ∀ n, av ('f' :: n) = h.args t l sz ('f' :: n)
  hv : ∀ n, av ('v' :: n) = h.args t l sz ('v' :: n)

theorem sumTo_add (n : Nat) (f g : Nat → R) : (sumTo n fun i => f i + g i) = sumTo n f + sumTo n g := by
  unfold sumTo
  exact List.sum_map_add

theorem listSum_neg {α : Type} (l : List α) (f : α → R) : (l.map fun x => -f x).sum = -(l.map f).sum := by
  induction l with
  | nil => simp
  | cons x l ih => simp only [List.map_cons, List.sum_cons, ih, neg_add]

theorem sumTo_neg (n : Nat) (f : Nat → R) : (sumTo n fun i => -f i) = -sumTo n f := by
  unfold sumTo
  exact listSum_neg _ _

theorem sumTo_mul_left (n : Nat) (c : R) (f : Nat → R) : (sumTo n fun i => c * f i) = c * sumTo n f := by
  unfold sumTo
  exact List.sum_map_mul_left (R := R) _ _ _

theorem sumTo_mul_right (n : Nat) (c : R) (f : Nat → R) : (sumTo n fun i => f i * c) = sumTo n f * c := by
  unfold sumTo
  exact List.sum_map_mul_right (R := R) _ _ _

theorem sumTo_comm (n m : Nat) (f : Nat → Nat → R) :
    (sumTo n fun i => sumTo m fun j => f i j) = sumTo m fun j => sumTo n fun i => f i j := by
  unfold sumTo
  induction List.range n with
  | nil => simp
  | cons x l ih => simp only [List.map_cons, List.sum_cons, ih, List.sum_map_add]

theorem sumTo_zero (f : Nat → R) : sumTo 0 f = 0 := rfl

variable {no nv nb : Nat} {h : GHam R} {t l : GAmps R} {e w p q : Dict (List Char) (NDArray R)}
  {av : List Char → Option (NDArray R)}

theorem fTerm_val (H : DensVals h t l (spaceSizes no nv nb 0) e w p q av) (n1 : List Char) (x : Nat × Nat)
    (hx : x ∈ ov2) : (fTerm n1 x).val (spaceSizes no nv nb 0) gLabels 0 av [] =
      -sumTo (spaceSizes no nv nb 0 x.1) fun i => sumTo (spaceSizes no nv nb 0 x.2) fun j =>
        h.f (x.1, i) (x.2, j) * dm1 p n1 (x.1, i) (x.2, j) := by
  have hd : einDummies [[axLab 0 x.1, axLab 1 x.2], [axLab 0 x.1, axLab 1 x.2]] [] = [axLab 0 x.1, axLab 1 x.2] := by
    revert x; decide
  obtain ⟨a, b⟩ := x
  simp only at hd
  simp only [ITerm.val, fTerm, einValue, List.map_cons, List.map_nil, List.range_zero, hd, H.hf, H.hP]
  rw [show ((-1 : Int) : R) / ((1 : Nat) : R) = -1 by simp, neg_one_mul]
  apply congrArg Neg.neg
  simp only [einSum_cons_sumTo, einSum_nil, einProd_two]
  simp only [ov2, List.mem_cons, List.not_mem_nil, or_false, Prod.mk.injEq] at hx
  rcases hx with ⟨rfl, rfl⟩ | ⟨rfl, rfl⟩ | ⟨rfl, rfl⟩ | ⟨rfl, rfl⟩ <;>
  · refine sumTo_congr fun x0 h0 => ?_
    refine sumTo_congr fun x1 h1 => ?_
    exact congrArg₂ (· * ·) (blockArr_get _ _ _ _ (.cons h0 (.cons h1 .nil))) rfl

theorem vgTerm_val (H : DensVals h t l (spaceSizes no nv nb 0) e w p q av) (n1 : List Char) (x : Nat × Nat)
    (hx : x ∈ ov2) : (vgTerm n1 x).val (spaceSizes no nv nb 0) gLabels 0 av [] =
      sumTo no fun k => sumTo (spaceSizes no nv nb 0 x.1) fun i => sumTo (spaceSizes no nv nb 0 x.2) fun j =>
        h.v (x.1, i) (0, k) (x.2, j) (0, k) * dm1 p n1 (x.1, i) (x.2, j) := by
  have hd : einDummies [[axLab 0 x.1, 2, axLab 1 x.2, 2], [axLab 0 x.1, axLab 1 x.2]] [] =
      [2, axLab 0 x.1, axLab 1 x.2] := by
    revert x; decide
  obtain ⟨a, b⟩ := x
  simp only at hd
  simp only [ITerm.val, vgTerm, einValue, List.map_cons, List.map_nil, List.range_zero, hd, H.hv, H.hP]
  rw [show ((1 : Int) : R) / ((1 : Nat) : R) = 1 by simp, one_mul]
  simp only [einSum_cons_sumTo, einSum_nil, einProd_two]
  simp only [ov2, List.mem_cons, List.not_mem_nil, or_false, Prod.mk.injEq] at hx
  rcases hx with ⟨rfl, rfl⟩ | ⟨rfl, rfl⟩ | ⟨rfl, rfl⟩ | ⟨rfl, rfl⟩ <;>
  · refine sumTo_congr fun x2 h2 => ?_
    refine sumTo_congr fun x0 h0 => ?_
    refine sumTo_congr fun x1 h1 => ?_
    exact congrArg₂ (· * ·) (blockArr_get _ _ _ _ (.cons h0 (.cons h2 (.cons h1 (.cons h2 .nil))))) rfl

theorem vTerm_val (H : DensVals h t l (spaceSizes no nv nb 0) e w p q av) (n2 : List Char)
    (x : (Nat × Nat) × Nat × Nat) (hx : x ∈ ov4) :
    (vTerm n2 x).val (spaceSizes no nv nb 0) gLabels 0 av [] =
      -(1 / 4 * sumTo (spaceSizes no nv nb 0 x.1.1) fun i => sumTo (spaceSizes no nv nb 0 x.1.2) fun j =>
        sumTo (spaceSizes no nv nb 0 x.2.1) fun k => sumTo (spaceSizes no nv nb 0 x.2.2) fun m =>
        h.v (x.1.1, i) (x.2.1, k) (x.1.2, j) (x.2.2, m) * dm2 q n2 (x.1.1, i) (x.1.2, j) (x.2.1, k) (x.2.2, m)) := by
  have hd : einDummies [[axLab 0 x.1.1, axLab 2 x.2.1, axLab 1 x.1.2, axLab 3 x.2.2],
      [axLab 0 x.1.1, axLab 1 x.1.2, axLab 2 x.2.1, axLab 3 x.2.2]] [] =
      [axLab 0 x.1.1, axLab 1 x.1.2, axLab 2 x.2.1, axLab 3 x.2.2] := by
    revert x; decide
  obtain ⟨⟨a, b⟩, c, d⟩ := x
  simp only at hd
  simp only [ITerm.val, vTerm, einValue, List.map_cons, List.map_nil, List.range_zero, hd, H.hv, H.hQ]
  rw [show ((-1 : Int) : R) / ((4 : Nat) : R) = -(1 / 4) by simp [neg_div], neg_mul]
  apply congrArg Neg.neg
  apply congrArg
  simp only [einSum_cons_sumTo, einSum_nil, einProd_two]
  simp only [ov4, ov2, List.flatMap_cons, List.flatMap_nil, List.map_cons, List.map_nil, List.cons_append,
    List.nil_append, List.append_nil, List.mem_cons, List.not_mem_nil, or_false, Prod.mk.injEq] at hx
  rcases hx with ⟨⟨rfl, rfl⟩, rfl, rfl⟩ | ⟨⟨rfl, rfl⟩, rfl, rfl⟩ | ⟨⟨rfl, rfl⟩, rfl, rfl⟩ | ⟨⟨rfl, rfl⟩, rfl, rfl⟩ |
    ⟨⟨rfl, rfl⟩, rfl, rfl⟩ | ⟨⟨rfl, rfl⟩, rfl, rfl⟩ | ⟨⟨rfl, rfl⟩, rfl, rfl⟩ | ⟨⟨rfl, rfl⟩, rfl, rfl⟩ |
    ⟨⟨rfl, rfl⟩, rfl, rfl⟩ | ⟨⟨rfl, rfl⟩, rfl, rfl⟩ | ⟨⟨rfl, rfl⟩, rfl, rfl⟩ | ⟨⟨rfl, rfl⟩, rfl, rfl⟩ |
    ⟨⟨rfl, rfl⟩, rfl, rfl⟩ | ⟨⟨rfl, rfl⟩, rfl, rfl⟩ | ⟨⟨rfl, rfl⟩, rfl, rfl⟩ | ⟨⟨rfl, rfl⟩, rfl, rfl⟩ <;>
  · refine sumTo_congr fun x0 h0 => ?_
    refine sumTo_congr fun x1 h1 => ?_
    refine sumTo_congr fun x2 h2 => ?_
    refine sumTo_congr fun x3 h3 => ?_
    exact congrArg₂ (· * ·) (blockArr_get _ _ _ _ (.cons h0 (.cons h2 (.cons h1 (.cons h3 .nil))))) rfl

theorem einProd_one (x : List Nat × NDArray R) (e : Nat → Nat) : einProd [x] e = x.2.get (x.1.map e) := by
  simp [einProd]

theorem refTerms_val [CharZero R] (H : DensVals h t l (spaceSizes no nv nb 0) e w p q av) :
    (refTerms.map fun c => c.val (spaceSizes no nv nb 0) gLabels 0 av []).sum = h.eRef no := by
  have h1 : ITerm.val (spaceSizes no nv nb 0) gLabels 0 av ⟨1, 1, [(chars! "f.oo", [0, 0])]⟩ [] =
      sumTo no fun k => h.f (0, k) (0, k) := by
    simp only [ITerm.val, einValue, List.map_cons, List.map_nil, List.range_zero, H.hf]
    rw [show einDummies [[0, 0]] ([] : List Nat) = [0] by decide]
    rw [show ((1 : Int) : R) / ((1 : Nat) : R) = 1 by simp, one_mul]
    simp only [einSum_cons_sumTo, einSum_nil, einProd_one]
    refine sumTo_congr fun x0 h0 => ?_
    exact blockArr_get _ _ _ _ (.cons h0 (.cons h0 .nil))
  have h2 : ITerm.val (spaceSizes no nv nb 0) gLabels 0 av ⟨-1, 2, [(chars! "v.oooo", [0, 1, 0, 1])]⟩ [] =
      -(1 / 2 * sumTo no fun k => sumTo no fun l => h.v (0, k) (0, l) (0, k) (0, l)) := by
    simp only [ITerm.val, einValue, List.map_cons, List.map_nil, List.range_zero, H.hv]
    rw [show einDummies [[0, 1, 0, 1]] ([] : List Nat) = [0, 1] by decide]
    rw [show ((-1 : Int) : R) / ((2 : Nat) : R) = -(1 / 2) by simp [neg_div], neg_mul]
    apply congrArg Neg.neg
    apply congrArg
    simp only [einSum_cons_sumTo, einSum_nil, einProd_one]
    refine sumTo_congr fun x0 h0 => ?_
    refine sumTo_congr fun x1 h1 => ?_
    exact blockArr_get _ _ _ _ (.cons h0 (.cons h1 (.cons h0 (.cons h1 .nil))))
  simp only [refTerms, List.map_cons, List.map_nil, List.sum_cons, List.sum_nil, h1, h2, GHam.eRef, GHam.core,
    sub_eq_add_neg, sumTo_add, sumTo_neg]
  have h3 : ∀ a b : R, a + (-(1 / 2 * b) + 0) = a + -b + 1 / 2 * b := by
    intro a b
    field_simp
    ring
  exact h3 _ _

theorem sumOrb_two (F : Orb → Orb → R) : (sumOrb no nv fun p => sumOrb no nv fun q => F p q) =
    (ov2.map fun x => sumTo (spaceSizes no nv nb 0 x.1) fun i => sumTo (spaceSizes no nv nb 0 x.2) fun j =>
      F (x.1, i) (x.2, j)).sum := by
  simp only [sumOrb, sumTo_add, ov2, List.map_cons, List.map_nil, List.sum_cons, List.sum_nil, spaceSizes]
  ring

theorem sumOrb_four (F : Orb → Orb → Orb → Orb → R) :
    (sumOrb no nv fun p => sumOrb no nv fun q => sumOrb no nv fun r => sumOrb no nv fun s => F p q r s) =
    (ov4.map fun x => sumTo (spaceSizes no nv nb 0 x.1.1) fun i => sumTo (spaceSizes no nv nb 0 x.1.2) fun j =>
      sumTo (spaceSizes no nv nb 0 x.2.1) fun k => sumTo (spaceSizes no nv nb 0 x.2.2) fun m =>
      F (x.1.1, i) (x.1.2, j) (x.2.1, k) (x.2.2, m)).sum := by
  simp only [sumOrb, sumTo_add, ov4, ov2, List.flatMap_cons, List.flatMap_nil, List.map_cons, List.map_nil,
    List.cons_append, List.nil_append, List.append_nil, List.sum_cons, List.sum_nil, spaceSizes]
  ring

theorem densTerms_val [CharZero R] (H : DensVals h t l (spaceSizes no nv nb 0) e w p q av) (sorts : List GSort)
    (n1 n2 : List Char) :
    ((densTerms sorts n1 n2).map fun c => c.val (spaceSizes no nv nb 0) gLabels 0 av []).sum =
      elemOf e (chars! "e_cc") [] + (sorts.map (l.dot no nv nb (resVals w))).sum + h.eRef no -
        h.eDM no nv (dm1 p n1) (dm2 q n2) := by
  have e1 : (sorts.map fun c => c.resTerm.val (spaceSizes no nv nb 0) gLabels 0 av []) =
      sorts.map (l.dot no nv nb (resVals w)) :=
    List.map_congr_left fun k _ => resTerm_val no nv nb l av w h t t (fun n => H.hl n) H.hA k
  have e2 := List.map_congr_left (fun x hx => fTerm_val (nb := nb) H n1 x hx)
  have e3 := List.map_congr_left (fun x hx => vgTerm_val (nb := nb) H n1 x hx)
  have e4 := List.map_congr_left (fun x hx => vTerm_val (nb := nb) H n2 x hx)
  unfold densTerms
  simp only [List.map_append, List.map_cons, List.map_map, List.sum_append, List.sum_cons, Function.comp_def, e1, e2,
    e3, e4, refTerms_val H, eTerm_val _ av e H.hE]
  unfold GHam.eDM GHam.core
  rw [sumOrb_two (nb := nb), sumOrb_four (nb := nb)]
  have e5 : ∀ x : Nat × Nat, (sumTo no fun k => sumTo (spaceSizes no nv nb 0 x.1) fun i =>
      sumTo (spaceSizes no nv nb 0 x.2) fun j => h.v (x.1, i) (0, k) (x.2, j) (0, k) * dm1 p n1 (x.1, i) (x.2, j)) =
      sumTo (spaceSizes no nv nb 0 x.1) fun i => sumTo (spaceSizes no nv nb 0 x.2) fun j =>
        (sumTo no fun k => h.v (x.1, i) (0, k) (x.2, j) (0, k)) * dm1 p n1 (x.1, i) (x.2, j) := by
    intro x
    rw [sumTo_comm]
    refine sumTo_congr fun i _ => ?_
    rw [sumTo_comm]
    refine sumTo_congr fun j _ => ?_
    rw [sumTo_mul_right]
  simp only [e5, sub_eq_add_neg, add_mul, neg_mul, sumTo_add, sumTo_neg, List.sum_map_add, listSum_neg,
    List.sum_map_mul_left]
  ring

/-- Values of names: results for bosons, and arguments. -/
structure BosVals (h : GHam R) (t l : GAmps R) (sz : Nat → Nat) (x y z : Dict (List Char) (NDArray R))
    (av : List Char → Option (NDArray R)) : Prop where
  hX : ∀ n, av ('X' :: n) = x.get? n
  hY : ∀ n, av ('Y' :: n) = y.get? n
  hZ : ∀ n, av ('Z' :: n) = z.get? n
  hG : ∀ n, av ('G' :: n) = h.args t l sz ('G' :: n)
  hw : ∀ n, av ('w' :: n) = h.args t l sz ('w' :: n)
  hg : ∀ n, av ('g' :: n) = h.args t l sz ('g' :: n)

variable {x y z : Dict (List Char) (NDArray R)}

theorem ebTerm0_val (H : BosVals h t l (spaceSizes no nv nb 0) x y z av) (c : Nat × Nat) (hc : c ∈ ov2) :
    (ebTerm0 c).val (spaceSizes no nv nb 0) gLabels 0 av [] =
      -sumTo nb fun m => sumTo (spaceSizes no nv nb 0 c.1) fun i => sumTo (spaceSizes no nv nb 0 c.2) fun j =>
        h.g m (c.2, j) (c.1, i) * dmEB z (chars! "rdm_eb.0") m (c.1, i) (c.2, j) := by
  have hd : einDummies [[6, axLab 1 c.2, axLab 0 c.1], [6, axLab 0 c.1, axLab 1 c.2]] [] =
      [6, axLab 0 c.1, axLab 1 c.2] := by
    revert c; decide
  obtain ⟨a, b⟩ := c
  simp only at hd
  simp only [ITerm.val, ebTerm0, einValue, List.map_cons, List.map_nil, List.range_zero, hd, H.hg, H.hZ,
    List.cons_append]
  rw [show ((-1 : Int) : R) / ((1 : Nat) : R) = -1 by simp, neg_one_mul]
  apply congrArg Neg.neg
  simp only [einSum_cons_sumTo, einSum_nil, einProd_two]
  simp only [ov2, List.mem_cons, List.not_mem_nil, or_false, Prod.mk.injEq] at hc
  rcases hc with ⟨rfl, rfl⟩ | ⟨rfl, rfl⟩ | ⟨rfl, rfl⟩ | ⟨rfl, rfl⟩ <;>
  · refine sumTo_congr fun x2 h2 => ?_
    refine sumTo_congr fun x0 h0 => ?_
    refine sumTo_congr fun x1 h1 => ?_
    exact congrArg₂ (· * ·) (blockArr_get _ _ _ _ (.cons h2 (.cons h1 (.cons h0 .nil)))) rfl

theorem ebTerm1_val (H : BosVals h t l (spaceSizes no nv nb 0) x y z av) (c : Nat × Nat) (hc : c ∈ ov2) :
    (ebTerm1 c).val (spaceSizes no nv nb 0) gLabels 0 av [] =
      -sumTo nb fun m => sumTo (spaceSizes no nv nb 0 c.1) fun i => sumTo (spaceSizes no nv nb 0 c.2) fun j =>
        h.g m (c.1, i) (c.2, j) * dmEB z (chars! "rdm_eb.1") m (c.1, i) (c.2, j) := by
  have hd : einDummies [[6, axLab 0 c.1, axLab 1 c.2], [6, axLab 0 c.1, axLab 1 c.2]] [] =
      [6, axLab 0 c.1, axLab 1 c.2] := by
    revert c; decide
  obtain ⟨a, b⟩ := c
  simp only at hd
  simp only [ITerm.val, ebTerm1, einValue, List.map_cons, List.map_nil, List.range_zero, hd, H.hg, H.hZ,
    List.cons_append]
  rw [show ((-1 : Int) : R) / ((1 : Nat) : R) = -1 by simp, neg_one_mul]
  apply congrArg Neg.neg
  simp only [einSum_cons_sumTo, einSum_nil, einProd_two]
  simp only [ov2, List.mem_cons, List.not_mem_nil, or_false, Prod.mk.injEq] at hc
  rcases hc with ⟨rfl, rfl⟩ | ⟨rfl, rfl⟩ | ⟨rfl, rfl⟩ | ⟨rfl, rfl⟩ <;>
  · refine sumTo_congr fun x2 h2 => ?_
    refine sumTo_congr fun x0 h0 => ?_
    refine sumTo_congr fun x1 h1 => ?_
    exact congrArg₂ (· * ·) (blockArr_get _ _ _ _ (.cons h2 (.cons h0 (.cons h1 .nil)))) rfl

theorem gTerm_val (H : BosVals h t l (spaceSizes no nv nb 0) x y z av) (n : List Char) :
    ITerm.val (spaceSizes no nv nb 0) gLabels 0 av ⟨-1, 1, [(chars! "G", [6]), ('X' :: n, [6])]⟩ [] =
      -sumTo nb fun m => h.G m * elemOf x n [m] := by
  simp only [ITerm.val, einValue, List.map_cons, List.map_nil, List.range_zero, H.hG, H.hX]
  rw [show einDummies [[6], [6]] ([] : List Nat) = [6] by decide]
  rw [show ((-1 : Int) : R) / ((1 : Nat) : R) = -1 by simp, neg_one_mul]
  apply congrArg Neg.neg
  simp only [einSum_cons_sumTo, einSum_nil, einProd_two]
  refine sumTo_congr fun x2 h2 => ?_
  exact congrArg₂ (· * ·) (blockArr_get _ _ _ _ (.cons h2 .nil)) rfl

theorem gkkTerm_val (H : BosVals h t l (spaceSizes no nv nb 0) x y z av) (n : List Char) :
    ITerm.val (spaceSizes no nv nb 0) gLabels 0 av ⟨1, 1, [(chars! "g.boo", [6, 0, 0]), ('X' :: n, [6])]⟩ [] =
      sumTo nb fun m => (sumTo no fun k => h.g m (0, k) (0, k)) * elemOf x n [m] := by
  simp only [ITerm.val, einValue, List.map_cons, List.map_nil, List.range_zero, H.hg, H.hX]
  rw [show einDummies [[6, 0, 0], [6]] ([] : List Nat) = [0, 6] by decide]
  rw [show ((1 : Int) : R) / ((1 : Nat) : R) = 1 by simp, one_mul]
  simp only [einSum_cons_sumTo, einSum_nil, einProd_two]
  simp only [← sumTo_mul_right]
  rw [sumTo_comm]
  refine sumTo_congr fun x2 h2 => ?_
  refine sumTo_congr fun x0 h0 => ?_
  exact congrArg₂ (· * ·) (blockArr_get _ _ _ _ (.cons h2 (.cons h0 (.cons h0 .nil)))) rfl

theorem wTerm_val (H : BosVals h t l (spaceSizes no nv nb 0) x y z av) :
    ITerm.val (spaceSizes no nv nb 0) gLabels 0 av ⟨-1, 1, [(chars! "w", [6, 7]), (chars! "Yrdm1_b", [6, 7])]⟩ [] =
      -sumTo nb fun m => sumTo nb fun n => h.w m n * elemOf y (chars! "rdm1_b") [m, n] := by
  simp only [ITerm.val, einValue, List.map_cons, List.map_nil, List.range_zero, H.hw, H.hY]
  rw [show einDummies [[6, 7], [6, 7]] ([] : List Nat) = [6, 7] by decide]
  rw [show ((-1 : Int) : R) / ((1 : Nat) : R) = -1 by simp, neg_one_mul]
  apply congrArg Neg.neg
  simp only [einSum_cons_sumTo, einSum_nil, einProd_two]
  refine sumTo_congr fun x2 h2 => ?_
  refine sumTo_congr fun x3 h3 => ?_
  exact congrArg₂ (· * ·) (blockArr_get _ _ _ _ (.cons h2 (.cons h3 .nil))) rfl

theorem bosTerms_val (H : BosVals h t l (spaceSizes no nv nb 0) x y z av) :
    (bosTerms.map fun c => c.val (spaceSizes no nv nb 0) gLabels 0 av []).sum =
      -h.eDMB no nv nb (fun m => elemOf x (chars! "dm_b.0") [m]) (fun m => elemOf x (chars! "dm_b.1") [m])
        (fun m n => elemOf y (chars! "rdm1_b") [m, n]) (dmEB z (chars! "rdm_eb.0")) (dmEB z (chars! "rdm_eb.1")) := by
  have e2 := List.map_congr_left (fun c hc => ebTerm0_val (nb := nb) H c hc)
  have e3 := List.map_congr_left (fun c hc => ebTerm1_val (nb := nb) H c hc)
  have g0 := gTerm_val (nb := nb) H (chars! "dm_b.0")
  have g1 := gTerm_val (nb := nb) H (chars! "dm_b.1")
  have k0 := gkkTerm_val (nb := nb) H (chars! "dm_b.0")
  have k1 := gkkTerm_val (nb := nb) H (chars! "dm_b.1")
  have ww := wTerm_val (nb := nb) H
  unfold bosTerms
  simp only [List.map_append, List.map_map, List.sum_append, Function.comp_def, e2, e3]
  simp only [bosTerms0, List.map_cons, List.map_nil, List.sum_cons, List.sum_nil, g0, g1, k0, k1, ww]
  unfold GHam.eDMB
  simp only [ov2, sumOrb, List.map_cons, List.map_nil, List.sum_cons, List.sum_nil, sub_eq_add_neg, add_mul, mul_add,
    neg_mul, sumTo_add, sumTo_neg, spaceSizes]
  ring

/-! ### Traces -/

/-- The identities of traces and symmetries. -/
def traceIdents (n1 n2 : List Char) : List Ident :=
  ⟨[0, 1], 0, [], [⟨1, 1, [('P' :: (n1 ++ chars! ".oo"), [0, 0])]⟩, ⟨1, 1, [('P' :: (n1 ++ chars! ".vv"), [1, 1])]⟩,
    ⟨-1, 1, [(chars! "Doo", [0, 0])]⟩]⟩ ::
  ov2.map (fun x => ⟨[x.1, x.2, 0, 1], 2, [], [
    ⟨1, 1, [('Q' :: (n2 ++ ['.', spaceLetter x.1, spaceLetter x.2, 'o', 'o']), [0, 1, 2, 2])]⟩,
    ⟨1, 1, [('Q' :: (n2 ++ ['.', spaceLetter x.1, spaceLetter x.2, 'v', 'v']), [0, 1, 3, 3])]⟩,
    ⟨-1, 1, [(chars! "Doo", [2, 2]), ('P' :: (n1 ++ ['.', spaceLetter x.1, spaceLetter x.2]), [0, 1])]⟩,
    ⟨1, 1, [('P' :: (n1 ++ ['.', spaceLetter x.1, spaceLetter x.2]), [0, 1])]⟩]⟩) ++
  ov4.flatMap fun x => [
    ⟨[x.1.1, x.1.2, x.2.1, x.2.2], 4, [], [
      ⟨1, 1, [('Q' :: (n2 ++ ['.', spaceLetter x.1.1, spaceLetter x.1.2, spaceLetter x.2.1, spaceLetter x.2.2]),
        [0, 1, 2, 3])]⟩,
      ⟨-1, 1, [('Q' :: (n2 ++ ['.', spaceLetter x.2.1, spaceLetter x.2.2, spaceLetter x.1.1, spaceLetter x.1.2]),
        [2, 3, 0, 1])]⟩]⟩,
    ⟨[x.1.1, x.1.2, x.2.1, x.2.2], 4, [], [
      ⟨1, 1, [('Q' :: (n2 ++ ['.', spaceLetter x.1.1, spaceLetter x.1.2, spaceLetter x.2.1, spaceLetter x.2.2]),
        [0, 1, 2, 3])]⟩,
      ⟨1, 1, [('Q' :: (n2 ++ ['.', spaceLetter x.1.1, spaceLetter x.2.2, spaceLetter x.2.1, spaceLetter x.1.2]),
        [0, 3, 2, 1])]⟩]⟩]

theorem isOrb_ov {p q : Orb} (hp : IsOrb no nv p) (hq : IsOrb no nv q) : (p.1, q.1) ∈ ov2 := by
  rcases hp with ⟨h1, _⟩ | ⟨h1, _⟩ <;> rcases hq with ⟨h2, _⟩ | ⟨h2, _⟩ <;> rw [h1, h2] <;> decide

theorem isOrb_lt {p : Orb} (hp : IsOrb no nv p) : p.2 < spaceSizes no nv nb 0 p.1 := by
  rcases hp with ⟨h1, h2⟩ | ⟨h1, h2⟩ <;> rw [h1] <;> exact h2

theorem eyeFun_call [DecidableEq R] (method : ContractMethod)
    (path : List (List Char) → List Char → List (NDArray R) → List Contraction) (sizes : Nat → Nat)
    (vals : List Char → Option (NDArray R)) :
    eyeFun.call method path sizes vals = .ok [(chars! "oo", eyeArr (sizes 0))] := rfl

theorem eyeArr_diag (n k : Nat) (hk : k < n) : (eyeArr n : NDArray R).get [k, k] = 1 := by
  unfold eyeArr
  rw [NDArray.get_ofFn _ _ (.cons hk (.cons hk .nil))]
  simp

theorem sumTo_one (n : Nat) : (sumTo n fun _ => (1 : R)) = n := by
  unfold sumTo
  induction n with
  | zero => simp
  | succ n ih => rw [List.range_succ, List.map_append, List.sum_append, ih]; simp

end
end Ebcc
