import Verif.Tensor.ExternalSum
import Verif.Gen.GCCSDTQ
import Verif.Gen.GCCSD
import Verif.Gen.GecCCExt
import Verif.Gen.Hints.Ext
/-!
# C87 — external corrections give the equations of coupled cluster with triples and quadruples

The corrections of the singles and doubles equations computed by `GecCC.update_amps_external` and
`GecCC.update_amps_mixed` from triples and quadruples of an active space are exactly what the equations of CCSDTQ have
in addition to those of CCSD, with the triples and quadruples zero outside of the active space.
-/

namespace Ebcc

/-- The equations with the functions `A` (CCSDTQ), `C` (CCSD), `E` and `M` (corrections): for all active spaces, integrals
and amplitudes the functions return arrays, and each residual of `A` is that of `C` plus the corrections. -/
def IsExternal87 (A C E M : GenFun) : Prop :=
  ∀ {R : Type} [Field R] [CharZero R] [DecidableEq R] (h : GHam R) (t : GAmps R) (t4 : List Nat → R) (m : ActiveMasks)
    (method : ContractMethod) (path : List (List Char) → List Char → List (NDArray R) → List Contraction),
    PathOk path → ∃ a c e x : Dict (List Char) (NDArray R),
      A.call method path m.sizes (h.inflatedArgs t t4 m) = .ok a ∧
      C.call method path m.sizes (h.activeArgs t t4 m) = .ok c ∧
      E.call method path m.sizes (h.activeArgs t t4 m) = .ok e ∧
      M.call method path m.sizes (h.activeArgs t t4 m) = .ok x ∧
      (∀ r ∈ [a, c], HasBlock m r (chars! "t1new") ['o', 'v'] ∧ HasBlock m r (chars! "t2new") ['o', 'o', 'v', 'v']) ∧
      (∀ key ∈ extKeys1, HasBlock m e (chars! "t1new" ++ '.' :: key) key) ∧
      (∀ r ∈ [e, x], ∀ key ∈ extKeys2, HasBlock m r (chars! "t2new" ++ '.' :: key) key) ∧
      (∀ i < m.occ.length, ∀ k < m.vir.length,
        (resArr a (chars! "t1new")).get [i, k] = (resArr c (chars! "t1new")).get [i, k] +
          extSum m e (chars! "t1new") extKeys1 [i, k]) ∧
      ∀ i < m.occ.length, ∀ j < m.occ.length, ∀ k < m.vir.length, ∀ l < m.vir.length,
        (resArr a (chars! "t2new")).get [i, j, k, l] = (resArr c (chars! "t2new")).get [i, j, k, l] +
          (extSum m e (chars! "t2new") extKeys2 [i, j, k, l] + extSum m x (chars! "t2new") extKeys2 [i, j, k, l])

section
variable {R : Type} [Field R]

theorem sum_neg87 {α : Type} (l : List α) (f : α → R) : (l.map fun x => -f x).sum = -(l.map f).sum := by
  induction l with
  | nil => simp
  | cons x l ih => simp only [List.map_cons, List.sum_cons, ih]; ring

theorem plain_val87 (sz : Nat → Nat) (sps : List Nat) (av : List Char → Option (NDArray R)) (num : Int) (name : List Char)
    (x : NDArray R) (hx : av name = some x) (idx : List Nat) (ls : List Nat) (hls : ls = List.range idx.length) :
    (⟨num, 1, [(name, ls)]⟩ : ITerm).val sz sps idx.length av idx = (num : R) * x.get idx := by
  subst hls
  simp only [ITerm.val, einValue, List.map_cons, List.map_nil, hx, Option.getD_some]
  have e : einDummies [List.range idx.length] (List.range idx.length) = [] := by
    simp [einDummies, List.filter_eq_nil_iff]
  rw [e, einSum_nil]
  have e2 : (List.range idx.length).map (fun l => idx.getD l 0) = idx := by
    apply List.ext_getElem
    · simp
    · intro n h1 h2
      simp [h2]
  simp only [einProd, List.map_cons, List.map_nil, List.prod_cons, List.prod_nil, mul_one, e2, Nat.cast_one, div_one]

end

theorem external_of_check87 {A C E M : GenFun} {hints : List Nat}
    (hc : checkClaim xSym hints (fun s => s) xVals (extCalls A C E M) gDm [extIdent1, extIdent2] = true) :
    IsExternal87 A C E M := by
  intro R _ _ _ h t t4 m method path hpath
  have := checkClaim_sound (ι := Unit) m.sizes (fun _ => xTensor h t t4 m) xSym (fun _ => xSym_symOk h t t4 m) method path
    hpath m.sizes _ (fun _ => rfl) xVals (fun _ => xArgs h t t4 m) (fun _ => xVals_rep h t t4 m) _ gDm _ hints hc
  simp only [extCalls, CallsOk] at this
  obtain ⟨a, ha, c, hc', e, he, x, hx, key⟩ := this
  obtain ⟨k1, k2⟩ := key () extIdent1 (by simp) rfl
  obtain ⟨k3, k4⟩ := key () extIdent2 (by simp) rfl
  have ha := ha ()
  have hc' := hc' ()
  have he := he ()
  have hx := hx ()
  clear key
  generalize a () = a at *
  generalize c () = c at *
  generalize e () = e at *
  generalize x () = x at *
  simp only [xArgs_ext, argBut_addResA (tags := extTags) 'A' rfl, argBut_addResA (tags := extTags) 'C' rfl,
    argBut_addResA (tags := extTags) 'E' rfl, xArgs_but] at ha hc' he hx
  have hgA : ∀ name, addResA 'M' x (addResA 'E' e (addResA 'C' c (addResA 'A' a (xArgs h t t4 m)))) ('A' :: name) =
    a.get? name := fun _ => rfl
  have hgC : ∀ name, addResA 'M' x (addResA 'E' e (addResA 'C' c (addResA 'A' a (xArgs h t t4 m)))) ('C' :: name) =
    c.get? name := fun _ => rfl
  have hgE : ∀ name, addResA 'M' x (addResA 'E' e (addResA 'C' c (addResA 'A' a (xArgs h t t4 m)))) ('E' :: name) =
    e.get? name := fun _ => rfl
  have hgM : ∀ name, addResA 'M' x (addResA 'E' e (addResA 'C' c (addResA 'A' a (xArgs h t t4 m)))) ('M' :: name) =
    x.get? name := fun _ => rfl
  have hgo : addResA 'M' x (addResA 'E' e (addResA 'C' c (addResA 'A' a (xArgs h t t4 m)))) (chars! "S.oO") =
    some (blockArr m.sizes (selT m) [0, 4]) := rfl
  have hgv : addResA 'M' x (addResA 'E' e (addResA 'C' c (addResA 'A' a (xArgs h t t4 m)))) (chars! "S.vV") =
    some (blockArr m.sizes (selT m) [1, 5]) := rfl
  generalize addResA 'M' x (addResA 'E' e (addResA 'C' c (addResA 'A' a (xArgs h t t4 m)))) = av at *
  have sO : m.sizes 0 = m.size 'o' := by simp [ActiveMasks.sizes, ActiveMasks.size, ActiveMasks.cls]
  have sV : m.sizes 1 = m.size 'v' := by simp [ActiveMasks.sizes, ActiveMasks.size, ActiveMasks.cls]
  have sP : m.sizes 4 = m.size 'O' := rfl
  have sQ : m.sizes 5 = m.size 'V' := rfl
  have bA1 : HasBlock m a (chars! "t1new") ['o', 'v'] := by
    obtain ⟨y, y1, y2, y3⟩ := k1 _ (List.mem_cons_self ..) _ (List.mem_cons_self ..)
    exact ⟨y, y1 ▸ (hgA _).symm, y2, y3.trans (by simp [sO, sV, extIdent1])⟩
  have bC1 : HasBlock m c (chars! "t1new") ['o', 'v'] := by
    obtain ⟨y, y1, y2, y3⟩ := k1 _ (List.mem_cons_of_mem _ (List.mem_cons_self ..)) _ (List.mem_cons_self ..)
    exact ⟨y, y1 ▸ (hgC _).symm, y2, y3.trans (by simp [sO, sV, extIdent1])⟩
  have bE1 : HasBlock m e (chars! "t1new.OV") ['O', 'V'] := by
    obtain ⟨y, y1, y2, y3⟩ := k1 _ (List.mem_cons_of_mem _ (List.mem_cons_of_mem _ (List.mem_cons_self ..))) _
      (List.mem_cons_self ..)
    exact ⟨y, y1 ▸ (hgE _).symm, y2, y3.trans (by simp [sP, sQ, extIdent1])⟩
  have bA2 : HasBlock m a (chars! "t2new") ['o', 'o', 'v', 'v'] := by
    obtain ⟨y, y1, y2, y3⟩ := k3 _ (List.mem_cons_self ..) _ (List.mem_cons_self ..)
    exact ⟨y, y1 ▸ (hgA _).symm, y2, y3.trans (by simp [sO, sV, extIdent2])⟩
  have bC2 : HasBlock m c (chars! "t2new") ['o', 'o', 'v', 'v'] := by
    obtain ⟨y, y1, y2, y3⟩ := k3 _ (List.mem_cons_of_mem _ (List.mem_cons_self ..)) _ (List.mem_cons_self ..)
    exact ⟨y, y1 ▸ (hgC _).symm, y2, y3.trans (by simp [sO, sV, extIdent2])⟩
  have hsh : ∀ key ∈ extKeys2, ((scatLabels key).map fun l => m.sizes (extIdent2.sps.getD l 16)) = key.map m.size := by
    intro key hk
    simp only [extKeys2, List.mem_cons, List.not_mem_nil, or_false] at hk
    rcases hk with rfl | rfl | rfl | rfl | rfl <;> simp [scatLabels, extIdent2, sO, sV, sP, sQ]
  have bE2 : ∀ key ∈ extKeys2, HasBlock m e (chars! "t2new" ++ '.' :: key) key := by
    intro key hk
    obtain ⟨y, y1, y2, y3⟩ := k3 (scatTerm 'E' key) (List.mem_cons_of_mem _ (List.mem_cons_of_mem _
      (List.mem_append_left _ (List.mem_map_of_mem hk)))) _ (List.mem_cons_self ..)
    exact ⟨y, y1 ▸ (hgE _).symm, y2, y3.trans (hsh key hk)⟩
  have bM2 : ∀ key ∈ extKeys2, HasBlock m x (chars! "t2new" ++ '.' :: key) key := by
    intro key hk
    obtain ⟨y, y1, y2, y3⟩ := k3 (scatTerm 'M' key) (List.mem_cons_of_mem _ (List.mem_cons_of_mem _
      (List.mem_append_right _ (List.mem_map_of_mem hk)))) _ (List.mem_cons_self ..)
    exact ⟨y, y1 ▸ (hgM _).symm, y2, y3.trans (hsh key hk)⟩
  refine ⟨a, c, e, x, ha, hc', he, hx, ?_, ?_, ?_, ?_, ?_⟩
  · intro r hr
    simp only [List.mem_cons, List.not_mem_nil, or_false] at hr
    rcases hr with rfl | rfl
    · exact ⟨bA1, bA2⟩
    · exact ⟨bC1, bC2⟩
  · intro key hk
    simp only [extKeys1, List.mem_singleton] at hk
    subst hk
    exact bE1
  · intro r hr
    simp only [List.mem_cons, List.not_mem_nil, or_false] at hr
    rcases hr with rfl | rfl
    · exact bE2
    · exact bM2
  · intro i hi k hk
    have := k2 [i, k] (.cons hi (.cons hk .nil))
    obtain ⟨ya, a1, -, -⟩ := bA1
    obtain ⟨yc, c1, -, -⟩ := bC1
    obtain ⟨ye, e1, -, -⟩ := bE1
    simp only [extIdent1, List.map_cons, List.map_nil, List.sum_cons, List.sum_nil, add_zero] at this
    rw [scatTerm1_val m av ye ((hgE _).trans e1) hgo hgv hi hk] at this
    erw [plain_val87 m.sizes [0, 1, 4, 5] av 1 (chars! "At1new") ya ((hgA _).trans a1) [i, k] [0, 1] rfl,
      plain_val87 m.sizes [0, 1, 4, 5] av (-1) (chars! "Ct1new") yc ((hgC _).trans c1) [i, k] [0, 1] rfl] at this
    simp only [Int.cast_one, Int.cast_neg, one_mul, neg_mul] at this
    have e2 : e.get? (chars! "t1new" ++ '.' :: ['O', 'V']) = some ye := e1
    simp only [resArr, a1, c1, extSum, extKeys1, List.map_cons, List.map_nil, List.sum_cons, List.sum_nil, add_zero, e2,
      Option.getD_some]
    simp only [List.map_cons, List.map_nil] at this
    linear_combination this
  · intro i hi j hj k hk l hl
    have := k4 [i, j, k, l] (.cons hi (.cons hj (.cons hk (.cons hl .nil))))
    obtain ⟨ya, a1, -, -⟩ := bA2
    obtain ⟨yc, c1, -, -⟩ := bC2
    have hE : (extKeys2.map (scatTerm 'E')).map (fun t => t.val m.sizes [0, 0, 1, 1, 4, 4, 5, 5] 4 av [i, j, k, l]) =
        extKeys2.map fun key => -blockElem (key.map m.cls) (resArr e (chars! "t2new" ++ '.' :: key)) [i, j, k, l] := by
      rw [List.map_map]
      refine List.map_congr_left fun key hkey => ?_
      obtain ⟨ye, e1, -, -⟩ := bE2 key hkey
      rw [resArr, e1]
      exact scatTerm_val m 'E' av hkey ye ((hgE _).trans e1) hgo hgv hi hj hk hl
    have hM : (extKeys2.map (scatTerm 'M')).map (fun t => t.val m.sizes [0, 0, 1, 1, 4, 4, 5, 5] 4 av [i, j, k, l]) =
        extKeys2.map fun key => -blockElem (key.map m.cls) (resArr x (chars! "t2new" ++ '.' :: key)) [i, j, k, l] := by
      rw [List.map_map]
      refine List.map_congr_left fun key hkey => ?_
      obtain ⟨ye, e1, -, -⟩ := bM2 key hkey
      rw [resArr, e1]
      exact scatTerm_val m 'M' av hkey ye ((hgM _).trans e1) hgo hgv hi hj hk hl
    simp only [extIdent2, List.map_cons, List.map_append, List.sum_cons, List.sum_append] at this
    rw [hE, hM] at this
    erw [plain_val87 m.sizes [0, 0, 1, 1, 4, 4, 5, 5] av 1 (chars! "At2new") ya ((hgA _).trans a1) [i, j, k, l]
        [0, 1, 2, 3] rfl,
      plain_val87 m.sizes [0, 0, 1, 1, 4, 4, 5, 5] av (-1) (chars! "Ct2new") yc ((hgC _).trans c1) [i, j, k, l]
        [0, 1, 2, 3] rfl] at this
    simp only [Int.cast_one, Int.cast_neg, one_mul, neg_mul, sum_neg87] at this
    have r1 : resArr a (chars! "t2new") = ya := by rw [resArr, a1]; rfl
    have r2 : resArr c (chars! "t2new") = yc := by rw [resArr, c1]; rfl
    rw [r1, r2]
    unfold extSum
    linear_combination this

open Gen in
/-- C87: the residuals of singles and doubles. -/
theorem C87_residuals : IsExternal87 GCCSDTQ.update_amps GCCSD.update_amps GecCCExt.update_amps_external
    GecCCExt.update_amps_mixed :=
  external_of_check87 (hints := Hints.external) (by decide +kernel)

end Ebcc
