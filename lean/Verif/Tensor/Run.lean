import Verif.Tensor.Contract
import Verif.Lemmas.Amps
/-!
`GenFun.sym` describes the arrays that a generated function returns.
-/

namespace Ebcc

section
variable {R : Type} [Field R]

/-! ### Variables -/

theorem getVar_cons (x y : Nat) (v : TVar) (l : TEnv) :
    getVar x ((y, v) :: l) = if y = x then some v else getVar x l := by
  have e : getVar x ((y, v) :: l) = bif Nat.beq y x then some v else getVar x l := sel_eq _ _ _
  rw [e]
  cases h : Nat.beq y x with
  | true => rw [if_pos (Nat.eq_of_beq_eq_true h)]; rfl
  | false => rw [if_neg (Nat.ne_of_beq_eq_false h)]; rfl

theorem setVar_spec {α : Type} (x : Nat) (v : TVar) (env : TEnv) (k : TEnv → α) :
    ∃ env', setVar x v env k = k env' ∧ ∀ y, getVar y env' = if y = x then some v else getVar y env := by
  induction env generalizing k with
  | nil =>
    refine ⟨[(x, v)], rfl, fun y => ?_⟩
    rw [getVar_cons]
    by_cases h : y = x
    · rw [if_pos h, if_pos h.symm]
    · rw [if_neg h, if_neg (Ne.symm h)]
  | cons p env ih =>
    obtain ⟨z, w⟩ := p
    have e : setVar x v ((z, w) :: env) k = bif Nat.beq z x then k ((x, v) :: env)
        else setVar x v env fun l => k ((z, w) :: l) := sel_eq _ _ _
    rw [e]
    cases h : Nat.beq z x with
    | true =>
      have hz := Nat.eq_of_beq_eq_true h
      subst hz
      refine ⟨(z, v) :: env, rfl, fun y => ?_⟩
      rw [getVar_cons, getVar_cons]
      by_cases h : y = z
      · rw [if_pos h, if_pos h.symm]
      · rw [if_neg h, if_neg (Ne.symm h), if_neg (Ne.symm h)]
    | false =>
      have hz := Nat.ne_of_beq_eq_false h
      obtain ⟨env', h1, h2⟩ := ih fun l => k ((z, w) :: l)
      refine ⟨(z, w) :: env', h1, fun y => ?_⟩
      rw [getVar_cons, getVar_cons, h2]
      by_cases hy : y = x
      · subst hy; rw [if_pos rfl, if_pos rfl, if_neg hz]
      · rw [if_neg hy, if_neg hy]

theorem delVar_spec {α : Type} (x : Nat) (env : TEnv) (k : TEnv → α) :
    ∃ env', delVar x env k = k env' ∧ ∀ y, getVar y env' = if y = x then none else getVar y env := by
  induction env generalizing k with
  | nil =>
    refine ⟨[], rfl, fun y => ?_⟩
    have : getVar y [] = none := rfl
    rw [this]
    split <;> rfl
  | cons p env ih =>
    obtain ⟨z, w⟩ := p
    have e : delVar x ((z, w) :: env) k = bif Nat.beq z x then delVar x env k
        else delVar x env fun l => k ((z, w) :: l) := sel_eq _ _ _
    rw [e]
    cases h : Nat.beq z x with
    | true =>
      have hz := Nat.eq_of_beq_eq_true h
      subst hz
      obtain ⟨env', h1, h2⟩ := ih k
      refine ⟨env', h1, fun y => ?_⟩
      rw [getVar_cons, h2]
      by_cases hy : y = z
      · rw [if_pos hy, if_pos hy]
      · rw [if_neg hy, if_neg hy, if_neg (Ne.symm hy)]
    | false =>
      have hz := Nat.ne_of_beq_eq_false h
      obtain ⟨env', h1, h2⟩ := ih fun l => k ((z, w) :: l)
      refine ⟨(z, w) :: env', h1, fun y => ?_⟩
      rw [getVar_cons, getVar_cons, h2]
      by_cases hy : y = x
      · subst hy; rw [if_pos rfl, if_pos rfl, if_neg hz]
      · rw [if_neg hy, if_neg hy]

/-- The variables have the values of the polynomials. -/
def EnvRep (sz : Nat → Nat) (T : Nat → List (Nat × Nat) → R) (env : TEnv) (st : GenStore R) : Prop :=
  ∀ x v, getVar x env = some v → ∃ a, st x = some a ∧ Rep sz T v a

theorem EnvRep.set {sz : Nat → Nat} {T : Nat → List (Nat × Nat) → R} {env env' : TEnv} {st : GenStore R}
    (h : EnvRep sz T env st) {x : Nat} {v : TVar} {a : NDArray R} (hr : Rep sz T v a)
    (he : ∀ y, getVar y env' = if y = x then some v else getVar y env) :
    EnvRep sz T env' (Function.update st x (some a)) := by
  intro y w hy
  rw [he y] at hy
  by_cases hyx : y = x
  · subst hyx
    rw [if_pos rfl] at hy
    cases hy
    exact ⟨a, by simp, hr⟩
  · rw [if_neg hyx] at hy
    obtain ⟨b, hb, hr⟩ := h y w hy
    exact ⟨b, by rw [Function.update_of_ne hyx]; exact hb, hr⟩

/-! ### Expressions -/

/-- `einsum` of arrays described by polynomials. -/
theorem symEinV_sound [CharZero R] [DecidableEq R] {σ : Type} (sz : Nat → Nat) (T : Nat → List (Nat × Nat) → R)
    (cn : TCanon σ) (hcn : CanonOk sz T cn) (method : ContractMethod)
    (path : List (List Char) → List Char → List (NDArray R) → List Contraction) (hpath : PathOk path)
    (vs : List (List Nat × TVar)) (L : List (NDArray R × List Nat)) (hne : L ≠ [])
    (hL : List.Forall₂ (fun o x => x.2 = o.1 ∧ Rep sz T o.2 x.1) vs L) (out : List Nat) (st : σ) (v : TVar)
    (st' : σ) (h : symEinV cn vs out st = some (v, st')) :
    ∃ a, einsum method path (einArgs L out) 1 0 none = .ok a ∧ Rep sz T v a := by
  obtain ⟨szl, h1, h2, h3, h4, h5, h6, h7, h8, h9⟩ := symEinV_val sz T cn hcn vs L hL out st v st' h
  obtain ⟨a, a1, a2, a3, a4⟩ := einsum_labels_ok method path hpath szl L out hne h1 h2 h3 h4
  refine ⟨a, a1, ⟨by rw [a2, h5], a3, h6, h7, h8, fun idx hidx => ?_⟩⟩
  rw [a2] at hidx
  obtain ⟨e, rfl, he⟩ := map_of_inBox h2 hidx
  rw [a4 e he, h9 e he]

/-- `numpy.transpose` of an array described by a polynomial. -/
theorem symTrV_sound [CharZero R] {σ : Type} (sz : Nat → Nat) (T : Nat → List (Nat × Nat) → R)
    (cn : TCanon σ) (hcn : CanonOk sz T cn) (w : TVar) (b : NDArray R) (hb : Rep sz T w b) (perm : List Nat)
    (st : σ) (v : TVar) (st' : σ) (h : symTrV cn w perm st = some (v, st')) :
    ∃ a, b.transpose perm = .ok a ∧ Rep sz T v a := by
  unfold symTrV at h
  rw [forceNats_eq, sel_eq] at h
  cases hp : permNats perm (countUp 0 w.1) with
  | false => rw [hp] at h; cases h
  | true =>
    rw [hp, cond_true] at h
    have hperm := permNats_perm hp
    rw [countUp_eq, ← List.range_eq_range'] at hperm h
    obtain ⟨szl, h1, h2, h3, h4, h5, h6, h7, h8, h9⟩ := symEinV_val sz T cn hcn
      [(List.range w.1.length, w)] [(b, List.range w.1.length)] (.cons ⟨rfl, hb⟩ .nil) perm st v st' h
    have hshape := h4 (b, List.range w.1.length) (by simp)
    simp only at hshape
    obtain ⟨a, a1, a2, a3, a4⟩ := transpose_labels b (List.range w.1.length) perm szl hshape
      List.nodup_range hperm
    have hid : perm.map (List.range w.1.length).idxOf = perm := by
      conv_rhs => rw [← List.map_id perm]
      apply List.map_congr_left
      intro k hk
      have hk2 := List.mem_range.1 (hperm.mem_iff.1 hk)
      have := List.nodup_range.idxOf_getElem k (xs := List.range w.1.length) (by simpa using hk2)
      simpa using this
    rw [hid] at a1
    refine ⟨a, a1, ⟨by rw [a2, h5], a3, h6, h7, h8, fun idx hidx => ?_⟩⟩
    rw [a2] at hidx
    obtain ⟨e, rfl, he⟩ := map_of_inBox h2 hidx
    rw [a4 e (fun c hc => he c (hperm.mem_iff.2 hc)), h9 e he]
    unfold einValue
    have hd : einDummies (([(b, List.range w.1.length)].map Prod.swap).map Prod.fst) perm = [] := by
      rw [List.eq_nil_iff_forall_not_mem]
      intro c hc
      obtain ⟨⟨s, hs, hcs⟩, hno⟩ := mem_einDummies.1 hc
      simp only [List.map_cons, List.map_nil, Prod.fst_swap, List.mem_singleton] at hs
      subst hs
      exact hno (hperm.mem_iff.2 hcs)
    rw [hd]
    simp [einSum, einProd]

theorem getVars_sound {α : Type} {sz : Nat → Nat} {T : Nat → List (Nat × Nat) → R} {env : TEnv}
    {st : GenStore R} (henv : EnvRep sz T env st) (ops : List (Nat × List Nat))
    (k : List (List Nat × TVar) → Option α) (x : α) (h : getVars env ops k = some x) :
    ∃ vs L, k vs = some x ∧ st.loadAll ops = .ok L ∧ L.length = ops.length ∧
      List.Forall₂ (fun o x => x.2 = o.1 ∧ Rep sz T o.2 x.1) vs L := by
  induction ops generalizing k with
  | nil => exact ⟨[], [], h, rfl, rfl, .nil⟩
  | cons p ops ih =>
    obtain ⟨y, ls⟩ := p
    have e : getVars env ((y, ls) :: ops) k = (match getVar y env with
        | none => none
        | some v => forceNats ls fun ls => getVars env ops fun r => k ((ls, v) :: r)) := by
      show @Option.rec TVar (fun _ => Option α) _ _ (getVar y env) = _
      cases getVar y env <;> rfl
    rw [e] at h
    cases hg : getVar y env with
    | none => rw [hg] at h; cases h
    | some v =>
      rw [hg] at h
      simp only [forceNats_eq] at h
      obtain ⟨vs, L, h1, h2, h3, h4⟩ := ih _ h
      obtain ⟨a, a1, a2⟩ := henv y v hg
      refine ⟨(ls, v) :: vs, (a, ls) :: L, h1, ?_, by simp [h3], .cons ⟨rfl, a2⟩ h4⟩
      simp only [GenStore.loadAll, GenStore.load, a1, h2, bind, Except.bind, pure, Except.pure]

theorem symExpr_sound [CharZero R] [DecidableEq R] {σ : Type} (sz : Nat → Nat) (T : Nat → List (Nat × Nat) → R)
    (cn : TCanon σ) (hcn : CanonOk sz T cn) (method : ContractMethod)
    (path : List (List Char) → List Char → List (NDArray R) → List Contraction) (hpath : PathOk path)
    {env : TEnv} {store : GenStore R} (henv : EnvRep sz T env store) (st : σ) (e : GenExpr) (v : TVar) (st' : σ)
    (h : symExpr cn env st e = some (v, st')) :
    ∃ a, e.eval method path store = .ok a ∧ Rep sz T v a := by
  cases e with
  | cp y =>
    simp only [symExpr] at h
    cases hg : getVar y env with
    | none => rw [hg] at h; cases h
    | some w =>
      rw [hg] at h
      cases h
      obtain ⟨a, a1, a2⟩ := henv y _ hg
      exact ⟨a, by simp [GenExpr.eval, GenStore.load, a1], a2⟩
  | tr y perm =>
    simp only [symExpr] at h
    cases hg : getVar y env with
    | none => rw [hg] at h; cases h
    | some w =>
      rw [hg] at h
      obtain ⟨b, b1, b2⟩ := henv y _ hg
      obtain ⟨a, a1, a2⟩ := symTrV_sound sz T cn hcn w b b2 perm st v st' h
      exact ⟨a, by simp only [GenExpr.eval, GenStore.load, b1, bind, Except.bind]; exact a1, a2⟩
  | ein ops out =>
    simp only [symExpr] at h
    cases ops with
    | nil => cases h
    | cons p ops =>
      have e1 : symEin cn env (p :: ops) out st = getVars env (p :: ops) fun vs => symEinV cn vs out st := rfl
      rw [e1] at h
      obtain ⟨vs, L, h1, h2, h3, h4⟩ := getVars_sound henv _ _ _ h
      obtain ⟨a, a1, a2⟩ := symEinV_sound sz T cn hcn method path hpath vs L
        (by intro h; rw [h] at h3; simp at h3) h4 out st v st' h1
      exact ⟨a, by simp only [GenExpr.eval, h2, bind, Except.bind]; exact a1, a2⟩

/-! ### Statements -/

theorem convCoef_sound [CharZero R] {num : Int} {den : Nat} {c : Int × Nat} (h : convCoef num den = some c) :
    (tcoef c.1 c.2 : R) = (num : R) / (den : R) := by
  unfold convCoef at h
  cases h1 : Nat.beq den 1 with
  | true =>
    rw [h1] at h
    cases h
    simp [tcoef, Nat.eq_of_beq_eq_true h1]
  | false =>
  cases h0 : Nat.beq den 0 with
  | true => rw [h1, h0] at h; cases h
  | false =>
  have hden : (den : R) ≠ 0 := by
    have := Nat.ne_of_beq_eq_false h0
    exact_mod_cast this
  cases h2 : Nat.beq (24 % den) 0 with
  | true =>
    rw [h1, h0, h2] at h
    cases h
    have hm : 24 / den * den = 24 := Nat.div_mul_cancel (Nat.dvd_of_mod_eq_zero (Nat.eq_of_beq_eq_true h2))
    have hm' : ((24 / den : Nat) : R) * (den : R) = 24 := by exact_mod_cast congrArg (Nat.cast (R := R)) hm
    simp only [tcoef, pow_one]
    rw [Int.cast_mul, Int.cast_natCast, div_eq_div_iff (by norm_num) hden]
    rw [← hm']
    ring
  | false =>
  cases h3 : Nat.beq (576 % den) 0 with
  | true =>
    rw [h1, h0, h2, h3] at h
    cases h
    have hm : 576 / den * den = 576 := Nat.div_mul_cancel (Nat.dvd_of_mod_eq_zero (Nat.eq_of_beq_eq_true h3))
    have hm' : ((576 / den : Nat) : R) * (den : R) = 576 := by exact_mod_cast congrArg (Nat.cast (R := R)) hm
    simp only [tcoef]
    rw [Int.cast_mul, Int.cast_natCast, div_eq_div_iff (by norm_num) hden, show (24 : R) ^ 2 = 576 by norm_num]
    rw [← hm']
    ring
  | false => rw [h1, h0, h2, h3] at h; cases h

theorem Rep.times {sz : Nat → Nat} {T : Nat → List (Nat × Nat) → R} {v : TVar} {a : NDArray R}
    (h : Rep sz T v a) {num : Int} {den : Nat} {n : Int} {k : Nat} (hc : (tcoef n k : R) = (num : R) / (den : R)) :
    Rep sz T (v.1, scalePoly n k v.2) (a.times num den) := by
  refine ⟨h.shape, map_wf a _ h.wf, h.low, h.len, scalePoly_wf h.poly, fun idx hidx => ?_⟩
  rw [NDArray.times, get_map a _ (by simp), h.val idx hidx, scalePoly_sound, hc]

theorem Rep.add [CharZero R] {sz : Nat → Nat} {T : Nat → List (Nat × Nat) → R} {sp : List Nat} {p q : TPoly}
    {a b : NDArray R} (ha : Rep sz T (sp, p) a) (hb : Rep sz T (sp, q) b) :
    ∃ c, a.add b = .ok c ∧ Rep sz T (sp, insAll p q) c := by
  have hs : a.shape = b.shape := by rw [ha.shape, hb.shape]
  obtain ⟨c, c1, c2, c3, c4⟩ := add_ok a b ha.wf hb.wf hs
  refine ⟨c, c1, ⟨by rw [c2, ha.shape], c3, ha.low, ha.len, insAll_wf ha.poly hb.poly, fun idx hidx => ?_⟩⟩
  rw [c2] at hidx
  rw [c4, ha.val idx hidx, hb.val idx (hs ▸ hidx), insAll_sound]

theorem symStmt_sound [CharZero R] [DecidableEq R] {σ α : Type} (sz : Nat → Nat) (T : Nat → List (Nat × Nat) → R)
    (cn : TCanon σ) (hcn : CanonOk sz T cn) (method : ContractMethod)
    (path : List (List Char) → List Char → List (NDArray R) → List Contraction) (hpath : PathOk path)
    (sizes rho : Nat → Nat) (hsizes : ∀ s, sizes s = sz (rho s))
    {env : TEnv} {store : GenStore R} (henv : EnvRep sz T env store) (st : σ) (s : GenStmt)
    (k : TEnv → σ → Option α) (x : α) (h : symStmt cn rho env st s k = some x) :
    ∃ env' st' store', k env' st' = some x ∧ s.exec method path sizes store = .ok store' ∧
      EnvRep sz T env' store' := by
  cases s with
  | del y =>
    simp only [symStmt] at h
    cases hg : getVar y env with
    | none => rw [hg] at h; cases h
    | some v =>
      rw [hg] at h
      simp only at h
      obtain ⟨env', e1, e2⟩ := delVar_spec y env fun env => k env st
      rw [e1] at h
      obtain ⟨a, a1, _⟩ := henv y v hg
      refine ⟨env', st, Function.update store y none, h, by simp [GenStmt.exec, a1], ?_⟩
      intro z w hz
      rw [e2 z] at hz
      by_cases hzy : z = y
      · rw [if_pos hzy] at hz; cases hz
      · rw [if_neg hzy] at hz
        obtain ⟨b, hb, hr⟩ := henv z w hz
        exact ⟨b, by rw [Function.update_of_ne hzy]; exact hb, hr⟩
  | zeros y sp =>
    simp only [symStmt] at h
    cases h1 : sp.all (fun s => Nat.blt (rho s) 16) with
    | false => rw [h1] at h; cases h
    | true =>
    cases h2 : Nat.ble sp.length 32 with
    | false => rw [h1, h2] at h; cases h
    | true =>
      rw [h1, h2] at h
      simp only [cond_true] at h
      obtain ⟨env', e1, e2⟩ := setVar_spec y (sp.map rho, []) env fun env => k env st
      rw [e1] at h
      refine ⟨env', st, _, h, rfl, henv.set ?_ e2⟩
      refine ⟨?_, NDArray.ofFn_wf _ _, ?_, ?_, by simp [WFpoly], fun idx hidx => ?_⟩
      · simp only [NDArray.zeros, NDArray.ofFn_shape, List.map_map]
        apply List.map_congr_left
        intro s _
        exact hsizes s
      · intro s hs
        obtain ⟨s0, hs0, rfl⟩ := List.mem_map.1 hs
        have := List.all_eq_true.1 h1 s0 hs0
        exact Nat.le_of_ble_eq_true this
      · simpa using Nat.le_of_ble_eq_true h2
      · rw [polyVal_nil]
        exact NDArray.get_ofFn _ _ hidx
  | eye y s =>
    simp only [symStmt] at h
    cases h1 : Nat.blt (rho s) 16 with
    | false => rw [h1] at h; cases h
    | true =>
      have hs : rho s < 16 := Nat.le_of_ble_eq_true h1
      rw [h1, cond_true, forceNat_eq] at h
      obtain ⟨env', e1, e2⟩ := setVar_spec y ([rho s, rho s],
        [⟨keyOf (deltaFac (rho s)) 0, 1, 0, [], deltaFac (rho s)⟩]) env fun env => k env st
      rw [e1] at h
      refine ⟨env', st, _, h, rfl, henv.set ?_ e2⟩
      refine ⟨?_, NDArray.ofFn_wf _ _, by simp [hs], by simp, ?_, fun idx hidx => ?_⟩
      · simp [eyeArr, hsizes s]
      · intro m hm
        simp only [List.mem_singleton] at hm
        subst hm
        refine ⟨?_, by simp, by simp, ?_⟩
        · intro i hi
          simp [frees_cons, frees_nil] at hi
          omega
        · intro f hf i hi
          simp only [deltaFac, List.mem_singleton] at hf
          subst hf
          left
          simpa [frees_cons, frees_nil] using hi
      · unfold eyeArr at hidx ⊢
        rw [NDArray.ofFn_shape] at hidx
        rw [NDArray.get_ofFn _ _ hidx]
        match idx, InBox.length_eq hidx with
        | [i, j], _ =>
          have e0 : rho s / 16 = 0 := by omega
          have e1 : (16 + rho s) / 16 = 1 := by omega
          simp [polyVal, monoVal, rawVal, facsVal, facVal, deltaFac, einSum, tcoef, hcn.delta, deltaT, frEnv, e0, e1,
            Nat.mod_eq_of_lt hs]
  | set y e num den =>
    simp only [symStmt] at h
    cases hE : symExpr cn env st e with
    | none => rw [hE] at h; cases h
    | some q =>
    obtain ⟨v, st1⟩ := q
    cases hC : convCoef num den with
    | none => rw [hE, hC] at h; cases h
    | some c =>
      rw [hE, hC] at h
      simp only [forceSpine_eq] at h
      obtain ⟨a, a1, a2⟩ := symExpr_sound sz T cn hcn method path hpath henv st e v st1 hE
      obtain ⟨env', e1, e2⟩ := setVar_spec y (v.1, scalePoly c.1 c.2 v.2) env fun env => k env st1
      rw [e1] at h
      refine ⟨env', st1, _, h, ?_, henv.set (a2.times (convCoef_sound hC)) e2⟩
      simp only [GenStmt.exec, a1, bind, Except.bind, pure, Except.pure]
  | add y e num den =>
    simp only [symStmt] at h
    cases hE : symExpr cn env st e with
    | none => rw [hE] at h; cases h
    | some q =>
    obtain ⟨v, st1⟩ := q
    cases hC : convCoef num den with
    | none => rw [hE, hC] at h; cases h
    | some c =>
    cases hg : getVar y env with
    | none => rw [hE, hC, hg] at h; cases h
    | some w =>
      rw [hE, hC, hg] at h
      simp only at h
      cases hs : eqNats v.1 w.1 with
      | false => rw [hs] at h; cases h
      | true =>
        rw [hs] at h
        simp only [cond_true, forceSpine_eq] at h
        have hsp := eqNats_eq hs
        obtain ⟨a, a1, a2⟩ := symExpr_sound sz T cn hcn method path hpath henv st e v st1 hE
        obtain ⟨b, b1, b2⟩ := henv y w hg
        have a3 := a2.times (convCoef_sound (R := R) hC)
        rw [hsp] at a3
        obtain ⟨r, r1, r2⟩ := Rep.add (sp := w.1) (p := w.2) b2 a3
        obtain ⟨env', e1, e2⟩ := setVar_spec y (w.1, insAll w.2 (scalePoly c.1 c.2 v.2)) env fun env => k env st1
        rw [e1] at h
        refine ⟨env', st1, _, h, ?_, henv.set r2 e2⟩
        simp only [GenStmt.exec, GenStore.load, a1, b1, r1, bind, Except.bind, pure, Except.pure]

theorem symRun_sound [CharZero R] [DecidableEq R] {σ : Type} (sz : Nat → Nat) (T : Nat → List (Nat × Nat) → R)
    (cn : TCanon σ) (hcn : CanonOk sz T cn) (method : ContractMethod)
    (path : List (List Char) → List Char → List (NDArray R) → List Contraction) (hpath : PathOk path)
    (sizes rho : Nat → Nat) (hsizes : ∀ s, sizes s = sz (rho s)) (l : List GenStmt)
    {env : TEnv} {store : GenStore R} (henv : EnvRep sz T env store) (st : σ) (env' : TEnv) (st' : σ)
    (h : symRun cn rho l env st = some (env', st')) :
    ∃ store', execAll method path sizes l store = .ok store' ∧ EnvRep sz T env' store' := by
  induction l generalizing env store st with
  | nil =>
    have e : symRun cn rho [] env st = some (env, st) := rfl
    rw [e] at h
    cases h
    exact ⟨store, rfl, henv⟩
  | cons s l ih =>
    have e : symRun cn rho (s :: l) env st = symStmt cn rho env st s (symRun cn rho l) := rfl
    rw [e] at h
    obtain ⟨env1, st1, store1, h1, h2, h3⟩ := symStmt_sound sz T cn hcn method path hpath sizes rho hsizes henv
      st s _ _ h
    obtain ⟨store2, h4, h5⟩ := ih h3 st1 h1
    refine ⟨store2, ?_, h5⟩
    simp only [execAll, h2, bind, Except.bind]
    exact h4

/-! ### Functions -/

/-- An array given by monomials. -/
structure ArgRep (sz : Nat → Nat) (T : Nat → List (Nat × Nat) → R) (v : TArg) (a : NDArray R) : Prop where
  shape : a.shape = v.1.map sz
  wf : a.WF
  val : ∀ idx, InBox a.shape idx → a.get idx = (v.2.map fun r => rawVal sz T r (frEnv idx)).sum

theorem symArg_sound [CharZero R] {σ : Type} (sz : Nat → Nat) (T : Nat → List (Nat × Nat) → R)
    (cn : TCanon σ) (hcn : CanonOk sz T cn) (w : TArg) (a : NDArray R) (ha : ArgRep sz T w a) (st : σ) (v : TVar)
    (st' : σ) (h : symArg cn w st = some (v, st')) : Rep sz T v a := by
  unfold symArg at h
  cases h1 : w.1.all (fun s => Nat.blt s 16) with
  | false => rw [h1] at h; cases h
  | true =>
  cases h2 : Nat.ble w.1.length 32 with
  | false => rw [h1, h2] at h; cases h
  | true =>
  cases h3 : w.2.all (fun r => scopedB (frees 0 w.1) r.2.2.1 r.2.2.2 && nodupB r.2.2.1
      && r.2.2.1.all (Nat.ble 512)) with
  | false => rw [h1, h2, h3] at h; cases h
  | true =>
  rw [h1, h2, h3] at h
  simp only [cond_true] at h
  cases hc : canonAll cn w.2 [] st with
  | none => rw [hc] at h; cases h
  | some q =>
    obtain ⟨p, st2⟩ := q
    rw [hc] at h
    simp only [forceNats_eq, forceSpine_eq, Option.some.injEq, Prod.mk.injEq] at h
    obtain ⟨rfl, rfl⟩ := h
    have hlow : ∀ s ∈ w.1, s < 16 := fun s hs => Nat.le_of_ble_eq_true (List.all_eq_true.1 h1 s hs)
    have hlen : w.1.length ≤ 32 := Nat.le_of_ble_eq_true h2
    have hwf : ∀ r ∈ w.2, WFraw (frees 0 w.1) r := by
      intro r hr
      have := List.all_eq_true.1 h3 r hr
      simp only [Bool.and_eq_true] at this
      obtain ⟨⟨s1, s2⟩, s3⟩ := this
      refine ⟨?_, nodupB_nodup s2, fun d hd => Nat.le_of_ble_eq_true (List.all_eq_true.1 s3 d hd), ?_⟩
      · intro i hi
        obtain ⟨j, hj, rfl⟩ := mem_frees hi
        have := hlow _ (List.getElem_mem hj)
        omega
      · intro f hf i hi
        have := allL_iff.1 (allL_iff.1 s1 f hf) i hi
        rw [sel_eq] at this
        cases hm : memB i r.2.2.1 with
        | true => exact .inr (memB_iff.1 hm)
        | false => rw [hm] at this; exact .inl (memB_iff.1 this)
    obtain ⟨wp, vp⟩ := canonAll_sound sz T cn hcn (frees 0 w.1) w.2 hwf [] (by simp [WFpoly]) st p _ hc
    refine ⟨ha.shape, ha.wf, hlow, hlen, wp, fun idx hidx => ?_⟩
    rw [ha.val idx hidx, vp _ (inRange_frEnv hlow (ha.shape ▸ hidx)), polyVal_nil, zero_add]

/-- The values of arguments describe arrays. -/
def ValsRep {σ : Type} (sz : Nat → Nat) (T : Nat → List (Nat × Nat) → R)
    (vals : List Char → σ → Option (TVar × σ)) (avals : List Char → Option (NDArray R)) : Prop :=
  ∀ name st v st', vals name st = some (v, st') → ∃ a, avals name = some a ∧ Rep sz T v a

theorem baseVals_rep [CharZero R] {σ : Type} (sz : Nat → Nat) (T : Nat → List (Nat × Nat) → R)
    (cn : TCanon σ) (hcn : CanonOk sz T cn) (vals : List Char → Option TArg)
    (avals : List Char → Option (NDArray R))
    (hvals : ∀ name v, vals name = some v → ∃ a, avals name = some a ∧ ArgRep sz T v a) :
    ValsRep sz T (baseVals cn vals) avals := by
  intro name st v st' h
  simp only [baseVals] at h
  cases hv : vals name with
  | none => rw [hv] at h; cases h
  | some w =>
    rw [hv] at h
    obtain ⟨a, a1, a2⟩ := hvals name w hv
    exact ⟨a, a1, symArg_sound sz T cn hcn w a a2 st v st' h⟩

theorem symBind_sound {σ : Type} (sz : Nat → Nat) (T : Nat → List (Nat × Nat) → R)
    (vals : List Char → σ → Option (TVar × σ)) (avals : List Char → Option (NDArray R))
    (hvals : ValsRep sz T vals avals)
    (names : List (List Char)) (k : Nat) {env : TEnv} {store : GenStore R} (henv : EnvRep sz T env store)
    (st : σ) (env' : TEnv) (st' : σ) (h : symBind vals names k env st = some (env', st')) :
    ∃ store', bindPositional avals names k store = .ok store' ∧ EnvRep sz T env' store' := by
  induction names generalizing k env store st with
  | nil => cases h; exact ⟨store, rfl, henv⟩
  | cons name l ih =>
    simp only [symBind] at h
    cases ha : vals name st with
    | none => rw [ha] at h; cases h
    | some q =>
      obtain ⟨w, st1⟩ := q
      rw [ha] at h
      simp only at h
      obtain ⟨a, a1, hrep⟩ := hvals name st w st1 ha
      have henv' : EnvRep sz T ((k, w) :: env) (Function.update store k (some a)) := by
        apply henv.set hrep
        intro y
        rw [getVar_cons]
        by_cases hy : y = k
        · rw [if_pos hy, if_pos hy.symm]
        · rw [if_neg hy, if_neg (Ne.symm hy)]
      obtain ⟨store', s1, s2⟩ := ih (k + 1) henv' st1 h
      exact ⟨store', by simp only [bindPositional, a1]; exact s1, s2⟩

theorem symCollect_sound {sz : Nat → Nat} {T : Nat → List (Nat × Nat) → R} {env : TEnv} {store : GenStore R}
    (henv : EnvRep sz T env store) (ret : List (List Char × Nat)) (d : Dict (List Char) TVar)
    (h : symCollect env ret = some d) :
    ∃ r, collect store ret = .ok r ∧ List.Forall₂ (fun x y => y.1 = x.1 ∧ Rep sz T x.2 y.2) d r := by
  induction ret generalizing d with
  | nil => cases h; exact ⟨[], rfl, .nil⟩
  | cons p ret ih =>
    obtain ⟨name, x⟩ := p
    simp only [symCollect] at h
    cases hg : getVar x env with
    | none => rw [hg] at h; cases h
    | some v =>
    cases hc : symCollect env ret with
    | none => rw [hg, hc] at h; cases h
    | some d1 =>
      rw [hg, hc] at h
      cases h
      obtain ⟨r, r1, r2⟩ := ih d1 hc
      obtain ⟨a, a1, a2⟩ := henv x v hg
      refine ⟨(name, a) :: r, ?_, .cons ⟨rfl, a2⟩ r2⟩
      simp only [collect, GenStore.load, a1, r1, bind, Except.bind, pure, Except.pure]

/-- The polynomials describe the result of the call. -/
theorem GenFun.sym_sound [CharZero R] [DecidableEq R] {σ : Type} (sz : Nat → Nat)
    (T : Nat → List (Nat × Nat) → R) (cn : TCanon σ) (hcn : CanonOk sz T cn) (method : ContractMethod)
    (path : List (List Char) → List Char → List (NDArray R) → List Contraction) (hpath : PathOk path)
    (sizes rho : Nat → Nat) (hsizes : ∀ s, sizes s = sz (rho s)) (vals : List Char → σ → Option (TVar × σ))
    (avals : List Char → Option (NDArray R)) (hvals : ValsRep sz T vals avals)
    (g : GenFun) (st : σ) (d : Dict (List Char) TVar) (st' : σ) (h : g.sym cn rho vals st = some (d, st')) :
    ∃ r, g.call method path sizes avals = .ok r ∧
      List.Forall₂ (fun x y => y.1 = x.1 ∧ Rep sz T x.2 y.2) d r := by
  unfold GenFun.sym at h
  cases h1 : symBind vals g.args 0 [] st with
  | none => rw [h1] at h; cases h
  | some q =>
    obtain ⟨env1, st1⟩ := q
    rw [h1] at h
    simp only at h
    cases h2 : symRun cn rho g.body env1 st1 with
    | none => rw [h2] at h; cases h
    | some q =>
      obtain ⟨env2, st2⟩ := q
      rw [h2] at h
      simp only at h
      cases h3 : symCollect env2 g.ret with
      | none => rw [h3] at h; cases h
      | some d1 =>
        rw [h3] at h
        cases h
        obtain ⟨s1, b1, b2⟩ := symBind_sound sz T vals avals hvals g.args 0
          (store := fun _ => none) (fun x v hx => by cases hx) st env1 st1 h1
        obtain ⟨s2, c1, c2⟩ := symRun_sound sz T cn hcn method path hpath sizes rho hsizes g.body b2 st1 env2 _ h2
        obtain ⟨r, r1, r2⟩ := symCollect_sound c2 g.ret _ h3
        refine ⟨r, ?_, r2⟩
        simp only [GenFun.call, b1, c1, bind, Except.bind]
        exact r1

end
end Ebcc
