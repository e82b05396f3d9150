import Verif.Tensor.Run
import Verif.Spec.GenArgs
/-!
Relations between the results of generated functions.
-/

namespace Ebcc

section
variable {R : Type} [Field R]

/-- The element of a term of a relation. -/
def TTerm.val (t : TTerm) (r u : Dict (List Char) (NDArray R)) (idx : List Nat) : R :=
  match (bif t.second then u else r).get? t.name with
  | some a => (t.num : R) / (t.den : R) * a.get (t.perm.map fun k => idx.getD k 0)
  | none => 0

/-- The results of the two functions fulfil a relation: all of them are there, and the sum of the terms
is zero for all indices in range. -/
def TRel.Holds (sz : Nat → Nat) (rel : TRel) (r u : Dict (List Char) (NDArray R)) : Prop :=
  (∀ t ∈ rel.2, ∃ a, (bif t.second then u else r).get? t.name = some a ∧ a.WF ∧
    a.shape = t.perm.map fun k => (rel.1.map sz).getD k 0) ∧
  ∀ idx, InBox (rel.1.map sz) idx → (rel.2.map fun t => t.val r u idx).sum = 0

/-- Results with the values of polynomials. -/
def DictRep (sz : Nat → Nat) (T : Nat → List (Nat × Nat) → R) (d : Dict (List Char) TVar)
    (r : Dict (List Char) (NDArray R)) : Prop :=
  List.Forall₂ (fun x y => y.1 = x.1 ∧ Rep sz T x.2 y.2) d r

theorem DictRep.get {sz : Nat → Nat} {T : Nat → List (Nat × Nat) → R} {d : Dict (List Char) TVar}
    {r : Dict (List Char) (NDArray R)} (h : DictRep sz T d r) {name : List Char} {v : TVar}
    (hv : d.get? name = some v) : ∃ a, r.get? name = some a ∧ Rep sz T v a := by
  unfold DictRep at h
  induction h with
  | nil => cases hv
  | @cons x y d r hxy _ ih =>
    obtain ⟨n, w⟩ := x
    obtain ⟨m, a⟩ := y
    obtain ⟨rfl, hr⟩ := hxy
    simp only [Dict.get?] at hv ⊢
    by_cases hn : m = name
    · rw [if_pos hn] at hv ⊢
      cases hv
      exact ⟨a, rfl, hr⟩
    · rw [if_neg hn] at hv ⊢
      exact ih hv

theorem getD_eq_getElem_chk {α : Type} (l : List α) (d : α) {k : Nat} (h : k < l.length) :
    l.getD k d = l[k] := by
  simp [h]

theorem symPerm_sound [CharZero R] {σ : Type} (sz : Nat → Nat) (T : Nat → List (Nat × Nat) → R)
    (cn : TCanon σ) (hcn : CanonOk sz T cn) (v : TVar) (a : NDArray R) (ha : Rep sz T v a) (perm : List Nat)
    (st : σ) (w : TVar) (sp : List Nat) (st' : σ) (h : symPerm cn v perm sp st = some (w, st')) (hsp : w.1 = sp) :
    (a.shape = perm.map fun k => (sp.map sz).getD k 0) ∧ WFpoly (frees 0 sp) w.2 ∧
      ∀ idx, InBox (sp.map sz) idx → polyVal sz T w.2 (frEnv idx) = a.get (perm.map fun k => idx.getD k 0) := by
  unfold symPerm at h
  cases hp : eqNats perm (countUp 0 v.1) with
  | true =>
    rw [hp, cond_true] at h
    cases h
    subst hsp
    have hperm := eqNats_eq hp
    rw [countUp_eq, ← List.range_eq_range'] at hperm
    subst hperm
    refine ⟨?_, ha.poly, fun idx hidx => ?_⟩
    · rw [ha.shape]
      have := range_map_getD (v.1.map sz)
      rw [List.length_map] at this
      exact this.symm
    · rw [← ha.shape] at hidx
      have hlen : idx.length = v.1.length := by
        have := InBox.length_eq hidx
        rw [ha.shape, List.length_map] at this
        exact this
      rw [← ha.val idx hidx]
      congr 1
      have := range_map_getD idx
      rw [hlen] at this
      exact this.symm
  | false =>
    rw [hp, cond_false] at h
    cases hq : allL (fun k => memB k (countUp 0 sp)) perm with
    | false => rw [hq] at h; cases h
    | true =>
    rw [hq, cond_true] at h
    obtain ⟨szl, h1, h2, h3, h4, h5, h6, h7, h8, h9⟩ := symEinV_val sz T cn hcn
      [(perm, v)] [(a, perm)] (.cons ⟨rfl, ha⟩ .nil) _ st w st' h
    rw [countUp_eq, ← List.range_eq_range'] at hq h2 h3 h5 h9
    have hin : ∀ k ∈ perm, k ∈ List.range sp.length := fun k hk => memB_iff.1 (allL_iff.1 hq k hk)
    have hsh := h4 (a, perm) (by simp)
    simp only at hsh
    rw [hsp] at h5 h8
    refine ⟨?_, h8, fun idx hidx => ?_⟩
    · rw [hsh]
      apply List.map_congr_left
      intro k hk
      have hk2 := List.mem_range.1 (hin k hk)
      rw [h5, getD_eq_getElem_chk _ _ (by simpa using hk2)]
      simp
    · rw [h5] at hidx
      obtain ⟨e, rfl, he⟩ := map_of_inBox h2 hidx
      rw [h9 e he]
      unfold einValue
      have hd : einDummies (([(a, perm)].map Prod.swap).map Prod.fst) (List.range sp.length) = [] := by
        rw [List.eq_nil_iff_forall_not_mem]
        intro c hc
        obtain ⟨⟨s, hs, hcs⟩, hno⟩ := mem_einDummies.1 hc
        simp only [List.map_cons, List.map_nil, Prod.fst_swap, List.mem_singleton] at hs
        subst hs
        exact hno (hin c hcs)
      rw [hd]
      have hm : perm.map e = perm.map fun k => ((List.range sp.length).map e).getD k 0 := by
        apply List.map_congr_left
        intro k hk
        have hk2 := List.mem_range.1 (hin k hk)
        rw [getD_eq_getElem_chk _ _ (by simpa using hk2)]
        simp
      simp [einSum, einProd, hm]

theorem polyTerms_sound [CharZero R] {σ : Type} (sz : Nat → Nat) (T : Nat → List (Nat × Nat) → R)
    (cn : TCanon σ) (hcn : CanonOk sz T cn) {r u : Dict (List Char) TVar}
    {ra ua : Dict (List Char) (NDArray R)} (hr : DictRep sz T r ra) (hu : DictRep sz T u ua) (sp : List Nat)
    (l : List TTerm) (p : TPoly) (hp : WFpoly (frees 0 sp) p) (st : σ) (q : TPoly) (st' : σ)
    (h : polyTerms cn r u sp l p st = some (q, st')) :
    (∀ t ∈ l, ∃ a, (bif t.second then ua else ra).get? t.name = some a ∧ a.WF ∧
      a.shape = t.perm.map fun k => (sp.map sz).getD k 0) ∧
    ∀ idx, InBox (sp.map sz) idx →
      polyVal sz T q (frEnv idx) = polyVal sz T p (frEnv idx) + (l.map fun t => t.val ra ua idx).sum := by
  induction l generalizing p st with
  | nil =>
    cases h
    exact ⟨by simp, fun idx _ => by simp⟩
  | cons t l ih =>
    simp only [polyTerms] at h
    cases hg : (bif t.second then u else r).get? t.name with
    | none => rw [hg] at h; cases h
    | some v =>
    cases hc : convCoef t.num t.den with
    | none => rw [hg, hc] at h; cases h
    | some c =>
    rw [hg, hc] at h
    simp only at h
    cases hs : symPerm cn v t.perm sp st with
    | none => rw [hs] at h; cases h
    | some x =>
    obtain ⟨w, st1⟩ := x
    rw [hs] at h
    simp only at h
    cases he : eqNats w.1 sp with
    | false => rw [he] at h; cases h
    | true =>
    rw [he, cond_true, forceSpine_eq] at h
    have ⟨a, a1, a2⟩ : ∃ a, (bif t.second then ua else ra).get? t.name = some a ∧ Rep sz T v a := by
      cases hb : t.second with
      | true => rw [hb] at hg; exact hu.get hg
      | false => rw [hb] at hg; exact hr.get hg
    obtain ⟨s1, s2, s3⟩ := symPerm_sound sz T cn hcn v a a2 t.perm st w sp st1 hs (eqNats_eq he)
    obtain ⟨i1, i2⟩ := ih _ (insAll_wf hp (scalePoly_wf s2)) st1 h
    refine ⟨?_, fun idx hidx => ?_⟩
    · intro t' ht'
      rcases List.mem_cons.1 ht' with rfl | ht'
      · exact ⟨a, a1, a2.wf, s1⟩
      · exact i1 t' ht'
    · rw [i2 idx hidx, insAll_sound, scalePoly_sound, convCoef_sound hc, s3 idx hidx, List.map_cons, List.sum_cons]
      have : t.val ra ua idx = (t.num : R) / (t.den : R) * a.get (t.perm.map fun k => idx.getD k 0) := by
        simp only [TTerm.val, a1]
      rw [this]
      ring

theorem symRels_sound [CharZero R] {σ : Type} (sz : Nat → Nat) (T : Nat → List (Nat × Nat) → R)
    (cn : TCanon σ) (hcn : CanonOk sz T cn) {r u : Dict (List Char) TVar}
    {ra ua : Dict (List Char) (NDArray R)} (hr : DictRep sz T r ra) (hu : DictRep sz T u ua)
    (rels : List TRel) (st : σ) (h : symRels cn r u rels st = true) :
    ∀ rel ∈ rels, TRel.Holds sz rel ra ua := by
  induction rels generalizing st with
  | nil => simp
  | cons rel rels ih =>
    obtain ⟨sp, l⟩ := rel
    simp only [symRels] at h
    cases hs : polyTerms cn r u sp l [] st with
    | none => rw [hs] at h; cases h
    | some x =>
      obtain ⟨p, st1⟩ := x
      rw [hs] at h
      cases p with
      | cons _ _ => cases h
      | nil =>
        obtain ⟨a1, a2⟩ := polyTerms_sound sz T cn hcn hr hu sp l [] (by simp [WFpoly]) st _ _ hs
        intro rel hrel
        rcases List.mem_cons.1 hrel with rfl | hrel
        · refine ⟨a1, fun idx hidx => ?_⟩
          have := a2 idx hidx
          rw [polyVal_nil, zero_add] at this
          exact this.symm
        · exact ih st1 h rel hrel

theorem checkPair_sound [CharZero R] [DecidableEq R] (sz : Nat → Nat) (T : Nat → List (Nat × Nat) → R)
    (sy : TSym) (hsy : SymOk T sy) (method : ContractMethod)
    (path : List (List Char) → List Char → List (NDArray R) → List Contraction) (hpath : PathOk path)
    (sizes sizes' rho rho' : Nat → Nat) (hsizes : ∀ s, sizes s = sz (rho s)) (hsizes' : ∀ s, sizes' s = sz (rho' s))
    (fvals gvals : List Char → Option TArg) (favals gavals : List Char → Option (NDArray R))
    (hf : ∀ name v, fvals name = some v → ∃ a, favals name = some a ∧ ArgRep sz T v a)
    (hg : ∀ name v, gvals name = some v → ∃ a, gavals name = some a ∧ ArgRep sz T v a)
    (f g : GenFun) (hints : List Nat) (rels : List TRel)
    (h : checkPair (canonByHints sy) hints f rho fvals g rho' gvals rels = true) :
    ∃ r u, f.call method path sizes favals = .ok r ∧ g.call method path sizes' gavals = .ok u ∧
      ∀ rel ∈ rels, TRel.Holds sz rel r u := by
  have hcn := canonByHints_sound sz T sy hsy
  unfold checkPair at h
  cases h1 : f.sym (canonByHints sy) rho (baseVals (canonByHints sy) fvals) hints with
  | none => rw [h1] at h; cases h
  | some x =>
    obtain ⟨r, st⟩ := x
    rw [h1] at h
    simp only at h
    cases h2 : g.sym (canonByHints sy) rho' (baseVals (canonByHints sy) gvals) st with
    | none => rw [h2] at h; cases h
    | some x =>
      obtain ⟨u, st2⟩ := x
      rw [h2] at h
      simp only at h
      obtain ⟨ra, r1, r2⟩ := GenFun.sym_sound sz T _ hcn method path hpath sizes rho hsizes _ favals
        (baseVals_rep sz T _ hcn fvals favals hf) f hints r st h1
      obtain ⟨ua, u1, u2⟩ := GenFun.sym_sound sz T _ hcn method path hpath sizes' rho' hsizes' _ gavals
        (baseVals_rep sz T _ hcn gvals gavals hg) g st u st2 h2
      exact ⟨ra, ua, r1, u1, symRels_sound sz T _ hcn r2 u2 rels st2 h⟩

theorem checkOne_sound [CharZero R] [DecidableEq R] (sz : Nat → Nat) (T : Nat → List (Nat × Nat) → R)
    (sy : TSym) (hsy : SymOk T sy) (method : ContractMethod)
    (path : List (List Char) → List Char → List (NDArray R) → List Contraction) (hpath : PathOk path)
    (sizes rho : Nat → Nat) (hsizes : ∀ s, sizes s = sz (rho s))
    (fvals : List Char → Option TArg) (favals : List Char → Option (NDArray R))
    (hf : ∀ name v, fvals name = some v → ∃ a, favals name = some a ∧ ArgRep sz T v a)
    (f : GenFun) (hints : List Nat) (rels : List TRel)
    (h : checkOne (canonByHints sy) hints f rho fvals rels = true) :
    ∃ r, f.call method path sizes favals = .ok r ∧ ∀ rel ∈ rels, TRel.Holds sz rel r [] := by
  have hcn := canonByHints_sound sz T sy hsy
  unfold checkOne at h
  cases h1 : f.sym (canonByHints sy) rho (baseVals (canonByHints sy) fvals) hints with
  | none => rw [h1] at h; cases h
  | some x =>
    obtain ⟨r, st⟩ := x
    rw [h1] at h
    simp only at h
    obtain ⟨ra, r1, r2⟩ := GenFun.sym_sound sz T _ hcn method path hpath sizes rho hsizes _ favals
      (baseVals_rep sz T _ hcn fvals favals hf) f hints r st h1
    exact ⟨ra, r1, symRels_sound sz T _ hcn r2 .nil rels st h⟩

/-! ### Arguments -/

/-- The whole of a tensor as an argument. -/
def blk (t : Nat) (sp : List Nat) : TArg := (sp, [(1, 0, [], [(t, frees 0 sp)])])

theorem frees_val (sp idx : List Nat) (hs : ∀ s ∈ sp, s < 16) (hl : idx.length = sp.length) :
    (frees 0 sp).map (fun i => (i % 16, frEnv idx i)) = sp.zip idx := by
  apply List.ext_getElem
  · simp [length_frees, hl]
  · intro k h1 h2
    have hk : k < sp.length := by simpa [length_frees] using h1
    have hsk := hs _ (List.getElem_mem hk)
    simp only [List.getElem_map, List.getElem_zip]
    rw [getElem_frees 0 sp k (by simpa [length_frees] using hk)]
    simp only [frEnv]
    have e1 : (16 * (0 + k) + sp[k]) % 16 = sp[k] := by omega
    have e2 : (16 * (0 + k) + sp[k]) / 16 = k := by omega
    rw [e1, e2, getD_eq_getElem_chk _ _ (by omega)]

theorem blk_rep (sz : Nat → Nat) (T : Nat → List (Nat × Nat) → R) (t : Nat) (sp : List Nat)
    (hs : ∀ s ∈ sp, s < 16) : ArgRep sz T (blk t sp) (blockArr sz (T t) sp) := by
  refine ⟨NDArray.ofFn_shape _ _, NDArray.ofFn_wf _ _, fun idx hidx => ?_⟩
  rw [blockArr, NDArray.ofFn_shape] at hidx
  have hl : idx.length = sp.length := by
    have := InBox.length_eq hidx
    simpa using this
  rw [blockArr, NDArray.get_ofFn _ _ hidx]
  simp [blk, rawVal, facsVal, facVal, tcoef, einSum, frees_val sp idx hs hl]

end
end Ebcc
