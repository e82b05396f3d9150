import Verif.Tensor.Identity
import Verif.Tensor.Check
/-!
Identities found by `symIdent` hold for the arrays.
-/

namespace Ebcc

section
variable {R : Type} [Field R]

/-! ### Identity matrices -/

theorem deltaIxs_spec {ds is : List Nat} {i j : Nat} (h : deltaIxs ds is = some (i, j)) :
    (is = [i, j] ∨ is = [j, i]) ∧ i ≠ j ∧ i % 16 = j % 16 ∧ i ∈ ds := by
  unfold deltaIxs at h
  split at h
  · rename_i a b
    cases h1 : Nat.beq a b with
    | true => rw [h1] at h; cases h
    | false =>
    have hab : a ≠ b := Nat.ne_of_beq_eq_false h1
    rw [h1, cond_false] at h
    cases h2 : Nat.beq (Nat.mod a 16) (Nat.mod b 16) with
    | false => rw [h2] at h; cases h
    | true =>
    have hm : a % 16 = b % 16 := Nat.eq_of_beq_eq_true h2
    rw [h2, cond_true] at h
    cases h3 : memB a ds with
    | true =>
      rw [h3] at h
      simp only [cond_true, Option.some.injEq, Prod.mk.injEq] at h
      obtain ⟨rfl, rfl⟩ := h
      exact ⟨.inl rfl, hab, hm, memB_iff.1 h3⟩
    | false =>
    rw [h3, cond_false] at h
    cases h4 : memB b ds with
    | false => rw [h4] at h; cases h
    | true =>
      rw [h4] at h
      simp only [cond_true, Option.some.injEq, Prod.mk.injEq] at h
      obtain ⟨rfl, rfl⟩ := h
      exact ⟨.inr rfl, hab.symm, hm.symm, memB_iff.1 h4⟩
  · cases h

theorem splitDelta_spec {ds : List Nat} {fs gs : List TFac} {i j : Nat}
    (h : splitDelta ds fs = some ((i, j), gs)) :
    (∃ is, (is = [i, j] ∨ is = [j, i]) ∧ fs.Perm ((15, is) :: gs)) ∧ i ≠ j ∧ i % 16 = j % 16 ∧ i ∈ ds := by
  induction fs generalizing gs with
  | nil => cases h
  | cons f fs ih =>
    simp only [splitDelta] at h
    cases h1 : (bif Nat.beq f.1 15 then deltaIxs ds f.2 else none) with
    | some ij =>
      rw [h1] at h
      simp only [Option.some.injEq, Prod.mk.injEq] at h
      obtain ⟨rfl, rfl⟩ := h
      cases h2 : Nat.beq f.1 15 with
      | false => rw [h2] at h1; cases h1
      | true =>
        rw [h2, cond_true] at h1
        obtain ⟨a1, a2⟩ := deltaIxs_spec h1
        refine ⟨⟨f.2, a1, ?_⟩, a2⟩
        rw [← Nat.eq_of_beq_eq_true h2]
    | none =>
      rw [h1] at h
      simp only at h
      cases h2 : splitDelta ds fs with
      | none => rw [h2] at h; cases h
      | some x =>
        obtain ⟨⟨i', j'⟩, gs'⟩ := x
        rw [h2] at h
        simp only [Option.some.injEq, Prod.mk.injEq] at h
        obtain ⟨⟨rfl, rfl⟩, rfl⟩ := h
        obtain ⟨⟨is, b1, b2⟩, b3⟩ := ih h2
        exact ⟨⟨is, b1, (b2.cons f).trans (List.Perm.swap _ _ _)⟩, b3⟩

theorem replaceIx_eq (i j x : Nat) : replaceIx i j x = if x = i then j else x := by
  unfold replaceIx
  by_cases h : x = i
  · subst h
    simp
  · have : Nat.beq x i = false := by
      cases h' : Nat.beq x i with
      | false => rfl
      | true => exact absurd (Nat.eq_of_beq_eq_true h') h
    simp [this, h]

theorem replaceFacs_eq (i j : Nat) (fs : List TFac) :
    replaceFacs i j fs = fs.map fun f => (f.1, f.2.map (replaceIx i j)) := by
  unfold replaceFacs
  rw [mapL_eq]
  apply List.map_congr_left
  intro f _
  rw [mapL_eq]

theorem facsVal_replace (T : Nat → List (Nat × Nat) → R) (i j : Nat) (hij : i % 16 = j % 16) (fs : List TFac)
    (e : Nat → Nat) : facsVal T (replaceFacs i j fs) e = facsVal T fs (Function.update e i (e j)) := by
  unfold facsVal
  rw [replaceFacs_eq, List.map_map]
  congr 1
  apply List.map_congr_left
  intro f _
  simp only [Function.comp, facVal, List.map_map]
  congr 1
  apply List.map_congr_left
  intro x _
  simp only [Function.comp, replaceIx_eq]
  by_cases h : x = i
  · subst h
    simp [hij]
  · simp [h]

theorem facsVal_perm (T : Nat → List (Nat × Nat) → R) {fs gs : List TFac} (h : fs.Perm gs) (e : Nat → Nat) :
    facsVal T fs e = facsVal T gs e := (h.map _).prod_eq

theorem facsVal_cons (T : Nat → List (Nat × Nat) → R) (f : TFac) (fs : List TFac) (e : Nat → Nat) :
    facsVal T (f :: fs) e = facVal T e f * facsVal T fs e := by simp [facsVal]

theorem elimDelta_sound (sz : Nat → Nat) (T : Nat → List (Nat × Nat) → R) (hT : T 15 = deltaT) (F : List Nat)
    (fuel : Nat) (r : TRaw) (hr : WFraw F r) : WFraw F (elimDelta fuel r) ∧
      ∀ e, InRange sz F e → rawVal sz T (elimDelta fuel r) e = rawVal sz T r e := by
  induction fuel generalizing r with
  | zero => exact ⟨hr, fun e _ => rfl⟩
  | succ fuel ih =>
    obtain ⟨n, k, ds, fs⟩ := r
    simp only [elimDelta]
    cases h1 : splitDelta ds fs with
    | none => exact ⟨hr, fun e _ => rfl⟩
    | some x =>
    obtain ⟨⟨i, j⟩, gs⟩ := x
    simp only
    cases h2 : removeNat i ds with
    | none => exact ⟨hr, fun e _ => rfl⟩
    | some ds' =>
      simp only
      obtain ⟨⟨is, his, hperm⟩, hij, hmod, hi⟩ := splitDelta_spec h1
      have hds := removeNat_perm h2
      obtain ⟨hlow, hnd, hhigh, hsc⟩ := hr
      simp only at hnd hhigh hsc
      have hnd2 := hds.nodup_iff.1 hnd
      rw [List.nodup_cons] at hnd2
      have hiF : i ∉ F := fun h => by
        have := hlow i h
        have := hhigh i hi
        omega
      have hj : j ∈ F ∨ j ∈ ds' := by
        have hmem : (15, is) ∈ fs := hperm.mem_iff.2 (by simp)
        have := hsc _ hmem j (by rcases his with rfl | rfl <;> simp)
        rcases this with h | h
        · exact .inl h
        · rcases List.mem_cons.1 (hds.mem_iff.1 h) with h | h
          · exact absurd h.symm hij
          · exact .inr h
      have hw : WFraw F (n, k, ds', replaceFacs i j gs) := by
        refine ⟨hlow, hnd2.2, fun d hd => hhigh d (hds.mem_iff.2 (by simp [hd])), ?_⟩
        intro f hf x hx
        simp only [replaceFacs_eq] at hf
        obtain ⟨g, hg, rfl⟩ := List.mem_map.1 hf
        obtain ⟨y, hy, rfl⟩ := List.mem_map.1 hx
        rw [replaceIx_eq]
        by_cases h : y = i
        · rw [if_pos h]
          exact hj
        · rw [if_neg h]
          rcases hsc g (hperm.mem_iff.2 (by simp [hg])) y hy with h3 | h3
          · exact .inl h3
          · rcases List.mem_cons.1 (hds.mem_iff.1 h3) with h4 | h4
            · exact absurd h4 h
            · exact .inr h4
      obtain ⟨i1, i2⟩ := ih _ hw
      refine ⟨i1, fun e he => ?_⟩
      rw [i2 e he]
      unfold rawVal
      simp only
      congr 1
      have hp2 : ds.Perm (ds' ++ [i]) := hds.trans (List.perm_append_comm (l₁ := [i]) (l₂ := ds'))
      rw [einSum_perm (fun i => sz (i % 16)) hp2, einSum_append]
      apply einSum_congr
      intro e' he1 he2
      have hjr : e' j < sz (j % 16) := by
        by_cases hj2 : j ∈ ds'
        · exact he2 j hj2
        · rw [he1 j hj2]
          exact he j (hj.resolve_right hj2)
      have hsum : einSum (fun i => sz (i % 16)) [i] (facsVal T fs) e'
          = ((List.range (sz (i % 16))).map fun x =>
            if x = e' j then facsVal T gs (Function.update e' i x) else 0).sum := by
        simp only [einSum]
        congr 1
        apply List.map_congr_left
        intro x _
        rw [facsVal_perm T hperm, facsVal_cons]
        have : facVal T (Function.update e' i x) (15, is) = if x = e' j then 1 else 0 := by
          unfold facVal
          simp only [hT]
          rcases his with rfl | rfl
          · simp [deltaT, Function.update_of_ne hij.symm, hmod]
          · simp [deltaT, Function.update_of_ne hij.symm, hmod, eq_comm]
        rw [this]
        split <;> simp
      rw [hsum, facsVal_replace T i j hmod]
      rw [hmod]
      have : ∀ (n v : Nat) (G : Nat → R), v < n →
          ((List.range n).map fun x => if x = v then G x else 0).sum = G v := by
        intro n v G hv
        have hn := List.nodup_range (n := n)
        have hm : v ∈ List.range n := List.mem_range.2 hv
        revert hn hm
        generalize List.range n = l
        intro hn hm
        induction l with
        | nil => cases hm
        | cons a l ih =>
          rw [List.nodup_cons] at hn
          rw [List.map_cons, List.sum_cons]
          rcases List.mem_cons.1 hm with rfl | hm
          · rw [if_pos rfl]
            have : (l.map fun x => if x = v then G x else 0) = l.map fun _ => 0 := by
              apply List.map_congr_left
              intro x hx
              rw [if_neg]
              rintro rfl
              exact hn.1 hx
            rw [this]
            simp
          · rw [if_neg (fun h : a = v => hn.1 (h ▸ hm)), zero_add, ih hn.2 hm]
      rw [this _ _ (fun x => facsVal T gs (Function.update e' i x)) hjr]

theorem canonDelta_sound {σ : Type} (sz : Nat → Nat) (T : Nat → List (Nat × Nat) → R) (cn : TCanon σ)
    (hcn : CanonOk sz T cn) : CanonOk sz T (canonDelta cn) := by
  refine ⟨?_, hcn.delta⟩
  intro F r hr st q st' h
  obtain ⟨w, v⟩ := elimDelta_sound sz T hcn.delta F r.2.2.2.length r hr
  obtain ⟨a1, a2, a3⟩ := hcn.canon F _ w st q st' h
  exact ⟨a1, a2, fun e he => (a3 e he).trans (v e he)⟩

/-! ### Sums of products -/

/-- The value of a term for the values `idx` of the free labels. -/
def ITerm.val (sz : Nat → Nat) (sps : List Nat) (nf : Nat) (avals : List Char → Option (NDArray R)) (t : ITerm)
    (idx : List Nat) : R :=
  (t.num : R) / (t.den : R) * einValue (fun l => sz (sps.getD l 16))
    (t.ops.map fun o => (o.2, (avals o.1).getD (NDArray.zeros []))) (List.range nf) (fun l => idx.getD l 0)

/-- The arrays of a term are there and have the shapes of its labels. -/
def ITerm.Ok (sz : Nat → Nat) (sps : List Nat) (avals : List Char → Option (NDArray R)) (t : ITerm) : Prop :=
  ∀ o ∈ t.ops, ∃ a, avals o.1 = some a ∧ a.WF ∧ a.shape = o.2.map fun l => sz (sps.getD l 16)

theorem symOps_sound {σ : Type} (sz : Nat → Nat) (T : Nat → List (Nat × Nat) → R) (vals : TVals σ)
    (avals : List Char → Option (NDArray R)) (hvals : ValsRep sz T vals avals) (sps : List Nat)
    (ops : List (List Char × List Nat)) (st : σ) (vs : List (List Nat × TVar)) (st' : σ)
    (h : symOps vals sps ops st = some (vs, st')) :
    (∀ o ∈ ops, ∃ a, avals o.1 = some a ∧ a.WF ∧ a.shape = o.2.map fun l => sz (sps.getD l 16)) ∧
    List.Forall₂ (fun o x => x.2 = o.1 ∧ Rep sz T o.2 x.1) vs
      (ops.map fun o => ((avals o.1).getD (NDArray.zeros []), o.2)) := by
  induction ops generalizing st vs with
  | nil => cases h; exact ⟨by simp, .nil⟩
  | cons o ops ih =>
    obtain ⟨name, ls⟩ := o
    simp only [symOps] at h
    cases h1 : vals name st with
    | none => rw [h1] at h; cases h
    | some x =>
    obtain ⟨v, st1⟩ := x
    rw [h1] at h
    simp only at h
    cases h2 : eqNats v.1 (mapL (nthD 16 sps) ls) with
    | false => rw [h2] at h; cases h
    | true =>
    rw [h2, cond_true] at h
    cases h3 : symOps vals sps ops st1 with
    | none => rw [h3] at h; cases h
    | some x =>
    obtain ⟨r, st2⟩ := x
    rw [h3] at h
    cases h
    obtain ⟨a, a1, a2⟩ := hvals name st v st1 h1
    obtain ⟨i1, i2⟩ := ih st1 r h3
    have hsp := eqNats_eq h2
    refine ⟨?_, ?_⟩
    · intro o ho
      rcases List.mem_cons.1 ho with rfl | ho
      · refine ⟨a, a1, a2.wf, ?_⟩
        rw [a2.shape, hsp, mapL_eq, List.map_map]
        apply List.map_congr_left
        intro l _
        simp only [Function.comp, nthD_eq]
      · exact i1 o ho
    · rw [List.map_cons]
      refine .cons ⟨rfl, ?_⟩ i2
      simp only [a1, Option.getD_some]
      exact a2

theorem symITerms_sound [CharZero R] {σ : Type} (sz : Nat → Nat) (T : Nat → List (Nat × Nat) → R)
    (cn : TCanon σ) (hcn : CanonOk sz T cn) (vals : TVals σ) (avals : List Char → Option (NDArray R))
    (hvals : ValsRep sz T vals avals) (sps : List Nat) (nf : Nat) (l : List ITerm) (p : TPoly)
    (hp : WFpoly (frees 0 (sps.take nf)) p) (st : σ) (q : TPoly) (st' : σ)
    (h : symITerms cn vals sps nf l p st = some (q, st')) :
    WFpoly (frees 0 (sps.take nf)) q ∧ (∀ t ∈ l, t.Ok sz sps avals) ∧
      ∀ idx, InBox ((sps.take nf).map sz) idx →
        polyVal sz T q (frEnv idx) = polyVal sz T p (frEnv idx) + (l.map fun t => t.val sz sps nf avals idx).sum := by
  induction l generalizing p st with
  | nil => cases h; exact ⟨hp, by simp, fun idx _ => by simp⟩
  | cons t l ih =>
    simp only [symITerms] at h
    cases h1 : symOps vals sps t.ops st with
    | none => rw [h1] at h; cases h
    | some x =>
    obtain ⟨vs, st1⟩ := x
    cases h2 : convCoef t.num t.den with
    | none => rw [h1, h2] at h; cases h
    | some c =>
    rw [h1, h2] at h
    simp only at h
    cases h3 : symEinV cn vs (List.range nf) st1 with
    | none => rw [h3] at h; cases h
    | some x =>
    obtain ⟨w, st2⟩ := x
    rw [h3] at h
    simp only at h
    cases h4 : eqNats w.1 (List.take nf sps) with
    | false => rw [h4] at h; cases h
    | true =>
    rw [h4, cond_true, forceSpine_eq] at h
    have hw := eqNats_eq h4
    obtain ⟨o1, o2⟩ := symOps_sound sz T vals avals hvals sps t.ops st vs st1 h1
    obtain ⟨szl, k1, k2, k3, k4, k5, k6, k7, k8, k9⟩ := symEinV_val sz T cn hcn vs _ o2 _ st1 w st2 h3
    rw [hw] at k5 k8
    have hlen : (sps.take nf).length = nf := by
      have := congrArg List.length k5
      simpa using this
    obtain ⟨i1, i2, i3⟩ := ih _ (insAll_wf hp (scalePoly_wf k8)) st2 h
    refine ⟨i1, ?_, fun idx hidx => ?_⟩
    · intro t' ht'
      rcases List.mem_cons.1 ht' with rfl | ht'
      · exact o1
      · exact i2 t' ht'
    · have hil : idx.length = nf := by
        have := InBox.length_eq hidx
        rw [this, List.length_map, hlen]
      have hmap : (List.range nf).map (fun l => idx.getD l 0) = idx := by
        rw [← hil]; exact range_map_getD idx
      have hszl : ∀ i ∈ List.range nf, sz (sps.getD i 16) = szl i := by
        intro i hi
        have hi2 := List.mem_range.1 hi
        have hi3 : i < (sps.take nf).length := by omega
        have := congrArg (fun l => l.getD i 0) k5
        rw [getD_eq_getElem_chk _ _ (by simpa using hi3), getD_eq_getElem_chk _ _ (by simpa using hi2)] at this
        simp only [List.getElem_map, List.getElem_range, List.getElem_take] at this
        rw [← this]
        congr 1
        rw [getD_eq_getElem_chk]
      have hrange : ∀ i ∈ List.range nf, idx.getD i 0 < szl i := by
        intro i hi
        rw [← hszl i hi]
        have hi2 := List.mem_range.1 hi
        have hi3 : i < (sps.take nf).length := by omega
        have := (List.forall₂_iff_get.1 hidx).2 i (by omega) (by simpa using hi3)
        simp only [List.get_eq_getElem, List.getElem_map, List.getElem_take] at this
        rw [getD_eq_getElem_chk _ _ (by omega), getD_eq_getElem_chk _ _ (by simp at hi3; omega)]
        exact this
      have hv := k9 (fun l => idx.getD l 0) hrange
      rw [hmap] at hv
      rw [i3 idx hidx, insAll_sound, scalePoly_sound, convCoef_sound h2, hv, List.map_cons, List.sum_cons]
      have hval : t.val sz sps nf avals idx = (t.num : R) / (t.den : R) *
          einValue szl ((t.ops.map fun o => ((avals o.1).getD (NDArray.zeros []), o.2)).map Prod.swap)
            (List.range nf) (fun l => idx.getD l 0) := by
        unfold ITerm.val
        congr 1
        have e1 : (t.ops.map fun o => ((avals o.1).getD (NDArray.zeros []), o.2)).map Prod.swap
            = t.ops.map fun o => (o.2, (avals o.1).getD (NDArray.zeros [])) := by
          rw [List.map_map]; rfl
        rw [e1]
        unfold einValue
        apply einSum_sz_congr
        intro c hc
        obtain ⟨⟨s, hs, hcs⟩, _⟩ := mem_einDummies.1 hc
        rw [List.map_map, List.mem_map] at hs
        obtain ⟨o, ho, rfl⟩ := hs
        obtain ⟨a, a1, a2, a3⟩ := o1 o ho
        have := k4 ((avals o.1).getD (NDArray.zeros []), o.2) (List.mem_map.2 ⟨o, ho, rfl⟩)
        simp only [a1, Option.getD_some] at this
        rw [a3] at this
        exact List.map_inj_left.1 this c hcs
      rw [hval]
      ring

/-- The identity holds for arrays, without derivatives. -/
theorem symIdent_sound [CharZero R] {σ : Type} (sz : Nat → Nat) (T : Nat → List (Nat × Nat) → R)
    (cn : TCanon σ) (hcn : CanonOk sz T cn) (vals : TVals σ) (avals : List Char → Option (NDArray R))
    (hvals : ValsRep sz T vals avals) (dm : Nat → Option Nat) (rel : Ident) (hd : rel.dterms = []) (st st' : σ)
    (h : symIdent cn vals dm rel st = some st') :
    (∀ t ∈ rel.terms, t.Ok sz rel.sps avals) ∧ ∀ idx, InBox ((rel.sps.take rel.nf).map sz) idx →
      (rel.terms.map fun t => t.val sz rel.sps rel.nf avals idx).sum = 0 := by
  unfold symIdent at h
  rw [hd] at h
  simp only [symITerms, polyDeriv, derivRaws, List.flatMap_nil] at h
  have e0 : canonAll cn [] [] st = some ([], st) := rfl
  rw [e0] at h
  simp only [forceSpine_eq] at h
  cases h1 : symITerms cn vals rel.sps rel.nf rel.terms [] st with
  | none => rw [h1] at h; cases h
  | some x =>
    obtain ⟨p, st1⟩ := x
    rw [h1] at h
    cases p with
    | cons _ _ => cases h
    | nil =>
      obtain ⟨_, a2, a3⟩ := symITerms_sound sz T cn hcn vals avals hvals rel.sps rel.nf rel.terms [] (by simp [WFpoly])
        st _ _ h1
      refine ⟨a2, fun idx hidx => ?_⟩
      have := a3 idx hidx
      rw [polyVal_nil, zero_add] at this
      exact this.symm

theorem symIdents_sound [CharZero R] {σ : Type} (sz : Nat → Nat) (T : Nat → List (Nat × Nat) → R)
    (cn : TCanon σ) (hcn : CanonOk sz T cn) (vals : TVals σ) (avals : List Char → Option (NDArray R))
    (hvals : ValsRep sz T vals avals) (dm : Nat → Option Nat) (rels : List Ident) (st : σ)
    (h : symIdents cn vals dm rels st = true) : ∀ rel ∈ rels, rel.dterms = [] →
    (∀ t ∈ rel.terms, t.Ok sz rel.sps avals) ∧ ∀ idx, InBox ((rel.sps.take rel.nf).map sz) idx →
      (rel.terms.map fun t => t.val sz rel.sps rel.nf avals idx).sum = 0 := by
  induction rels generalizing st with
  | nil => simp
  | cons rel rels ih =>
    simp only [symIdents] at h
    cases h1 : symIdent cn vals dm rel st with
    | none => rw [h1] at h; cases h
    | some st1 =>
      rw [h1] at h
      intro rel' hrel' hd
      rcases List.mem_cons.1 hrel' with rfl | hrel'
      · exact symIdent_sound sz T cn hcn vals avals hvals dm rel' hd st st1 h1
      · exact ih st1 h rel' hrel' hd

/-! ### Several functions -/

theorem symThen_sound [CharZero R] [DecidableEq R] {σ : Type} (sz : Nat → Nat) (T : Nat → List (Nat × Nat) → R)
    (cn : TCanon σ) (hcn : CanonOk sz T cn) (method : ContractMethod)
    (path : List (List Char) → List Char → List (NDArray R) → List Contraction) (hpath : PathOk path)
    (sizes rho : Nat → Nat) (hsizes : ∀ s, sizes s = sz (rho s)) (vals : TVals σ)
    (avals : List Char → Option (NDArray R)) (hvals : ValsRep sz T vals avals) (f : GenFun) (st : σ)
    (k : Dict (List Char) TVar → σ → Bool) (h : symThen f cn rho vals st k = true) :
    ∃ r ra st', f.call method path sizes avals = .ok ra ∧ DictRep sz T r ra ∧ k r st' = true := by
  unfold symThen at h
  cases h1 : f.sym cn rho vals st with
  | none => rw [h1] at h; cases h
  | some x =>
    obtain ⟨r, st1⟩ := x
    rw [h1] at h
    obtain ⟨ra, r1, r2⟩ := GenFun.sym_sound sz T cn hcn method path hpath sizes rho hsizes vals avals hvals f st r st1 h1
    exact ⟨r, ra, st1, r1, r2, h⟩

/-- Adds results to the named arrays. -/
def addResA (tag : Char) (r : Dict (List Char) (NDArray R)) (avals : List Char → Option (NDArray R)) :
    List Char → Option (NDArray R)
  | [] => avals []
  | c :: name => bif c == tag then r.get? name else avals (c :: name)

theorem addRes_rep {σ : Type} {sz : Nat → Nat} {T : Nat → List (Nat × Nat) → R} {vals : TVals σ}
    {avals : List Char → Option (NDArray R)} (hvals : ValsRep sz T vals avals) (tag : Char)
    {r : Dict (List Char) TVar} {ra : Dict (List Char) (NDArray R)} (hr : DictRep sz T r ra) :
    ValsRep sz T (addRes tag r vals) (addResA tag ra avals) := by
  intro name st v st' h
  cases name with
  | nil => exact hvals [] st v st' h
  | cons c name =>
    simp only [addRes] at h
    simp only [addResA]
    cases hc : c == tag with
    | true =>
      rw [hc, cond_true] at h
      rw [cond_true]
      cases hg : r.get? name with
      | none => rw [hg] at h; cases h
      | some w =>
        rw [hg] at h
        cases h
        exact hr.get hg
    | false =>
      rw [hc, cond_false] at h
      rw [cond_false]
      exact hvals _ st v st' h

theorem comp_rep {σ : Type} {sz : Nat → Nat} {T : Nat → List (Nat × Nat) → R} {vals : TVals σ}
    {avals : List Char → Option (NDArray R)} (hvals : ValsRep sz T vals avals) (g : List Char → List Char) :
    ValsRep sz T (fun name => vals (g name)) (fun name => avals (g name)) :=
  fun name st v st' h => hvals (g name) st v st' h

end
end Ebcc
