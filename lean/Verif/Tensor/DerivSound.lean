import Verif.Tensor.Claim
import Mathlib.Analysis.Calculus.Deriv.Add
import Mathlib.Analysis.Calculus.Deriv.Mul
/-!
Identities with derivatives.
-/

namespace Ebcc

section
variable {R : Type} [NontriviallyNormedField R] [CharZero R]

/-- The changes of the tensors: `dm t` is the tensor of the changes of `t`; the others do not change. -/
def DerivOk (T : R → Nat → List (Nat × Nat) → R) (dm : Nat → Option Nat) : Prop :=
  ∀ t os, HasDerivAt (fun x => T x t os) (match dm t with | some dt => T 0 dt os | none => 0) 0

theorem hasDerivAt_listSum {α : Type} (l : List α) (f : R → α → R) (f' : α → R)
    (h : ∀ a ∈ l, HasDerivAt (fun x => f x a) (f' a) 0) :
    HasDerivAt (fun x => (l.map (f x)).sum) (l.map f').sum 0 := by
  induction l with
  | nil => simpa using hasDerivAt_const (0 : R) (0 : R)
  | cons a l ih =>
    simp only [List.map_cons, List.sum_cons]
    exact (h a (by simp)).add (ih fun b hb => h b (by simp [hb]))

theorem hasDerivAt_facs (T : R → Nat → List (Nat × Nat) → R) (dm : Nat → Option Nat) (hT : DerivOk T dm)
    (fs : List TFac) (e : Nat → Nat) :
    HasDerivAt (fun x => facsVal (T x) fs e) ((derivFacs dm fs).map fun gs => facsVal (T 0) gs e).sum 0 := by
  induction fs with
  | nil =>
    have : (fun x => facsVal (T x) [] e) = fun _ => 1 := by
      funext x; simp [facsVal]
    rw [this]
    simpa [derivFacs] using hasDerivAt_const (0 : R) (1 : R)
  | cons f fs ih =>
    have hf := hT f.1 (f.2.map fun i => (i % 16, e i))
    have hmul := hf.mul ih
    have hfun : (fun x => facsVal (T x) (f :: fs) e) =
        (fun x => T x f.1 (f.2.map fun i => (i % 16, e i))) * fun x => facsVal (T x) fs e := by
      funext x
      rw [facsVal_cons]
      rfl
    rw [hfun]
    refine hmul.congr_deriv ?_
    have hmap : ((derivFacs dm fs).map fun gs => facsVal (T 0) (f :: gs) e).sum
        = T 0 f.1 (f.2.map fun i => (i % 16, e i)) * ((derivFacs dm fs).map fun gs => facsVal (T 0) gs e).sum := by
      rw [← List.sum_map_mul_left]
      simp only [facsVal_cons]
      rfl
    simp only [derivFacs]
    cases hd : dm f.1 with
    | none =>
      simp only [List.map_map, Function.comp_def]
      rw [hmap]
      simp
    | some dt =>
      simp only [List.map_cons, List.map_map, Function.comp_def, List.sum_cons]
      rw [hmap, facsVal_cons]
      rfl

theorem hasDerivAt_einSum (sz : Nat → Nat) (ds : List Nat) (F : R → (Nat → Nat) → R) (F' : (Nat → Nat) → R)
    (h : ∀ e, HasDerivAt (fun x => F x e) (F' e) 0) (e : Nat → Nat) :
    HasDerivAt (fun x => einSum sz ds (F x) e) (einSum sz ds F' e) 0 := by
  induction ds generalizing e with
  | nil => exact h e
  | cons d ds ih =>
    simp only [einSum]
    exact hasDerivAt_listSum _ (fun x v => einSum sz ds (F x) (Function.update e d v)) _ fun v _ => ih _

theorem hasDerivAt_poly (sz : Nat → Nat) (T : R → Nat → List (Nat × Nat) → R) (dm : Nat → Option Nat)
    (hT : DerivOk T dm) (p : TPoly) (e : Nat → Nat) :
    HasDerivAt (fun x => polyVal sz (T x) p e) ((derivRaws dm p).map fun r => rawVal sz (T 0) r e).sum 0 := by
  have h1 : ((derivRaws dm p).map fun r => rawVal sz (T 0) r e).sum = (p.map fun m => tcoef m.n m.k *
      einSum (fun i => sz (i % 16)) m.ds (fun e => ((derivFacs dm m.fs).map fun gs => facsVal (T 0) gs e).sum) e).sum := by
    unfold derivRaws
    induction p with
    | nil => rfl
    | cons m p ih =>
      rw [List.flatMap_cons, List.map_append, List.sum_append, ih, List.map_cons, List.sum_cons]
      congr 1
      rw [List.map_map]
      simp only [Function.comp_def, rawVal]
      rw [List.sum_map_mul_left]
      congr 1
      induction derivFacs dm m.fs with
      | nil =>
        simp only [List.map_nil, List.sum_nil]
        have : ∀ (ds : List Nat) (e : Nat → Nat), einSum (fun i => sz (i % 16)) ds (fun _ => (0 : R)) e = 0 := by
          intro ds
          induction ds with
          | nil => intro e; rfl
          | cons d ds ih => intro e; simp [einSum, ih]
        rw [this]
      | cons gs l ih2 =>
        simp only [List.map_cons, List.sum_cons]
        rw [einSum_add, ih2]
  rw [h1]
  exact hasDerivAt_listSum p (fun x m => monoVal sz (T x) m e) _ fun m _ =>
    (hasDerivAt_einSum _ m.ds _ _ (fun e => hasDerivAt_facs T dm hT m.fs e) e).const_mul _

theorem derivFacs_mem (dm : Nat → Option Nat) {fs gs : List TFac} (h : gs ∈ derivFacs dm fs) :
    gs.map Prod.snd = fs.map Prod.snd := by
  induction fs generalizing gs with
  | nil => cases h
  | cons f fs ih =>
    simp only [derivFacs] at h
    cases hd : dm f.1 with
    | none =>
      rw [hd] at h
      obtain ⟨g, hg, rfl⟩ := List.mem_map.1 h
      simp [ih hg]
    | some dt =>
      rw [hd] at h
      rcases List.mem_cons.1 h with rfl | h
      · simp
      · obtain ⟨g, hg, rfl⟩ := List.mem_map.1 h
        simp [ih hg]

theorem derivRaws_wf {F : List Nat} {p : TPoly} (hp : WFpoly F p) (dm : Nat → Option Nat) :
    ∀ r ∈ derivRaws dm p, WFraw F r := by
  intro r hr
  obtain ⟨m, hm, hr⟩ := List.mem_flatMap.1 hr
  obtain ⟨gs, hgs, rfl⟩ := List.mem_map.1 hr
  obtain ⟨w1, w2, w3, w4⟩ := hp m hm
  refine ⟨w1, w2, fun d hd => (w3 d hd).1, ?_⟩
  intro f hf i hi
  have := derivFacs_mem dm hgs
  have hmem : f.2 ∈ m.fs.map Prod.snd := by
    rw [← this]
    exact List.mem_map.2 ⟨f, hf, rfl⟩
  obtain ⟨g, hg, hgf⟩ := List.mem_map.1 hmem
  exact w4 g hg i (hgf ▸ hi)

/-- The identity holds for arrays: the derivative of the first sum is minus the second sum. -/
theorem symIdent_deriv {σ : Type} (sz : Nat → Nat) (T : R → Nat → List (Nat × Nat) → R)
    (cn : TCanon σ) (hcn : ∀ x, CanonOk sz (T x) cn) (vals : TVals σ) (av : R → List Char → Option (NDArray R))
    (hvals : ∀ x, ValsRep sz (T x) vals (av x)) (dm : Nat → Option Nat) (hT : DerivOk T dm) (rel : Ident)
    (hsp : ∀ s ∈ rel.sps.take rel.nf, s < 16) (st st' : σ)
    (h : symIdent cn vals dm rel st = some st') :
    (∀ x, ∀ t ∈ rel.dterms, t.Ok sz rel.sps (av x)) ∧ (∀ t ∈ rel.terms, t.Ok sz rel.sps (av 0)) ∧
    ∀ idx, InBox ((rel.sps.take rel.nf).map sz) idx →
      HasDerivAt (fun x => (rel.dterms.map fun t => t.val sz rel.sps rel.nf (av x) idx).sum)
        (-(rel.terms.map fun t => t.val sz rel.sps rel.nf (av 0) idx).sum) 0 := by
  unfold symIdent at h
  cases h1 : symITerms cn vals rel.sps rel.nf rel.dterms [] st with
  | none => rw [h1] at h; cases h
  | some y =>
  obtain ⟨p, st1⟩ := y
  rw [h1] at h
  simp only at h
  cases h2 : polyDeriv cn dm p st1 with
  | none => rw [h2] at h; cases h
  | some y =>
  obtain ⟨q, st2⟩ := y
  rw [h2] at h
  simp only [forceSpine_eq] at h
  cases h3 : symITerms cn vals rel.sps rel.nf rel.terms q st2 with
  | none => rw [h3] at h; cases h
  | some y =>
  obtain ⟨p3, st3⟩ := y
  rw [h3] at h
  cases p3 with
  | cons _ _ => cases h
  | nil =>
    have a := fun x => symITerms_sound sz (T x) cn (hcn x) vals (av x) (hvals x) rel.sps rel.nf rel.dterms []
      (by simp [WFpoly]) st _ _ h1
    have hp : WFpoly (frees 0 (rel.sps.take rel.nf)) p := (a 0).1
    obtain ⟨b1, b2⟩ := canonAll_sound sz (T 0) cn (hcn 0) _ (derivRaws dm p) (derivRaws_wf hp dm) [] (by simp [WFpoly])
      st1 q st2 h2
    obtain ⟨c1, c2, c3⟩ := symITerms_sound sz (T 0) cn (hcn 0) vals (av 0) (hvals 0) rel.sps rel.nf rel.terms q b1
      st2 _ _ h3
    refine ⟨fun x => (a x).2.1, c2, fun idx hidx => ?_⟩
    have hd := hasDerivAt_poly sz T dm hT p (frEnv idx)
    have hfun : (fun x => polyVal sz (T x) p (frEnv idx)) =
        fun x => (rel.dterms.map fun t => t.val sz rel.sps rel.nf (av x) idx).sum := by
      funext x
      rw [(a x).2.2 idx hidx, polyVal_nil, zero_add]
    rw [hfun] at hd
    refine hd.congr_deriv ?_
    have e1 := b2 (frEnv idx) (inRange_frEnv hsp hidx)
    have e2 := c3 idx hidx
    rw [polyVal_nil, e1, polyVal_nil, zero_add] at e2
    linear_combination -e2

/-- All the identities hold. -/
theorem checkClaim_deriv [DecidableEq R] (sz : Nat → Nat) (T : R → Nat → List (Nat × Nat) → R)
    (sy : TSym) (hsy : ∀ x, SymOk (T x) sy) (method : ContractMethod)
    (path : List (List Char) → List Char → List (NDArray R) → List Contraction) (hpath : PathOk path)
    (sizes rho : Nat → Nat) (hsizes : ∀ s, sizes s = sz (rho s)) (vals : List Char → Option TArg)
    (av : R → List Char → Option (NDArray R))
    (hvals : ∀ x name v, vals name = some v → ∃ a, av x name = some a ∧ ArgRep sz (T x) v a)
    (calls : List TCall) (dm : Nat → Option Nat) (hT : DerivOk T dm) (rels : List Ident)
    (hsp : ∀ rel ∈ rels, ∀ s ∈ rel.sps.take rel.nf, s < 16) (hints : List Nat)
    (h : checkClaim sy hints rho vals calls dm rels = true) :
    CallsOk method path sizes calls av fun av' => ∀ rel ∈ rels,
      (∀ x, ∀ t ∈ rel.dterms, t.Ok sz rel.sps (av' x)) ∧ (∀ t ∈ rel.terms, t.Ok sz rel.sps (av' 0)) ∧
      ∀ idx, InBox ((rel.sps.take rel.nf).map sz) idx →
        HasDerivAt (fun x => (rel.dterms.map fun t => t.val sz rel.sps rel.nf (av' x) idx).sum)
          (-(rel.terms.map fun t => t.val sz rel.sps rel.nf (av' 0) idx).sum) 0 := by
  have hcn := fun x => canonDelta_sound sz (T x) _ (canonByHints_sound sz (T x) sy (hsy x))
  refine (symCalls_sound sz T _ hcn method path hpath sizes rho hsizes calls _ av
    (fun x => baseVals_rep sz (T x) _ (hcn x) vals (av x) (hvals x)) hints _ h).imp ?_
  rintro av' ⟨vals', st', hv, hk⟩
  clear h
  induction rels generalizing st' with
  | nil => simp
  | cons rel rels ih =>
    simp only [symIdents] at hk
    cases h1 : symIdent (canonDelta (canonByHints sy)) vals' dm rel st' with
    | none => rw [h1] at hk; cases hk
    | some st1 =>
      rw [h1] at hk
      intro rel' hrel'
      rcases List.mem_cons.1 hrel' with rfl | hrel'
      · exact symIdent_deriv sz T _ hcn vals' av' hv dm hT rel' (hsp rel' (by simp)) st' st1 h1
      · exact ih (fun r hr => hsp r (by simp [hr])) st1 hk rel' hrel'

end
end Ebcc
