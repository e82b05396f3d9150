import Verif.Spec.ExpCoeff
import Verif.Tensor.SetupG
/-!
The coefficients of `exp(T)` as polynomials in the amplitudes, and functions whose results are compared with given
polynomials.
-/

namespace Ebcc

/-! ### Naturality of the terms -/

theorem picks_map {α β : Type} (f : α → β) (l : List α) :
    picks (l.map f) = (picks l).map fun p => (p.1, p.2.1.map f, p.2.2.map f) := by
  induction l with
  | nil => rfl
  | cons x l ih => simp [picks, ih, Function.comp_def]

theorem expTermsN_map {α β : Type} (f : α → β) (n : Nat) (I A : List α) :
    expTermsN n (I.map f) (A.map f)
      = (expTermsN n I A).map fun x => (x.1, x.2.map fun p => (p.1.map f, p.2.map f)) := by
  induction n generalizing I A with
  | zero => cases I <;> cases A <;> simp [expTermsN]
  | succ n ih =>
    cases I with
    | nil => cases A <;> simp [expTermsN]
    | cons i I =>
      simp only [List.map_cons, expTermsN, picks_map, List.flatMap_map, List.map_flatMap]
      congr 1
      funext s
      simp only [List.filter_map, List.flatMap_map, List.map_flatMap, Function.comp_def, List.length_map]
      congr 1
      funext r
      rw [ih]
      simp [Function.comp_def]

theorem expTerms_map {α β : Type} (f : α → β) (I A : List α) :
    expTerms (I.map f) (A.map f)
      = (expTerms I A).map fun x => (x.1, x.2.map fun p => (p.1.map f, p.2.map f)) := by
  unfold expTerms
  rw [List.length_map, expTermsN_map]

theorem expTermsN_length {α : Type} (n : Nat) (I A : List α) : ∀ x ∈ expTermsN n I A, ∀ p ∈ x.2,
    p.2.length = p.1.length := by
  induction n generalizing I A with
  | zero =>
    intro x hx p hp
    simp only [expTermsN] at hx
    split at hx
    · simp at hx; subst hx; simp at hp
    · simp at hx
  | succ n ih =>
    intro x hx p hp
    cases I with
    | nil =>
      simp only [expTermsN] at hx
      split at hx
      · simp at hx; subst hx; simp at hp
      · simp at hx
    | cons i I =>
      simp only [expTermsN, List.mem_flatMap, List.mem_filter, List.mem_map, beq_iff_eq] at hx
      obtain ⟨s, _, r, ⟨_, hr⟩, c, hc, rfl⟩ := hx
      simp only [List.mem_cons] at hp
      rcases hp with rfl | hp
      · simpa using hr
      · exact ih _ _ c hc p hp

/-! ### Symmetry -/

/-- Insertion into a sorted list, and whether the number of exchanges is odd. -/
def insertS (x : Nat) : List Nat → Bool × List Nat
  | [] => (false, [x])
  | y :: l => if x ≤ y then (false, x :: y :: l) else (!(insertS x l).1, y :: (insertS x l).2)

def sortS : List Nat → Bool × List Nat
  | [] => (false, [])
  | x :: l => (xor (sortS l).1 (insertS x (sortS l).2).1, (insertS x (sortS l).2).2)

/-- The symmetry of amplitudes with `n` occupied and `n` virtual orbitals. -/
def symGood (n : Nat) (q : List Nat × Bool) : Bool :=
  q.1.isPerm (List.range q.1.length) && q.1.length == 2 * n
    && (sortS (q.1.take n)).2 == List.range n && (sortS (q.1.drop n)).2 == List.range' n n
    && q.2 == xor (sortS (q.1.take n)).1 (sortS (q.1.drop n)).1

section
variable {R : Type} [Field R]

def sgnB (b : Bool) : R := if b then -1 else 1

theorem sgnB_not (b : Bool) : (sgnB (!b) : R) = -sgnB b := by cases b <;> simp [sgnB]
theorem sgnB_xor (a b : Bool) : (sgnB (xor a b) : R) = sgnB a * sgnB b := by cases a <;> cases b <;> simp [sgnB]

theorem insertS_sound {β : Type} (f : List β → R) (hf : ∀ (I J : List β) (x y : β), f (I ++ x :: y :: J) = -f (I ++ y :: x :: J))
    (g : Nat → β) (x : Nat) (l : List Nat) (pre : List β) :
    f (pre ++ g x :: l.map g) = sgnB (insertS x l).1 * f (pre ++ (insertS x l).2.map g) := by
  induction l generalizing pre with
  | nil => simp [insertS, sgnB]
  | cons y l ih =>
    by_cases h : x ≤ y
    · simp [insertS, h, sgnB]
    · have := ih (pre ++ [g y])
      simp only [List.append_assoc, List.singleton_append] at this
      simp only [insertS, if_neg h, sgnB_not, List.map_cons]
      rw [hf, this]
      ring

theorem sortS_sound {β : Type} (f : List β → R) (hf : ∀ (I J : List β) (x y : β), f (I ++ x :: y :: J) = -f (I ++ y :: x :: J))
    (g : Nat → β) (l : List Nat) (pre : List β) :
    f (pre ++ l.map g) = sgnB (sortS l).1 * f (pre ++ (sortS l).2.map g) := by
  induction l generalizing pre with
  | nil => simp [sortS, sgnB]
  | cons x l ih =>
    have := ih (pre ++ [g x])
    simp only [List.append_assoc, List.singleton_append] at this
    simp only [sortS, sgnB_xor, List.map_cons]
    rw [this, insertS_sound f hf]
    ring

/-- The tensor `16 + n` are the amplitudes with `n` occupied and `n` virtual orbitals. -/
def expTensor (T : List Orb → List Orb → R) (n : Nat) : List Orb → R :=
  if n = 15 then deltaT else fun l => T (l.take (n - 16)) (l.drop (n - 16))

theorem range_map_getD_exp {α : Type} (l : List α) (d : α) : ((List.range l.length).map fun k => l.getD k d) = l := by
  apply List.ext_getElem
  · simp
  · intro k h1 h2
    simp only [List.getElem_map, List.getElem_range]
    rw [getD_eq_getElem_chk _ _ h2]

theorem symGood_sound {T : List Orb → List Orb → R} (hT : Antisymmetric T) {n : Nat} {q : List Nat × Bool}
    (h : symGood n q = true) : SymAt (fun l => T (l.take n) (l.drop n)) q := by
  simp only [symGood, Bool.and_eq_true, beq_iff_eq, List.isPerm_iff] at h
  obtain ⟨⟨⟨⟨h1, h2⟩, h3⟩, h4⟩, h5⟩ := h
  refine ⟨h1, fun l hl => ?_⟩
  rw [h2] at hl
  simp only
  rw [← List.map_take, ← List.map_drop]
  have e1 := sortS_sound (fun I => T I ((q.1.drop n).map fun k => l.getD k (0, 0))) (fun I J x y => hT.occ I J x y _)
    (fun k => l.getD k (0, 0)) (q.1.take n) []
  have e2 := sortS_sound (fun A => T (l.take n) A) (fun I J x y => hT.vir _ I J x y)
    (fun k => l.getD k (0, 0)) (q.1.drop n) []
  simp only [List.nil_append, h3, h4] at e1 e2
  have r0 := range_map_getD_exp l (0, 0)
  have hr : List.range l.length = List.range n ++ List.range' n n := by
    rw [hl, two_mul, List.range_eq_range', List.range_eq_range', ← List.range'_append]
    simp
  rw [hr, List.map_append] at r0
  have r1 : (List.range n).map (fun k => l.getD k (0, 0)) = l.take n := by
    conv_rhs => rw [← r0]
    rw [List.take_left' (by simp)]
  have r2 : (List.range' n n).map (fun k => l.getD k (0, 0)) = l.drop n := by
    conv_rhs => rw [← r0]
    rw [List.drop_left' (by simp)]
  rw [r1] at e1
  rw [r2] at e2
  rw [e1, e2, h5]
  have := sgnB_xor (R := R) (sortS (q.1.take n)).1 (sortS (q.1.drop n)).1
  unfold sgnB at this ⊢
  rw [this]
  ring

/-- The symmetries used; for quadruples only those of the last two occupied and the last two virtual orbitals. -/
def expSym : TSym
  | 17 => [([0, 1], false)]
  | 18 => [([0, 1, 2, 3], false), ([0, 1, 3, 2], true), ([1, 0, 2, 3], true), ([1, 0, 3, 2], false)]
  | 19 => gSymAmps 2
  | 20 => [([0, 1, 2, 3, 4, 5, 6, 7], false), ([0, 1, 3, 2, 4, 5, 6, 7], true), ([0, 1, 2, 3, 4, 5, 7, 6], true),
      ([0, 1, 3, 2, 4, 5, 7, 6], false)]
  | _ => []

theorem expSym_ok {T : List Orb → List Orb → R} (hT : Antisymmetric T) : SymOk (expTensor T) expSym := by
  refine ⟨fun t q hq => ?_, rfl⟩
  change SymAt (expTensor T t) q
  have key : ∀ n, (∀ q ∈ expSym (16 + n), symGood n q = true) → t = 16 + n → SymAt (expTensor T t) q := by
    intro n hn ht
    subst ht
    have h1 := symGood_sound hT (hn q hq)
    unfold expTensor
    rw [if_neg (by omega)]
    simpa using h1
  match t, hq with
  | 17, hq => exact key 1 (by decide) rfl
  | 18, hq => exact key 2 (by decide) rfl
  | 19, hq => exact key 3 (by decide) rfl
  | 20, hq => exact key 4 (by decide) rfl
  | 0, hq | 1, hq | 2, hq | 3, hq | 4, hq | 5, hq | 6, hq | 7, hq | 8, hq | 9, hq | 10, hq | 11, hq | 12, hq
  | 13, hq | 14, hq | 15, hq | 16, hq => cases hq
  | n + 21, hq => cases hq

/-! ### Arguments -/

/-- Amplitudes times `num / 24 ^ k` as an argument. -/
def ampArg (num : Int) (k : Nat) (sp : List Nat) : TArg := (sp, [(num, k, [], [(16 + sp.length / 2, frees 0 sp)])])

theorem ampArg_rep (sz : Nat → Nat) (T : List Orb → List Orb → R) (num : Int) (k : Nat) (sp : List Nat)
    (hs : ∀ s ∈ sp, s < 16) : ArgRep sz (expTensor T) (ampArg num k sp) (ampArr sz T (tcoef num k) sp) := by
  refine ⟨NDArray.ofFn_shape _ _, NDArray.ofFn_wf _ _, fun idx hidx => ?_⟩
  rw [ampArr, NDArray.ofFn_shape] at hidx
  have hl : idx.length = sp.length := by simpa using InBox.length_eq hidx
  rw [ampArr, NDArray.get_ofFn _ _ hidx]
  have h15 : 16 + sp.length / 2 ≠ 15 := by omega
  simp [ampArg, rawVal, facsVal, facVal, einSum, frees_val sp idx hs hl, expTensor, h15, splitAxes, mul_comm]

/-- The number of labels of orbitals of spin β. -/
def betaLabels (l : List Nat) : Nat := l.countP fun i => decide (4 ≤ i % 16)

/-- Coefficients of `exp(T)` as an argument; `cons` says that terms with factors which change the spin are left out. -/
def coefArg (cons : Bool) (sp : List Nat) : TArg :=
  (sp, ((expTerms ((frees 0 sp).take (sp.length / 2)) ((frees 0 sp).drop (sp.length / 2))).filter fun x =>
    !cons || x.2.all fun p => betaLabels p.1 == betaLabels p.2).map fun x =>
      (x.1, 0, [], x.2.map fun p => (16 + p.1.length, p.1 ++ p.2)))

theorem sum_filter_exp {α : Type} (p : α → Bool) (f : α → R) (l : List α) (h : ∀ x ∈ l, p x = false → f x = 0) :
    ((l.filter p).map f).sum = (l.map f).sum := by
  induction l with
  | nil => rfl
  | cons x l ih =>
    have ih' := ih fun y hy => h y (List.mem_cons_of_mem _ hy)
    by_cases hp : p x = true
    · rw [List.filter_cons_of_pos hp, List.map_cons, List.map_cons, List.sum_cons, List.sum_cons, ih']
    · have hp' : p x = false := by simpa using hp
      rw [List.filter_cons_of_neg hp, List.map_cons, List.sum_cons, ih', h x (List.mem_cons_self ..) hp', zero_add]

theorem coefArg_rep (sz : Nat → Nat) (T : List Orb → List Orb → R) (cons : Bool) (hT : cons = true → SpinConserving T)
    (sp : List Nat) (hs : ∀ s ∈ sp, s < 16) : ArgRep sz (expTensor T) (coefArg cons sp) (coefArr sz T sp) := by
  refine ⟨NDArray.ofFn_shape _ _, NDArray.ofFn_wf _ _, fun idx hidx => ?_⟩
  rw [coefArr, NDArray.ofFn_shape] at hidx
  have hl : idx.length = sp.length := by simpa using InBox.length_eq hidx
  rw [coefArr, NDArray.get_ofFn _ _ hidx]
  have hz := frees_val sp idx hs hl
  have h1 : (splitAxes sp idx).1 = ((frees 0 sp).take (sp.length / 2)).map fun i => (i % 16, frEnv idx i) := by
    rw [List.map_take, hz]; rfl
  have h2 : (splitAxes sp idx).2 = ((frees 0 sp).drop (sp.length / 2)).map fun i => (i % 16, frEnv idx i) := by
    rw [List.map_drop, hz]; rfl
  rw [h1, h2, expCoeff, expTerms_map]
  simp only [coefArg, List.map_map, Function.comp_def]
  have hterm : ∀ x ∈ expTerms ((frees 0 sp).take (sp.length / 2)) ((frees 0 sp).drop (sp.length / 2)),
      rawVal sz (expTensor T) (x.1, 0, [], x.2.map fun p => (16 + p.1.length, p.1 ++ p.2)) (frEnv idx)
        = (x.1 : R) * (x.2.map fun p => T (p.1.map fun i => (i % 16, frEnv idx i)) (p.2.map fun i => (i % 16, frEnv idx i))).prod := by
    intro x hx
    simp only [rawVal, facsVal, einSum, tcoef, pow_zero, div_one, List.map_map, Function.comp_def]
    congr 2
    apply List.map_congr_left
    intro p hp
    have hlen := expTermsN_length _ _ _ x hx p hp
    have h15 : 16 + p.1.length ≠ 15 := by omega
    simp only [facVal, expTensor, if_neg h15, Nat.add_sub_cancel_left, List.map_append]
    rw [List.take_left' (by simp), List.drop_left' (by simp)]
  rw [sum_filter_exp]
  · exact (congrArg List.sum (List.map_congr_left hterm)).symm
  · intro x hx hf
    rw [hterm x hx]
    simp only [Bool.or_eq_false_iff, Bool.not_eq_false', List.all_eq_false, beq_iff_eq] at hf
    obtain ⟨hc, p, hp, hne⟩ := hf
    have h0 : T (p.1.map fun i => (i % 16, frEnv idx i)) (p.2.map fun i => (i % 16, frEnv idx i)) = 0 := by
      apply hT hc
      simp only [betas, List.countP_map, Function.comp_def]
      exact hne
    rw [List.prod_eq_zero (List.mem_map.2 ⟨p, hp, h0⟩), mul_zero]

/-! ### Results -/

/-- The results are the given polynomials. -/
noncomputable def symTargets {σ : Type} (cn : TCanon σ) (d : Dict (List Char) TVar) : List (List Char × TArg) → σ → Bool
  | [], _ => true
  | (name, w) :: l, st =>
    match d.get? name, symArg cn w st with
    | some v, some (u, st) => bif eqNats v.1 u.1 then (bif polyEq v.2 u.2 then symTargets cn d l st else false) else false
    | _, _ => false

theorem Rep.unique [CharZero R] {sz : Nat → Nat} {T : Nat → List (Nat × Nat) → R} {v u : TVar} {a b : NDArray R}
    (ha : Rep sz T v a) (hb : Rep sz T u b) (hs : v.1 = u.1) (hp : polyEq v.2 u.2 = true) : a = b := by
  apply NDArray.ext_get ha.wf hb.wf (by rw [ha.shape, hb.shape, hs])
  intro idx hidx
  rw [ha.val idx hidx, hb.val idx (by rw [hb.shape, ← hs, ← ha.shape]; exact hidx), polyEq_sound sz T hp]

theorem symTargets_sound [CharZero R] {σ : Type} {sz : Nat → Nat} {T : Nat → List (Nat × Nat) → R}
    {cn : TCanon σ} (hcn : CanonOk sz T cn) {d : Dict (List Char) TVar} {r : Dict (List Char) (NDArray R)}
    (hd : DictRep sz T d r) (l : List (List Char × TArg)) (st : σ) (h : symTargets cn d l st = true) :
    ∀ x ∈ l, ∀ b, ArgRep sz T x.2 b → r.get? x.1 = some b := by
  induction l generalizing st with
  | nil => intro x hx; cases hx
  | cons y l ih =>
    obtain ⟨name, w⟩ := y
    simp only [symTargets] at h
    cases h1 : d.get? name with
    | none => rw [h1] at h; cases h
    | some v =>
    cases h2 : symArg cn w st with
    | none => rw [h1, h2] at h; cases h
    | some q =>
      obtain ⟨u, st'⟩ := q
      rw [h1, h2] at h
      simp only at h
      obtain ⟨h3, h4⟩ := bif_true h
      obtain ⟨h5, h6⟩ := bif_true h4
      intro x hx b hb
      rcases List.mem_cons.1 hx with rfl | hx
      · obtain ⟨a, a1, a2⟩ := hd.get h1
        have hu := symArg_sound sz T cn hcn w b hb st u st' h2
        rw [a1, a2.unique hu (eqNats_eq h3) h5]
      · exact ih st' h6 x hx b hb

/-- A call has the given results. -/
noncomputable def checkFun {σ : Type} (cn : TCanon σ) (st : σ) (f : GenFun) (vals : List Char → Option TArg)
    (targets : List (List Char × TArg)) : Bool :=
  match f.sym cn (fun s => s) (baseVals cn vals) st with
  | none => false
  | some (d, st) => symTargets cn d targets st

theorem checkFun_sound [CharZero R] [DecidableEq R] {sz : Nat → Nat} {T : Nat → List (Nat × Nat) → R} {sy : TSym}
    (hsy : SymOk T sy) {method : ContractMethod}
    {path : List (List Char) → List Char → List (NDArray R) → List Contraction} (hpath : PathOk path)
    {vals : List Char → Option TArg} {avals : List Char → Option (NDArray R)}
    (hv : ∀ name v, vals name = some v → ∃ a, avals name = some a ∧ ArgRep sz T v a)
    {f : GenFun} {hints : List Nat} {targets : List (List Char × TArg)}
    (h : checkFun (canonByHints sy) hints f vals targets = true) :
    ∃ r, f.call method path sz avals = .ok r ∧ ∀ x ∈ targets, ∀ b, ArgRep sz T x.2 b → r.get? x.1 = some b := by
  have hcn := canonByHints_sound sz T sy hsy
  unfold checkFun at h
  cases h1 : f.sym (canonByHints sy) (fun s => s) (baseVals (canonByHints sy) vals) hints with
  | none => rw [h1] at h; cases h
  | some x =>
    obtain ⟨d, st⟩ := x
    rw [h1] at h
    obtain ⟨r, r1, r2⟩ := GenFun.sym_sound sz T _ hcn method path hpath sz (fun s => s) (fun _ => rfl) _ avals
      (baseVals_rep sz T _ hcn vals avals hv) f hints d st h1
    exact ⟨r, r1, symTargets_sound hcn r2 targets st h⟩

end
end Ebcc
