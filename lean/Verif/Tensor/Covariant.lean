import Verif.Lemmas.Rotated
import Verif.Tensor.Run
/-!
Spaces of the axes of variables in generated functions, and what they imply for rotated arguments.
-/

namespace Ebcc

/-! ### The spaces -/

local macro "sel!" c:term:max t:term:max e:term:max : term => `(@Bool.rec (fun _ => _) $e $t $c)

/-- The label occurs once. -/
def onceB (a : Nat) (l : List Nat) : Bool :=
  @List.rec Nat (fun _ => Bool) false (fun b l ih => sel! (Nat.beq b a) (sel! (memB a l) false true) ih) l

/-- The label occurs twice. -/
def twiceB (a : Nat) (l : List Nat) : Bool :=
  @List.rec Nat (fun _ => Bool) false (fun b l ih => sel! (Nat.beq b a) (onceB a l) ih) l

def allTwiceB (ls : List Nat) (tbl : List (Nat × Nat)) : Bool :=
  @List.rec (Nat × Nat) (fun _ => Bool) true (fun p _ ih => sel! (twiceB p.1 ls) ih false) tbl

/-- The spaces of the axes of a contraction, if each label occurs twice. -/
def covEinV (vs : List (List Nat × TVar)) (out : List Nat) : Option (List Nat) :=
  opsTbl vs [] fun tbl => outSpaces tbl out fun osp =>
    bif nodupB out then
      forceNats ((vs.map Prod.fst).flatten ++ out) fun ls => bif allTwiceB ls tbl then some osp else none
    else none

def covExpr (env : TEnv) : GenExpr → Option (List Nat)
  | .cp y => match getVar y env with
    | none => none
    | some v => some v.1
  | .tr y perm => match getVar y env with
    | none => none
    | some v => bif permNats perm (countUp 0 v.1) then covEinV [(countUp 0 v.1, v)] perm else none
  | .ein [] _ => none
  | .ein (p :: ops) out => getVars env (p :: ops) fun vs => covEinV vs out

def covStmt (env : TEnv) : GenStmt → Option TEnv
  | .set x e _ _ => match covExpr env e with
    | none => none
    | some sp => setVar x (sp, []) env some
  | .add x e _ _ => match covExpr env e, getVar x env with
    | some sp, some v => bif eqNats sp v.1 then some env else none
    | _, _ => none
  | .zeros x sp => setVar x (sp, []) env some
  | .eye x s => setVar x ([s, s], []) env some
  | .del x => match getVar x env with
    | none => none
    | some _ => delVar x env some

def covRun : List GenStmt → TEnv → Option TEnv
  | [], env => some env
  | s :: l, env => match covStmt env s with
    | none => none
    | some env => covRun l env

def covBind (ty : List Char → Option (List Nat)) : List (List Char) → Nat → TEnv → Option TEnv
  | [], _, env => some env
  | name :: l, k, env => match ty name with
    | none => none
    | some sp => covBind ty l (k + 1) ((k, (sp, [])) :: env)

def covCollect (env : TEnv) : List (List Char × Nat) → Option (Dict (List Char) (List Nat))
  | [] => some []
  | (name, x) :: l => match getVar x env, covCollect env l with
    | some v, some r => some ((name, v.1) :: r)
    | _, _ => none

/-- The spaces of the axes of the results, if the arguments have axes of the spaces `ty`; each label of a
contraction occurs twice. -/
def GenFun.covTypes (g : GenFun) (ty : List Char → Option (List Nat)) : Option (Dict (List Char) (List Nat)) :=
  match covBind ty g.args 0 [] with
  | none => none
  | some env => match covRun g.body env with
    | none => none
    | some env => covCollect env g.ret

/-- The spaces of the axes of intermediates. -/
def covInts (i : Dict (List Char) (List Nat)) (ty : List Char → Option (List Nat)) : List Char → Option (List Nat)
  | 'i' :: 'n' :: 't' :: 's' :: '.' :: name => i.get? name
  | name => ty name

def covResEq : Dict (List Char) (List Nat) → Dict (List Char) (List Nat) → Bool
  | [], [] => true
  | (n, sp) :: l, (n', sp') :: l' => decide (n = n') && (eqNats sp sp' && covResEq l l')
  | _, _ => false

def GenFun.covCheck (g : GenFun) (ty : List Char → Option (List Nat)) (res : Dict (List Char) (List Nat)) : Bool :=
  match g.covTypes ty with
  | none => false
  | some r => covResEq r res

def covCheckInts (gi g : GenFun) (ty : List Char → Option (List Nat)) (res : Dict (List Char) (List Nat)) : Bool :=
  match gi.covTypes ty with
  | none => false
  | some i => g.covCheck (covInts i ty) res

theorem onceB_count {a : Nat} {l : List Nat} (h : onceB a l = true) : l.count a = 1 := by
  induction l with
  | nil => cases h
  | cons b l ih =>
    simp only [onceB] at h
    cases hb : Nat.beq b a with
    | true =>
      rw [hb] at h
      have hba := Nat.eq_of_beq_eq_true hb
      cases hm : memB a l with
      | true => rw [hm] at h; cases h
      | false =>
        have : a ∉ l := fun h' => by rw [memB_iff.2 h'] at hm; cases hm
        rw [hba, List.count_cons_self, List.count_eq_zero.2 this]
    | false =>
      rw [hb] at h
      have hba : b ≠ a := fun e => by rw [e, Nat.beq_refl] at hb; cases hb
      rw [List.count_cons_of_ne hba]
      exact ih h

theorem twiceB_count {a : Nat} {l : List Nat} (h : twiceB a l = true) : l.count a = 2 := by
  induction l with
  | nil => cases h
  | cons b l ih =>
    simp only [twiceB] at h
    cases hb : Nat.beq b a with
    | true =>
      rw [hb] at h
      rw [Nat.eq_of_beq_eq_true hb, List.count_cons_self, onceB_count h]
    | false =>
      rw [hb] at h
      have hba : b ≠ a := fun e => by rw [e, Nat.beq_refl] at hb; cases hb
      rw [List.count_cons_of_ne hba]
      exact ih h

theorem allTwiceB_count {ls : List Nat} {tbl : List (Nat × Nat)} (h : allTwiceB ls tbl = true) :
    ∀ p ∈ tbl, ls.count p.1 = 2 := by
  induction tbl with
  | nil => intro p hp; cases hp
  | cons q tbl ih =>
    simp only [allTwiceB] at h
    cases hq : twiceB q.1 ls with
    | false => rw [hq] at h; cases h
    | true =>
      rw [hq] at h
      intro p hp
      rcases List.mem_cons.1 hp with rfl | hp
      · exact twiceB_count hq
      · exact ih h p hp

theorem covResEq_eq {l m : Dict (List Char) (List Nat)} (h : covResEq l m = true) : l = m := by
  induction l generalizing m with
  | nil => cases m with
    | nil => rfl
    | cons _ _ => cases h
  | cons x l ih => cases m with
    | nil => cases h
    | cons y m =>
      obtain ⟨n, sp⟩ := x
      obtain ⟨n', sp'⟩ := y
      simp only [covResEq, Bool.and_eq_true, decide_eq_true_iff] at h
      rw [h.1, eqNats_eq h.2.1, ih h.2.2]

section
variable {R : Type} [Field R]

/-! ### Rotated arrays -/

theorem rotSum_congr (sz : Nat → Nat) (C : Nat → Nat → Nat → R) (sp idx : List Nat) (hl : idx.length = sp.length)
    {F G : List Nat → R} (h : ∀ js, InBox (sp.map sz) js → F js = G js) :
    rotSum sz C sp idx F = rotSum sz C sp idx G := by
  induction sp generalizing idx F G with
  | nil => cases idx with
    | nil => exact h [] .nil
    | cons _ _ => simp at hl
  | cons s sp ih => cases idx with
    | nil => simp at hl
    | cons i idx =>
      simp only [rotSum]
      congr 1
      apply List.map_congr_left
      intro j hj
      rw [ih idx (by simpa using hl) fun js hjs => h (j :: js) (.cons (List.mem_range.1 hj) hjs)]

theorem rotSum_mul (sz : Nat → Nat) (C : Nat → Nat → Nat → R) (sp idx : List Nat) (F : List Nat → R) (c : R) :
    rotSum sz C sp idx (fun js => F js * c) = rotSum sz C sp idx F * c := by
  induction sp generalizing idx F with
  | nil => cases idx <;> rfl
  | cons s sp ih => cases idx with
    | nil => rfl
    | cons i idx =>
      simp only [rotSum, ih, ← mul_assoc]
      exact List.sum_map_mul_right _ _ _

theorem rotSum_add (sz : Nat → Nat) (C : Nat → Nat → Nat → R) (sp idx : List Nat) (F G : List Nat → R) :
    rotSum sz C sp idx (fun js => F js + G js) = rotSum sz C sp idx F + rotSum sz C sp idx G := by
  induction sp generalizing idx F G with
  | nil => cases idx <;> rfl
  | cons s sp ih => cases idx with
    | nil => rfl
    | cons i idx =>
      simp only [rotSum, ih, mul_add]
      exact List.sum_map_add

/-- An array with axes of the spaces `sp`, and the array in terms of rotated orbitals. -/
structure RotRep (sz : Nat → Nat) (C : Nat → Nat → Nat → R) (sp : List Nat) (a b : NDArray R) : Prop where
  shape : a.shape = sp.map sz
  wf : a.WF
  eq : b = rotated sz C sp a

theorem RotRep.of_get {sz : Nat → Nat} {C : Nat → Nat → Nat → R} {sp : List Nat} {a b : NDArray R}
    (ha : a.shape = sp.map sz) (hw : a.WF) (hb : b.shape = sp.map sz) (hwb : b.WF)
    (h : ∀ idx, InBox (sp.map sz) idx → b.get idx = rotSum sz C sp idx a.get) : RotRep sz C sp a b := by
  refine ⟨ha, hw, ?_⟩
  unfold rotated
  refine NDArray.ext_get hwb (NDArray.ofFn_wf _ _) hb fun idx hidx => ?_
  rw [hb] at hidx
  rw [NDArray.get_ofFn _ _ hidx, h idx hidx]

theorem RotRep.shape' {sz : Nat → Nat} {C : Nat → Nat → Nat → R} {sp : List Nat} {a b : NDArray R}
    (h : RotRep sz C sp a b) : b.shape = sp.map sz := by rw [h.eq]; rfl

theorem RotRep.wf' {sz : Nat → Nat} {C : Nat → Nat → Nat → R} {sp : List Nat} {a b : NDArray R}
    (h : RotRep sz C sp a b) : b.WF := by rw [h.eq]; exact NDArray.ofFn_wf _ _

theorem RotRep.get {sz : Nat → Nat} {C : Nat → Nat → Nat → R} {sp : List Nat} {a b : NDArray R}
    (h : RotRep sz C sp a b) {idx : List Nat} (hi : InBox (sp.map sz) idx) :
    b.get idx = rotSum sz C sp idx a.get := by
  rw [h.eq]
  exact NDArray.get_ofFn _ _ hi

theorem inBox_len_rot {sz : Nat → Nat} {sp idx : List Nat} (h : InBox (sp.map sz) idx) : idx.length = sp.length := by
  simpa using InBox.length_eq h

theorem RotRep.times {sz : Nat → Nat} {C : Nat → Nat → Nat → R} {sp : List Nat} {a b : NDArray R}
    (h : RotRep sz C sp a b) (num : Int) (den : Nat) : RotRep sz C sp (a.times num den) (b.times num den) := by
  refine .of_get h.shape (map_wf a _ h.wf) h.shape' (map_wf b _ h.wf') fun idx hidx => ?_
  rw [NDArray.times, get_map b _ (by simp), h.get hidx, ← rotSum_mul]
  apply rotSum_congr sz C sp idx (inBox_len_rot hidx)
  intro js _
  rw [NDArray.times, get_map a _ (by simp)]

theorem RotRep.add {sz : Nat → Nat} {C : Nat → Nat → Nat → R} {sp : List Nat} {a b a' b' : NDArray R}
    (h : RotRep sz C sp a b) (h' : RotRep sz C sp a' b') :
    ∃ r r', a.add a' = .ok r ∧ b.add b' = .ok r' ∧ RotRep sz C sp r r' := by
  obtain ⟨c, c1, c2, c3, c4⟩ := add_ok a a' h.wf h'.wf (by rw [h.shape, h'.shape])
  obtain ⟨d, d1, d2, d3, d4⟩ := add_ok b b' h.wf' h'.wf' (by rw [h.shape', h'.shape'])
  refine ⟨c, d, c1, d1, .of_get (by rw [c2, h.shape]) c3 (by rw [d2, h.shape']) d3 fun idx hidx => ?_⟩
  rw [d4, h.get hidx, h'.get hidx, ← rotSum_add]
  apply rotSum_congr sz C sp idx (inBox_len_rot hidx)
  intro js _
  rw [c4]

theorem rotRep_zeros (sz : Nat → Nat) (C : Nat → Nat → Nat → R) (sp : List Nat) :
    RotRep sz C sp (NDArray.zeros (sp.map sz)) (NDArray.zeros (sp.map sz)) := by
  refine .of_get rfl (NDArray.ofFn_wf _ _) rfl (NDArray.ofFn_wf _ _) fun idx hidx => ?_
  have h : ∀ js, InBox (sp.map sz) js → (NDArray.zeros (sp.map sz) : NDArray R).get js = 0 :=
    fun js hjs => NDArray.get_ofFn _ _ hjs
  rw [h idx hidx, rotSum_congr sz C sp idx (inBox_len_rot hidx) (G := fun js => 0 * 0) fun js hjs => by
    rw [h js hjs, mul_zero], rotSum_mul, mul_zero]

theorem rotRep_eye (sz : Nat → Nat) (C : Nat → Nat → Nat → R) (hC : Orthogonal sz C) (s : Nat) :
    RotRep sz C [s, s] (eyeArr (sz s)) (eyeArr (sz s)) := by
  refine .of_get rfl (NDArray.ofFn_wf _ _) rfl (NDArray.ofFn_wf _ _) fun idx hidx => ?_
  have hget : ∀ i j, i < sz s → j < sz s → (eyeArr (sz s) : NDArray R).get [i, j] = if i = j then 1 else 0 := by
    intro i j hi hj
    unfold eyeArr
    rw [NDArray.get_ofFn _ _ (.cons hi (.cons hj .nil))]
    rfl
  match idx, inBox_len_rot hidx with
  | [i, j], _ =>
    cases hidx with
    | cons hi h => cases h with
      | cons hj _ =>
        rw [hget i j hi hj, ← (hC s i j hi hj).2]
        simp only [rotSum]
        congr 1
        apply List.map_congr_left
        intro k hk
        rw [List.mem_range] at hk
        congr 1
        rw [sum_range_eq_finset, Finset.sum_eq_single k]
        · rw [hget k k hk hk, if_pos rfl, mul_one]
        · intro l hl hne
          rw [hget k l hk (Finset.mem_range.1 hl), if_neg hne.symm, mul_zero]
        · intro h
          exact absurd (Finset.mem_range.2 hk) h

/-! ### Expressions -/

/-- The operands of a contraction, and their rotated arrays. -/
abbrev RotOps (sz : Nat → Nat) (C : Nat → Nat → Nat → R) (vs : List (List Nat × TVar))
    (L : List (NDArray R × List Nat)) (L' : List (NDArray R × List Nat)) : Prop :=
  List.Forall₂ (fun o x => x.2 = o.1 ∧ x.1.shape = o.2.1.map sz ∧ x.1.WF) vs L ∧
    L' = (vs.zip L).map fun p => (rotated sz C p.1.2.1 p.2.1, p.1.1)

theorem covEinV_spec (sz : Nat → Nat) (C : Nat → Nat → Nat → R) (hC : Orthogonal sz C)
    (vs : List (List Nat × TVar)) (L L' : List (NDArray R × List Nat)) (hL : RotOps sz C vs L L')
    (out osp : List Nat) (h : covEinV vs out = some osp) :
    ∃ sp : Nat → Nat, (∀ x ∈ L, ∀ i ∈ x.2, i < 52) ∧ out.Nodup ∧ (∀ i ∈ out, ∃ x ∈ L, i ∈ x.2) ∧
      (∀ x ∈ L, x.1.shape = x.2.map fun l => sz (sp l)) ∧ osp = out.map sp ∧
      L' = L.map (fun x => (rotated sz C (x.2.map sp) x.1, x.2)) ∧
      (∀ r : NDArray R, (∀ e : Nat → Nat, (∀ l ∈ out, e l < sz (sp l)) →
        r.get (out.map e) = einValue (fun l => sz (sp l)) (L.map Prod.swap) out e) →
        ∀ e : Nat → Nat, (∀ l ∈ out, e l < sz (sp l)) →
          einValue (fun l => sz (sp l)) (L'.map Prod.swap) out e = rotSum sz C (out.map sp) (out.map e) r.get) := by
  unfold covEinV at h
  obtain ⟨tbl, hA, htbl, _, hops, hkeys⟩ := opsTbl_spec vs [] (by simp [TblOk]) _ _ h
  clear h
  obtain ⟨osp', h, hosp⟩ := outSpaces_spec tbl out _ _ hA
  clear hA
  cases hn : nodupB out with
  | false => rw [hn] at h; cases h
  | true =>
  rw [hn, cond_true] at h
  rw [forceNats_eq] at h
  cases ht : allTwiceB ((vs.map Prod.fst).flatten ++ out) tbl with
  | false => rw [ht] at h; cases h
  | true =>
    rw [ht] at h
    cases h
    obtain ⟨hL1, hL2⟩ := hL
    have hno := nodupB_nodup hn
    obtain ⟨sp, hsp⟩ : ∃ sp : Nat → Nat, sp = fun l => (lookupN l tbl).getD 0 := ⟨_, rfl⟩
    have hspt : ∀ l s, (l, s) ∈ tbl → sp l = s := by
      intro l s h
      rw [hsp]
      simp only
      rw [lookupN_of_mem htbl.1 h]
      rfl
    have hmaps : ∀ (ls ss : List Nat), List.Forall₂ (fun l s => (l, s) ∈ tbl) ls ss → ss = ls.map sp := by
      intro ls ss h
      induction h with
      | nil => rfl
      | cons h _ ih => rw [List.map_cons, hspt _ _ h, ← ih]
    have hsnd : L.map Prod.snd = vs.map Prod.fst := by
      clear hL2 hops hkeys ht
      induction hL1 with
      | nil => rfl
      | cons h _ ih => simp [h.1, ih]
    have hmem : ∀ x ∈ L, ∃ o ∈ vs, x.2 = o.1 ∧ x.1.shape = o.2.1.map sz ∧ o.2.1 = o.1.map sp := by
      intro x hx
      obtain ⟨k, hk, rfl⟩ := List.getElem_of_mem hx
      have hk' : k < vs.length := by rw [hL1.length_eq]; exact hk
      have := (List.forall₂_iff_get.1 hL1).2 k hk' hk
      exact ⟨vs[k], List.getElem_mem hk', this.1, this.2.1, hmaps _ _ (hops _ (List.getElem_mem hk'))⟩
    have hlt : ∀ x ∈ L, ∀ i ∈ x.2, i < 52 := by
      intro x hx i hi
      obtain ⟨o, ho, h1, _, _⟩ := hmem x hx
      rw [h1] at hi
      obtain ⟨k, hk, rfl⟩ := List.getElem_of_mem hi
      have h2 := hops o ho
      have hk' : k < o.2.1.length := by rw [← h2.length_eq]; exact hk
      exact (htbl.2 _ ((List.forall₂_iff_get.1 h2).2 k hk hk')).1
    have houtL : ∀ i ∈ out, ∃ x ∈ L, i ∈ x.2 := by
      intro i hi
      obtain ⟨k, hk, rfl⟩ := List.getElem_of_mem hi
      have hk' : k < osp.length := by rw [← hosp.length_eq]; exact hk
      have h2 := (List.forall₂_iff_get.1 hosp).2 k hk hk'
      rcases hkeys _ h2 with h3 | ⟨o, ho, h3⟩
      · cases h3
      · have : o.1 ∈ L.map Prod.snd := by rw [hsnd]; exact List.mem_map_of_mem ho
        obtain ⟨x, hx, hxo⟩ := List.mem_map.1 this
        exact ⟨x, hx, by rw [hxo]; exact h3⟩
    have hL' : L' = L.map (fun x => (rotated sz C (x.2.map sp) x.1, x.2)) := by
      rw [hL2]
      clear hL2 hmem hlt houtL hsnd hkeys ht
      induction hL1 with
      | nil => rfl
      | cons h _ ih =>
        simp only [List.zip_cons_cons, List.map_cons]
        rw [ih fun o ho => hops o (by simp [ho]), hmaps _ _ (hops _ (List.mem_cons_self)), h.1]
    refine ⟨sp, hlt, hno, houtL, fun x hx => ?_, hmaps _ _ hosp, hL', fun r hr e he => ?_⟩
    · obtain ⟨o, _, h1, h2, h3⟩ := hmem x hx
      rw [h2, h3, h1, List.map_map]
      rfl
    · rw [hL']
      apply einValue_rotated sz C hC sp L out hlt hno _ _ r hr e he
      · intro l hl
        obtain ⟨x, hx, hlx⟩ := houtL l hl
        exact List.mem_flatten.2 ⟨x.2, List.mem_map_of_mem hx, hlx⟩
      · intro l hl
        rw [hsnd] at hl ⊢
        obtain ⟨ls, hls, hl⟩ := List.mem_flatten.1 hl
        obtain ⟨o, ho, rfl⟩ := List.mem_map.1 hls
        obtain ⟨k, hk, rfl⟩ := List.getElem_of_mem hl
        have h2 := hops o ho
        have hk' : k < o.2.1.length := by rw [← h2.length_eq]; exact hk
        exact allTwiceB_count ht _ ((List.forall₂_iff_get.1 h2).2 k hk hk')

/-- The variables, and those of the call with rotated arguments. -/
def EnvRot (sz : Nat → Nat) (C : Nat → Nat → Nat → R) (env : TEnv) (st st' : GenStore R) : Prop :=
  ∀ x v, getVar x env = some v → ∃ a b, st x = some a ∧ st' x = some b ∧ RotRep sz C v.1 a b

theorem EnvRot.set {sz : Nat → Nat} {C : Nat → Nat → Nat → R} {env env' : TEnv} {st st' : GenStore R}
    (h : EnvRot sz C env st st') {x : Nat} {v : TVar} {a b : NDArray R} (hr : RotRep sz C v.1 a b)
    (he : ∀ y, getVar y env' = if y = x then some v else getVar y env) :
    EnvRot sz C env' (Function.update st x (some a)) (Function.update st' x (some b)) := by
  intro y w hy
  rw [he y] at hy
  by_cases hyx : y = x
  · subst hyx
    rw [if_pos rfl] at hy
    cases hy
    exact ⟨a, b, by simp, by simp, hr⟩
  · rw [if_neg hyx] at hy
    obtain ⟨c, d, h1, h2, h3⟩ := h y w hy
    exact ⟨c, d, by rw [Function.update_of_ne hyx]; exact h1, by rw [Function.update_of_ne hyx]; exact h2, h3⟩

theorem getVars_rot {α : Type} {sz : Nat → Nat} {C : Nat → Nat → Nat → R} {env : TEnv}
    {st st' : GenStore R} (henv : EnvRot sz C env st st') (ops : List (Nat × List Nat))
    (k : List (List Nat × TVar) → Option α) (x : α) (h : getVars env ops k = some x) :
    ∃ vs L L', k vs = some x ∧ st.loadAll ops = .ok L ∧ st'.loadAll ops = .ok L' ∧ L.length = ops.length ∧
      L'.length = ops.length ∧ RotOps sz C vs L L' := by
  induction ops generalizing k with
  | nil => exact ⟨[], [], [], h, rfl, rfl, rfl, rfl, .nil, rfl⟩
  | cons p ops ih =>
    obtain ⟨y, ls⟩ := p
    have e : getVars env ((y, ls) :: ops) k = (match getVar y env with
        | none => none
        | some v => forceNats ls fun ls => getVars env ops fun r => k ((ls, v) :: r)) := by
      show @Option.rec TVar (fun _ => Option α) _ _ (getVar y env) = _
      cases getVar y env <;> rfl
    rw [e] at h
    cases hg : getVar y env with
    | none => rw [hg] at h; cases h
    | some v =>
      rw [hg] at h
      simp only [forceNats_eq] at h
      obtain ⟨vs, L, L', h1, h2, h3, h4, h5, h6, h7⟩ := ih _ h
      obtain ⟨a, b, a1, b1, ab⟩ := henv y v hg
      refine ⟨(ls, v) :: vs, (a, ls) :: L, (b, ls) :: L', h1, ?_, ?_, by simp [h4], by simp [h5],
        .cons ⟨rfl, ab.shape, ab.wf⟩ h6, ?_⟩
      · simp only [GenStore.loadAll, GenStore.load, a1, h2, bind, Except.bind, pure, Except.pure]
      · simp only [GenStore.loadAll, GenStore.load, b1, h3, bind, Except.bind, pure, Except.pure]
      · simp only [List.zip_cons_cons, List.map_cons, ← h7, ab.eq]

theorem covExpr_sound [DecidableEq R] (sz : Nat → Nat) (C : Nat → Nat → Nat → R) (hC : Orthogonal sz C)
    (method : ContractMethod)
    (path : List (List Char) → List Char → List (NDArray R) → List Contraction) (hpath : PathOk path)
    {env : TEnv} {st st' : GenStore R} (henv : EnvRot sz C env st st') (e : GenExpr) (sp : List Nat)
    (h : covExpr env e = some sp) :
    ∃ a b, e.eval method path st = .ok a ∧ e.eval method path st' = .ok b ∧ RotRep sz C sp a b := by
  cases e with
  | cp y =>
    simp only [covExpr] at h
    cases hg : getVar y env with
    | none => rw [hg] at h; cases h
    | some w =>
      rw [hg] at h
      cases h
      obtain ⟨a, b, a1, b1, ab⟩ := henv y _ hg
      exact ⟨a, b, by simp [GenExpr.eval, GenStore.load, a1], by simp [GenExpr.eval, GenStore.load, b1], ab⟩
  | tr y perm =>
    simp only [covExpr] at h
    cases hg : getVar y env with
    | none => rw [hg] at h; cases h
    | some w =>
      rw [hg] at h
      simp only at h
      cases hp : permNats perm (countUp 0 w.1) with
      | false => rw [hp] at h; cases h
      | true =>
        rw [hp, cond_true] at h
        obtain ⟨a, b, a1, b1, ab⟩ := henv y _ hg
        have hperm := permNats_perm hp
        rw [countUp_eq, ← List.range_eq_range'] at hperm h
        obtain ⟨lsp, _, h2, _, h4, h5, h6, h7⟩ := covEinV_spec sz C hC [(List.range w.1.length, w)]
          [(a, List.range w.1.length)] [(b, List.range w.1.length)]
          ⟨.cons ⟨rfl, ab.shape, ab.wf⟩ .nil, by simp [ab.eq]⟩ perm sp h
        have hsa : a.shape = (List.range w.1.length).map fun l => sz (lsp l) :=
          h4 (a, List.range w.1.length) (by simp)
        have hsb : b.shape = (List.range w.1.length).map fun l => sz (lsp l) := by rw [ab.shape', ← ab.shape, hsa]
        have hid : perm.map (List.range w.1.length).idxOf = perm := by
          conv_rhs => rw [← List.map_id perm]
          apply List.map_congr_left
          intro k hk
          have hk2 := List.mem_range.1 (hperm.mem_iff.1 hk)
          have := List.nodup_range.idxOf_getElem k (xs := List.range w.1.length) (by simpa using hk2)
          simpa using this
        have hdum : ∀ c : NDArray R, einDummies (([(c, List.range w.1.length)].map Prod.swap).map Prod.fst) perm
            = [] := by
          intro c
          rw [List.eq_nil_iff_forall_not_mem]
          intro l hl
          obtain ⟨⟨s, hs, hcs⟩, hno⟩ := mem_einDummies.1 hl
          simp only [List.map_cons, List.map_nil, Prod.fst_swap, List.mem_singleton] at hs
          subst hs
          exact hno (hperm.mem_iff.2 hcs)
        obtain ⟨r, r1, r2, r3, r4⟩ := transpose_labels a (List.range w.1.length) perm (fun l => sz (lsp l)) hsa
          List.nodup_range hperm
        obtain ⟨q, q1, q2, q3, q4⟩ := transpose_labels b (List.range w.1.length) perm (fun l => sz (lsp l)) hsb
          List.nodup_range hperm
        rw [hid] at r1 q1
        have hspz : sp.map sz = perm.map fun l => sz (lsp l) := by rw [h5, List.map_map]; rfl
        refine ⟨r, q, ?_, ?_, .of_get (by rw [r2, hspz]) r3 (by rw [q2, hspz]) q3 fun idx hidx => ?_⟩
        · simp only [GenExpr.eval, GenStore.load, a1, bind, Except.bind]; exact r1
        · simp only [GenExpr.eval, GenStore.load, b1, bind, Except.bind]; exact q1
        · rw [hspz] at hidx
          obtain ⟨e, rfl, he⟩ := map_of_inBox h2 hidx
          have key := h7 r (fun e he => by
            rw [r4 e (fun c hc => he c (hperm.mem_iff.2 hc))]
            unfold einValue
            rw [hdum]
            simp [einSum, einProd]) e he
          rw [q4 e (fun c hc => he c (hperm.mem_iff.2 hc)), h5, ← key]
          unfold einValue
          rw [hdum]
          simp [einSum, einProd]
  | ein ops out =>
    cases ops with
    | nil => cases h
    | cons p ops =>
      simp only [covExpr] at h
      obtain ⟨vs, L, L', h1, h2, h3, h4, h5, h6⟩ := getVars_rot henv _ _ _ h
      obtain ⟨lsp, g1, g2, g3, g4, g5, g6, g7⟩ := covEinV_spec sz C hC vs L L' h6 out sp h1
      obtain ⟨a, a1, a2, a3, a4⟩ := einsum_labels_ok method path hpath (fun l => sz (lsp l)) L out
        (by intro h; rw [h] at h4; simp at h4) g1 g2 g3 g4
      obtain ⟨b, b1, b2, b3, b4⟩ := einsum_labels_ok method path hpath (fun l => sz (lsp l)) L' out
        (by intro h; rw [h] at h5; simp at h5)
        (by
          rw [g6]
          intro x hx
          obtain ⟨y, hy, rfl⟩ := List.mem_map.1 hx
          exact g1 y hy) g2
        (by
          intro i hi
          obtain ⟨x, hx, hix⟩ := g3 i hi
          refine ⟨(rotated sz C (x.2.map lsp) x.1, x.2), ?_, hix⟩
          rw [g6]
          exact List.mem_map.2 ⟨x, hx, rfl⟩)
        (by
          rw [g6]
          intro x hx
          obtain ⟨y, hy, rfl⟩ := List.mem_map.1 hx
          simp only [rotated, NDArray.ofFn_shape, List.map_map]
          rfl)
      have hspz : sp.map sz = out.map fun l => sz (lsp l) := by rw [g5, List.map_map]; rfl
      refine ⟨a, b, ?_, ?_, .of_get (by rw [a2, hspz]) a3 (by rw [b2, hspz]) b3 fun idx hidx => ?_⟩
      · simp only [GenExpr.eval, h2, bind, Except.bind]; exact a1
      · simp only [GenExpr.eval, h3, bind, Except.bind]; exact b1
      · rw [hspz] at hidx
        obtain ⟨e, rfl, he⟩ := map_of_inBox g2 hidx
        rw [b4 e he, g7 a a4 e he, g5]

/-! ### Statements and functions -/

theorem covStmt_sound [DecidableEq R] (sz : Nat → Nat) (C : Nat → Nat → Nat → R) (hC : Orthogonal sz C)
    (method : ContractMethod)
    (path : List (List Char) → List Char → List (NDArray R) → List Contraction) (hpath : PathOk path)
    {env : TEnv} {st st' : GenStore R} (henv : EnvRot sz C env st st') (s : GenStmt) (env' : TEnv)
    (h : covStmt env s = some env') :
    ∃ r r', s.exec method path sz st = .ok r ∧ s.exec method path sz st' = .ok r' ∧ EnvRot sz C env' r r' := by
  cases s with
  | del y =>
    simp only [covStmt] at h
    cases hg : getVar y env with
    | none => rw [hg] at h; cases h
    | some v =>
      rw [hg] at h
      simp only at h
      obtain ⟨env1, e1, e2⟩ := delVar_spec y env some
      rw [e1] at h
      cases h
      obtain ⟨a, b, a1, b1, _⟩ := henv y v hg
      refine ⟨Function.update st y none, Function.update st' y none, by simp [GenStmt.exec, a1],
        by simp [GenStmt.exec, b1], ?_⟩
      intro z w hz
      rw [e2 z] at hz
      by_cases hzy : z = y
      · rw [if_pos hzy] at hz; cases hz
      · rw [if_neg hzy] at hz
        obtain ⟨c, d, h1, h2, h3⟩ := henv z w hz
        exact ⟨c, d, by rw [Function.update_of_ne hzy]; exact h1, by rw [Function.update_of_ne hzy]; exact h2, h3⟩
  | zeros y sp =>
    simp only [covStmt] at h
    obtain ⟨env1, e1, e2⟩ := setVar_spec y (sp, []) env some
    rw [e1] at h
    cases h
    exact ⟨_, _, rfl, rfl, henv.set (rotRep_zeros sz C sp) e2⟩
  | eye y s =>
    simp only [covStmt] at h
    obtain ⟨env1, e1, e2⟩ := setVar_spec y ([s, s], []) env some
    rw [e1] at h
    cases h
    exact ⟨_, _, rfl, rfl, henv.set (rotRep_eye sz C hC s) e2⟩
  | set y e num den =>
    simp only [covStmt] at h
    cases hE : covExpr env e with
    | none => rw [hE] at h; cases h
    | some sp =>
      rw [hE] at h
      simp only at h
      obtain ⟨env1, e1, e2⟩ := setVar_spec y (sp, []) env some
      rw [e1] at h
      cases h
      obtain ⟨a, b, a1, b1, ab⟩ := covExpr_sound sz C hC method path hpath henv e sp hE
      refine ⟨_, _, ?_, ?_, henv.set (ab.times num den) e2⟩
      · simp only [GenStmt.exec, a1, bind, Except.bind, pure, Except.pure]
      · simp only [GenStmt.exec, b1, bind, Except.bind, pure, Except.pure]
  | add y e num den =>
    simp only [covStmt] at h
    cases hE : covExpr env e with
    | none => rw [hE] at h; cases h
    | some sp =>
    cases hg : getVar y env with
    | none => rw [hE, hg] at h; cases h
    | some w =>
      rw [hE, hg] at h
      simp only at h
      cases hs : eqNats sp w.1 with
      | false => rw [hs] at h; cases h
      | true =>
        rw [hs] at h
        cases h
        have hsp := eqNats_eq hs
        obtain ⟨a, b, a1, b1, ab⟩ := covExpr_sound sz C hC method path hpath henv e sp hE
        obtain ⟨c, d, c1, d1, cd⟩ := henv y w hg
        have ab' := ab.times num den
        rw [hsp] at ab'
        obtain ⟨r, r', r1, r2, r3⟩ := cd.add ab'
        refine ⟨_, _, ?_, ?_, henv.set (x := y) (v := w) r3 fun z => ?_⟩
        · simp only [GenStmt.exec, GenStore.load, a1, c1, r1, bind, Except.bind, pure, Except.pure]
        · simp only [GenStmt.exec, GenStore.load, b1, d1, r2, bind, Except.bind, pure, Except.pure]
        · by_cases hz : z = y
          · rw [if_pos hz, hz, hg]
          · rw [if_neg hz]

theorem covRun_sound [DecidableEq R] (sz : Nat → Nat) (C : Nat → Nat → Nat → R) (hC : Orthogonal sz C)
    (method : ContractMethod)
    (path : List (List Char) → List Char → List (NDArray R) → List Contraction) (hpath : PathOk path)
    (l : List GenStmt) {env : TEnv} {st st' : GenStore R} (henv : EnvRot sz C env st st') (env' : TEnv)
    (h : covRun l env = some env') :
    ∃ r r', execAll method path sz l st = .ok r ∧ execAll method path sz l st' = .ok r' ∧ EnvRot sz C env' r r' := by
  induction l generalizing env st st' with
  | nil => cases h; exact ⟨st, st', rfl, rfl, henv⟩
  | cons s l ih =>
    simp only [covRun] at h
    cases hs : covStmt env s with
    | none => rw [hs] at h; cases h
    | some env1 =>
      rw [hs] at h
      obtain ⟨r, r', r1, r2, r3⟩ := covStmt_sound sz C hC method path hpath henv s env1 hs
      obtain ⟨q, q', q1, q2, q3⟩ := ih r3 h
      exact ⟨q, q', by simp only [execAll, r1, bind, Except.bind]; exact q1,
        by simp only [execAll, r2, bind, Except.bind]; exact q2, q3⟩

theorem covBind_sound (sz : Nat → Nat) (C : Nat → Nat → Nat → R) (ty : List Char → Option (List Nat))
    (vals : List Char → Option (NDArray R)) (hvals : HasSpaces sz ty vals) (names : List (List Char)) (k : Nat)
    {env : TEnv} {st st' : GenStore R} (henv : EnvRot sz C env st st') (env' : TEnv)
    (h : covBind ty names k env = some env') :
    ∃ r r', bindPositional vals names k st = .ok r ∧ bindPositional (rotatedVals sz C ty vals) names k st' = .ok r' ∧
      EnvRot sz C env' r r' := by
  induction names generalizing k env st st' with
  | nil => cases h; exact ⟨st, st', rfl, rfl, henv⟩
  | cons name l ih =>
    simp only [covBind] at h
    cases ht : ty name with
    | none => rw [ht] at h; cases h
    | some sp =>
      rw [ht] at h
      simp only at h
      obtain ⟨a, a1, a2, a3⟩ := hvals name sp ht
      have henv' : EnvRot sz C ((k, (sp, [])) :: env) (Function.update st k (some a))
          (Function.update st' k (some (rotated sz C sp a))) := by
        apply henv.set (v := (sp, [])) ⟨a2, a3, rfl⟩
        intro y
        rw [getVar_cons]
        by_cases hy : y = k
        · rw [if_pos hy, if_pos hy.symm]
        · rw [if_neg hy, if_neg (Ne.symm hy)]
      obtain ⟨r, r', r1, r2, r3⟩ := ih (k + 1) henv' h
      have e1 : rotatedVals sz C ty vals name = some (rotated sz C sp a) := by simp [rotatedVals, ht, a1]
      exact ⟨r, r', by simp only [bindPositional, a1]; exact r1, by simp only [bindPositional, e1]; exact r2, r3⟩

/-- Results, and those of the call with rotated arguments. -/
abbrev ResRot (sz : Nat → Nat) (C : Nat → Nat → Nat → R) (res : Dict (List Char) (List Nat))
    (r r' : Dict (List Char) (NDArray R)) : Prop :=
  List.Forall₂ (fun x y => y.1 = x.1 ∧ y.2.shape = x.2.map sz ∧ y.2.WF) res r ∧
    r' = (res.zip r).map fun p => (p.1.1, rotated sz C p.1.2 p.2.2)

theorem covCollect_sound {sz : Nat → Nat} {C : Nat → Nat → Nat → R} {env : TEnv} {st st' : GenStore R}
    (henv : EnvRot sz C env st st') (ret : List (List Char × Nat)) (res : Dict (List Char) (List Nat))
    (h : covCollect env ret = some res) :
    ∃ r r', collect st ret = .ok r ∧ collect st' ret = .ok r' ∧ ResRot sz C res r r' := by
  induction ret generalizing res with
  | nil => cases h; exact ⟨[], [], rfl, rfl, .nil, rfl⟩
  | cons p ret ih =>
    obtain ⟨name, x⟩ := p
    simp only [covCollect] at h
    cases hg : getVar x env with
    | none => rw [hg] at h; cases h
    | some v =>
    cases hc : covCollect env ret with
    | none => rw [hg, hc] at h; cases h
    | some res1 =>
      rw [hg, hc] at h
      cases h
      obtain ⟨r, r', r1, r2, r3, r4⟩ := ih res1 hc
      obtain ⟨a, b, a1, b1, ab⟩ := henv x v hg
      refine ⟨(name, a) :: r, (name, b) :: r', ?_, ?_, .cons ⟨rfl, ab.shape, ab.wf⟩ r3, ?_⟩
      · simp only [collect, GenStore.load, a1, r1, bind, Except.bind, pure, Except.pure]
      · simp only [collect, GenStore.load, b1, r2, bind, Except.bind, pure, Except.pure]
      · simp only [List.zip_cons_cons, List.map_cons, ← r4, ab.eq]

theorem ResRot.get {sz : Nat → Nat} {C : Nat → Nat → Nat → R} {res : Dict (List Char) (List Nat)}
    {r r' : Dict (List Char) (NDArray R)} (h : ResRot sz C res r r') (name : List Char) :
    (res.get? name = none ∧ r.get? name = none ∧ r'.get? name = none) ∨
    ∃ sp a, res.get? name = some sp ∧ r.get? name = some a ∧ a.shape = sp.map sz ∧ a.WF ∧
      r'.get? name = some (rotated sz C sp a) := by
  obtain ⟨h1, rfl⟩ := h
  induction h1 with
  | nil => exact .inl ⟨rfl, rfl, rfl⟩
  | cons hxy _ ih =>
    rename_i x y l l' _
    obtain ⟨n, sp⟩ := x
    obtain ⟨n', a⟩ := y
    obtain ⟨e1, e2, e3⟩ := hxy
    simp only at e1 e2 e3
    subst e1
    by_cases hn : n' = name
    · refine .inr ⟨sp, a, ?_, ?_, e2, e3, ?_⟩ <;> simp [Dict.get?, hn]
    · simpa [Dict.get?, hn] using ih

/-- The results of a call with rotated arguments are the rotated results. -/
theorem GenFun.covTypes_sound [DecidableEq R] (g : GenFun) (ty : List Char → Option (List Nat))
    (res : Dict (List Char) (List Nat)) (h : g.covTypes ty = some res) (sz : Nat → Nat)
    (C : Nat → Nat → Nat → R) (hC : Orthogonal sz C) (method : ContractMethod)
    (path : List (List Char) → List Char → List (NDArray R) → List Contraction) (hpath : PathOk path)
    (vals : List Char → Option (NDArray R)) (hvals : HasSpaces sz ty vals) :
    ∃ r r', g.call method path sz vals = .ok r ∧ g.call method path sz (rotatedVals sz C ty vals) = .ok r' ∧
      ResRot sz C res r r' := by
  unfold GenFun.covTypes at h
  cases h1 : covBind ty g.args 0 [] with
  | none => rw [h1] at h; cases h
  | some env1 =>
    rw [h1] at h
    simp only at h
    cases h2 : covRun g.body env1 with
    | none => rw [h2] at h; cases h
    | some env2 =>
      rw [h2] at h
      simp only at h
      obtain ⟨s1, s1', b1, b1', b2⟩ := covBind_sound sz C ty vals hvals g.args 0
        (st := fun _ => none) (st' := fun _ => none) (fun x v hx => by cases hx) env1 h1
      obtain ⟨s2, s2', c1, c1', c2⟩ := covRun_sound sz C hC method path hpath g.body b2 env2 h2
      obtain ⟨r, r', r1, r2, r3⟩ := covCollect_sound c2 g.ret res h
      refine ⟨r, r', ?_, ?_, r3⟩
      · simp only [GenFun.call, b1, c1, bind, Except.bind]; exact r1
      · simp only [GenFun.call, b1', c1', bind, Except.bind]; exact r2

theorem ResRot.results {sz : Nat → Nat} {C : Nat → Nat → Nat → R} {res : Dict (List Char) (List Nat)}
    {r r' : Dict (List Char) (NDArray R)} (h : ResRot sz C res r r') : RotatedResults sz C res r r' := by
  intro name sp hsp
  rcases h.get name with ⟨h1, _, _⟩ | ⟨sp', a, h1, h2, h3, _, h5⟩
  · rw [h1] at hsp; cases hsp
  · rw [h1] at hsp
    cases hsp
    exact ⟨a, h2, h3, h5⟩

end

theorem covariant_of_check {g : GenFun} {ty : List Char → Option (List Nat)} {res : Dict (List Char) (List Nat)}
    (h : g.covCheck ty res = true) : RotCovariant g ty res := by
  intro R _ _ sz C hC method path hpath vals hvals
  unfold GenFun.covCheck at h
  cases h1 : g.covTypes ty with
  | none => rw [h1] at h; cases h
  | some res' =>
    rw [h1] at h
    have h := covResEq_eq h
    subst h
    obtain ⟨r, r', r1, r2, r3⟩ := g.covTypes_sound ty _ h1 sz C hC method path hpath vals hvals
    exact ⟨r, r', r1, r2, r3.results⟩

theorem covariantInts_of_check {gi g : GenFun} {ty : List Char → Option (List Nat)}
    {res : Dict (List Char) (List Nat)} (h : covCheckInts gi g ty res = true) : RotCovariantInts gi g ty res := by
  intro R _ _ sz C hC method path hpath vals hvals
  unfold covCheckInts at h
  cases h1 : gi.covTypes ty with
  | none => rw [h1] at h; cases h
  | some resi =>
    rw [h1] at h
    simp only at h
    obtain ⟨i, i', i1, i2, i3⟩ := gi.covTypes_sound ty _ h1 sz C hC method path hpath vals hvals
    have hsp : HasSpaces sz (covInts resi ty) (withInts i vals) := by
      intro name sp hn
      unfold covInts at hn
      unfold withInts
      split at hn
      · rename_i n
        rcases i3.get n with ⟨h2, _, _⟩ | ⟨sp', a, h2, h3, h4, h5, _⟩
        · rw [h2] at hn; cases hn
        · rw [h2] at hn
          cases hn
          exact ⟨a, h3, h4, h5⟩
      · rename_i n hne
        obtain ⟨a, a1, a2, a3⟩ := hvals _ _ hn
        refine ⟨a, ?_, a2, a3⟩
        split
        · rename_i m
          exact absurd rfl (hne m)
        · exact a1
    have heq : withInts i' (rotatedVals sz C ty vals) = rotatedVals sz C (covInts resi ty) (withInts i vals) := by
      funext name
      by_cases hn : ∃ n, name = 'i' :: 'n' :: 't' :: 's' :: '.' :: n
      · obtain ⟨n, rfl⟩ := hn
        rcases i3.get n with ⟨h2, h3, h4⟩ | ⟨sp', a, h2, h3, h4, h5, h6⟩
        · simp only [withInts, rotatedVals, covInts, h2, h3, h4]
        · simp only [withInts, rotatedVals, covInts, h2, h3, h6]
      · have e1 : ∀ (d : Dict (List Char) (NDArray R)) v, withInts d v name = v name := by
          intro d v
          unfold withInts
          split
          · rename_i n
            exact absurd ⟨n, rfl⟩ hn
          · rfl
        have e2 : covInts resi ty name = ty name := by
          unfold covInts
          split
          · rename_i n
            exact absurd ⟨n, rfl⟩ hn
          · rfl
        rw [e1]
        simp only [rotatedVals, e1, e2]
    obtain ⟨r, r', r1, r2, r3⟩ := covariant_of_check h R sz C hC method path hpath (withInts i vals) hsp
    exact ⟨i, i', r, r', i1, i2, r1, heq ▸ r2, r3⟩

end Ebcc
