import Verif.Tensor.Poly
import Verif.Lemmas.GenEinsum
/-!
A contraction of polynomials has the value of the contraction of the arrays.
-/

namespace Ebcc

section
variable {R : Type} [Field R]

/-- The values of the axes. -/
def frEnv (idx : List Nat) (i : Nat) : Nat := idx.getD (i / 16) 0

/-- The elements of the array are the values of the polynomial. -/
theorem inRange_frEnv {sz : Nat → Nat} {sp idx : List Nat} (hs : ∀ s ∈ sp, s < 16) (h : InBox (sp.map sz) idx) :
    InRange sz (frees 0 sp) (frEnv idx) := by
  intro i hi
  obtain ⟨j, hj, rfl⟩ := mem_frees hi
  have hsj := hs _ (List.getElem_mem hj)
  have hl := InBox.length_eq h
  have := (List.forall₂_iff_get.1 h).2 j (by rw [hl]; simpa using hj) (by simpa using hj)
  simp only [List.get_eq_getElem, List.getElem_map] at this
  unfold frEnv
  rw [show (16 * (0 + j) + sp[j]) / 16 = j by omega, show (16 * (0 + j) + sp[j]) % 16 = sp[j] by omega]
  simpa [List.getD_eq_getElem?_getD, List.getElem?_eq_getElem (show j < idx.length by simpa [hl] using hj)] using this

structure Rep (sz : Nat → Nat) (T : Nat → List (Nat × Nat) → R) (v : TVar) (a : NDArray R) : Prop where
  shape : a.shape = v.1.map sz
  wf : a.WF
  low : ∀ s ∈ v.1, s < 16
  len : v.1.length ≤ 32
  poly : WFpoly (frees 0 v.1) v.2
  val : ∀ idx, InBox a.shape idx → a.get idx = polyVal sz T v.2 (frEnv idx)

/-! ### Tables -/

/-- Each label once, with bounds. -/
def TblOk (tbl : List (Nat × Nat)) : Prop := (tbl.map Prod.fst).Nodup ∧ ∀ p ∈ tbl, p.1 < 52 ∧ p.2 < 16

theorem labsTbl_spec {α : Type} (ls sp : List Nat) (tbl : List (Nat × Nat)) (htbl : TblOk tbl)
    (k : List (Nat × Nat) → Option α) (x : α) (h : labsTbl ls sp tbl k = some x) :
    ∃ tbl', k tbl' = some x ∧ TblOk tbl' ∧ (∀ p ∈ tbl, p ∈ tbl') ∧
      List.Forall₂ (fun l s => (l, s) ∈ tbl') ls sp ∧ ∀ p ∈ tbl', p ∈ tbl ∨ p.1 ∈ ls := by
  induction ls generalizing sp tbl with
  | nil => cases sp with
    | nil => exact ⟨tbl, h, htbl, fun p hp => hp, .nil, fun p hp => .inl hp⟩
    | cons s sp => cases h
  | cons l ls ih => cases sp with
    | nil => cases h
    | cons s sp =>
      have e1 : labsTbl (l :: ls) (s :: sp) tbl k =
          (match lookupN l tbl with
          | none => bif Nat.ble 52 l then none else bif Nat.ble 16 s then none
              else labsTbl ls sp ((l, s) :: tbl) k
          | some s' => bif Nat.beq s' s then labsTbl ls sp tbl k else none) := by
        show @Option.rec Nat (fun _ => Option α) _ _ (lookupN l tbl) = _
        cases lookupN l tbl with
        | none => exact (sel_eq _ _ _).trans (by rw [sel_eq]; rfl)
        | some s' => exact sel_eq _ _ _
      rw [e1] at h
      cases hl : lookupN l tbl with
      | none =>
        rw [hl] at h
        simp only at h
        cases h1 : Nat.ble 52 l with
        | true => rw [h1] at h; cases h
        | false =>
        cases h2 : Nat.ble 16 s with
        | true => rw [h1, h2] at h; cases h
        | false =>
        rw [h1, h2] at h
        obtain ⟨tbl', t1, t2, t3, t4, t5⟩ := ih sp ((l, s) :: tbl)
          ⟨by simpa using ⟨by simpa using lookupN_none hl, htbl.1⟩, fun p hp => by
            rcases List.mem_cons.1 hp with rfl | hp
            · exact ⟨not_ble h1, not_ble h2⟩
            · exact htbl.2 p hp⟩ h
        refine ⟨tbl', t1, t2, fun p hp => t3 p (by simp [hp]), .cons (t3 _ (by simp)) t4, fun p hp => ?_⟩
        rcases t5 p hp with h | h
        · rcases List.mem_cons.1 h with rfl | h
          · exact .inr (by simp)
          · exact .inl h
        · exact .inr (by simp [h])
      | some s' =>
        rw [hl] at h
        simp only at h
        cases hb : Nat.beq s' s with
        | false => rw [hb] at h; cases h
        | true =>
          rw [hb] at h
          have hs := Nat.eq_of_beq_eq_true hb
          subst hs
          obtain ⟨tbl', t1, t2, t3, t4, t5⟩ := ih sp tbl htbl h
          refine ⟨tbl', t1, t2, t3, .cons (t3 _ (lookupN_mem hl)) t4, fun p hp => ?_⟩
          rcases t5 p hp with h | h
          · exact .inl h
          · exact .inr (by simp [h])

theorem opsTbl_spec {α : Type} (vs : List (List Nat × TVar)) (tbl : List (Nat × Nat)) (htbl : TblOk tbl)
    (k : List (Nat × Nat) → Option α) (x : α) (h : opsTbl vs tbl k = some x) :
    ∃ tbl', k tbl' = some x ∧ TblOk tbl' ∧ (∀ p ∈ tbl, p ∈ tbl') ∧
      (∀ o ∈ vs, List.Forall₂ (fun l s => (l, s) ∈ tbl') o.1 o.2.1) ∧
      ∀ p ∈ tbl', p ∈ tbl ∨ ∃ o ∈ vs, p.1 ∈ o.1 := by
  induction vs generalizing tbl with
  | nil => exact ⟨tbl, h, htbl, fun p hp => hp, by simp, fun p hp => .inl hp⟩
  | cons o vs ih =>
    have e1 : opsTbl (o :: vs) tbl k = labsTbl o.1 o.2.1 tbl fun tbl => opsTbl vs tbl k := rfl
    rw [e1] at h
    obtain ⟨tbl1, t1, t2, t3, t4, t5⟩ := labsTbl_spec o.1 o.2.1 tbl htbl _ x h
    obtain ⟨tbl2, s1, s2, s3, s4, s5⟩ := ih tbl1 t2 t1
    refine ⟨tbl2, s1, s2, fun p hp => s3 p (t3 p hp), fun o' ho' => ?_, fun p hp => ?_⟩
    · rcases List.mem_cons.1 ho' with rfl | ho'
      · exact t4.imp fun l s hls => s3 _ hls
      · exact s4 o' ho'
    · rcases s5 p hp with h | ⟨o', ho', h⟩
      · rcases t5 p h with h | h
        · exact .inl h
        · exact .inr ⟨o, by simp, h⟩
      · exact .inr ⟨o', by simp [ho'], h⟩

theorem outSpaces_spec {α : Type} (tbl : List (Nat × Nat)) (out : List Nat) (k : List Nat → Option α) (x : α)
    (h : outSpaces tbl out k = some x) :
    ∃ osp, k osp = some x ∧ List.Forall₂ (fun l s => (l, s) ∈ tbl) out osp := by
  induction out generalizing k with
  | nil => exact ⟨[], h, .nil⟩
  | cons l out ih =>
    have e1 : outSpaces tbl (l :: out) k = (match lookupN l tbl with
        | none => none
        | some s => outSpaces tbl out fun sp => k (s :: sp)) := by
      show @Option.rec Nat (fun _ => Option α) _ _ (lookupN l tbl) = _
      cases lookupN l tbl <;> rfl
    rw [e1] at h
    cases hl : lookupN l tbl with
    | none => rw [hl] at h; cases h
    | some s =>
      rw [hl] at h
      obtain ⟨osp, o1, o2⟩ := ih _ h
      exact ⟨s :: osp, o1, .cons (lookupN_mem hl) o2⟩

theorem posN_eq (l : Nat) (out : List Nat) (d : Nat) :
    posN l out d = if l ∈ out then some (d + out.idxOf l) else none := by
  induction out generalizing d with
  | nil => rfl
  | cons a out ih =>
    have e1 : posN l (a :: out) d = bif Nat.beq a l then some d else posN l out (d + 1) := sel_eq _ _ _
    rw [e1]
    cases h : Nat.beq a l with
    | true => simp [Nat.eq_of_beq_eq_true h]
    | false =>
      have hne := Nat.ne_of_beq_eq_false h
      rw [cond_false, ih]
      by_cases hm : l ∈ out
      · rw [if_pos hm, if_pos (by simp [hm]), List.idxOf_cons_ne _ hne]
        congr 1
        omega
      · rw [if_neg hm, if_neg (by simp [hm, Ne.symm hne])]

theorem labelIx_eq (out : List Nat) (l s : Nat) :
    labelIx out l s = if l ∈ out then 16 * out.idxOf l + s else 16 * (64 + l) + s := by
  have e1 : labelIx out l s = (match posN l out 0 with
      | none => 16 * (64 + l) + s
      | some k => 16 * k + s) := by
    show @Option.rec Nat (fun _ => Nat) _ _ (posN l out 0) = _
    cases posN l out 0 <;> rfl
  rw [e1, posN_eq]
  by_cases hm : l ∈ out
  · rw [if_pos hm, if_pos hm]; simp
  · rw [if_neg hm, if_neg hm]

theorem ixTbl_eq {α : Type} (out : List Nat) (tbl : List (Nat × Nat)) (k : List (Nat × Nat) → α) :
    ixTbl out tbl k = k (tbl.map fun p => (p.1, labelIx out p.1 p.2)) := by
  induction tbl generalizing k with
  | nil => rfl
  | cons p tbl ih =>
    obtain ⟨l, s⟩ := p
    have e1 : ixTbl out ((l, s) :: tbl) k
      = forceNat (labelIx out l s) fun i => ixTbl out tbl fun r => k ((l, i) :: r) := rfl
    rw [e1, forceNat_eq, ih]
    rfl

theorem summedIxs_eq (ixt : List (Nat × Nat)) :
    summedIxs ixt = (ixt.map Prod.snd).filter fun i => decide (512 ≤ i) := by
  induction ixt with
  | nil => rfl
  | cons p ixt ih =>
    obtain ⟨l, i⟩ := p
    have e1 : summedIxs ((l, i) :: ixt) = bif Nat.ble 512 i then i :: summedIxs ixt else summedIxs ixt :=
      sel_eq _ _ _
    rw [e1, List.map_cons]
    cases h : Nat.ble 512 i with
    | true => rw [List.filter_cons_of_pos (by simpa using Nat.le_of_ble_eq_true h), ← ih]; rfl
    | false => rw [List.filter_cons_of_neg (by simpa using not_ble h), ← ih]; rfl

theorem lookD_eq (ixt : List (Nat × Nat)) (l : Nat) : lookD ixt l = (lookupN l ixt).getD 0 := by
  show @Option.rec Nat (fun _ => Nat) _ _ (lookupN l ixt) = _
  cases lookupN l ixt <;> rfl

theorem forceOps_eq {α : Type} (ixt : List (Nat × Nat)) (vs : List (List Nat × TVar))
    (k : List (List Nat × TPoly) → α) :
    forceOps ixt vs k = k (vs.map fun o => (o.1.map (lookD ixt), o.2.2)) := by
  induction vs generalizing k with
  | nil => rfl
  | cons o vs ih =>
    have e1 : forceOps ixt (o :: vs) k
      = forceNats (mapL (lookD ixt) o.1) fun li => forceOps ixt vs fun l => k ((li, o.2.2) :: l) := rfl
    rw [e1, forceNats_eq, ih, mapL_eq]
    rfl

theorem forall₂_lookD {tbl : List (Nat × Nat)} (htbl : (tbl.map Prod.fst).Nodup) {ls sp : List Nat}
    (h : List.Forall₂ (fun l s => (l, s) ∈ tbl) ls sp) : sp = ls.map (lookD tbl) := by
  induction h with
  | nil => rfl
  | cons h _ ih => rw [List.map_cons, ← ih, lookD_eq, lookupN_of_mem htbl h]; rfl

theorem forall₂_keys {tbl : List (Nat × Nat)} {ls sp : List Nat}
    (h : List.Forall₂ (fun l s => (l, s) ∈ tbl) ls sp) {l : Nat} (hl : l ∈ ls) :
    ∃ s, (l, s) ∈ tbl ∧ s ∈ sp := by
  induction h with
  | nil => simp at hl
  | cons h _ ih =>
    rcases List.mem_cons.1 hl with rfl | hl
    · exact ⟨_, h, by simp⟩
    · obtain ⟨s, h1, h2⟩ := ih hl
      exact ⟨s, h1, by simp [h2]⟩

theorem forall₂_left {α β : Type} {r : α → β → Prop} {l : List α} {m : List β} (h : List.Forall₂ r l m) {a : α}
    (ha : a ∈ l) : ∃ b ∈ m, r a b := by
  induction h with
  | nil => simp at ha
  | cons h _ ih =>
    rcases List.mem_cons.1 ha with rfl | ha
    · exact ⟨_, by simp, h⟩
    · obtain ⟨b, hb, h⟩ := ih ha
      exact ⟨b, by simp [hb], h⟩

theorem forall₂_right {α β : Type} {r : α → β → Prop} {l : List α} {m : List β} (h : List.Forall₂ r l m) {b : β}
    (hb : b ∈ m) : ∃ a ∈ l, r a b := by
  induction h with
  | nil => simp at hb
  | cons h _ ih =>
    rcases List.mem_cons.1 hb with rfl | hb
    · exact ⟨_, by simp, h⟩
    · obtain ⟨a, ha, h⟩ := ih hb
      exact ⟨a, by simp [ha], h⟩

theorem forall₂_sp {tbl : List (Nat × Nat)} {ls sp : List Nat}
    (h : List.Forall₂ (fun l s => (l, s) ∈ tbl) ls sp) {s : Nat} (hs : s ∈ sp) : ∃ l, (l, s) ∈ tbl := by
  induction h with
  | nil => simp at hs
  | cons h _ ih =>
    rcases List.mem_cons.1 hs with rfl | hs
    · exact ⟨_, h⟩
    · exact ih hs

/-- The polynomials of a contraction. -/
theorem symEinV_val [CharZero R] {σ : Type} (sz : Nat → Nat) (T : Nat → List (Nat × Nat) → R)
    (cn : TCanon σ) (hcn : CanonOk sz T cn) (vs : List (List Nat × TVar)) (L : List (NDArray R × List Nat))
    (hL : List.Forall₂ (fun o x => x.2 = o.1 ∧ Rep sz T o.2 x.1) vs L) (out : List Nat) (st : σ) (v : TVar)
    (st' : σ) (h : symEinV cn vs out st = some (v, st')) :
    ∃ szl : Nat → Nat, (∀ x ∈ L, ∀ i ∈ x.2, i < 52) ∧ out.Nodup ∧ (∀ i ∈ out, ∃ x ∈ L, i ∈ x.2) ∧
      (∀ x ∈ L, x.1.shape = x.2.map szl) ∧ v.1.map sz = out.map szl ∧ (∀ s ∈ v.1, s < 16) ∧
      v.1.length ≤ 32 ∧ WFpoly (frees 0 v.1) v.2 ∧
      ∀ e : Nat → Nat, (∀ i ∈ out, e i < szl i) →
        polyVal sz T v.2 (frEnv (out.map e)) = einValue szl (L.map Prod.swap) out e := by
  unfold symEinV at h
  obtain ⟨tbl, h, htbl, _, hops, hkeys⟩ := opsTbl_spec vs [] (by simp [TblOk]) _ _ h
  rw [forceNats_eq] at h
  obtain ⟨osp, h, hosp⟩ := outSpaces_spec tbl out _ _ h
  rw [sel_eq, sel_eq] at h
  cases hnd : nodupB out with
  | false => rw [hnd] at h; cases h
  | true =>
  have hnod := nodupB_nodup hnd
  cases hlen : Nat.ble (List.length out) 32 with
  | false => rw [hnd] at h; simp only [cond_true] at h; rw [hlen] at h; cases h
  | true =>
  have hle := Nat.le_of_ble_eq_true hlen
  rw [hnd] at h
  simp only [cond_true] at h
  rw [hlen] at h
  simp only [cond_true] at h
  rw [ixTbl_eq] at h
  obtain ⟨ixt, hixt⟩ : ∃ ixt, ixt = tbl.map fun p => (p.1, labelIx out p.1 p.2) := ⟨_, rfl⟩
  rw [← hixt, forceNats_eq, forceOps_eq] at h
  -- the canonical forms
  have hraws : mapL (fun r : TRaw => (@Prod.rec _ _ (fun _ => TRaw) (fun n r => @Prod.rec _ _ (fun _ => TRaw)
      (fun k r => @Prod.rec _ _ (fun _ => TRaw) (fun ds fs => (n, k, app (summedIxs ixt) ds, fs)) r) r) r))
      (prods (vs.map fun o => (o.1.map (lookD ixt), o.2.2)) 128)
      = (prods (vs.map fun o => (o.1.map (lookD ixt), o.2.2)) 128).map
        fun r => (r.1, r.2.1, summedIxs ixt ++ r.2.2.1, r.2.2.2) := by
    rw [mapL_eq]
    apply List.map_congr_left
    intro r _
    obtain ⟨n, k, ds, fs⟩ := r
    show (n, k, app _ ds, fs) = _
    rw [app_eq]
  rw [hraws] at h
  obtain ⟨raws, hraws2⟩ : ∃ raws, raws = (prods (vs.map fun o => (o.1.map (lookD ixt), o.2.2)) 128).map
        fun r => (r.1, r.2.1, summedIxs ixt ++ r.2.2.1, r.2.2.2) := ⟨_, rfl⟩
  rw [← hraws2] at h
  cases hc : canonAll cn raws [] st with
  | none => rw [hc] at h; cases h
  | some q =>
  obtain ⟨p, st2⟩ := q
  rw [hc] at h
  simp only [forceSpine_eq, Option.some.injEq, Prod.mk.injEq] at h
  obtain ⟨rfl, rfl⟩ := h
  simp only
  -- labels and indices
  have hlam : ∀ l s, (l, s) ∈ tbl → lookD ixt l = labelIx out l s := by
    intro l s hls
    rw [lookD_eq, lookupN_of_mem (l := ixt) (j := labelIx out l s)]
    · rfl
    · rw [hixt, List.map_map]
      exact htbl.1
    · rw [hixt]
      exact List.mem_map.2 ⟨(l, s), hls, rfl⟩
  have hospeq := forall₂_lookD htbl.1 hosp
  have hosplen : osp.length = out.length := by rw [hospeq]; simp
  have hlow : ∀ s ∈ osp, s < 16 := fun s hs => by
    obtain ⟨l, hl⟩ := forall₂_sp hosp hs
    exact (htbl.2 _ hl).2
  have hlamOut : ∀ l s, (l, s) ∈ tbl → l ∈ out → lookD ixt l = 16 * out.idxOf l + s := fun l s h1 h2 => by
    rw [hlam l s h1, labelIx_eq, if_pos h2]
  have hlamSum : ∀ l s, (l, s) ∈ tbl → l ∉ out → lookD ixt l = 16 * (64 + l) + s := fun l s h1 h2 => by
    rw [hlam l s h1, labelIx_eq, if_neg h2]
  have hlamLow : ∀ l s, (l, s) ∈ tbl → l ∈ out → lookD ixt l < 512 := fun l s h1 h2 => by
    rw [hlamOut l s h1 h2]
    have := List.idxOf_lt_length_of_mem h2
    have := (htbl.2 _ h1).2
    simp only at this
    omega
  have hlamHigh : ∀ l s, (l, s) ∈ tbl → l ∉ out → 512 ≤ lookD ixt l := fun l s h1 h2 => by
    rw [hlamSum l s h1 h2]
    omega
  have hlamB : ∀ l s, (l, s) ∈ tbl → lookD ixt l < 512 + 16 * 128 := fun l s h1 => by
    by_cases h2 : l ∈ out
    · have := hlamLow l s h1 h2; omega
    · rw [hlamSum l s h1 h2]
      have := htbl.2 _ h1
      simp only at this
      omega
  have hlamMod : ∀ l s, (l, s) ∈ tbl → lookD ixt l % 16 = s := fun l s h1 => by
    have := (htbl.2 _ h1).2
    simp only at this
    by_cases h2 : l ∈ out
    · rw [hlamOut l s h1 h2]; omega
    · rw [hlamSum l s h1 h2]; omega
  have hlamInj : ∀ l s l' s', (l, s) ∈ tbl → (l', s') ∈ tbl → lookD ixt l = lookD ixt l' → l = l' := by
    intro l s l' s' h1 h2 heq
    have b1 := (htbl.2 _ h1).2
    have b2 := (htbl.2 _ h2).2
    simp only at b1 b2
    by_cases m1 : l ∈ out
    · by_cases m2 : l' ∈ out
      · rw [hlamOut l s h1 m1, hlamOut l' s' h2 m2] at heq
        have : out.idxOf l = out.idxOf l' := by omega
        exact (List.idxOf_inj m1).1 this
      · have := hlamLow l s h1 m1
        have := hlamHigh l' s' h2 m2
        omega
    · by_cases m2 : l' ∈ out
      · have := hlamHigh l s h1 m1
        have := hlamLow l' s' h2 m2
        omega
      · rw [hlamSum l s h1 m1, hlamSum l' s' h2 m2] at heq
        omega
  have hsummedMem : ∀ i, i ∈ summedIxs ixt ↔ ∃ l s, (l, s) ∈ tbl ∧ l ∉ out ∧ i = lookD ixt l := by
    intro i
    rw [summedIxs_eq, List.mem_filter, hixt, List.map_map, List.mem_map]
    constructor
    · rintro ⟨⟨⟨l, s⟩, hls, rfl⟩, hge⟩
      simp only [Function.comp, decide_eq_true_eq] at hge
      refine ⟨l, s, hls, fun hm => ?_, ?_⟩
      · have := hlamLow l s hls hm
        rw [hlam l s hls] at this
        omega
      · simp only [Function.comp]
        rw [← hixt, hlam l s hls]
    · rintro ⟨l, s, hls, hm, rfl⟩
      refine ⟨⟨(l, s), hls, ?_⟩, ?_⟩
      · simp only [Function.comp]
        rw [← hixt, hlam l s hls]
      · simpa using hixt ▸ hlamHigh l s hls hm
  have hsummedNd : (summedIxs ixt).Nodup := by
    rw [summedIxs_eq]
    apply List.Nodup.filter
    have e1 : ixt.map Prod.snd = (tbl.map Prod.fst).map (lookD ixt) := by
      rw [List.map_map]
      conv_lhs => rw [hixt, List.map_map]
      apply List.map_congr_left
      intro p hp
      simp only [Function.comp]
      rw [hlam p.1 p.2 hp]
    rw [e1]
    apply htbl.1.map_on
    intro a ha b hb hab
    obtain ⟨pa, hpa, rfl⟩ := List.mem_map.1 ha
    obtain ⟨pb, hpb, rfl⟩ := List.mem_map.1 hb
    exact hlamInj pa.1 pa.2 pb.1 pb.2 hpa hpb hab
  have hfreeMem : ∀ l s, (l, s) ∈ tbl → l ∈ out → lookD ixt l ∈ frees 0 osp := by
    intro l s h1 h2
    have hi := List.idxOf_lt_length_of_mem h2
    rw [List.mem_iff_getElem]
    refine ⟨out.idxOf l, by rw [length_frees, hosplen]; exact hi, ?_⟩
    rw [getElem_frees, hlamOut l s h1 h2]
    have : osp[out.idxOf l]'(by rw [hosplen]; exact hi) = s := by
      simp only [hospeq, List.getElem_map, List.getElem_idxOf]
      rw [lookD_eq, lookupN_of_mem htbl.1 h1]
      rfl
    rw [this]
    omega
  -- the operands
  have hopsOk : ∀ a ∈ vs.map (fun o => (o.2.1, o.1.map (lookD ixt), o.2.2)),
      OpOk (512 + 16 * 128) a.1 a.2.1 a.2.2 := by
    intro a ha
    obtain ⟨o, ho, rfl⟩ := List.mem_map.1 ha
    obtain ⟨x, _, hx⟩ := forall₂_left hL ho
    have hF := hops o ho
    refine ⟨hx.2.poly, hx.2.low, ?_, ?_⟩
    · simp only [List.map_map]
      conv_rhs => rw [forall₂_lookD htbl.1 hF]
      apply List.map_congr_left
      intro l hl
      obtain ⟨s, hs, _⟩ := forall₂_keys hF hl
      simp only [Function.comp]
      rw [hlamMod l s hs, lookD_eq, lookupN_of_mem htbl.1 hs]
      rfl
    · intro i hi
      obtain ⟨l, hl, rfl⟩ := List.mem_map.1 hi
      obtain ⟨s, hs, _⟩ := forall₂_keys hF hl
      exact hlamB l s hs
  obtain ⟨pr1, pr2⟩ := prods_sound sz T (vs.map fun o => (o.2.1, o.1.map (lookD ixt), o.2.2)) 128 _ le_rfl hopsOk
  have hmm : (vs.map fun o => (o.2.1, o.1.map (lookD ixt), o.2.2)).map Prod.snd
      = vs.map fun o => (o.1.map (lookD ixt), o.2.2) := by rw [List.map_map]; rfl
  rw [hmm] at pr1 pr2
  have hfl : ∀ i ∈ frees 0 osp, i < 512 := by
    intro i hi
    obtain ⟨j, hj, rfl⟩ := mem_frees hi
    have := hlow _ (List.getElem_mem hj)
    omega
  have hrawsWF : ∀ r ∈ raws, WFraw (frees 0 osp) r := by
    intro r hr
    rw [hraws2] at hr
    obtain ⟨r0, hr0, rfl⟩ := List.mem_map.1 hr
    obtain ⟨n1, n2, n3⟩ := pr1 r0 hr0
    refine ⟨hfl, ?_, ?_, ?_⟩
    · rw [List.nodup_append]
      refine ⟨hsummedNd, n1, fun a ha b hb hab => ?_⟩
      obtain ⟨l, s, hls, _, rfl⟩ := (hsummedMem a).1 ha
      have := hlamB l s hls
      have := n2 b hb
      omega
    · intro d hd
      rcases List.mem_append.1 hd with hd | hd
      · obtain ⟨l, s, hls, hm, rfl⟩ := (hsummedMem d).1 hd
        exact hlamHigh l s hls hm
      · have := n2 d hd
        omega
    · intro f hf i hi
      rcases n3 f hf i hi with h | h
      · obtain ⟨a, ha, hia⟩ := List.mem_flatMap.1 h
        obtain ⟨o, ho, rfl⟩ := List.mem_map.1 ha
        obtain ⟨l, hl, rfl⟩ := List.mem_map.1 hia
        obtain ⟨s, hs, _⟩ := forall₂_keys (hops o ho) hl
        by_cases hm : l ∈ out
        · exact .inl (hfreeMem l s hs hm)
        · exact .inr (List.mem_append.2 (.inl ((hsummedMem _).2 ⟨l, s, hs, hm, rfl⟩)))
      · exact .inr (List.mem_append.2 (.inr h))
  obtain ⟨wp, vp⟩ := canonAll_sound sz T cn hcn (frees 0 osp) raws hrawsWF [] (by simp [WFpoly]) st p _ hc
  -- the sizes of the labels
  have hLmem : ∀ x ∈ L, ∃ o ∈ vs, x.2 = o.1 ∧ Rep sz T o.2 x.1 := by
    exact fun x hx => forall₂_right hL hx
  have hVmem : ∀ o ∈ vs, ∃ x ∈ L, x.2 = o.1 ∧ Rep sz T o.2 x.1 := by
    exact fun o ho => forall₂_left hL ho
  have hLtbl : ∀ x ∈ L, ∀ l ∈ x.2, ∃ s, (l, s) ∈ tbl := by
    intro x hx l hl
    obtain ⟨o, ho, h1, _⟩ := hLmem x hx
    rw [h1] at hl
    obtain ⟨s, hs, _⟩ := forall₂_keys (hops o ho) hl
    exact ⟨s, hs⟩
  have htblL : ∀ l s, (l, s) ∈ tbl → ∃ x ∈ L, l ∈ x.2 := by
    intro l s hls
    rcases hkeys _ hls with h | ⟨o, ho, h⟩
    · simp at h
    · obtain ⟨x, hx, h1, _⟩ := hVmem o ho
      exact ⟨x, hx, by rw [h1]; exact h⟩
  have houtTbl : ∀ l ∈ out, ∃ s, (l, s) ∈ tbl := fun l hl => by
    obtain ⟨s, hs, _⟩ := forall₂_keys hosp hl
    exact ⟨s, hs⟩
  have hlookD : ∀ l s, (l, s) ∈ tbl → lookD tbl l = s := fun l s h => by
    rw [lookD_eq, lookupN_of_mem htbl.1 h]; rfl
  refine ⟨fun l => sz (lookD tbl l), ?_, hnod, ?_, ?_, ?_, hlow, by rw [hosplen]; exact hle, wp, ?_⟩
  · intro x hx i hi
    obtain ⟨s, hs⟩ := hLtbl x hx i hi
    exact (htbl.2 _ hs).1
  · intro i hi
    obtain ⟨s, hs⟩ := houtTbl i hi
    exact htblL i s hs
  · intro x hx
    obtain ⟨o, ho, h1, h2⟩ := hLmem x hx
    rw [h2.shape, h1, forall₂_lookD htbl.1 (hops o ho), List.map_map]
    rfl
  · rw [hospeq, List.map_map]
    rfl
  · intro e he
    have hrange : InRange sz (frees 0 osp) (frEnv (out.map e)) := by
      refine inRange_frEnv hlow ?_
      rw [hospeq, List.map_map]
      exact inBox_map _ _ _ he
    rw [vp _ hrange, polyVal_nil, zero_add]
    have hframe : ∀ l ∈ out, frEnv (out.map e) (lookD ixt l) = e l := by
      intro l hl
      obtain ⟨s, hs⟩ := houtTbl l hl
      have hb := (htbl.2 _ hs).2
      simp only at hb
      have hi := List.idxOf_lt_length_of_mem hl
      rw [hlamOut l s hs hl]
      unfold frEnv
      rw [show (16 * out.idxOf l + s) / 16 = out.idxOf l by omega, List.getD_eq_getElem?_getD,
        List.getElem?_map, List.getElem?_eq_getElem hi, List.getElem_idxOf]
      rfl
    have hdm : ∀ d ∈ einDummies ((L.map Prod.swap).map Prod.fst) out, ∃ s, (d, s) ∈ tbl := by
      intro d hd
      obtain ⟨⟨ls, hls, hdl⟩, _⟩ := mem_einDummies.1 hd
      rw [List.map_map, List.mem_map] at hls
      obtain ⟨x, hx, rfl⟩ := hls
      exact hLtbl x hx d hdl
    -- renaming of the labels
    have hren : einValue (fun l => sz (lookD tbl l)) (L.map Prod.swap) out e
        = einSum (fun i => sz (i % 16)) (summedIxs ixt)
          (fun e' => einProd (L.map Prod.swap) fun l => e' (lookD ixt l)) (frEnv (out.map e)) := by
      rw [einValue_congr (e' := fun l => frEnv (out.map e) (lookD ixt l)) _ fun l hl => (hframe l hl).symm]
      unfold einValue
      rw [← einSum_rename (fun l => sz (lookD tbl l)) (fun i => sz (i % 16)) (lookD ixt)
        (einDummies ((L.map Prod.swap).map Prod.fst) out) (einProd_depends (L.map Prod.swap)) ?_ ?_
        (frEnv (out.map e))]
      · apply einSum_perm
        rw [List.perm_ext_iff_of_nodup ((nodup_einDummies _ _).map_on ?_) hsummedNd]
        · intro i
          rw [List.mem_map, hsummedMem]
          constructor
          · rintro ⟨d, hd, rfl⟩
            obtain ⟨s, hs⟩ := hdm d hd
            exact ⟨d, s, hs, (mem_einDummies.1 hd).2, rfl⟩
          · rintro ⟨l, s, hls, hm, rfl⟩
            obtain ⟨x, hx, hlx⟩ := htblL l s hls
            refine ⟨l, mem_einDummies.2 ⟨⟨x.2, ?_, hlx⟩, hm⟩, rfl⟩
            rw [List.map_map, List.mem_map]
            exact ⟨x, hx, rfl⟩
        · intro a ha b hb hab
          obtain ⟨s, hs⟩ := hdm a ha
          obtain ⟨s', hs'⟩ := hdm b hb
          exact hlamInj a s b s' hs hs' hab
      · rintro i ⟨x, hx, hi⟩ d hd hid
        obtain ⟨y, hy, rfl⟩ := List.mem_map.1 hx
        obtain ⟨s, hs⟩ := hLtbl y hy i hi
        obtain ⟨s', hs'⟩ := hdm d hd
        exact hlamInj i s d s' hs hs' hid
      · intro d hd
        obtain ⟨s, hs⟩ := hdm d hd
        simp only [hlamMod d s hs, hlookD d s hs]
    rw [hren]
    -- the product of the elements
    have hprod : einSum (fun i => sz (i % 16)) (summedIxs ixt)
          (fun e' => einProd (L.map Prod.swap) fun l => e' (lookD ixt l)) (frEnv (out.map e))
        = einSum (fun i => sz (i % 16)) (summedIxs ixt)
          (fun e' => ((prods (vs.map fun o => (o.1.map (lookD ixt), o.2.2)) 128).map
            fun r => rawVal sz T r e').sum) (frEnv (out.map e)) := by
      apply einSum_congr
      intro e' he1 he2
      rw [pr2 e']
      have hval : ∀ l s, (l, s) ∈ tbl → e' (lookD ixt l) < sz s := by
        intro l s hls
        by_cases hm : l ∈ out
        · rw [he1 _ fun hmem => by
            obtain ⟨l', s', hls', hm', heq⟩ := (hsummedMem _).1 hmem
            exact hm' (hlamInj l s l' s' hls hls' heq ▸ hm), hframe l hm]
          have := he l hm
          simp only [hlookD l s hls] at this
          exact this
        · have := he2 _ ((hsummedMem _).2 ⟨l, s, hls, hm, rfl⟩)
          simp only [hlamMod l s hls] at this
          exact this
      unfold einProd
      rw [List.map_map, List.map_map]
      clear * - hL hops htbl hval hlookD
      induction hL with
      | nil => rfl
      | @cons o x vs L hox _ ih =>
        simp only [List.map_cons, List.prod_cons]
        rw [ih fun o ho => hops o (by simp [ho])]
        congr 1
        simp only [Function.comp]
        have hF := hops o (by simp)
        have hrep := hox.2
        have hbox : InBox x.1.shape (x.2.map fun l => e' (lookD ixt l)) := by
          rw [hrep.shape, forall₂_lookD htbl.1 hF, List.map_map, hox.1]
          apply inBox_map (fun l => (sz ∘ lookD tbl) l) (fun l => e' (lookD ixt l))
          intro l hl
          obtain ⟨s, hs, _⟩ := forall₂_keys hF hl
          simp only [Function.comp, hlookD l s hs]
          exact hval l s hs
        show x.1.get (x.2.map fun l => e' (lookD ixt l)) = _
        rw [hrep.val _ hbox]
        apply polyVal_depends sz T hrep.poly
        intro i hi
        obtain ⟨j, hj, rfl⟩ := mem_frees hi
        have hs := hrep.low _ (List.getElem_mem hj)
        have hjl : j < o.1.length := by rw [hF.length_eq]; exact hj
        unfold frEnv
        rw [show (16 * (0 + j) + o.2.1[j]) / 16 = j by omega, hox.1]
        simp only [List.getD_eq_getElem?_getD, List.getElem?_map, List.getElem?_eq_getElem hjl,
          Option.map_some, Option.getD_some]
    rw [hprod, einSum_list_sum, hraws2, List.map_map]
    congr 1
    apply List.map_congr_left
    intro r _
    simp only [Function.comp, rawVal]
    rw [einSum_append]
    exact (einSum_const_mul _ _ _ _ _).symm

end
end Ebcc
