import Verif.Tensor.Canon
import Mathlib.Algebra.BigOperators.Ring.List
import Mathlib.Tactic.LinearCombination
/-!
Sums, multiples and products of polynomials have the sums, multiples and products of the values.
-/

namespace Ebcc

section
variable {R : Type} [Field R]

theorem polyVal_nil (sz : Nat → Nat) (T : Nat → List (Nat × Nat) → R) (e : Nat → Nat) :
    polyVal sz T [] e = 0 := rfl

theorem polyVal_cons (sz : Nat → Nat) (T : Nat → List (Nat × Nat) → R) (m : TMono) (p : TPoly)
    (e : Nat → Nat) : polyVal sz T (m :: p) e = monoVal sz T m e + polyVal sz T p e := by simp [polyVal]

theorem tcoef_addCoef [CharZero R] (n : Int) (k : Nat) (n' : Int) (k' : Nat) :
    (tcoef (addCoef n k n' k').1 (addCoef n k n' k').2 : R) = tcoef n k + tcoef n' k' := by
  have h24 : ∀ j : Nat, (24 : R) ^ j ≠ 0 := fun j => pow_ne_zero _ (by norm_num)
  have e : addCoef n k n' k' = bif Nat.ble k k' then (n * Int.ofNat (24 ^ (k' - k)) + n', k')
      else (n + n' * Int.ofNat (24 ^ (k - k')), k) := sel_eq _ _ _
  rw [e]
  cases h : Nat.ble k k' with
  | true =>
    have hle := Nat.le_of_ble_eq_true h
    obtain ⟨j, rfl⟩ := Nat.exists_eq_add_of_le hle
    simp only [cond_true, tcoef, Nat.add_sub_cancel_left, Int.ofNat_eq_natCast]
    push_cast
    rw [pow_add]
    have h1 := h24 k
    have h2 := h24 j
    field_simp
  | false =>
    have hle := Nat.le_of_lt (not_ble h)
    obtain ⟨j, rfl⟩ := Nat.exists_eq_add_of_le hle
    simp only [cond_false, tcoef, Nat.add_sub_cancel_left, Int.ofNat_eq_natCast]
    push_cast
    rw [pow_add]
    have h1 := h24 k'
    have h2 := h24 j
    field_simp

theorem insMono_nil (m : TMono) : insMono m [] = bif isZero m.n then [] else [m] := sel_eq _ _ _

theorem insMono_cons (m a : TMono) (l : TPoly) : insMono m (a :: l) =
    bif sameMono a m then
      (bif isZero (addCoef a.n a.k m.n m.k).1 then l
        else ⟨a.key, (addCoef a.n a.k m.n m.k).1, (addCoef a.n a.k m.n m.k).2, a.ds, a.fs⟩ :: l)
    else a :: insMono m l := by
  have e : insMono m (a :: l) = @Bool.rec (fun _ => TPoly) (a :: insMono m l)
      (forceInt (addCoef a.n a.k m.n m.k).1 fun n => forceNat (addCoef a.n a.k m.n m.k).2 fun k =>
        @Bool.rec (fun _ => TPoly) (⟨a.key, n, k, a.ds, a.fs⟩ :: l) l (isZero n)) (sameMono a m) := by
    obtain ⟨x, hx⟩ : ∃ x, addCoef a.n a.k m.n m.k = x := ⟨_, rfl⟩
    unfold insMono
    simp only [hx]
  rw [e, sel_eq, forceInt_eq, forceNat_eq, sel_eq]

theorem sameMono_eq {a m : TMono} (h : sameMono a m = true) : a.fs = m.fs ∧ a.ds = m.ds := by
  have e : sameMono a m = bif Nat.beq a.key m.key then (bif eqFacs a.fs m.fs then eqNats a.ds m.ds else false)
      else false := (sel_eq _ _ _).trans (by rw [sel_eq])
  rw [e] at h
  obtain ⟨_, h⟩ := bif_true h
  obtain ⟨h1, h2⟩ := bif_true h
  exact ⟨eqFacs_eq h1, eqNats_eq h2⟩

theorem insMono_sound [CharZero R] (sz : Nat → Nat) (T : Nat → List (Nat × Nat) → R) (m : TMono) (p : TPoly)
    (e : Nat → Nat) : polyVal sz T (insMono m p) e = polyVal sz T p e + monoVal sz T m e := by
  induction p with
  | nil =>
    rw [insMono_nil]
    cases h : isZero m.n with
    | true => simp [polyVal, monoVal, rawVal, tcoef, isZero_eq h]
    | false => simp [polyVal]
  | cons a l ih =>
    rw [insMono_cons]
    cases h : sameMono a m with
    | false => simp only [cond_false, polyVal_cons, ih]; ring
    | true =>
      obtain ⟨h1, h2⟩ := sameMono_eq h
      have key : monoVal sz T a e + monoVal sz T m e
          = tcoef (addCoef a.n a.k m.n m.k).1 (addCoef a.n a.k m.n m.k).2
            * einSum (fun i => sz (i % 16)) a.ds (facsVal T a.fs) e := by
        rw [tcoef_addCoef]
        simp only [monoVal, rawVal, h1, h2]
        ring
      cases hz : isZero (addCoef a.n a.k m.n m.k).1 with
      | true =>
        simp only [cond_true, polyVal_cons]
        rw [show monoVal sz T a e + polyVal sz T l e + monoVal sz T m e
          = (monoVal sz T a e + monoVal sz T m e) + polyVal sz T l e by ring, key, isZero_eq hz]
        simp [tcoef]
      | false =>
        simp only [cond_true, cond_false, polyVal_cons]
        rw [show monoVal sz T a e + polyVal sz T l e + monoVal sz T m e
          = (monoVal sz T a e + monoVal sz T m e) + polyVal sz T l e by ring, key]
        rfl

theorem insMono_wf {F : List Nat} {m : TMono} {p : TPoly} (hm : WFmono F m) (hp : WFpoly F p) :
    WFpoly F (insMono m p) := by
  induction p with
  | nil =>
    rw [insMono_nil]
    cases isZero m.n
    · exact fun a ha => by simp at ha; subst ha; exact hm
    · exact hp
  | cons a l ih =>
    have ha := hp a (by simp)
    have hl : WFpoly F l := fun b hb => hp b (by simp [hb])
    rw [insMono_cons]
    cases sameMono a m with
    | false =>
      intro b hb
      simp only [cond_false, List.mem_cons] at hb
      rcases hb with rfl | hb
      · exact ha
      · exact ih hl b hb
    | true =>
      cases isZero (addCoef a.n a.k m.n m.k).1 with
      | true => exact hl
      | false =>
        intro b hb
        simp only [cond_true, cond_false, List.mem_cons] at hb
        rcases hb with rfl | hb
        · exact ⟨ha.low, ha.nodup, ha.high, ha.scope⟩
        · exact hl b hb

theorem insAll_cons (p : TPoly) (m : TMono) (q : TPoly) : insAll p (m :: q) = insAll (insMono m p) q := rfl

theorem insAll_sound [CharZero R] (sz : Nat → Nat) (T : Nat → List (Nat × Nat) → R) (p q : TPoly)
    (e : Nat → Nat) : polyVal sz T (insAll p q) e = polyVal sz T p e + polyVal sz T q e := by
  induction q generalizing p with
  | nil => simp [insAll, polyVal_nil]
  | cons m q ih => rw [insAll_cons, ih, insMono_sound, polyVal_cons]; ring

theorem insAll_wf {F : List Nat} {p q : TPoly} (hp : WFpoly F p) (hq : WFpoly F q) :
    WFpoly F (insAll p q) := by
  induction q generalizing p with
  | nil => exact hp
  | cons m q ih =>
    rw [insAll_cons]
    exact ih (insMono_wf (hq m (by simp)) hp) fun b hb => hq b (by simp [hb])

theorem scaleMono_sound (sz : Nat → Nat) (T : Nat → List (Nat × Nat) → R) (n : Int) (k : Nat) (m : TMono)
    (e : Nat → Nat) : monoVal sz T (scaleMono n k m) e = monoVal sz T m e * tcoef n k := by
  have h1 : (scaleMono n k m).n = m.n * n := rfl
  have h2 : (scaleMono n k m).k = m.k + k := rfl
  have h3 : (scaleMono n k m).ds = m.ds := rfl
  have h4 : (scaleMono n k m).fs = m.fs := rfl
  have : (tcoef (m.n * n) (m.k + k) : R) = tcoef m.n m.k * tcoef n k := by
    simp only [tcoef]
    push_cast
    rw [pow_add, mul_div_mul_comm]
  simp only [monoVal, rawVal, h1, h2, h3, h4, this]
  ring

theorem scalePoly_eq (n : Int) (k : Nat) (p : TPoly) : scalePoly n k p =
    bif (bif Nat.beq k 0 then isOne n else false) then p else p.map (scaleMono n k) := by
  rw [← mapL_eq]
  exact (sel_eq _ _ _).trans (by rw [sel_eq])

theorem scalePoly_sound (sz : Nat → Nat) (T : Nat → List (Nat × Nat) → R) (n : Int) (k : Nat) (p : TPoly)
    (e : Nat → Nat) : polyVal sz T (scalePoly n k p) e = polyVal sz T p e * tcoef n k := by
  rw [scalePoly_eq]
  cases h : (bif Nat.beq k 0 then isOne n else false) with
  | true =>
    obtain ⟨h1, h2⟩ := bif_true h
    rw [Nat.eq_of_beq_eq_true h1, isOne_eq h2]
    simp [tcoef]
  | false =>
    simp only [cond_false, polyVal, List.map_map, Function.comp_def, scaleMono_sound]
    rw [List.sum_map_mul_right]

theorem scalePoly_wf {F : List Nat} {n : Int} {k : Nat} {p : TPoly} (hp : WFpoly F p) :
    WFpoly F (scalePoly n k p) := by
  rw [scalePoly_eq]
  cases (bif Nat.beq k 0 then isOne n else false) with
  | true => exact hp
  | false =>
    intro m hm
    simp only [cond_false, List.mem_map] at hm
    obtain ⟨a, ha, rfl⟩ := hm
    have h := hp a ha
    exact ⟨h.low, h.nodup, h.high, h.scope⟩

/-- Equal polynomials have equal values. -/
theorem polyEq_sound [CharZero R] (sz : Nat → Nat) (T : Nat → List (Nat × Nat) → R) {p q : TPoly}
    (h : polyEq p q = true) (e : Nat → Nat) : polyVal sz T p e = polyVal sz T q e := by
  unfold polyEq at h
  have h1 := insAll_sound sz T p (q.map (scaleMono (-1) 0)) e
  cases hi : insAll p (q.map (scaleMono (-1) 0)) with
  | cons a l => rw [hi] at h; cases h
  | nil =>
    rw [hi, polyVal_nil] at h1
    have h2 : polyVal sz T (q.map (scaleMono (-1) 0)) e = polyVal sz T q e * tcoef (-1) 0 := by
      simp only [polyVal, List.map_map, Function.comp_def, scaleMono_sound]
      rw [List.sum_map_mul_right]
    rw [h2] at h1
    simp only [tcoef, pow_zero, div_one] at h1
    push_cast at h1
    linear_combination -h1

/-! ### Canonical forms -/

/-- The values of the axes are below the sizes. -/
def InRange (sz : Nat → Nat) (F : List Nat) (e : Nat → Nat) : Prop := ∀ i ∈ F, e i < sz (i % 16)

/-- Canonical forms have the value of the monomial. -/
structure CanonOk {σ : Type} (sz : Nat → Nat) (T : Nat → List (Nat × Nat) → R) (cn : TCanon σ) : Prop where
  canon : ∀ F r, WFraw F r → ∀ st q st', cn r st = some (q, st') →
    WFpoly F q ∧ q.length ≤ 1 ∧ ∀ e, InRange sz F e → polyVal sz T q e = rawVal sz T r e
  delta : T 15 = deltaT

theorem canonByHints_sound [CharZero R] (sz : Nat → Nat) (T : Nat → List (Nat × Nat) → R) (sy : TSym)
    (hsy : SymOk T sy) : CanonOk sz T (canonByHints sy) := by
  refine ⟨?_, hsy.delta⟩
  intro F r hr st q st' h
  cases st with
  | nil => cases h
  | cons h0 hs =>
    have e1 : canonByHints sy r (h0 :: hs) =
      @Bool.rec (fun _ => Option (TPoly × List Nat))
        (@Option.rec TMono (fun _ => Option (TPoly × List Nat)) none (fun m => some ([m], hs))
          (canonMono sy r (Nat.pred h0)))
        (@List.rec Nat (fun _ => Option (TPoly × List Nat)) none (fun h1 hs _ =>
          @List.rec Nat (fun _ => Option (TPoly × List Nat)) none (fun h2 hs _ =>
            @Option.rec TMono (fun _ => Option (TPoly × List Nat)) none (fun a =>
              @Option.rec TMono (fun _ => Option (TPoly × List Nat)) none (fun b =>
                @Bool.rec (fun _ => Option (TPoly × List Nat)) none (some ([], hs)) (oppositeB a b))
              (canonMono sy r (Nat.pred h2)))
            (canonMono sy r (Nat.pred h1))) hs) hs)
        (Nat.beq h0 0) := rfl
    rw [e1] at h
    cases hb : Nat.beq h0 0 with
    | false =>
      rw [hb] at h
      cases hc : canonMono sy r (Nat.pred h0) with
      | none => rw [hc] at h; cases h
      | some m =>
        rw [hc] at h
        simp only [Option.some.injEq, Prod.mk.injEq] at h
        obtain ⟨rfl, rfl⟩ := h
        obtain ⟨w, v⟩ := canonMono_sound sz T sy hsy F r hr _ m hc
        refine ⟨fun a ha => by simp at ha; subst ha; exact w, by simp, fun e _ => ?_⟩
        rw [polyVal_cons, polyVal_nil, add_zero, v]
    | true =>
      rw [hb] at h
      rcases hs with _ | ⟨h1, _ | ⟨h2, hs⟩⟩
      · cases h
      · cases h
      · simp only at h
        cases hc1 : canonMono sy r (Nat.pred h1) with
        | none => rw [hc1] at h; cases h
        | some a =>
        cases hc2 : canonMono sy r (Nat.pred h2) with
        | none => rw [hc1, hc2] at h; cases h
        | some b =>
        rw [hc1, hc2] at h
        simp only at h
        cases ho : oppositeB a b with
        | false => rw [ho] at h; cases h
        | true =>
          rw [ho] at h
          simp only [Option.some.injEq, Prod.mk.injEq] at h
          obtain ⟨rfl, rfl⟩ := h
          have e2 : oppositeB a b = bif eqFacs a.fs b.fs then (bif eqNats a.ds b.ds then
              (bif isZero (a.n + b.n) then Nat.beq a.k b.k else false) else false) else false :=
            (sel_eq _ _ _).trans (by rw [sel_eq, sel_eq]; rfl)
          rw [e2] at ho
          obtain ⟨o1, ho⟩ := bif_true ho
          obtain ⟨o2, ho⟩ := bif_true ho
          obtain ⟨o3, o4⟩ := bif_true ho
          have hfs := eqFacs_eq o1
          have hds := eqNats_eq o2
          have hn : b.n = -a.n := by have := isZero_eq o3; omega
          have hk := Nat.eq_of_beq_eq_true o4
          obtain ⟨_, v1⟩ := canonMono_sound sz T sy hsy F r hr _ a hc1
          obtain ⟨_, v2⟩ := canonMono_sound sz T sy hsy F r hr _ b hc2
          refine ⟨fun a ha => by simp at ha, by simp, fun e _ => ?_⟩
          have hv : monoVal sz T b e = -monoVal sz T a e := by
            simp only [monoVal, rawVal, ← hfs, ← hds, ← hk, hn, tcoef]
            push_cast
            ring
          rw [v1, v2] at hv
          have h2 : (2 : R) * rawVal sz T r e = 0 := by linear_combination hv
          rw [polyVal_nil]
          rcases mul_eq_zero.1 h2 with h | h
          · exact absurd h (by norm_num)
          · exact h.symm

theorem canonAll_sound [CharZero R] {σ : Type} (sz : Nat → Nat) (T : Nat → List (Nat × Nat) → R)
    (cn : TCanon σ) (hcn : CanonOk sz T cn) (F : List Nat) (l : List TRaw) (hl : ∀ r ∈ l, WFraw F r)
    (p : TPoly) (hp : WFpoly F p) (st : σ) (q : TPoly) (st' : σ) (h : canonAll cn l p st = some (q, st')) :
    WFpoly F q ∧ ∀ e, InRange sz F e → polyVal sz T q e = polyVal sz T p e + (l.map fun r => rawVal sz T r e).sum := by
  induction l generalizing p st with
  | nil =>
    have e1 : canonAll cn [] p st = some (p, st) := rfl
    rw [e1] at h
    cases h
    exact ⟨hp, fun e _ => by simp⟩
  | cons r l ih =>
    have e1 : canonAll cn (r :: l) p st =
        (match cn r st with
        | none => none
        | some ([], st) => canonAll cn l p st
        | some (m :: _, st) => forceMono m fun m => canonAll cn l (insMono m p) st) := by
      show @Option.rec (TPoly × σ) (fun _ => Option (TPoly × σ)) _ _ (cn r st) = _
      cases cn r st with
      | none => rfl
      | some q =>
        obtain ⟨q, st⟩ := q
        cases q with
        | nil => rfl
        | cons m q => rfl
    rw [e1] at h
    cases hc : cn r st with
    | none => rw [hc] at h; cases h
    | some q1 =>
      obtain ⟨q1, st1⟩ := q1
      obtain ⟨w, wl, v⟩ := hcn.canon F r (hl r (by simp)) st q1 st1 hc
      rw [hc] at h
      cases q1 with
      | nil =>
        obtain ⟨i1, i2⟩ := ih (fun r hr => hl r (by simp [hr])) p hp st1 h
        refine ⟨i1, fun e he => ?_⟩
        rw [i2 e he, List.map_cons, List.sum_cons, ← v e he, polyVal_nil, zero_add]
      | cons m q2 =>
        have hq2 : q2 = [] := by cases q2 with
          | nil => rfl
          | cons a b => simp at wl
        subst hq2
        simp only [forceMono_eq] at h
        obtain ⟨i1, i2⟩ := ih (fun r hr => hl r (by simp [hr])) _ (insMono_wf (w m (by simp)) hp) st1 h
        refine ⟨i1, fun e he => ?_⟩
        rw [i2 e he, insMono_sound, List.map_cons, List.sum_cons, ← v e he, polyVal_cons, polyVal_nil]
        ring

/-! ### Products -/

theorem substIx_low {li : List Nat} {off i : Nat} (h : i < 512) : substIx li off i = li.getD (i / 16) 0 := by
  have e : substIx li off i = bif Nat.ble 512 i then i + 16 * off else nthD 0 li (i / 16) := sel_eq _ _ _
  rw [e]
  cases hb : Nat.ble 512 i with
  | true => have := Nat.le_of_ble_eq_true hb; omega
  | false => rw [cond_false, nthD_eq]

theorem substIx_high {li : List Nat} {off i : Nat} (h : 512 ≤ i) : substIx li off i = i + 16 * off := by
  have e : substIx li off i = bif Nat.ble 512 i then i + 16 * off else nthD 0 li (i / 16) := sel_eq _ _ _
  rw [e, Nat.ble_eq_true_of_le h]
  rfl

theorem substFs_eq (li : List Nat) (off : Nat) (fs : List TFac) :
    substFs li off fs = fs.map fun f => (f.1, f.2.map (substIx li off)) := by
  unfold substFs
  rw [mapL_eq]
  apply List.map_congr_left
  intro f _
  obtain ⟨t, is⟩ := f
  show (t, mapL (substIx li off) is) = _
  rw [mapL_eq]

theorem prodMono_eq (li : List Nat) (off : Nat) (m : TMono) (r : TRaw) : prodMono li off m r =
    (m.n * r.1, m.k + r.2.1, m.ds.map (substIx li off) ++ r.2.2.1,
      (m.fs.map fun f => (f.1, f.2.map (substIx li off))) ++ r.2.2.2) := by
  obtain ⟨n, k, ds, fs⟩ := r
  have e : prodMono li off m (n, k, ds, fs) = (Int.mul m.n n, Nat.add m.k k,
    app (mapL (substIx li off) m.ds) ds, app (substFs li off m.fs) fs) := rfl
  rw [e, app_eq, app_eq, mapL_eq, substFs_eq]
  rfl

theorem prods_cons (li : List Nat) (p : TPoly) (l : List (List Nat × TPoly)) (off : Nat) :
    prods ((li, p) :: l) off = (prods l (off + 64)).flatMap fun r => p.map fun m => prodMono li off m r := by
  have e : prods ((li, p) :: l) off = @List.rec TRaw (fun _ => List TRaw) []
    (fun r _ ih' => app (mapL (fun m => prodMono li off m r) p) ih') (prods l (off + 64)) := rfl
  rw [e]
  induction prods l (off + 64) with
  | nil => rfl
  | cons r rs ih => simp only [List.flatMap_cons, ← ih, app_eq, mapL_eq]

/-- The value of a factor after substitution. -/
theorem facsVal_subst (T : Nat → List (Nat × Nat) → R) (σ : Nat → Nat) (fs : List TFac)
    (h : ∀ f ∈ fs, ∀ i ∈ f.2, σ i % 16 = i % 16) :
    facsVal T (fs.map fun f => (f.1, f.2.map σ)) = fun e => facsVal T fs fun i => e (σ i) := by
  funext e
  simp only [facsVal, List.map_map]
  congr 1
  apply List.map_congr_left
  intro f hf
  simp only [Function.comp, facVal, List.map_map]
  congr 1
  apply List.map_congr_left
  intro i hi
  simp only [Function.comp, h f hf i hi]

/-- An operand of a contraction: spaces of the axes, indices for the labels, polynomial. -/
structure OpOk (B : Nat) (sp li : List Nat) (p : TPoly) : Prop where
  wf : WFpoly (frees 0 sp) p
  low : ∀ s ∈ sp, s < 16
  mods : li.map (· % 16) = sp
  bound : ∀ i ∈ li, i < B

theorem OpOk.length {B : Nat} {sp li : List Nat} {p : TPoly} (h : OpOk B sp li p) : li.length = sp.length := by
  rw [← h.mods]; simp

theorem mem_frees {k : Nat} {sp : List Nat} {i : Nat} (h : i ∈ frees k sp) :
    ∃ j, ∃ hj : j < sp.length, i = 16 * (k + j) + sp[j] := by
  obtain ⟨j, hj, rfl⟩ := List.mem_iff_getElem.1 h
  exact ⟨j, by rwa [length_frees] at hj, getElem_frees k sp j hj⟩

/-- The index in place of an axis. -/
theorem OpOk.axis {B : Nat} {sp li : List Nat} {p : TPoly} (h : OpOk B sp li p) {i : Nat}
    (hi : i ∈ frees 0 sp) : li.getD (i / 16) 0 ∈ li ∧ li.getD (i / 16) 0 % 16 = i % 16 := by
  obtain ⟨j, hj, rfl⟩ := mem_frees hi
  have hs := h.low _ (List.getElem_mem hj)
  have hd : (16 * (0 + j) + sp[j]) / 16 = j := by omega
  have hj' : j < li.length := by rw [h.length]; exact hj
  rw [hd, List.getD_eq_getElem?_getD, List.getElem?_eq_getElem hj']
  refine ⟨List.getElem_mem _, ?_⟩
  have h1 : (li.map (· % 16))[j]'(by simpa using hj') = sp[j] := by simp only [h.mods]
  simp only [List.getElem_map] at h1
  simp only [Option.getD_some]
  omega

/-- The product with one more monomial. -/
theorem prodMono_sound (sz : Nat → Nat) (T : Nat → List (Nat × Nat) → R) (off : Nat) {sp li : List Nat}
    {p : TPoly} (h : OpOk (512 + 16 * off) sp li p) {m : TMono} (hm : m ∈ p) {L : List Nat}
    (hL : ∀ i ∈ L, i < 512 + 16 * off) {r : TRaw} (hnd : r.2.2.1.Nodup)
    (hhigh : ∀ d ∈ r.2.2.1, 512 + 16 * (off + 64) ≤ d) (hsc : Scoped L r.2.2.1 r.2.2.2) :
    (prodMono li off m r).2.2.1.Nodup ∧ (∀ d ∈ (prodMono li off m r).2.2.1, 512 + 16 * off ≤ d) ∧
    Scoped (li ++ L) (prodMono li off m r).2.2.1 (prodMono li off m r).2.2.2 ∧
    ∀ e, rawVal sz T (prodMono li off m r) e
      = monoVal sz T m (fun i => e (li.getD (i / 16) 0)) * rawVal sz T r e := by
  have hw := h.wf m hm
  obtain ⟨n, k, ds, fs⟩ := r
  simp only at hnd hhigh hsc
  rw [prodMono_eq]
  simp only
  have hds : ∀ d ∈ m.ds.map (substIx li off), 512 + 16 * off ≤ d ∧ d < 512 + 16 * (off + 64) := by
    intro d hd
    obtain ⟨d0, hd0, rfl⟩ := List.mem_map.1 hd
    have := hw.high d0 hd0
    rw [substIx_high this.1]
    omega
  have hsigma : ∀ i, (i ∈ frees 0 sp ∨ i ∈ m.ds) → substIx li off i % 16 = i % 16 := by
    rintro i (hi | hi)
    · rw [substIx_low (hw.low i hi)]; exact (h.axis hi).2
    · rw [substIx_high (hw.high i hi).1]; omega
  have hscm : Scoped li (m.ds.map (substIx li off)) (m.fs.map fun f => (f.1, f.2.map (substIx li off))) := by
    intro f hf i hi
    obtain ⟨g, hg, rfl⟩ := List.mem_map.1 hf
    obtain ⟨j, hj, rfl⟩ := List.mem_map.1 hi
    rcases hw.scope g hg j hj with hF | hD
    · left; rw [substIx_low (hw.low j hF)]; exact (h.axis hF).1
    · right; exact List.mem_map_of_mem hD
  refine ⟨?_, ?_, ?_, fun e => ?_⟩
  · rw [List.nodup_append]
    refine ⟨hw.nodup.map_on fun a ha b hb hab => ?_, hnd, fun a ha b hb hab => ?_⟩
    · rw [substIx_high (hw.high a ha).1, substIx_high (hw.high b hb).1] at hab
      omega
    · have := (hds a ha).2
      have := hhigh b hb
      omega
  · intro d hd
    rcases List.mem_append.1 hd with hd | hd
    · exact (hds d hd).1
    · have := hhigh d hd
      omega
  · intro f hf i hi
    rcases List.mem_append.1 hf with hf | hf
    · rcases hscm f hf i hi with h | h <;> simp [h]
    · rcases hsc f hf i hi with h | h <;> simp [h]
  · have hfv : facsVal T ((m.fs.map fun f => (f.1, f.2.map (substIx li off))) ++ fs) = fun e =>
        facsVal T (m.fs.map fun f => (f.1, f.2.map (substIx li off))) e * facsVal T fs e := by
      funext e
      simp [facsVal]
    have hmul := einSum_mul (fun i => sz (i % 16)) (m.ds.map (substIx li off)) ds (facsVal_scoped T hscm)
      (facsVal_scoped T hsc)
      (fun d hd hI => by
        have h1 := hhigh d hd
        rcases hI with hI | hI
        · have := h.bound d hI; omega
        · have := (hds d hI).2; omega)
      (fun d hd hJ => by
        have h1 := hds d hd
        rcases hJ with hJ | hJ
        · have := hL d hJ; omega
        · have := hhigh d hJ; omega) e
    have hren : einSum (fun i => sz (i % 16)) (m.ds.map (substIx li off))
        (facsVal T (m.fs.map fun f => (f.1, f.2.map (substIx li off)))) e
        = einSum (fun i => sz (i % 16)) m.ds (facsVal T m.fs) fun i => e (li.getD (i / 16) 0) := by
      rw [facsVal_subst T (substIx li off) m.fs fun f hf i hi => hsigma i (hw.scope f hf i hi),
        einSum_rename (fun i => sz (i % 16)) (fun i => sz (i % 16)) (substIx li off) m.ds
          (facsVal_scoped T hw.scope) ?_ (fun d hd => by simp only [hsigma d (Or.inr hd)]) e]
      · apply einSum_depends _ m.ds (facsVal_scoped T hw.scope)
        rintro i ⟨hi, hid⟩
        have hF := hi.resolve_right hid
        rw [substIx_low (hw.low i hF)]
      · rintro i (hi | hi) d hd hid
        · rw [substIx_low (hw.low i hi), substIx_high (hw.high d hd).1] at hid
          have := h.bound _ (h.axis hi).1
          have := (hw.high d hd).1
          omega
        · rw [substIx_high (hw.high i hi).1, substIx_high (hw.high d hd).1] at hid
          omega
    have hcoef : (tcoef (m.n * n) (m.k + k) : R) = tcoef m.n m.k * tcoef n k := by
      simp only [tcoef]
      push_cast
      rw [pow_add, mul_div_mul_comm]
    simp only [monoVal, rawVal]
    rw [hfv, hmul, hren, hcoef]
    ring

/-- The products of the monomials add up to the product of the polynomials. -/
theorem prods_sound (sz : Nat → Nat) (T : Nat → List (Nat × Nat) → R)
    (args : List (List Nat × List Nat × TPoly)) (off B : Nat) (hB : B ≤ 512 + 16 * off)
    (hargs : ∀ a ∈ args, OpOk B a.1 a.2.1 a.2.2) :
    (∀ r ∈ prods (args.map Prod.snd) off, r.2.2.1.Nodup ∧ (∀ d ∈ r.2.2.1, 512 + 16 * off ≤ d) ∧
      Scoped (args.flatMap fun a => a.2.1) r.2.2.1 r.2.2.2) ∧
    ∀ e, ((prods (args.map Prod.snd) off).map fun r => rawVal sz T r e).sum
      = (args.map fun a => polyVal sz T a.2.2 fun i => e (a.2.1.getD (i / 16) 0)).prod := by
  induction args generalizing off with
  | nil =>
    have e1 : prods [] off = [(1, 0, [], [])] := rfl
    simp only [List.map_nil, e1]
    constructor
    · intro r hr
      simp only [List.mem_singleton] at hr
      subst hr
      refine ⟨by simp, by simp, fun f hf => by simp at hf⟩
    · intro e
      simp [rawVal, tcoef, einSum, facsVal]
  | cons a args ih =>
    obtain ⟨sp, li, p⟩ := a
    obtain ⟨i1, i2⟩ := ih (off + 64) (by omega) fun a ha => hargs a (by simp [ha])
    have hop0 := hargs (sp, li, p) (by simp)
    have hop : OpOk (512 + 16 * off) sp li p :=
      ⟨hop0.wf, hop0.low, hop0.mods, fun i hi => lt_of_lt_of_le (hop0.bound i hi) hB⟩
    have hL : ∀ i ∈ args.flatMap (fun a => a.2.1), i < 512 + 16 * off := by
      intro i hi
      obtain ⟨a, ha, hia⟩ := List.mem_flatMap.1 hi
      exact lt_of_lt_of_le ((hargs a (by simp [ha])).bound i hia) hB
    simp only [List.map_cons, prods_cons]
    constructor
    · intro r hr
      obtain ⟨r0, hr0, hr⟩ := List.mem_flatMap.1 hr
      obtain ⟨m, hm, rfl⟩ := List.mem_map.1 hr
      obtain ⟨n1, n2, n3⟩ := i1 r0 hr0
      obtain ⟨s1, s2, s3, _⟩ := prodMono_sound sz T off hop hm hL n1 n2 n3
      exact ⟨s1, s2, by simpa using s3⟩
    · intro e
      have h1 : ∀ r0 ∈ prods (args.map Prod.snd) (off + 64),
          ((p.map fun m => prodMono li off m r0).map fun r => rawVal sz T r e).sum
            = polyVal sz T p (fun i => e (li.getD (i / 16) 0)) * rawVal sz T r0 e := by
        intro r0 hr0
        obtain ⟨n1, n2, n3⟩ := i1 r0 hr0
        rw [List.map_map]
        unfold polyVal
        rw [← List.sum_map_mul_right]
        congr 1
        apply List.map_congr_left
        intro m hm
        exact (prodMono_sound sz T off hop hm hL n1 n2 n3).2.2.2 e
      have h2 : ∀ l : List TRaw, (∀ r0 ∈ l, r0 ∈ prods (args.map Prod.snd) (off + 64)) →
          ((l.flatMap fun r => p.map fun m => prodMono li off m r).map fun r => rawVal sz T r e).sum
            = polyVal sz T p (fun i => e (li.getD (i / 16) 0)) * (l.map fun r => rawVal sz T r e).sum := by
        intro l hl
        induction l with
        | nil => simp
        | cons r0 l ihl =>
          rw [List.flatMap_cons, List.map_append, List.sum_append, h1 r0 (hl r0 (by simp)),
            ihl fun r hr => hl r (by simp [hr]), List.map_cons, List.sum_cons, mul_add]
      rw [h2 _ fun _ h => h, i2 e, List.prod_cons]

end
end Ebcc
