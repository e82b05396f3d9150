import Verif.Tensor.Basics
import Verif.Lemmas.EinRename
import Mathlib.Algebra.CharZero.Defs
import Mathlib.Algebra.Field.Basic
import Mathlib.Tactic.Ring
import Mathlib.Tactic.FieldSimp
/-!
The values of monomials and polynomials, and the proof that the canonical form of a monomial has the same
value.
-/

namespace Ebcc

section
variable {R : Type} [Field R]

/-- `n / 24 ^ k`. -/
def tcoef (n : Int) (k : Nat) : R := (n : R) / (24 : R) ^ k

/-- The value of a factor: the element of the tensor at the spaces and values of the indices. -/
def facVal (T : Nat → List (Nat × Nat) → R) (e : Nat → Nat) (f : TFac) : R :=
  T f.1 (f.2.map fun i => (i % 16, e i))

def facsVal (T : Nat → List (Nat × Nat) → R) (fs : List TFac) (e : Nat → Nat) : R :=
  (fs.map (facVal T e)).prod

/-- The value of a monomial, for values `e` of the axes; `sz` gives the sizes of the spaces. -/
def rawVal (sz : Nat → Nat) (T : Nat → List (Nat × Nat) → R) (r : TRaw) (e : Nat → Nat) : R :=
  tcoef r.1 r.2.1 * einSum (fun i => sz (i % 16)) r.2.2.1 (facsVal T r.2.2.2) e

def monoVal (sz : Nat → Nat) (T : Nat → List (Nat × Nat) → R) (m : TMono) (e : Nat → Nat) : R :=
  rawVal sz T (m.n, m.k, m.ds, m.fs) e

def polyVal (sz : Nat → Nat) (T : Nat → List (Nat × Nat) → R) (p : TPoly) (e : Nat → Nat) : R :=
  (p.map fun m => monoVal sz T m e).sum

/-- The indices of the factors are in `F` or summed. -/
def Scoped (F ds : List Nat) (fs : List TFac) : Prop := ∀ f ∈ fs, ∀ i ∈ f.2, i ∈ F ∨ i ∈ ds

structure WFraw (F : List Nat) (r : TRaw) : Prop where
  low : ∀ i ∈ F, i < 512
  nodup : r.2.2.1.Nodup
  high : ∀ d ∈ r.2.2.1, 512 ≤ d
  scope : Scoped F r.2.2.1 r.2.2.2

structure WFmono (F : List Nat) (m : TMono) : Prop where
  low : ∀ i ∈ F, i < 512
  nodup : m.ds.Nodup
  high : ∀ d ∈ m.ds, 512 ≤ d ∧ d < 1536
  scope : Scoped F m.ds m.fs

def WFpoly (F : List Nat) (p : TPoly) : Prop := ∀ m ∈ p, WFmono F m

/-- The elements of identity matrices. -/
def deltaT : List (Nat × Nat) → R
  | [p, q] => if p = q then 1 else 0
  | _ => 0

/-- The symmetries hold: permuting the indices changes the sign or nothing.  The tensor 15 is the identity. -/
structure SymOk (T : Nat → List (Nat × Nat) → R) (sy : TSym) : Prop where
  sym : ∀ t, ∀ q ∈ sy t, q.1.Perm (List.range q.1.length) ∧
    ∀ l : List (Nat × Nat), l.length = q.1.length →
      T t (q.1.map fun k => l.getD k (0, 0)) = (if q.2 then -1 else 1) * T t l
  delta : T 15 = deltaT

theorem facsVal_depends (T : Nat → List (Nat × Nat) → R) (fs : List TFac) :
    DependsOn (facsVal T fs) fun i => ∃ f ∈ fs, i ∈ f.2 := by
  intro e e' h
  unfold facsVal
  congr 1
  apply List.map_congr_left
  intro f hf
  unfold facVal
  congr 1
  apply List.map_congr_left
  intro i hi
  rw [h i ⟨f, hf, hi⟩]

theorem facsVal_scoped (T : Nat → List (Nat × Nat) → R) {F ds : List Nat} {fs : List TFac}
    (h : Scoped F ds fs) : DependsOn (facsVal T fs) fun i => i ∈ F ∨ i ∈ ds :=
  (facsVal_depends T fs).mono fun i ⟨f, hf, hi⟩ => h f hf i hi

theorem rawVal_depends (sz : Nat → Nat) (T : Nat → List (Nat × Nat) → R) {F : List Nat} {r : TRaw}
    (h : Scoped F r.2.2.1 r.2.2.2) {e e' : Nat → Nat} (he : ∀ i ∈ F, e i = e' i) :
    rawVal sz T r e = rawVal sz T r e' := by
  unfold rawVal
  congr 1
  exact einSum_depends (fun i => sz (i % 16)) r.2.2.1 (facsVal_scoped T h) e e'
    fun i hi => (hi.1.elim (fun hF => he i hF) fun hd => absurd hd hi.2)

theorem polyVal_depends (sz : Nat → Nat) (T : Nat → List (Nat × Nat) → R) {F : List Nat} {p : TPoly}
    (h : WFpoly F p) {e e' : Nat → Nat} (he : ∀ i ∈ F, e i = e' i) :
    polyVal sz T p e = polyVal sz T p e' := by
  unfold polyVal
  congr 1
  apply List.map_congr_left
  intro m hm
  exact rawVal_depends sz T (r := (m.n, m.k, m.ds, m.fs)) (h m hm).scope he

/-! ### Arrangement of the factors -/

theorem getD_map_of_lt {α β : Type} (g : α → β) (l : List α) (d : α) (d' : β) {k : Nat} (h : k < l.length) :
    (l.map g).getD k d' = g (l.getD k d) := by
  simp [List.getD_eq_getElem?_getD, List.getElem?_eq_getElem h]

theorem arrange_spec {α : Type} (T : Nat → List (Nat × Nat) → R) (sy : TSym) (hsy : SymOk T sy)
    (fs : List TFac) (digs : List Nat) (k : List TFac → Bool → Option α) (x : α)
    (h : arrange sy fs digs k = some x) :
    ∃ gs s, k gs s = some x ∧
      (∀ e, facsVal T gs e = (if s then -1 else 1) *
        ((digs.map fun d => fs.getD (d / 64) (0, [])).map (facVal T e)).prod) ∧
      ∀ g ∈ gs, ∃ f ∈ fs, ∀ i ∈ g.2, i ∈ f.2 := by
  induction digs generalizing k with
  | nil =>
    refine ⟨[], false, h, fun e => ?_, by simp⟩
    simp [facsVal]
  | cons d l ih =>
    have e1 : arrange sy fs (d :: l) k =
        (match nthO fs (d / 64) with
        | none => none
        | some f => match nthO (sy f.1) (d % 64) with
          | none => none
          | some q =>
            @Bool.rec (fun _ => Option α) none
              (forceNat f.1 fun t => forceNats (permBy 0 f.2 q.1) fun js =>
                arrange sy fs l fun gs s' => k ((t, js) :: gs)
                  (@Bool.rec (fun _ => Bool) s' (@Bool.rec (fun _ => Bool) true false s') q.2))
              (eqLen f.2 q.1)) := by
      show @Option.rec _ (fun _ => Option α) _ _ (nthO fs (d / 64)) = _
      cases nthO fs (d / 64) with
      | none => rfl
      | some f =>
        show @Option.rec _ (fun _ => Option α) _ _ (nthO (sy f.1) (d % 64)) = _
        simp only
        cases nthO (sy f.1) (d % 64) with
        | none => rfl
        | some q => rfl
    rw [e1] at h
    cases h1 : nthO fs (d / 64) with
    | none => rw [h1] at h; cases h
    | some f =>
      rw [h1] at h
      simp only at h
      cases h2 : nthO (sy f.1) (d % 64) with
      | none => rw [h2] at h; cases h
      | some q =>
        rw [h2] at h
        simp only at h
        cases h3 : eqLen f.2 q.1 with
        | false => rw [h3] at h; cases h
        | true =>
          rw [h3] at h
          simp only [forceNat_eq, forceNats_eq] at h
          obtain ⟨gs, s, g1, g2, g3⟩ := ih _ h
          rw [nthO_eq] at h1 h2
          have hf : f ∈ fs := List.mem_of_getElem? h1
          have hq : q ∈ sy f.1 := List.mem_of_getElem? h2
          obtain ⟨p1, p2⟩ := hsy.sym f.1 q hq
          have hlen : f.2.length = q.1.length := eqLen_eq h3
          have hlt : ∀ j ∈ q.1, j < f.2.length := fun j hj => by
            rw [hlen]; exact List.mem_range.1 (p1.mem_iff.1 hj)
          have hfg : fs.getD (d / 64) (0, []) = f := by
            rw [List.getD_eq_getElem?_getD, h1]; rfl
          refine ⟨_, _, g1, fun e => ?_, ?_⟩
          · have e2 := g2 e
            have e3 : facsVal T ((f.1, permBy 0 f.2 q.1) :: gs) e
                = facVal T e (f.1, permBy 0 f.2 q.1) * facsVal T gs e := by simp [facsVal]
            have e4 : facVal T e (f.1, permBy 0 f.2 q.1) = (if q.2 then -1 else 1) * facVal T e f := by
              unfold facVal
              rw [← p2 _ (by simpa using hlen)]
              simp only [permBy_eq, List.map_map]
              congr 1
              apply List.map_congr_left
              intro j hj
              simp only [Function.comp]
              rw [getD_map_of_lt (fun i => (i % 16, e i)) f.2 0 (0, 0) (hlt j hj)]
            rw [e3, e4, e2]
            simp only [List.map_cons, List.prod_cons, hfg]
            cases q.2 <;> cases s <;> simp
          · intro g hg
            rcases List.mem_cons.1 hg with rfl | hg
            · refine ⟨f, hf, fun i hi => ?_⟩
              simp only [permBy_eq, List.mem_map] at hi
              obtain ⟨j, hj, rfl⟩ := hi
              rw [List.getD_eq_getElem?_getD, List.getElem?_eq_getElem (hlt j hj)]
              exact List.getElem_mem _
            · exact g3 g hg

theorem numberIxs_cont {α : Type} (l : List Nat) (mp : List (Nat × Nat)) (cnt : Nat)
    (k : List (Nat × Nat) → Nat → α) : ∃ mp' cnt', numberIxs l mp cnt k = k mp' cnt' := by
  induction l generalizing mp cnt with
  | nil => exact ⟨mp, cnt, rfl⟩
  | cons i l ih =>
    have e1 : numberIxs (i :: l) mp cnt k =
        @Bool.rec (fun _ => α) (numberIxs l mp cnt k)
          (@Option.rec Nat (fun _ => α)
            (forceNat (Nat.add (Nat.mul (Nat.add 32 cnt) 16) (Nat.mod i 16))
              fun j => forceNat (Nat.succ cnt) fun cnt => numberIxs l ((i, j) :: mp) cnt k)
            (fun _ => numberIxs l mp cnt k) (lookupN i mp)) (Nat.ble 512 i) := rfl
    rw [e1]
    cases Nat.ble 512 i with
    | false => exact ih mp cnt
    | true =>
      cases lookupN i mp with
      | some _ => exact ih mp cnt
      | none =>
        simp only [forceNat_eq]
        exact ih _ _

theorem numberFacs_cont {α : Type} (l : List TFac) (mp : List (Nat × Nat)) (cnt : Nat)
    (k : List (Nat × Nat) → α) : ∃ mp', numberFacs l mp cnt k = k mp' := by
  induction l generalizing mp cnt with
  | nil => exact ⟨mp, rfl⟩
  | cons f l ih =>
    have e1 : numberFacs (f :: l) mp cnt k = numberIxs f.2 mp cnt fun mp cnt => numberFacs l mp cnt k := rfl
    obtain ⟨mp', cnt', h⟩ := numberIxs_cont f.2 mp cnt fun mp cnt => numberFacs l mp cnt k
    rw [e1, h]
    exact ih mp' cnt'

theorem rhoOf_low {mp : List (Nat × Nat)} {i : Nat} (h : i < 512) : rhoOf mp i = i := by
  have e : rhoOf mp i = @Bool.rec (fun _ => Nat) i
    (@Option.rec Nat (fun _ => Nat) i (fun j => j) (lookupN i mp)) (Nat.ble 512 i) := rfl
  rw [e]
  cases hb : Nat.ble 512 i with
  | false => rfl
  | true => have := Nat.le_of_ble_eq_true hb; omega

theorem renameFacs_eq (mp : List (Nat × Nat)) (fs : List TFac) :
    renameFacs mp fs = fs.map fun f => (f.1, f.2.map (rhoOf mp)) := by
  unfold renameFacs
  rw [mapL_eq]
  apply List.map_congr_left
  intro f _
  obtain ⟨t, is⟩ := f
  show (t, mapL (rhoOf mp) is) = _
  rw [mapL_eq]

theorem hintDigits_length (l : List TFac) (h : Nat) : (hintDigits l h).length = l.length := by
  induction l generalizing h with
  | nil => rfl
  | cons f l ih =>
    have e : hintDigits (f :: l) h = (h % 1024) :: hintDigits l (h / 1024) := rfl
    simp [e, ih]

theorem prod_getD_range {α : Type} (l : List α) (d : α) (f : α → R) {ps : List Nat}
    (hp : ps.Perm (List.range l.length)) : ((ps.map fun k => l.getD k d).map f).prod = (l.map f).prod := by
  have h1 := ((hp.map fun k => l.getD k d).map f).prod_eq
  rw [h1]
  congr 2
  apply List.ext_getElem
  · simp
  · intro k h1 h2
    simp only [List.getElem_map, List.getElem_range]
    rw [List.getD_eq_getElem?_getD, List.getElem?_eq_getElem h2]
    rfl

/-- The canonical form has the same value. -/
theorem canonMono_sound (sz : Nat → Nat) (T : Nat → List (Nat × Nat) → R) (sy : TSym) (hsy : SymOk T sy)
    (F : List Nat) (r : TRaw) (hr : WFraw F r) (hint : Nat) (m : TMono)
    (h : canonMono sy r hint = some m) : WFmono F m ∧ ∀ e, monoVal sz T m e = rawVal sz T r e := by
  obtain ⟨n, k, ds, fs⟩ := r
  obtain ⟨hlow, hnd, hhigh, hsc⟩ := hr
  simp only at hnd hhigh hsc
  have e1 : canonMono sy (n, k, ds, fs) hint =
    (forceFacs fs fun fs => forceNats ds fun ds => forceNats (hintDigits fs hint) fun digs =>
    @Bool.rec (fun _ => Option TMono) none
      (arrange sy fs digs fun gs s =>
        numberFacs gs [] 0 fun mp => forceNats (sndRev mp []) fun ds' =>
        @Bool.rec (fun _ => Option TMono) none
          (@Bool.rec (fun _ => Option TMono) none
            (@Bool.rec (fun _ => Option TMono) none
              (forceFacs (renameFacs mp gs) fun fs' =>
                some ⟨keyOf fs' 0, @Bool.rec (fun _ => Int) n (Int.neg n) s, k, ds', fs'⟩)
              (allL (fun d => @Bool.rec (fun _ => Bool) false
                (Nat.beq (Nat.mod (rhoOf mp d) 16) (Nat.mod d 16)) (Nat.ble 512 d)) ds))
            (goodDs ds' 512))
          (permNats (mapL (rhoOf mp) ds) ds'))
      (permNats (mapL (fun d => Nat.div d 64) digs) (countUp 0 fs))) := rfl
  rw [e1] at h
  simp only [forceFacs_eq, forceNats_eq] at h
  cases hp : permNats (mapL (fun d => Nat.div d 64) (hintDigits fs hint)) (countUp 0 fs) with
  | false => rw [hp] at h; cases h
  | true =>
    rw [hp] at h
    obtain ⟨gs, s, h, hval, hgs⟩ := arrange_spec T sy hsy fs _ _ _ h
    obtain ⟨mp, hmp⟩ := numberFacs_cont gs [] 0 fun mp =>
        @Bool.rec (fun _ => Option TMono) none
          (@Bool.rec (fun _ => Option TMono) none
            (@Bool.rec (fun _ => Option TMono) none
                (some ⟨keyOf (renameFacs mp gs) 0, @Bool.rec (fun _ => Int) n (Int.neg n) s, k, sndRev mp [], renameFacs mp gs⟩)
              (allL (fun d => @Bool.rec (fun _ => Bool) false
                (Nat.beq (Nat.mod (rhoOf mp d) 16) (Nat.mod d 16)) (Nat.ble 512 d)) ds))
            (goodDs (sndRev mp []) 512))
          (permNats (mapL (rhoOf mp) ds) (sndRev mp []))
    rw [hmp] at h
    generalize sndRev mp [] = ds' at h
    cases hp2 : permNats (mapL (rhoOf mp) ds) ds' with
    | false => rw [hp2] at h; cases h
    | true =>
    cases hg : goodDs ds' 512 with
    | false => rw [hp2, hg] at h; cases h
    | true =>
    cases ha : allL (fun d => @Bool.rec (fun _ => Bool) false
                (Nat.beq (Nat.mod (rhoOf mp d) 16) (Nat.mod d 16)) (Nat.ble 512 d)) ds with
    | false => rw [hp2, hg, ha] at h; cases h
    | true =>
      rw [hp2, hg, ha] at h
      simp only [Option.some.injEq] at h
      subst h
      have hperm : (ds.map (rhoOf mp)).Perm ds' := by rw [← mapL_eq]; exact permNats_perm hp2
      obtain ⟨hpw, hb⟩ := goodDs_spec hg
      have hnd' : ds'.Nodup := hpw.imp fun h => Nat.ne_of_lt h
      have hmod : ∀ d ∈ ds, rhoOf mp d % 16 = d % 16 := by
        intro d hd
        have := allL_iff.1 ha d hd
        rw [sel_eq] at this
        exact Nat.eq_of_beq_eq_true (bif_true this).2
      have hinj : ∀ i ∈ ds, ∀ d ∈ ds, rhoOf mp i = rhoOf mp d → i = d :=
        List.inj_on_of_nodup_map (hperm.nodup_iff.2 hnd')
      have hrho : ∀ d ∈ ds, rhoOf mp d ∈ ds' := fun d hd => hperm.mem_iff.1 (List.mem_map_of_mem hd)
      have hscg : Scoped F ds gs := fun g hg i hi => by
        obtain ⟨f, hf, hfi⟩ := hgs g hg
        exact hsc f hf i (hfi i hi)
      have hmodI : ∀ i, (i ∈ F ∨ i ∈ ds) → rhoOf mp i % 16 = i % 16 := fun i hi =>
        hi.elim (fun hF => by rw [rhoOf_low (hlow i hF)]) (hmod i)
      refine ⟨⟨hlow, hnd', hb, ?_⟩, fun e => ?_⟩
      · intro f hf i hi
        simp only [renameFacs_eq, List.mem_map] at hf
        obtain ⟨g, hg, rfl⟩ := hf
        obtain ⟨j, hj, rfl⟩ := List.mem_map.1 hi
        rcases hscg g hg j hj with h | h
        · left; rw [rhoOf_low (hlow j h)]; exact h
        · right; exact hrho j h
      · have hsum : einSum (fun i => sz (i % 16)) ds' (facsVal T (renameFacs mp gs)) e
            = einSum (fun i => sz (i % 16)) ds (facsVal T gs) e := by
          rw [← einSum_perm _ hperm]
          have e2 : facsVal T (renameFacs mp gs) = fun e' => facsVal T gs fun i => e' (rhoOf mp i) := by
            funext e'
            simp only [facsVal, renameFacs_eq, List.map_map]
            congr 1
            apply List.map_congr_left
            intro g hg
            simp only [Function.comp, facVal, List.map_map]
            congr 1
            apply List.map_congr_left
            intro i hi
            simp only [Function.comp]
            rw [hmodI i (hscg g hg i hi)]
          rw [e2, einSum_rename (fun i => sz (i % 16)) (fun i => sz (i % 16)) (rhoOf mp) ds
            (facsVal_scoped T hscg) ?_ (fun d hd => by simp only [hmod d hd]) e]
          · apply einSum_depends _ ds (facsVal_scoped T hscg)
            rintro i ⟨hi, hid⟩
            rw [rhoOf_low (hlow i (hi.resolve_right hid))]
          · intro i hi d hd hid
            rcases hi with hi | hi
            · rw [rhoOf_low (hlow i hi)] at hid
              have h1 := hlow i hi
              have h2 := (hb _ (hrho d hd)).1
              omega
            · exact hinj i hi d hd hid
        have hpos : ((hintDigits fs hint).map fun d => d / 64).Perm (List.range fs.length) := by
          have := permNats_perm hp
          rw [mapL_eq, countUp_eq] at this
          rw [List.range_eq_range']
          exact this
        have hfs : facsVal T gs = fun e' => (if s then -1 else 1) * facsVal T fs e' := by
          funext e'
          rw [hval e']
          congr 1
          have := prod_getD_range fs (0, []) (facVal T e') hpos
          simp only [List.map_map] at this ⊢
          exact this
        simp only [monoVal, rawVal]
        rw [hsum, hfs, einSum_const_mul]
        cases s with
        | false => simp
        | true =>
          have : (Int.neg n : Int) = -n := rfl
          simp only [this, tcoef]
          push_cast
          ring

end
end Ebcc
