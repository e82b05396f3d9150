import Verif.Tensor.Claim
import Verif.Spec.GenArgsG
/-!
Polynomials of spin orbitals, split into polynomials of the orbitals of the two spins.

A summed index of the space `s` (0 or 1) becomes an index of the space `s` or `s + 4`; every tensor becomes
a sum of tensors with orbitals of known spin.
-/

namespace Ebcc

noncomputable section

local macro "sel!" c:term:max t:term:max e:term:max : term => `(@Bool.rec (fun _ => _) $e $t $c)
local macro "opt!" x:term:max a:term:max f:term:max : term => `(@Option.rec _ (fun _ => _) $a $f $x)
local macro "lst!" x:term:max a:term:max f:term:max : term =>
  `(@List.rec _ (fun _ => _) $a (fun b l _ => $f b l) $x)
local macro "pr!" x:term:max f:term:max : term => `(@Prod.rec _ _ (fun _ => _) $f $x)

/-- The sum for a tensor with orbitals of known spin. -/
abbrev TSplit := Nat → List Nat → Option (List (Int × TFac))

/-- The new indices, all of them. -/
def mapIxs (mp : List (Nat × Nat)) (l : List Nat) : Option (List Nat) :=
  @List.rec Nat (fun _ => Option (List Nat)) (some [])
    (fun i _ ih => opt! (lookupN i mp) none (fun u => opt! ih none (fun us => some (u :: us)))) l

/-- The product with one more factor. -/
def mulFac (c : Int) (g : TFac) (r : TRaw) : TRaw :=
  pr! r (fun n r => pr! r (fun k r => pr! r (fun ds fs => (Int.mul c n, k, ds, g :: fs))))

def mulFacs (l : List (Int × TFac)) (rs : List TRaw) : List TRaw :=
  @List.rec (Int × TFac) (fun _ => List TRaw) [] (fun x _ ih => app (mapL (mulFac x.1 x.2) rs) ih) l

/-- The product of the factors for indices of known spin. -/
def splitLeaf (spl : TSplit) (n : Int) (k : Nat) (mp : List (Nat × Nat)) (fs : List TFac) : Option (List TRaw) :=
  @List.rec TFac (fun _ => Option (List TRaw)) (some [(n, k, [], [])])
    (fun f _ ih => opt! (mapIxs mp f.2) none (fun us => forceNats us fun us =>
      opt! (spl f.1 us) none (fun l => lst! l (some []) (fun _ _ => opt! ih none (fun rs => some (mulFacs l rs)))))) fs

/-- One more summed index. -/
def consDs (u : Nat) (r : TRaw) : TRaw :=
  pr! r (fun n r => pr! r (fun k r => pr! r (fun ds fs => (n, k, u :: ds, fs))))

/-- The monomials for both spins of each summed index. -/
def splitDs (spl : TSplit) (n : Int) (k : Nat) (fs : List TFac) (ds : List Nat) :
    List (Nat × Nat) → Option (List TRaw) :=
  @List.rec Nat (fun _ => List (Nat × Nat) → Option (List TRaw)) (fun mp => splitLeaf spl n k mp fs)
    (fun d _ ih mp =>
      sel! (Nat.ble (nat_lit 4) (Nat.mod d (nat_lit 16))) none
        (opt! (ih ((d, d) :: mp)) none (fun a =>
          sel! (Nat.ble (nat_lit 2) (Nat.mod d (nat_lit 16))) (some (mapL (consDs d) a))
            (forceNat (Nat.add d (nat_lit 4)) fun u =>
              opt! (ih ((d, u) :: mp)) none (fun b => some (app (mapL (consDs d) a) (mapL (consDs u) b))))))) ds

def splitPoly (spl : TSplit) (mp : List (Nat × Nat)) (p : TPoly) : Option (List TRaw) :=
  @List.rec TMono (fun _ => Option (List TRaw)) (some [])
    (fun m _ ih => opt! (splitDs spl m.n m.k m.fs m.ds mp) none (fun a => opt! ih none (fun b => some (app a b)))) p

/-- The axes of both polynomials. -/
def axesMap (sp usp : List Nat) : List (Nat × Nat) := (frees 0 sp).zip (frees 0 usp)

/-- A relation between results: the name of the result of the function of spin orbitals, the spaces of the axes
with spin, and terms with results of the other function.  The sum of all is zero. -/
abbrev SplitRel := List Char × List Nat × List TTerm

def symSplits (cn : TCanon (List Nat)) (spl : TSplit) (g u : Dict (List Char) TVar) : List SplitRel → List Nat → Bool
  | [], _ => true
  | (name, usp, ts) :: rels, st =>
    match g.get? name with
    | none => false
    | some v =>
      bif eqNats v.1 (usp.map (· % 4)) then
        match splitPoly spl (axesMap v.1 usp) v.2 with
        | none => false
        | some raws => match symArg cn (usp, raws) st with
          | none => false
          | some (w, st) => match polyTerms cn u u usp ts w.2 st with
            | some ([], st) => symSplits cn spl g u rels st
            | _ => false
      else false

/-- The results of a function `f` of spin orbitals and a function `g` of orbitals of two spins. -/
def checkSplit (syG syU : TSym) (hG hU : List Nat) (f g : GenFun) (valsG valsU : List Char → Option TArg)
    (spl : TSplit) (rels : List SplitRel) : Bool :=
  match f.sym (canonByHints syG) id (baseVals (canonByHints syG) valsG) hG with
  | none => false
  | some (r, _) => match g.sym (canonByHints syU) id (baseVals (canonByHints syU) valsU) hU with
    | none => false
    | some (u, st) => symSplits (canonByHints syU) spl r u rels st

end

section
variable {R : Type} [Field R]

/-- What the splitting needs: `so s x` is the orbital with spin of the orbital `x` of the space `s`. -/
structure SplitOk (szG szU : Nat → Nat) (TG TU : Nat → List (Nat × Nat) → R) (so : Nat → Nat → Nat × Nat)
    (spl : TSplit) : Prop where
  spins : ∀ s < 2, ((List.range (szG s)).map (so s)).Perm
    ((List.range (szU s)).map (fun x => (s, x)) ++ (List.range (szU (s + 4))).map fun x => (s + 4, x))
  rest : ∀ s, 2 ≤ s → s < 4 → szG s = szU s ∧ ∀ x, so s x = (s, x)
  fac : ∀ t is us l (eG eU : Nat → Nat),
    List.Forall₂ (fun i u => i % 16 < 4 ∧ u % 4 = i % 16 ∧ so (i % 16) (eG i) = (u % 16, eU u)) is us →
    spl t us = some l → facVal TG eG (t, is) = (l.map fun x => (x.1 : R) * facVal TU eU x.2).sum

/-- The indices and their new names have the same orbitals. -/
def MapOk (so : Nat → Nat → Nat × Nat) (mp : List (Nat × Nat)) (eG eU : Nat → Nat) : Prop :=
  ∀ i u, lookupN i mp = some u → i % 16 < 4 ∧ u / 16 = i / 16 ∧ u % 4 = i % 16 ∧
    so (i % 16) (eG i) = (u % 16, eU u)

theorem MapOk.cons {so : Nat → Nat → Nat × Nat} {mp : List (Nat × Nat)} {eG eU : Nat → Nat}
    (h : MapOk so mp eG eU) (d u x y : Nat) (hd : d % 16 < 4) (hu : u / 16 = d / 16) (hm : u % 4 = d % 16)
    (hso : so (d % 16) x = (u % 16, y)) :
    MapOk so ((d, u) :: mp) (Function.update eG d x) (Function.update eU u y) := by
  intro i w hw
  rw [lookupN_cons] at hw
  by_cases hi : d = i
  · subst hi
    rw [if_pos rfl] at hw
    cases hw
    exact ⟨hd, hu, hm, by simpa using hso⟩
  · rw [if_neg hi] at hw
    obtain ⟨h1, h2, h3, h4⟩ := h i w hw
    refine ⟨h1, h2, h3, ?_⟩
    rw [Function.update_of_ne (Ne.symm hi), Function.update_of_ne]
    · exact h4
    · rintro rfl
      apply hi
      omega

theorem mapIxs_sound {so : Nat → Nat → Nat × Nat} {mp : List (Nat × Nat)} {eG eU : Nat → Nat}
    (h : MapOk so mp eG eU) (is us : List Nat) (hm : mapIxs mp is = some us) :
    List.Forall₂ (fun i u => i % 16 < 4 ∧ u % 4 = i % 16 ∧ so (i % 16) (eG i) = (u % 16, eU u)) is us := by
  induction is generalizing us with
  | nil => cases hm; exact .nil
  | cons i is ih =>
    have e : mapIxs mp (i :: is) = (match lookupN i mp with
      | none => none
      | some u => match mapIxs mp is with
        | none => none
        | some us => some (u :: us)) := by
      show @Option.rec _ (fun _ => _) _ _ (lookupN i mp) = _
      cases lookupN i mp with
      | none => rfl
      | some u =>
        show @Option.rec _ (fun _ => _) _ _ (mapIxs mp is) = _
        cases mapIxs mp is <;> rfl
    rw [e] at hm
    cases h1 : lookupN i mp with
    | none => rw [h1] at hm; cases hm
    | some u =>
      cases h2 : mapIxs mp is with
      | none => rw [h1, h2] at hm; cases hm
      | some vs =>
        rw [h1, h2] at hm
        cases hm
        obtain ⟨a, _, b, c⟩ := h i u h1
        exact .cons ⟨a, b, c⟩ (ih vs h2)

theorem mulFacs_sound (TU : Nat → List (Nat × Nat) → R) (e : Nat → Nat) (sz : Nat → Nat)
    (l : List (Int × TFac)) (rs : List TRaw) (h0 : ∀ r ∈ rs, r.2.2.1 = []) :
    ((mulFacs l rs).map fun r => rawVal sz TU r e).sum
      = (l.map fun x => (x.1 : R) * facVal TU e x.2).sum * (rs.map fun r => rawVal sz TU r e).sum ∧
    ∀ r ∈ mulFacs l rs, r.2.2.1 = [] := by
  induction l with
  | nil => simp [mulFacs]
  | cons x l ih =>
    have e1 : mulFacs (x :: l) rs = rs.map (mulFac x.1 x.2) ++ mulFacs l rs := by
      show app (mapL _ _) _ = _
      rw [app_eq, mapL_eq]
      rfl
    rw [e1]
    refine ⟨?_, ?_⟩
    · rw [List.map_append, List.sum_append, ih.1, List.map_cons, List.sum_cons, add_mul, List.map_map]
      congr 1
      rw [← List.sum_map_mul_left]
      congr 1
      apply List.map_congr_left
      rintro ⟨n, k, ds, fs⟩ hr
      have := h0 _ hr
      simp only at this
      subst this
      have e2 : mulFac x.1 x.2 (n, k, [], fs) = (x.1 * n, k, [], x.2 :: fs) := rfl
      simp only [Function.comp_apply, e2, rawVal, einSum, facsVal, List.map_cons, List.prod_cons, tcoef]
      push_cast
      ring
    · intro r hr
      rcases List.mem_append.1 hr with hr | hr
      · obtain ⟨⟨n, k, ds, fs⟩, hq, rfl⟩ := List.mem_map.1 hr
        exact h0 (n, k, ds, fs) hq
      · exact ih.2 r hr

variable {szG szU : Nat → Nat} {TG TU : Nat → List (Nat × Nat) → R} {so : Nat → Nat → Nat × Nat} {spl : TSplit}

theorem splitLeaf_sound (hs : SplitOk szG szU TG TU so spl) (n : Int) (k : Nat) (mp : List (Nat × Nat))
    (eG eU : Nat → Nat) (hm : MapOk so mp eG eU) (fs : List TFac) (rs : List TRaw)
    (h : splitLeaf spl n k mp fs = some rs) :
    tcoef n k * facsVal TG fs eG = (rs.map fun r => rawVal szU TU r eU).sum ∧ ∀ r ∈ rs, r.2.2.1 = [] := by
  induction fs generalizing rs with
  | nil =>
    cases h
    simp [facsVal, rawVal, einSum]
  | cons f fs ih =>
    obtain ⟨t, is⟩ := f
    have e : splitLeaf spl n k mp ((t, is) :: fs) = (match mapIxs mp is with
      | none => none
      | some us => match spl t us with
        | none => none
        | some [] => some []
        | some (x :: l) => match splitLeaf spl n k mp fs with
          | none => none
          | some rs => some (mulFacs (x :: l) rs)) := by
      have e0 : splitLeaf spl n k mp ((t, is) :: fs) = @Option.rec _ (fun _ => Option (List TRaw)) none
        (fun us => forceNats us fun us => @Option.rec _ (fun _ => Option (List TRaw)) none (fun l =>
          @List.rec _ (fun _ => Option (List TRaw)) (some []) (fun _ _ _ =>
            @Option.rec _ (fun _ => Option (List TRaw)) none (fun rs => some (mulFacs l rs))
              (splitLeaf spl n k mp fs)) l) (spl t us)) (mapIxs mp is) := rfl
      rw [e0]
      generalize splitLeaf spl n k mp fs = x0
      cases mapIxs mp is with
      | none => rfl
      | some us =>
        simp only [forceNats_eq]
        cases spl t us with
        | none => rfl
        | some l =>
          cases l with
          | nil => rfl
          | cons x l =>
            cases x0 <;> rfl
    rw [e] at h
    cases h1 : mapIxs mp is with
    | none => rw [h1] at h; cases h
    | some us =>
      rw [h1] at h
      simp only at h
      have h1' := mapIxs_sound hm is us h1
      cases h2 : spl t us with
      | none => rw [h2] at h; cases h
      | some l =>
        rw [h2] at h
        have hf := hs.fac t is us l eG eU h1' h2
        cases l with
        | nil =>
          cases h
          simp only [facsVal, List.map_cons, List.prod_cons, hf]
          simp
        | cons x l =>
          simp only at h
          cases h3 : splitLeaf spl n k mp fs with
          | none => rw [h3] at h; cases h
          | some rs' =>
            rw [h3] at h
            cases h
            obtain ⟨i1, i2⟩ := ih rs' h3
            obtain ⟨m1, m2⟩ := mulFacs_sound TU eU szU (x :: l) rs' i2
            refine ⟨?_, m2⟩
            rw [m1, ← i1, ← hf]
            simp only [facsVal, List.map_cons, List.prod_cons]
            ring

theorem consDs_sum (sz : Nat → Nat) (T : Nat → List (Nat × Nat) → R) (u : Nat) (l : List TRaw) (e : Nat → Nat) :
    ((l.map (consDs u)).map fun r => rawVal sz T r e).sum
      = ((List.range (sz (u % 16))).map fun y =>
          (l.map fun r => rawVal sz T r (Function.update e u y)).sum).sum := by
  induction l with
  | nil => simp
  | cons r l ih =>
    obtain ⟨n, k, ds, fs⟩ := r
    simp only [List.map_cons, List.sum_cons, ih]
    have e1 : rawVal sz T (consDs u (n, k, ds, fs)) e
        = ((List.range (sz (u % 16))).map fun y => rawVal sz T (n, k, ds, fs) (Function.update e u y)).sum := by
      show tcoef n k * einSum _ (u :: ds) _ _ = _
      simp only [einSum, rawVal]
      rw [← List.sum_map_mul_left]
      rfl
    rw [e1, ← List.sum_map_add]

theorem splitDs_sound (hs : SplitOk szG szU TG TU so spl) (n : Int) (k : Nat) (fs : List TFac) (ds : List Nat)
    (mp : List (Nat × Nat)) (eG eU : Nat → Nat) (hm : MapOk so mp eG eU) (rs : List TRaw)
    (h : splitDs spl n k fs ds mp = some rs) :
    tcoef n k * einSum (fun i => szG (i % 16)) ds (facsVal TG fs) eG = (rs.map fun r => rawVal szU TU r eU).sum := by
  induction ds generalizing mp eG eU rs with
  | nil => exact (splitLeaf_sound hs n k mp eG eU hm fs rs h).1
  | cons d ds ih =>
    have e : splitDs spl n k fs (d :: ds) mp = bif Nat.ble 4 (d % 16) then none
        else match splitDs spl n k fs ds ((d, d) :: mp) with
          | none => none
          | some a => bif Nat.ble 2 (d % 16) then some (a.map (consDs d))
            else match splitDs spl n k fs ds ((d, d + 4) :: mp) with
              | none => none
              | some b => some (a.map (consDs d) ++ b.map (consDs (d + 4))) := by
      have e0 : splitDs spl n k fs (d :: ds) mp = @Bool.rec (fun _ => Option (List TRaw))
        (@Option.rec _ (fun _ => Option (List TRaw)) none (fun a =>
          @Bool.rec (fun _ => Option (List TRaw))
            (forceNat (d + 4) fun u => @Option.rec _ (fun _ => Option (List TRaw)) none
              (fun b => some (app (mapL (consDs d) a) (mapL (consDs u) b))) (splitDs spl n k fs ds ((d, u) :: mp)))
            (some (mapL (consDs d) a)) (Nat.ble 2 (d % 16))) (splitDs spl n k fs ds ((d, d) :: mp)))
        none (Nat.ble 4 (d % 16)) := rfl
      rw [e0, sel_eq]
      congr 1
      generalize splitDs spl n k fs ds ((d, d) :: mp) = x0
      cases x0 with
      | none => rfl
      | some a =>
        simp only [forceNat_eq, mapL_eq, app_eq]
        rw [sel_eq]
        congr 1
        generalize splitDs spl n k fs ds ((d, d + 4) :: mp) = x1
        cases x1 <;> rfl
    rw [e] at h
    cases h4 : Nat.ble 4 (d % 16) with
    | true => rw [h4] at h; cases h
    | false =>
    rw [h4, cond_false] at h
    have hd4 : d % 16 < 4 := not_ble h4
    cases ha : splitDs spl n k fs ds ((d, d) :: mp) with
    | none => rw [ha] at h; cases h
    | some a =>
    rw [ha] at h
    simp only at h
    rw [einSum, ← List.sum_map_mul_left]
    cases h2 : Nat.ble 2 (d % 16) with
    | true =>
      rw [h2, cond_true] at h
      cases h
      have hd2 := Nat.le_of_ble_eq_true h2
      obtain ⟨r1, r2⟩ := hs.rest _ hd2 hd4
      rw [consDs_sum, r1]
      congr 1
      apply List.map_congr_left
      intro x _
      exact ih _ _ _ (hm.cons d d x x hd4 rfl (by omega) (r2 x)) a ha
    | false =>
      rw [h2, cond_false] at h
      have hd2 : d % 16 < 2 := not_ble h2
      cases hb : splitDs spl n k fs ds ((d, d + 4) :: mp) with
      | none => rw [hb] at h; cases h
      | some b =>
      rw [hb] at h
      cases h
      have hp := hs.spins _ hd2
      have hmod : (d + 4) % 16 = d % 16 + 4 := by omega
      let Φ : Nat × Nat → R := fun o => if o.1 = d % 16 then
        (a.map fun r => rawVal szU TU r (Function.update eU d o.2)).sum
        else (b.map fun r => rawVal szU TU r (Function.update eU (d + 4) o.2)).sum
      have key : ∀ x ∈ List.range (szG (d % 16)),
          tcoef n k * einSum (fun i => szG (i % 16)) ds (facsVal TG fs) (Function.update eG d x)
            = Φ (so (d % 16) x) := by
        intro x hx
        have hx := hp.mem_iff.1 (List.mem_map.2 ⟨x, hx, rfl⟩)
        rcases List.mem_append.1 hx with hx | hx
        · obtain ⟨y, -, hy⟩ := List.mem_map.1 hx
          rw [← hy]
          show _ = ite _ _ _
          rw [if_pos rfl]
          exact ih _ _ _ (hm.cons d d x y hd4 rfl (by omega) hy.symm) a ha
        · obtain ⟨y, -, hy⟩ := List.mem_map.1 hx
          rw [← hy]
          show _ = ite _ _ _
          rw [if_neg (by simp)]
          exact ih _ _ _ (hm.cons d (d + 4) x y hd4 (by omega) (by omega) (by rw [hmod]; exact hy.symm)) b hb
      rw [List.map_congr_left key]
      have e2 : (List.range (szG (d % 16))).map (fun x => Φ (so (d % 16) x))
          = ((List.range (szG (d % 16))).map (so (d % 16))).map Φ := by
        rw [List.map_map]; rfl
      rw [e2, (hp.map Φ).sum_eq, List.map_append, List.sum_append, List.map_append, List.sum_append,
        consDs_sum, consDs_sum, hmod, List.map_map, List.map_map]
      congr 2
      · apply List.map_congr_left
        intro y _
        show ite _ _ _ = _
        rw [if_pos rfl]
      · apply List.map_congr_left
        intro y _
        show ite _ _ _ = _
        rw [if_neg (by simp)]

theorem splitPoly_sound (hs : SplitOk szG szU TG TU so spl) (mp : List (Nat × Nat)) (eG eU : Nat → Nat)
    (hm : MapOk so mp eG eU) (p : TPoly) (rs : List TRaw) (h : splitPoly spl mp p = some rs) :
    polyVal szG TG p eG = (rs.map fun r => rawVal szU TU r eU).sum := by
  induction p generalizing rs with
  | nil => cases h; rfl
  | cons m p ih =>
    have e : splitPoly spl mp (m :: p) = (match splitDs spl m.n m.k m.fs m.ds mp with
      | none => none
      | some a => match splitPoly spl mp p with
        | none => none
        | some b => some (a ++ b)) := by
      show @Option.rec _ (fun _ => _) _ _ (splitDs spl m.n m.k m.fs m.ds mp) = _
      cases splitDs spl m.n m.k m.fs m.ds mp with
      | none => rfl
      | some a =>
        show @Option.rec _ (fun _ => _) _ _ (splitPoly spl mp p) = _
        cases splitPoly spl mp p with
        | none => rfl
        | some b => simp only [app_eq]
    rw [e] at h
    cases ha : splitDs spl m.n m.k m.fs m.ds mp with
    | none => rw [ha] at h; cases h
    | some a =>
    cases hb : splitPoly spl mp p with
    | none => rw [ha, hb] at h; cases h
    | some b =>
      rw [ha, hb] at h
      cases h
      rw [polyVal_cons, ih b hb, List.map_append, List.sum_append]
      congr 1
      exact splitDs_sound hs m.n m.k m.fs m.ds mp eG eU hm a ha

theorem lookupN_zip {l m : List Nat} {i u : Nat} (h : lookupN i (l.zip m) = some u) :
    ∃ k, ∃ (h1 : k < l.length) (h2 : k < m.length), l[k] = i ∧ m[k] = u := by
  induction l generalizing m with
  | nil => cases h
  | cons a l ih =>
    cases m with
    | nil => cases h
    | cons b m =>
      rw [List.zip_cons_cons, lookupN_cons] at h
      by_cases hi : a = i
      · rw [if_pos hi] at h
        cases h
        exact ⟨0, by simp, by simp, hi, rfl⟩
      · rw [if_neg hi] at h
        obtain ⟨k, h1, h2, h3, h4⟩ := ih h
        exact ⟨k + 1, by simpa using h1, by simpa using h2, by simpa using h3, by simpa using h4⟩

theorem frees_get (sp : List Nat) (j k : Nat) (h : k < (frees j sp).length) (h' : k < sp.length) :
    (frees j sp)[k] = 16 * (j + k) + sp[k] := by
  induction sp generalizing j k with
  | nil => simp at h'
  | cons s sp ih =>
    have e : frees j (s :: sp) = (16 * j + s) :: frees (j + 1) sp := rfl
    cases k with
    | zero => simp [e]
    | succ k =>
      simp only [e, List.getElem_cons_succ]
      rw [ih (j + 1) k (by simpa [e] using h) (by simpa using h')]
      congr 2
      omega

theorem frees_length (sp : List Nat) (j : Nat) : (frees j sp).length = sp.length := by
  induction sp generalizing j with
  | nil => rfl
  | cons s sp ih =>
    have e : frees j (s :: sp) = (16 * j + s) :: frees (j + 1) sp := rfl
    simp [e, ih]

theorem axesMap_ok {so : Nat → Nat → Nat × Nat} (usp I idx : List Nat) (hlow : ∀ s ∈ usp, s < 16)
    (hso : List.zipWith so (usp.map (· % 4)) I = usp.zip idx) (hI : I.length = usp.length)
    (hidx : idx.length = usp.length) :
    MapOk so (axesMap (usp.map (· % 4)) usp) (frEnv I) (frEnv idx) := by
  intro i u h
  obtain ⟨k, h1, h2, rfl, rfl⟩ := lookupN_zip h
  rw [frees_length, List.length_map] at h1
  rw [frees_get _ _ _ _ (by simpa using h1), frees_get _ _ _ _ h1, List.getElem_map]
  have hs := hlow _ (List.getElem_mem h1)
  have e1 : (16 * (0 + k) + usp[k] % 4) % 16 = usp[k] % 4 := by omega
  have e2 : (16 * (0 + k) + usp[k]) % 16 = usp[k] := by omega
  have e3 : (16 * (0 + k) + usp[k] % 4) / 16 = k := by omega
  have e4 : (16 * (0 + k) + usp[k]) / 16 = k := by omega
  have hz := congrArg (fun l => l[k]?) hso
  simp only [List.getElem?_zipWith, List.getElem?_map] at hz
  rw [List.getElem?_eq_getElem h1, List.getElem?_eq_getElem (hI ▸ h1), List.getElem?_eq_getElem
    (by simpa [hidx] using h1)] at hz
  simp only [Option.map_some, List.getElem_zip, Option.some.injEq] at hz
  refine ⟨by omega, by omega, by omega, ?_⟩
  rw [e1, e2, frEnv, frEnv, e3, e4, List.getD_eq_getElem?_getD, List.getD_eq_getElem?_getD,
    List.getElem?_eq_getElem (hI ▸ h1), List.getElem?_eq_getElem (hidx ▸ h1)]
  exact hz

/-- The relation holds: for indices `I` of spin orbitals and `idx` of the orbitals with spin. -/
def SplitRel.Holds (szG szU : Nat → Nat) (so : Nat → Nat → Nat × Nat) (rel : SplitRel)
    (ra ua : Dict (List Char) (NDArray R)) : Prop :=
  (∃ a, ra.get? rel.1 = some a ∧ a.shape = (rel.2.1.map (· % 4)).map szG) ∧
  (∀ t ∈ rel.2.2, ∃ a, (bif t.second then ua else ua).get? t.name = some a ∧ a.WF ∧
      a.shape = t.perm.map fun k => (rel.2.1.map szU).getD k 0) ∧
  ∀ I idx, InBox ((rel.2.1.map (· % 4)).map szG) I → InBox (rel.2.1.map szU) idx →
    List.zipWith so (rel.2.1.map (· % 4)) I = rel.2.1.zip idx →
    elemOf ra rel.1 I + (rel.2.2.map fun t => t.val ua ua idx).sum = 0

theorem symSplits_sound [CharZero R] (hs : SplitOk szG szU TG TU so spl) (cn : TCanon (List Nat))
    (hcn : CanonOk szU TU cn) {r u : Dict (List Char) TVar} {ra ua : Dict (List Char) (NDArray R)}
    (hr : DictRep szG TG r ra) (hu : DictRep szU TU u ua) (rels : List SplitRel) (st : List Nat)
    (h : symSplits cn spl r u rels st = true) : ∀ rel ∈ rels, SplitRel.Holds szG szU so rel ra ua := by
  induction rels generalizing st with
  | nil => simp
  | cons rel rels ih =>
    obtain ⟨name, usp, ts⟩ := rel
    simp only [symSplits] at h
    cases h1 : r.get? name with
    | none => rw [h1] at h; cases h
    | some v =>
    rw [h1] at h
    simp only at h
    cases h2 : eqNats v.1 (usp.map (· % 4)) with
    | false => rw [h2] at h; cases h
    | true =>
    rw [h2, cond_true] at h
    have h2 := eqNats_eq h2
    cases h3 : splitPoly spl (axesMap v.1 usp) v.2 with
    | none => rw [h3] at h; cases h
    | some raws =>
    rw [h3] at h
    simp only at h
    cases h4 : symArg cn (usp, raws) st with
    | none => rw [h4] at h; cases h
    | some q =>
    obtain ⟨w, st1⟩ := q
    rw [h4] at h
    simp only at h
    cases h5 : polyTerms cn u u usp ts w.2 st1 with
    | none => rw [h5] at h; cases h
    | some q =>
    obtain ⟨p, st2⟩ := q
    cases p with
    | cons _ _ => rw [h5] at h; cases h
    | nil =>
    rw [h5] at h
    simp only at h
    obtain ⟨a, a1, a2⟩ := hr.get h1
    intro rel hrel
    rcases List.mem_cons.1 hrel with rfl | hrel
    swap
    · exact ih st2 h rel hrel
    have har : ArgRep szU TU (usp, raws) (NDArray.ofFn (usp.map szU) fun idx =>
        (raws.map fun r => rawVal szU TU r (frEnv idx)).sum) := by
      refine ⟨NDArray.ofFn_shape _ _, NDArray.ofFn_wf _ _, fun idx hidx => ?_⟩
      rw [NDArray.ofFn_shape] at hidx
      rw [NDArray.get_ofFn _ _ hidx]
    have hrep := symArg_sound szU TU cn hcn _ _ har st w st1 h4
    have hw1 : w.1 = usp := by
      have := h4
      unfold symArg at this
      revert this
      cases (usp, raws).1.all (fun s => Nat.blt s 16) with
      | false => intro h; cases h
      | true =>
      cases Nat.ble (usp, raws).1.length 32 with
      | false => intro h; cases h
      | true =>
      cases (usp, raws).2.all (fun r => scopedB (frees 0 (usp, raws).1) r.2.2.1 r.2.2.2 && nodupB r.2.2.1
        && r.2.2.1.all (Nat.ble 512)) with
      | false => intro h; cases h
      | true =>
      simp only [cond_true]
      cases canonAll cn raws [] st with
      | none => intro h; cases h
      | some q =>
        obtain ⟨p, st2⟩ := q
        intro h
        simp only [forceNats_eq, forceSpine_eq, Option.some.injEq, Prod.mk.injEq] at h
        rw [← h.1]
    have hlow : ∀ s ∈ usp, s < 16 := hw1 ▸ hrep.low
    obtain ⟨t1, t2⟩ := polyTerms_sound szU TU cn hcn hu hu usp ts w.2 (hw1 ▸ hrep.poly) st1 [] st2 h5
    refine ⟨⟨a, a1, by rw [a2.shape, h2]⟩, t1, fun I idx hI hidx hso => ?_⟩
    have hel : elemOf ra name I = a.get I := by simp [elemOf, a1]
    have hv := t2 idx hidx
    rw [polyVal_nil] at hv
    rw [hv]
    congr 1
    show elemOf ra name I = _
    rw [hel, a2.val I (by rw [a2.shape, h2]; exact hI),
      ← hrep.val idx (by rw [NDArray.ofFn_shape]; exact hidx), NDArray.get_ofFn _ _ hidx]
    rw [h2] at h3
    have hl1 := InBox.length_eq hI
    have hl2 := InBox.length_eq hidx
    exact splitPoly_sound hs _ _ _ (axesMap_ok usp I idx hlow hso (by simpa using hl1) (by simpa using hl2)) v.2 raws h3

theorem checkSplit_sound [CharZero R] [DecidableEq R] (hs : SplitOk szG szU TG TU so spl) {syG syU : TSym}
    (hsyG : SymOk TG syG) (hsyU : SymOk TU syU) (method : ContractMethod)
    (path : List (List Char) → List Char → List (NDArray R) → List Contraction) (hpath : PathOk path)
    {valsG valsU : List Char → Option TArg} {avG avU : List Char → Option (NDArray R)}
    (hG : ∀ name v, valsG name = some v → ∃ a, avG name = some a ∧ ArgRep szG TG v a)
    (hU : ∀ name v, valsU name = some v → ∃ a, avU name = some a ∧ ArgRep szU TU v a)
    {hintsG hintsU : List Nat} {f g : GenFun} {rels : List SplitRel}
    (h : checkSplit syG syU hintsG hintsU f g valsG valsU spl rels = true) :
    ∃ r u, f.call method path szG avG = .ok r ∧ g.call method path szU avU = .ok u ∧
      ∀ rel ∈ rels, SplitRel.Holds szG szU so rel r u := by
  have hcG := canonByHints_sound szG TG syG hsyG
  have hcU := canonByHints_sound szU TU syU hsyU
  unfold checkSplit at h
  cases h1 : f.sym (canonByHints syG) id (baseVals (canonByHints syG) valsG) hintsG with
  | none => rw [h1] at h; cases h
  | some q =>
  obtain ⟨d, st⟩ := q
  rw [h1] at h
  simp only at h
  cases h2 : g.sym (canonByHints syU) id (baseVals (canonByHints syU) valsU) hintsU with
  | none => rw [h2] at h; cases h
  | some q =>
  obtain ⟨d', st'⟩ := q
  rw [h2] at h
  simp only at h
  obtain ⟨r, r1, r2⟩ := GenFun.sym_sound szG TG _ hcG method path hpath szG id (fun _ => rfl) _ avG
    (baseVals_rep szG TG _ hcG valsG avG hG) f hintsG d st h1
  obtain ⟨u, u1, u2⟩ := GenFun.sym_sound szU TU _ hcU method path hpath szU id (fun _ => rfl) _ avU
    (baseVals_rep szU TU _ hcU valsU avU hU) g hintsU d' st' h2
  exact ⟨r, u, r1, u1, symSplits_sound hs _ hcU r2 u2 rels st' h⟩

end

end Ebcc
