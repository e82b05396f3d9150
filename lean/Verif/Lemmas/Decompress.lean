import Verif.Lemmas.Groups
import Mathlib.Algebra.Ring.Basic

namespace Ebcc

/-! ### sequences of writes -/

/-- Perform writes in order. -/
def applyWrites {R : Type} (data : List R) (W : List (Nat × R)) : List R :=
  W.foldl (fun d w => d.set w.1 w.2) data

theorem length_applyWrites {R : Type} (data : List R) (W : List (Nat × R)) :
    (applyWrites data W).length = data.length := by
  induction W generalizing data with
  | nil => rfl
  | cons w W ih =>
    have := ih (data.set w.1 w.2)
    simpa [applyWrites] using this

theorem applyWrites_not_written {R : Type} (data : List R) (W : List (Nat × R)) (p : Nat)
    (h : ∀ v, (p, v) ∉ W) : (applyWrites data W)[p]? = data[p]? := by
  induction W generalizing data with
  | nil => rfl
  | cons w W ih =>
    have h1 := ih (data.set w.1 w.2) (fun v hv => h v (by simp [hv]))
    have h2 : w.1 ≠ p := by
      intro e; exact h w.2 (by subst e; simp)
    simp only [applyWrites, List.foldl_cons] at h1 ⊢
    rw [h1, List.getElem?_set_ne h2]

theorem applyWrites_written {R : Type} (data : List R) (W : List (Nat × R)) (p : Nat) (v : R)
    (hp : p < data.length) (hmem : (p, v) ∈ W) (huniq : ∀ v', (p, v') ∈ W → v' = v) :
    (applyWrites data W)[p]? = some v := by
  induction W generalizing data with
  | nil => simp at hmem
  | cons w W ih =>
    simp only [applyWrites, List.foldl_cons]
    by_cases hW : ∃ v', (p, v') ∈ W
    · obtain ⟨v', hv'⟩ := hW
      have e := huniq v' (by simp [hv'])
      subst e
      exact ih (data.set w.1 w.2) (by simpa using hp) hv' (fun v'' h => huniq v'' (by simp [h]))
    · have hw : w = (p, v) := by
        rcases List.mem_cons.1 hmem with h | h
        · exact h.symm
        · exact absurd ⟨v, h⟩ hW
      have := applyWrites_not_written (data.set w.1 w.2) W p (fun v' h => hW ⟨v', h⟩)
      unfold applyWrites at this
      rw [this, hw]
      simp [hp]

theorem putFlat_eq {R : Type} [Zero R] (data : List R) (pos : List Nat) (vals : List R)
    (h : vals.length = pos.length) : putFlat data pos vals = applyWrites data (pos.zip vals) := by
  unfold putFlat
  by_cases he : vals = []
  · subst he; simp [applyWrites]
  · rw [if_neg (by simpa using he)]
    unfold applyWrites
    have : pos.zip vals = pos.zipIdx.map fun x => (x.1, vals.getD (x.2 % vals.length) 0) := by
      apply List.ext_getElem
      · simp [h]
      · intro i h1 h2
        have hi : i < vals.length := by simp at h1; omega
        simp [Nat.mod_eq_of_lt hi, hi]
    rw [this, List.foldl_map]

theorem foldl_applyWrites {R α : Type} (tups : List α) (W : α → List (Nat × R)) (data : List R) :
    tups.foldl (fun data t => applyWrites data (W t)) data = applyWrites data (tups.flatMap W) := by
  induction tups generalizing data with
  | nil => rfl
  | cons t ts ih => simp [applyWrites, List.foldl_append] at ih ⊢; rw [ih]

theorem foldl_congr_mem' {α β : Type} {f g : β → α → β} {l : List α} {b : β}
    (h : ∀ a ∈ l, ∀ b, f b a = g b a) : l.foldl f b = l.foldl g b := by
  induction l generalizing b with
  | nil => rfl
  | cons a l ih =>
    rw [List.foldl_cons, List.foldl_cons, h a (by simp), ih fun a ha => h a (by simp [ha])]

theorem zeros_get {R : Type} [Zero R] (shape idx : List Nat) :
    (NDArray.zeros (R := R) shape).get idx = 0 := by
  simp only [NDArray.zeros, NDArray.get, NDArray.ofFn, List.getD_eq_getElem?_getD, List.getElem?_map]
  cases (box shape)[ravelIdx shape idx]? <;> rfl

/-! ### groups -/

/-- Sign written for a tuple of permutations. -/
def tupSign (scomp : List Char) (tup : List (List Nat × Int)) : Int :=
  prodZ (List.zipWith (fun (t : List Nat × Int) s => if s = '-' then t.2 else 1) tup scomp)

/-- Permuted tuples. -/
def target (tup : List (List Nat × Int)) (ts : List (List Nat)) : List (List Nat) :=
  List.zipWith (fun (q : List Nat × Int) row => applyPerm q.1 row) tup ts

/-- Sign of a grouped index. -/
def groupSign (scomp : List Char) (gs : List (List Nat)) : Int :=
  prodZ (List.zipWith (fun g s => if s = '-' then signOfParity (ascents g) else 1) gs scomp)

section
variable {κ : Type} [DecidableEq κ]

/-- Tuples of permutations of the groups. -/
def gperms (sub : List κ) : List (List (List Nat × Int)) :=
  prodL ((List.range (ngroups sub)).map fun c => permutationsWithSigns (List.range (mult sub c)))

/-- A tuple in the list of decreasing tuples is sorted. -/
theorem sorted_of_mem {diag : Bool} {d n : Nat} {l : List Nat} (h : l ∈ decTuples (wOf diag) d n) :
    l.length = d ∧ (l.Pairwise fun a b => b ≤ a) ∧ (diag = false → l.Pairwise fun a b => b < a) := by
  cases diag
  · have := (mem_decTuples_strict d n l).1 h
    exact ⟨this.1, this.2.2.imp Nat.le_of_lt, fun _ => this.2.2⟩
  · have := (mem_decTuples_weak d n l).1 h
    exact ⟨this.1, this.2.2, fun h => by simp at h⟩

theorem gperms_facts {sub : List κ} {tup : List (List Nat × Int)} (h : tup ∈ gperms sub) :
    List.Forall₂ (fun (q : List Nat × Int) c => q.1.Perm (List.range (mult sub c)) ∧
      q.2 = signOfParity (inversions q.1)) tup (List.range (ngroups sub)) := by
  unfold gperms at h
  rw [mem_prodL, List.forall₂_map_right_iff] at h
  exact h.imp fun q c hq => sign_of_mem_pws (p := q.1) (s := q.2) hq

theorem gtrils_facts {sub : List κ} {shape : List Nat} {diag : Bool} {ts : List (List Nat)}
    (h : ts ∈ prodL (gtrils sub shape diag)) :
    List.Forall₂ (fun t c => t ∈ decTuples (wOf diag) (mult sub c) (gsize sub shape c)) ts
      (List.range (ngroups sub)) := by
  unfold gtrils at h
  rw [mem_prodL, List.forall₂_map_right_iff] at h
  exact h

theorem target_perm {sub : List κ} {shape : List Nat} {diag : Bool} {ts : List (List Nat)}
    {tup : List (List Nat × Int)} (ht : tup ∈ gperms sub) (hts : ts ∈ prodL (gtrils sub shape diag)) :
    List.Forall₂ List.Perm (target tup ts) ts := by
  have h1 := gperms_facts ht
  have h2 := gtrils_facts hts
  unfold target
  clear ht hts
  generalize List.range (ngroups sub) = cs at h1 h2
  induction h2 generalizing tup with
  | nil => cases h1; simp
  | cons hb _ ih =>
    cases h1 with
    | cons ha h1 =>
      simp only [List.zipWith_cons_cons]
      refine List.Forall₂.cons ?_ (ih h1)
      apply applyPerm_perm
      rw [(sorted_of_mem hb).1]; exact ha.1

theorem inBox_of_perm {d n : Nat} {a b : List Nat} (h : a.Perm b)
    (hb : InBox (List.replicate d n) b) : InBox (List.replicate d n) a := by
  have hl := hb.length_eq
  rw [inBox_iff_getD] at hb ⊢
  have hmem : ∀ x ∈ b, x < n := by
    intro x hx
    obtain ⟨i, hi, rfl⟩ := List.getElem_of_mem hx
    have := hb.2 i (by omega)
    have hi' : i < d := by simpa [hl] using hi
    simpa [hi, hi'] using this
  refine ⟨by rw [h.length_eq]; exact hb.1, fun p hp => ?_⟩
  have hp' : p < a.length := by rw [h.length_eq]; omega
  have hp'' : p < d := by simpa using hp
  have := hmem _ (h.mem_iff.1 (List.getElem_mem hp'))
  simpa [hp', hp''] using this

theorem target_inBox {sub : List κ} {shape : List Nat} {diag : Bool} {ts : List (List Nat)}
    {tup : List (List Nat × Int)} (ht : tup ∈ gperms sub) (hts : ts ∈ prodL (gtrils sub shape diag)) :
    List.Forall₂ (fun r s => InBox s r) (target tup ts) (gshapes sub shape) := by
  have h1 := target_perm ht hts
  have h2 := gtrils_inBox hts
  unfold gshapes at h2 ⊢
  rw [List.forall₂_map_right_iff] at h2 ⊢
  generalize List.range (ngroups sub) = cs at h2 ⊢
  generalize target tup ts = gs at h1 ⊢
  clear ht hts
  induction h1 generalizing cs with
  | nil => cases h2; simp
  | cons hp _ ih =>
    cases h2 with
    | cons hb h2 => exact List.Forall₂.cons (inBox_of_perm hp hb) (ih _ h2)

theorem flatten_inj {a b ss : List (List Nat)}
    (ha : List.Forall₂ (fun (r s : List Nat) => r.length = s.length) a ss)
    (hb : List.Forall₂ (fun (r s : List Nat) => r.length = s.length) b ss)
    (h : a.flatten = b.flatten) : a = b := by
  induction ha generalizing b with
  | nil => cases hb; rfl
  | @cons r s as ss h1 _ ih =>
    cases hb with
    | @cons r' _ bs _ h2 hb =>
      rw [List.flatten_cons, List.flatten_cons] at h
      obtain ⟨e1, e2⟩ := List.append_inj h (by omega)
      rw [e1, ih hb e2]

/-- If two writes hit the same place they come from the same packed element, with the same sign. -/
theorem target_unique {sub : List κ} {shape : List Nat} {diag : Bool} {ts ts' : List (List Nat)}
    {tup tup' : List (List Nat × Int)}
    (ht : tup ∈ gperms sub) (hts : ts ∈ prodL (gtrils sub shape diag))
    (ht' : tup' ∈ gperms sub) (hts' : ts' ∈ prodL (gtrils sub shape diag))
    (e : target tup ts = target tup' ts') : ts = ts' := by
  have h1 := target_perm ht hts
  have h2 := target_perm ht' hts'
  rw [e] at h1
  have f1 := gtrils_facts hts
  have f2 := gtrils_facts hts'
  generalize List.range (ngroups sub) = cs at f1 f2
  generalize target tup' ts' = gs at h1 h2
  clear e ht ht' hts hts'
  induction f1 generalizing ts' gs with
  | nil => cases f2; rfl
  | cons ha _ ih =>
    cases f2 with
    | cons hb f2 =>
      cases h1 with
      | cons p1 h1 =>
        cases h2 with
        | cons p2 h2 =>
          rw [ih f2 _ h1 h2]
          congr 1
          exact eq_of_perm_sorted (p1.symm.trans p2) (sorted_of_mem ha).2.1 (sorted_of_mem hb).2.1

theorem tupSign_eq_groupSign {sub : List κ} {shape : List Nat} {diag : Bool} {ts : List (List Nat)}
    {tup : List (List Nat × Int)} {scomp : List Char} (hcond : diag = false ∨ ∀ s ∈ scomp, s ≠ '-')
    (ht : tup ∈ gperms sub) (hts : ts ∈ prodL (gtrils sub shape diag)) :
    tupSign scomp tup = groupSign scomp (target tup ts) := by
  have h1 := gperms_facts ht
  have h2 := gtrils_facts hts
  unfold tupSign groupSign target
  congr 1
  clear ht hts
  generalize List.range (ngroups sub) = cs at h1 h2
  induction h2 generalizing tup scomp with
  | nil => cases h1; simp
  | cons hb _ ih =>
    cases h1 with
    | cons ha h1 =>
      cases scomp with
      | nil => simp
      | cons s scomp =>
        simp only [List.zipWith_cons_cons]
        rw [ih (hcond.imp id fun h s hs => h s (by simp [hs])) h1]
        congr 1
        by_cases hs : s = '-'
        · simp only [hs, if_true]
          have hd : diag = false := by
            rcases hcond with h | h
            · exact h
            · exact absurd hs (h s (by simp))
          rw [ha.2]
          congr 1
          obtain ⟨hl, _, hst⟩ := sorted_of_mem hb
          rw [ascents_applyPerm]
          · rw [hl]; exact ha.1
          · exact hst hd
        · simp [hs]

theorem exists_target {sub : List κ} {shape : List Nat} {diag : Bool} {ts gs : List (List Nat)}
    (hts : ts ∈ prodL (gtrils sub shape diag)) (hp : List.Forall₂ List.Perm gs ts) :
    ∃ tup ∈ gperms sub, target tup ts = gs := by
  have h2 := gtrils_facts hts
  unfold gperms target
  simp only [mem_prodL, List.forall₂_map_right_iff]
  clear hts
  generalize List.range (ngroups sub) = cs at h2
  induction h2 generalizing gs with
  | nil => cases hp; exact ⟨[], by simp⟩
  | cons hb _ ih =>
    cases hp with
    | cons h1 hp =>
      obtain ⟨tup, ht, e⟩ := ih hp
      obtain ⟨p, hp1, hp2⟩ := exists_applyPerm h1
      rw [(sorted_of_mem hb).1] at hp1
      exact ⟨(p, _) :: tup, List.Forall₂.cons (mem_pws_of_perm hp1) ht, by simp [hp2, e]⟩

theorem argsort_groupedAxes_inverse (sub : List κ) (idx : List Nat) :
    unpermute (argsort (groupedAxes sub)) idx = (groupedAxes sub).map fun p => idx.getD p 0 := by
  have hp := groupedAxes_perm' sub
  have hlen := length_groupedAxes sub
  apply List.ext_getElem
  · simp [unpermute, length_argsort]
  · intro j h1 h2
    have hj : j < (groupedAxes sub).length := by simpa using h2
    obtain ⟨_, i, hi, hinv⟩ := C13_inverse _ hp j hj
    have hia : i = (groupedAxes sub)[j] := by
      rw [List.getElem?_eq_getElem hj] at hi; exact (Option.some.inj hi).symm
    have hnd : (argsort (groupedAxes sub)).Nodup :=
      (argsort_perm (groupedAxes sub)).nodup_iff.2 List.nodup_range
    obtain ⟨hi', e⟩ := List.getElem?_eq_some_iff.1 hinv
    have hidx : (argsort (groupedAxes sub)).idxOf j = i := by
      rw [← e]; exact hnd.idxOf_getElem i hi'
    have hjr : j < (argsort (groupedAxes sub)).length := by rw [length_argsort]; exact hj
    simp only [unpermute, List.getElem_map, List.getElem_range, hidx]
    rw [hia]

theorem map_argsort_groupedAxes (sub : List κ) (shape : List Nat) (hl : shape.length = sub.length) :
    ((argsort (groupedAxes sub)).map fun p =>
      ((groupedAxes sub).map fun p => shape.getD p 0).getD p 0) = shape := by
  have hp := groupedAxes_perm' sub
  have hlen := length_groupedAxes sub
  apply List.ext_getElem
  · simp [length_argsort, hlen, hl]
  · intro j h1 h2
    have hj : j < (groupedAxes sub).length := by simpa [length_argsort] using h1
    obtain ⟨⟨i, hi, hinv⟩, _⟩ := C13_inverse _ hp j hj
    obtain ⟨hi1, e1⟩ := List.getElem?_eq_some_iff.1 hi
    obtain ⟨hi2, e2⟩ := List.getElem?_eq_some_iff.1 hinv
    rw [List.getElem_map, e1, getD_eq _ _ _ (by simpa using hi2), List.getElem_map, e2,
      getD_eq _ _ _ h2]

/-- Closed form of `decompress_axes`. -/
theorem decompressAxes_ok {R : Type} [Ring R] (sub : List κ) (hsub : sub ≠ []) (shape : List Nat)
    (hc : Consistent sub shape) (diag : Bool) (symm : Option (List Char)) (scomp : List Char)
    (hsymm : symmetryLoop (symm.getD (List.replicate sub.length '-'))
      ((List.range (ngroups sub)).map (mult sub)) 0 = .ok scomp)
    (hcond : diag = false ∨ ∀ s ∈ scomp, s ≠ '-')
    (flat : List R) (hflat : flat.length = (prodL (gtrils sub shape diag)).length) :
    ∃ out, decompressAxes sub flat shape diag symm = .ok out ∧ out.shape = shape ∧ out.WF ∧
      (∀ idx, InBox shape idx → ∀ K ts, (prodL (gtrils sub shape diag))[K]? = some ts →
        List.Forall₂ List.Perm (groupsOf sub idx) ts →
        out.get idx = flat.getD K 0 * ((groupSign scomp (groupsOf sub idx) : Int) : R)) ∧
      (∀ idx, InBox shape idx → diag = false → (∃ g ∈ groupsOf sub idx, ¬ g.Nodup) →
        out.get idx = 0) := by
  unfold decompressAxes
  simp only [argsort_canon]
  rw [transpose_ok (NDArray.zeros shape) _ (by
    show (groupedAxes sub).Perm (List.range shape.length)
    rw [hc.length]; exact groupedAxes_perm sub)]
  simp only [bind, Except.bind]
  obtain ⟨d, h1, h2⟩ := sizes_ok hc
  have hzs : (NDArray.zeros (R := R) shape).shape = shape := rfl
  simp only [NDArray.ofFn_shape, hzs, h1, groupedCodes_count]
  have hsz : ∀ c ∈ List.range (unique sub).length, (d.get? c).getD 0 = gsize sub shape c :=
    fun c hcm => h2 c (by simpa [ngroups] using hcm)
  have hf : ((List.range (unique sub).length).map fun c => (d.get? c).getD 0 ^ mult sub c)
      = (gshapes sub shape).map prodN := by
    rw [← fshape_eq]
    apply List.map_congr_left
    intro c hcm; rw [hsz c hcm]
  rw [hf]
  have hlen : (NDArray.ofFn ((groupedAxes sub).map fun p => shape.getD p 0)
      fun T => (NDArray.zeros (R := R) shape).get (unpermute (groupedAxes sub) T)).data.length
        = prodN ((gshapes sub shape).map prodN) := by
    rw [NDArray.ofFn_wf, NDArray.ofFn_shape, ← gshapes_flatten hc, prodN_flatten]
  rw [NDArray.reshape, if_pos hlen]
  simp only
  have hsymm' : symmetryLoop (symm.getD (List.replicate sub.length '-'))
      ((List.range (unique sub).length).map fun a => mult sub a) 0 = .ok scomp := hsymm
  rw [hsymm']
  simp only
  rw [mapM_ok _ (fun c => decTuples (wOf diag) (mult sub c) (gsize sub shape c)) _ (by
    intro c hcm
    rw [hsz c hcm]
    exact trilIndices_ok _ _ _ (mult_pos sub c (by simpa [ngroups] using hcm)))]
  simp only
  have hne : (List.range (unique sub).length).isEmpty = false := by
    cases sub with
    | nil => exact absurd rfl hsub
    | cons a l =>
      have : a ∈ unique (a :: l) := mem_unique.2 (by simp)
      have := List.length_pos_of_mem this
      simp only [List.isEmpty_eq_false_iff, ne_eq, List.range_eq_nil]
      omega
  rw [hne]
  simp only [Bool.false_eq_true, if_false]
  -- the permuted positions
  have hgp : prodL ((List.range (unique sub).length).map fun c =>
      permutationsWithSigns (List.range (mult sub c))) = gperms sub := rfl
  have hzero : (NDArray.ofFn ((groupedAxes sub).map fun p => shape.getD p 0)
      fun T => (NDArray.zeros (R := R) shape).get (unpermute (groupedAxes sub) T)).data
      = List.replicate (prodN (gshapes sub shape).flatten) 0 := by
    rw [List.eq_replicate_iff]
    constructor
    · rw [hlen, prodN_flatten]
    · intro b hb
      simp only [NDArray.ofFn, List.mem_map] at hb
      obtain ⟨T, _, rfl⟩ := hb
      exact zeros_get _ _
  rw [hzero, hgp]
  have hstep : ∀ tup ∈ gperms sub, ∀ data : List R,
      putFlat data ((prodL (List.zipWith (fun c (tp : (List Nat × Int) × List (List Nat)) =>
          tp.2.map fun row => ravelIdx (List.replicate (mult sub c) ((d.get? c).getD 0))
            (applyPerm tp.1.1 row)) (List.range (unique sub).length)
          (tup.zip ((List.range (unique sub).length).map fun c =>
            decTuples (wOf diag) (mult sub c) (gsize sub shape c))))).map
          (ravelIdx ((gshapes sub shape).map prodN)))
        (flat.map fun x => x * ((prodZ (List.zipWith (fun (t : List Nat × Int) s =>
          if s = '-' then t.2 else 1) tup scomp) : Int) : R))
      = applyWrites data (((prodL (gtrils sub shape diag)).map fun ts =>
          ravelIdx (gshapes sub shape).flatten (target tup ts).flatten).zip
          (flat.map fun x => x * ((tupSign scomp tup : Int) : R))) := by
    intro tup htup data
    have hpos : (prodL (List.zipWith (fun c (tp : (List Nat × Int) × List (List Nat)) =>
          tp.2.map fun row => ravelIdx (List.replicate (mult sub c) ((d.get? c).getD 0))
            (applyPerm tp.1.1 row)) (List.range (unique sub).length)
          (tup.zip ((List.range (unique sub).length).map fun c =>
            decTuples (wOf diag) (mult sub c) (gsize sub shape c))))).map
          (ravelIdx ((gshapes sub shape).map prodN))
        = (prodL (gtrils sub shape diag)).map fun ts =>
          ravelIdx (gshapes sub shape).flatten (target tup ts).flatten := by
      have hlt : tup.length = ngroups sub := by simpa using (gperms_facts htup).length_eq
      have hz : List.zipWith (fun c (tp : (List Nat × Int) × List (List Nat)) =>
          tp.2.map fun row => ravelIdx (List.replicate (mult sub c) ((d.get? c).getD 0))
            (applyPerm tp.1.1 row)) (List.range (unique sub).length)
          (tup.zip ((List.range (unique sub).length).map fun c =>
            decTuples (wOf diag) (mult sub c) (gsize sub shape c)))
          = List.zipWith (fun f l => l.map f)
            (List.zipWith (fun s (q : List Nat × Int) row => ravelIdx s (applyPerm q.1 row))
              (gshapes sub shape) tup) (gtrils sub shape diag) := by
        apply List.ext_getElem
        · simp [gshapes, gtrils, ngroups, hlt]
        · intro i h1 h2
          have hi : i < (unique sub).length := by
            simp only [List.length_zipWith, List.length_range] at h1
            omega
          simp [gshapes, gtrils, hsz i (by simpa using hi)]
      rw [hz, prodL_zipWith_map _ _ (by simp [gshapes, gtrils, hlt]), List.map_map]
      apply List.map_congr_left
      intro ts hts
      have hb := target_inBox htup hts
      have hl : List.Forall₂ (fun (r s : List Nat) => r.length = s.length) (target tup ts)
          (gshapes sub shape) := hb.imp fun _ _ h => InBox.length_eq h
      rw [← ravelIdx_flatten hl]
      simp only [Function.comp]
      congr 1
      apply List.ext_getElem
      · simp [target]
      · intro i h1 h2
        simp [target]
    rw [hpos, putFlat_eq _ _ _ (by simp [hflat])]
    rfl
  rw [foldl_congr_mem' hstep, foldl_applyWrites]
  have hfull : ((List.range (unique sub).length).map fun c =>
      List.replicate (mult sub c) ((d.get? c).getD 0)).flatten = (gshapes sub shape).flatten := by
    unfold gshapes ngroups
    congr 1
    apply List.map_congr_left
    intro c hcm; rw [hsz c hcm]
  rw [hfull]
  generalize hW : ((gperms sub).flatMap fun tup => ((prodL (gtrils sub shape diag)).map fun ts =>
          ravelIdx (gshapes sub shape).flatten (target tup ts).flatten).zip
          (flat.map fun x => x * ((tupSign scomp tup : Int) : R))) = W
  have hmemW : ∀ p v, (p, v) ∈ W ↔ ∃ tup ∈ gperms sub, ∃ K ts,
      (prodL (gtrils sub shape diag))[K]? = some ts ∧
      p = ravelIdx (gshapes sub shape).flatten (target tup ts).flatten ∧
      v = flat.getD K 0 * ((tupSign scomp tup : Int) : R) := by
    intro p v
    rw [← hW]
    simp only [List.mem_flatMap]
    refine exists_congr fun tup => and_congr_right fun _ => ?_
    rw [List.mem_iff_getElem?]
    refine exists_congr fun K => ?_
    rw [List.getElem?_zip_eq_some]
    simp only [List.getElem?_map, Option.map_eq_some_iff]
    constructor
    · rintro ⟨⟨ts, h1, h2⟩, x, h3, h4⟩
      exact ⟨ts, h1, h2.symm, by simp [h3, ← h4]⟩
    · rintro ⟨ts, h1, h2, h3⟩
      refine ⟨⟨ts, h1, h2.symm⟩, flat.getD K 0, ?_, h3.symm⟩
      have hK : K < flat.length := by
        rw [hflat]; exact (List.getElem?_eq_some_iff.1 h1).1
      simp [hK]
  rw [NDArray.reshape, if_pos (by simp [length_applyWrites])]
  simp only
  have hap : (argsort (groupedAxes sub)).Perm (List.range (gshapes sub shape).flatten.length) := by
    rw [gshapes_flatten hc, List.length_map]
    exact C13_permutation _
  rw [transpose_ok _ _ hap]
  simp only
  have hshape : ((argsort (groupedAxes sub)).map fun p => (gshapes sub shape).flatten.getD p 0)
      = shape := by
    rw [gshapes_flatten hc]
    exact map_argsort_groupedAxes sub shape hc.length
  rw [hshape]
  have hget : ∀ idx, InBox shape idx → (NDArray.ofFn shape fun T =>
      (NDArray.mk (gshapes sub shape).flatten (applyWrites
        (List.replicate (prodN (gshapes sub shape).flatten) (0 : R)) W)).get
        (unpermute (argsort (groupedAxes sub)) T)).get idx
      = (applyWrites (List.replicate (prodN (gshapes sub shape).flatten) (0 : R)) W).getD
          (ravelIdx (gshapes sub shape).flatten (groupsOf sub idx).flatten) 0 := by
    intro idx hidx
    rw [NDArray.get_ofFn _ _ hidx, argsort_groupedAxes_inverse, ← groupsOf_flatten]
    rfl
  have hgbox : ∀ idx, InBox shape idx →
      InBox (gshapes sub shape).flatten (groupsOf sub idx).flatten := by
    intro idx hidx
    rw [groupsOf_flatten, gshapes_flatten hc]
    exact inBox_map_perm (groupedAxes_perm' sub) (by rw [hc.length, length_groupedAxes]) hidx
  have hglen : ∀ idx, List.Forall₂ (fun (r s : List Nat) => r.length = s.length)
      (groupsOf sub idx) (gshapes sub shape) := by
    intro idx
    unfold groupsOf gshapes
    rw [List.forall₂_map_left_iff, List.forall₂_map_right_iff, List.forall₂_same]
    intro c _
    simp [length_posOf]
  have hsame : ∀ idx, InBox shape idx → ∀ tup ∈ gperms sub,
      ∀ ts ∈ prodL (gtrils sub shape diag),
      ravelIdx (gshapes sub shape).flatten (groupsOf sub idx).flatten
        = ravelIdx (gshapes sub shape).flatten (target tup ts).flatten →
      groupsOf sub idx = target tup ts := by
    intro idx hidx tup htup ts hts e
    have hb := target_inBox htup hts
    have := ravelIdx_inj (hgbox idx hidx) (inBox_flatten hb) e
    exact flatten_inj (hglen idx) (hb.imp fun _ _ h => InBox.length_eq h) this
  refine ⟨_, rfl, rfl, NDArray.ofFn_wf _ _, ?_, ?_⟩
  · intro idx hidx K ts hK hperm
    rw [hget idx hidx]
    have hts : ts ∈ prodL (gtrils sub shape diag) := List.mem_of_getElem? hK
    obtain ⟨tup, htup, ht⟩ := exists_target hts hperm
    have hw := applyWrites_written (List.replicate (prodN (gshapes sub shape).flatten) (0 : R)) W
      (ravelIdx (gshapes sub shape).flatten (groupsOf sub idx).flatten)
      (flat.getD K 0 * ((groupSign scomp (groupsOf sub idx) : Int) : R))
      (by rw [List.length_replicate]; exact ravelIdx_lt (hgbox idx hidx))
      (by
        rw [hmemW]
        refine ⟨tup, htup, K, ts, hK, by rw [ht], ?_⟩
        rw [tupSign_eq_groupSign hcond htup hts, ht])
      (by
        intro v' hv'
        rw [hmemW] at hv'
        obtain ⟨tup', htup', K', ts', hK', hp', rfl⟩ := hv'
        have hts' : ts' ∈ prodL (gtrils sub shape diag) := List.mem_of_getElem? hK'
        have e := hsame idx hidx tup' htup' ts' hts' hp'
        rw [tupSign_eq_groupSign hcond htup' hts', ← e]
        have e2 : ts = ts' := target_unique htup hts htup' hts' (by rw [ht, e])
        subst e2
        have hnd : (prodL (gtrils sub shape diag)).Nodup := by
          apply nodup_prodL
          intro l hl
          simp only [gtrils, List.mem_map] at hl
          obtain ⟨c, _, rfl⟩ := hl
          exact nodup_decTuples _ _ _
        obtain ⟨i1, e1⟩ := List.getElem?_eq_some_iff.1 hK
        obtain ⟨i2, e2⟩ := List.getElem?_eq_some_iff.1 hK'
        have : K = K' := (List.Nodup.getElem_inj_iff hnd).1 (e1.trans e2.symm)
        rw [this])
    rw [List.getD_eq_getElem?_getD, hw]; rfl
  · intro idx hidx hd hg
    rw [hget idx hidx, List.getD_eq_getElem?_getD, applyWrites_not_written]
    · rw [List.getElem?_replicate]; split <;> rfl
    · intro v hv
      rw [hmemW] at hv
      obtain ⟨tup', htup', K', ts', hK', hp', rfl⟩ := hv
      have hts' : ts' ∈ prodL (gtrils sub shape diag) := List.mem_of_getElem? hK'
      have e := hsame idx hidx tup' htup' ts' hts' hp'
      obtain ⟨g, hg, hgn⟩ := hg
      have hperm := target_perm htup' hts'
      rw [← e] at hperm
      have f := gtrils_facts hts'
      apply hgn
      obtain ⟨i, hi, rfl⟩ := List.getElem_of_mem hg
      have hi' : i < ts'.length := by rw [← hperm.length_eq]; exact hi
      have p1 := List.forall₂_iff_get.1 hperm |>.2 i hi hi'
      have p2 := List.forall₂_iff_get.1 f |>.2 i hi' (by rw [← f.length_eq]; exact hi')
      have p3 := (sorted_of_mem p2).2.2 hd
      exact (p1.nodup_iff).2 (p3.imp fun h => (Nat.ne_of_lt h).symm)

end
end Ebcc
