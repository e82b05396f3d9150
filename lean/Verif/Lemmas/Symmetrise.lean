import Verif.Lemmas.PermSum
import Mathlib.Algebra.Field.Basic
import Mathlib.Algebra.CharZero.Defs
import Mathlib.Data.Nat.Factorial.Basic

namespace Ebcc

section
variable {κ : Type} [DecidableEq κ]

/-- Terms of `symmetrise` with sign function chosen by `minus`. -/
def symTerms (sub : List κ) (minus : Bool) : List (List Nat × Int) :=
  (prodL ((List.range (ngroups sub)).map fun c => permutationsWithSigns (posOf sub c))).map fun tup =>
    (unpermute (groupedAxes sub) (tup.map Prod.fst).flatten,
      if minus then prodZ (tup.map Prod.snd) else 1)

theorem tup_facts {sub : List κ} {tup : List (List Nat × Int)}
    (h : tup ∈ prodL ((List.range (ngroups sub)).map fun c => permutationsWithSigns (posOf sub c))) :
    List.Forall₂ (fun (q : List Nat × Int) c => q.1.Perm (posOf sub c) ∧
      q.2 = signOfParity (inversions q.1)) tup (List.range (ngroups sub)) := by
  rw [mem_prodL, List.forall₂_map_right_iff] at h
  refine h.imp fun q c hq => ?_
  obtain ⟨p, s⟩ := q
  have hp : p.Perm (posOf sub c) := (C01_complete _ _).1 (List.mem_map_of_mem (f := Prod.fst) hq)
  refine ⟨hp, (C01_sign _ (nodup_posOf sub c) _ _ hq).trans ?_⟩
  -- positions in an increasing list have the same inversions as the entries
  unfold arrangementSign
  congr 1
  have hanti : ∀ (t : Nat → Nat) (p : List Nat), (∀ i ∈ p, ∀ j ∈ p, i < j ↔ t i < t j) →
      inversions (p.map t) = inversions p := by
    intro t p
    induction p with
    | nil => intro _; rfl
    | cons x p ih =>
      intro ht
      simp only [List.map_cons, inversions]
      rw [ih fun i hi j hj => ht i (by simp [hi]) j (by simp [hj]), List.filter_map, List.length_map]
      congr 2
      apply List.filter_congr
      intro y hy
      simp only [Function.comp, decide_eq_decide]
      exact (ht y (by simp [hy]) x (by simp)).symm
  apply hanti
  intro i hi j hj
  have hi' := hp.mem_iff.1 hi
  have hj' := hp.mem_iff.1 hj
  have mono : ∀ a ∈ posOf sub c, ∀ b ∈ posOf sub c, a < b →
      (posOf sub c).idxOf a < (posOf sub c).idxOf b := by
    intro a ha b hb hab
    have ka := List.idxOf_lt_length_of_mem ha
    have kb := List.idxOf_lt_length_of_mem hb
    by_contra hcon
    rcases Nat.lt_or_eq_of_le (Nat.le_of_not_lt hcon) with h1 | h1
    · have := List.pairwise_iff_getElem.1 (sorted_posOf sub c) _ _ kb ka h1
      rw [List.getElem_idxOf, List.getElem_idxOf] at this
      omega
    · have := (List.idxOf_inj hb).1 h1
      omega
  constructor
  · exact mono i hi' j hj'
  · intro h1
    rcases Nat.lt_trichotomy i j with h2 | h2 | h2
    · exact h2
    · subst h2; omega
    · have := mono j hj' i hi' h2; omega

theorem tup_lengths {sub : List κ} {tup : List (List Nat × Int)}
    (h : tup ∈ prodL ((List.range (ngroups sub)).map fun c => permutationsWithSigns (posOf sub c))) :
    List.Forall₂ (fun (r : List Nat) c => r.length = mult sub c) (tup.map Prod.fst)
      (List.range (ngroups sub)) := by
  rw [List.forall₂_map_left_iff]
  exact (tup_facts h).imp fun q c hq => by rw [hq.1.length_eq, length_posOf]

theorem tup_flatten_perm {sub : List κ} {tup : List (List Nat × Int)}
    (h : tup ∈ prodL ((List.range (ngroups sub)).map fun c => permutationsWithSigns (posOf sub c))) :
    (tup.map Prod.fst).flatten.Perm (groupedAxes sub) := by
  have hf := tup_facts h
  unfold groupedAxes
  clear h
  generalize List.range (ngroups sub) = cs at hf
  induction hf with
  | nil => exact List.Perm.refl _
  | cons h1 _ ih =>
    simp only [List.map_cons, List.flatten_cons]
    exact h1.1.append ih

theorem tup_flatten_length {sub : List κ} {tup : List (List Nat × Int)}
    (h : tup ∈ prodL ((List.range (ngroups sub)).map fun c => permutationsWithSigns (posOf sub c))) :
    (tup.map Prod.fst).flatten.length = (groupedAxes sub).length := (tup_flatten_perm h).length_eq

/-- The positions updated, group by group, give the regrouped list. -/
theorem assemblePerm_eq {sub : List κ} {tup : List (List Nat × Int)}
    (h : tup ∈ prodL ((List.range (ngroups sub)).map fun c => permutationsWithSigns (posOf sub c))) :
    assemblePerm sub.length ((List.range (ngroups sub)).map (posOf sub)) (tup.map Prod.fst)
      = unpermute (groupedAxes sub) (tup.map Prod.fst).flatten := by
  have hz : (((List.range (ngroups sub)).map (posOf sub)).zip (tup.map Prod.fst)).flatMap
      (fun ip => ip.1.zip ip.2) = (groupedAxes sub).zip (tup.map Prod.fst).flatten := by
    unfold groupedAxes
    have hl := tup_lengths h
    clear h
    generalize tup.map Prod.fst = ps at hl
    generalize List.range (ngroups sub) = cs at hl
    induction hl with
    | nil => rfl
    | cons h1 _ ih =>
      simp only [List.map_cons, List.zip_cons_cons, List.flatMap_cons, List.flatten_cons]
      rw [ih, List.zip_append (by rw [length_posOf, h1])]
  unfold assemblePerm
  rw [hz]
  show applyWrites (List.range sub.length) _ = _
  apply List.ext_getElem?
  intro p
  by_cases hp : p < sub.length
  · have hm : p ∈ groupedAxes sub := mem_groupedAxes.2 hp
    have hk := List.idxOf_lt_length_of_mem hm
    have hk' : (groupedAxes sub).idxOf p < (tup.map Prod.fst).flatten.length := by
      rw [tup_flatten_length h]; exact hk
    rw [applyWrites_written _ _ p ((tup.map Prod.fst).flatten.getD ((groupedAxes sub).idxOf p) 0)
      (by simpa using hp)]
    · simp [unpermute, length_groupedAxes, hp]
    · rw [List.mem_iff_getElem?]
      refine ⟨(groupedAxes sub).idxOf p, ?_⟩
      rw [List.getElem?_zip_eq_some]
      exact ⟨by rw [List.getElem?_eq_getElem hk, List.getElem_idxOf], by
        rw [getD_eq _ _ _ hk', List.getElem?_eq_getElem hk']⟩
    · intro v' hv'
      rw [List.mem_iff_getElem?] at hv'
      obtain ⟨k, hk2⟩ := hv'
      rw [List.getElem?_zip_eq_some] at hk2
      obtain ⟨k1, e1⟩ := List.getElem?_eq_some_iff.1 hk2.1
      have : (groupedAxes sub).idxOf p = k := by
        simp only at e1
        rw [← e1]; exact (nodup_groupedAxes sub).idxOf_getElem k k1
      rw [this, List.getD_eq_getElem?_getD, hk2.2]; rfl
  · rw [List.getElem?_eq_none, List.getElem?_eq_none]
    · rw [length_unpermute, length_groupedAxes]; omega
    · rw [length_applyWrites]; simpa using hp

theorem groups_of_tup {sub : List κ} {tup : List (List Nat × Int)}
    (h : tup ∈ prodL ((List.range (ngroups sub)).map fun c => permutationsWithSigns (posOf sub c))) :
    groupsOf sub (unpermute (groupedAxes sub) (tup.map Prod.fst).flatten) = tup.map Prod.fst :=
  groupsOf_unpermute (tup_lengths h)

/-- Sign of a permutation that respects the groups. -/
def groupedSign (sub : List κ) (P : List Nat) : Int :=
  prodZ ((List.range (ngroups sub)).map fun c =>
    signOfParity (inversions ((posOf sub c).map fun p => P.getD p 0)))

/-- Membership in the list of terms. -/
theorem mem_symTerms {sub : List κ} {minus : Bool} {ps : List Nat × Int} :
    ps ∈ symTerms sub minus ↔ ps.1.length = sub.length ∧
      (∀ c < ngroups sub, ((posOf sub c).map fun p => ps.1.getD p 0).Perm (posOf sub c)) ∧
      ps.2 = if minus then groupedSign sub ps.1 else 1 := by
  unfold symTerms
  rw [List.mem_map]
  have sgn : ∀ tup ∈ prodL ((List.range (ngroups sub)).map
      fun c => permutationsWithSigns (posOf sub c)),
      prodZ (tup.map Prod.snd)
        = groupedSign sub (unpermute (groupedAxes sub) (tup.map Prod.fst).flatten) := by
    intro tup htup
    have hg := groups_of_tup htup
    have hf := tup_facts htup
    unfold groupedSign
    have e : ((List.range (ngroups sub)).map fun c => signOfParity (inversions
        ((posOf sub c).map fun p =>
          (unpermute (groupedAxes sub) (tup.map Prod.fst).flatten).getD p 0)))
        = (groupsOf sub (unpermute (groupedAxes sub) (tup.map Prod.fst).flatten)).map
          fun g => signOfParity (inversions g) := by
      unfold groupsOf; rw [List.map_map]; rfl
    rw [e, hg, List.map_map]
    congr 1
    clear hg e htup
    generalize List.range (ngroups sub) = cs at hf
    induction hf with
    | nil => rfl
    | cons h1 _ ih => simp only [List.map_cons, ih, Function.comp]; rw [h1.2]
  constructor
  · rintro ⟨tup, htup, rfl⟩
    refine ⟨by simp only; rw [length_unpermute, length_groupedAxes], ?_, ?_⟩
    · intro c hc
      have hg := groups_of_tup htup
      have hf := tup_facts htup
      have hk : c < tup.length := by rw [hf.length_eq]; simpa using hc
      have h1 := List.forall₂_iff_get.1 hf |>.2 c hk (by simpa using hc)
      have : (groupsOf sub (unpermute (groupedAxes sub) (tup.map Prod.fst).flatten))[c]?
          = (tup.map Prod.fst)[c]? := by rw [hg]
      simp only [groupsOf, List.getElem?_map, List.getElem?_range hc, Option.map_some,
        List.getElem?_eq_getElem hk, Option.some.injEq] at this
      simp only
      rw [this]
      simpa using h1.1
    · simp only
      cases minus
      · rfl
      · simp only [if_true]; exact sgn tup htup
  · rintro ⟨h1, h2, h3⟩
    refine ⟨(List.range (ngroups sub)).map fun c => ((posOf sub c).map fun p => ps.1.getD p 0,
      arrangementSign (posOf sub c) ((posOf sub c).map fun p => ps.1.getD p 0)), ?_, ?_⟩
    · rw [mem_prodL, List.forall₂_map_left_iff, List.forall₂_map_right_iff, List.forall₂_same]
      intro c hc
      have hp := h2 c (List.mem_range.1 hc)
      have := (C01_complete (posOf sub c) _).2 hp
      rw [List.mem_map] at this
      obtain ⟨⟨q, s⟩, hq, e⟩ := this
      simp only at e
      rw [← e]
      rw [← C01_sign _ (nodup_posOf sub c) _ _ hq]
      exact hq
    · have hmem : ((List.range (ngroups sub)).map fun c => ((posOf sub c).map fun p => ps.1.getD p 0,
          arrangementSign (posOf sub c) ((posOf sub c).map fun p => ps.1.getD p 0))) ∈
          prodL ((List.range (ngroups sub)).map fun c => permutationsWithSigns (posOf sub c)) := by
        rw [mem_prodL, List.forall₂_map_left_iff, List.forall₂_map_right_iff, List.forall₂_same]
        intro c hc
        have hp := h2 c (List.mem_range.1 hc)
        have := (C01_complete (posOf sub c) _).2 hp
        rw [List.mem_map] at this
        obtain ⟨⟨q, s⟩, hq, e⟩ := this
        simp only at e
        rw [← e]
        rw [← C01_sign _ (nodup_posOf sub c) _ _ hq]
        exact hq
      have hs := sgn _ hmem
      have hP : unpermute (groupedAxes sub) (List.map Prod.fst ((List.range (ngroups sub)).map
          fun c => ((posOf sub c).map fun p => ps.1.getD p 0,
          arrangementSign (posOf sub c) ((posOf sub c).map fun p => ps.1.getD p 0)))).flatten
          = ps.1 := by
        rw [List.map_map]
        exact unpermute_groupsOf h1
      rw [hP] at hs
      obtain ⟨P, s⟩ := ps
      simp only at h3 hs hP ⊢
      rw [hP]
      cases minus
      · simpa using h3.symm
      · simp only [if_true] at h3 ⊢
        rw [hs, h3]

theorem nodup_symTerms (sub : List κ) (minus : Bool) : (symTerms sub minus).Nodup := by
  unfold symTerms
  apply List.Nodup.map_on
  · intro x hx y hy e
    simp only [Prod.mk.injEq] at e
    have e1 := congrArg (groupsOf sub) e.1
    rw [groups_of_tup hx, groups_of_tup hy] at e1
    have fx := tup_facts hx
    have fy := tup_facts hy
    clear e hx hy
    generalize List.range (ngroups sub) = cs at fx fy
    induction fx generalizing y with
    | nil => cases fy; rfl
    | @cons a c as cs h1 _ ih =>
      cases fy with
      | @cons b _ bs _ h2 fy =>
        simp only [List.map_cons, List.cons.injEq] at e1
        rw [ih _ e1.2 fy]
        congr 1
        exact Prod.ext e1.1 (by rw [h1.2, h2.2, e1.1])
  · apply nodup_prodL
    intro l hl
    rw [List.mem_map] at hl
    obtain ⟨c, _, rfl⟩ := hl
    exact List.Nodup.of_map _ (C01_nodup _ (nodup_posOf sub c))

theorem perm_symTerms {sub : List κ} {minus : Bool} {ps : List Nat × Int}
    (h : ps ∈ symTerms sub minus) : ps.1.Perm (List.range sub.length) := by
  obtain ⟨h1, h2, _⟩ := mem_symTerms.1 h
  have e : ps.1 = (List.range ps.1.length).map fun p => ps.1.getD p 0 := (range_map_getD _).symm
  rw [h1] at e
  have p1 : ps.1.Perm ((groupedAxes sub).map fun p => ps.1.getD p 0) := by
    conv_lhs => rw [e]
    exact (groupedAxes_perm sub).symm.map _
  refine p1.trans ?_
  refine List.Perm.trans ?_ (groupedAxes_perm sub)
  unfold groupedAxes
  rw [List.map_flatten, List.map_map]
  have : ∀ cs : List Nat, (∀ c ∈ cs, c < ngroups sub) →
      (cs.map (List.map (fun p => ps.1.getD p 0) ∘ posOf sub)).flatten.Perm
        (cs.map (posOf sub)).flatten := by
    intro cs
    induction cs with
    | nil => intro _; exact List.Perm.refl _
    | cons c cs ih =>
      intro hc
      simp only [List.map_cons, List.flatten_cons]
      exact (h2 c (hc c (by simp))).append (ih fun c hcm => hc c (by simp [hcm]))
  exact this _ fun c hc => List.mem_range.1 hc

theorem length_symTerms (sub : List κ) (minus : Bool) :
    (symTerms sub minus).length
      = ((List.range (ngroups sub)).map fun c => Nat.factorial (mult sub c)).prod := by
  unfold symTerms
  rw [List.length_map, length_prodL, prodN_eq_prod, List.map_map]
  congr 1
  apply List.map_congr_left
  intro c _
  simp only [Function.comp]
  rw [C01_count, length_posOf]

/-- Closure under exchange of two equally named axes. -/
theorem symTerms_swap {sub : List κ} {minus : Bool} {i j : Nat} (hij : i < j) (hj : j < sub.length)
    (he : (canon sub).getD i 0 = (canon sub).getD j 0) {ps : List Nat × Int}
    (h : ps ∈ symTerms sub minus) :
    (swapIdx i j ps.1, (if minus then -1 else 1) * ps.2) ∈ symTerms sub minus := by
  have hP := perm_symTerms h
  obtain ⟨h1, h2, h3⟩ := mem_symTerms.1 h
  have hnd : ps.1.Nodup := hP.nodup_iff.2 List.nodup_range
  have hclt := canon_lt sub j hj
  obtain ⟨A, B, C, e1, e2⟩ := group_swap_same h1 hij hj he rfl
  refine mem_symTerms.2 ⟨by simp only; rw [swapIdx_length]; exact h1, ?_, ?_⟩
  · intro c hc
    by_cases hcj : (canon sub).getD j 0 = c
    · subst hcj
      simp only
      refine List.Perm.trans ?_ (h2 _ hc)
      rw [e1, e2]
      apply List.Perm.append_left
      refine (List.Perm.cons _ List.perm_middle).trans ?_
      refine (List.Perm.swap _ _ _).trans ?_
      exact List.Perm.cons _ List.perm_middle.symm
    · simp only
      rw [group_swap_other h1 (by rw [he]; exact hcj) hcj]
      exact h2 c hc
  · cases minus
    · simpa using h3
    · simp only [if_true] at h3 ⊢
      rw [h3]
      symm
      unfold groupedSign
      apply prodZ_update List.nodup_range (List.mem_range.2 hclt)
      · have hg := (h2 _ hclt).nodup_iff.2 (nodup_posOf sub _)
        rw [e1] at hg
        rw [e1, e2]
        rw [List.nodup_append, List.nodup_cons, List.nodup_append, List.nodup_cons] at hg
        simp only [List.mem_append, List.mem_cons, not_or] at hg
        have hp := inversions_swap A B C _ _ hg.2.1.1.2.1 hg.2.1.1.1
          (fun hb => hg.2.1.2.2.2 _ hb _ (Or.inl rfl) rfl)
        rw [signOfParity_neg hp]; ring
      · intro c _ hne
        rw [group_swap_other h1 (by rw [he]; exact fun e => hne e.symm) fun e => hne e.symm]

/-- A term is the identity, or has a descent inside a group. -/
theorem symTerms_red {sub : List κ} {minus : Bool} {ps : List Nat × Int}
    (h : ps ∈ symTerms sub minus) : ps = (List.range sub.length, 1) ∨
      ∃ i j, (i < j ∧ j < sub.length ∧ (canon sub).getD i 0 = (canon sub).getD j 0) ∧
        ps.1.getD j 0 < ps.1.getD i 0 := by
  by_cases hd : ∃ i j, (i < j ∧ j < sub.length ∧ (canon sub).getD i 0 = (canon sub).getD j 0) ∧
        ps.1.getD j 0 < ps.1.getD i 0
  · exact Or.inr hd
  · left
    push Not at hd
    obtain ⟨h1, h2, h3⟩ := mem_symTerms.1 h
    have hs : ∀ c, ((posOf sub c).map fun p => ps.1.getD p 0).Pairwise (· ≤ ·) := by
      intro c
      rw [List.pairwise_map]
      apply (List.Pairwise.and_mem.1 (sorted_posOf sub c)).imp
      rintro p q ⟨hp, hq, hpq⟩
      obtain ⟨_, k2⟩ := mem_posOf.1 hp
      obtain ⟨k3, k4⟩ := mem_posOf.1 hq
      exact hd p q ⟨hpq, k3, k2.trans k4.symm⟩
    have hg : groupsOf sub ps.1 = (List.range (ngroups sub)).map (posOf sub) := by
      unfold groupsOf
      apply List.map_congr_left
      intro c hc
      exact List.Perm.eq_of_pairwise (fun _ _ _ _ => Nat.le_antisymm) (hs c)
        ((sorted_posOf sub c).imp Nat.le_of_lt) (h2 c (List.mem_range.1 hc))
    have e := unpermute_groupsOf h1
    have e' := unpermute_groupsOf (sub := sub) (idx := List.range sub.length) (by simp)
    have hg' : groupsOf sub (List.range sub.length) = (List.range (ngroups sub)).map (posOf sub) := by
      unfold groupsOf
      apply List.map_congr_left
      intro c _
      conv_rhs => rw [← List.map_id (posOf sub c)]
      apply List.map_congr_left
      intro p hp
      have := (mem_posOf.1 hp).1
      simp [this]
    rw [hg] at e
    rw [hg', e] at e'
    obtain ⟨P, s⟩ := ps
    simp only at e' h3 hs
    subst e'
    congr 1
    rw [h3]
    cases minus
    · rfl
    · simp only [if_true]
      unfold groupedSign
      have : ∀ l : List Nat, prodZ (l.map fun c =>
          signOfParity (inversions ((posOf sub c).map fun p => (List.range sub.length).getD p 0)))
          = 1 := by
        intro l
        induction l with
        | nil => rfl
        | cons c l ih =>
          rw [List.map_cons, prodZ, ih, inversions_eq_zero_of_sorted _ (hs c)]
          rfl
      exact this _

/-- Closed form of `symmetrise` when the symmetry string reads the same on all axes of the first
group. -/
theorem symmetrise_ok {K : Type} [Field K] (sub : List κ) (hsub : sub ≠ []) (a : NDArray K)
    (hc : Consistent sub a.shape) (symm : Option (List Char)) (scomp : List Char)
    (hsymm : symmetryLoop (symm.getD (List.replicate sub.length '-'))
      ((List.range (ngroups sub)).map (mult sub)) 0 = .ok scomp) (x : Char)
    (hx : ∀ p ∈ posOf sub 0, (symm.getD (List.replicate sub.length '-'))[p]? = some x) (fac : Bool) :
    symmetrise sub a symm fac = .ok (NDArray.ofFn a.shape fun idx =>
      permSum (symTerms sub (decide (x = '-'))) a idx *
        (if fac then getSymmetryFactor ((List.range (ngroups sub)).map (mult sub)) else 1)) := by
  unfold symmetrise
  have hcnt : (List.range (unique sub).length).map (canon sub).count
      = (List.range (ngroups sub)).map (mult sub) := rfl
  have hinds : ((List.range (unique sub).length).map fun c => (List.range sub.length).filter
      fun p => decide ((canon sub).getD p 0 = c)) = (List.range (ngroups sub)).map (posOf sub) := rfl
  simp only [hcnt, hinds, hsymm, bind, Except.bind]
  have hne : (List.range (unique sub).length).isEmpty = false := by
    cases sub with
    | nil => exact absurd rfl hsub
    | cons a l =>
      have : a ∈ unique (a :: l) := mem_unique.2 (by simp)
      have := List.length_pos_of_mem this
      simp only [List.isEmpty_eq_false_iff, ne_eq, List.range_eq_nil]
      omega
  rw [hne]
  simp only [Bool.false_eq_true, if_false]
  have hprod : prodL (((List.range (ngroups sub)).map (posOf sub)).map permutationsWithSigns)
      = prodL ((List.range (ngroups sub)).map fun c => permutationsWithSigns (posOf sub c)) := by
    rw [List.map_map]; rfl
  rw [hprod, zeros_eq_ofFn]
  have hpos : 0 < sub.length := List.length_pos_iff.2 hsub
  have h00 : (canon sub).getD 0 0 = 0 := by
    cases sub with
    | nil => exact absurd rfl hsub
    | cons c l => simp [canon, unique, uniqueLoop, List.idxOf_cons]
  have hp0 : 0 ∈ posOf sub 0 := mem_posOf.2 ⟨hpos, h00⟩
  have hng : 0 < ngroups sub := by rw [← h00]; exact canon_lt sub 0 hpos
  rw [foldlM_perms a _ (fun tup => unpermute (groupedAxes sub) (tup.map Prod.fst).flatten)
    (fun tup => if decide (x = '-') then prodZ (tup.map Prod.snd) else 1)]
  · simp only
    have : symTerms sub (decide (x = '-')) = (prodL ((List.range (ngroups sub)).map
      fun c => permutationsWithSigns (posOf sub c))).map fun tup =>
      (unpermute (groupedAxes sub) (tup.map Prod.fst).flatten,
      if decide (x = '-') then prodZ (tup.map Prod.snd) else 1) := rfl
    rw [← this]
    cases fac
    · simp [pure, Except.pure]
    · simp [pure, Except.pure, map_ofFn]
  · intro tup htup acc
    rw [assemblePerm_eq htup]
    have hm : (unpermute (groupedAxes sub) (tup.map Prod.fst).flatten,
        if decide (x = '-') then prodZ (tup.map Prod.snd) else 1) ∈
        symTerms sub (decide (x = '-')) := List.mem_map_of_mem htup
    have hgp := (mem_symTerms.1 hm).2.1 0 hng
    simp only at hgp
    have h0 : (unpermute (groupedAxes sub) (tup.map Prod.fst).flatten).getD 0 0 ∈ posOf sub 0 :=
      hgp.mem_iff.1 (List.mem_map_of_mem (f := fun p =>
        (unpermute (groupedAxes sub) (tup.map Prod.fst).flatten).getD p 0) hp0)
    rw [hx _ h0]
    simp [pure, Except.pure, bind, Except.bind]
  · intro tup htup
    have hm : (unpermute (groupedAxes sub) (tup.map Prod.fst).flatten,
        if decide (x = '-') then prodZ (tup.map Prod.snd) else 1) ∈
        symTerms sub (decide (x = '-')) := List.mem_map_of_mem htup
    rw [hc.length]
    exact perm_symTerms hm
  · intro tup htup
    have hm : (unpermute (groupedAxes sub) (tup.map Prod.fst).flatten,
        if decide (x = '-') then prodZ (tup.map Prod.snd) else 1) ∈
        symTerms sub (decide (x = '-')) := List.mem_map_of_mem htup
    obtain ⟨m1, m2, _⟩ := mem_symTerms.1 hm
    simp only at m1 m2
    generalize hQ : unpermute (groupedAxes sub) (tup.map Prod.fst).flatten = Q at m1 m2
    apply List.ext_getElem
    · simp [m1, hc.length]
    · intro p p1 p2
      have hp : p < sub.length := by rw [← hc.length]; exact p2
      have hq : Q.getD p 0 ∈ posOf sub ((canon sub).getD p 0) :=
        (m2 _ (canon_lt sub p hp)).mem_iff.1
          (List.mem_map_of_mem (f := fun p => Q.getD p 0) (mem_posOf.2 ⟨hp, rfl⟩))
      obtain ⟨q1, q2⟩ := mem_posOf.1 hq
      have hpQ : p < Q.length := by omega
      rw [List.getElem_map, ← getD_eq _ _ 0 hpQ, hc.getD _ q1, q2, ← hc.getD p hp, getD_eq _ _ _ p2]

end
end Ebcc
