import Verif.Spec.Rotated
import Verif.Lemmas.EinRename
import Verif.Lemmas.GenEinsum
/-!
Contractions of rotated arrays.
-/

namespace Ebcc

section
variable {R : Type} [CommRing R]

/-- `rotSum` as a sum over the values of positions `P`. -/
theorem rotSum_eq (sz : Nat → Nat) (C : Nat → Nat → Nat → R) (s i : Nat → Nat) (P : List Nat) (hP : P.Nodup)
    (F : List Nat → R) (e : Nat → Nat) :
    rotSum sz C (P.map s) (P.map i) F = einSum (fun p => sz (s p)) P
      (fun x => (P.map fun p => C (s p) (i p) (x p)).prod * F (P.map x)) e := by
  induction P generalizing F e with
  | nil => simp [rotSum, einSum]
  | cons p P ih =>
    have hp := (List.nodup_cons.1 hP).1
    simp only [List.map_cons, rotSum, einSum]
    congr 1
    apply List.map_congr_left
    intro v _
    rw [ih (List.nodup_cons.1 hP).2 _ (Function.update e p v), ← einSum_const_mul]
    apply einSum_congr
    intro e' h1 _
    rw [h1 p hp, Function.update_self, List.prod_cons]
    ring

/-- A sum over labels `D` and positions `P`. -/
def rotTot (N : Nat → Nat) (c : Nat → Nat → Nat → R) (lab : Nat → Nat) (D P : List Nat) (T : (Nat → Nat) → R)
    (e : Nat → Nat) : R :=
  einSum N (D ++ P) (fun x => (P.map fun p => c (lab p) (x (lab p)) (x p)).prod * T x) e

theorem sum_delta_rot (n : Nat) (c : Nat → Nat → R)
    (hc : ∀ x < n, ∀ y < n, (∑ v ∈ Finset.range n, c v x * c v y) = if x = y then 1 else 0) (G : Nat → Nat → R) :
    (∑ v ∈ Finset.range n, ∑ x ∈ Finset.range n, ∑ y ∈ Finset.range n, (c v x * c v y) * G x y) =
      ∑ w ∈ Finset.range n, G w w := by
  rw [Finset.sum_comm]
  apply Finset.sum_congr rfl
  intro x hx
  rw [Finset.sum_comm]
  simp_rw [← Finset.sum_mul]
  rw [Finset.sum_congr rfl fun y hy => by rw [hc x (Finset.mem_range.1 hx) y (Finset.mem_range.1 hy)]]
  simp [Finset.mem_range.1 hx]

/-- The sum over a label with two positions. -/
theorem rotTot_step (N : Nat → Nat) (c : Nat → Nat → Nat → R) (lab : Nat → Nat) (d : Nat) (D P P' : List Nat)
    (p q : Nat) (T : (Nat → Nat) → R) (hT : DependsOn T (· ∈ P))
    (hlab : ∀ r ∈ P, lab r ∉ P) (hdP : d ∉ P) (hperm : P.Perm (p :: q :: P')) (hP : P.Nodup)
    (hp : lab p = d) (hq : lab q = d) (hP' : ∀ r ∈ P', lab r ≠ d) (hNp : N p = N d) (hNq : N q = N d)
    (hc : ∀ x < N d, ∀ y < N d, (∑ v ∈ Finset.range (N d), c d v x * c d v y) = if x = y then 1 else 0)
    (e : Nat → Nat) :
    rotTot N c lab (d :: D) P T e =
      rotTot N c lab D P' (fun x => ∑ w ∈ Finset.range (N d), T fun r => if lab r = d then w else x r) e := by
  unfold rotTot
  have hnd := hperm.nodup_iff.1 hP
  simp only [List.nodup_cons, List.mem_cons, not_or] at hnd
  obtain ⟨⟨hpq, hpP⟩, hqP, hnd'⟩ := hnd
  have hmem : ∀ r, r ∈ P ↔ r = p ∨ r = q ∨ r ∈ P' := fun r => by rw [hperm.mem_iff]; simp
  have hperm2 : (d :: D ++ P).Perm ((D ++ P') ++ [d, p, q]) := by
    have h1 : (d :: D ++ P).Perm (d :: D ++ (p :: q :: P')) := List.Perm.append_left _ hperm
    refine h1.trans ?_
    have h2 : (d :: D ++ p :: q :: P') = ([d] ++ D) ++ ([p, q] ++ P') := by simp
    rw [h2]
    have h3 : ((D ++ P') ++ [d, p, q]) = (D ++ P') ++ ([d] ++ [p, q]) := by simp
    rw [h3]
    refine (List.perm_iff_count.2 fun a => ?_)
    simp only [List.count_append]
    omega
  rw [einSum_perm N hperm2, einSum_append]
  apply einSum_congr
  intro e1 _ _
  simp only [einSum, sum_range_eq_finset]
  have hdp : d ≠ p := fun h => hdP (by rw [h, hmem]; simp)
  have hdq : d ≠ q := fun h => hdP (by rw [h, hmem]; simp)
  rw [hNp, hNq]
  have hterm : ∀ v x y, ((P.map fun r => c (lab r)
      (Function.update (Function.update (Function.update e1 d v) p x) q y (lab r))
      (Function.update (Function.update (Function.update e1 d v) p x) q y r)).prod *
      T (Function.update (Function.update (Function.update e1 d v) p x) q y)) =
      (c d v x * c d v y) * ((P'.map fun r => c (lab r) (e1 (lab r)) (e1 r)).prod *
        T (Function.update (Function.update e1 p x) q y)) := by
    intro v x y
    have hT' : T (Function.update (Function.update (Function.update e1 d v) p x) q y) =
        T (Function.update (Function.update e1 p x) q y) := by
      apply hT
      intro r hr
      have hrd : r ≠ d := fun h => hdP (h ▸ hr)
      simp only [Function.update_apply, hrd, if_false]
    rw [hT', (hperm.map _).prod_eq]
    simp only [List.map_cons, List.prod_cons, hp, hq]
    have e2 : Function.update (Function.update (Function.update e1 d v) p x) q y d = v := by
      simp [Function.update_apply, hdp, hdq]
    have e3 : Function.update (Function.update (Function.update e1 d v) p x) q y p = x := by
      simp [Function.update_apply, hpq]
    have e4 : Function.update (Function.update (Function.update e1 d v) p x) q y q = y := by simp
    rw [e2, e3, e4]
    have e5 : (P'.map fun r => c (lab r)
        (Function.update (Function.update (Function.update e1 d v) p x) q y (lab r))
        (Function.update (Function.update (Function.update e1 d v) p x) q y r)) =
        P'.map fun r => c (lab r) (e1 (lab r)) (e1 r) := by
      apply List.map_congr_left
      intro r hr
      have hrP : r ∈ P := by rw [hmem]; simp [hr]
      have h1 : lab r ≠ d := hP' r hr
      have h2 : lab r ≠ p := fun h => hlab r hrP (by rw [h, hmem]; simp)
      have h3 : lab r ≠ q := fun h => hlab r hrP (by rw [h, hmem]; simp)
      have h4 : r ≠ d := fun h => hdP (h ▸ hrP)
      have h5 : r ≠ p := fun h => hpP (h ▸ hr)
      have h6 : r ≠ q := fun h => hqP (h ▸ hr)
      simp only [Function.update_apply, h1, h2, h3, h4, h5, h6, if_false]
    rw [e5]
    ring
  simp only [hterm]
  rw [sum_delta_rot (N d) (c d) hc, Finset.mul_sum]
  apply Finset.sum_congr rfl
  intro w _
  congr 1
  apply hT
  intro r hr
  rcases (hmem r).1 hr with rfl | rfl | hr'
  · simp [Function.update_apply, hp]
  · simp [hq]
  · have h5 : r ≠ p := fun h => hpP (h ▸ hr')
    have h6 : r ≠ q := fun h => hqP (h ▸ hr')
    simp [Function.update_apply, h5, h6, hP' r hr']

/-- The sum over all labels with two positions. -/
theorem rotTot_all (N : Nat → Nat) (c : Nat → Nat → Nat → R) (lab : Nat → Nat) (D P : List Nat)
    (T : (Nat → Nat) → R) (hT : DependsOn T (· ∈ P)) (hlab : ∀ r ∈ P, lab r ∉ P) (hDP : ∀ d ∈ D, d ∉ P)
    (hP : P.Nodup) (hD : D.Nodup) (hN : ∀ r ∈ P, N r = N (lab r))
    (htwo : ∀ d ∈ D, (P.map lab).count d = 2)
    (hc : ∀ d ∈ D, ∀ x < N d, ∀ y < N d,
      (∑ v ∈ Finset.range (N d), c d v x * c d v y) = if x = y then 1 else 0) (e e0 : Nat → Nat) :
    rotTot N c lab D P T e = rotTot N c lab [] (P.filter fun r => decide (lab r ∉ D))
      (fun x => einSum N D (fun y => T fun r => if lab r ∈ D then y (lab r) else x r) e0) e := by
  induction D generalizing P T with
  | nil =>
    have : P.filter (fun r => decide (lab r ∉ ([] : List Nat))) = P := by simp
    rw [this]
    congr 1
  | cons d D ih =>
    have hd := (List.nodup_cons.1 hD).1
    obtain ⟨P', hP'⟩ : ∃ P', P' = P.filter fun r => decide (lab r ≠ d) := ⟨_, rfl⟩
    have hlen : (P.filter fun r => decide (lab r = d)).length = 2 := by
      have := htwo d (by simp)
      rw [List.count, List.countP_map, List.countP_eq_length_filter] at this
      rw [← this]
      congr 1
    obtain ⟨p, q, hpq⟩ : ∃ p q, (P.filter fun r => decide (lab r = d)) = [p, q] := List.length_eq_two.1 hlen
    have hperm : P.Perm (p :: q :: P') := by
      have h := List.filter_append_perm (fun r => decide (lab r = d)) P
      rw [hpq] at h
      have e1 : P.filter (fun x => !decide (lab x = d)) = P' := by
        rw [hP']; apply List.filter_congr; intro r _; simp
      rw [e1] at h
      exact h.symm
    have hmp : p ∈ P ∧ lab p = d := by
      have : p ∈ P.filter fun r => decide (lab r = d) := by rw [hpq]; simp
      simpa using this
    have hmq : q ∈ P ∧ lab q = d := by
      have : q ∈ P.filter fun r => decide (lab r = d) := by rw [hpq]; simp
      simpa using this
    have hsub : ∀ r ∈ P', r ∈ P ∧ lab r ≠ d := by
      intro r hr
      rw [hP'] at hr
      simpa using hr
    rw [rotTot_step N c lab d D P P' p q T hT hlab (hDP d (by simp)) hperm hP hmp.2 hmq.2
      (fun r hr => (hsub r hr).2) (by rw [hN p hmp.1, hmp.2]) (by rw [hN q hmq.1, hmq.2]) (hc d (by simp)) e]
    rw [ih P' _ ?_ (fun r hr h => hlab r (hsub r hr).1 (hsub _ h).1)
      (fun d' hd' h => hDP d' (by simp [hd']) (hsub _ h).1) (hP' ▸ hP.filter _) (List.nodup_cons.1 hD).2
      (fun r hr => hN r (hsub r hr).1) ?_ (fun d' hd' => hc d' (by simp [hd']))]
    · have e1 : (P'.filter fun r => decide (lab r ∉ D)) = P.filter fun r => decide (lab r ∉ d :: D) := by
        rw [hP', List.filter_filter]
        apply List.filter_congr
        intro r _
        simp only [List.mem_cons, not_or, ne_eq]
        by_cases h1 : lab r = d <;> by_cases h2 : lab r ∈ D <;> simp [h1, h2]
      rw [e1]
      congr 1
      funext x
      have hp2 : (d :: D).Perm (D ++ [d]) := List.perm_append_singleton d D |>.symm
      rw [einSum_perm N hp2, einSum_append]
      apply einSum_congr
      intro y _ _
      simp only [einSum_cons, einSum]
      apply Finset.sum_congr rfl
      intro w _
      congr 1
      funext r
      by_cases h1 : lab r = d
      · simp [h1]
      · simp [h1, Function.update_apply]
    · intro x x' hx
      apply Finset.sum_congr rfl
      intro w _
      apply hT
      intro r hr
      by_cases h1 : lab r = d
      · simp [h1]
      · simp only [h1, if_false]
        exact hx r (by rw [hP']; simp [hr, h1])
    · intro d' hd'
      have hne : d' ≠ d := fun h => hd (h ▸ hd')
      have h1 := htwo d' (by simp [hd'])
      rw [(hperm.map lab).count_eq] at h1
      simpa [hmp.2, hmq.2, List.count_cons, hne.symm] using h1

omit [CommRing R] in
/-- Different positions for all axes of the operands. -/
theorem exists_positions (L : List (NDArray R × List Nat)) (q : Nat) :
    ∃ (lab : Nat → Nat) (Q : List (List Nat × NDArray R)), L = Q.map (fun o => (o.2, o.1.map lab)) ∧
      (Q.map Prod.fst).flatten.Nodup ∧ ∀ r ∈ (Q.map Prod.fst).flatten, q ≤ r := by
  induction L generalizing q with
  | nil => exact ⟨fun _ => 0, [], rfl, by simp, by simp⟩
  | cons x L ih =>
    obtain ⟨lab, Q, h1, h2, h3⟩ := ih (q + x.2.length)
    refine ⟨fun r => if r < q + x.2.length then x.2.getD (r - q) 0 else lab r,
      (List.range' q x.2.length, x.1) :: Q, ?_, ?_, ?_⟩
    · simp only [List.map_cons]
      congr 1
      · refine Prod.ext rfl ?_
        apply List.ext_getElem
        · simp
        · intro k k1 k2
          simp [k1]
      · rw [h1]
        apply List.map_congr_left
        intro o ho
        refine Prod.ext rfl ?_
        apply List.map_congr_left
        intro r hr
        have := h3 r (List.mem_flatten.2 ⟨o.1, List.mem_map_of_mem ho, hr⟩)
        rw [if_neg (by omega)]
    · simp only [List.map_cons, List.flatten_cons]
      rw [List.nodup_append]
      refine ⟨List.nodup_range', h2, fun a ha b hb => ?_⟩
      have h4 := h3 b hb
      rw [List.mem_range'_1] at ha
      omega
    · intro r hr
      simp only [List.map_cons, List.flatten_cons, List.mem_append, List.mem_range'_1] at hr
      rcases hr with hr | hr
      · exact hr.1
      · have := h3 r hr
        omega

theorem einProd_dependsR (Q : List (List Nat × NDArray R)) :
    DependsOn (einProd Q) (· ∈ (Q.map Prod.fst).flatten) := by
  intro x x' h
  apply einProd_congr
  intro o ho r hr
  exact h r (List.mem_flatten.2 ⟨o.1, List.mem_map_of_mem ho, hr⟩)

/-- The product of elements of rotated operands. -/
theorem prod_rotSum (sz : Nat → Nat) (C : Nat → Nat → Nat → R) (s i : Nat → Nat)
    (Q : List (List Nat × NDArray R)) (hQ : (Q.map Prod.fst).flatten.Nodup) (e : Nat → Nat) :
    (Q.map fun o => rotSum sz C (o.1.map s) (o.1.map i) o.2.get).prod =
      einSum (fun p => sz (s p)) (Q.map Prod.fst).flatten
        (fun x => ((Q.map Prod.fst).flatten.map fun p => C (s p) (i p) (x p)).prod * einProd Q x) e := by
  induction Q with
  | nil => simp [einSum, einProd]
  | cons o Q ih =>
    simp only [List.map_cons, List.flatten_cons] at hQ ⊢
    obtain ⟨n1, n2, n3⟩ := List.nodup_append.1 hQ
    rw [List.prod_cons, rotSum_eq sz C s i o.1 n1 o.2.get e, ih n2]
    have hdep : DependsOn (fun x => (((Q.map Prod.fst).flatten.map fun p => C (s p) (i p) (x p)).prod *
        einProd Q x)) (· ∈ (Q.map Prod.fst).flatten) := by
      intro x x' h
      simp only
      rw [einProd_dependsR Q x x' h, List.map_congr_left fun p hp => by rw [h p hp]]
    have hdep1 : DependsOn (fun x => ((o.1.map fun p => C (s p) (i p) (x p)).prod * o.2.get (o.1.map x)))
        (· ∈ o.1) := by
      intro x x' h
      simp only
      rw [List.map_congr_left (f := fun p => C (s p) (i p) (x p)) fun p hp => by rw [h p hp],
        List.map_congr_left (f := x) fun p hp => h p hp]
    rw [← einSum_mul _ o.1 _ hdep1 hdep (fun d hd h => n3 d h d hd rfl) (fun d hd h => n3 d hd d h rfl)]
    congr 1
    funext x
    simp only [List.map_append, List.prod_append, einProd, List.map_cons, List.prod_cons]
    ring

/-- A contraction of rotated arrays is the rotated contraction, if each label occurs twice. -/
theorem einValue_rotated (sz : Nat → Nat) (C : Nat → Nat → Nat → R) (hC : Orthogonal sz C) (sp : Nat → Nat)
    (L : List (NDArray R × List Nat)) (out : List Nat) (hlt : ∀ x ∈ L, ∀ l ∈ x.2, l < 52) (hno : out.Nodup)
    (hsub : ∀ l ∈ out, l ∈ (L.map Prod.snd).flatten)
    (htwo : ∀ l ∈ (L.map Prod.snd).flatten, ((L.map Prod.snd).flatten ++ out).count l = 2)
    (r : NDArray R) (hr : ∀ e : Nat → Nat, (∀ l ∈ out, e l < sz (sp l)) →
      r.get (out.map e) = einValue (fun l => sz (sp l)) (L.map Prod.swap) out e)
    (e : Nat → Nat) (he : ∀ l ∈ out, e l < sz (sp l)) :
    einValue (fun l => sz (sp l)) ((L.map fun x => (rotated sz C (x.2.map sp) x.1, x.2)).map Prod.swap) out e =
      rotSum sz C (out.map sp) (out.map e) r.get := by
  obtain ⟨lab, Q, hL, hnd, hge⟩ := exists_positions L 52
  obtain ⟨P, hPdef⟩ : ∃ P, P = (Q.map Prod.fst).flatten := ⟨_, rfl⟩
  rw [← hPdef] at hnd hge
  have hflat : (L.map Prod.snd).flatten = P.map lab := by
    rw [hL, hPdef, List.map_map, List.map_flatten, List.map_map]
    rfl
  obtain ⟨D, hDdef⟩ : ∃ D, D = einDummies (L.map Prod.snd) out := ⟨_, rfl⟩
  have hDn : D.Nodup := hDdef ▸ nodup_einDummies _ _
  have hDmem : ∀ l, l ∈ D ↔ l ∈ P.map lab ∧ l ∉ out := by
    intro l
    rw [hDdef, mem_einDummies, ← hflat, List.mem_flatten]
  have hlab52 : ∀ p ∈ P, lab p < 52 := by
    intro p hp
    have : lab p ∈ (L.map Prod.snd).flatten := by rw [hflat]; exact List.mem_map_of_mem hp
    obtain ⟨l, hl, hpl⟩ := List.mem_flatten.1 this
    obtain ⟨x, hx, rfl⟩ := List.mem_map.1 hl
    exact hlt x hx _ hpl
  obtain ⟨N, hN⟩ : ∃ N : Nat → Nat, N = fun r => if r < 52 then sz (sp r) else sz (sp (lab r)) := ⟨_, rfl⟩
  have hNl : ∀ l ∈ P.map lab, N l = sz (sp l) := by
    intro l hl
    obtain ⟨p, hp, rfl⟩ := List.mem_map.1 hl
    rw [hN]; simp [hlab52 p hp]
  have hNp : ∀ p ∈ P, N p = sz (sp (lab p)) := by
    intro p hp
    have := hge p hp
    rw [hN]; simp only; rw [if_neg (by omega)]
  have hlabP : ∀ p ∈ P, lab p ∉ P := fun p hp h => by
    have := hge _ h
    have := hlab52 p hp
    omega
  have hDP : ∀ d ∈ D, d ∉ P := by
    intro d hd h
    obtain ⟨p, hp, rfl⟩ := List.mem_map.1 ((hDmem d).1 hd).1
    exact hlabP p hp h
  rw [hflat] at htwo hsub
  have hcount : ∀ l ∈ P.map lab, (P.map lab).count l = if l ∈ out then 1 else 2 := by
    intro l hl
    have h := htwo l hl
    rw [List.count_append] at h
    by_cases ho : l ∈ out
    · rw [List.count_eq_one_of_mem hno ho] at h
      rw [if_pos ho]; omega
    · rw [List.count_eq_zero_of_not_mem ho] at h
      rw [if_neg ho]; omega
  -- the contraction of the rotated arrays
  have hleft : einValue (fun l => sz (sp l))
      ((L.map fun x => (rotated sz C (x.2.map sp) x.1, x.2)).map Prod.swap) out e =
      rotTot N (fun l => C (sp l)) lab D P (einProd Q) e := by
    unfold einValue rotTot
    have e1 : einDummies (((L.map fun x => (rotated sz C (x.2.map sp) x.1, x.2)).map Prod.swap).map Prod.fst) out
        = D := by
      rw [hDdef, List.map_map, List.map_map]
      rfl
    rw [e1, einSum_append, einSum_sz_congr (sz' := N) D fun d hd => (hNl d ((hDmem d).1 hd).1).symm]
    apply einSum_congr
    intro e' h1 h2
    have hin : ∀ l ∈ P.map lab, e' l < sz (sp l) := by
      intro l hl
      by_cases hD : l ∈ D
      · rw [← hNl l hl]; exact h2 l hD
      · have ho : l ∈ out := by
          by_contra ho
          exact hD ((hDmem l).2 ⟨hl, ho⟩)
        rw [h1 l hD]; exact he l ho
    have e2 : einProd ((L.map fun x => (rotated sz C (x.2.map sp) x.1, x.2)).map Prod.swap) e' =
        (Q.map fun o => rotSum sz C (o.1.map fun p => sp (lab p)) (o.1.map fun p => e' (lab p)) o.2.get).prod := by
      unfold einProd
      rw [hL, List.map_map, List.map_map, List.map_map]
      congr 1
      apply List.map_congr_left
      intro o ho
      simp only [Function.comp, Prod.swap]
      unfold rotated
      rw [NDArray.get_ofFn]
      · simp only [List.map_map]; rfl
      · unfold InBox
        rw [List.map_map, List.map_map, List.map_map, List.forall₂_map_left_iff, List.forall₂_map_right_iff]
        rw [List.forall₂_same]
        intro p hp
        exact hin _ (List.mem_map_of_mem (hPdef ▸ List.mem_flatten.2 ⟨o.1, List.mem_map_of_mem ho, hp⟩))
    rw [e2, prod_rotSum sz C (fun p => sp (lab p)) (fun p => e' (lab p)) Q (hPdef ▸ hnd) e', ← hPdef]
    rw [einSum_sz_congr (sz' := N) P fun p hp => (hNp p hp).symm]
    apply einSum_congr
    intro x h3 _
    congr 2
    apply List.map_congr_left
    intro p hp
    rw [h3 _ (hlabP p hp)]
  rw [hleft, rotTot_all N _ lab D P (einProd Q) (hPdef ▸ einProd_dependsR Q) hlabP hDP hnd hDn
    (fun p hp => by rw [hNp p hp, hNl _ (List.mem_map_of_mem hp)])
    (fun d hd => by
      have h := (hDmem d).1 hd
      rw [hcount d h.1, if_neg h.2])
    (fun d hd x hx y hy => by
      have h := (hDmem d).1 hd
      rw [hNl d h.1] at hx hy ⊢
      rw [← sum_range_eq_finset]
      exact (hC (sp d) x y hx hy).1) e e]
  -- the positions of the axes of the result
  obtain ⟨Pf, hPf⟩ : ∃ Pf, Pf = P.filter fun p => decide (lab p ∉ D) := ⟨_, rfl⟩
  rw [← hPf]
  have hPfm : ∀ p, p ∈ Pf ↔ p ∈ P ∧ lab p ∈ out := by
    intro p
    rw [hPf, List.mem_filter]
    refine and_congr_right fun hp => ?_
    rw [decide_eq_true_iff, hDmem]
    have := List.mem_map_of_mem (f := lab) hp
    tauto
  have hpermf : out.Perm (Pf.map lab) := by
    rw [List.perm_iff_count]
    intro l
    have e1 : (Pf.map lab).count l = if l ∈ D then 0 else (P.map lab).count l := by
      simp only [List.count, List.countP_map, hPf, List.countP_filter]
      by_cases hl : l ∈ D
      · rw [if_pos hl, List.countP_eq_zero]
        intro p _
        simp only [Function.comp, Bool.and_eq_true, beq_iff_eq, decide_eq_true_iff, not_and, not_not]
        rintro rfl
        exact hl
      · rw [if_neg hl]
        apply List.countP_congr
        intro p _
        simp only [Function.comp, Bool.and_eq_true, beq_iff_eq, decide_eq_true_iff]
        constructor
        · exact fun h => h.1
        · rintro rfl
          exact ⟨rfl, hl⟩
    rw [e1]
    by_cases ho : l ∈ out
    · rw [if_neg fun h => ((hDmem l).1 h).2 ho, hcount l (hsub l ho), if_pos ho, List.count_eq_one_of_mem hno ho]
    · rw [List.count_eq_zero_of_not_mem ho]
      by_cases hl : l ∈ D
      · rw [if_pos hl]
      · rw [if_neg hl, List.count_eq_zero_of_not_mem]
        exact fun h => hl ((hDmem l).2 ⟨h, ho⟩)
  have hf2 : List.Forall₂ (fun l p => l = lab p) (Pf.map lab) Pf := by
    rw [List.forall₂_map_left_iff, List.forall₂_same]
    simp
  obtain ⟨Po, hPo, hPoP⟩ := List.perm_comp_forall₂ hpermf hf2
  have hout : out = Po.map lab := by
    clear hPoP hPfm hf2 hpermf hsub hno he hr hleft hDmem hDdef htwo hcount
    induction hPo with
    | nil => rfl
    | cons h _ ih => rw [List.map_cons, ← h, ← ih]
  have hPon : Po.Nodup := hPoP.nodup_iff.2 (hPf ▸ hnd.filter _)
  have hPom : ∀ p, p ∈ Po ↔ p ∈ P ∧ lab p ∈ out := fun p => by rw [hPoP.mem_iff, hPfm]
  have e3 : rotSum sz C (out.map sp) (out.map e) r.get =
      rotSum sz C (Po.map fun p => sp (lab p)) (Po.map fun p => e (lab p)) r.get := by
    rw [hout, List.map_map, List.map_map]
    rfl
  rw [e3, rotSum_eq sz C _ _ Po hPon r.get e]
  unfold rotTot
  rw [List.nil_append, einSum_perm N hPoP.symm, einSum_sz_congr (sz' := fun p => sz (sp (lab p))) Po
    fun p hp => hNp p ((hPom p).1 hp).1]
  apply einSum_congr
  intro x h1 h2
  have hbox : InBox (out.map fun l => sz (sp l)) (Po.map x) := by
    unfold InBox
    rw [hout, List.map_map, List.forall₂_map_left_iff, List.forall₂_map_right_iff, List.forall₂_same]
    exact fun p hp => h2 p hp
  obtain ⟨y, hy, hyr⟩ := map_of_inBox hno hbox
  have hyx : ∀ p ∈ Po, y (lab p) = x p := by
    have : Po.map (fun p => y (lab p)) = Po.map x := by
      rw [← hy]
      conv_rhs => rw [hout]
      rw [List.map_map]
      rfl
    exact List.map_inj_left.1 this
  congr 1
  · rw [(hPoP.symm.map _).prod_eq]
    congr 1
    apply List.map_congr_left
    intro p hp
    rw [h1 (lab p) fun h => hlabP p ((hPom p).1 hp).1 ((hPom _).1 h).1]
  · beta_reduce
    rw [← hy, hr y hyr]
    unfold einValue
    have e4 : einDummies ((L.map Prod.swap).map Prod.fst) out = D := by
      rw [hDdef, List.map_map]
      rfl
    rw [e4, einSum_sz_congr (sz' := fun l => sz (sp l)) D fun d hd => hNl d ((hDmem d).1 hd).1]
    have hdep : DependsOn (fun y => einProd Q fun r => if lab r ∈ D then y (lab r) else x r) (· ∈ D) := by
      intro z z' hz
      simp only
      congr 1
      funext p
      by_cases hp : lab p ∈ D
      · simp only [hp, if_true]; exact hz _ hp
      · simp only [hp, if_false]
    rw [einSum_depends _ D hdep e y fun i hi => absurd hi.1 hi.2]
    apply einSum_congr
    intro z hz _
    have e5 : einProd (L.map Prod.swap) z = einProd Q fun p => z (lab p) := by
      unfold einProd
      rw [hL, List.map_map, List.map_map]
      congr 1
      apply List.map_congr_left
      intro o _
      simp only [Function.comp, Prod.swap, List.map_map]
      rfl
    rw [e5]
    apply einProd_dependsR
    intro p hp
    rw [← hPdef] at hp
    by_cases hD : lab p ∈ D
    · simp only [hD, if_true]
    · simp only [hD, if_false]
      rw [hz _ hD]
      refine (hyx p ((hPom p).2 ⟨hp, ?_⟩)).symm
      by_contra ho
      exact hD ((hDmem _).2 ⟨List.mem_map_of_mem hp, ho⟩)

end
end Ebcc
