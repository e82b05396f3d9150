import Verif.Spec.Einsum
import Verif.Lemmas.Lists
import Verif.Lemmas.Groups
import Mathlib.Algebra.BigOperators.Ring.List
import Mathlib.Algebra.BigOperators.Ring.Finset
import Mathlib.Data.List.Dedup

namespace Ebcc

section
variable {κ R : Type} [DecidableEq κ]

theorem sum_range_eq_finset {R : Type} [AddCommMonoid R] (n : Nat) (f : Nat → R) :
    ((List.range n).map f).sum = ∑ v ∈ Finset.range n, f v := by
  induction n with
  | zero => simp
  | succ n ih => rw [List.range_succ, List.map_append, List.sum_append, ih, Finset.sum_range_succ]; simp

theorem einSum_cons [AddCommMonoid R] (sz : κ → Nat) (d : κ) (ds : List κ) (F : (κ → Nat) → R)
    (e : κ → Nat) : einSum sz (d :: ds) F e
      = ∑ v ∈ Finset.range (sz d), einSum sz ds F (Function.update e d v) := by
  rw [einSum, sum_range_eq_finset]

theorem einSum_append [AddMonoid R] (sz : κ → Nat) (ds1 ds2 : List κ) (F : (κ → Nat) → R)
    (e : κ → Nat) : einSum sz (ds1 ++ ds2) F e = einSum sz ds1 (einSum sz ds2 F) e := by
  induction ds1 generalizing e with
  | nil => rfl
  | cons d ds1 ih => simp only [List.cons_append, einSum, ih]

theorem einSum_congr [AddMonoid R] (sz : κ → Nat) (ds : List κ) {F G : (κ → Nat) → R} {e : κ → Nat}
    (h : ∀ e', (∀ c, c ∉ ds → e' c = e c) → (∀ c ∈ ds, e' c < sz c) → F e' = G e') :
    einSum sz ds F e = einSum sz ds G e := by
  induction ds generalizing e with
  | nil => exact h e (fun _ _ => rfl) (by simp)
  | cons d ds ih =>
    simp only [einSum]
    congr 1
    apply List.map_congr_left
    intro v hv
    rw [List.mem_range] at hv
    apply ih
    intro e' h1 h2
    apply h
    · intro c hc
      simp only [List.mem_cons, not_or] at hc
      rw [h1 c hc.2, Function.update_of_ne hc.1]
    · intro c hc
      by_cases hcd : c ∈ ds
      · exact h2 c hcd
      · rcases List.mem_cons.1 hc with rfl | hc
        · rw [h1 c hcd, Function.update_self]; exact hv
        · exact absurd hc hcd

theorem einSum_perm [AddCommMonoid R] (sz : κ → Nat) {ds ds' : List κ} (hp : ds.Perm ds')
    (F : (κ → Nat) → R) (e : κ → Nat) : einSum sz ds F e = einSum sz ds' F e := by
  induction hp generalizing e with
  | nil => rfl
  | cons d _ ih => simp only [einSum, ih]
  | swap a b l =>
    by_cases hab : a = b
    · subst hab; rfl
    · simp only [einSum_cons]
      rw [Finset.sum_comm]
      apply Finset.sum_congr rfl
      intro v hv
      apply Finset.sum_congr rfl
      intro w hw
      rw [Function.update_comm hab]
  | trans _ _ ih1 ih2 => rw [ih1, ih2]

/-- A sum over flat positions is a sum over assignments. -/
theorem sum_flat [AddCommMonoid R] (sz : κ → Nat) (ds : List κ) (hnd : ds.Nodup) (G : Nat → R)
    (F : (κ → Nat) → R) (e : κ → Nat)
    (h : ∀ e', (∀ c, c ∉ ds → e' c = e c) → (∀ c ∈ ds, e' c < sz c) →
      G (ravelIdx (ds.map sz) (ds.map e')) = F e') :
    ((List.range (prodN (ds.map sz))).map G).sum = einSum sz ds F e := by
  induction ds generalizing e G with
  | nil => simpa [prodN, einSum, ravelIdx] using h e (fun _ _ => rfl) (by simp)
  | cons d ds ih =>
    rw [List.nodup_cons] at hnd
    have hsplit : ∀ n P : Nat, ((List.range (n * P)).map G).sum
        = ((List.range n).map fun v => ((List.range P).map fun l => G (v * P + l)).sum).sum := by
      intro n P
      induction n with
      | zero => simp
      | succ n ihn =>
        rw [Nat.succ_mul, List.range_add, List.map_append, List.sum_append, ihn, List.range_succ,
          List.map_append, List.sum_append, List.map_map]
        simp [Function.comp_def]
    simp only [List.map_cons, prodN, einSum]
    rw [hsplit]
    congr 1
    apply List.map_congr_left
    intro v hv
    rw [List.mem_range] at hv
    apply ih hnd.2
    intro e' h1 h2
    have hd : e' d = v := by rw [h1 d hnd.1, Function.update_self]
    rw [← h e']
    · simp only [List.map_cons, ravelIdx, hd]
    · intro c hc
      simp only [List.mem_cons, not_or] at hc
      rw [h1 c hc.2, Function.update_of_ne hc.1]
    · intro c hc
      rcases List.mem_cons.1 hc with rfl | hc
      · rw [hd]; exact hv
      · exact h2 c hc

theorem einSum_mul_left [CommSemiring R] (sz : κ → Nat) (ds : List κ) (A F : (κ → Nat) → R)
    (e : κ → Nat) (hA : ∀ e', (∀ c, c ∉ ds → e' c = e c) → A e' = A e) :
    einSum sz ds (fun e' => A e' * F e') e = A e * einSum sz ds F e := by
  rw [einSum_congr (G := fun e' => A e * F e') sz ds fun e' h1 _ => by rw [hA e' h1]]
  clear hA
  generalize A e = x
  induction ds generalizing e with
  | nil => rfl
  | cons d ds ih =>
    simp only [einSum_cons, ih]
    rw [Finset.mul_sum]

theorem einSum_add [AddCommMonoid R] (sz : κ → Nat) (ds : List κ) (F G : (κ → Nat) → R)
    (e : κ → Nat) : einSum sz ds (fun e' => F e' + G e') e = einSum sz ds F e + einSum sz ds G e := by
  induction ds generalizing e with
  | nil => rfl
  | cons d ds ih =>
    simp only [einSum_cons, ih]
    rw [Finset.sum_add_distrib]

omit [DecidableEq κ] in
theorem einProd_congr [CommSemiring R] {inputs : List (List κ × NDArray R)} {e e' : κ → Nat}
    (h : ∀ x ∈ inputs, ∀ c ∈ x.1, e c = e' c) : einProd inputs e = einProd inputs e' := by
  unfold einProd
  congr 1
  apply List.map_congr_left
  intro x hx
  congr 1
  apply List.map_congr_left
  intro c hc
  exact h x hx c hc

theorem mem_einDummies {inps : List (List κ)} {outs : List κ} {c : κ} :
    c ∈ einDummies inps outs ↔ (∃ s ∈ inps, c ∈ s) ∧ c ∉ outs := by
  simp [einDummies]

theorem nodup_einDummies (inps : List (List κ)) (outs : List κ) : (einDummies inps outs).Nodup :=
  (List.nodup_dedup _).filter _

/-- The Einstein sum depends on the assignment of the output symbols only. -/
theorem einValue_congr [CommSemiring R] (sz : κ → Nat) {inputs : List (List κ × NDArray R)}
    {outs : List κ} {e e' : κ → Nat} (h : ∀ c ∈ outs, e c = e' c) :
    einValue sz inputs outs e = einValue sz inputs outs e' := by
  unfold einValue
  have main : ∀ (ds : List κ) (e e' : κ → Nat),
      (∀ c, (∃ x ∈ inputs, c ∈ x.1) → c ∉ ds → e c = e' c) →
      einSum sz ds (einProd inputs) e = einSum sz ds (einProd inputs) e' := by
    intro ds
    induction ds with
    | nil =>
      intro e e' h
      exact einProd_congr fun x hx c hc => h c ⟨x, hx, hc⟩ (by simp)
    | cons d ds ih =>
      intro e e' h
      simp only [einSum]
      congr 1
      apply List.map_congr_left
      intro v _
      apply ih
      intro c hc hcd
      by_cases hd : c = d
      · subst hd; simp
      · rw [Function.update_of_ne hd, Function.update_of_ne hd]
        exact h c hc (by simp [hd, hcd])
  apply main
  rintro c ⟨x, hx, hc⟩ hcd
  rw [mem_einDummies] at hcd
  by_contra hne
  exact hcd ⟨⟨x.1, List.mem_map_of_mem hx, hc⟩, fun ho => hne (h c ho)⟩

omit [DecidableEq κ] in
theorem inBox_map (sz e : κ → Nat) (l : List κ) (h : ∀ c ∈ l, e c < sz c) :
    InBox (l.map sz) (l.map e) := by
  induction l with
  | nil => exact .nil
  | cons c l ih => exact .cons (h c (by simp)) (ih fun c hc => h c (by simp [hc]))

theorem map_of_inBox {sz : κ → Nat} {l : List κ} (hnd : l.Nodup) {idx : List Nat}
    (h : InBox (l.map sz) idx) : ∃ e : κ → Nat, l.map e = idx ∧ ∀ c ∈ l, e c < sz c := by
  induction l generalizing idx with
  | nil => cases h; exact ⟨fun _ => 0, rfl, by simp⟩
  | cons c l ih =>
    rw [List.nodup_cons] at hnd
    cases h with
    | cons h1 h2 =>
      obtain ⟨e, he, hb⟩ := ih hnd.2 h2
      rename_i i idx'
      refine ⟨Function.update e c i, ?_, ?_⟩
      · simp only [List.map_cons, Function.update_self]
        rw [← he]
        congr 1
        apply List.map_congr_left
        intro x hx
        rw [Function.update_of_ne]
        rintro rfl; exact hnd.1 hx
      · intro x hx
        by_cases hxc : x = c
        · subst hxc; rw [Function.update_self]; exact h1
        · rw [Function.update_of_ne hxc]
          exact hb x (by simpa [hxc] using hx)

/-- Transposing a labelled array to a rearrangement of its labels. -/
theorem transpose_labels [Zero R] (a : NDArray R) (s t : List κ) (sz : κ → Nat) (hs : a.shape = s.map sz)
    (hnd : s.Nodup) (hp : t.Perm s) :
    ∃ r, a.transpose (t.map s.idxOf) = .ok r ∧ r.shape = t.map sz ∧ r.WF ∧
      ∀ e : κ → Nat, (∀ c ∈ s, e c < sz c) → r.get (t.map e) = a.get (s.map e) := by
  have hperm : (t.map s.idxOf).Perm (List.range a.shape.length) := by
    have h1 := hp.map s.idxOf
    have h2 : s.map s.idxOf = List.range a.shape.length := by
      rw [hs, List.length_map]
      apply List.ext_getElem
      · simp
      · intro k k1 k2
        have k3 : k < s.length := by simpa using k1
        simp [hnd.idxOf_getElem k k3]
    rw [h2] at h1
    exact h1
  have hshape : ((t.map s.idxOf).map fun p => a.shape.getD p 0) = t.map sz := by
    rw [List.map_map]
    apply List.map_congr_left
    intro c hc
    have hcs := hp.mem_iff.1 hc
    have hlt := List.idxOf_lt_length_of_mem hcs
    simp only [Function.comp]
    rw [hs, getD_eq _ _ _ (by simpa using hlt)]
    simp
  refine ⟨_, transpose_ok a _ hperm, hshape, NDArray.ofFn_wf _ _, ?_⟩
  intro e he
  rw [hshape, NDArray.get_ofFn]
  · congr 1
    unfold unpermute
    have hl : (t.map s.idxOf).length = s.length := by rw [List.length_map, hp.length_eq]
    rw [hl]
    apply List.ext_getElem
    · simp
    · intro k k1 k2
      have k3 : k < s.length := by simpa using k1
      have htn : t.Nodup := hp.nodup_iff.2 hnd
      have hm : s[k] ∈ t := hp.mem_iff.2 (List.getElem_mem k3)
      have hidx : (t.map s.idxOf).idxOf k = t.idxOf s[k] := by
        have hlt := List.idxOf_lt_length_of_mem hm
        have hnd' : (t.map s.idxOf).Nodup := hperm.nodup_iff.2 List.nodup_range
        have hlt' : t.idxOf s[k] < (t.map s.idxOf).length := by simpa using hlt
        have e1 := hnd'.idxOf_getElem _ hlt'
        have e2 : (t.map s.idxOf)[t.idxOf s[k]] = k := by
          rw [List.getElem_map, List.getElem_idxOf, hnd.idxOf_getElem k k3]
        rw [e2] at e1
        exact e1
      have hlt := List.idxOf_lt_length_of_mem hm
      simp only [List.getElem_map, List.getElem_range, hidx]
      rw [getD_eq _ _ _ (by simpa using hlt), List.getElem_map, List.getElem_idxOf]
  · exact inBox_map sz e t fun c hc => he c (hp.mem_iff.1 hc)

end
end Ebcc
