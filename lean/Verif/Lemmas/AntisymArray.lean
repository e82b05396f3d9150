import Verif.Lemmas.PermSum

namespace Ebcc

theorem swapNat_comm (i j p : Nat) : swapNat i j p = swapNat j i p := by
  unfold swapNat
  repeat' split
  all_goals omega

theorem swapIdx_comm (i j : Nat) (l : List Nat) : swapIdx i j l = swapIdx j i l := by
  unfold swapIdx
  apply List.map_congr_left
  intro p _
  rw [swapNat_comm]

theorem swapIdx_split {u v : Nat} {l : List Nat} (huv : u < v) (hv : v < l.length) :
    ∃ A B C : List Nat, l = A ++ l.getD u 0 :: (B ++ l.getD v 0 :: C) ∧
      swapIdx u v l = A ++ l.getD v 0 :: (B ++ l.getD u 0 :: C) := by
  obtain ⟨A, B, C, e, hA, hB, hC⟩ := split_range u v l.length huv hv
  have e1 : swapNat u v u = v := by simp [swapNat]
  have e2 : swapNat u v v = u := by
    unfold swapNat; split
    · omega
    · simp
  have key : ∀ L : List Nat, (∀ p ∈ L, p ≠ u ∧ p ≠ v) →
      (L.map fun p => l.getD (swapNat u v p) 0) = L.map fun p => l.getD p 0 := by
    intro L h1
    apply List.map_congr_left
    intro p hp
    rw [swapNat, if_neg (h1 p hp).1, if_neg (h1 p hp).2]
  refine ⟨A.map fun p => l.getD p 0, B.map fun p => l.getD p 0, C.map fun p => l.getD p 0, ?_, ?_⟩
  · conv_lhs => rw [← range_map_getD l, e]
    simp
  · unfold swapIdx
    rw [e]
    simp only [List.map_append, List.map_cons]
    rw [key A hA, key B hB, key C hC, e1, e2]

/-- Exchanging two items flips the sign of an arrangement. -/
theorem arrangementSign_swap {axes perm : List Nat} (hp : perm.Perm axes)
    (hnd : axes.Nodup) {u v : Nat} (huv : u ≠ v) (hu : u < perm.length) (hv : v < perm.length) :
    arrangementSign axes (swapIdx u v perm) = -arrangementSign axes perm := by
  have main : ∀ u v, u < v → u < perm.length → v < perm.length →
      arrangementSign axes (swapIdx u v perm) = -arrangementSign axes perm := by
    intro u v huv hu hv
    obtain ⟨A, B, C, e1, e2⟩ := swapIdx_split huv hv
    have hnd' : (A ++ perm.getD u 0 :: (B ++ perm.getD v 0 :: C)).Nodup := by
      rw [← e1]; exact hp.nodup_iff.2 hnd
    have hmem : ∀ x ∈ A ++ perm.getD u 0 :: (B ++ perm.getD v 0 :: C), x ∈ axes := by
      intro x hx; rw [← e1] at hx; exact hp.mem_iff.1 hx
    unfold arrangementSign
    rw [e2]
    conv_rhs => rw [e1]
    generalize perm.getD u 0 = x at *
    generalize perm.getD v 0 = y at *
    simp only [List.map_append, List.map_cons]
    rw [List.nodup_append, List.nodup_cons, List.nodup_append, List.nodup_cons] at hnd'
    simp only [List.mem_append, List.mem_cons, not_or] at hnd'
    have inj : ∀ a ∈ axes, ∀ b ∈ axes, axes.idxOf a = axes.idxOf b → a = b :=
      fun a ha b _ h => (List.idxOf_inj ha).1 h
    have hxm := hmem x (by simp)
    have hym := hmem y (by simp)
    apply signOfParity_neg
    apply inversions_swap
    · intro e; exact hnd'.2.1.1.2.1 (inj _ hxm _ hym e)
    · intro hm
      rw [List.mem_map] at hm
      obtain ⟨z, hz, e⟩ := hm
      exact hnd'.2.1.1.1 ((inj z (hmem z (by simp [hz])) x hxm e) ▸ hz)
    · intro hm
      rw [List.mem_map] at hm
      obtain ⟨z, hz, e⟩ := hm
      exact hnd'.2.1.2.2.2 z hz y (Or.inl rfl) (inj z (hmem z (by simp [hz])) y hym e)
  rcases Nat.lt_or_gt_of_ne huv with h | h
  · exact main u v h hu hv
  · rw [swapIdx_comm]; exact main v u h hv hu

theorem mem_pws_iff {axes : List Nat} (hnd : axes.Nodup) {ps : List Nat × Int} :
    ps ∈ permutationsWithSigns axes ↔ ps.1.Perm axes ∧ ps.2 = arrangementSign axes ps.1 := by
  constructor
  · intro h
    exact ⟨(C01_complete _ _).1 (List.mem_map_of_mem (f := Prod.fst) h), C01_sign _ hnd _ _ h⟩
  · rintro ⟨h1, h2⟩
    have := (C01_complete axes ps.1).2 h1
    rw [List.mem_map] at this
    obtain ⟨⟨q, s⟩, hq, e⟩ := this
    have hs := C01_sign _ hnd _ _ hq
    obtain ⟨p, t⟩ := ps
    simp only at e h2
    subst e
    rw [h2, ← hs]; exact hq

theorem embedPerm_getD_mem {n : Nat} {axes perm : List Nat} {p : Nat} (hp : p < n) (hm : p ∈ axes) :
    (embedPerm n axes perm).getD p 0 = perm.getD (axes.idxOf p) 0 := by
  simp [embedPerm, hp, hm]

theorem embedPerm_getD_not_mem {n : Nat} {axes perm : List Nat} {p : Nat} (hp : p < n)
    (hm : p ∉ axes) : (embedPerm n axes perm).getD p 0 = p := by
  simp [embedPerm, hp, hm]

theorem embedPerm_mem {axes perm : List Nat} (hp : perm.Perm axes) {p : Nat} (hm : p ∈ axes) :
    perm.getD (axes.idxOf p) 0 ∈ axes := by
  have hk : axes.idxOf p < perm.length := by rw [hp.length_eq]; exact List.idxOf_lt_length_of_mem hm
  rw [getD_eq _ _ _ hk]
  exact hp.mem_iff.1 (List.getElem_mem hk)

theorem embedPerm_perm {n : Nat} {axes perm : List Nat} (hnd : axes.Nodup) (hlt : ∀ x ∈ axes, x < n)
    (hp : perm.Perm axes) : (embedPerm n axes perm).Perm (List.range n) := by
  have hpn : perm.Nodup := hp.nodup_iff.2 hnd
  have hinj : ∀ p ∈ axes, ∀ q ∈ axes, perm.getD (axes.idxOf p) 0 = perm.getD (axes.idxOf q) 0 →
      p = q := by
    intro p hpm q hqm e
    have k1 : axes.idxOf p < perm.length := by
      rw [hp.length_eq]; exact List.idxOf_lt_length_of_mem hpm
    have k2 : axes.idxOf q < perm.length := by
      rw [hp.length_eq]; exact List.idxOf_lt_length_of_mem hqm
    rw [getD_eq _ _ _ k1, getD_eq _ _ _ k2] at e
    exact (List.idxOf_inj hpm).1 ((List.Nodup.getElem_inj_iff hpn).1 e)
  have h1 : (embedPerm n axes perm).Nodup := by
    unfold embedPerm
    apply List.Nodup.map_on _ List.nodup_range
    intro p _ q _ e
    split at e <;> split at e
    · exact hinj p ‹_› q ‹_› e
    · rename_i h1 h2
      exact absurd (e ▸ embedPerm_mem hp h1) h2
    · rename_i h1 h2
      exact absurd (e ▸ embedPerm_mem hp h2) h1
    · exact e
  have h2 : embedPerm n axes perm ⊆ List.range n := by
    intro x hx
    simp only [embedPerm, List.mem_map, List.mem_range] at hx
    obtain ⟨p, hpn', rfl⟩ := hx
    rw [List.mem_range]
    split
    · exact hlt _ (embedPerm_mem hp ‹_›)
    · exact hpn'
  exact List.Subperm.perm_of_length_le (List.subperm_of_subset h1 h2) (by simp [embedPerm])

theorem embedPerm_swap {n i j : Nat} {axes perm : List Nat}
    (hlen : perm.length = axes.length) (hlt : ∀ x ∈ axes, x < n) (hi : i ∈ axes) (hj : j ∈ axes)
    (hnd : axes.Nodup) :
    embedPerm n axes (swapIdx (axes.idxOf i) (axes.idxOf j) perm)
      = swapIdx i j (embedPerm n axes perm) := by
  have hl : (embedPerm n axes perm).length = n := by simp [embedPerm]
  apply List.ext_getElem
  · rw [swapIdx_length, hl]; simp [embedPerm]
  · intro p p1 p2
    have hp : p < n := by simpa [embedPerm] using p1
    have hk : ∀ x ∈ axes, axes.idxOf x < axes.length := fun x hx => List.idxOf_lt_length_of_mem hx
    rw [← getD_eq _ _ 0 p1, ← getD_eq _ _ 0 p2, swapIdx_getD _ _ _ _ (by omega)]
    by_cases hm : p ∈ axes
    · rw [embedPerm_getD_mem hp hm, swapIdx_getD _ _ _ _ (by rw [hlen]; exact hk p hm)]
      have hsm : swapNat i j p ∈ axes := by
        unfold swapNat; split
        · exact hj
        · split
          · exact hi
          · exact hm
      rw [embedPerm_getD_mem (hlt _ hsm) hsm]
      congr 1
      unfold swapNat
      by_cases e1 : p = i
      · subst e1; simp
      · by_cases e2 : p = j
        · subst e2
          rw [if_neg e1, if_pos rfl, if_neg (fun e => e1 ((List.idxOf_inj hm).1 e)), if_pos rfl]
        · rw [if_neg e1, if_neg e2, if_neg (fun e => e1 ((List.idxOf_inj hm).1 e)),
            if_neg (fun e => e2 ((List.idxOf_inj hm).1 e))]
    · have hs : swapNat i j p = p := by
        rw [swapNat, if_neg (fun (e : p = i) => hm (e ▸ hi)), if_neg (fun (e : p = j) => hm (e ▸ hj))]
      rw [embedPerm_getD_not_mem hp hm, hs, embedPerm_getD_not_mem hp hm]

/-- Terms of `antisymmetrise_array`. -/
def asTerms (n : Nat) (axes : List Nat) : List (List Nat × Int) :=
  (permutationsWithSigns axes).map fun ps => (embedPerm n axes ps.1, ps.2)

section
variable {n : Nat} {axes : List Nat} (hnd : axes.Nodup) (hlt : ∀ x ∈ axes, x < n)
include hnd hlt

theorem embedPerm_inj {p q : List Nat} (hp : p.Perm axes) (hq : q.Perm axes)
    (e : embedPerm n axes p = embedPerm n axes q) : p = q := by
  apply List.ext_getElem
  · rw [hp.length_eq, hq.length_eq]
  · intro k k1 k2
    have k3 : k < axes.length := by rw [← hp.length_eq]; exact k1
    have := congrArg (fun l => l.getD axes[k] 0) e
    rw [embedPerm_getD_mem (hlt _ (List.getElem_mem k3)) (List.getElem_mem k3),
      embedPerm_getD_mem (hlt _ (List.getElem_mem k3)) (List.getElem_mem k3),
      hnd.idxOf_getElem k k3, getD_eq _ _ _ k1, getD_eq _ _ _ k2] at this
    exact this

theorem nodup_asTerms : (asTerms n axes).Nodup := by
  unfold asTerms
  apply List.Nodup.map_on
  · intro x hx y hy e
    simp only [Prod.mk.injEq] at e
    exact Prod.ext (embedPerm_inj hnd hlt ((mem_pws_iff hnd).1 hx).1 ((mem_pws_iff hnd).1 hy).1 e.1)
      e.2
  · exact List.Nodup.of_map _ (C01_nodup _ hnd)

theorem perm_asTerms {ps : List Nat × Int} (h : ps ∈ asTerms n axes) : ps.1.Perm (List.range n) := by
  unfold asTerms at h
  rw [List.mem_map] at h
  obtain ⟨q, hq, rfl⟩ := h
  exact embedPerm_perm hnd hlt ((mem_pws_iff hnd).1 hq).1

theorem asTerms_swap {i j : Nat} (hi : i ∈ axes) (hj : j ∈ axes) (hij : i ≠ j)
    {ps : List Nat × Int} (h : ps ∈ asTerms n axes) :
    (swapIdx i j ps.1, -1 * ps.2) ∈ asTerms n axes := by
  unfold asTerms at h ⊢
  rw [List.mem_map] at h ⊢
  obtain ⟨q, hq, rfl⟩ := h
  obtain ⟨h1, h2⟩ := (mem_pws_iff hnd).1 hq
  have hu : axes.idxOf i < q.1.length := by rw [h1.length_eq]; exact List.idxOf_lt_length_of_mem hi
  have hv : axes.idxOf j < q.1.length := by rw [h1.length_eq]; exact List.idxOf_lt_length_of_mem hj
  have huv : axes.idxOf i ≠ axes.idxOf j := fun e => hij ((List.idxOf_inj hi).1 e)
  refine ⟨(swapIdx (axes.idxOf i) (axes.idxOf j) q.1, -q.2), (mem_pws_iff hnd).2 ⟨?_, ?_⟩, ?_⟩
  · exact (swapIdx_perm hu hv).trans h1
  · simp only
    rw [arrangementSign_swap h1 hnd huv hu hv, h2]
  · simp only
    rw [embedPerm_swap h1.length_eq hlt hi hj hnd]
    simp

theorem asTerms_red {ps : List Nat × Int} (h : ps ∈ asTerms n axes) : ps = (List.range n, 1) ∨
    ∃ i j, (i < j ∧ i ∈ axes ∧ j ∈ axes) ∧ ps.1.getD j 0 < ps.1.getD i 0 := by
  by_cases hd : ∃ i j, (i < j ∧ i ∈ axes ∧ j ∈ axes) ∧ ps.1.getD j 0 < ps.1.getD i 0
  · exact Or.inr hd
  · left
    push Not at hd
    have hP := perm_asTerms hnd hlt h
    unfold asTerms at h
    rw [List.mem_map] at h
    obtain ⟨q, hq, rfl⟩ := h
    obtain ⟨h1, h2⟩ := (mem_pws_iff hnd).1 hq
    simp only at hd hP
    -- the listed axes in increasing order
    have hS : ((List.range n).filter fun p => decide (p ∈ axes)).Pairwise (· < ·) :=
      List.pairwise_lt_range.filter _
    have hmemS : ∀ p, p ∈ (List.range n).filter (fun p => decide (p ∈ axes)) ↔ p ∈ axes := by
      intro p; simp only [List.mem_filter, List.mem_range, decide_eq_true_eq]
      exact ⟨fun h => h.2, fun h => ⟨hlt p h, h⟩⟩
    generalize hSdef : (List.range n).filter (fun p => decide (p ∈ axes)) = S at hS hmemS
    have hsorted : (S.map fun p => (embedPerm n axes q.1).getD p 0).Pairwise (· ≤ ·) := by
      rw [List.pairwise_map]
      apply (List.Pairwise.and_mem.1 hS).imp
      rintro a b ⟨ha, hb, hab⟩
      exact hd a b ⟨hab, (hmemS a).1 ha, (hmemS b).1 hb⟩
    have hperm : (S.map fun p => (embedPerm n axes q.1).getD p 0).Perm S := by
      have hn1 : (S.map fun p => (embedPerm n axes q.1).getD p 0).Nodup := by
        apply List.Nodup.map_on _ (hS.imp Nat.ne_of_lt)
        intro a ha b hb e
        have a1 := hlt a ((hmemS a).1 ha)
        have b1 := hlt b ((hmemS b).1 hb)
        have hl : (embedPerm n axes q.1).length = n := by simp [embedPerm]
        rw [getD_eq _ _ _ (by omega), getD_eq _ _ _ (by omega)] at e
        exact (List.Nodup.getElem_inj_iff (hP.nodup_iff.2 List.nodup_range)).1 e
      have hsub : (S.map fun p => (embedPerm n axes q.1).getD p 0) ⊆ S := by
        intro x hx
        rw [List.mem_map] at hx
        obtain ⟨p, hp, rfl⟩ := hx
        have hpa := (hmemS p).1 hp
        rw [embedPerm_getD_mem (hlt p hpa) hpa]
        exact (hmemS _).2 (embedPerm_mem h1 hpa)
      exact List.Subperm.perm_of_length_le (List.subperm_of_subset hn1 hsub) (by simp)
    have heq := List.Perm.eq_of_pairwise (fun _ _ _ _ => Nat.le_antisymm) hsorted
      (hS.imp Nat.le_of_lt) hperm
    have hfix : ∀ p ∈ axes, (embedPerm n axes q.1).getD p 0 = p := by
      intro p hp
      have hp' := (hmemS p).2 hp
      obtain ⟨k, hk, e⟩ := List.getElem_of_mem hp'
      have := congrArg (fun l => l[k]?) heq
      simp only [List.getElem?_map, List.getElem?_eq_getElem hk, Option.map_some, e,
        Option.some.injEq] at this
      exact this
    have hqa : q.1 = axes := by
      apply List.ext_getElem
      · exact h1.length_eq
      · intro k k1 k2
        have := hfix axes[k] (List.getElem_mem k2)
        rw [embedPerm_getD_mem (hlt _ (List.getElem_mem k2)) (List.getElem_mem k2),
          hnd.idxOf_getElem k k2, getD_eq _ _ _ k1] at this
        exact this
    have hid : embedPerm n axes axes = List.range n := by
      unfold embedPerm
      conv_rhs => rw [← List.map_id (List.range n)]
      apply List.map_congr_left
      intro p _
      split
      · rename_i hm
        rw [getD_eq _ _ _ (List.idxOf_lt_length_of_mem hm), List.getElem_idxOf]; rfl
      · rfl
    have hs : arrangementSign axes axes = 1 := by
      unfold arrangementSign
      have : axes.map (fun a => axes.idxOf a) = List.range axes.length := by
        apply List.ext_getElem
        · simp
        · intro k k1 k2
          have k3 : k < axes.length := by simpa using k2
          simp [hnd.idxOf_getElem k k3]
      rw [this, inversions_eq_zero_of_sorted _ (List.pairwise_lt_range.imp Nat.le_of_lt)]
      rfl
    rw [h2, hqa, hid, hs]

end

/-- Closed form of `antisymmetrise_array`. -/
theorem antisymmetriseArray_ok {R : Type} [Ring R] (v : NDArray R) (axes : List Nat)
    (hnd : axes.Nodup) (hlt : ∀ x ∈ axes, x < v.shape.length)
    (hs : ∀ x ∈ axes, ∀ y ∈ axes, v.shape.getD x 0 = v.shape.getD y 0) :
    antisymmetriseArray v (some axes)
      = .ok (NDArray.ofFn v.shape (permSum (asTerms v.shape.length axes) v)) := by
  unfold antisymmetriseArray
  simp only [Option.getD_some]
  rw [zeros_eq_ofFn, foldlM_perms v _ (fun ps => embedPerm v.shape.length axes ps.1) (fun ps => ps.2)]
  · simp only [zero_add]
    rfl
  · intro t _ acc; rfl
  · intro t ht
    exact embedPerm_perm hnd hlt ((mem_pws_iff hnd).1 ht).1
  · intro t ht
    have hp := ((mem_pws_iff hnd).1 ht).1
    apply List.ext_getElem
    · simp [embedPerm]
    · intro p p1 p2
      have hpl : p < (embedPerm v.shape.length axes t.1).length := by simpa using p1
      rw [List.getElem_map, ← getD_eq _ _ 0 hpl, ← getD_eq _ _ 0 p2]
      by_cases hm : p ∈ axes
      · rw [embedPerm_getD_mem p2 hm]
        exact hs _ (embedPerm_mem hp hm) _ hm
      · rw [embedPerm_getD_not_mem p2 hm]

end Ebcc
