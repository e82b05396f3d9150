import Verif.Lemmas.Decompress
import Verif.Spec.Symmetry
import Mathlib.Tactic.Ring
import Mathlib.Tactic.Linarith

namespace Ebcc

section
variable {κ : Type} [DecidableEq κ]

theorem uniqueLoop_eq (done l : List κ) :
    uniqueLoop done l = (firstOccurrences l).filter fun x => decide (x ∉ done) := by
  induction l generalizing done with
  | nil => rfl
  | cons a l ih =>
    simp only [uniqueLoop, firstOccurrences]
    split
    · rename_i h
      rw [ih, List.filter_cons_of_neg (by simpa using h), List.filter_filter]
      apply List.filter_congr
      intro x _
      by_cases hx : x ∈ done
      · simp [hx]
      · have : x ≠ a := fun e => hx (e ▸ h)
        simp [hx, this]
    · rename_i h
      rw [ih, List.filter_cons_of_pos (by simpa using h), List.filter_filter]
      congr 1
      apply List.filter_congr
      intro x _
      by_cases hx : x ∈ done <;> by_cases hxa : x = a <;> simp [hx, hxa]

theorem unique_eq_firstOccurrences (l : List κ) : unique l = firstOccurrences l := by
  rw [unique, uniqueLoop_eq, List.filter_eq_self]; simp

theorem mult_eq_count (sub : List κ) (c : Nat) (hc : c < ngroups sub) :
    mult sub c = sub.count ((unique sub)[c]'hc) := by
  unfold mult canon
  rw [List.count_eq_countP, List.countP_map, List.count_eq_countP]
  apply List.countP_congr
  intro x hx
  simp only [Function.comp, beq_iff_eq]
  constructor
  · intro h
    have hm := mem_unique.2 hx
    have := List.getElem_idxOf (List.idxOf_lt_length_of_mem hm)
    simp only [h] at this
    exact this.symm
  · rintro rfl
    exact (unique_nodup sub).idxOf_getElem c hc

/-! ### the symmetry string -/

theorem symmetryLoop_ok : ∀ (cnts : List Nat) (chars : List Char) (symm : List Char) (n : Nat),
    (∀ c ∈ cnts, c ≠ 0) → cnts.length = chars.length →
    (List.zipWith List.replicate cnts chars).flatten <+: symm.drop n →
    symmetryLoop symm cnts n = .ok chars := by
  intro cnts
  induction cnts with
  | nil => intro chars symm n _ hl _; simp at hl; simp [symmetryLoop, List.length_eq_zero_iff.1 hl.symm]
  | cons cnt cnts ih =>
    intro chars symm n h0 hl hp
    cases chars with
    | nil => simp at hl
    | cons x chars =>
      obtain ⟨post, hpost⟩ := hp
      simp only [List.zipWith_cons_cons, List.flatten_cons, List.append_assoc] at hpost
      have hcnt := h0 cnt (by simp)
      obtain ⟨m, rfl⟩ := Nat.exists_eq_succ_of_ne_zero hcnt
      simp only [symmetryLoop]
      have e1 : (symm.drop n).take (m + 1) = x :: List.replicate m x := by
        rw [← hpost, List.take_append_of_le_length (by simp), List.take_replicate]
        simp [List.replicate_succ]
      have e2 : symm.drop (n + (m + 1)) = (List.zipWith List.replicate cnts chars).flatten ++ post := by
        rw [← List.drop_drop, ← hpost, List.drop_append, List.drop_replicate]
        simp
      simp only [Nat.succ_eq_add_one] at *
      rw [e1]
      simp only
      rw [if_pos (by simp)]
      rw [ih chars symm (n + (m + 1)) (fun c hc => h0 c (by simp [hc])) (by simpa using hl)
        (by rw [e2]; exact List.prefix_append _ _)]
      rfl

theorem symmetryLoop_conv : ∀ (cnts : List Nat) (chars symm : List Char) (n : Nat),
    symmetryLoop symm cnts n = .ok chars → (symm.drop n).length = cnts.sum →
    cnts.length = chars.length ∧ (List.zipWith List.replicate cnts chars).flatten = symm.drop n := by
  intro cnts
  induction cnts with
  | nil =>
    intro chars symm n h hl
    simp only [symmetryLoop, Except.ok.injEq] at h
    subst h
    simp only [List.sum_nil, List.length_eq_zero_iff] at hl
    simp [hl]
  | cons cnt cnts ih =>
    intro chars symm n h hl
    simp only [symmetryLoop] at h
    split at h
    · simp at h
    · rename_i x xs hx
      split at h
      · rename_i hall
        simp only [bind, Except.bind] at h
        split at h
        · simp at h
        · rename_i r hr
          simp only [pure, Except.pure, Except.ok.injEq] at h
          subst h
          rw [List.length_drop, List.sum_cons] at hl
          obtain ⟨h1, h2⟩ := ih r symm (n + cnt) hr (by rw [List.length_drop]; omega)
          refine ⟨by simpa using h1, ?_⟩
          have hlen : (x :: xs).length = cnt := by rw [← hx, List.length_take, List.length_drop]; omega
          have hrep : List.replicate cnt x = x :: xs := by
            symm
            rw [List.eq_replicate_iff]
            refine ⟨hlen, fun b hb => ?_⟩
            rcases List.mem_cons.1 hb with rfl | hb
            · rfl
            · simpa using (List.all_eq_true.1 hall) b hb
          rw [List.zipWith_cons_cons, List.flatten_cons, h2, hrep, ← hx, ← List.drop_drop,
            List.take_append_drop]
      · simp at h

theorem blockString_eq (sub : List κ) (s : κ → Char) :
    blockString sub s = (List.zipWith List.replicate ((List.range (ngroups sub)).map (mult sub))
      ((unique sub).map s)).flatten := by
  unfold blockString
  rw [← unique_eq_firstOccurrences, List.flatMap_def]
  congr 1
  apply List.ext_getElem
  · simp [ngroups]
  · intro i h1 h2
    have hi : i < ngroups sub := by simpa [ngroups] using h1
    simp [mult_eq_count sub i hi]
    rfl

theorem sum_mult (sub : List κ) : ((List.range (ngroups sub)).map (mult sub)).sum = sub.length := by
  rw [← length_groupedAxes sub, groupedAxes, List.length_flatten, List.map_map]
  congr 1
  apply List.map_congr_left
  intro c _; simp [length_posOf]

/-- Strings in block form are accepted. -/
theorem symmetryLoop_block (sub : List κ) (s : κ → Char) :
    symmetryLoop (blockString sub s) ((List.range (ngroups sub)).map (mult sub)) 0
      = .ok ((unique sub).map s) := by
  apply symmetryLoop_ok
  · intro c hc
    simp only [List.mem_map, List.mem_range] at hc
    obtain ⟨c, hc, rfl⟩ := hc
    exact mult_pos sub c hc
  · simp [ngroups]
  · rw [List.drop_zero, blockString_eq]

/-- Only strings in block form are accepted. -/
theorem block_of_symmetryLoop (sub : List κ) (symm chars : List Char) (hl : symm.length = sub.length)
    (h : symmetryLoop symm ((List.range (ngroups sub)).map (mult sub)) 0 = .ok chars) :
    ∃ s, symm = blockString sub s := by
  obtain ⟨h1, h2⟩ := symmetryLoop_conv _ _ _ _ h (by rw [sum_mult]; simpa using hl)
  refine ⟨fun x => chars.getD ((unique sub).idxOf x) '+', ?_⟩
  rw [blockString_eq]
  rw [List.drop_zero] at h2
  rw [← h2]
  congr 2
  apply List.ext_getElem
  · simp [ngroups] at h1 ⊢; omega
  · intro i h3 h4
    have hi : i < (unique sub).length := by simpa using h4
    rw [List.getElem_map, (unique_nodup sub).idxOf_getElem i hi]
    simp [h3]

theorem blockString_const (sub : List κ) (x : Char) :
    blockString sub (fun _ => x) = List.replicate sub.length x := by
  rw [List.eq_replicate_iff]
  constructor
  · rw [blockString_eq, List.length_flatten, ← sum_mult sub]
    congr 1
    apply List.ext_getElem
    · simp [ngroups]
    · intro i h1 h2; simp
  · intro b hb
    simp only [blockString, List.mem_flatMap] at hb
    obtain ⟨c, _, h⟩ := hb
    exact List.eq_of_mem_replicate h

/-! ### exchanging two axes -/

theorem swapIdx_length (i j : Nat) (idx : List Nat) : (swapIdx i j idx).length = idx.length := by
  simp [swapIdx]

theorem swapIdx_getD (i j : Nat) (idx : List Nat) (p : Nat) (hp : p < idx.length) :
    (swapIdx i j idx).getD p 0 = idx.getD (swapNat i j p) 0 := by
  simp [swapIdx, hp]

theorem swapNat_lt {i j p n : Nat} (hi : i < n) (hj : j < n) (hp : p < n) : swapNat i j p < n := by
  unfold swapNat; split
  · exact hj
  · split
    · exact hi
    · exact hp

omit [DecidableEq κ] in
theorem swapIdx_inBox {sub : List κ} {shape : List Nat} (hc : Consistent sub shape) {i j : Nat}
    (hi : i < sub.length) (hj : j < sub.length) (hij : sub[i] = sub[j]) {idx : List Nat}
    (h : InBox shape idx) : InBox shape (swapIdx i j idx) := by
  have hl := h.length_eq
  have hsl := hc.length
  rw [inBox_iff_getD] at h ⊢
  refine ⟨by rw [swapIdx_length]; exact h.1, fun p hp => ?_⟩
  rw [swapIdx_getD _ _ _ _ (by omega)]
  have h1 := h.2 (swapNat i j p) (by rw [hsl] at *; exact swapNat_lt hi hj hp)
  have e : shape.getD (swapNat i j p) 0 = shape.getD p 0 := by
    obtain ⟨sz, rfl⟩ := hc
    unfold swapNat
    split
    · rename_i e; subst e; simp [hi, hj, hij]
    · split
      · rename_i _ e; subst e; simp [hi, hj, hij]
      · rfl
  rw [← e]; exact h1

/-- Sum with weights, decreasing when an ascent is exchanged. -/
def weight (idx : List Nat) : Nat := ((List.range idx.length).map fun p => p * idx.getD p 0).sum

theorem split_range (i j n : Nat) (hij : i < j) (hj : j < n) :
    ∃ A B C, List.range n = A ++ i :: (B ++ j :: C) ∧ (∀ p ∈ A, p ≠ i ∧ p ≠ j) ∧
      (∀ p ∈ B, p ≠ i ∧ p ≠ j) ∧ (∀ p ∈ C, p ≠ i ∧ p ≠ j) := by
  have := List.nodup_range (n := n)
  obtain ⟨A, B', h⟩ := List.append_of_mem (List.mem_range.2 (Nat.lt_trans hij hj))
  have hj' : j ∈ B' := by
    have hm : j ∈ List.range n := List.mem_range.2 hj
    have hs : (List.range n).Pairwise (· < ·) := List.pairwise_lt_range
    rw [h] at hm hs
    rw [List.pairwise_append] at hs
    rcases List.mem_append.1 hm with h1 | h1
    · have := hs.2.2 j h1 i (by simp); omega
    · rcases List.mem_cons.1 h1 with h2 | h2
      · omega
      · exact h2
  obtain ⟨B, C, h2⟩ := List.append_of_mem hj'
  refine ⟨A, B, C, by rw [h, h2], ?_⟩
  rw [h, h2] at this
  simp only [List.nodup_append, List.nodup_cons, List.mem_append, List.mem_cons, not_or] at this
  obtain ⟨_, ⟨⟨h1, h3, h4⟩, h5⟩, h6⟩ := this
  obtain ⟨_, ⟨h7, _⟩, h8⟩ := h5
  refine ⟨fun p hp => ⟨fun e => h6 p hp i (Or.inl rfl) e, fun e => h6 p hp j (Or.inr (Or.inr (Or.inl rfl))) e⟩, fun p hp => ⟨fun e => h1 (e ▸ hp), fun e => h8 p hp j (Or.inl rfl) e⟩, fun p hp => ⟨fun e => h4 (e ▸ hp), fun e => h7 (e ▸ hp)⟩⟩

theorem weight_swap {i j : Nat} {idx : List Nat} (hij : i < j) (hj : j < idx.length)
    (h : idx.getD i 0 < idx.getD j 0) : weight (swapIdx i j idx) < weight idx := by
  unfold weight
  rw [swapIdx_length]
  obtain ⟨A, B, C, e, hA, hB, hC⟩ := split_range i j idx.length hij hj
  have hlt : ∀ p ∈ A ++ i :: (B ++ j :: C), p < idx.length := by
    intro p hp; rw [← e] at hp; simpa using hp
  have key : ∀ L : List Nat, (∀ p ∈ L, p ≠ i ∧ p ≠ j) → (∀ p ∈ L, p < idx.length) →
      (L.map fun p => p * (swapIdx i j idx).getD p 0) = L.map fun p => p * idx.getD p 0 := by
    intro L h1 h2
    apply List.map_congr_left
    intro p hp
    rw [swapIdx_getD _ _ _ _ (h2 p hp), swapNat, if_neg (h1 p hp).1, if_neg (h1 p hp).2]
  rw [e]
  simp only [List.map_append, List.map_cons, List.sum_append, List.sum_cons]
  rw [key A hA (fun p hp => hlt p (by simp [hp])), key B hB (fun p hp => hlt p (by simp [hp])),
    key C hC (fun p hp => hlt p (by simp [hp])), swapIdx_getD _ _ _ _ (by omega),
    swapIdx_getD _ _ _ _ hj]
  have e1 : swapNat i j i = j := by simp [swapNat]
  have e2 : swapNat i j j = i := by
    unfold swapNat; split
    · omega
    · simp
  rw [e1, e2]
  obtain ⟨d, hd⟩ := Nat.exists_eq_add_of_lt h
  obtain ⟨k, hk⟩ := Nat.exists_eq_add_of_lt hij
  rw [hd, hk]
  nlinarith [Nat.zero_le (d*k)]

/-- Index sorted downwards inside each group. -/
def GroupSorted (sub : List κ) (idx : List Nat) : Prop :=
  ∀ i j, i < j → ∀ (hi : i < sub.length) (hj : j < sub.length), sub[i] = sub[j] →
    idx.getD j 0 ≤ idx.getD i 0

omit [DecidableEq κ] in
/-- Arrays with the same exchange behaviour are equal if they agree on sorted indices. -/
theorem eq_of_sorted {R : Type} [Ring R] {sub : List κ} {s : κ → Char} {a b : NDArray R}
    (hc : Consistent sub a.shape) (ha : a.WF) (hb : b.WF) (hs : a.shape = b.shape)
    (hsa : GroupSymmetric sub s a) (hsb : GroupSymmetric sub s b)
    (h : ∀ idx, InBox a.shape idx → GroupSorted sub idx → a.get idx = b.get idx) : a = b := by
  apply NDArray.ext_get ha hb hs
  suffices H : ∀ n idx, weight idx < n → InBox a.shape idx → a.get idx = b.get idx from
    fun idx hidx => H (weight idx + 1) idx (Nat.lt_succ_self _) hidx
  intro n
  induction n with
  | zero => intro idx h; omega
  | succ n ih =>
    intro idx hn hidx
    have hl : idx.length = sub.length := by rw [hidx.length_eq, hc.length]
    by_cases hso : GroupSorted sub idx
    · exact h idx hidx hso
    · unfold GroupSorted at hso
      push Not at hso
      obtain ⟨i, j, hij, hi, hj, e, hlt⟩ := hso
      have hw := weight_swap hij (by omega) hlt
      have hin := swapIdx_inBox hc hi hj e hidx
      have := ih (swapIdx i j idx) (by omega) hin
      have h1 := hsa i j sub[i] hij (by simp [hi]) (by simp [hj, e]) idx hidx
      have h2 := hsb i j sub[i] hij (by simp [hi]) (by simp [hj, e]) idx (hs ▸ hidx)
      rw [this, h2] at h1
      unfold charSign at h1
      split at h1
      · simpa using h1.symm
      · simpa using h1.symm

/-- Group `c` of an index. -/
theorem group_swap_other {sub : List κ} {i j : Nat} {idx : List Nat} (hl : idx.length = sub.length)
    {c : Nat}
    (h : (canon sub).getD i 0 ≠ c) (h' : (canon sub).getD j 0 ≠ c) :
    ((posOf sub c).map fun p => (swapIdx i j idx).getD p 0) = (posOf sub c).map fun p => idx.getD p 0 := by
  apply List.map_congr_left
  intro p hp
  obtain ⟨h1, h2⟩ := mem_posOf.1 hp
  rw [swapIdx_getD _ _ _ _ (by omega), swapNat, if_neg (fun e => h (by rw [← e]; exact h2)),
    if_neg (fun e => h' (by rw [← e]; exact h2))]

theorem group_swap_same {sub : List κ} {i j : Nat} {idx : List Nat} (hl : idx.length = sub.length)
    {c : Nat} (hij : i < j) (hj : j < sub.length)
    (h : (canon sub).getD i 0 = c) (h' : (canon sub).getD j 0 = c) :
    ∃ A B C : List Nat, (posOf sub c).map (fun p => idx.getD p 0)
        = A ++ idx.getD i 0 :: (B ++ idx.getD j 0 :: C) ∧
      (posOf sub c).map (fun p => (swapIdx i j idx).getD p 0)
        = A ++ idx.getD j 0 :: (B ++ idx.getD i 0 :: C) := by
  obtain ⟨A, B, C, e, hA, hB, hC⟩ := split_range i j sub.length hij hj
  have key : ∀ L : List Nat, (∀ p ∈ L, p ≠ i ∧ p ≠ j) → (∀ p ∈ L, p < sub.length) →
      (L.filter fun p => decide ((canon sub).getD p 0 = c)).map (fun p => (swapIdx i j idx).getD p 0)
       = (L.filter fun p => decide ((canon sub).getD p 0 = c)).map fun p => idx.getD p 0 := by
    intro L h1 h2
    apply List.map_congr_left
    intro p hp
    have hp := (List.mem_filter.1 hp).1
    rw [swapIdx_getD _ _ _ _ (by rw [hl]; exact h2 p hp), swapNat, if_neg (h1 p hp).1,
      if_neg (h1 p hp).2]
  have hlt : ∀ p ∈ A ++ i :: (B ++ j :: C), p < sub.length := by
    intro p hp; rw [← e] at hp; simpa using hp
  have e1 : swapNat i j i = j := by simp [swapNat]
  have e2 : swapNat i j j = i := by
    unfold swapNat; split
    · omega
    · simp
  unfold posOf
  rw [e]
  simp only [List.filter_append, List.filter_cons, h, h', decide_true, if_true, List.map_append,
    List.map_cons]
  rw [key A hA (fun p hp => hlt p (by simp [hp])), key B hB (fun p hp => hlt p (by simp [hp])),
    key C hC (fun p hp => hlt p (by simp [hp])), swapIdx_getD _ _ _ _ (by omega),
    swapIdx_getD _ _ _ _ (by omega), e1, e2]
  exact ⟨_, _, _, rfl, rfl⟩

theorem prodZ_update {l : List Nat} (hl : l.Nodup) {c : Nat} (hc : c ∈ l) (f f' : Nat → Int) (ε : Int)
    (h : f' c = ε * f c) (ho : ∀ x ∈ l, x ≠ c → f' x = f x) :
    prodZ (l.map f') = ε * prodZ (l.map f) := by
  induction l with
  | nil => simp at hc
  | cons x l ih =>
    rw [List.nodup_cons] at hl
    simp only [List.map_cons, prodZ]
    by_cases hx : x = c
    · subst hx
      have : l.map f' = l.map f := by
        apply List.map_congr_left
        intro y hy
        exact ho y (by simp [hy]) (fun e => hl.1 (e ▸ hy))
      rw [this, h]; ring
    · rw [ho x (by simp) hx, ih hl.2 (by
        rcases List.mem_cons.1 hc with h | h
        · exact absurd h.symm hx
        · exact h) (fun y hy => ho y (by simp [hy]))]
      ring

theorem groupSign_eq (sub : List κ) (s : κ → Char) (idx : List Nat) :
    groupSign ((unique sub).map s) (groupsOf sub idx) = prodZ ((List.range (ngroups sub)).map fun c =>
      if ((unique sub).map s).getD c '+' = '-' then
        signOfParity (ascents ((posOf sub c).map fun p => idx.getD p 0)) else 1) := by
  unfold groupSign groupsOf
  congr 1
  apply List.ext_getElem
  · simp [ngroups]
  · intro i h1 h2
    have hi : i < (unique sub).length := by simpa [ngroups] using h2
    simp [hi]

theorem signOfParity_neg {m n : Nat} (h : (m + n) % 2 = 1) : signOfParity n = -signOfParity m := by
  unfold signOfParity
  split <;> split <;> omega

theorem groupSign_swap {sub : List κ} {s : κ → Char} {i j : Nat} {idx : List Nat}
    (hl : idx.length = sub.length) (hij : i < j) (hj : j < sub.length) {x : κ}
    (hx : sub[i]? = some x) (hx' : sub[j]? = some x)
    (hnd : s x = '-' → ∀ g ∈ groupsOf sub idx, g.Nodup) :
    groupSign ((unique sub).map s) (groupsOf sub (swapIdx i j idx))
      = (if s x = '-' then -1 else 1) * groupSign ((unique sub).map s) (groupsOf sub idx) := by
  have hi : i < sub.length := by omega
  have hxi : sub[i] = x := by simpa [hi] using hx
  have hxj : sub[j] = x := by simpa [hj] using hx'
  have hci := canon_getD sub i hi
  have hcj := canon_getD sub j hj
  rw [hxi] at hci; rw [hxj] at hcj
  have hclt : (unique sub).idxOf x < ngroups sub := by rw [← hci]; exact canon_lt sub i hi
  rw [groupSign_eq, groupSign_eq]
  apply prodZ_update List.nodup_range (List.mem_range.2 hclt)
  · have hsx : ((unique sub).map s).getD ((unique sub).idxOf x) '+' = s x := by
      have hclt' : (unique sub).idxOf x < (unique sub).length := hclt
      have : (unique sub)[(unique sub).idxOf x] = x := List.getElem_idxOf hclt'
      rw [getD_eq _ _ _ (by rw [List.length_map]; exact hclt'), List.getElem_map, this]
    rw [hsx]
    by_cases hm : s x = '-'
    · simp only [hm, if_true]
      obtain ⟨A, B, C, e1, e2⟩ := group_swap_same hl hij hj hci hcj
      have hg := hnd hm (A ++ idx.getD i 0 :: (B ++ idx.getD j 0 :: C)) (by
        unfold groupsOf; rw [List.mem_map]; exact ⟨_, List.mem_range.2 hclt, e1⟩)
      rw [e1, e2]
      rw [List.nodup_append, List.nodup_cons, List.nodup_append, List.nodup_cons] at hg
      simp only [List.mem_append, List.mem_cons, not_or] at hg
      have hp := ascents_swap A B C _ _ hg.2.1.1.2.1 hg.2.1.1.1
        (fun hb => hg.2.1.2.2.2 _ hb _ (Or.inl rfl) rfl)
      rw [signOfParity_neg hp]; ring
    · simp [hm]
  · intro c _ hne
    rw [group_swap_other hl (by rw [hci]; exact fun e => hne e.symm)
      (by rw [hcj]; exact fun e => hne e.symm)]

/-- Groups of the index assembled from group tuples. -/
theorem groupsOf_unpermute {sub : List κ} {ts : List (List Nat)}
    (h : List.Forall₂ (fun (r : List Nat) c => r.length = mult sub c) ts (List.range (ngroups sub))) :
    groupsOf sub (unpermute (groupedAxes sub) ts.flatten) = ts := by
  have hl : ts.flatten.length = (groupedAxes sub).length := by
    rw [length_groupedAxes, ← sum_mult sub, List.length_flatten]
    congr 1
    generalize List.range (ngroups sub) = cs at h
    induction h with
    | nil => rfl
    | cons h1 _ ih => simp [h1, ih]
  apply flatten_inj (ss := (List.range (ngroups sub)).map (posOf sub))
  · unfold groupsOf
    rw [List.forall₂_map_left_iff, List.forall₂_map_right_iff, List.forall₂_same]
    intro c _; simp
  · rw [List.forall₂_map_right_iff]
    exact h.imp fun r c hrc => by rw [hrc, length_posOf]
  · rw [groupsOf_flatten]
    exact map_unpermute (groupedAxes_perm' sub) hl

theorem unpermute_groupsOf {sub : List κ} {idx : List Nat} (h : idx.length = sub.length) :
    unpermute (groupedAxes sub) (groupsOf sub idx).flatten = idx := by
  rw [groupsOf_flatten]
  exact unpermute_map (groupedAxes_perm' sub) (by rw [length_groupedAxes]; exact h)

theorem group_sorted {sub : List κ} {idx : List Nat} (hs : GroupSorted sub idx) (c : Nat) :
    ((posOf sub c).map fun p => idx.getD p 0).Pairwise fun a b => b ≤ a := by
  rw [List.pairwise_map]
  apply (List.Pairwise.and_mem.1 (sorted_posOf sub c)).imp
  rintro p q ⟨hp, hq, h⟩
  obtain ⟨h1, h2⟩ := mem_posOf.1 hp
  obtain ⟨h3, h4⟩ := mem_posOf.1 hq
  exact hs p q h h1 h3 ((canon_eq_iff sub p q h1 h3).1 (h2.trans h4.symm))

theorem group_inBox {sub : List κ} {shape : List Nat} (hc : Consistent sub shape) {idx : List Nat}
    (h : InBox shape idx) (c : Nat) : ∀ x ∈ (posOf sub c).map fun p => idx.getD p 0,
    x < gsize sub shape c := by
  intro x hx
  rw [List.mem_map] at hx
  obtain ⟨p, hp, rfl⟩ := hx
  obtain ⟨h1, h2⟩ := mem_posOf.1 hp
  rw [inBox_iff_getD] at h
  have := h.2 p (by rw [hc.length]; exact h1)
  rwa [hc.getD p h1, h2] at this

/-- Not all groups of an index without repetition: two equal entries on equally named axes. -/
theorem nodup_group_iff {sub : List κ} {idx : List Nat} (hl : idx.length = sub.length) :
    (∀ g ∈ groupsOf sub idx, g.Nodup) ↔ ∀ (i j : Nat) (c : κ), i < j → sub[i]? = some c → sub[j]? = some c →
      idx[i]? ≠ idx[j]? := by
  constructor
  · intro h i j x hij hi hj e
    have hj' : j < sub.length := (List.getElem?_eq_some_iff.1 hj).1
    have hi' : i < sub.length := by omega
    have hci := canon_getD sub i hi'
    have hcj := canon_getD sub j hj'
    have hxi : sub[i] = x := by simpa [hi'] using hi
    have hxj : sub[j] = x := by simpa [hj'] using hj
    rw [hxi] at hci; rw [hxj] at hcj
    obtain ⟨A, B, C, e1, _⟩ := group_swap_same hl hij hj' hci hcj
    have hg := h (A ++ idx.getD i 0 :: (B ++ idx.getD j 0 :: C)) (by
      unfold groupsOf; rw [List.mem_map]
      exact ⟨_, List.mem_range.2 (by rw [← hci]; exact canon_lt sub i hi'), e1⟩)
    have : idx.getD i 0 = idx.getD j 0 := by
      rw [List.getD_eq_getElem?_getD, e, ← List.getD_eq_getElem?_getD]
    rw [this] at hg
    simp [List.nodup_append, List.nodup_cons] at hg
  · intro h g hg
    unfold groupsOf at hg
    rw [List.mem_map] at hg
    obtain ⟨c, _, rfl⟩ := hg
    rw [List.Nodup, List.pairwise_map]
    apply (List.Pairwise.and_mem.1 (sorted_posOf sub c)).imp
    rintro p q ⟨hp, hq, hpq⟩ e
    obtain ⟨h1, h2⟩ := mem_posOf.1 hp
    obtain ⟨h3, h4⟩ := mem_posOf.1 hq
    have := (canon_eq_iff sub p q h1 h3).1 (h2.trans h4.symm)
    apply h p q sub[p] hpq (by simp [h1]) (by simp [h3, this])
    have h1' : p < idx.length := by omega
    have h3' : q < idx.length := by omega
    rw [getD_eq _ _ _ h1', getD_eq _ _ _ h3'] at e
    simp [h1', h3', e]

/-- Sort a tuple downwards. -/
theorem exists_sorted (l : List Nat) : ∃ t : List Nat, l.Perm t ∧ t.Pairwise fun a b => b ≤ a := by
  induction l with
  | nil => exact ⟨[], by simp⟩
  | cons x l ih =>
    obtain ⟨t, hp, hs⟩ := ih
    suffices ∃ u : List Nat, (x :: t).Perm u ∧ u.Pairwise fun a b => b ≤ a by
      obtain ⟨u, h1, h2⟩ := this
      exact ⟨u, (hp.cons x).trans h1, h2⟩
    clear hp
    induction t with
    | nil => exact ⟨[x], by simp⟩
    | cons y t ih2 =>
      rw [List.pairwise_cons] at hs
      by_cases hxy : y ≤ x
      · refine ⟨x :: y :: t, List.Perm.refl _, ?_⟩
        rw [List.pairwise_cons, List.pairwise_cons]
        refine ⟨?_, hs⟩
        intro a ha
        rcases List.mem_cons.1 ha with rfl | ha
        · exact hxy
        · exact Nat.le_trans (hs.1 a ha) hxy
      · obtain ⟨u, h1, h2⟩ := ih2 hs.2
        refine ⟨y :: u, (List.Perm.swap y x t).trans (h1.cons y), ?_⟩
        rw [List.pairwise_cons]
        refine ⟨?_, h2⟩
        intro a ha
        rcases List.mem_cons.1 (h1.mem_iff.2 ha) with rfl | ha
        · omega
        · exact hs.1 a ha

theorem mem_decTuples_of {diag : Bool} {d n : Nat} {t : List Nat} (hl : t.length = d)
    (hb : ∀ x ∈ t, x < n) (hs : t.Pairwise fun a b => b ≤ a) (hnd : diag = false → t.Nodup) :
    t ∈ decTuples (wOf diag) d n := by
  cases diag
  · refine (mem_decTuples_strict d n t).2 ⟨hl, hb, ?_⟩
    have := hnd rfl
    exact (hs.and this).imp fun h => Nat.lt_of_le_of_ne h.1 (Ne.symm h.2)
  · exact (mem_decTuples_weak d n t).2 ⟨hl, hb, hs⟩

/-- Every admissible index has a sorted representative among the packed tuples. -/
theorem exists_packed {sub : List κ} {shape : List Nat} (hc : Consistent sub shape) {diag : Bool}
    {idx : List Nat} (h : InBox shape idx)
    (hnd : diag = false → ∀ g ∈ groupsOf sub idx, g.Nodup) :
    ∃ (K : Nat) (ts : List (List Nat)), (prodL (gtrils sub shape diag))[K]? = some ts ∧
      List.Forall₂ List.Perm (groupsOf sub idx) ts := by
  have hl : idx.length = sub.length := by rw [h.length_eq, hc.length]
  suffices H : ∃ ts, List.Forall₂ List.Perm (groupsOf sub idx) ts ∧
      ts ∈ prodL (gtrils sub shape diag) by
    obtain ⟨ts, h1, h2⟩ := H
    obtain ⟨K, hK⟩ := List.mem_iff_getElem?.1 h2
    exact ⟨K, ts, hK, h1⟩
  choose f hf1 hf2 using fun l => exists_sorted l
  refine ⟨(groupsOf sub idx).map f, ?_, ?_⟩
  · rw [List.forall₂_map_right_iff, List.forall₂_same]
    intro g _; exact hf1 g
  · rw [mem_prodL]
    unfold groupsOf gtrils at *
    rw [List.map_map, List.forall₂_map_left_iff, List.forall₂_map_right_iff, List.forall₂_same]
    intro c hcm
    simp only [Function.comp]
    apply mem_decTuples_of
    · rw [← (hf1 _).length_eq, List.length_map, length_posOf]
    · intro x hx
      exact group_inBox hc h c x ((hf1 _).mem_iff.2 hx)
    · exact hf2 _
    · intro hd
      exact (hf1 _).nodup_iff.1 (hnd hd _ (List.mem_map_of_mem hcm))

theorem groupSign_sorted {sub : List κ} {s : κ → Char} {idx : List Nat} (hs : GroupSorted sub idx) :
    groupSign ((unique sub).map s) (groupsOf sub idx) = 1 := by
  rw [groupSign_eq]
  have : ∀ l : List Nat, prodZ (l.map fun c => if ((unique sub).map s).getD c '+' = '-' then
        signOfParity (ascents ((posOf sub c).map fun p => idx.getD p 0)) else 1) = 1 := by
    intro l
    induction l with
    | nil => rfl
    | cons c l ih =>
      rw [List.map_cons, prodZ, ih, ascents_eq_zero_of_sorted _ (group_sorted hs c)]
      simp [signOfParity]
  exact this _

end
end Ebcc
