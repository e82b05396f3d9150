import Verif.Tensor.SetupS
/-!
From the checked relations of `Verif/Tensor/SetupS.lean` to `SplitsInto`.
-/

namespace Ebcc

section
variable {R : Type} [Field R] {szG szU : Nat → Nat} {TG TU : Nat → List Orb → R} {occ vir : Nat → Orb}
  {g u : Dict (List Char) (NDArray R)}

theorem SplitRel.Holds.elem {so : Nat → Nat → Orb} {name : List Char} {usp : List Nat} {ts : List TTerm}
    (h : SplitRel.Holds szG szU so (name, usp, ts) g u) {sp I idx : List Nat} (hsp : usp.map (· % 4) = sp)
    (hI : InBox (sp.map szG) I) (hidx : InBox (usp.map szU) idx) (hz : List.zipWith so sp I = usp.zip idx) :
    elemOf g name I = -(ts.map fun t => t.val u u idx).sum := by
  subst hsp
  exact eq_neg_of_add_eq_zero_left (h.2.2 I idx hI hidx hz)

theorem negTerm_val {num : Int} {name : List Char} {perm idx : List Nat} (h : ∃ a, u.get? name = some a) :
    (negTerm num name perm).val u u idx = num * elemOf u name (perm.map fun k => idx.getD k 0) := by
  obtain ⟨a, ha⟩ := h
  simp [negTerm, TTerm.val, elemOf, ha]

/-- The result of the unrestricted function is there. -/
theorem SplitRel.Holds.result {so : Nat → Nat → Orb} {name : List Char} {usp : List Nat} {num : Int}
    {name' : List Char} {perm : List Nat} (h : SplitRel.Holds szG szU so (name, usp, [negTerm num name' perm]) g u) :
    ∃ a, u.get? name' = some a ∧ a.shape = perm.map fun k => (usp.map szU).getD k 0 := by
  obtain ⟨a, h1, _, h2⟩ := h.2.1 _ (List.mem_singleton.2 rfl)
  exact ⟨a, h1, h2⟩

theorem SplitOk.orb {so : Nat → Nat → Orb} {spl : TSplit} (hs : SplitOk szG szU TG TU so spl) {s x : Nat} (h : s < 2)
    (hx : x < szG s) : (∃ y, so s x = (s, y) ∧ y < szU s) ∨ ∃ y, so s x = (s + 4, y) ∧ y < szU (s + 4) := by
  have hm : so s x ∈ (List.range (szG s)).map (so s) := List.mem_map.2 ⟨x, List.mem_range.2 hx, rfl⟩
  rcases List.mem_append.1 ((hs.spins s h).mem_iff.1 hm) with hm | hm
  · obtain ⟨y, hy, e⟩ := List.mem_map.1 hm
    exact .inl ⟨y, e.symm, List.mem_range.1 hy⟩
  · obtain ⟨y, hy, e⟩ := List.mem_map.1 hm
    exact .inr ⟨y, e.symm, List.mem_range.1 hy⟩

theorem spinOf_lt {s y : Nat} (h : s < 2) : spinOf (s, y) = 0 := by
  simp only [spinOf]; omega

theorem spinOf_add {s y : Nat} (h : s < 2) : spinOf (s + 4, y) = 1 := by
  simp only [spinOf]; omega

theorem splitsInto4 {spl : TSplit} (hs : SplitOk szG szU TG TU (spinOrb occ vir) spl) {name : List Char}
    {s1 s2 s3 s4 : Nat} (h1 : s1 < 2) (h2 : s2 < 2) (h3 : s3 < 2) (h4 : s4 < 2)
    (h : ∀ rel ∈ splitRels (name, [s1, s2, s3, s4]), SplitRel.Holds szG szU (spinOrb occ vir) rel g u) :
    SplitsInto szG szU (spinOrb occ vir) g u (name, [s1, s2, s3, s4]) := by
  have hb : bosonAxes [s1, s2, s3, s4] = 0 := by
    have : ¬s1 = 2 := by omega
    simp [bosonAxes, this]
  have m1 : s1 % 4 = s1 := by omega
  have m2 : s2 % 4 = s2 := by omega
  have m3 : s3 % 4 = s3 := by omega
  have m4 : s4 % 4 = s4 := by omega
  simp only [splitRels, hb, List.take_zero, List.drop_zero, List.forall_mem_cons] at h
  obtain ⟨r_aaaa, r_aaab, r_aaba, r_aabb, r_abaa, r_abab, r_abba, r_abbb, r_baaa, r_baab, r_baba, r_babb, r_bbaa, r_bbab, r_bbba, r_bbbb, -⟩ := h
  obtain ⟨xa, xa1, xa2⟩ := r_aaaa.result
  obtain ⟨xm, xm1, xm2⟩ := r_abab.result
  obtain ⟨xb, xb1, xb2⟩ := r_bbbb.result
  refine ⟨?_, ?_, ?_⟩
  · obtain ⟨a, a1, a2⟩ := r_aaaa.1
    exact ⟨a, a1, by simpa [m1, m2, m3, m4] using a2⟩
  · simp only [spinBlocks, hb, List.drop_zero, List.forall_mem_cons]
    exact ⟨⟨xa, xa1, xa2⟩, ⟨xm, xm1, xm2⟩, ⟨xb, xb1, xb2⟩, by simp⟩
  · intro I hI
    have hI := mem_box.1 hI
    match I, InBox.length_eq hI with
    | [x1, x2, x3, x4], _ =>
    have hI' := hI
    simp only [InBox, List.map_cons, List.map_nil, List.forall₂_cons, List.forall₂_nil_left_iff, and_true] at hI
    obtain ⟨l1, l2, l3, l4⟩ := hI
    simp only [hb, List.zipWith_cons_cons, List.zipWith_nil_right]
    rcases hs.orb h1 l1 with ⟨y1, e1, k1⟩ | ⟨y1, e1, k1⟩ <;>
    rcases hs.orb h2 l2 with ⟨y2, e2, k2⟩ | ⟨y2, e2, k2⟩ <;>
    rcases hs.orb h3 l3 with ⟨y3, e3, k3⟩ | ⟨y3, e3, k3⟩ <;>
    rcases hs.orb h4 l4 with ⟨y4, e4, k4⟩ | ⟨y4, e4, k4⟩
    · rw [r_aaaa.elem (sp := [s1, s2, s3, s4]) (idx := [y1, y2, y3, y4]) (by simp [m1, m2, m3, m4]) hI'
        (.cons k1 (.cons k2 (.cons k3 (.cons k4 .nil)))) (by simp [e1, e2, e3, e4]), e1, e2, e3, e4]
      simp [spinElem, spinOf_lt, spinOf_add, h1, h2, h3, h4, negTerm_val ⟨_, xa1⟩, negTerm_val ⟨_, xm1⟩,
        negTerm_val ⟨_, xb1⟩]
    · rw [r_aaab.elem (sp := [s1, s2, s3, s4]) (idx := [y1, y2, y3, y4]) (by simp [m1, m2, m3, m4]) hI'
        (.cons k1 (.cons k2 (.cons k3 (.cons k4 .nil)))) (by simp [e1, e2, e3, e4]), e1, e2, e3, e4]
      simp [spinElem, spinOf_lt, spinOf_add, h1, h2, h3, h4, negTerm_val ⟨_, xa1⟩, negTerm_val ⟨_, xm1⟩,
        negTerm_val ⟨_, xb1⟩]
    · rw [r_aaba.elem (sp := [s1, s2, s3, s4]) (idx := [y1, y2, y3, y4]) (by simp [m1, m2, m3, m4]) hI'
        (.cons k1 (.cons k2 (.cons k3 (.cons k4 .nil)))) (by simp [e1, e2, e3, e4]), e1, e2, e3, e4]
      simp [spinElem, spinOf_lt, spinOf_add, h1, h2, h3, h4, negTerm_val ⟨_, xa1⟩, negTerm_val ⟨_, xm1⟩,
        negTerm_val ⟨_, xb1⟩]
    · rw [r_aabb.elem (sp := [s1, s2, s3, s4]) (idx := [y1, y2, y3, y4]) (by simp [m1, m2, m3, m4]) hI'
        (.cons k1 (.cons k2 (.cons k3 (.cons k4 .nil)))) (by simp [e1, e2, e3, e4]), e1, e2, e3, e4]
      simp [spinElem, spinOf_lt, spinOf_add, h1, h2, h3, h4, negTerm_val ⟨_, xa1⟩, negTerm_val ⟨_, xm1⟩,
        negTerm_val ⟨_, xb1⟩]
    · rw [r_abaa.elem (sp := [s1, s2, s3, s4]) (idx := [y1, y2, y3, y4]) (by simp [m1, m2, m3, m4]) hI'
        (.cons k1 (.cons k2 (.cons k3 (.cons k4 .nil)))) (by simp [e1, e2, e3, e4]), e1, e2, e3, e4]
      simp [spinElem, spinOf_lt, spinOf_add, h1, h2, h3, h4, negTerm_val ⟨_, xa1⟩, negTerm_val ⟨_, xm1⟩,
        negTerm_val ⟨_, xb1⟩]
    · rw [r_abab.elem (sp := [s1, s2, s3, s4]) (idx := [y1, y2, y3, y4]) (by simp [m1, m2, m3, m4]) hI'
        (.cons k1 (.cons k2 (.cons k3 (.cons k4 .nil)))) (by simp [e1, e2, e3, e4]), e1, e2, e3, e4]
      simp [spinElem, spinOf_lt, spinOf_add, h1, h2, h3, h4, negTerm_val ⟨_, xa1⟩, negTerm_val ⟨_, xm1⟩,
        negTerm_val ⟨_, xb1⟩]
    · rw [r_abba.elem (sp := [s1, s2, s3, s4]) (idx := [y1, y2, y3, y4]) (by simp [m1, m2, m3, m4]) hI'
        (.cons k1 (.cons k2 (.cons k3 (.cons k4 .nil)))) (by simp [e1, e2, e3, e4]), e1, e2, e3, e4]
      simp [spinElem, spinOf_lt, spinOf_add, h1, h2, h3, h4, negTerm_val ⟨_, xa1⟩, negTerm_val ⟨_, xm1⟩,
        negTerm_val ⟨_, xb1⟩]
    · rw [r_abbb.elem (sp := [s1, s2, s3, s4]) (idx := [y1, y2, y3, y4]) (by simp [m1, m2, m3, m4]) hI'
        (.cons k1 (.cons k2 (.cons k3 (.cons k4 .nil)))) (by simp [e1, e2, e3, e4]), e1, e2, e3, e4]
      simp [spinElem, spinOf_lt, spinOf_add, h1, h2, h3, h4, negTerm_val ⟨_, xa1⟩, negTerm_val ⟨_, xm1⟩,
        negTerm_val ⟨_, xb1⟩]
    · rw [r_baaa.elem (sp := [s1, s2, s3, s4]) (idx := [y1, y2, y3, y4]) (by simp [m1, m2, m3, m4]) hI'
        (.cons k1 (.cons k2 (.cons k3 (.cons k4 .nil)))) (by simp [e1, e2, e3, e4]), e1, e2, e3, e4]
      simp [spinElem, spinOf_lt, spinOf_add, h1, h2, h3, h4, negTerm_val ⟨_, xa1⟩, negTerm_val ⟨_, xm1⟩,
        negTerm_val ⟨_, xb1⟩]
    · rw [r_baab.elem (sp := [s1, s2, s3, s4]) (idx := [y1, y2, y3, y4]) (by simp [m1, m2, m3, m4]) hI'
        (.cons k1 (.cons k2 (.cons k3 (.cons k4 .nil)))) (by simp [e1, e2, e3, e4]), e1, e2, e3, e4]
      simp [spinElem, spinOf_lt, spinOf_add, h1, h2, h3, h4, negTerm_val ⟨_, xa1⟩, negTerm_val ⟨_, xm1⟩,
        negTerm_val ⟨_, xb1⟩]
    · rw [r_baba.elem (sp := [s1, s2, s3, s4]) (idx := [y1, y2, y3, y4]) (by simp [m1, m2, m3, m4]) hI'
        (.cons k1 (.cons k2 (.cons k3 (.cons k4 .nil)))) (by simp [e1, e2, e3, e4]), e1, e2, e3, e4]
      simp [spinElem, spinOf_lt, spinOf_add, h1, h2, h3, h4, negTerm_val ⟨_, xa1⟩, negTerm_val ⟨_, xm1⟩,
        negTerm_val ⟨_, xb1⟩]
    · rw [r_babb.elem (sp := [s1, s2, s3, s4]) (idx := [y1, y2, y3, y4]) (by simp [m1, m2, m3, m4]) hI'
        (.cons k1 (.cons k2 (.cons k3 (.cons k4 .nil)))) (by simp [e1, e2, e3, e4]), e1, e2, e3, e4]
      simp [spinElem, spinOf_lt, spinOf_add, h1, h2, h3, h4, negTerm_val ⟨_, xa1⟩, negTerm_val ⟨_, xm1⟩,
        negTerm_val ⟨_, xb1⟩]
    · rw [r_bbaa.elem (sp := [s1, s2, s3, s4]) (idx := [y1, y2, y3, y4]) (by simp [m1, m2, m3, m4]) hI'
        (.cons k1 (.cons k2 (.cons k3 (.cons k4 .nil)))) (by simp [e1, e2, e3, e4]), e1, e2, e3, e4]
      simp [spinElem, spinOf_lt, spinOf_add, h1, h2, h3, h4, negTerm_val ⟨_, xa1⟩, negTerm_val ⟨_, xm1⟩,
        negTerm_val ⟨_, xb1⟩]
    · rw [r_bbab.elem (sp := [s1, s2, s3, s4]) (idx := [y1, y2, y3, y4]) (by simp [m1, m2, m3, m4]) hI'
        (.cons k1 (.cons k2 (.cons k3 (.cons k4 .nil)))) (by simp [e1, e2, e3, e4]), e1, e2, e3, e4]
      simp [spinElem, spinOf_lt, spinOf_add, h1, h2, h3, h4, negTerm_val ⟨_, xa1⟩, negTerm_val ⟨_, xm1⟩,
        negTerm_val ⟨_, xb1⟩]
    · rw [r_bbba.elem (sp := [s1, s2, s3, s4]) (idx := [y1, y2, y3, y4]) (by simp [m1, m2, m3, m4]) hI'
        (.cons k1 (.cons k2 (.cons k3 (.cons k4 .nil)))) (by simp [e1, e2, e3, e4]), e1, e2, e3, e4]
      simp [spinElem, spinOf_lt, spinOf_add, h1, h2, h3, h4, negTerm_val ⟨_, xa1⟩, negTerm_val ⟨_, xm1⟩,
        negTerm_val ⟨_, xb1⟩]
    · rw [r_bbbb.elem (sp := [s1, s2, s3, s4]) (idx := [y1, y2, y3, y4]) (by simp [m1, m2, m3, m4]) hI'
        (.cons k1 (.cons k2 (.cons k3 (.cons k4 .nil)))) (by simp [e1, e2, e3, e4]), e1, e2, e3, e4]
      simp [spinElem, spinOf_lt, spinOf_add, h1, h2, h3, h4, negTerm_val ⟨_, xa1⟩, negTerm_val ⟨_, xm1⟩,
        negTerm_val ⟨_, xb1⟩]

theorem splitsInto2 {spl : TSplit} (hs : SplitOk szG szU TG TU (spinOrb occ vir) spl) {name : List Char}
    {s1 s2 : Nat} (h1 : s1 < 2) (h2 : s2 < 2)
    (h : ∀ rel ∈ splitRels (name, [s1, s2]), SplitRel.Holds szG szU (spinOrb occ vir) rel g u) :
    SplitsInto szG szU (spinOrb occ vir) g u (name, [s1, s2]) := by
  have hb : bosonAxes [s1, s2] = 0 := by
    have : ¬s1 = 2 := by omega
    simp [bosonAxes, this]
  have m1 : s1 % 4 = s1 := by omega
  have m2 : s2 % 4 = s2 := by omega
  have hr : splitRels (name, [s1, s2]) = [
      (name, [s1, s2], [negTerm (-1) (name ++ chars! ".aa") [0, 1]]),
      (name, [s1, s2 + 4], []),
      (name, [s1 + 4, s2], []),
      (name, [s1 + 4, s2 + 4], [negTerm (-1) (name ++ chars! ".bb") [0, 1]])] := by
    simp only [splitRels, hb]
    rfl
  simp only [hr, List.forall_mem_cons] at h
  obtain ⟨r_aa, r_ab, r_ba, r_bb, -⟩ := h
  obtain ⟨xa, xa1, xa2⟩ := r_aa.result
  obtain ⟨xb, xb1, xb2⟩ := r_bb.result
  refine ⟨?_, ?_, ?_⟩
  · obtain ⟨a, a1, a2⟩ := r_aa.1
    exact ⟨a, a1, by simpa [m1, m2] using a2⟩
  · have hk : spinBlocks (name, [s1, s2]) = [(name ++ chars! ".aa", [s1, s2]),
        (name ++ chars! ".bb", [s1 + 4, s2 + 4])] := by
      simp only [spinBlocks, hb]
      rfl
    simp only [hk, List.forall_mem_cons]
    exact ⟨⟨xa, xa1, xa2⟩, ⟨xb, xb1, xb2⟩, by simp⟩
  · intro I hI
    have hI := mem_box.1 hI
    match I, InBox.length_eq hI with
    | [x1, x2], _ =>
    have hI' := hI
    simp only [InBox, List.map_cons, List.map_nil, List.forall₂_cons, List.forall₂_nil_left_iff, and_true] at hI
    obtain ⟨l1, l2⟩ := hI
    simp only [hb, List.zipWith_cons_cons, List.zipWith_nil_right]
    rcases hs.orb h1 l1 with ⟨y1, e1, k1⟩ | ⟨y1, e1, k1⟩ <;>
    rcases hs.orb h2 l2 with ⟨y2, e2, k2⟩ | ⟨y2, e2, k2⟩
    · rw [r_aa.elem (sp := [s1, s2]) (idx := [y1, y2]) (by simp [m1, m2]) hI'
        (.cons k1 (.cons k2 .nil)) (by simp [e1, e2]), e1, e2]
      simp [spinElem, spinOf_lt, spinOf_add, h1, h2, negTerm_val ⟨_, xa1⟩, negTerm_val ⟨_, xb1⟩]
    · rw [r_ab.elem (sp := [s1, s2]) (idx := [y1, y2]) (by simp [m1, m2]) hI'
        (.cons k1 (.cons k2 .nil)) (by simp [e1, e2]), e1, e2]
      simp [spinElem, spinOf_lt, spinOf_add, h1, h2, negTerm_val ⟨_, xa1⟩, negTerm_val ⟨_, xb1⟩]
    · rw [r_ba.elem (sp := [s1, s2]) (idx := [y1, y2]) (by simp [m1, m2]) hI'
        (.cons k1 (.cons k2 .nil)) (by simp [e1, e2]), e1, e2]
      simp [spinElem, spinOf_lt, spinOf_add, h1, h2, negTerm_val ⟨_, xa1⟩, negTerm_val ⟨_, xb1⟩]
    · rw [r_bb.elem (sp := [s1, s2]) (idx := [y1, y2]) (by simp [m1, m2]) hI'
        (.cons k1 (.cons k2 .nil)) (by simp [e1, e2]), e1, e2]
      simp [spinElem, spinOf_lt, spinOf_add, h1, h2, negTerm_val ⟨_, xa1⟩, negTerm_val ⟨_, xb1⟩]

theorem splitsInto2b {spl : TSplit} (hs : SplitOk szG szU TG TU (spinOrb occ vir) spl) {name : List Char}
    {s1 s2 : Nat} (h1 : s1 < 2) (h2 : s2 < 2)
    (h : ∀ rel ∈ splitRels (name, [2, s1, s2]), SplitRel.Holds szG szU (spinOrb occ vir) rel g u) :
    SplitsInto szG szU (spinOrb occ vir) g u (name, [2, s1, s2]) := by
  have s2b : ∀ x, spinOrb occ vir 2 x = (2, x) := fun _ => rfl
  have hb : bosonAxes [2, s1, s2] = 1 := by
    have : ¬s1 = 2 := by omega
    simp [bosonAxes, this]
  have m1 : s1 % 4 = s1 := by omega
  have m2 : s2 % 4 = s2 := by omega
  have hr : splitRels (name, [2, s1, s2]) = [
      (name, [2, s1, s2], [negTerm (-1) (name ++ chars! ".aa") [0, 1, 2]]),
      (name, [2, s1, s2 + 4], []),
      (name, [2, s1 + 4, s2], []),
      (name, [2, s1 + 4, s2 + 4], [negTerm (-1) (name ++ chars! ".bb") [0, 1, 2]])] := by
    simp only [splitRels, hb]
    rfl
  simp only [hr, List.forall_mem_cons] at h
  obtain ⟨r_aa, r_ab, r_ba, r_bb, -⟩ := h
  obtain ⟨xa, xa1, xa2⟩ := r_aa.result
  obtain ⟨xb, xb1, xb2⟩ := r_bb.result
  refine ⟨?_, ?_, ?_⟩
  · obtain ⟨a, a1, a2⟩ := r_aa.1
    exact ⟨a, a1, by simpa [m1, m2] using a2⟩
  · have hk : spinBlocks (name, [2, s1, s2]) = [(name ++ chars! ".aa", [2, s1, s2]),
        (name ++ chars! ".bb", [2, s1 + 4, s2 + 4])] := by
      simp only [spinBlocks, hb]
      rfl
    simp only [hk, List.forall_mem_cons]
    exact ⟨⟨xa, xa1, xa2⟩, ⟨xb, xb1, xb2⟩, by simp⟩
  · intro I hI
    have hI := mem_box.1 hI
    match I, InBox.length_eq hI with
    | [b1, x1, x2], _ =>
    have hI' := hI
    simp only [InBox, List.map_cons, List.map_nil, List.forall₂_cons, List.forall₂_nil_left_iff, and_true] at hI
    obtain ⟨lb1, l1, l2⟩ := hI
    rw [(hs.rest 2 (by decide) (by decide)).1] at lb1
    simp only [hb, List.zipWith_cons_cons, List.zipWith_nil_right]
    rcases hs.orb h1 l1 with ⟨y1, e1, k1⟩ | ⟨y1, e1, k1⟩ <;>
    rcases hs.orb h2 l2 with ⟨y2, e2, k2⟩ | ⟨y2, e2, k2⟩
    · rw [r_aa.elem (sp := [2, s1, s2]) (idx := [b1, y1, y2]) (by simp [m1, m2]) hI'
        (.cons lb1 (.cons k1 (.cons k2 .nil))) (by simp [e1, e2, s2b]), e1, e2]
      simp [spinElem, spinOf_lt, spinOf_add, h1, h2, negTerm_val ⟨_, xa1⟩, negTerm_val ⟨_, xb1⟩, s2b]
    · rw [r_ab.elem (sp := [2, s1, s2]) (idx := [b1, y1, y2]) (by simp [m1, m2]) hI'
        (.cons lb1 (.cons k1 (.cons k2 .nil))) (by simp [e1, e2, s2b]), e1, e2]
      simp [spinElem, spinOf_lt, spinOf_add, h1, h2, negTerm_val ⟨_, xa1⟩, negTerm_val ⟨_, xb1⟩, s2b]
    · rw [r_ba.elem (sp := [2, s1, s2]) (idx := [b1, y1, y2]) (by simp [m1, m2]) hI'
        (.cons lb1 (.cons k1 (.cons k2 .nil))) (by simp [e1, e2, s2b]), e1, e2]
      simp [spinElem, spinOf_lt, spinOf_add, h1, h2, negTerm_val ⟨_, xa1⟩, negTerm_val ⟨_, xb1⟩, s2b]
    · rw [r_bb.elem (sp := [2, s1, s2]) (idx := [b1, y1, y2]) (by simp [m1, m2]) hI'
        (.cons lb1 (.cons k1 (.cons k2 .nil))) (by simp [e1, e2, s2b]), e1, e2]
      simp [spinElem, spinOf_lt, spinOf_add, h1, h2, negTerm_val ⟨_, xa1⟩, negTerm_val ⟨_, xb1⟩, s2b]

theorem splitsInto2bb {spl : TSplit} (hs : SplitOk szG szU TG TU (spinOrb occ vir) spl) {name : List Char}
    {s1 s2 : Nat} (h1 : s1 < 2) (h2 : s2 < 2)
    (h : ∀ rel ∈ splitRels (name, [2, 2, s1, s2]), SplitRel.Holds szG szU (spinOrb occ vir) rel g u) :
    SplitsInto szG szU (spinOrb occ vir) g u (name, [2, 2, s1, s2]) := by
  have s2b : ∀ x, spinOrb occ vir 2 x = (2, x) := fun _ => rfl
  have hb : bosonAxes [2, 2, s1, s2] = 2 := by
    have : ¬s1 = 2 := by omega
    simp [bosonAxes, this]
  have m1 : s1 % 4 = s1 := by omega
  have m2 : s2 % 4 = s2 := by omega
  have hr : splitRels (name, [2, 2, s1, s2]) = [
      (name, [2, 2, s1, s2], [negTerm (-1) (name ++ chars! ".aa") [0, 1, 2, 3]]),
      (name, [2, 2, s1, s2 + 4], []),
      (name, [2, 2, s1 + 4, s2], []),
      (name, [2, 2, s1 + 4, s2 + 4], [negTerm (-1) (name ++ chars! ".bb") [0, 1, 2, 3]])] := by
    simp only [splitRels, hb]
    rfl
  simp only [hr, List.forall_mem_cons] at h
  obtain ⟨r_aa, r_ab, r_ba, r_bb, -⟩ := h
  obtain ⟨xa, xa1, xa2⟩ := r_aa.result
  obtain ⟨xb, xb1, xb2⟩ := r_bb.result
  refine ⟨?_, ?_, ?_⟩
  · obtain ⟨a, a1, a2⟩ := r_aa.1
    exact ⟨a, a1, by simpa [m1, m2] using a2⟩
  · have hk : spinBlocks (name, [2, 2, s1, s2]) = [(name ++ chars! ".aa", [2, 2, s1, s2]),
        (name ++ chars! ".bb", [2, 2, s1 + 4, s2 + 4])] := by
      simp only [spinBlocks, hb]
      rfl
    simp only [hk, List.forall_mem_cons]
    exact ⟨⟨xa, xa1, xa2⟩, ⟨xb, xb1, xb2⟩, by simp⟩
  · intro I hI
    have hI := mem_box.1 hI
    match I, InBox.length_eq hI with
    | [b1, b2, x1, x2], _ =>
    have hI' := hI
    simp only [InBox, List.map_cons, List.map_nil, List.forall₂_cons, List.forall₂_nil_left_iff, and_true] at hI
    obtain ⟨lb1, lb2, l1, l2⟩ := hI
    rw [(hs.rest 2 (by decide) (by decide)).1] at lb1
    rw [(hs.rest 2 (by decide) (by decide)).1] at lb2
    simp only [hb, List.zipWith_cons_cons, List.zipWith_nil_right]
    rcases hs.orb h1 l1 with ⟨y1, e1, k1⟩ | ⟨y1, e1, k1⟩ <;>
    rcases hs.orb h2 l2 with ⟨y2, e2, k2⟩ | ⟨y2, e2, k2⟩
    · rw [r_aa.elem (sp := [2, 2, s1, s2]) (idx := [b1, b2, y1, y2]) (by simp [m1, m2]) hI'
        (.cons lb1 (.cons lb2 (.cons k1 (.cons k2 .nil)))) (by simp [e1, e2, s2b]), e1, e2]
      simp [spinElem, spinOf_lt, spinOf_add, h1, h2, negTerm_val ⟨_, xa1⟩, negTerm_val ⟨_, xb1⟩, s2b]
    · rw [r_ab.elem (sp := [2, 2, s1, s2]) (idx := [b1, b2, y1, y2]) (by simp [m1, m2]) hI'
        (.cons lb1 (.cons lb2 (.cons k1 (.cons k2 .nil)))) (by simp [e1, e2, s2b]), e1, e2]
      simp [spinElem, spinOf_lt, spinOf_add, h1, h2, negTerm_val ⟨_, xa1⟩, negTerm_val ⟨_, xb1⟩, s2b]
    · rw [r_ba.elem (sp := [2, 2, s1, s2]) (idx := [b1, b2, y1, y2]) (by simp [m1, m2]) hI'
        (.cons lb1 (.cons lb2 (.cons k1 (.cons k2 .nil)))) (by simp [e1, e2, s2b]), e1, e2]
      simp [spinElem, spinOf_lt, spinOf_add, h1, h2, negTerm_val ⟨_, xa1⟩, negTerm_val ⟨_, xb1⟩, s2b]
    · rw [r_bb.elem (sp := [2, 2, s1, s2]) (idx := [b1, b2, y1, y2]) (by simp [m1, m2]) hI'
        (.cons lb1 (.cons lb2 (.cons k1 (.cons k2 .nil)))) (by simp [e1, e2, s2b]), e1, e2]
      simp [spinElem, spinOf_lt, spinOf_add, h1, h2, negTerm_val ⟨_, xa1⟩, negTerm_val ⟨_, xb1⟩, s2b]

theorem splitsInto0 {spl : TSplit} (hs : SplitOk szG szU TG TU (spinOrb occ vir) spl) {name : List Char}
    (h : ∀ rel ∈ splitRels (name, []), SplitRel.Holds szG szU (spinOrb occ vir) rel g u) :
    SplitsInto szG szU (spinOrb occ vir) g u (name, []) := by
  have hr : splitRels (name, []) = [(name, [], [negTerm (-1) name []])] := rfl
  have r_ := h _ (hr ▸ List.mem_singleton.2 rfl)
  obtain ⟨xa, xa1, xa2⟩ := r_.result
  refine ⟨?_, ?_, ?_⟩
  · exact r_.1
  · intro y hy
    cases List.mem_singleton.1 hy
    exact ⟨xa, xa1, xa2⟩
  · intro I hI
    have hI := mem_box.1 hI
    match I, InBox.length_eq hI with
    | [], _ =>
    have hI' := hI
    simp only [InBox, List.map_cons, List.map_nil, List.forall₂_cons, List.forall₂_nil_left_iff, and_true] at hI
    rw [r_.elem (sp := []) (idx := []) rfl hI' (.nil) rfl]
    simp [spinElem, bosonAxes, negTerm_val ⟨_, xa1⟩]

theorem splitsInto0b {spl : TSplit} (hs : SplitOk szG szU TG TU (spinOrb occ vir) spl) {name : List Char}
    (h : ∀ rel ∈ splitRels (name, [2]), SplitRel.Holds szG szU (spinOrb occ vir) rel g u) :
    SplitsInto szG szU (spinOrb occ vir) g u (name, [2]) := by
  have hr : splitRels (name, [2]) = [(name, [2], [negTerm (-1) name [0]])] := rfl
  have s2b : ∀ x, spinOrb occ vir 2 x = (2, x) := fun _ => rfl
  have r_ := h _ (hr ▸ List.mem_singleton.2 rfl)
  obtain ⟨xa, xa1, xa2⟩ := r_.result
  refine ⟨?_, ?_, ?_⟩
  · exact r_.1
  · intro y hy
    cases List.mem_singleton.1 hy
    exact ⟨xa, xa1, xa2⟩
  · intro I hI
    have hI := mem_box.1 hI
    match I, InBox.length_eq hI with
    | [b1], _ =>
    have hI' := hI
    simp only [InBox, List.map_cons, List.map_nil, List.forall₂_cons, List.forall₂_nil_left_iff, and_true] at hI
    have lb1 := hI
    rw [(hs.rest 2 (by decide) (by decide)).1] at lb1
    rw [r_.elem (sp := [2]) (idx := [b1]) rfl hI' (.cons lb1 (.nil)) rfl]
    simp [spinElem, bosonAxes, negTerm_val ⟨_, xa1⟩, s2b]

theorem splitsInto0bb {spl : TSplit} (hs : SplitOk szG szU TG TU (spinOrb occ vir) spl) {name : List Char}
    (h : ∀ rel ∈ splitRels (name, [2, 2]), SplitRel.Holds szG szU (spinOrb occ vir) rel g u) :
    SplitsInto szG szU (spinOrb occ vir) g u (name, [2, 2]) := by
  have hr : splitRels (name, [2, 2]) = [(name, [2, 2], [negTerm (-1) name [0, 1]])] := rfl
  have s2b : ∀ x, spinOrb occ vir 2 x = (2, x) := fun _ => rfl
  have r_ := h _ (hr ▸ List.mem_singleton.2 rfl)
  obtain ⟨xa, xa1, xa2⟩ := r_.result
  refine ⟨?_, ?_, ?_⟩
  · exact r_.1
  · intro y hy
    cases List.mem_singleton.1 hy
    exact ⟨xa, xa1, xa2⟩
  · intro I hI
    have hI := mem_box.1 hI
    match I, InBox.length_eq hI with
    | [b1, b2], _ =>
    have hI' := hI
    simp only [InBox, List.map_cons, List.map_nil, List.forall₂_cons, List.forall₂_nil_left_iff, and_true] at hI
    obtain ⟨lb1, lb2⟩ := hI
    rw [(hs.rest 2 (by decide) (by decide)).1] at lb1
    rw [(hs.rest 2 (by decide) (by decide)).1] at lb2
    rw [r_.elem (sp := [2, 2]) (idx := [b1, b2]) rfl hI' (.cons lb1 (.cons lb2 (.nil))) rfl]
    simp [spinElem, bosonAxes, negTerm_val ⟨_, xa1⟩, s2b]

end

/-- The results for which `splitRels` is proved enough. -/
def okSpaces (sp : List Nat) : Bool :=
  sp == [] || sp == [2] || sp == [2, 2] || sp == [0, 1] || sp == [1, 0] || sp == [2, 0, 1] || sp == [2, 1, 0] ||
    sp == [2, 2, 0, 1] || sp == [2, 2, 1, 0] || sp == [0, 0, 1, 1] || sp == [1, 1, 0, 0]

theorem splitsInto_of_holds {R : Type} [Field R] {szG szU : Nat → Nat} {TG TU : Nat → List Orb → R}
    {occ vir : Nat → Orb} {g u : Dict (List Char) (NDArray R)} {spl : TSplit}
    (hs : SplitOk szG szU TG TU (spinOrb occ vir) spl) (x : List Char × List Nat) (hx : okSpaces x.2 = true)
    (h : ∀ rel ∈ splitRels x, SplitRel.Holds szG szU (spinOrb occ vir) rel g u) :
    SplitsInto szG szU (spinOrb occ vir) g u x := by
  obtain ⟨name, sp⟩ := x
  simp only [okSpaces, Bool.or_eq_true, beq_iff_eq] at hx
  rcases hx with (((((((((rfl | rfl) | rfl) | rfl) | rfl) | rfl) | rfl) | rfl) | rfl) | rfl) | rfl
  · exact splitsInto0 hs h
  · exact splitsInto0b hs h
  · exact splitsInto0bb hs h
  · exact splitsInto2 hs (by decide) (by decide) h
  · exact splitsInto2 hs (by decide) (by decide) h
  · exact splitsInto2b hs (by decide) (by decide) h
  · exact splitsInto2b hs (by decide) (by decide) h
  · exact splitsInto2bb hs (by decide) (by decide) h
  · exact splitsInto2bb hs (by decide) (by decide) h
  · exact splitsInto4 hs (by decide) (by decide) (by decide) (by decide) h
  · exact splitsInto4 hs (by decide) (by decide) (by decide) (by decide) h

theorem gArgs_rep {R : Type} [Field R] (sz : Nat → Nat) (h : GHam R) (t l s : GAmps R) (name : List Char) (v : TArg)
    (hv : gValsT 16 name = some v) : ∃ a, h.args t l sz name = some a ∧ ArgRep sz (gTensor h t l s) v a :=
  gValsT_rep _ _ _ _ _ 16
    (fun n hn => by simp [gTensor, hn])
    (fun n hn => by
      have : (16 + n) % 16 = n := by omega
      simp only [gTensor, this]
      rw [if_neg (by omega), if_pos (by omega)])
    (fun n hn => by
      have : (32 + n) % 16 = n := by omega
      simp only [gTensor, this]
      rw [if_neg (by omega), if_neg (by omega), if_pos (by omega)]) name v hv

theorem generalAgrees_of_check {gf uf : GenFun} {results : List (List Char × List Nat)} {hG hU : List Nat}
    (hr : results.all (fun x => okSpaces x.2) = true)
    (h : checkSplit gSym sSym hG hU gf uf (gValsT 16) sVals splitFac (results.flatMap splitRels) = true) :
    GeneralAgrees gf uf results := by
  intro R _ _ _ H t l occ vir no nv noa nva nob nvb nb ho method path hpath
  have hs := splitOk H t l (t.toG occ vir) nb ho
  obtain ⟨g, u, h1, h2, h3⟩ := checkSplit_sound (avG := (H.toG (spinOrb occ vir)).args (t.toG occ vir) (l.toG occ vir)
      (spaceSizes no nv nb 0)) (avU := H.uArgs t l (spinSizes noa nva nob nvb nb)) hs
    (gSym_symOk _ _ _ _) (sSym_symOk H t l) method path hpath
    (fun name v hv => gArgs_rep _ _ _ _ _ name v hv)
    (fun name v hv => sVals_rep _ H t l name v hv) h
  refine ⟨g, u, h1, h2, fun x hx => splitsInto_of_holds hs x (List.all_eq_true.1 hr x hx) fun rel hrel => ?_⟩
  exact h3 rel (List.mem_flatMap.2 ⟨x, hx, hrel⟩)

end Ebcc
