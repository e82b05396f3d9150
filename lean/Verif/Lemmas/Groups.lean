import Verif.Lemmas.Lists
import Verif.Lemmas.Py
import Verif.Thms.C13
import Mathlib.Data.List.Perm.Lattice

namespace Ebcc

section
variable {κ : Type} [DecidableEq κ]

theorem getD_eq {α : Type} (l : List α) (i : Nat) (d : α) (h : i < l.length) :
    l.getD i d = l[i] := by simp [h]

theorem unique_nodup (l : List κ) : (unique l).Nodup := (C13_unique_elements l).1
theorem mem_unique {l : List κ} {x : κ} : x ∈ unique l ↔ x ∈ l := (C13_unique_elements l).2.1 x

/-- Number of groups. -/
def ngroups (sub : List κ) : Nat := (unique sub).length

/-- Axes of group `c`, in increasing order. -/
def posOf (sub : List κ) (c : Nat) : List Nat :=
  (List.range sub.length).filter fun p => decide ((canon sub).getD p 0 = c)

/-- Number of axes in group `c`. -/
def mult (sub : List κ) (c : Nat) : Nat := (canon sub).count c

theorem length_canon (sub : List κ) : (canon sub).length = sub.length := by simp [canon]

theorem canon_getD (sub : List κ) (p : Nat) (hp : p < sub.length) :
    (canon sub).getD p 0 = (unique sub).idxOf sub[p] := by
  simp [canon, hp]

theorem canon_lt (sub : List κ) (p : Nat) (hp : p < sub.length) :
    (canon sub).getD p 0 < ngroups sub := by
  rw [canon_getD sub p hp]
  exact List.idxOf_lt_length_of_mem (mem_unique.2 (List.getElem_mem hp))

theorem canon_eq_iff (sub : List κ) (p q : Nat) (hp : p < sub.length) (hq : q < sub.length) :
    (canon sub).getD p 0 = (canon sub).getD q 0 ↔ sub[p] = sub[q] := by
  rw [canon_getD sub p hp, canon_getD sub q hq]
  constructor
  · intro h
    exact (List.idxOf_inj (mem_unique.2 (List.getElem_mem hp))).1 h
  · intro h; rw [h]

theorem canon_surj (sub : List κ) (c : Nat) (hc : c < ngroups sub) :
    ∃ p, p < sub.length ∧ (canon sub).getD p 0 = c := by
  have hm : (unique sub)[c] ∈ sub := mem_unique.1 (List.getElem_mem hc)
  obtain ⟨p, hp, e⟩ := List.getElem_of_mem hm
  refine ⟨p, hp, ?_⟩
  rw [canon_getD sub p hp, e]
  exact (unique_nodup sub).idxOf_getElem c hc

theorem mem_posOf {sub : List κ} {c p : Nat} :
    p ∈ posOf sub c ↔ p < sub.length ∧ (canon sub).getD p 0 = c := by
  simp [posOf]

theorem nodup_posOf (sub : List κ) (c : Nat) : (posOf sub c).Nodup := List.nodup_range.filter _

theorem sorted_posOf (sub : List κ) (c : Nat) : (posOf sub c).Pairwise (· < ·) :=
  List.pairwise_lt_range.filter _

theorem range_map_getD (l : List Nat) : (List.range l.length).map (fun p => l.getD p 0) = l := by
  apply List.ext_getElem
  · simp
  · intro i h1 h2; simp [h2]

theorem length_posOf (sub : List κ) (c : Nat) : (posOf sub c).length = mult sub c := by
  unfold posOf mult
  conv_rhs => rw [← range_map_getD (canon sub)]
  rw [List.count_eq_countP, List.countP_map, List.countP_eq_length_filter, length_canon]
  congr 1

theorem mult_pos (sub : List κ) (c : Nat) (hc : c < ngroups sub) : mult sub c ≠ 0 := by
  obtain ⟨p, hp, e⟩ := canon_surj sub c hc
  rw [← length_posOf]
  intro h
  rw [List.length_eq_zero_iff] at h
  have : p ∈ posOf sub c := mem_posOf.2 ⟨hp, e⟩
  simp [h] at this

/-- The axes in grouped order. -/
def groupedAxes (sub : List κ) : List Nat := ((List.range (ngroups sub)).map (posOf sub)).flatten

theorem mem_groupedAxes {sub : List κ} {p : Nat} : p ∈ groupedAxes sub ↔ p < sub.length := by
  simp only [groupedAxes, List.mem_flatten, List.mem_map, List.mem_range]
  constructor
  · rintro ⟨l, ⟨c, _, rfl⟩, h⟩; exact (mem_posOf.1 h).1
  · intro h; exact ⟨_, ⟨_, canon_lt sub p h, rfl⟩, mem_posOf.2 ⟨h, rfl⟩⟩

theorem nodup_groupedAxes (sub : List κ) : (groupedAxes sub).Nodup := by
  unfold groupedAxes
  rw [List.nodup_flatten]
  constructor
  · intro l hl
    rw [List.mem_map] at hl
    obtain ⟨c, _, rfl⟩ := hl
    exact nodup_posOf sub c
  · rw [List.pairwise_map]
    apply List.nodup_range.imp
    intro a b hab x hx hx'
    rw [mem_posOf] at hx hx'
    exact hab (hx.2.symm.trans hx'.2)

theorem groupedAxes_perm (sub : List κ) : (groupedAxes sub).Perm (List.range sub.length) := by
  rw [List.perm_ext_iff_of_nodup (nodup_groupedAxes sub) List.nodup_range]
  intro a; rw [mem_groupedAxes, List.mem_range]

theorem length_groupedAxes (sub : List κ) : (groupedAxes sub).length = sub.length := by
  simpa using (groupedAxes_perm sub).length_eq

theorem argsort_canon (sub : List κ) : argsort (canon sub) = groupedAxes sub := by
  symm
  apply C13_unique
  · rw [length_canon]; exact groupedAxes_perm sub
  · unfold groupedAxes
    rw [List.pairwise_flatten]
    have get : ∀ c p, p ∈ posOf sub c → (canon sub)[p]? = some c := by
      intro c p hp
      obtain ⟨h1, h2⟩ := mem_posOf.1 hp
      have h3 : p < (canon sub).length := by rw [length_canon]; exact h1
      rw [List.getElem?_eq_getElem h3]
      simpa [h3] using h2
    constructor
    · intro l hl
      rw [List.mem_map] at hl
      obtain ⟨c, _, rfl⟩ := hl
      apply (List.Pairwise.and_mem.1 (sorted_posOf sub c)).imp
      rintro p q ⟨hp, hq, h⟩
      exact ⟨c, c, get c p hp, get c q hq, Or.inr ⟨rfl, h⟩⟩
    · rw [List.pairwise_map]
      apply List.pairwise_lt_range.imp
      intro a b hab p hp q hq
      exact ⟨a, b, get a p hp, get b q hq, Or.inl hab⟩

theorem groupedAxes_perm' (sub : List κ) :
    (groupedAxes sub).Perm (List.range (groupedAxes sub).length) := by
  rw [length_groupedAxes]; exact groupedAxes_perm sub

/-- Codes in grouped order. -/
theorem groupedCodes (sub : List κ) :
    ((groupedAxes sub).map fun p => (canon sub).getD p 0)
      = ((List.range (ngroups sub)).map fun c => List.replicate (mult sub c) c).flatten := by
  unfold groupedAxes
  rw [List.map_flatten, List.map_map]
  congr 1
  apply List.map_congr_left
  intro c _
  rw [Function.comp, ← length_posOf, List.eq_replicate_iff]
  constructor
  · simp
  · intro b hb
    rw [List.mem_map] at hb
    obtain ⟨p, hp, rfl⟩ := hb
    exact (mem_posOf.1 hp).2

theorem groupedCodes_count (sub : List κ) (c : Nat) :
    ((groupedAxes sub).map fun p => (canon sub).getD p 0).count c = mult sub c := by
  have h : ((groupedAxes sub).map fun p => (canon sub).getD p 0).Perm (canon sub) := by
    refine ((groupedAxes_perm sub).map _).trans ?_
    rw [← length_canon sub, range_map_getD]
  exact h.count_eq c

/-- The index tuples of the groups. -/
def groupsOf (sub : List κ) (idx : List Nat) : List (List Nat) :=
  (List.range (ngroups sub)).map fun c => (posOf sub c).map fun p => idx.getD p 0

theorem groupsOf_flatten (sub : List κ) (idx : List Nat) :
    (groupsOf sub idx).flatten = (groupedAxes sub).map fun p => idx.getD p 0 := by
  simp [groupsOf, groupedAxes, List.map_flatten, Function.comp_def]

/-- Lengths of the groups. -/
theorem groupsOf_lengths (sub : List κ) (idx : List Nat) :
    (groupsOf sub idx).map List.length = (List.range (ngroups sub)).map (mult sub) := by
  simp [groupsOf, Function.comp_def, length_posOf]

/-- Size of a group, read off a consistent shape. -/
def gsize (sub : List κ) (shape : List Nat) (c : Nat) : Nat :=
  shape.getD ((canon sub).idxOf c) 0

/-- A shape in which axes with the same symbol have the same size. -/
def Consistent (sub : List κ) (shape : List Nat) : Prop :=
  ∃ sz : κ → Nat, shape = sub.map sz

omit [DecidableEq κ] in
theorem Consistent.length {sub : List κ} {shape : List Nat} (h : Consistent sub shape) :
    shape.length = sub.length := by
  obtain ⟨sz, rfl⟩ := h; simp

theorem Consistent.getD {sub : List κ} {shape : List Nat} (h : Consistent sub shape) (p : Nat)
    (hp : p < sub.length) : shape.getD p 0 = gsize sub shape ((canon sub).getD p 0) := by
  obtain ⟨sz, rfl⟩ := h
  unfold gsize
  have hp' : p < (canon sub).length := by rw [length_canon]; exact hp
  have hmem : (canon sub).getD p 0 ∈ canon sub := by
    simp [hp']
  have hix := List.idxOf_lt_length_of_mem hmem
  have hix' : (canon sub).idxOf ((canon sub).getD p 0) < sub.length := by
    rwa [length_canon] at hix
  have e : (canon sub).getD ((canon sub).idxOf ((canon sub).getD p 0)) 0 = (canon sub).getD p 0 := by
    rw [getD_eq _ _ _ hix]; exact List.getElem_idxOf hix
  have := (canon_eq_iff sub _ p hix' hp).1 e
  rw [getD_eq _ _ _ (by simpa using hp), getD_eq _ _ _ (by simpa using hix')]
  simp only [List.getElem_map, this]

/-- Shapes of the groups. -/
def gshapes (sub : List κ) (shape : List Nat) : List (List Nat) :=
  (List.range (ngroups sub)).map fun c => List.replicate (mult sub c) (gsize sub shape c)

theorem gshapes_flatten {sub : List κ} {shape : List Nat} (h : Consistent sub shape) :
    (gshapes sub shape).flatten = (groupedAxes sub).map fun p => shape.getD p 0 := by
  have : ((groupedAxes sub).map fun p => shape.getD p 0)
      = ((groupedAxes sub).map fun p => (canon sub).getD p 0).map (gsize sub shape) := by
    rw [List.map_map]
    apply List.map_congr_left
    intro p hp
    exact h.getD p (mem_groupedAxes.1 hp)
  rw [this, groupedCodes, gshapes, List.map_flatten, List.map_map]
  congr 1
  apply List.map_congr_left
  intro c _
  simp

theorem sizesLoop_ok (f : Nat → Nat) : ∀ (l : List Nat) (d : Dict Nat Nat),
    (∀ c n, d.get? c = some n → n = f c) →
    ∃ d', sizesLoop (l.zip (l.map f)) d = .ok d' ∧
      (∀ c, c ∈ l → d'.get? c = some (f c)) ∧ (∀ c n, d.get? c = some n → d'.get? c = some n) := by
  intro l
  induction l with
  | nil => intro d hd; exact ⟨d, by simp [sizesLoop]⟩
  | cons a l ih =>
    intro d hd
    simp only [List.map_cons, List.zip_cons_cons, sizesLoop]
    match hg : d.get? a with
    | some m =>
      have hm := hd a m hg
      simp only [hm, if_true]
      obtain ⟨d', h1, h2, h3⟩ := ih d hd
      refine ⟨d', h1, ?_, h3⟩
      intro c hc
      rcases List.mem_cons.1 hc with rfl | hc
      · rw [h3 _ _ hg, hm]
      · exact h2 c hc
    | none =>
      simp only
      obtain ⟨d', h1, h2, h3⟩ := ih (d.set a (f a)) (by
        intro c n hc
        rw [Dict.get?_set] at hc
        split at hc
        · rename_i e; subst e; simpa using hc.symm
        · exact hd c n hc)
      refine ⟨d', h1, ?_, ?_⟩
      · intro c hc
        rcases List.mem_cons.1 hc with rfl | hc
        · apply h3; rw [Dict.get?_set, if_pos rfl]
        · exact h2 c hc
      · intro c n hc
        apply h3
        rw [Dict.get?_set]
        split
        · rename_i e; subst e; rw [hg] at hc; simp at hc
        · exact hc

/-- The sizes found for a consistent shape. -/
theorem sizes_ok {sub : List κ} {shape : List Nat} (h : Consistent sub shape) :
    ∃ d, sizesLoop ((((groupedAxes sub).map fun p => (canon sub).getD p 0)).zip
        ((groupedAxes sub).map fun p => shape.getD p 0)) [] = .ok d ∧
      ∀ c < ngroups sub, (d.get? c).getD 0 = gsize sub shape c := by
  have e : ((groupedAxes sub).map fun p => shape.getD p 0)
      = ((groupedAxes sub).map fun p => (canon sub).getD p 0).map (gsize sub shape) := by
    rw [List.map_map]
    apply List.map_congr_left
    intro p hp
    exact h.getD p (mem_groupedAxes.1 hp)
  rw [e]
  obtain ⟨d, h1, h2, _⟩ := sizesLoop_ok (gsize sub shape)
    ((groupedAxes sub).map fun p => (canon sub).getD p 0) [] (by simp [Dict.get?])
  refine ⟨d, h1, ?_⟩
  intro c hc
  rw [h2 c]
  · rfl
  · obtain ⟨p, hp, e⟩ := canon_surj sub c hc
    rw [List.mem_map]
    exact ⟨p, mem_groupedAxes.2 hp, e⟩

/-- The lower triangular tuples of the groups. -/
def gtrils (sub : List κ) (shape : List Nat) (diag : Bool) : List (List (List Nat)) :=
  (List.range (ngroups sub)).map fun c => decTuples (wOf diag) (mult sub c) (gsize sub shape c)

theorem mapM_ok {α β : Type} (f : α → Except PyErr β) (g : α → β) (l : List α)
    (h : ∀ a ∈ l, f a = .ok (g a)) : l.mapM f = .ok (l.map g) := by
  induction l with
  | nil => rfl
  | cons a l ih =>
    rw [List.mapM_cons, h a (by simp), ih (fun b hb => h b (by simp [hb]))]
    rfl

theorem mem_decTuples_inBox {w d n : Nat} (hw : w ≤ 1) {l : List Nat} (h : l ∈ decTuples w d n) :
    InBox (List.replicate d n) l := by
  have h' : l.length = d ∧ (∀ i ∈ l, i < n) := by
    rcases Nat.le_one_iff_eq_zero_or_eq_one.1 hw with rfl | rfl
    · have := (mem_decTuples_strict d n l).1 h; exact ⟨this.1, this.2.1⟩
    · have := (mem_decTuples_weak d n l).1 h; exact ⟨this.1, this.2.1⟩
  rw [inBox_iff_getD]
  refine ⟨by simp [h'.1], fun p hp => ?_⟩
  have hp' : p < d := by simpa using hp
  have := h'.2 (l[p]'(by omega)) (List.getElem_mem _)
  simpa [hp', h'.1] using this

theorem wOf_le (diag : Bool) : wOf diag ≤ 1 := by cases diag <;> simp [wOf]

/-- Elements of the product of the triangular lists have the right box shape. -/
theorem gtrils_inBox {sub : List κ} {shape : List Nat} {diag : Bool} {ts : List (List Nat)}
    (h : ts ∈ prodL (gtrils sub shape diag)) :
    List.Forall₂ (fun r s => InBox s r) ts (gshapes sub shape) := by
  rw [mem_prodL] at h
  unfold gtrils at h
  unfold gshapes
  rw [List.forall₂_map_right_iff] at h ⊢
  exact h.imp fun a b hab => mem_decTuples_inBox (wOf_le diag) hab

theorem inBox_flatten {rows ss : List (List Nat)} (h : List.Forall₂ (fun r s => InBox s r) rows ss) :
    InBox ss.flatten rows.flatten := by
  induction h with
  | nil => simp [InBox]
  | cons h1 _ ih =>
    rw [List.flatten_cons, List.flatten_cons]
    exact List.rel_append h1 ih

theorem getElem?_prodL_length {α : Type} {ls : List (List α)} {t : List α} (h : t ∈ prodL ls) :
    t.length = ls.length := (mem_prodL.1 h).length_eq

/-- The flattened shapes used for reshaping. -/
theorem fshape_eq (sub : List κ) (shape : List Nat) :
    ((List.range (ngroups sub)).map fun c => gsize sub shape c ^ mult sub c)
      = (gshapes sub shape).map prodN := by
  unfold gshapes
  rw [List.map_map]
  apply List.map_congr_left
  intro c _
  rw [Function.comp, prodN_replicate]

/-- Closed form of `compress_axes` on a consistent array. -/
theorem compressAxes_ok {R : Type} [Zero R] (sub : List κ) (a : NDArray R) (diag : Bool)
    (hc : Consistent sub a.shape) :
    compressAxes sub a diag = .ok ⟨(gtrils sub a.shape diag).map List.length,
      (prodL (gtrils sub a.shape diag)).map fun ts => a.get (unpermute (groupedAxes sub) ts.flatten)⟩
    := by
  unfold compressAxes
  simp only [argsort_canon]
  rw [transpose_ok a _ (by rw [hc.length]; exact groupedAxes_perm sub)]
  simp only [bind, Except.bind]
  obtain ⟨d, h1, h2⟩ := sizes_ok hc
  simp only [NDArray.ofFn_shape, h1, groupedCodes_count]
  have hsz : ∀ c ∈ List.range (unique sub).length, (d.get? c).getD 0 = gsize sub a.shape c :=
    fun c hcm => h2 c (by simpa [ngroups] using hcm)
  have hf : ((List.range (unique sub).length).map fun c => (d.get? c).getD 0 ^ mult sub c)
      = (gshapes sub a.shape).map prodN := by
    rw [← fshape_eq]
    apply List.map_congr_left
    intro c hcm; rw [hsz c hcm]
  rw [hf]
  have hlen : (NDArray.ofFn ((groupedAxes sub).map fun p => a.shape.getD p 0)
      fun T => a.get (unpermute (groupedAxes sub) T)).data.length
        = prodN ((gshapes sub a.shape).map prodN) := by
    rw [NDArray.ofFn_wf, NDArray.ofFn_shape, ← gshapes_flatten hc, prodN_flatten]
  rw [NDArray.reshape, if_pos hlen]
  simp only
  rw [mapM_ok _ (fun c => decTuples (wOf diag) (mult sub c) (gsize sub a.shape c)) _ (by
    intro c hcm
    rw [hsz c hcm]
    exact trilIndices_ok _ _ _ (mult_pos sub c (by simpa [ngroups] using hcm)))]
  simp only [pure, Except.pure, Except.ok.injEq]
  have hinds : List.zipWith (fun c (t : List (List Nat)) =>
      t.map fun row => ravelIdx (List.replicate (mult sub c) ((d.get? c).getD 0)) row)
      (List.range (unique sub).length)
      ((List.range (unique sub).length).map fun c =>
        decTuples (wOf diag) (mult sub c) (gsize sub a.shape c))
      = List.zipWith (fun f l => l.map f) ((gshapes sub a.shape).map ravelIdx)
          (gtrils sub a.shape diag) := by
    unfold gshapes gtrils ngroups
    rw [List.map_map, List.zipWith_map_left, List.zipWith_map_right, List.zipWith_map_right]
    rw [List.zipWith_self, List.zipWith_self]
    apply List.map_congr_left
    intro c hcm
    simp only [Function.comp]
    rw [hsz c hcm]
  rw [hinds]
  unfold takeIx
  congr 1
  · unfold gshapes gtrils
    rw [List.map_map, List.zipWith_map_left, List.zipWith_map_right, List.zipWith_self,
      List.map_map, List.map_map]
    apply List.map_congr_left; intro c _; simp
  · rw [prodL_zipWith_map _ _ (by simp [gshapes, gtrils]), List.map_map]
    apply List.map_congr_left
    intro ts hts
    have hb := gtrils_inBox hts
    have hl : List.Forall₂ (fun (r s : List Nat) => r.length = s.length) ts (gshapes sub a.shape) :=
      hb.imp fun _ _ h => InBox.length_eq h
    simp only [Function.comp, List.zipWith_map_left]
    have hbf := inBox_flatten hb
    rw [gshapes_flatten hc] at hbf
    have e := ravelIdx_flatten hl
    rw [gshapes_flatten hc] at e
    have e2 : List.zipWith (fun (x : List Nat) (y : List Nat) => ravelIdx x y) (gshapes sub a.shape) ts
      = List.zipWith ravelIdx (gshapes sub a.shape) ts := rfl
    rw [e2]
    unfold NDArray.get
    simp only [e]
    have := NDArray.get_ofFn ((groupedAxes sub).map fun p => a.shape.getD p 0)
      (fun T => a.get (unpermute (groupedAxes sub) T)) hbf
    unfold NDArray.get at this
    simpa using this

end
end Ebcc
