import Verif.Thms.C32
import Verif.Thms.C39
import Verif.Lemmas.USpin
import Verif.Model.Rdm

/-!
Lemmas about the amplitude updates.
-/

namespace Ebcc

open Dict

/-! ### Dictionaries -/

theorem set_mid {κ ν : Type} [DecidableEq κ] (pre post : Dict κ ν) (k : κ) (v w : ν) (h : k ∉ pre.keys) :
    Dict.set (pre ++ (k, v) :: post) k w = pre ++ (k, w) :: post := by
  induction pre with
  | nil => simp [Dict.set]
  | cons p pre ih =>
    obtain ⟨a, b⟩ := p
    simp only [Dict.keys, List.map_cons, List.mem_cons, not_or] at h
    rw [List.cons_append, Dict.set, if_neg (Ne.symm h.1), ih h.2]
    rfl

theorem get?_mid {κ ν : Type} [DecidableEq κ] (pre post : Dict κ ν) (k : κ) (v : ν) (h : k ∉ pre.keys) :
    Dict.get? (pre ++ (k, v) :: post) k = some v := by
  rw [get?_append, (get?_eq_none_iff _ _).2 h]
  simp [Dict.get?]

theorem get?_map_mem {κ ν α : Type} [DecidableEq κ] (L : List α) (f : α → κ) (g : α → ν) (hn : (L.map f).Nodup)
    (a : α) (ha : a ∈ L) : Dict.get? (L.map fun a => (f a, g a)) (f a) = some (g a) := by
  induction L with
  | nil => simp at ha
  | cons b L ih =>
    rw [List.map_cons, List.nodup_cons] at hn
    rw [List.map_cons, Dict.get?]
    rcases List.mem_cons.1 ha with rfl | ha'
    · simp
    · rw [if_neg, ih hn.2 ha']
      intro h
      exact hn.1 (h ▸ List.mem_map_of_mem ha')

theorem foldl_set_new {κ ν : Type} [DecidableEq κ] (l pre : Dict κ ν) (hn : (pre.keys ++ Dict.keys l).Nodup) :
    l.foldl (fun d p => d.set p.1 p.2) pre = pre ++ l := by
  induction l generalizing pre with
  | nil => simp
  | cons p l ih =>
    obtain ⟨k, v⟩ := p
    have hk : k ∉ pre.keys := by
      intro h
      rw [List.nodup_append] at hn
      exact hn.2.2 k h k (by simp [Dict.keys]) rfl
    have hset : Dict.set pre k v = pre ++ [(k, v)] := by
      clear hn ih
      induction pre with
      | nil => rfl
      | cons q pre ihp =>
        obtain ⟨a, b⟩ := q
        simp only [Dict.keys, List.map_cons, List.mem_cons, not_or] at hk
        rw [Dict.set, if_neg (Ne.symm hk.1), ihp hk.2]
        rfl
    rw [List.foldl_cons, hset, ih]
    · simp
    · simpa [Dict.keys] using hn

/-! ### Renaming -/

/-- The name does not end in one of the letters that `rstrip("new")` removes. -/
def EndsPlain (s : List Char) : Prop := ∃ i c, s = i ++ [c] ∧ c ∉ ['n', 'e', 'w']

theorem rstripNew_append (s : List Char) (h : EndsPlain s) : rstripNew (s ++ "new".toList) = s := by
  obtain ⟨i, c, rfl, hc⟩ := h
  unfold rstripNew
  have e : (i ++ [c] ++ "new".toList).reverse = 'w' :: 'e' :: 'n' :: c :: i.reverse := by simp
  rw [e, List.dropWhile_cons_of_pos (by decide), List.dropWhile_cons_of_pos (by decide),
    List.dropWhile_cons_of_pos (by decide), List.dropWhile_cons_of_neg (by simpa using hc)]
  simp

theorem renameNew_names {V α : Type} (L : List α) (f : α → List Char) (g : α → V) (hn : (L.map f).Nodup)
    (he : ∀ a ∈ L, EndsPlain (f a)) :
    renameNew (L.map fun a => (f a ++ "new".toList, g a)) = L.map fun a => (f a, g a) := by
  have key : renameNew (L.map fun a => (f a ++ "new".toList, g a))
      = (L.map fun a => (f a, g a)).foldl (fun d p => Dict.set d p.1 p.2) [] := by
    unfold renameNew
    rw [List.foldl_map, List.foldl_map]
    have : ∀ (l : List α) (d : Dict (List Char) V), (∀ a ∈ l, EndsPlain (f a)) →
        l.foldl (fun d a => Dict.set d (rstripNew (f a ++ "new".toList)) (g a)) d
          = l.foldl (fun d a => Dict.set d (f a) (g a)) d := by
      intro l
      induction l with
      | nil => intro d _; rfl
      | cons a l ih =>
        intro d h
        rw [List.foldl_cons, List.foldl_cons, rstripNew_append _ (h a (by simp)), ih _ fun b hb => h b (by simp [hb])]
    exact this L [] he
  rw [key, foldl_set_new]
  · rfl
  · simpa [Dict.keys, List.map_map, Function.comp_def] using hn

/-! ### Entries -/

/-- Names and keys of all amplitudes, in order. -/
def entries (fs bs : List Rank) (cs : List CRank) : List (List Char × List Char) :=
  (fs.map fun r => (r.1, r.2.1)) ++ ((bs.map fun r => (r.1, r.2.1)) ++ cs.map fun r => (r.1, r.2.1))

theorem digitChar_plain : ∀ n < 10, Nat.digitChar n ∉ ['n', 'e', 'w'] := by decide

theorem toDigits_plain : ∀ n < 10, ∃ c, Nat.toDigits 10 n = [c] ∧ c ∉ ['n', 'e', 'w'] := by
  intro n hn
  exact ⟨Nat.digitChar n, by revert n; decide, digitChar_plain n hn⟩

/-- What is used of the entries: keys are short and made of known classes, names end in a digit or in `a`, `b`. -/
structure GoodEntry (e : List Char × List Char) : Prop where
  ne : e.2 ≠ []
  short : e.2.length ≤ 26
  chars : ∀ c ∈ e.2, c ∈ "vVaoOib".toList
  plain : EndsPlain e.1

theorem goodEntry_f {ansatz : List Char} {spin : SpinType} {which : Which} {fs : List Rank}
    (h : fermionicClusterRanks ansatz spin which = .ok fs) (hw : which = .t ∨ which = .l) (r : Rank) (hr : r ∈ fs) :
    GoodEntry (r.1, r.2.1) := by
  obtain ⟨k, rfl⟩ := (C24_well_formed ansatz spin which fs h).2.2 r hr
  have hp : ∀ s : List Char, s ≠ [] → (∀ c, s.getLast? = some c → c ∉ ['n', 'e', 'w']) → EndsPlain s := by
    intro s hs hc
    exact ⟨s.dropLast, s.getLast hs, (List.dropLast_append_getLast hs).symm, hc _ (List.getLast?_eq_some_getLast hs)⟩
  rcases hw with rfl | rfl
  · refine ⟨?_, ?_, ?_, hp _ ?_ ?_⟩
    · cases k <;> decide
    · cases k <;> decide
    · cases k <;> decide
    · cases k <;> decide
    · cases k <;> (intro c hc; cases hc; decide)
  · refine ⟨?_, ?_, ?_, hp _ ?_ ?_⟩
    · cases k <;> decide
    · cases k <;> decide
    · cases k <;> decide
    · cases k <;> decide
    · cases k <;> (intro c hc; cases hc; decide)

theorem goodEntry_b {op : List Char} {which : Which} {bs : List Rank}
    (h : bosonicClusterRanks op which = .ok bs) (r : Rank) (hr : r ∈ bs) :
    GoodEntry (r.1, r.2.1) ∧ r.2.1 = List.replicate r.2.2 'b' := by
  obtain ⟨n, hn, rfl⟩ := (boson_well_formed h).2 r hr
  refine ⟨⟨?_, ?_, ?_, ?_⟩, rfl⟩
  · rcases hn with rfl | rfl | rfl <;> simp [bosonEntry]
  · rcases hn with rfl | rfl | rfl <;> simp [bosonEntry]
  · intro c hc
    simp only [bosonEntry, List.mem_replicate] at hc
    rw [hc.2]; decide
  · obtain ⟨c, hc, hp⟩ := toDigits_plain n (by omega)
    exact ⟨_, c, by simp only [bosonEntry]; rw [hc], hp⟩

theorem goodEntry_c {nf nb : Nat} {which : Which} {cs : List CRank}
    (h : couplingClusterRanks nf nb which = .ok cs) (hw : which = .t ∨ which = .l) (h9 : nb ≤ 9) (r : CRank)
    (hr : r ∈ cs) (h1 : r.2.2.1 = 1) :
    GoodEntry (r.1, r.2.1) ∧ (r.2.1 = List.replicate r.2.2.2 'b' ++ ['o', 'v'] ∨
      r.2.1 = List.replicate r.2.2.2 'b' ++ ['v', 'o']) := by
  have key : ∀ (x : List Char) (j : Nat) (pre : List Char), j + 1 ≤ 9 → (x = ['o', 'v'] ∨ x = ['v', 'o']) →
      GoodEntry (pre ++ Nat.toDigits 10 (j + 1), List.replicate (j + 1) 'b' ++ x) := by
    intro x j pre hj hx
    have hx2 : x.length = 2 := by rcases hx with rfl | rfl <;> rfl
    refine ⟨?_, ?_, ?_, ?_⟩
    · simp [List.replicate_succ]
    · simp only [List.length_append, List.length_replicate, hx2]; omega
    · intro c hc
      simp only [List.mem_append, List.mem_replicate] at hc
      rcases hc with hc | hc
      · rw [hc.2]; decide
      · rcases hx with rfl | rfl <;> (revert c; decide)
    · obtain ⟨c, hc, hp⟩ := toDigits_plain (j + 1) (by omega)
      exact ⟨pre, c, by simp only; rw [hc], hp⟩
  rcases hw with rfl | rfl
  · rw [(C24_coupling nf nb).1] at h
    cases h
    simp only [List.mem_flatMap, List.mem_map, List.mem_range] at hr
    obtain ⟨i, hi, j, hj, rfl⟩ := hr
    simp only at h1
    have hi0 : i = 0 := by omega
    subst hi0
    refine ⟨?_, Or.inl rfl⟩
    have := key ['o', 'v'] j ('u' :: Nat.toDigits 10 (0 + 1)) (by omega) (Or.inl rfl)
    simpa using this
  · rw [(C24_coupling nf nb).2] at h
    cases h
    simp only [List.mem_flatMap, List.mem_map, List.mem_range] at hr
    obtain ⟨i, hi, j, hj, rfl⟩ := hr
    simp only at h1
    have hi0 : i = 0 := by omega
    subst hi0
    refine ⟨?_, Or.inr rfl⟩
    have := key ['v', 'o'] j ('l' :: 'u' :: Nat.toDigits 10 (0 + 1)) (by omega) (Or.inr rfl)
    simpa using this

theorem good_entries {a : Ansatz} {spin : SpinType} {which : Which} {fs bs : List Rank} {cs : List CRank}
    (h : HasRanks a spin which fs bs cs) (hw : which = .t ∨ which = .l) (h9 : a.bosonCouplingRank ≤ 9)
    (h1 : ∀ r ∈ cs, r.2.2.1 = 1) (e : List Char × List Char) (he : e ∈ entries fs bs cs) : GoodEntry e := by
  unfold entries at he
  simp only [List.mem_append, List.mem_map] at he
  rcases he with ⟨r, hr, rfl⟩ | ⟨r, hr, rfl⟩ | ⟨r, hr, rfl⟩
  · exact goodEntry_f h.f hw r hr
  · exact (goodEntry_b h.b r hr).1
  · exact (goodEntry_c h.c hw h9 r hr (h1 r hr)).1

/-! ### Arithmetic of arrays -/

section
variable {K : Type}

theorem div_ok [Field K] (a b : NDArray K) (ha : a.WF) (hb : b.WF) (hs : a.shape = b.shape) :
    ∃ q, a.div b = .ok q ∧ q.shape = a.shape ∧ q.WF ∧ ∀ idx, q.get idx = a.get idx / b.get idx := by
  refine ⟨⟨a.shape, List.zipWith (· / ·) a.data b.data⟩, by rw [NDArray.div, if_pos hs], rfl, ?_, fun idx => ?_⟩
  · unfold NDArray.WF at *
    simp only [List.length_zipWith, ha, hb, ← hs, min_self]
  · unfold NDArray.get
    simp only [List.getD_eq_getElem?_getD, List.getElem?_zipWith, hs]
    have hl : a.data.length = b.data.length := by rw [ha, hb, hs]
    cases h1 : a.data[ravelIdx b.shape idx]? with
    | none => simp
    | some x =>
      obtain ⟨hx, -⟩ := List.getElem?_eq_some_iff.1 h1
      rw [List.getElem?_eq_getElem (by omega : ravelIdx b.shape idx < b.data.length)]
      simp

theorem add_ok [Ring K] (a b : NDArray K) (ha : a.WF) (hb : b.WF) (hs : a.shape = b.shape) :
    ∃ q, a.add b = .ok q ∧ q.shape = a.shape ∧ q.WF ∧ ∀ idx, q.get idx = a.get idx + b.get idx := by
  refine ⟨⟨a.shape, List.zipWith (· + ·) a.data b.data⟩, by rw [NDArray.add, if_pos hs], rfl, ?_, fun idx => ?_⟩
  · unfold NDArray.WF at *
    simp only [List.length_zipWith, ha, hb, ← hs, min_self]
  · unfold NDArray.get
    simp only [List.getD_eq_getElem?_getD, List.getElem?_zipWith, hs]
    have hl : a.data.length = b.data.length := by rw [ha, hb, hs]
    cases h1 : a.data[ravelIdx b.shape idx]? with
    | none =>
      have : b.data[ravelIdx b.shape idx]? = none := by
        rw [List.getElem?_eq_none_iff] at h1 ⊢; omega
      simp [this]
    | some x =>
      obtain ⟨hx, -⟩ := List.getElem?_eq_some_iff.1 h1
      rw [List.getElem?_eq_getElem (by omega : ravelIdx b.shape idx < b.data.length)]
      simp

theorem mul_ok [Field K] (a b : NDArray K) (ha : a.WF) (hb : b.WF) (hs : a.shape = b.shape) :
    ∃ q, a.mul b = .ok q ∧ q.shape = a.shape ∧ q.WF ∧ ∀ idx, q.get idx = a.get idx * b.get idx := by
  refine ⟨⟨a.shape, List.zipWith (· * ·) a.data b.data⟩, by rw [NDArray.mul, if_pos hs], rfl, ?_, fun idx => ?_⟩
  · unfold NDArray.WF at *
    simp only [List.length_zipWith, ha, hb, ← hs, min_self]
  · unfold NDArray.get
    simp only [List.getD_eq_getElem?_getD, List.getElem?_zipWith, hs]
    have hl : a.data.length = b.data.length := by rw [ha, hb, hs]
    cases h1 : a.data[ravelIdx b.shape idx]? with
    | none => simp
    | some x =>
      obtain ⟨hx, -⟩ := List.getElem?_eq_some_iff.1 h1
      rw [List.getElem?_eq_getElem (by omega : ravelIdx b.shape idx < b.data.length)]
      simp

theorem map_get [Zero K] (a : NDArray K) (f : K → K) (hf : f 0 = 0) (idx : List Nat) : (a.map f).get idx = f (a.get idx) := by
  unfold NDArray.get NDArray.map
  simp only [List.getD_eq_getElem?_getD, List.getElem?_map]
  cases a.data[ravelIdx a.shape idx]? <;> simp [hf]

theorem transpose_spec {R : Type} [Zero R] (a : NDArray R) (axes : List Nat)
    (hp : axes.Perm (List.range a.shape.length)) :
    ∃ b, a.transpose axes = .ok b ∧ b.WF ∧ b.shape = (axes.map fun p => a.shape.getD p 0) ∧
      ∀ idx, ValidIdx a.shape idx → b.get (axes.map fun p => idx.getD p 0) = a.get idx := by
  refine ⟨_, transpose_ok a axes hp, NDArray.ofFn_wf _ _, rfl, fun idx hidx => ?_⟩
  have hl : axes.length = a.shape.length := by simpa using hp.length_eq
  have hp' : axes.Perm (List.range axes.length) := by rw [hl]; exact hp
  have hil : idx.length = axes.length := by rw [hl]; exact List.Forall₂.length_eq hidx
  rw [NDArray.get_ofFn]
  · rw [unpermute_map hp' hil]
  · have hlt : ∀ p ∈ axes, p < a.shape.length := fun p hm => by simpa using hp.mem_iff.1 hm
    unfold InBox
    rw [List.forall₂_map_left_iff, List.forall₂_map_right_iff, List.forall₂_same]
    intro p hm
    have h1 := hlt p hm
    have h2 : p < idx.length := by omega
    have := (List.forall₂_iff_get.1 hidx).2 p h2 h1
    simpa [List.getElem?_eq_getElem h1, List.getElem?_eq_getElem h2] using this

/-- As `transpose_spec`, read from the result. -/
theorem transpose_get {R : Type} [Zero R] (a : NDArray R) (axes : List Nat)
    (hp : axes.Perm (List.range a.shape.length)) :
    ∃ b, a.transpose axes = .ok b ∧ b.WF ∧ b.shape = (axes.map fun p => a.shape.getD p 0) ∧
      ∀ idx, ValidIdx b.shape idx → b.get idx = a.get (unpermute axes idx) :=
  ⟨_, transpose_ok a axes hp, NDArray.ofFn_wf _ _, rfl, fun idx hidx => NDArray.get_ofFn _ _ hidx⟩

theorem validIdx_cons (n : Nat) (s : List Nat) (i : Nat) (idx : List Nat) :
    ValidIdx (n :: s) (i :: idx) ↔ i < n ∧ ValidIdx s idx := List.forall₂_cons

theorem validIdx_nil : ValidIdx [] [] := List.Forall₂.nil

theorem validIdx_cons_iff (n : Nat) (s idx : List Nat) :
    ValidIdx (n :: s) idx ↔ ∃ i t, idx = i :: t ∧ i < n ∧ ValidIdx s t := by
  constructor
  · intro h
    cases h with
    | cons h1 h2 => exact ⟨_, _, rfl, h1, h2⟩
  · rintro ⟨i, t, rfl, h1, h2⟩
    exact (validIdx_cons _ _ _ _).2 ⟨h1, h2⟩

theorem validIdx_nil_iff (idx : List Nat) : ValidIdx [] idx ↔ idx = [] := by
  constructor
  · intro h; cases h; rfl
  · rintro rfl; exact validIdx_nil

end

end Ebcc
