import Verif.Model.Strings
import Verif.Lemmas.Py
import Mathlib.Data.List.Perm.Subperm
import Mathlib.Data.List.Count
import Mathlib.Data.List.Nodup

/-!
C02: `permute_string` inverts `get_string_permutation`, and the latter fails exactly when the target
needs a character more often than the string provides it.
-/

namespace Ebcc

/-- Positions of `c` in `s` counted from `k`. -/
private def posFrom (c : Char) : List Char → Nat → List Nat
  | [], _ => []
  | a :: s, k => if a = c then k :: posFrom c s (k + 1) else posFrom c s (k + 1)

private theorem posFrom_mem (c : Char) (s : List Char) (k i : Nat) :
    i ∈ posFrom c s k ↔ k ≤ i ∧ s[i - k]? = some c := by
  induction s generalizing k with
  | nil => simp [posFrom]
  | cons a s ih =>
    simp only [posFrom]
    have key : (k + 1 ≤ i ∧ s[i - (k + 1)]? = some c) ↔
        (k + 1 ≤ i ∧ (a :: s)[i - k]? = some c) := by
      constructor <;> rintro ⟨h1, h2⟩ <;> refine ⟨h1, ?_⟩
      · rw [show i - k = (i - (k + 1)) + 1 by omega]; simpa using h2
      · rw [show i - k = (i - (k + 1)) + 1 by omega] at h2; simpa using h2
    split
    · rename_i h
      simp only [List.mem_cons, ih, key]
      constructor
      · rintro (rfl | ⟨h1, h2⟩)
        · simp [h]
        · exact ⟨by omega, h2⟩
      · rintro ⟨h1, h2⟩
        rcases Nat.eq_or_lt_of_le h1 with h3 | h3
        · exact Or.inl h3.symm
        · exact Or.inr ⟨h3, h2⟩
    · rename_i h
      rw [ih, key]
      constructor
      · rintro ⟨h1, h2⟩; exact ⟨by omega, h2⟩
      · rintro ⟨h1, h2⟩
        refine ⟨?_, h2⟩
        rcases Nat.eq_or_lt_of_le h1 with h3 | h3
        · subst h3; simp at h2; exact absurd h2 h
        · exact h3

private theorem posFrom_sorted (c : Char) (s : List Char) (k : Nat) : (posFrom c s k).Nodup := by
  induction s generalizing k with
  | nil => simp [posFrom]
  | cons a s ih =>
    simp only [posFrom]
    split
    · rw [List.nodup_cons]
      refine ⟨?_, ih _⟩
      rw [posFrom_mem]; omega
    · exact ih _

private theorem posFrom_length (c : Char) (s : List Char) (k : Nat) :
    (posFrom c s k).length = s.count c := by
  induction s generalizing k with
  | nil => simp [posFrom]
  | cons a s ih =>
    simp only [posFrom, List.count_cons]
    by_cases h : a = c <;> simp [h, ih]

private theorem foldl_positions (s : List Char) (k : Nat) (d : Dict Char (List Nat))
    (hd : ∀ c ∈ s, ∃ l, d.get? c = some l) (c : Char) :
    ((s.zipIdx k).foldl (fun d (x : Char × Nat) => d.set x.1 ((d.get? x.1).getD [] ++ [x.2])) d).get? c
      = (d.get? c).map (· ++ posFrom c s k) := by
  induction s generalizing k d with
  | nil => simp [posFrom]
  | cons a s ih =>
    simp only [List.zipIdx_cons, List.foldl_cons]
    rw [ih]
    · rw [Dict.get?_set]
      obtain ⟨l, hl⟩ := hd a (by simp)
      simp only [posFrom]
      by_cases h : a = c
      · subst h; simp [hl]
      · simp [h]
    · intro c' hc'
      rw [Dict.get?_set]
      split
      · exact ⟨_, rfl⟩
      · exact hd c' (by simp [hc'])

private theorem init_get (s : List Char) (c : Char) :
    Dict.get? (s.eraseDups.map fun c => (c, ([] : List Nat))) c = if c ∈ s then some [] else none := by
  have : ∀ l : List Char, Dict.get? (l.map fun c => (c, ([] : List Nat))) c
      = if c ∈ l then some [] else none := by
    intro l
    induction l with
    | nil => simp [Dict.get?]
    | cons a l ih =>
      simp only [List.map_cons, Dict.get?, ih, List.mem_cons]
      by_cases h : a = c
      · simp [h]
      · simp [h, Ne.symm h]
  rw [this]; simp

private theorem charPositions_get (s : List Char) (c : Char) :
    (charPositions s).get? c = if c ∈ s then some (posFrom c s 0) else none := by
  have := foldl_positions s 0 (s.eraseDups.map fun c => (c, ([] : List Nat)))
    (by intro c hc; rw [init_get, if_pos hc]; exact ⟨_, rfl⟩) c
  unfold charPositions
  rw [init_get] at this
  refine this.trans ?_
  split <;> simp

/-- Main loop invariant. -/
private theorem takePositions_ok (s : List Char) : ∀ (t : List Char) (d : Dict Char (List Nat)),
    (∀ c l, d.get? c = some l → l.Nodup ∧ ∀ i ∈ l, s[i]? = some c) →
    (∀ c, t.count c ≤ ((d.get? c).getD []).length) →
    ∃ perm, takePositions d t = .ok perm ∧ permuteString s perm = .ok t ∧ perm.Nodup ∧
      ∀ i ∈ perm, ∃ c l, d.get? c = some l ∧ i ∈ l := by
  intro t
  induction t with
  | nil => intro d _ _; exact ⟨[], rfl, rfl, by simp, by simp⟩
  | cons c t ih =>
    intro d hd hc
    have h1 := hc c
    simp only [List.count_cons_self] at h1
    match hg : d.get? c with
    | none => simp [hg] at h1
    | some [] => simp [hg] at h1
    | some (i :: is) =>
      obtain ⟨hnd, hpos⟩ := hd c _ hg
      have hdi : ∀ c' l, (d.set c is).get? c' = some l →
          l.Nodup ∧ ∀ j ∈ l, s[j]? = some c' := by
        intro c' l hl
        rw [Dict.get?_set] at hl
        split at hl
        · rename_i e; subst e; simp at hl; subst hl
          exact ⟨(List.nodup_cons.1 hnd).2, fun j hj => hpos j (by simp [hj])⟩
        · exact hd c' l hl
      have hci : ∀ c', t.count c' ≤ (((d.set c is).get? c').getD []).length := by
        intro c'
        rw [Dict.get?_set]
        split
        · rename_i e; subst e
          rw [hg] at h1; simp at h1 ⊢; omega
        · have := hc c'
          rw [List.count_cons_of_ne (by assumption)] at this
          exact this
      obtain ⟨perm, hp, hs, hn, hm⟩ := ih _ hdi hci
      refine ⟨i :: perm, ?_, ?_, ?_, ?_⟩
      · simp only [takePositions, hg, hp]; rfl
      · have hi := hpos i (by simp)
        simp only [permuteString, List.mapM_cons, strIndex, hi] at hs ⊢
        simp only [hs]; rfl
      · rw [List.nodup_cons]
        refine ⟨?_, hn⟩
        intro hmem
        obtain ⟨c', l, hl, hil⟩ := hm i hmem
        have e1 := (hdi c' l hl).2 i hil
        have e2 := hpos i (by simp)
        have e3 : c' = c := by rw [e1] at e2; exact Option.some.inj e2
        subst e3
        rw [Dict.get?_set] at hl; simp at hl; subst hl
        exact (List.nodup_cons.1 hnd).1 hil
      · intro j hj
        rcases List.mem_cons.1 hj with rfl | hj
        · exact ⟨c, _, hg, by simp⟩
        · obtain ⟨c', l, hl, hil⟩ := hm j hj
          rw [Dict.get?_set] at hl
          split at hl
          · rename_i e; subst e; simp at hl; subst hl
            exact ⟨c, _, hg, by simp [hil]⟩
          · exact ⟨c', l, hl, hil⟩

private theorem takePositions_fail : ∀ (t : List Char) (d : Dict Char (List Nat)) (c : Char),
    ((d.get? c).getD []).length < t.count c →
    takePositions d t = .error .keyError ∨ takePositions d t = .error .indexError := by
  intro t
  induction t with
  | nil => intro d c h; simp at h
  | cons a t ih =>
    intro d c h
    match hg : d.get? a with
    | none => left; simp [takePositions, hg]
    | some [] => right; simp [takePositions, hg]
    | some (i :: is) =>
      have : takePositions (d.set a is) t = .error .keyError ∨
          takePositions (d.set a is) t = .error .indexError := by
        apply ih _ c
        rw [Dict.get?_set]
        by_cases e : a = c
        · subst e; rw [hg] at h; simp at h ⊢; omega
        · rw [if_neg e]; rwa [List.count_cons_of_ne e] at h
      rcases this with h | h
      · left; simp only [takePositions, hg, h]; rfl
      · right; simp only [takePositions, hg, h]; rfl

private theorem charPositions_len (s : List Char) (c : Char) :
    (((charPositions s).get? c).getD []).length = s.count c := by
  rw [charPositions_get]
  split
  · simp [posFrom_length]
  · rename_i h; simp [List.count_eq_zero.2 h]

/-- C02: for every target that uses no character more often than the string contains it, the
permutation found reproduces the target, and uses no position twice. -/
theorem C02_roundtrip (s t : List Char) (h : ∀ c, t.count c ≤ s.count c) :
    ∃ perm, getStringPermutation s t = .ok perm ∧ permuteString s perm = .ok t ∧ perm.Nodup := by
  obtain ⟨perm, h1, h2, h3, _⟩ := takePositions_ok s t (charPositions s)
    (by
      intro c l hl
      rw [charPositions_get] at hl
      split at hl
      · simp at hl; subst hl
        refine ⟨posFrom_sorted _ _ _, fun i hi => ?_⟩
        have := (posFrom_mem _ _ _ _).1 hi
        simpa using this.2
      · simp at hl)
    (by intro c; rw [charPositions_len]; exact h c)
  exact ⟨perm, h1, h2, h3⟩

private theorem permuteString_bound (s : List Char) : ∀ (perm : List Nat) (t : List Char),
    permuteString s perm = .ok t → perm.length = t.length ∧ ∀ i ∈ perm, i < s.length := by
  intro perm
  induction perm with
  | nil => intro t h; simp [permuteString, pure, Except.pure] at h; simp [h]
  | cons i perm ih =>
    intro t h
    simp only [permuteString, List.mapM_cons, strIndex] at h
    match hi : s[i]? with
    | none => rw [hi] at h; simp [bind, Except.bind] at h
    | some c =>
      rw [hi] at h
      simp only [bind, Except.bind] at h
      split at h
      · simp at h
      · rename_i v hv
        simp [pure, Except.pure] at h
        subst h
        obtain ⟨h1, h2⟩ := ih v hv
        refine ⟨by simp [h1], ?_⟩
        intro j hj
        rcases List.mem_cons.1 hj with rfl | hj
        · exact (List.getElem?_eq_some_iff.1 hi).1
        · exact h2 j hj

/-- C02: if the target is a rearrangement of the string, the result is a permutation of all the
positions. -/
theorem C02_rearrangement (s t : List Char) (h : t.Perm s) :
    ∃ perm, getStringPermutation s t = .ok perm ∧ permuteString s perm = .ok t ∧
      perm.Perm (List.range s.length) := by
  obtain ⟨perm, h1, h2, h3⟩ := C02_roundtrip s t (fun c => Nat.le_of_eq (h.count_eq c))
  refine ⟨perm, h1, h2, ?_⟩
  obtain ⟨hl, hb⟩ := permuteString_bound s perm t h2
  have hsub : perm ⊆ List.range s.length := fun i hi => List.mem_range.2 (hb i hi)
  have := (List.subperm_of_subset h3 hsub)
  exact this.perm_of_length_le (by simp [hl, h.length_eq])

/-- C02: if some character is needed more often than available the call raises (`KeyError` or
`IndexError`). -/
theorem C02_failure (s t : List Char) (c : Char) (h : s.count c < t.count c) :
    getStringPermutation s t = .error .keyError ∨ getStringPermutation s t = .error .indexError := by
  apply takePositions_fail t (charPositions s) c
  rw [charPositions_len]; exact h

/-- Non-vacuity, with repeated characters: the docstring example of permutations.py:60. -/
example : "jjii".toList.Perm "iijj".toList ∧
    getStringPermutation "iijj".toList "jjii".toList = .ok [2, 3, 0, 1] := by decide

/-- Non-vacuity of the failing case. -/
example : "ij".toList.count 'i' < "ii".toList.count 'i' := by decide

/-- The docstring of permutations.py:41-42 claims `permute_string("abcd", (2, 0, 3, 1)) = "cbda"`;
the function returns `"cadb"`. -/
theorem C02_docstring_disagrees :
    permuteString "abcd".toList [2, 0, 3, 1] = .ok "cadb".toList := by decide

end Ebcc
