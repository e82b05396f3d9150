import Verif.Model.Ansatz
import Mathlib.Tactic.Push

/-!
C23: method names and module identifiers.
-/

namespace Ebcc

/-- Opening and closing brackets `p`, `q` alternate, the next one being an opening one if `o`. -/
def Alternating (p q : Char) : Bool → List Char → Prop
  | _, [] => True
  | o, c :: l =>
    if c = p ∨ c = q then c = (if o then p else q) ∧ Alternating p q (!o) l else Alternating p q o l

instance (p q : Char) (o : Bool) (l : List Char) : Decidable (Alternating p q o l) := by
  induction l generalizing o with
  | nil => exact isTrue trivial
  | cons c l ih =>
    unfold Alternating
    split
    · have := ih (!o); exact inferInstance
    · exact ih o

/-- The code of one character. -/
def encChar (c : Char) : List Char :=
  if c.isLower then ['w', c, 'w']
  else if c = '(' ∨ c = ')' then ['x']
  else if c = '[' ∨ c = ']' then ['y']
  else if c = '-' then ['_']
  else if c = '\'' then ['p']
  else [c]

theorem nameToIdentifier_eq (name : List Char) : nameToIdentifier name = name.flatMap encChar := by
  simp only [nameToIdentifier, replaceChar, List.map_flatMap]
  congr 1
  funext c
  unfold encChar
  by_cases hl : c.isLower = true
  · have hne : ∀ d : Char, d.isLower = false → c ≠ d := by
      rintro d hd rfl; rw [hl] at hd; cases hd
    rw [if_pos hl, if_pos hl]
    simp [hne '(' rfl, hne ')' rfl, hne '[' rfl, hne ']' rfl, hne '-' rfl, hne '\'' rfl]
  · rw [if_neg hl, if_neg hl]
    by_cases h1 : c = '('
    · subst h1; decide
    by_cases h2 : c = ')'
    · subst h2; decide
    by_cases h3 : c = '['
    · subst h3; decide
    by_cases h4 : c = ']'
    · subst h4; decide
    by_cases h5 : c = '-'
    · subst h5; decide
    by_cases h6 : c = '\''
    · subst h6; decide
    simp [h1, h2, h3, h4, h5, h6]

/-! ### The loop over brackets -/

/-- All occurrences of `a` replaced by opening and closing parentheses in turn. -/
def altReplace (a : Char) : Bool → List Char → List Char
  | _, [] => []
  | o, c :: l => if c = a then (if o then '(' else ')') :: altReplace a (!o) l else c :: altReplace a o l

theorem altReplace_first (a : Char) (h2 : ')' ≠ a) (l : List Char) :
    altReplace a true (replaceFirst a ')' l) = altReplace a false l := by
  induction l with
  | nil => rfl
  | cons c l ih =>
    by_cases hc : c = a
    · simp [replaceFirst, altReplace, hc, h2]
    · simp [replaceFirst, altReplace, hc, ih]

theorem altReplace_pass (a : Char) (h1 : '(' ≠ a) (h2 : ')' ≠ a) (l : List Char) :
    altReplace a true (replaceFirst a ')' (replaceFirst a '(' l)) = altReplace a true l := by
  induction l with
  | nil => rfl
  | cons c l ih =>
    by_cases hc : c = a
    · simp [replaceFirst, altReplace, hc, h1, altReplace_first a h2]
    · simp [replaceFirst, altReplace, hc, ih]

theorem altReplace_of_notMem (a : Char) (o : Bool) (l : List Char) (h : a ∉ l) : altReplace a o l = l := by
  induction l with
  | nil => rfl
  | cons c l ih =>
    rw [List.mem_cons, not_or] at h
    rw [altReplace, if_neg fun hc => h.1 hc.symm, ih h.2]

theorem count_replaceFirst_le (a b : Char) (h : b ≠ a) (l : List Char) :
    (replaceFirst a b l).count a ≤ l.count a := by
  induction l with
  | nil => simp [replaceFirst]
  | cons c l ih =>
    by_cases hc : c = a
    · simp [replaceFirst, hc, h]
    · simp [replaceFirst, hc, ih]

theorem count_replaceFirst_lt (a b : Char) (h : b ≠ a) (l : List Char) (hm : a ∈ l) :
    (replaceFirst a b l).count a < l.count a := by
  induction l with
  | nil => simp at hm
  | cons c l ih =>
    by_cases hc : c = a
    · simp [replaceFirst, hc, h]
    · simp [replaceFirst, hc]
      exact ih (by rcases List.mem_cons.1 hm with h | h; · exact absurd h.symm hc
                   · exact h)

theorem bracketLoop_eq (a : Char) (h1 : '(' ≠ a) (h2 : ')' ≠ a) (k : Nat) (l : List Char)
    (hk : l.count a ≤ k) : bracketLoop a k l = altReplace a true l := by
  induction k generalizing l with
  | zero =>
    rw [bracketLoop, altReplace_of_notMem]
    exact List.count_eq_zero.1 (Nat.le_zero.1 hk)
  | succ k ih =>
    rw [bracketLoop]
    split
    · rename_i hm
      have e1 := count_replaceFirst_lt a '(' h1 l hm
      have e2 := count_replaceFirst_le a ')' h2 (replaceFirst a '(' l)
      rw [ih _ (by omega), altReplace_pass a h1 h2]
    · rename_i hm
      rw [altReplace_of_notMem _ _ _ hm]

theorem identifierToName_eq (iden : List Char) :
    identifierToName iden =
      replaceChar 'p' '\'' (altReplace 'y' true (altReplace 'x' true
        ((replaceChar '-' '_' iden).filter (· ≠ 'w')))) := by
  unfold identifierToName
  simp only
  rw [bracketLoop_eq 'y' (by decide) (by decide) _ _ List.count_le_length,
    bracketLoop_eq 'x' (by decide) (by decide) _ _ List.count_le_length]

theorem mem_altReplace {a : Char} {o : Bool} {l : List Char} {c : Char} (h : c ∈ altReplace a o l) :
    c = '(' ∨ c = ')' ∨ (c ∈ l ∧ c ≠ a) := by
  induction l generalizing o with
  | nil => simp [altReplace] at h
  | cons d l ih =>
    rw [altReplace] at h
    split at h
    · rcases List.mem_cons.1 h with h | h
      · cases o
        · exact Or.inr (Or.inl (by simpa using h))
        · exact Or.inl (by simpa using h)
      · rcases ih h with h | h | h
        · exact Or.inl h
        · exact Or.inr (Or.inl h)
        · exact Or.inr (Or.inr ⟨List.mem_cons_of_mem _ h.1, h.2⟩)
    · rename_i hd
      rcases List.mem_cons.1 h with h | h
      · subst h; exact Or.inr (Or.inr ⟨List.mem_cons_self, hd⟩)
      · rcases ih h with h | h | h
        · exact Or.inl h
        · exact Or.inr (Or.inl h)
        · exact Or.inr (Or.inr ⟨List.mem_cons_of_mem _ h.1, h.2⟩)

/-- No name with a hyphen, a square bracket or one of the letters w, x, y, p survives the round trip. -/
theorem C23_roundtrip_fails (name : List Char) (c : Char) (hc : c ∈ name)
    (hbad : c = '-' ∨ c = '[' ∨ c = ']' ∨ c = 'w' ∨ c = 'x' ∨ c = 'y' ∨ c = 'p') :
    identifierToName (nameToIdentifier name) ≠ name := by
  intro he
  rw [← he, identifierToName_eq, nameToIdentifier_eq] at hc
  unfold replaceChar at hc
  obtain ⟨d, hd, hdc⟩ := List.mem_map.1 hc
  have hd' : d = c ∧ d ≠ 'p' := by
    split at hdc
    · rename_i h
      subst hdc
      exact absurd hbad (by decide)
    · rename_i h
      exact ⟨hdc, h⟩
  obtain ⟨rfl, hp⟩ := hd'
  have hnp : d ≠ '(' ∧ d ≠ ')' := by
    rcases hbad with rfl | rfl | rfl | rfl | rfl | rfl | rfl <;> decide
  rcases mem_altReplace hd with h | h | ⟨h, hy⟩
  · exact hnp.1 h
  · exact hnp.2 h
  rcases mem_altReplace h with h | h | ⟨h, hx⟩
  · exact hnp.1 h
  · exact hnp.2 h
  obtain ⟨h, hw⟩ := List.mem_filter.1 h
  obtain ⟨e, he, hed⟩ := List.mem_map.1 h
  have hw' : d ≠ 'w' := by simpa using hw
  split at hed
  · subst hed; revert hbad; decide
  · rename_i hem
    subst hed
    obtain ⟨g, _, hg⟩ := List.mem_flatMap.1 he
    unfold encChar at hg
    split_ifs at hg with h1 h2 h3 h4 h5
    · simp only [List.mem_cons, List.not_mem_nil, or_false] at hg
      rcases hg with rfl | rfl | rfl
      · exact hw' rfl
      · rcases hbad with h | h | h | h | h | h | h
        · exact hem h
        · subst h; revert h1; decide
        · subst h; revert h1; decide
        · exact hw' h
        · exact hx h
        · exact hy h
        · exact hp h
      · exact hw' rfl
    · exact hx (by simpa using hg)
    · exact hy (by simpa using hg)
    · have : e = '_' := by simpa using hg
      subst this; revert hbad; decide
    · exact hp (by simpa using hg)
    · have : e = g := by simpa using hg
      subst this
      rcases hbad with h | h | h | h | h | h | h
      · exact h4 h
      · exact h3 (Or.inl h)
      · exact h3 (Or.inr h)
      · exact hw' h
      · exact hx h
      · exact hy h
      · exact hp h

/-- For names without those characters the round trip is the identity exactly when the parentheses
open and close in turn. -/
theorem C23_roundtrip_partial (name : List Char)
    (hgood : ∀ c ∈ name, c ≠ '-' ∧ c ≠ '[' ∧ c ≠ ']' ∧ c ≠ 'w' ∧ c ≠ 'x' ∧ c ≠ 'y' ∧ c ≠ 'p') :
    identifierToName (nameToIdentifier name) = name ↔ Alternating '(' ')' true name := by
  rw [identifierToName_eq, nameToIdentifier_eq]
  -- the identifier without the letters w
  let g : Char → Char := fun c => if c = '(' ∨ c = ')' then 'x' else if c = '\'' then 'p' else c
  have hstep : (replaceChar '-' '_' (name.flatMap encChar)).filter (· ≠ 'w') = name.map g := by
    induction name with
    | nil => rfl
    | cons c name ih =>
      rw [List.flatMap_cons]
      unfold replaceChar at ih ⊢
      rw [List.map_append, List.filter_append, ih fun d hd => hgood d (List.mem_cons_of_mem _ hd),
        List.map_cons]
      obtain ⟨g1, g2, g3, g4, g5, g6, g7⟩ := hgood c List.mem_cons_self
      rw [← List.singleton_append (l := name.map g)]
      congr 1
      unfold encChar
      by_cases hl : c.isLower = true
      · rw [if_pos hl]
        have hne : ∀ d : Char, d.isLower = false → c ≠ d := by
          rintro d hd rfl; rw [hl] at hd; cases hd
        simp [g, g4, hne '(' rfl, hne ')' rfl, hne '-' rfl, hne '\'' rfl]
      · rw [if_neg hl]
        by_cases h1 : c = '('
        · subst h1; rfl
        by_cases h2 : c = ')'
        · subst h2; rfl
        by_cases h6 : c = '\''
        · subst h6; rfl
        simp [g, h1, h2, h6, g1, g2, g3, g4]
  rw [hstep]
  have hy : 'y' ∉ altReplace 'x' true (name.map g) := by
    intro h
    rcases mem_altReplace h with h | h | ⟨h, _⟩
    · revert h; decide
    · revert h; decide
    · obtain ⟨c, hc, he⟩ := List.mem_map.1 h
      have := (hgood c hc).2.2.2.2.2.1
      simp only [g] at he
      split_ifs at he
      · revert he; decide
      · revert he; decide
      · exact this he
  rw [altReplace_of_notMem _ _ _ hy]
  -- both sides in step
  suffices h : ∀ o, replaceChar 'p' '\'' (altReplace 'x' o (name.map g)) = name ↔
      Alternating '(' ')' o name from h true
  clear hy hstep
  unfold replaceChar
  induction name with
  | nil => intro o; simp [altReplace, Alternating]
  | cons c name ih =>
    intro o
    have ih := ih fun d hd => hgood d (List.mem_cons_of_mem _ hd)
    obtain ⟨g1, g2, g3, g4, g5, g6, g7⟩ := hgood c List.mem_cons_self
    rw [List.map_cons, altReplace, Alternating]
    by_cases hp : c = '(' ∨ c = ')'
    · have hg : g c = 'x' := by simp [g, hp]
      rw [hg, if_pos rfl, if_pos hp, List.map_cons, List.cons.injEq, ih]
      apply and_congr_left
      intro _
      cases o <;> simp [eq_comm]
    · have hg : g c ≠ 'x' := by
        simp only [g, if_neg hp]
        split
        · decide
        · exact g5
      rw [if_neg hg, if_neg hp, List.map_cons, List.cons.injEq, ih]
      apply and_iff_right
      simp only [g, if_neg hp]
      by_cases h6 : c = '\''
      · rw [if_pos h6, if_pos rfl, h6]
      · rw [if_neg h6, if_neg g7]

/-! ### Different names have different modules -/

theorem encChar_step {c d : Char} {r s : List Char} (h : encChar c ++ r = encChar d ++ s) :
    r = s ∧ (c = d ∨ ((c = '(' ∨ c = ')') ∧ (d = '(' ∨ d = ')')) ∨
      ((c = '[' ∨ c = ']') ∧ (d = '[' ∨ d = ']')) ∨ (c = '_' ∨ d = '_')) := by
  have hlow : ∀ a : Char, a.isLower = true → ∀ b : Char, ¬ b.isLower = true → a ≠ b := by
    rintro a ha b hb rfl; exact hb ha
  unfold encChar at h
  split_ifs at h with a1 b1 b2 b3 b4 b5 a2 b1 b2 b3 b4 b5 a3 b1 b2 b3 b4 b5 a4 b1 b2 b3 b4 b5 a5 b1 b2 b3 b4 b5 b1 b2 b3 b4 b5 <;>
    simp only [List.cons_append, List.nil_append, List.cons.injEq] at h
  all_goals first
    | exact ⟨h.2.2.2, Or.inl h.2.1⟩
    | (obtain ⟨h1, _⟩ := h; exact absurd h1 (by decide))
    | (obtain ⟨h1, _⟩ := h; exact absurd h1 (hlow _ (by decide) _ ‹_›))
    | (obtain ⟨h1, _⟩ := h; exact absurd h1.symm (hlow _ (by decide) _ ‹_›))
    | exact ⟨h.2, Or.inr (Or.inl ⟨‹_›, ‹_›⟩)⟩
    | exact ⟨h.2, Or.inr (Or.inr (Or.inl ⟨‹_›, ‹_›⟩))⟩
    | exact ⟨h.2, Or.inl (by rw [a4, b4])⟩
    | exact ⟨h.2, Or.inl (by rw [a5, b5])⟩
    | exact ⟨h.2, Or.inl h.1⟩
    | exact ⟨h.2, Or.inr (Or.inr (Or.inr (Or.inr h.1.symm)))⟩
    | exact ⟨h.2, Or.inr (Or.inr (Or.inr (Or.inl h.1)))⟩

/-- A name of the naming scheme: brackets open and close in turn, no underscore. -/
def WellFormedName (name : List Char) : Prop :=
  Alternating '(' ')' true name ∧ Alternating '[' ']' true name ∧ '_' ∉ name

instance (name : List Char) : Decidable (WellFormedName name) := by
  unfold WellFormedName; exact inferInstance

/-- Different names of the scheme have different identifiers. -/
theorem C23_injective (m n : List Char) (hm : WellFormedName m) (hn : WellFormedName n)
    (h : nameToIdentifier m = nameToIdentifier n) : m = n := by
  rw [nameToIdentifier_eq, nameToIdentifier_eq] at h
  obtain ⟨m1, m2, m3⟩ := hm
  obtain ⟨n1, n2, n3⟩ := hn
  generalize true = o at m1 n1
  generalize true = p at m2 n2
  induction m generalizing n o p with
  | nil =>
    cases n with
    | nil => rfl
    | cons d n =>
      rw [List.flatMap_nil, List.flatMap_cons] at h
      have : encChar d = [] := (List.append_eq_nil_iff.1 h.symm).1
      unfold encChar at this
      split_ifs at this
  | cons c m ih =>
    cases n with
    | nil =>
      rw [List.flatMap_nil, List.flatMap_cons] at h
      have : encChar c = [] := (List.append_eq_nil_iff.1 h).1
      unfold encChar at this
      split_ifs at this
    | cons d n =>
      rw [List.flatMap_cons, List.flatMap_cons] at h
      obtain ⟨hr, hcd⟩ := encChar_step h
      rw [List.mem_cons, not_or] at m3 n3
      rw [Alternating] at m1 m2 n1 n2
      have hcd' : c = d := by
        rcases hcd with h | ⟨h1, h2⟩ | ⟨h1, h2⟩ | h | h
        · exact h
        · rw [if_pos h1] at m1; rw [if_pos h2] at n1
          rw [m1.1, n1.1]
        · rw [if_pos h1] at m2; rw [if_pos h2] at n2
          rw [m2.1, n2.1]
        · exact absurd h.symm m3.1
        · exact absurd h.symm n3.1
      subst hcd'
      congr 1
      have hboth : ∃ o', Alternating '(' ')' o' m ∧ Alternating '(' ')' o' n := by
        split at m1
        · rename_i h1; rw [if_pos h1] at n1; exact ⟨_, m1.2, n1.2⟩
        · rename_i h1; rw [if_neg h1] at n1; exact ⟨_, m1, n1⟩
      have hboth2 : ∃ o', Alternating '[' ']' o' m ∧ Alternating '[' ']' o' n := by
        split at m2
        · rename_i h1; rw [if_pos h1] at n2; exact ⟨_, m2.2, n2.2⟩
        · rename_i h1; rw [if_neg h1] at n2; exact ⟨_, m2, n2⟩
      obtain ⟨o', e1, e2⟩ := hboth
      obtain ⟨p', e3, e4⟩ := hboth2
      exact ih n hr m3.2 n3.2 o' e1 e2 p' e3 e4

theorem mem_of_lookup {α β : Type} [BEq α] [LawfulBEq α] {l : List (α × β)} {k : α} {v : β}
    (h : l.lookup k = some v) : (k, v) ∈ l := by
  induction l with
  | nil => cases h
  | cons x l ih =>
    rw [List.lookup_cons] at h
    split at h
    · rename_i hx
      cases h
      have : k = x.1 := by simpa using hx
      subst this
      exact List.mem_cons_self
    · exact List.mem_cons_of_mem _ (ih h)

/-- All named ansatzes follow the scheme, with and without density fitting, so their identifiers differ
pairwise. -/
theorem C23_named_distinct (s t : List Char) (df df' : Bool) (a b : Ansatz)
    (ha : Ansatz.fromString s df = .ok a) (hb : Ansatz.fromString t df' = .ok b)
    (h : nameToIdentifier a.name = nameToIdentifier b.name) : s = t ∧ df = df' := by
  have key : ∀ (s : List Char) (df : Bool) (a : Ansatz), Ansatz.fromString s df = .ok a →
      WellFormedName a.name ∧ a.name = (if df then "DF".toList else []) ++ s ∧
        ∀ l, s ≠ 'D' :: 'F' :: l := by
    intro s df a ha
    unfold Ansatz.fromString at ha
    have hfin : ∀ x ∈ namedAnsatzes, ∀ df : Bool,
        WellFormedName (Ansatz.name ⟨x.2.1, x.2.2.1, x.2.2.2.1, x.2.2.2.2, df, none⟩) ∧
        Ansatz.name ⟨x.2.1, x.2.2.1, x.2.2.2.1, x.2.2.2.2, df, none⟩
          = (if df then "DF".toList else []) ++ x.1 ∧
        x.1.take 2 ≠ ['D', 'F'] := by decide +kernel
    cases hr : namedAnsatzes.lookup s with
    | none => rw [hr] at ha; cases ha
    | some r =>
      rw [hr] at ha
      cases ha
      obtain ⟨h1, h2, h3⟩ := hfin _ (mem_of_lookup hr) df
      exact ⟨h1, h2, by rintro l rfl; exact h3 rfl⟩
  obtain ⟨w1, n1, d1⟩ := key s df a ha
  obtain ⟨w2, n2, d2⟩ := key t df' b hb
  have heq := C23_injective _ _ w1 w2 h
  rw [n1, n2] at heq
  cases df <;> cases df'
  · exact ⟨by simpa using heq, rfl⟩
  · exact absurd heq (d1 _)
  · exact absurd heq.symm (d2 _)
  · exact ⟨by simpa using heq, rfl⟩

/-- Names outside the scheme can share a module: the two parentheses have the same code. -/
theorem C23_collision : nameToIdentifier "CCSD(T)".toList = nameToIdentifier "CCSD)T(".toList ∧
    nameToIdentifier "CCSD-S".toList = nameToIdentifier "CCSD_S".toList := by decide

/-- The round trip of the docstring example `CCSD-SD-1-2`. -/
theorem C23_roundtrip_hyphen : identifierToName (nameToIdentifier "CCSD-SD-1-2".toList)
    = "CCSD_SD_1_2".toList := by decide

example : identifierToName (nameToIdentifier "CCSDt'(T)(Q)".toList) = "CCSDt'(T)(Q)".toList := by decide
example : nameToIdentifier "CCSDt'(T)[Q]-1".toList = "CCSDwtwpxTxyQy_1".toList := by decide
example : WellFormedName "CCSDt'(T)[Q]-SD-1-2".toList := by decide

end Ebcc
