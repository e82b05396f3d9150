import Verif.Model.Ansatz
import Mathlib.Data.List.Sort
import Mathlib.Data.List.Nodup
import Mathlib.Tactic.Push

/-!
Lemmas about the search for notations in a method name.
-/

namespace Ebcc

theorem hasSub_single (c : Char) (op : List Char) : hasSub [c] op = decide (c ∈ op) := by
  induction op with
  | nil => simp [hasSub]
  | cons d op ih =>
    rw [hasSub, ih]
    simp only [List.isPrefixOf, Bool.and_true, List.mem_cons]
    by_cases h : c = d <;> simp [h]

theorem removeSub_single (c : Char) (op : List Char) : removeSub [c] 0 op = op.filter (· ≠ c) := by
  induction op with
  | nil => simp [removeSub]
  | cons d op ih =>
    rw [removeSub]
    simp only [List.isPrefixOf, Bool.and_true, List.length_singleton, Nat.sub_self, ih, List.filter_cons]
    by_cases h : c = d
    · simp [h]
    · have h' : ¬ d = c := fun h' => h h'.symm
      simp [h, h']

/-- A `t` that is not followed by a prime. -/
def LoneT (op : List Char) : Prop := ∃ pre post : List Char, op = pre ++ 't' :: post ∧ post.head? ≠ some '\''

/-- A `t` followed by a prime. -/
def PrimedT (op : List Char) : Prop := ∃ pre post : List Char, op = pre ++ 't' :: '\'' :: post

theorem primedT_cons (c : Char) (op : List Char) :
    PrimedT (c :: op) ↔ (c = 't' ∧ op.head? = some '\'') ∨ PrimedT op := by
  constructor
  · rintro ⟨pre, post, h⟩
    cases pre with
    | nil => simp only [List.nil_append, List.cons.injEq] at h; left; simp [h.1, h.2]
    | cons d pre =>
      simp only [List.cons_append, List.cons.injEq] at h
      exact Or.inr ⟨pre, post, h.2⟩
  · rintro (⟨rfl, h⟩ | ⟨pre, post, h⟩)
    · cases op with
      | nil => cases h
      | cons d op => simp only [List.head?_cons, Option.some.injEq] at h; exact ⟨[], op, by simp [h]⟩
    · exact ⟨c :: pre, post, by simp [h]⟩

theorem loneT_cons (c : Char) (op : List Char) :
    LoneT (c :: op) ↔ (c = 't' ∧ op.head? ≠ some '\'') ∨ LoneT op := by
  constructor
  · rintro ⟨pre, post, h, hp⟩
    cases pre with
    | nil => simp only [List.nil_append, List.cons.injEq] at h; left; exact ⟨h.1, h.2 ▸ hp⟩
    | cons d pre =>
      simp only [List.cons_append, List.cons.injEq] at h
      exact Or.inr ⟨pre, post, h.2, hp⟩
  · rintro (⟨rfl, h⟩ | ⟨pre, post, h, hp⟩)
    · exact ⟨[], op, rfl, h⟩
    · exact ⟨c :: pre, post, by simp [h], hp⟩

theorem not_primedT_nil : ¬ PrimedT [] := by
  rintro ⟨pre, post, h⟩
  exact absurd (congrArg List.length h) (by simp)

theorem not_loneT_nil : ¬ LoneT [] := by
  rintro ⟨pre, post, h, _⟩
  exact absurd (congrArg List.length h) (by simp)

theorem isPrefixOf_tp (c : Char) (op : List Char) :
    ['t', '\''].isPrefixOf (c :: op) = true ↔ c = 't' ∧ op.head? = some '\'' := by
  cases op with
  | nil => simp [List.isPrefixOf]
  | cons d op =>
    simp only [List.isPrefixOf, Bool.and_true, Bool.and_eq_true, beq_iff_eq, List.head?_cons,
      Option.some.injEq]
    exact and_congr eq_comm eq_comm

theorem hasSub_tp (op : List Char) : hasSub ['t', '\''] op = true ↔ PrimedT op := by
  induction op with
  | nil => simp [hasSub, not_primedT_nil]
  | cons c op ih => rw [hasSub, Bool.or_eq_true, ih, isPrefixOf_tp, primedT_cons]

theorem mem_removeSub_tp (c : Char) (hc : c ≠ '\'') (op : List Char) :
    (c ∈ removeSub ['t', '\''] 0 op ↔ if c = 't' then LoneT op else c ∈ op) ∧
    (op.head? = some '\'' → (c ∈ removeSub ['t', '\''] 1 op ↔ if c = 't' then LoneT op else c ∈ op)) := by
  induction op with
  | nil =>
    refine ⟨?_, by simp⟩
    split <;> simp [removeSub, not_loneT_nil]
  | cons d op ih =>
    constructor
    · rw [removeSub]
      by_cases hp : ['t', '\''].isPrefixOf (d :: op) = true
      · rw [if_pos hp]
        rw [isPrefixOf_tp] at hp
        rw [show (['t', '\''] : List Char).length - 1 = 1 from rfl, ih.2 hp.2]
        split
        · rw [loneT_cons]; simp [hp.2]
        · rename_i ht
          rw [List.mem_cons, hp.1]; simp [ht]
      · rw [if_neg hp, List.mem_cons, ih.1]
        rw [isPrefixOf_tp] at hp
        split
        · rename_i ht
          rw [loneT_cons, ht]
          constructor
          · rintro (h | h)
            · subst h; exact Or.inl ⟨rfl, fun h => hp ⟨rfl, h⟩⟩
            · exact Or.inr h
          · rintro (⟨h, _⟩ | h)
            · exact Or.inl h.symm
            · exact Or.inr h
        · rw [List.mem_cons]
    · intro hh
      simp only [List.head?_cons, Option.some.injEq] at hh
      subst hh
      rw [removeSub, ih.1]
      split
      · rw [loneT_cons]; simp
      · rw [List.mem_cons]; simp [hc]

/-- The notations, in the order of the search. -/
theorem fermion_keys (spin : SpinType) (which : Which) :
    sortedByLenRev ((fermionNotations spin which).map Prod.fst)
      = [['t', '\''], ['4'], ['3'], ['2'], ['Q'], ['t'], ['T'], ['D'], ['S']] := by
  simp only [fermionNotations, List.map_cons, List.map_nil]
  decide

theorem boson_keys (which : Which) :
    sortedByLenRev ((bosonNotations which).map Prod.fst)
      = [['3'], ['2'], ['T'], ['D'], ['S']] := by
  simp only [bosonNotations, List.map_cons, List.map_nil]
  decide

theorem method_keys : sortedByLenRev methodTypes =
    ["QCC".toList, "QCI".toList, "LCC".toList, "DC".toList, "CC".toList, "MP".toList] := by decide

/-- A name that starts with a method type is split behind it. -/
theorem splitMethod_append (m body : List Char) (hm : m ∈ methodTypes) :
    splitMethod (m ++ body) (sortedByLenRev methodTypes) = (m, body) := by
  rw [method_keys]
  simp only [methodTypes, List.mem_cons, List.not_mem_nil, or_false] at hm
  rcases hm with rfl | rfl | rfl | rfl | rfl | rfl <;>
    simp [splitMethod, List.isPrefixOf]

/-- One round of the search for a notation of one character. -/
theorem collect_step (N : List (List Char × List Rank)) (c : Char) (keys : List (List Char)) (op : List Char) :
    collectRanks N ([c] :: keys) op =
      (if c ∈ op then (N.lookup [c]).getD [] else []) ++ collectRanks N keys (op.filter (· ≠ c)) := by
  rw [collectRanks, hasSub_single]
  by_cases h : c ∈ op
  · rw [if_pos (by simpa using h), if_pos h, removeSub_single]
  · rw [if_neg (by simpa using h), if_neg h, List.nil_append]
    congr 1
    rw [eq_comm, List.filter_eq_self]
    intro d hd
    have : d ≠ c := by rintro rfl; exact h hd
    simpa using this

theorem mem_filter_ne (c d : Char) (op : List Char) (h : c ≠ d) : c ∈ op.filter (· ≠ d) ↔ c ∈ op := by
  simp [h]

theorem removeSub_tp_of_not (op : List Char) (h : ¬ PrimedT op) : removeSub ['t', '\''] 0 op = op := by
  induction op with
  | nil => rfl
  | cons c op ih =>
    rw [primedT_cons, not_or] at h
    rw [removeSub, if_neg (by rw [isPrefixOf_tp]; exact h.1), ih h.2]

open Classical in
/-- The fermionic search, written out. -/
theorem fermion_collect (spin : SpinType) (which : Which) (op : List Char) :
    collectRanks (fermionNotations spin which) (sortedByLenRev ((fermionNotations spin which).map Prod.fst)) op
      = (if PrimedT op then ((fermionNotations spin which).lookup ['t', '\'']).getD [] else []) ++
        ((if '4' ∈ op then ((fermionNotations spin which).lookup ['4']).getD [] else []) ++
        ((if '3' ∈ op then ((fermionNotations spin which).lookup ['3']).getD [] else []) ++
        ((if '2' ∈ op then ((fermionNotations spin which).lookup ['2']).getD [] else []) ++
        ((if 'Q' ∈ op then ((fermionNotations spin which).lookup ['Q']).getD [] else []) ++
        ((if LoneT op then ((fermionNotations spin which).lookup ['t']).getD [] else []) ++
        ((if 'T' ∈ op then ((fermionNotations spin which).lookup ['T']).getD [] else []) ++
        ((if 'D' ∈ op then ((fermionNotations spin which).lookup ['D']).getD [] else []) ++
        ((if 'S' ∈ op then ((fermionNotations spin which).lookup ['S']).getD [] else []))))))))) := by
  rw [fermion_keys]
  generalize fermionNotations spin which = N
  have hfirst : ∀ keys, collectRanks N (['t', '\''] :: keys) op =
      (if PrimedT op then (N.lookup ['t', '\'']).getD [] else []) ++
        collectRanks N keys (removeSub ['t', '\''] 0 op) := by
    intro keys
    rw [collectRanks]
    by_cases h : PrimedT op
    · rw [if_pos ((hasSub_tp op).2 h), if_pos h]
    · rw [if_neg (fun h' => h ((hasSub_tp op).1 h')), if_neg h, List.nil_append, removeSub_tp_of_not op h]
  rw [hfirst]
  have hmem : ∀ c, c ≠ '\'' → c ≠ 't' → (c ∈ removeSub ['t', '\''] 0 op ↔ c ∈ op) := by
    intro c h1 h2
    rw [(mem_removeSub_tp c h1 op).1, if_neg h2]
  have ht : 't' ∈ removeSub ['t', '\''] 0 op ↔ LoneT op := by
    rw [(mem_removeSub_tp 't' (by decide) op).1, if_pos rfl]
  simp only [collect_step]
  have hn : ∀ op', collectRanks N [] op' = [] := fun _ => rfl
  rw [hn, List.append_nil]
  simp only [List.mem_filter, hmem '4' (by decide) (by decide), hmem '3' (by decide) (by decide),
    hmem '2' (by decide) (by decide), hmem 'Q' (by decide) (by decide), ht, hmem 'T' (by decide) (by decide),
    hmem 'D' (by decide) (by decide), hmem 'S' (by decide) (by decide)]
  simp

/-- The bosonic search, written out. -/
theorem boson_collect (which : Which) (op : List Char) :
    collectRanks (bosonNotations which) (sortedByLenRev ((bosonNotations which).map Prod.fst)) op
      = ((if '3' ∈ op then ((bosonNotations which).lookup ['3']).getD [] else []) ++
        ((if '2' ∈ op then ((bosonNotations which).lookup ['2']).getD [] else []) ++
        ((if 'T' ∈ op then ((bosonNotations which).lookup ['T']).getD [] else []) ++
        ((if 'D' ∈ op then ((bosonNotations which).lookup ['D']).getD [] else []) ++
        ((if 'S' ∈ op then ((bosonNotations which).lookup ['S']).getD [] else [])))))) := by
  rw [boson_keys]
  generalize bosonNotations which = N
  simp only [collect_step]
  have hn : ∀ op', collectRanks N [] op' = [] := fun _ => rfl
  rw [hn, List.append_nil]
  simp

/-- What the final step guarantees. -/
theorem finishRanks_ok {l rs : List Rank} (h : finishRanks l = .ok rs) :
    l.Nodup ∧ rs.Nodup ∧ rs.Pairwise (fun a b => a.2.2 ≤ b.2.2) ∧ ∀ e, e ∈ rs ↔ e ∈ l := by
  unfold finishRanks at h
  split at h
  · rename_i hn
    cases h
    refine ⟨hn, (List.perm_insertionSort _ l).nodup_iff.2 hn, ?_, fun e => (List.perm_insertionSort _ l).mem_iff⟩
    have := List.pairwise_insertionSort (r := fun a b : Rank => a.2.2 ≤ b.2.2) l
    exact this
  · cases h

end Ebcc
