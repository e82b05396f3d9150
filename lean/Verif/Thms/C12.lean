import Verif.Model.Subscripts
import Verif.Lemmas.Py
import Mathlib.Data.Finset.Dedup
import Mathlib.Data.Finset.Card
import Mathlib.Tactic.Common

/-!
C12: `combine_subscripts`.
-/

namespace Ebcc

/-- The characters of all the subscripts at one position. -/
def keyAt (subs : List (List Char)) (i : Nat) : List (Option Char) := subs.map fun s => s[i]?

theorem toNat_subscriptChar : ∀ i, i < 91 → (Char.ofNat (97 + i)).toNat = 97 + i := by decide

theorem subscriptChar_inj {i j : Nat} (hi : i < 91) (hj : j < 91)
    (h : Char.ofNat (97 + i) = Char.ofNat (97 + j)) : i = j := by
  have h1 := toNat_subscriptChar i hi
  have h2 := toNat_subscriptChar j hj
  rw [h, h2] at h1
  omega

/-- Invariant of the loop of `combine_subscripts`. -/
structure CInv (sizes : Dict (List Char) Nat) (st : CombineState) : Prop where
  jlen : st.j = st.charMap.keys.length
  le : st.j ≤ 91
  nd : st.charMap.keys.Nodup
  val : ∀ k c, st.charMap.get? k = some c → ∃ i, i < st.j ∧ c = Char.ofNat (97 + i)
  inj : ∀ k k' c, st.charMap.get? k = some c → st.charMap.get? k' = some c → k = k'
  sz : sizes ≠ [] → ∀ k c, st.charMap.get? k = some c →
    ∃ s, sizes.get? k = some s ∧ st.newSizes.get? c = some s
  szk : ∀ c ∈ st.newSizes.keys, ∃ k, st.charMap.get? k = some c
  empty : sizes = [] → st.newSizes = []

theorem cInv_init (sizes : Dict (List Char) Nat) : CInv sizes ⟨[], [], [], 0⟩ where
  jlen := rfl
  le := by simp
  nd := by simp [Dict.keys]
  val := by simp [Dict.get?]
  inj := by simp [Dict.get?]
  sz := by simp [Dict.get?]
  szk := by simp [Dict.keys]
  empty := by simp

theorem addKey_spec {st st' : CombineState} {key : List Char} (h : st.addKey key = .ok st') :
    (∃ c, st.charMap.get? key = some c ∧ st' = st) ∨
    (st.charMap.get? key = none ∧ st.j ≠ 91 ∧ st' = { st with
      charMap := st.charMap.set key (Char.ofNat (97 + st.j))
      j := if st.j + 1 = 123 then 65 else st.j + 1 }) := by
  unfold CombineState.addKey Dict.contains at h
  cases hg : st.charMap.get? key with
  | some c => simp [hg] at h; exact Or.inl ⟨c, rfl, h.symm⟩
  | none =>
    simp only [hg, Option.isSome_none, Bool.false_eq_true, if_false] at h
    split at h
    · exact absurd h (by simp)
    · exact Or.inr ⟨rfl, ‹_›, by simpa using h.symm⟩

theorem step_spec {sizes : Dict (List Char) Nat} {st st' : CombineState} {key : List Char}
    (hi : CInv sizes st) (h : st.step sizes key = .ok st') :
    CInv sizes st' ∧ (∀ k c, st.charMap.get? k = some c → st'.charMap.get? k = some c) ∧
    (∃ c, st'.charMap.get? key = some c ∧ st'.newSub = st.newSub ++ [c]) ∧
    (∀ k ∈ st'.charMap.keys, k ∈ st.charMap.keys ∨ k = key) := by
  unfold CombineState.step at h
  cases ha : st.addKey key with
  | error e => rw [ha] at h; exact absurd h (by simp [bind, Except.bind])
  | ok s1 =>
    rw [ha] at h
    simp only [bind, Except.bind, Dict.getItem] at h
    -- facts about `s1`
    have key1 : s1.j = s1.charMap.keys.length ∧ s1.j ≤ 91 ∧ s1.charMap.keys.Nodup ∧
        (∀ k c, s1.charMap.get? k = some c → ∃ i, i < s1.j ∧ c = Char.ofNat (97 + i)) ∧
        (∀ k k' c, s1.charMap.get? k = some c → s1.charMap.get? k' = some c → k = k') ∧
        (∀ k c, st.charMap.get? k = some c → s1.charMap.get? k = some c) ∧
        (∃ c, s1.charMap.get? key = some c) ∧
        (∀ k ∈ s1.charMap.keys, k ∈ st.charMap.keys ∨ k = key) ∧
        s1.newSub = st.newSub ∧ s1.newSizes = st.newSizes ∧
        (∀ k c, s1.charMap.get? k = some c → k ≠ key → st.charMap.get? k = some c) := by
      rcases addKey_spec ha with ⟨c, hc, rfl⟩ | ⟨hn, hj, rfl⟩
      · exact ⟨hi.jlen, hi.le, hi.nd, hi.val, hi.inj, fun _ _ h => h, ⟨c, hc⟩,
          fun _ h => Or.inl h, rfl, rfl, fun _ _ h _ => h⟩
      · have hle := hi.le
        have hlt : st.j < 91 := by omega
        have hj' : (if st.j + 1 = 123 then 65 else st.j + 1) = st.j + 1 := by rw [if_neg (by omega)]
        have hnm : key ∉ st.charMap.keys := (Dict.get?_eq_none_iff _ _).1 hn
        simp only [hj', Dict.keys_set_of_not_mem _ _ _ hnm, Dict.get?_set]
        refine ⟨by simp [hi.jlen], by omega, ?_, ?_, ?_, ?_,
          ⟨Char.ofNat (97 + st.j), by simp⟩, ?_, trivial, trivial, ?_⟩
        · rw [List.nodup_append]
          refine ⟨hi.nd, by simp, ?_⟩
          intro a hak b hb e
          simp only [List.mem_singleton] at hb
          exact hnm (hb ▸ e ▸ hak)
        · intro k c h
          split at h
          · exact ⟨st.j, by omega, by simpa using h.symm⟩
          · obtain ⟨i, h1, h2⟩ := hi.val k c h
            exact ⟨i, by omega, h2⟩
        · intro k k' c h h'
          split at h <;> split at h'
          · rename_i e1 e2; exact e1.symm.trans e2
          · obtain ⟨i, h1, h2⟩ := hi.val k' c h'
            have : st.j = i := subscriptChar_inj hlt (by omega)
              ((by simpa using h : Char.ofNat (97 + st.j) = c).trans h2)
            omega
          · obtain ⟨i, h1, h2⟩ := hi.val k c h
            have : st.j = i := subscriptChar_inj hlt (by omega)
              ((by simpa using h' : Char.ofNat (97 + st.j) = c).trans h2)
            omega
          · exact hi.inj k k' c h h'
        · intro k c h
          rw [if_neg]
          · exact h
          · rintro rfl; rw [hn] at h; exact absurd h (by simp)
        · intro k hk; simpa using hk
        · intro k c h hk
          rw [if_neg (Ne.symm hk)] at h
          exact h
    obtain ⟨k1, k2, k3, k4, k5, k6, ⟨c, k7⟩, k8, k9, k10, k11⟩ := key1
    rw [k7] at h
    simp only at h
    by_cases hz : sizes = []
    · subst hz
      simp only [List.isEmpty_nil, if_true, pure, Except.pure, Except.ok.injEq] at h
      subst h
      refine ⟨⟨k1, k2, k3, k4, k5, by simp, ?_, ?_⟩, k6, ⟨c, k7, by rw [k9]⟩, k8⟩
      · intro c' hc'
        simp only [k10, hi.empty rfl, Dict.keys, List.map_nil, List.not_mem_nil] at hc'
      · intro _; simp only [k10, hi.empty rfl]
    · have hz' : sizes.isEmpty = false := by cases sizes <;> simp_all
      rw [hz'] at h
      simp only [Bool.false_eq_true, if_false] at h
      cases hs : sizes.get? key with
      | none => simp [hs] at h
      | some s =>
        simp only [hs, pure, Except.pure, Except.ok.injEq] at h
        subst h
        refine ⟨⟨k1, k2, k3, k4, k5, ?_, ?_, fun e => absurd e hz⟩, k6, ⟨c, k7, by rw [k9]⟩, k8⟩
        · intro _ k c' hc'
          simp only at hc' ⊢
          rw [Dict.get?_set, k10]
          by_cases e : k = key
          · subst e
            rw [k7] at hc'
            exact ⟨s, hs, by rw [if_pos (by simpa using hc')]⟩
          · obtain ⟨s', h1, h2⟩ := hi.sz hz k c' (k11 k c' hc' e)
            refine ⟨s', h1, ?_⟩
            rw [if_neg]
            · exact h2
            · rintro rfl; exact e (k5 _ _ _ hc' k7)
        · intro c' hc'
          simp only at hc' ⊢
          rw [Dict.mem_keys_iff] at hc'
          obtain ⟨v, hv⟩ := hc'
          rw [Dict.get?_set, k10] at hv
          split at hv
          · rename_i e; exact ⟨key, e ▸ k7⟩
          · obtain ⟨k, hk⟩ := hi.szk c' ((Dict.mem_keys_iff _ _).2 ⟨v, hv⟩)
            exact ⟨k, k6 _ _ hk⟩

theorem loop_spec {sizes : Dict (List Char) Nat} : ∀ (keys : List (List Char)) {st st' : CombineState},
    CInv sizes st → keys.foldlM (fun st k => st.step sizes k) st = .ok st' →
    CInv sizes st' ∧ (∀ k c, st.charMap.get? k = some c → st'.charMap.get? k = some c) ∧
    (∃ cs, st'.newSub = st.newSub ++ cs ∧
      List.Forall₂ (fun k c => st'.charMap.get? k = some c) keys cs) ∧
    (∀ k ∈ st'.charMap.keys, k ∈ st.charMap.keys ∨ k ∈ keys)
  | [], st, st', hi, h => by
    simp only [List.foldlM_nil, pure, Except.pure, Except.ok.injEq] at h
    subst h
    exact ⟨hi, fun _ _ h => h, ⟨[], by simp, .nil⟩, fun _ h => Or.inl h⟩
  | key :: keys, st, st', hi, h => by
    rw [List.foldlM_cons] at h
    cases hs : st.step sizes key with
    | error e => rw [hs] at h; exact absurd h (by simp [bind, Except.bind])
    | ok s1 =>
      rw [hs] at h
      obtain ⟨i1, m1, ⟨c, c1, c2⟩, d1⟩ := step_spec hi hs
      obtain ⟨i2, m2, ⟨cs, e1, e2⟩, d2⟩ := loop_spec keys i1 h
      refine ⟨i2, fun k c h => m2 k c (m1 k c h), ⟨c :: cs, ?_, .cons (m2 _ _ c1) e2⟩, ?_⟩
      · rw [e1, c2]; simp
      · intro k hk
        rcases d2 k hk with h | h
        · rcases d1 k h with h | h
          · exact Or.inl h
          · exact Or.inr (by simp [h])
        · exact Or.inr (by simp [h])

theorem step_progress {sizes : Dict (List Char) Nat} {st : CombineState} {key : List Char}
    (h1 : key ∈ st.charMap.keys ∨ st.j ≠ 91) (h2 : sizes ≠ [] → key ∈ sizes.keys) :
    ∃ st', st.step sizes key = .ok st' := by
  have ha : ∃ s1 c, st.addKey key = .ok s1 ∧ s1.charMap.get? key = some c := by
    unfold CombineState.addKey Dict.contains
    cases hg : st.charMap.get? key with
    | some c => exact ⟨st, c, by simp, hg⟩
    | none =>
      have hn : key ∉ st.charMap.keys := (Dict.get?_eq_none_iff _ _).1 hg
      have hj : st.j ≠ 91 := h1.resolve_left hn
      refine ⟨{ st with
          charMap := st.charMap.set key (Char.ofNat (97 + st.j))
          j := if st.j + 1 = 123 then 65 else st.j + 1 }, Char.ofNat (97 + st.j), ?_, ?_⟩
      · rw [if_neg (by simp), if_neg hj]
      · simp only [Dict.get?_set, if_true]
  obtain ⟨s1, c, e1, e2⟩ := ha
  unfold CombineState.step
  rw [e1]
  simp only [bind, Except.bind, Dict.getItem, e2]
  by_cases hz : sizes = []
  · subst hz; exact ⟨_, rfl⟩
  · have hz' : sizes.isEmpty = false := by cases sizes <;> simp_all
    obtain ⟨s, hs⟩ := (Dict.mem_keys_iff _ _).1 (h2 hz)
    simp only [hz', Bool.false_eq_true, if_false, hs]
    exact ⟨_, rfl⟩

theorem loop_progress {sizes : Dict (List Char) Nat} :
    ∀ (keys : List (List Char)) {st : CombineState}, CInv sizes st →
    (st.charMap.keys ++ keys).toFinset.card ≤ 91 → (sizes ≠ [] → ∀ k ∈ keys, k ∈ sizes.keys) →
    ∃ st', keys.foldlM (fun st k => st.step sizes k) st = .ok st'
  | [], st, _, _, _ => ⟨st, rfl⟩
  | key :: keys, st, hi, hc, hs => by
    have h1 : key ∈ st.charMap.keys ∨ st.j ≠ 91 := by
      by_contra hcon
      push Not at hcon
      have hsub : insert key st.charMap.keys.toFinset ⊆ (st.charMap.keys ++ key :: keys).toFinset := by
        intro x hx
        simp only [Finset.mem_insert, List.mem_toFinset, List.mem_append, List.mem_cons] at hx ⊢
        tauto
      have := Finset.card_le_card hsub
      rw [Finset.card_insert_of_notMem (by simpa using hcon.1), List.toFinset_card_of_nodup hi.nd,
        ← hi.jlen, hcon.2] at this
      omega
    obtain ⟨s1, e1⟩ := step_progress h1 fun hz => hs hz key (by simp)
    obtain ⟨i1, _, _, d1⟩ := step_spec hi e1
    have hc1 : (s1.charMap.keys ++ keys).toFinset.card ≤ 91 := by
      refine le_trans (Finset.card_le_card ?_) hc
      intro x hx
      simp only [List.mem_toFinset, List.mem_append, List.mem_cons] at hx ⊢
      rcases hx with hx | hx
      · rcases d1 x hx with h | h <;> tauto
      · tauto
    obtain ⟨s2, e2⟩ := loop_progress keys i1 hc1 fun hz k hk => hs hz k (by simp [hk])
    exact ⟨s2, by rw [List.foldlM_cons, e1]; exact e2⟩

theorem forall₂_mem_left {α β : Type} {R : α → β → Prop} {l : List α} {m : List β}
    (h : List.Forall₂ R l m) {a : α} (ha : a ∈ l) : ∃ b, R a b := by
  induction h with
  | nil => simp at ha
  | cons h1 _ ih =>
    rcases List.mem_cons.1 ha with rfl | ha
    · exact ⟨_, h1⟩
    · exact ih ha

/-- The list of keys built by the model. -/
def subscriptKeys (subs : List (List Char)) (n : Nat) : List (List Char) :=
  (List.range n).map fun i => subs.map fun t => t.getD i ' '

theorem subscriptKeys_eq_iff {subs : List (List Char)} {n i k : Nat} (hl : ∀ s ∈ subs, s.length = n)
    (hi : i < n) (hk : k < n) :
    (subs.map fun t => t.getD i ' ') = (subs.map fun t => t.getD k ' ') ↔
      keyAt subs i = keyAt subs k := by
  unfold keyAt
  rw [List.map_inj_left, List.map_inj_left]
  constructor
  · intro h s hs
    have := h s hs
    have l := hl s hs
    rw [List.getD_eq_getElem?_getD, List.getD_eq_getElem?_getD] at this
    rw [List.getElem?_eq_getElem (by omega), List.getElem?_eq_getElem (by omega)] at this ⊢
    simpa using this
  · intro h s hs
    rw [List.getD_eq_getElem?_getD, List.getD_eq_getElem?_getD, h s hs]

theorem combine_cons {s : List Char} {rest : List (List Char)} {sizes : Dict (List Char) Nat}
    (hl : ∀ t ∈ rest, t.length = s.length) : combineSubscripts (s :: rest) sizes =
      (do let st ← (subscriptKeys (s :: rest) s.length).foldlM (fun st k => st.step sizes k)
            (⟨[], [], [], 0⟩ : CombineState)
          pure (st.newSub, st.newSizes)) := by
  unfold combineSubscripts
  simp only
  rw [if_pos]
  · rfl
  · rw [List.all_eq_true]; intro t ht; simpa using hl t ht

/-- C12: a successful call returns a string of the common length `n`, with equal characters exactly at
positions where all the subscripts agree.  The sizes, when given, are those of the keys and cover
exactly the new characters; without sizes the dictionary is empty. -/
theorem C12_spec (subs : List (List Char)) (sizes : Dict (List Char) Nat) (out : List Char)
    (osizes : Dict Char Nat) (h : combineSubscripts subs sizes = .ok (out, osizes)) :
    (∀ s ∈ subs, s.length = out.length) ∧
    (∀ i k, i < out.length → k < out.length → (out[i]? = out[k]? ↔ keyAt subs i = keyAt subs k)) ∧
    (sizes ≠ [] → ∀ (i : Nat) (c : Char) (key : List Char), out[i]? = some c →
      keyAt subs i = key.map some → ∃ m, sizes.get? key = some m ∧ osizes.get? c = some m) ∧
    (∀ c ∈ osizes.keys, c ∈ out) ∧ (sizes = [] → osizes = []) := by
  cases subs with
  | nil => simp [combineSubscripts] at h
  | cons s rest =>
    have hl : ∀ t ∈ rest, t.length = s.length := by
      unfold combineSubscripts at h
      simp only at h
      split at h
      · rename_i hall
        intro t ht; simpa using (List.all_eq_true.1 hall) t ht
      · exact absurd h (by simp)
    have hl' : ∀ t ∈ s :: rest, t.length = s.length := by
      intro t ht
      rcases List.mem_cons.1 ht with rfl | ht
      · rfl
      · exact hl t ht
    rw [combine_cons hl] at h
    cases hs : (subscriptKeys (s :: rest) s.length).foldlM (fun st k => st.step sizes k)
        (⟨[], [], [], 0⟩ : CombineState) with
    | error e => rw [hs] at h; exact absurd h (by simp [bind, Except.bind])
    | ok st =>
      rw [hs] at h
      simp only [bind, Except.bind, pure, Except.pure, Except.ok.injEq, Prod.mk.injEq] at h
      obtain ⟨h1, h2⟩ := h
      obtain ⟨hi, _, ⟨cs, e1, e2⟩, hk⟩ := loop_spec _ (cInv_init sizes) hs
      simp only [List.nil_append] at e1
      rw [e1] at h1
      subst h1
      rename' cs => out
      have hlen : out.length = s.length := by
        have := e2.length_eq
        simpa [subscriptKeys] using this.symm
      have hget : ∀ i (hi : i < out.length), st.charMap.get?
          ((s :: rest).map fun t => t.getD i ' ') = some out[i] := by
        intro i hi
        have := List.Forall₂.get e2 (i := i) (by simpa [subscriptKeys] using hlen ▸ hi) hi
        simpa [subscriptKeys] using this
      refine ⟨fun t ht => by rw [hl' t ht, hlen], ?_, ?_, ?_, ?_⟩
      · intro i k hi' hk'
        rw [← subscriptKeys_eq_iff hl' (hlen ▸ hi') (hlen ▸ hk'), List.getElem?_eq_getElem hi',
          List.getElem?_eq_getElem hk', Option.some_inj]
        constructor
        · intro e
          exact hi.inj _ _ _ (hget i hi') (e ▸ hget k hk')
        · intro e
          have a := hget i hi'
          rw [e, hget k hk'] at a
          exact (Option.some_inj.1 a).symm
      · intro hz i c key hc hkey
        obtain ⟨hi', rfl⟩ := List.getElem?_eq_some_iff.1 hc
        have : ((s :: rest).map fun t => t.getD i ' ') = key := by
          have hinj : Function.Injective (List.map (some : Char → Option Char)) :=
            List.map_injective_iff.2 (Option.some_injective _)
          apply hinj
          rw [← hkey, keyAt, List.map_map]
          apply List.map_congr_left
          intro t ht
          have : i < t.length := by rw [hl' t ht]; omega
          simp [this]
        obtain ⟨m, m1, m2⟩ := hi.sz hz _ _ (hget i hi')
        exact ⟨m, this ▸ m1, h2 ▸ m2⟩
      · intro c hc
        rw [← h2] at hc
        obtain ⟨k, hkc⟩ := hi.szk c hc
        have hmem := hk k ((Dict.mem_keys_iff _ _).2 ⟨c, hkc⟩)
        simp only [Dict.keys, List.map_nil, List.not_mem_nil, false_or] at hmem
        simp only [subscriptKeys, List.mem_map, List.mem_range] at hmem
        obtain ⟨i, hi', rfl⟩ := hmem
        rw [hget i (hlen ▸ hi')] at hkc
        rw [Option.some_inj] at hkc
        exact hkc ▸ List.getElem_mem _
      · intro hz; rw [← h2]; exact hi.empty hz

/-- C12: the call succeeds exactly when there is a subscript, all have the same length, at most 91
different keys occur, and (if sizes are given) every key has a size. -/
theorem C12_ok_iff (subs : List (List Char)) (sizes : Dict (List Char) Nat) :
    (∃ r, combineSubscripts subs sizes = .ok r) ↔
      ∃ n, subs ≠ [] ∧ (∀ s ∈ subs, s.length = n) ∧
        ((List.range n).map (keyAt subs)).toFinset.card ≤ 91 ∧
        (sizes ≠ [] → ∀ i, i < n → ∃ key ∈ sizes.keys, keyAt subs i = key.map some) := by
  cases subs with
  | nil => simp [combineSubscripts]
  | cons s rest =>
    by_cases hl : ∀ t ∈ rest, t.length = s.length
    · have hl' : ∀ t ∈ s :: rest, t.length = s.length := by
        intro t ht
        rcases List.mem_cons.1 ht with rfl | ht
        · rfl
        · exact hl t ht
      have hsome : ∀ i, i < s.length → keyAt (s :: rest) i
          = ((s :: rest).map fun t => t.getD i ' ').map some := by
        intro i hi
        rw [keyAt, List.map_map]
        apply List.map_congr_left
        intro t ht
        have : i < t.length := by rw [hl' t ht]; omega
        simp [this]
      have hinj : Function.Injective (List.map (some : Char → Option Char)) :=
        List.map_injective_iff.2 (Option.some_injective _)
      have hcard : ((List.range s.length).map (keyAt (s :: rest))).toFinset.card
          = (subscriptKeys (s :: rest) s.length).toFinset.card := by
        have : (List.range s.length).map (keyAt (s :: rest))
            = (subscriptKeys (s :: rest) s.length).map (List.map some) := by
          rw [subscriptKeys, List.map_map]
          apply List.map_congr_left
          intro i hi
          exact hsome i (List.mem_range.1 hi)
        rw [this]
        have e2 : ((subscriptKeys (s :: rest) s.length).map (List.map some)).toFinset
            = (subscriptKeys (s :: rest) s.length).toFinset.image (List.map some) := by
          ext x; simp
        rw [e2, Finset.card_image_of_injective _ hinj]
      rw [combine_cons hl]
      constructor
      · rintro ⟨r, h⟩
        cases hs : (subscriptKeys (s :: rest) s.length).foldlM (fun st k => st.step sizes k)
            (⟨[], [], [], 0⟩ : CombineState) with
        | error e => rw [hs] at h; exact absurd h (by simp [bind, Except.bind])
        | ok st =>
          obtain ⟨hi, _, ⟨cs, e1, e2⟩, hk⟩ := loop_spec _ (cInv_init sizes) hs
          have hmem : ∀ k ∈ subscriptKeys (s :: rest) s.length, ∃ c, st.charMap.get? k = some c := by
            intro k hk
            obtain ⟨c, hc⟩ := forall₂_mem_left e2 hk
            exact ⟨c, hc⟩
          refine ⟨s.length, by simp, hl', ?_, ?_⟩
          · rw [hcard]
            have hle := hi.le
            rw [hi.jlen, ← List.toFinset_card_of_nodup hi.nd] at hle
            refine le_trans (Finset.card_le_card ?_) hle
            intro k hk
            rw [List.mem_toFinset] at hk ⊢
            exact (Dict.mem_keys_iff _ _).2 (hmem k hk)
          · intro hz i hi'
            obtain ⟨c, hc⟩ := hmem ((s :: rest).map fun t => t.getD i ' ')
              (List.mem_map.2 ⟨i, List.mem_range.2 hi', rfl⟩)
            obtain ⟨m, hm, _⟩ := hi.sz hz _ _ hc
            exact ⟨_, (Dict.mem_keys_iff _ _).2 ⟨m, hm⟩, hsome i hi'⟩
      · rintro ⟨n, _, hn, hc, hz⟩
        have : n = s.length := (hn s (by simp)).symm
        subst this
        obtain ⟨st, hst⟩ := loop_progress (subscriptKeys (s :: rest) s.length) (cInv_init sizes)
          (by rw [hcard] at hc; simpa [Dict.keys] using hc) (by
            intro hz' k hk
            simp only [subscriptKeys, List.mem_map, List.mem_range] at hk
            obtain ⟨i, hi, rfl⟩ := hk
            obtain ⟨key, h1, h2⟩ := hz hz' i hi
            rw [hsome i hi] at h2
            exact hinj h2 ▸ h1)
        exact ⟨_, by rw [hst]; rfl⟩
    · constructor
      · rintro ⟨r, h⟩
        exfalso
        apply hl
        unfold combineSubscripts at h
        simp only at h
        split at h
        · rename_i hall
          intro t ht; simpa using (List.all_eq_true.1 hall) t ht
        · exact absurd h (by simp)
      · rintro ⟨n, _, hn, _⟩
        exact absurd (fun t ht => (hn t (by simp [ht])).trans (hn s (by simp)).symm) hl

/-- C12: unequal lengths (and no subscripts at all) raise `ValueError`. -/
theorem C12_unequal (subs : List (List Char)) (sizes : Dict (List Char) Nat)
    (h : ¬ ∃ n, subs ≠ [] ∧ ∀ s ∈ subs, s.length = n) :
    combineSubscripts subs sizes = .error .valueError := by
  cases subs with
  | nil => rfl
  | cons s rest =>
    unfold combineSubscripts
    simp only
    rw [if_neg]
    intro hall
    apply h
    refine ⟨s.length, by simp, ?_⟩
    intro t ht
    rcases List.mem_cons.1 ht with rfl | ht
    · rfl
    · simpa using (List.all_eq_true.1 hall) t ht

/-- Non-vacuity: occupancy and spin signature of a mixed-spin double excitation. -/
example : ∃ out osz, combineSubscripts ["iijj".toList, "abab".toList]
    [("ia".toList, 2), ("ib".toList, 3), ("ja".toList, 4), ("jb".toList, 5)] = .ok (out, osz) ∧
    out = "abcd".toList ∧ osz.get? 'c' = some 4 := ⟨_, _, rfl, rfl, rfl⟩
example : ∃ osz, combineSubscripts ["iijj".toList, "aaaa".toList] [] = .ok ("aabb".toList, osz) :=
  ⟨_, rfl⟩

end Ebcc
