import Verif.Thms.C56
/-!
C60: options objects.  Keyword arguments of a solver are options that take precedence; a solver that is given no
options object makes a new one; no other options object changes.  The options object that is passed is changed by the
keyword arguments, and by every solver without bosons (`C60_fails`).
-/

namespace Ebcc

variable {modules : List (List Char)}

theorem foldl_set_get? (kw : Dict (List Char) PyVal) (hn : kw.keys.Nodup) (o : OptObj) (k : List Char) :
    Dict.get? (kw.foldl (fun o kv => Dict.set o kv.1 kv.2) o) k = (kw.get? k).or (Dict.get? o k) := by
  induction kw generalizing o with
  | nil => simp [Dict.get?]
  | cons x kw ih =>
    obtain ⟨k', v⟩ := x
    have hn' : k' ∉ Dict.keys kw ∧ (Dict.keys kw).Nodup := List.nodup_cons.1 hn
    rw [List.foldl_cons, ih hn'.2, Dict.get?_set, Dict.get?]
    by_cases h : k' = k
    · subst h
      rw [if_pos rfl, if_pos rfl, (Dict.get?_eq_none_iff kw k').2 hn'.1]
      rfl
    · rw [if_neg h, if_neg h]

theorem setAttrs_get (heap : List OptObj) (r r' : Nat) (kw : Dict (List Char) PyVal) (h : r ≠ r') :
    (setAttrs heap r kw)[r']? = heap[r']? := by
  unfold setAttrs
  rw [List.getElem?_modify]
  simp only [if_neg h]
  cases heap[r']? <;> rfl

theorem setAttrs_self (heap : List OptObj) (r : Nat) (kw : Dict (List Char) PyVal) :
    (setAttrs heap r kw)[r]? = heap[r]?.map fun o => kw.foldl (fun o kv => o.set kv.1 kv.2) o := by
  unfold setAttrs
  rw [List.getElem?_modify]
  simp only [if_true]
  cases heap[r]? <;> rfl

/-- The value of a surplus keyword argument. -/
theorem rest_get {args : List PyVal} {kwargs : Dict (List Char) PyVal} {param : List Char → PyVal}
    {rest : Dict (List Char) PyVal} (h : bindArgs args kwargs = .ok (param, rest)) :
    rest = kwargs.filter fun kv => kv.1 ∉ initParams := by
  unfold bindArgs at h
  simp only at h
  split_ifs at h
  cases h
  rfl

theorem filter_get? (d : Dict (List Char) PyVal) (k : List Char) :
    Dict.get? (d.filter fun kv => kv.1 ∉ initParams) k = if k ∈ initParams then none else d.get? k := by
  induction d with
  | nil => simp [Dict.get?]
  | cons x d ih =>
    obtain ⟨k', v⟩ := x
    rw [List.filter_cons]
    by_cases hk : k' ∈ initParams
    · rw [if_neg (by simpa using hk), ih, Dict.get?]
      by_cases e : k' = k
      · subst e
        rw [if_pos hk, if_pos hk]
      · rw [if_neg e]
    · rw [if_pos (by simpa using hk), Dict.get?, ih, Dict.get?]
      by_cases e : k' = k
      · subst e
        rw [if_pos rfl, if_pos rfl, if_neg hk]
      · rw [if_neg e, if_neg e]

theorem filter_nodup (d : Dict (List Char) PyVal) (h : d.keys.Nodup) :
    (Dict.keys (d.filter fun kv => kv.1 ∉ initParams)).Nodup := by
  unfold Dict.keys at h ⊢
  exact h.sublist (List.Sublist.map _ List.filter_sublist)

/-- What a construction does to the options objects. -/
theorem construct_heap {cls : SpinType} {mf : MFObj} {args : List PyVal} {kwargs : Dict (List Char) PyVal}
    {heap heap' : List OptObj} {s : Solver} (hn : kwargs.keys.Nodup)
    (h : buildSolver modules cls mf args kwargs heap = (.ok s, heap')) :
    (∀ r, r < heap.length → r ≠ s.options → heap'[r]? = heap[r]?) ∧
    ∃ param rest before after, bindArgs args kwargs = .ok (param, rest) ∧
      ((param "options".toList = .none ∧ s.options = heap.length ∧ before = defaultOptions) ∨
        (param "options".toList = .ref s.options ∧ heap[s.options]? = some before)) ∧
      heap'[s.options]? = some after ∧
      ∀ k, Dict.get? after k = if k = "shift".toList ∧ s.ansatz.bosonAnsatz = [] then some (.bool false)
        else if k ∈ initParams then Dict.get? before k else (kwargs.get? k).or (Dict.get? before k) := by
  obtain ⟨param, rest, r, heap1, off, h1, h2, h3, h4⟩ := construct_ok h
  obtain ⟨_, _, _, hr, _, _, ho⟩ := initRest_ok h2
  subst hr
  have hrest := rest_get h1
  constructor
  · intro r' hlt hne
    have e1 : heap1[r']? = heap[r']? := by
      rcases h3 with ⟨_, _, rfl⟩ | ⟨_, _, rfl⟩
      · rw [List.getElem?_append_left hlt]
      · rfl
    rw [h4, ← e1]
    split
    · rw [setAttrs_get _ _ _ _ (Ne.symm hne), setAttrs_get _ _ _ _ (Ne.symm hne)]
    · rw [setAttrs_get _ _ _ _ (Ne.symm hne)]
  · have hb : ∃ before, heap1[s.options]? = some before ∧
        ((param "options".toList = .none ∧ s.options = heap.length ∧ before = defaultOptions) ∨
        (param "options".toList = .ref s.options ∧ heap[s.options]? = some before)) := by
      rcases h3 with ⟨e1, e2, rfl⟩ | ⟨e1, e2, rfl⟩
      · exact ⟨defaultOptions, by rw [e2]; simp, Or.inl ⟨e1, e2, rfl⟩⟩
      · exact ⟨heap1[s.options], List.getElem?_eq_getElem e2, Or.inr ⟨e1, List.getElem?_eq_getElem e2⟩⟩
    obtain ⟨before, hb1, hb2⟩ := hb
    have hget : ∀ k, Dict.get? (rest.foldl (fun o kv => Dict.set o kv.1 kv.2) before) k
        = if k ∈ initParams then Dict.get? before k else (kwargs.get? k).or (Dict.get? before k) := by
      intro k
      rw [foldl_set_get? _ (by rw [hrest]; exact filter_nodup _ hn), hrest, filter_get?]
      split <;> rfl
    cases off with
    | true =>
      refine ⟨param, rest, before, Dict.set (rest.foldl (fun o kv => Dict.set o kv.1 kv.2) before) "shift".toList
        (.bool false), h1, hb2, ?_, fun k => ?_⟩
      · rw [h4, if_pos rfl, setAttrs_self, setAttrs_self, hb1]
        rfl
      · rw [Dict.get?_set, hget]
        have : s.ansatz.bosonAnsatz = [] := ho.1 rfl
        by_cases hk : k = "shift".toList
        · rw [if_pos hk.symm, if_pos ⟨hk, this⟩]
        · rw [if_neg (Ne.symm hk),
            if_neg (c := k = "shift".toList ∧ s.ansatz.bosonAnsatz = []) (fun hh => hk hh.1)]
    | false =>
      refine ⟨param, rest, before, rest.foldl (fun o kv => Dict.set o kv.1 kv.2) before, h1, hb2, ?_, fun k => ?_⟩
      · rw [h4, if_neg Bool.false_ne_true, setAttrs_self, hb1]
        rfl
      · have hne : s.ansatz.bosonAnsatz ≠ [] := fun hh => Bool.false_ne_true (ho.2 hh)
        rw [hget, if_neg (c := k = "shift".toList ∧ s.ansatz.bosonAnsatz = []) (fun hh => hne hh.2)]

theorem ebccNew_construct {mf : MFObj} {args : List PyVal} {kwargs : Dict (List Char) PyVal} {heap heap' : List OptObj}
    {s : Solver} (h : ebccNew modules mf args kwargs heap = (.ok s, heap')) :
    ∃ cls, buildSolver modules cls mf args kwargs heap = (.ok s, heap') := by
  unfold ebccNew at h
  split_ifs at h
  · cases h
  · exact ⟨_, h⟩
  · exact ⟨_, h⟩
  · exact ⟨_, h⟩

/-- A keyword argument that is no parameter of the constructor is the value of that option of the solver; only `shift` is
always off for a solver without bosons. -/
theorem C60_keywords (mf : MFObj) (args : List PyVal) (kwargs : Dict (List Char) PyVal) (heap heap' : List OptObj)
    (s : Solver) (hn : kwargs.keys.Nodup) (h : ebccNew modules mf args kwargs heap = (.ok s, heap')) (k : List Char)
    (v : PyVal) (hk : kwargs.get? k = some v) (hp : k ∉ initParams) :
    ∃ o, heap'[s.options]? = some o ∧
      Dict.get? o k = some (if k = "shift".toList ∧ s.ansatz.bosonAnsatz = [] then .bool false else v) := by
  obtain ⟨cls, h⟩ := ebccNew_construct h
  obtain ⟨_, _, _, _, after, _, _, h3, h4⟩ := construct_heap hn h
  refine ⟨after, h3, ?_⟩
  rw [h4, hk, if_neg hp]
  split <;> rfl

/-- Options objects other than that of the new solver do not change. -/
theorem C60_others (mf : MFObj) (args : List PyVal) (kwargs : Dict (List Char) PyVal) (heap heap' : List OptObj)
    (s : Solver) (hn : kwargs.keys.Nodup) (h : ebccNew modules mf args kwargs heap = (.ok s, heap')) (r : Nat)
    (hr : r < heap.length) (hne : r ≠ s.options) : heap'[r]? = heap[r]? := by
  obtain ⟨cls, h⟩ := ebccNew_construct h
  exact (construct_heap hn h).1 r hr hne

/-- A solver without an options argument has a new object with the defaults and the keyword arguments: nothing that was
there before changes. -/
theorem C60_fresh (mf : MFObj) (kwargs : Dict (List Char) PyVal) (heap heap' : List OptObj) (s : Solver)
    (hn : kwargs.keys.Nodup) (h : ebccNew modules mf [] kwargs heap = (.ok s, heap'))
    (ho : kwargs.get? "options".toList = none) :
    s.options = heap.length ∧ ∀ r, r < heap.length → heap'[r]? = heap[r]? := by
  obtain ⟨cls, h⟩ := ebccNew_construct h
  obtain ⟨h1, param, rest, before, after, h2, h3, _⟩ := construct_heap hn h
  have hp : param "options".toList = .none := by
    unfold bindArgs at h2
    simp only at h2
    split_ifs at h2
    have h2 := (Prod.mk.inj (Except.ok.inj h2)).1
    rw [← h2]
    change ((Dict.get? (initParams.zip ([] : List PyVal)) "options".toList).orElse fun _ =>
      kwargs.get? "options".toList).getD _ = _
    rw [ho]
    rfl
  have hs : s.options = heap.length := by
    rcases h3 with ⟨_, h, _⟩ | ⟨h, _⟩
    · exact h
    · rw [hp] at h
      cases h
  exact ⟨hs, fun r hr => h1 r hr (by omega)⟩

/-- The fields of a passed options object keep their values if no keyword arguments are surplus and `shift` is off
already or the ansatz has bosons. -/
theorem C60_unchanged_partial (mf : MFObj) (args : List PyVal) (kwargs : Dict (List Char) PyVal)
    (heap heap' : List OptObj) (s : Solver) (hn : kwargs.keys.Nodup)
    (h : ebccNew modules mf args kwargs heap = (.ok s, heap')) (hk : ∀ k ∈ kwargs.keys, k ∈ initParams) (o : OptObj)
    (ho : heap[s.options]? = some o)
    (hs : s.ansatz.bosonAnsatz ≠ [] ∨ Dict.get? o "shift".toList = some (.bool false)) (k : List Char) :
    ∃ o', heap'[s.options]? = some o' ∧ Dict.get? o' k = Dict.get? o k := by
  obtain ⟨cls, h⟩ := ebccNew_construct h
  obtain ⟨_, param, rest, before, after, _, h2, h3, h4⟩ := construct_heap hn h
  have hb : before = o := by
    rcases h2 with ⟨_, e, _⟩ | ⟨_, e⟩
    · rw [e] at ho
      simp at ho
    · rw [e] at ho
      exact Option.some.inj ho
  subst hb
  refine ⟨after, h3, ?_⟩
  rw [h4]
  split
  · rename_i hh
    rcases hs with hs | hs
    · exact absurd hh.2 hs
    · rw [hh.1, hs]
  · split
    · rfl
    · rename_i hki
      rw [(Dict.get?_eq_none_iff kwargs k).2 fun hm => hki (hk k hm)]
      rfl

/-- An options object that is passed to a solver without bosons loses its `shift`: a solver with bosons that is built
with it later, alone or after the first, has different options. -/
theorem C60_fails :
    ∃ (modules : List (List Char)) (mf : MFObj) (kw1 kw2 : Dict (List Char) PyVal) (s : Solver) (s1 s2 : Solver)
      (h1 h2 h3 : List OptObj),
      ebccNew modules mf [] kw1 [defaultOptions] = (.ok s, h1) ∧ ebccNew modules mf [] kw2 [defaultOptions] = (.ok s1, h2) ∧
      ebccNew modules mf [] kw2 h1 = (.ok s2, h3) ∧
      Dict.get? (h2.getD s1.options []) "shift".toList = some (.bool true) ∧
      Dict.get? (h3.getD s2.options []) "shift".toList = some (.bool false) :=
  ⟨["RCCSD".toList, "RCCSD_S_1_1".toList], ⟨false, false, false⟩,
    [("ansatz".toList, .str "CCSD".toList), ("options".toList, .ref 0)],
    [("ansatz".toList, .str "CCSD-S-1-1".toList), ("options".toList, .ref 0), ("omega".toList, .arr 2 0)],
    _, _, _, _, _, _, rfl, rfl, rfl, by decide +kernel, by decide +kernel⟩

/-- A keyword argument changes the options object that is passed. -/
example : ((ebccNew modules56 ⟨false, false, false⟩ [] [("options".toList, .ref 0), ("max_iter".toList, .dec 3 0)]
    [defaultOptions]).2.getD 0 []).get? "max_iter".toList = some (.dec 3 0) := by decide +kernel

end Ebcc
