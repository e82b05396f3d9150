import Verif.Model.Namespace
import Verif.Lemmas.Py
import Mathlib.Data.List.Perm.Subperm
import Mathlib.Tactic.Common

/-!
C14: `Namespace` behaves as an insertion ordered map.

The specification reads the values and the order of the keys directly off the history of operations.
-/

namespace Ebcc

section
variable {κ ν : Type} [DecidableEq κ]

/-- Number of objects created by a history. -/
def objCount : List (NsOp κ ν) → Nat
  | [] => 0
  | .new _ :: ops => objCount ops + 1
  | .copy _ :: ops => objCount ops + 1
  | _ :: ops => objCount ops

/-- A history, newest operation first, in which every operation refers to an existing object and the
keyword arguments are distinct. -/
def ValidHist : List (NsOp κ ν) → Prop
  | [] => True
  | .new kw :: ops => (kw.map Prod.fst).Nodup ∧ ValidHist ops
  | .copy o :: ops => o < objCount ops ∧ ValidHist ops
  | .setItem o _ _ :: ops => o < objCount ops ∧ ValidHist ops
  | .setAttr o _ _ :: ops => o < objCount ops ∧ ValidHist ops
  | .delItem o _ :: ops => o < objCount ops ∧ ValidHist ops
  | .delAttr o _ :: ops => o < objCount ops ∧ ValidHist ops

/-- The value of a key according to the history (newest operation first): the last assignment not
followed by a deletion; a copy inherits the values of its source at the time of the copy. -/
def histValue : List (NsOp κ ν) → Nat → κ → Option ν
  | [], _, _ => none
  | .new kw :: ops, o, k =>
    if o = objCount ops then (kw.find? fun kv => kv.1 = k).map Prod.snd else histValue ops o k
  | .copy src :: ops, o, k => if o = objCount ops then histValue ops src k else histValue ops o k
  | .setItem o' k' v :: ops, o, k => if o = o' ∧ k = k' then some v else histValue ops o k
  | .setAttr o' k' v :: ops, o, k => if o = o' ∧ k = k' then some v else histValue ops o k
  | .delItem o' k' :: ops, o, k => if o = o' ∧ k = k' then none else histValue ops o k
  | .delAttr o' k' :: ops, o, k => if o = o' ∧ k = k' then none else histValue ops o k

/-- The time at which the key was last inserted as a new key: the number of the operation, and the
position among the keyword arguments. -/
def histBirth : List (NsOp κ ν) → Nat → κ → Nat × Nat
  | [], _, _ => (0, 0)
  | .new kw :: ops, o, k =>
    if o = objCount ops then (ops.length, (kw.map Prod.fst).idxOf k) else histBirth ops o k
  | .copy src :: ops, o, k => if o = objCount ops then histBirth ops src k else histBirth ops o k
  | .setItem o' k' _ :: ops, o, k =>
    if o = o' ∧ k = k' ∧ histValue ops o k = none then (ops.length, 0) else histBirth ops o k
  | .setAttr o' k' _ :: ops, o, k =>
    if o = o' ∧ k = k' ∧ histValue ops o k = none then (ops.length, 0) else histBirth ops o k
  | .delItem _ _ :: ops, o, k => histBirth ops o k
  | .delAttr _ _ :: ops, o, k => histBirth ops o k

/-- Lexicographic comparison of times. -/
def earlier (a b : Nat × Nat) : Prop := a.1 < b.1 ∨ (a.1 = b.1 ∧ a.2 < b.2)

theorem nsInit_eq (kw : List (κ × ν)) (h : (kw.map Prod.fst).Nodup) : nsInit kw = kw := by
  have main : ∀ (kw : List (κ × ν)) (d : Dict κ ν), ((d ++ kw).map Prod.fst).Nodup →
      kw.foldl (fun d kv => d.set kv.1 kv.2) d = d ++ kw := by
    intro kw
    induction kw with
    | nil => simp
    | cons p kw ih =>
      intro d h
      have hp : p.1 ∉ d.keys := by
        intro hm
        simp only [List.map_append, List.map_cons, List.nodup_append] at h
        exact h.2.2 _ hm p.1 (by simp) rfl
      have hset : d.set p.1 p.2 = d ++ [p] := by
        clear ih h
        induction d with
        | nil => rfl
        | cons q d ih =>
          have hq : q.1 ≠ p.1 := fun e => hp (by simp [Dict.keys, e])
          have := ih fun hm => hp (by simp only [Dict.keys, List.map_cons, List.mem_cons]; exact Or.inr hm)
          obtain ⟨q1, q2⟩ := q
          simp only at hq
          simp [Dict.set, hq, this]
      rw [List.foldl_cons, hset, ih]
      · simp
      · simpa using h
  exact main kw [] (by simpa using h)

/-- The heap after a history given newest operation first. -/
def nsHeap (h : List (NsOp κ ν)) : List (Dict κ ν) := nsRun h.reverse

theorem nsHeap_cons (op : NsOp κ ν) (h : List (NsOp κ ν)) :
    nsHeap (op :: h) = (nsExec (nsHeap h) op).1 := by
  simp [nsHeap, nsRun, List.foldl_append]

theorem get?_find (kw : List (κ × ν)) (k : κ) :
    Dict.get? kw k = (kw.find? fun kv => kv.1 = k).map Prod.snd := by
  induction kw with
  | nil => rfl
  | cons p kw ih =>
    obtain ⟨a, b⟩ := p
    by_cases h : a = k <;> simp [Dict.get?, h, ih]

/-- The refinement relation for one object. -/
structure NsInv (h : List (NsOp κ ν)) (o : Nat) (d : Dict κ ν) : Prop where
  nd : d.keys.Nodup
  val : ∀ k, d.get? k = histValue h o k
  ord : d.keys.Pairwise fun a b => earlier (histBirth h o a) (histBirth h o b)
  lt : ∀ k ∈ d.keys, (histBirth h o k).1 < h.length

theorem nsInv_mono {h : List (NsOp κ ν)} {op : NsOp κ ν} {o o' : Nat} {d : Dict κ ν}
    (hi : NsInv h o d) (hv : ∀ k, histValue (op :: h) o' k = histValue h o k)
    (hb : ∀ k, histBirth (op :: h) o' k = histBirth h o k) : NsInv (op :: h) o' d where
  nd := hi.nd
  val k := by rw [hi.val, hv]
  ord := by simpa only [hb] using hi.ord
  lt k hk := by rw [hb, List.length_cons]; have := hi.lt k hk; omega

theorem nsInv_set {h : List (NsOp κ ν)} {op : NsOp κ ν} {o : Nat} {d : Dict κ ν} {k : κ} {v : ν}
    (hi : NsInv h o d)
    (hv : ∀ k', histValue (op :: h) o k' = if k' = k then some v else histValue h o k')
    (hb : ∀ k', histBirth (op :: h) o k'
      = if k' = k ∧ histValue h o k' = none then (h.length, 0) else histBirth h o k') :
    NsInv (op :: h) o (d.set k v) where
  nd := Dict.nodup_keys_set _ hi.nd _ _
  val k' := by
    rw [Dict.get?_set, hv, hi.val]
    by_cases e : k = k'
    · subst e; simp
    · rw [if_neg e, if_neg (Ne.symm e)]
  ord := by
    by_cases hm : k ∈ d.keys
    · rw [Dict.keys_set_of_mem _ _ _ hm]
      obtain ⟨w, hw⟩ := (Dict.mem_keys_iff _ _).1 hm
      have hb' : ∀ k', histBirth (op :: h) o k' = histBirth h o k' := by
        intro k'
        rw [hb, if_neg]
        rintro ⟨rfl, h2⟩
        rw [← hi.val, hw] at h2
        exact absurd h2 (by simp)
      simpa only [hb'] using hi.ord
    · rw [Dict.keys_set_of_not_mem _ _ _ hm, List.pairwise_append]
      have hb' : ∀ k' ∈ d.keys, histBirth (op :: h) o k' = histBirth h o k' := by
        intro k' hk'
        rw [hb, if_neg]
        rintro ⟨rfl, _⟩
        exact hm hk'
      refine ⟨?_, by simp, ?_⟩
      · apply (List.Pairwise.and_mem.1 hi.ord).imp
        rintro a b ⟨ha, hb1, hab⟩
        rw [hb' a ha, hb' b hb1]; exact hab
      · intro a ha b hb1
        rw [List.mem_singleton] at hb1
        subst hb1
        have hn : histValue h o b = none := by rw [← hi.val]; exact (Dict.get?_eq_none_iff _ _).2 hm
        rw [hb' a ha, hb b, if_pos ⟨rfl, hn⟩]
        exact Or.inl (hi.lt a ha)
  lt k' hk' := by
    rw [hb]
    split
    · simp
    · rename_i hne
      have : k' ∈ d.keys := by
        rw [Dict.mem_keys_iff] at hk' ⊢
        obtain ⟨w, hw⟩ := hk'
        rw [Dict.get?_set] at hw
        split at hw
        · rename_i e
          subst e
          rw [not_and] at hne
          have := hne rfl
          rw [← hi.val] at this
          exact Option.ne_none_iff_exists'.1 this
        · exact ⟨w, hw⟩
      have := hi.lt k' this
      simp only [List.length_cons]; omega

theorem nsInv_del {h : List (NsOp κ ν)} {op : NsOp κ ν} {o : Nat} {d : Dict κ ν} {k : κ}
    (hi : NsInv h o d)
    (hv : ∀ k', histValue (op :: h) o k' = if k' = k then none else histValue h o k')
    (hb : ∀ k', histBirth (op :: h) o k' = histBirth h o k') :
    NsInv (op :: h) o (d.erase k) where
  nd := by rw [Dict.keys_erase]; exact hi.nd.erase _
  val k' := by
    rw [Dict.get?_erase_of_nodup _ hi.nd, hv, hi.val]
    by_cases e : k = k'
    · subst e; simp
    · rw [if_neg e, if_neg (Ne.symm e)]
  ord := by
    rw [Dict.keys_erase]
    simpa only [hb] using hi.ord.sublist List.erase_sublist
  lt k' hk' := by
    rw [Dict.keys_erase] at hk'
    have := hi.lt k' (List.mem_of_mem_erase hk')
    rw [hb, List.length_cons]; omega

theorem getElem?_set' {α : Type} (l : List α) (i j : Nat) (a : α) :
    (l.set i a)[j]? = if i = j ∧ j < l.length then some a else l[j]? := by
  rw [List.getElem?_set]
  by_cases h : i = j
  · subst h
    by_cases h2 : i < l.length
    · simp [h2]
    · simp [h2]
  · simp [h]

/-- The whole heap refines the history. -/
theorem nsHeap_inv : ∀ (h : List (NsOp κ ν)), ValidHist h →
    (nsHeap h).length = objCount h ∧ ∀ o d, (nsHeap h)[o]? = some d → NsInv h o d
  | [], _ => by simp [nsHeap, nsRun, objCount]
  | op :: h, hval => by
    have hval' : ValidHist h := by cases op <;> simp only [ValidHist] at hval <;> exact hval.2
    obtain ⟨hlen, hinv⟩ := nsHeap_inv h hval'
    rw [nsHeap_cons]
    -- assignment
    have hset : ∀ (op : NsOp κ ν) (o' : Nat) (k : κ) (v : ν), o' < objCount h →
        (∀ o k', histValue (op :: h) o k' = if o = o' ∧ k' = k then some v else histValue h o k') →
        (∀ o k', histBirth (op :: h) o k' =
          if o = o' ∧ k' = k ∧ histValue h o k' = none then (h.length, 0) else histBirth h o k') →
        ∀ d', (nsHeap h)[o']? = some d' →
        ∀ o d, ((nsHeap h).set o' (d'.set k v))[o]? = some d → NsInv (op :: h) o d := by
      intro op o' k v _ hv hb d' hd' o d hd
      rw [getElem?_set'] at hd
      split at hd
      · rename_i e
        obtain ⟨rfl, _⟩ := e
        rw [Option.some_inj] at hd
        subst hd
        exact nsInv_set (hinv _ _ hd') (fun k' => by rw [hv]; simp) (fun k' => by rw [hb]; simp)
      · rename_i e
        have hne : o ≠ o' := by
          rintro rfl
          exact e ⟨rfl, (List.getElem?_eq_some_iff.1 hd').1⟩
        exact nsInv_mono (hinv _ _ hd) (fun k' => by rw [hv]; simp [hne])
          (fun k' => by rw [hb]; simp [hne])
    -- deletion
    have hdel : ∀ (op : NsOp κ ν) (o' : Nat) (k : κ),
        (∀ o k', histValue (op :: h) o k' = if o = o' ∧ k' = k then none else histValue h o k') →
        (∀ o k', histBirth (op :: h) o k' = histBirth h o k') →
        ∀ d', (nsHeap h)[o']? = some d' →
        (∀ o d, ((nsHeap h).set o' (d'.erase k))[o]? = some d → NsInv (op :: h) o d) ∧
        (k ∉ d'.keys → ∀ o d, (nsHeap h)[o]? = some d → NsInv (op :: h) o d) := by
      intro op o' k hv hb d' hd'
      constructor
      · intro o d hd
        rw [getElem?_set'] at hd
        split at hd
        · rename_i e
          obtain ⟨rfl, _⟩ := e
          rw [Option.some_inj] at hd
          subst hd
          exact nsInv_del (hinv _ _ hd') (fun k' => by rw [hv]; simp) (fun k' => by rw [hb])
        · rename_i e
          have hne : o ≠ o' := by
            rintro rfl
            exact e ⟨rfl, (List.getElem?_eq_some_iff.1 hd').1⟩
          exact nsInv_mono (hinv _ _ hd) (fun k' => by rw [hv]; simp [hne]) (fun k' => by rw [hb])
      · intro hk o d hd
        refine nsInv_mono (hinv _ _ hd) (fun k' => ?_) (fun k' => by rw [hb])
        rw [hv]
        split
        · rename_i e
          obtain ⟨rfl, rfl⟩ := e
          rw [hd'] at hd
          rw [← (hinv _ _ hd').val]
          exact ((Dict.get?_eq_none_iff _ _).2 hk).symm
        · rfl
    -- new objects
    have happ : ∀ (op : NsOp κ ν) (d' : Dict κ ν), NsInv (op :: h) (objCount h) d' →
        (∀ o k, o ≠ objCount h → histValue (op :: h) o k = histValue h o k) →
        (∀ o k, o ≠ objCount h → histBirth (op :: h) o k = histBirth h o k) →
        ∀ o d, (nsHeap h ++ [d'])[o]? = some d → NsInv (op :: h) o d := by
      intro op d' hd' hv hb o d hd
      by_cases ho : o < objCount h
      · rw [List.getElem?_append_left (by omega)] at hd
        exact nsInv_mono (hinv _ _ hd) (fun k => hv o k (by omega)) (fun k => hb o k (by omega))
      · rw [List.getElem?_append_right (by omega)] at hd
        have : o - (nsHeap h).length = 0 := by
          have := (List.getElem?_eq_some_iff.1 hd).1
          simpa using this
        rw [this] at hd
        have : o = objCount h := by omega
        subst this
        simp only [List.getElem?_cons_zero, Option.some_inj] at hd
        exact hd ▸ hd'
    have hex : ∀ o, o < objCount h → ∃ d, (nsHeap h)[o]? = some d := fun o ho =>
      ⟨_, List.getElem?_eq_getElem (by omega)⟩
    cases op with
    | new kw =>
      simp only [ValidHist] at hval
      refine ⟨by simp [nsExec, hlen, objCount], ?_⟩
      apply happ
      · rw [nsInit_eq kw hval.1]
        refine ⟨hval.1, ?_, ?_, ?_⟩
        · intro k; rw [get?_find]; simp [histValue]
        · show (kw.map Prod.fst).Pairwise _
          rw [List.pairwise_iff_getElem]
          intro i j hi hj hij
          simp only [histBirth, if_true]
          refine Or.inr ⟨rfl, ?_⟩
          simp only
          rw [hval.1.idxOf_getElem, hval.1.idxOf_getElem]
          exact hij
        · intro k _; simp [histBirth]
      · intro o k ho; simp [histValue, ho]
      · intro o k ho; simp [histBirth, ho]
    | copy src =>
      simp only [ValidHist] at hval
      obtain ⟨d, hd⟩ := hex src hval.1
      have hi := hinv _ _ hd
      simp only [nsExec, hd]
      refine ⟨by simp [hlen, objCount], ?_⟩
      apply happ
      · have : nsCopy d = d := nsInit_eq d hi.nd
        rw [this]
        exact nsInv_mono hi (fun k => by simp [histValue]) (fun k => by simp [histBirth])
      · intro o k ho; simp [histValue, ho]
      · intro o k ho; simp [histBirth, ho]
    | setItem o' k v =>
      simp only [ValidHist] at hval
      obtain ⟨d, hd⟩ := hex o' hval.1
      simp only [nsExec, hd]
      refine ⟨by simp [hlen, objCount], ?_⟩
      exact hset (.setItem o' k v) o' k v hval.1 (fun o k' => rfl) (fun o k' => rfl) d hd
    | setAttr o' k v =>
      simp only [ValidHist] at hval
      obtain ⟨d, hd⟩ := hex o' hval.1
      simp only [nsExec, hd]
      refine ⟨by simp [hlen, objCount], ?_⟩
      exact hset (.setAttr o' k v) o' k v hval.1 (fun o k' => rfl) (fun o k' => rfl) d hd
    | delItem o' k =>
      simp only [ValidHist] at hval
      obtain ⟨d, hd⟩ := hex o' hval.1
      have := hdel (.delItem o' k) o' k (fun o k' => rfl) (fun o k' => rfl) d hd
      by_cases hg : d.contains k = true
      · have e : nsExec (nsHeap h) (.delItem o' k) = ((nsHeap h).set o' (d.erase k), none) := by
          simp only [nsExec, hd, nsDelItem, if_pos hg]
        rw [e]
        exact ⟨by simpa [objCount] using hlen, this.1⟩
      · have e : nsExec (nsHeap h) (.delItem o' k) = (nsHeap h, some .keyError) := by
          simp only [nsExec, hd, nsDelItem, if_neg hg]
        rw [e]
        refine ⟨by simpa [objCount] using hlen, this.2 ?_⟩
        rw [← Dict.get?_eq_none_iff]
        simpa [Dict.contains] using hg
    | delAttr o' k =>
      simp only [ValidHist] at hval
      obtain ⟨d, hd⟩ := hex o' hval.1
      have := hdel (.delAttr o' k) o' k (fun o k' => rfl) (fun o k' => rfl) d hd
      by_cases hg : d.contains k = true
      · have e : nsExec (nsHeap h) (.delAttr o' k) = ((nsHeap h).set o' (d.erase k), none) := by
          simp only [nsExec, hd, nsDelAttr, nsDelItem, if_pos hg]
        rw [e]
        exact ⟨by simpa [objCount] using hlen, this.1⟩
      · have e : nsExec (nsHeap h) (.delAttr o' k) = (nsHeap h, some .keyError) := by
          simp only [nsExec, hd, nsDelAttr, nsDelItem, if_neg hg]
        rw [e]
        refine ⟨by simpa [objCount] using hlen, this.2 ?_⟩
        rw [← Dict.get?_eq_none_iff]
        simpa [Dict.contains] using hg

/-- C14: after any history (newest operation first) every object exists, returns for each key the
value given by the history, raises `KeyError` for missing items, and its keys are exactly the keys
with a value, each once, in order of insertion; the length is the number of keys. -/
theorem C14_history (h : List (NsOp κ ν)) (hv : ValidHist h) (o : Nat) (ho : o < objCount h) :
    ∃ d, (nsRun h.reverse)[o]? = some d ∧
      (∀ k, nsGetItem d k = match histValue h o k with
        | some v => .ok v
        | none => .error .keyError) ∧
      (∀ k, k ∈ nsKeys d ↔ histValue h o k ≠ none) ∧
      (∀ k, nsContains d k = true ↔ histValue h o k ≠ none) ∧
      (nsKeys d).Nodup ∧ nsLen d = (nsKeys d).length ∧
      (nsKeys d).map (fun k => histValue h o k) = (nsValues d).map some ∧
      (nsKeys d).Pairwise fun a b => earlier (histBirth h o a) (histBirth h o b) := by
  obtain ⟨h1, h2⟩ := nsHeap_inv h hv
  have hlt : o < (nsHeap h).length := by omega
  obtain ⟨d, hd⟩ : ∃ d, (nsHeap h)[o]? = some d := ⟨_, List.getElem?_eq_getElem hlt⟩
  have hi := h2 o d hd
  refine ⟨d, hd, ?_, ?_, ?_, hi.nd, by simp [nsLen, nsKeys, Dict.keys], ?_, hi.ord⟩
  · intro k
    rw [← hi.val, nsGetItem, Dict.getItem]
    cases d.get? k <;> rfl
  · intro k
    rw [← hi.val, nsKeys, ne_eq, Dict.get?_eq_none_iff, not_not]
  · intro k
    rw [← hi.val, nsContains, Dict.contains, Option.isSome_iff_ne_none]
  · simp only [← hi.val]
    have hnd := hi.nd
    clear hi hd h2 h1
    unfold nsKeys nsValues Dict.keys
    rw [List.map_map, List.map_map]
    induction d with
    | nil => rfl
    | cons p d ih =>
      obtain ⟨a, b⟩ := p
      simp only [Dict.keys, List.map_cons, List.nodup_cons] at hnd
      simp only [List.map_cons, Function.comp, Dict.get?, if_true]
      congr 1
      rw [← ih hnd.2]
      apply List.map_congr_left
      intro q hq
      simp only [Function.comp]
      rw [if_neg]
      rintro rfl
      exact hnd.1 (List.mem_map_of_mem hq)

/-- C14: attribute access returns the member, or `AttributeError` for a missing one, for every name
that is not an attribute of the class or instance. -/
theorem C14_getattr (isBuiltin : κ → Bool) (d : Dict κ ν) (k : κ) (hk : isBuiltin k = false) :
    nsGetAttr isBuiltin d k = match nsGetItem d k with
      | .ok v => .ok (.member v)
      | .error _ => .error .attributeError := by
  unfold nsGetAttr nsGetItem Dict.getItem
  cases d.get? k <;> simp [hk]

/-- C14: a deletion raises `KeyError` exactly when the key is missing, as an item and as an
attribute. -/
theorem C14_delete (h : List (NsOp κ ν)) (hv : ValidHist h) (o : Nat) (ho : o < objCount h) (k : κ) :
    ((nsExec (nsRun h.reverse) (.delItem o k)).2
      = if histValue h o k = none then some .keyError else none) ∧
    ((nsExec (nsRun h.reverse) (.delAttr o k)).2
      = if histValue h o k = none then some .keyError else none) := by
  obtain ⟨h1, h2⟩ := nsHeap_inv h hv
  have hlt : o < (nsHeap h).length := by omega
  obtain ⟨d, hd⟩ : ∃ d, (nsHeap h)[o]? = some d := ⟨_, List.getElem?_eq_getElem hlt⟩
  have hi := h2 o d hd
  have hd' : (nsRun h.reverse)[o]? = some d := hd
  rw [← hi.val]
  by_cases hg : d.contains k = true
  · simp only [nsExec, hd', nsDelAttr, nsDelItem, if_pos hg]
    rw [if_neg]
    · exact ⟨rfl, rfl⟩
    · simpa [Dict.contains, Option.isSome_iff_ne_none] using hg
  · simp only [nsExec, hd', nsDelAttr, nsDelItem, if_neg hg]
    rw [if_pos]
    · exact ⟨rfl, rfl⟩
    · simpa [Dict.contains] using hg

/-- C14: a copy is equal to its source, and later operations on other objects do not change it. -/
theorem C14_independent (h : List (NsOp κ ν)) (o : Nat) (op : NsOp κ ν)
    (hop : match op with
      | .new _ => True
      | .copy _ => True
      | .setItem o' _ _ => o' ≠ o
      | .setAttr o' _ _ => o' ≠ o
      | .delItem o' _ => o' ≠ o
      | .delAttr o' _ => o' ≠ o) (ho : o < objCount h) (hv : ValidHist h) :
    (nsExec (nsRun h.reverse) op).1[o]? = (nsRun h.reverse)[o]? := by
  have hlt : o < (nsRun h.reverse).length := by
    have := (nsHeap_inv h hv).1; simp only [nsHeap] at this; omega
  cases op with
  | new kw => simp only [nsExec]; rw [List.getElem?_append_left hlt]
  | copy o' =>
    simp only [nsExec]
    split
    · rw [List.getElem?_append_left hlt]
    · rfl
  | setItem o' k v => simp only at hop; simp only [nsExec]; split <;> simp [hop]
  | setAttr o' k v => simp only at hop; simp only [nsExec]; split <;> simp [hop]
  | delItem o' k =>
    simp only at hop; simp only [nsExec]; split
    · split <;> simp [hop]
    · rfl
  | delAttr o' k =>
    simp only at hop; simp only [nsExec]; split
    · split <;> simp [hop]
    · rfl

/-- C14: equality compares the mappings and not the order. -/
theorem C14_eq [DecidableEq ν] (d e : Dict κ ν) (hd : d.keys.Nodup) (he : e.keys.Nodup) :
    nsEq d e = true ↔ ∀ k, nsGetItem d k = nsGetItem e k := by
  have hitem : (∀ k, nsGetItem d k = nsGetItem e k) ↔ ∀ k, d.get? k = e.get? k := by
    constructor
    · intro h k
      have := h k
      unfold nsGetItem Dict.getItem at this
      cases h1 : d.get? k <;> cases h2 : e.get? k <;> simp_all
    · intro h k; unfold nsGetItem Dict.getItem; rw [h k]
  have hmem : ∀ (d : Dict κ ν), d.keys.Nodup → ∀ k v, (k, v) ∈ d ↔ d.get? k = some v := by
    intro d hd k v
    induction d with
    | nil => simp [Dict.get?]
    | cons p d ih =>
      obtain ⟨a, b⟩ := p
      simp only [Dict.keys, List.map_cons, List.nodup_cons] at hd
      have := ih hd.2
      by_cases hak : a = k
      · subst hak
        have hn : ∀ v, (a, v) ∉ d := fun v hm => hd.1 (List.mem_map_of_mem (f := Prod.fst) hm)
        simp [Dict.get?, hn, eq_comm]
      · simp [Dict.get?, hak, Ne.symm hak, this]
  rw [hitem]
  unfold nsEq
  rw [Bool.and_eq_true, List.all_eq_true, decide_eq_true_eq]
  constructor
  · rintro ⟨hl, hall⟩ k
    have hsub : d.keys ⊆ e.keys := by
      intro k hk
      obtain ⟨p, hp, rfl⟩ := List.mem_map.1 hk
      exact (Dict.mem_keys_iff _ _).2 ⟨_, by simpa using hall p hp⟩
    have hperm : d.keys.Perm e.keys :=
      List.Subperm.perm_of_length_le (List.subperm_of_subset hd hsub) (by simp [Dict.keys, hl])
    cases h1 : d.get? k with
    | some v =>
      have := hall (k, v) ((hmem d hd k v).2 h1)
      simpa using (of_decide_eq_true this).symm
    | none =>
      symm
      rw [Dict.get?_eq_none_iff] at h1 ⊢
      exact fun hk => h1 (hperm.mem_iff.2 hk)
  · intro h
    constructor
    · have hperm : d.keys.Perm e.keys := by
        rw [List.perm_ext_iff_of_nodup hd he]
        intro k
        rw [Dict.mem_keys_iff, Dict.mem_keys_iff, h k]
      simpa [Dict.keys] using hperm.length_eq
    · rintro ⟨k, v⟩ hp
      simp only [decide_eq_true_eq]
      rw [← h k]
      exact (hmem d hd k v).1 hp

/-- C14: names of methods are shadowed: the item is stored but the attribute access does not return
it. -/
theorem C14_shadowed (isBuiltin : κ → Bool) (d : Dict κ ν) (k : κ) (v : ν) (hk : isBuiltin k = true) :
    nsGetAttr isBuiltin (nsSetAttr d k v) k = .ok .builtin ∧
      nsGetItem (nsSetAttr d k v) k = .ok v := by
  simp [nsGetAttr, hk, nsGetItem, nsSetAttr, nsSetItem, Dict.getItem, Dict.get?_set]

end

/-- Non-vacuity: overwrite, delete and reinsert, then copy and change the source. -/
example : ValidHist ([.setItem 0 "y" 9, .copy 0, .setItem 0 "x" 5, .delItem 0 "x", .setAttr 0 "x" 3,
      .setItem 0 "y" 2, .new [("x", 1)]] : List (NsOp String Nat)) ∧
    nsRun ([.new [("x", 1)], .setItem 0 "y" 2, .setAttr 0 "x" 3, .delItem 0 "x", .setItem 0 "x" 5,
      .copy 0, .setItem 0 "y" 9] : List (NsOp String Nat))
      = [[("y", 9), ("x", 5)], [("y", 2), ("x", 5)]] := by
  constructor
  · simp [ValidHist, objCount]
  · decide

end Ebcc
