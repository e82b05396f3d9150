import Verif.Model.Py
import Mathlib.Data.List.Basic
import Mathlib.Data.List.Nodup

namespace Ebcc.Dict
variable {κ ν : Type} [DecidableEq κ]

theorem get?_set (d : Dict κ ν) (k : κ) (v : ν) (k' : κ) :
    (d.set k v).get? k' = if k = k' then some v else d.get? k' := by
  induction d with
  | nil => simp [set, get?]
  | cons p d ih =>
    obtain ⟨a, b⟩ := p
    simp only [set]
    by_cases h : a = k
    · subst h; simp only [if_true, get?]; split <;> rfl
    · simp only [if_neg h, get?, ih]
      by_cases h' : a = k'
      · subst h'; rw [if_pos rfl, if_neg (fun e => h e.symm), if_pos rfl]
      · simp [h']

theorem get?_eq_none_iff (d : Dict κ ν) (k : κ) : d.get? k = none ↔ k ∉ d.keys := by
  induction d with
  | nil => simp [get?, keys]
  | cons p d ih =>
    obtain ⟨a, b⟩ := p
    simp only [get?, keys, List.map_cons, List.mem_cons, not_or]
    by_cases h : a = k
    · subst h; simp
    · simp only [if_neg h, ih, keys]; constructor
      · intro h'; exact ⟨fun e => h e.symm, h'⟩
      · intro h'; exact h'.2

theorem keys_set_of_mem (d : Dict κ ν) (k : κ) (v : ν) (h : k ∈ d.keys) :
    (d.set k v).keys = d.keys := by
  induction d with
  | nil => simp [keys] at h
  | cons p d ih =>
    obtain ⟨a, b⟩ := p
    simp only [set]
    by_cases h' : a = k
    · subst h'; simp [keys]
    · simp only [if_neg h', keys, List.map_cons]
      congr 1
      apply ih
      simp only [keys, List.map_cons, List.mem_cons] at h
      exact h.resolve_left (fun e => h' e.symm)

theorem keys_set_of_not_mem (d : Dict κ ν) (k : κ) (v : ν) (h : k ∉ d.keys) :
    (d.set k v).keys = d.keys ++ [k] := by
  induction d with
  | nil => simp [keys, set]
  | cons p d ih =>
    obtain ⟨a, b⟩ := p
    simp only [keys, List.map_cons, List.mem_cons, not_or] at h
    simp only [set, if_neg (fun e : a = k => h.1 e.symm), keys, List.map_cons, List.cons_append]
    congr 1
    exact ih h.2

theorem keys_erase (d : Dict κ ν) (k : κ) : (d.erase k).keys = d.keys.erase k := by
  induction d with
  | nil => simp [keys, erase]
  | cons p d ih =>
    obtain ⟨a, b⟩ := p
    simp only [erase, keys, List.map_cons]
    by_cases h : a = k
    · subst h; simp
    · rw [if_neg h, List.erase_cons_tail (by simpa using h)]
      simp only [List.map_cons]; congr 1

theorem get?_erase_of_nodup (d : Dict κ ν) (hd : d.keys.Nodup) (k k' : κ) :
    (d.erase k).get? k' = if k = k' then none else d.get? k' := by
  induction d with
  | nil => simp [erase, get?]
  | cons p d ih =>
    obtain ⟨a, b⟩ := p
    simp only [keys, List.map_cons, List.nodup_cons] at hd
    simp only [erase]
    by_cases h : a = k
    · subst h
      simp only [if_true, get?]
      by_cases h' : a = k'
      · subst h'; simp; exact (get?_eq_none_iff d a).2 hd.1
      · simp [h']
    · simp only [if_neg h, get?, ih hd.2]
      by_cases h' : a = k'
      · subst h'; rw [if_pos rfl, if_neg (fun e => h e.symm), if_pos rfl]
      · simp [h']

theorem nodup_keys_set (d : Dict κ ν) (hd : d.keys.Nodup) (k : κ) (v : ν) :
    (d.set k v).keys.Nodup := by
  by_cases h : k ∈ d.keys
  · rw [keys_set_of_mem d k v h]; exact hd
  · rw [keys_set_of_not_mem d k v h]
    rw [List.nodup_append]
    refine ⟨hd, by simp, ?_⟩
    intro a ha b hb hab
    simp at hb; subst hb; subst hab; exact h ha

theorem mem_keys_iff (d : Dict κ ν) (k : κ) : k ∈ d.keys ↔ ∃ v, d.get? k = some v := by
  rw [← not_iff_not, ← get?_eq_none_iff]
  cases d.get? k <;> simp

theorem get?_append (d d' : Dict κ ν) (k : κ) :
    get? (d ++ d') k = (d.get? k).or (get? d' k) := by
  induction d with
  | nil => simp [get?]
  | cons p d ih =>
    obtain ⟨a, b⟩ := p
    simp only [List.cons_append, get?]
    split
    · simp
    · exact ih

end Ebcc.Dict
