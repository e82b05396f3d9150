import Verif.Model.Misc
import Mathlib.Data.List.Basic
import Mathlib.Data.List.Nodup
import Mathlib.Order.Defs.LinearOrder
import Mathlib.Data.List.Perm.Basic
import Mathlib.Data.List.Sort
import Mathlib.Data.Prod.Lex

namespace Ebcc
section
variable {α : Type} [LinearOrder α]

theorem insertStable_perm (p : α × Nat) (L : List (α × Nat)) :
    (insertStable p L).Perm (p :: L) := by
  induction L with
  | nil => simp [insertStable]
  | cons q qs ih =>
    simp only [insertStable]
    split
    · exact List.Perm.refl _
    · exact (List.Perm.cons q ih).trans (List.Perm.swap p q qs)

/-- Order by value, ties by position. -/
def StableLt (p q : α × Nat) : Prop := p.1 < q.1 ∨ (p.1 = q.1 ∧ p.2 < q.2)

theorem insertStable_sorted (p : α × Nat) (L : List (α × Nat)) (hL : L.Pairwise StableLt)
    (hp : ∀ q ∈ L, q.2 < p.2) : (insertStable p L).Pairwise StableLt := by
  induction L with
  | nil => simp [insertStable]
  | cons q qs ih =>
    have hq := List.pairwise_cons.1 hL
    simp only [insertStable]
    split
    · rename_i h
      rw [List.pairwise_cons]
      refine ⟨?_, hL⟩
      intro r hr
      rcases List.mem_cons.1 hr with rfl | hr
      · exact Or.inl h
      · left
        rcases hq.1 r hr with h' | ⟨h', _⟩
        · exact lt_trans h h'
        · rw [← h']; exact h
    · rename_i h
      rw [List.pairwise_cons]
      refine ⟨?_, ih hq.2 (fun r hr => hp r (by simp [hr]))⟩
      intro r hr
      rcases List.mem_cons.1 ((insertStable_perm p qs).mem_iff.1 hr) with rfl | hr
      · rcases lt_or_eq_of_le (not_lt.1 h) with h' | h'
        · exact Or.inl h'
        · exact Or.inr ⟨h', hp q (by simp)⟩
      · exact hq.1 r hr

theorem foldl_insertStable (v : List α) : ∀ (k : Nat) (acc : List (α × Nat)),
    acc.Pairwise StableLt → (∀ q ∈ acc, q.2 < k) →
    ((v.zipIdx k).foldl (fun acc p => insertStable p acc) acc).Pairwise StableLt ∧
    ((v.zipIdx k).foldl (fun acc p => insertStable p acc) acc).Perm (acc ++ v.zipIdx k) := by
  induction v with
  | nil => intro k acc h _; simp [h]
  | cons a v ih =>
    intro k acc h hk
    simp only [List.zipIdx_cons, List.foldl_cons]
    have hs := insertStable_sorted (a, k) acc h (fun q hq => hk q hq)
    have hp := insertStable_perm (a, k) acc
    obtain ⟨h1, h2⟩ := ih (k + 1) _ hs (by
      intro q hq
      rcases List.mem_cons.1 (hp.mem_iff.1 hq) with rfl | hq
      · exact Nat.lt_succ_self _
      · exact Nat.lt_succ_of_lt (hk q hq))
    refine ⟨h1, h2.trans ?_⟩
    refine (List.Perm.append_right _ hp).trans ?_
    exact List.perm_middle.symm

/-- The sorted list of pairs behind `argsort`. -/
def argsortPairs (v : List α) : List (α × Nat) :=
  v.zipIdx.foldl (fun acc p => insertStable p acc) []

theorem argsortPairs_sorted (v : List α) : (argsortPairs v).Pairwise StableLt :=
  (foldl_insertStable v 0 [] (by simp) (by simp)).1

theorem argsortPairs_perm (v : List α) : (argsortPairs v).Perm v.zipIdx := by
  have h := (foldl_insertStable v 0 [] (by simp) (by simp)).2
  rw [List.nil_append] at h; exact h

theorem argsort_eq (v : List α) : argsort v = (argsortPairs v).map Prod.snd := rfl

theorem argsort_perm (v : List α) : (argsort v).Perm (List.range v.length) := by
  rw [argsort_eq]
  have := (argsortPairs_perm v).map Prod.snd
  simpa [List.zipIdx_map_snd, List.range_eq_range'] using this

theorem length_argsort (v : List α) : (argsort v).length = v.length := by
  simpa using (argsort_perm v).length_eq

theorem getElem_of_mem_argsortPairs (v : List α) {p : α × Nat} (h : p ∈ argsortPairs v) :
    v[p.2]? = some p.1 := by
  have := (argsortPairs_perm v).mem_iff.1 h
  exact List.mem_zipIdx_iff_getElem?.1 this

theorem argsortPairs_eq_map (v : List α) (d : α) :
    argsortPairs v = (argsort v).map fun i => (v.getD i d, i) := by
  rw [argsort_eq, List.map_map]
  conv_lhs => rw [← List.map_id (argsortPairs v)]
  apply List.map_congr_left
  intro p hp
  have := getElem_of_mem_argsortPairs v hp
  simp [List.getD, this]

end
end Ebcc
