import Verif.Lemmas.Misc

/-!
C13: `argsort` returns the stable sorting permutation; on a permutation it returns the inverse.
-/

namespace Ebcc

/-- C13: the result is a permutation of the positions. -/
theorem C13_permutation {α : Type} [LinearOrder α] (v : List α) :
    (argsort v).Perm (List.range v.length) := argsort_perm v

/-- C13: positions earlier in the result hold smaller values, or equal values at earlier positions
(sortedness and stability). -/
theorem C13_sorted_stable {α : Type} [LinearOrder α] (v : List α) :
    (argsort v).Pairwise fun i j =>
      ∃ a b, v[i]? = some a ∧ v[j]? = some b ∧ (a < b ∨ (a = b ∧ i < j)) := by
  rw [argsort_eq, List.pairwise_map]
  apply (List.Pairwise.and_mem.1 (argsortPairs_sorted v)).imp
  rintro p q ⟨hp, hq, h⟩
  exact ⟨p.1, q.1, getElem_of_mem_argsortPairs v hp, getElem_of_mem_argsortPairs v hq, h⟩

/-- C13: these two facts determine the result. -/
theorem C13_unique {α : Type} [LinearOrder α] (v : List α) (L : List Nat)
    (hp : L.Perm (List.range v.length))
    (hs : L.Pairwise fun i j =>
      ∃ a b, v[i]? = some a ∧ v[j]? = some b ∧ (a < b ∨ (a = b ∧ i < j))) : L = argsort v := by
  refine List.Perm.eq_of_pairwise ?_ hs (C13_sorted_stable v) (hp.trans (argsort_perm v).symm)
  rintro i j _ _ ⟨a, b, ha, hb, h⟩ ⟨b', a', hb', ha', h'⟩
  rw [ha] at ha'; rw [hb] at hb'
  cases ha'; cases hb'
  exfalso
  rcases h with h | ⟨h, hij⟩ <;> rcases h' with h' | ⟨h', hji⟩
  · exact lt_asymm h h'
  · exact lt_irrefl _ (h' ▸ h)
  · exact lt_irrefl _ (h ▸ h')
  · omega

/-- C13: for a permutation `p` of `0..n-1`, `argsort p` is its inverse. -/
theorem C13_inverse (p : List Nat) (hp : p.Perm (List.range p.length)) (k : Nat)
    (hk : k < p.length) :
    (∃ i, (argsort p)[k]? = some i ∧ p[i]? = some k) ∧
    (∃ i, p[k]? = some i ∧ (argsort p)[i]? = some k) := by
  -- the values in sorted order are `0..n-1`
  have hperm : (argsortPairs p).map Prod.fst = List.range p.length := by
    have h1 : ((argsortPairs p).map Prod.fst).Perm (List.range p.length) := by
      have := (argsortPairs_perm p).map Prod.fst
      simp at this
      exact this.trans hp
    have h2 : ((argsortPairs p).map Prod.fst).Pairwise (· ≤ ·) := by
      rw [List.pairwise_map]
      apply (argsortPairs_sorted p).imp
      rintro a b (h | ⟨h, _⟩)
      · exact le_of_lt h
      · exact le_of_eq h
    have h3 : (List.range p.length).Pairwise (· ≤ ·) := List.pairwise_lt_range.imp le_of_lt
    exact List.Perm.eq_of_pairwise (fun a b _ _ => Nat.le_antisymm) h2 h3 h1
  have key : ∀ k < p.length, ∃ i, (argsort p)[k]? = some i ∧ p[i]? = some k := by
    intro k hk
    have hlen : (argsortPairs p).length = p.length := by
      simpa using (argsortPairs_perm p).length_eq
    have hk' : k < (argsortPairs p).length := by omega
    refine ⟨(argsortPairs p)[k].2, ?_, ?_⟩
    · rw [argsort_eq]; simp [hk']
    · have h1 := getElem_of_mem_argsortPairs p (List.getElem_mem hk')
      have h2 : (argsortPairs p)[k].1 = k := by
        have : ((argsortPairs p).map Prod.fst)[k]'(by simpa using hk') = k := by
          simp [hperm]
        simpa using this
      rw [h1, h2]
  refine ⟨key k hk, ?_⟩
  have hi : p[k] < p.length := by
    have := hp.mem_iff.1 (List.getElem_mem hk)
    simpa using this
  refine ⟨p[k], by simp, ?_⟩
  obtain ⟨i, h1, h2⟩ := key _ hi
  have hnd : p.Nodup := hp.nodup_iff.2 List.nodup_range
  rw [List.getElem?_eq_some_iff] at h2
  obtain ⟨hip, h2⟩ := h2
  have : i = k := (List.Nodup.getElem_inj_iff hnd).1 h2
  rw [h1, this]

/-- Non-vacuity, with ties: the positions of the smaller letters come first, in order. -/
example : argsort "baba".toList = [1, 3, 0, 2] := by decide

example : ([2, 0, 3, 1] : List Nat).Perm (List.range 4) ∧ argsort [2, 0, 3, 1] = [1, 3, 0, 2] := by
  decide

/-- `unique` keeps exactly the elements, without repetition, in order of first occurrence. -/
theorem C13_unique_elements {α : Type} [DecidableEq α] (l : List α) :
    (unique l).Nodup ∧ (∀ x, x ∈ unique l ↔ x ∈ l) ∧ (unique l).Sublist l := by
  have aux : ∀ (l done : List α), (uniqueLoop done l).Nodup ∧
      (∀ x, x ∈ uniqueLoop done l ↔ x ∈ l ∧ x ∉ done) ∧ (uniqueLoop done l).Sublist l := by
    intro l
    induction l with
    | nil => intro done; simp [uniqueLoop]
    | cons a l ih =>
      intro done
      simp only [uniqueLoop]
      split
      · rename_i h
        obtain ⟨h1, h2, h3⟩ := ih done
        refine ⟨h1, ?_, h3.cons _⟩
        intro x; rw [h2]
        simp only [List.mem_cons]
        constructor
        · rintro ⟨h4, h5⟩; exact ⟨Or.inr h4, h5⟩
        · rintro ⟨rfl | h4, h5⟩
          · exact absurd h h5
          · exact ⟨h4, h5⟩
      · rename_i h
        obtain ⟨h1, h2, h3⟩ := ih (a :: done)
        refine ⟨?_, ?_, h3.cons_cons _⟩
        · rw [List.nodup_cons]
          exact ⟨fun hm => ((h2 a).1 hm).2 (by simp), h1⟩
        · intro x
          simp only [List.mem_cons, h2]
          constructor
          · rintro (rfl | ⟨h4, h5⟩)
            · exact ⟨Or.inl rfl, h⟩
            · exact ⟨Or.inr h4, fun h6 => h5 (Or.inr h6)⟩
          · rintro ⟨h4, h5⟩
            by_cases e : x = a
            · exact Or.inl e
            · exact Or.inr ⟨h4.resolve_left e, fun h6 => h6.elim e h5⟩
  have := aux l []
  refine ⟨this.1, ?_, this.2.2⟩
  intro x; simpa [unique] using this.2.1 x

end Ebcc
