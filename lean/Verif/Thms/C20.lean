import Verif.Lemmas.Space

/-!
C20: `Space` rejects exactly the invalid assignments.
-/

namespace Ebcc

/-- `Space(occupied, frozen, active)` raises, always `ValueError`, if and only if the sizes differ or
some orbital is both frozen and active. -/
theorem C20_rejects_iff (o f a : List Bool) :
    Space.new o f a = .error .valueError ↔
      ¬ (o.length = f.length ∧ f.length = a.length) ∨ ∃ p, inMask f p = true ∧ inMask a p = true := by
  unfold Space.new
  by_cases hl : o.length = f.length ∧ f.length = a.length
  · rw [if_neg (not_not.2 hl)]
    have hany : (maskAnd f a).any id = true ↔ ∃ p, inMask f p = true ∧ inMask a p = true := by
      rw [List.any_eq_true]
      constructor
      · rintro ⟨b, hb, hid⟩
        obtain ⟨p, hp, rfl⟩ := List.mem_iff_getElem.1 hb
        refine ⟨p, ?_⟩
        have : inMask (maskAnd f a) p = true := by rw [inMask_eq_getElem hp]; exact hid
        rw [inMask_and] at this
        simpa using this
      · rintro ⟨p, h1, h2⟩
        have h : inMask (maskAnd f a) p = true := by rw [inMask_and, h1, h2]; rfl
        have hp := inMask_lt h
        exact ⟨(maskAnd f a)[p], List.getElem_mem _, by rw [← inMask_eq_getElem hp]; exact h⟩
    split
    · rename_i h
      simp [hl, hany.1 h]
    · rename_i h
      have : ¬ ∃ p, inMask f p = true ∧ inMask a p = true := fun h' => h (hany.2 h')
      simp [hl] 
      simpa using this
  · rw [if_pos hl]
    simp [hl]

/-- Otherwise the arrays are stored unchanged. -/
theorem C20_accepts (o f a : List Bool) (h : Space.new o f a ≠ .error .valueError) :
    Space.new o f a = .ok ⟨o, f, a⟩ := by
  unfold Space.new at h ⊢
  split
  · rename_i hl; rw [if_pos hl] at h; exact absurd rfl h
  · rename_i hl
    rw [if_neg hl] at h
    split
    · rename_i hb; rw [if_pos hb] at h; exact absurd rfl h
    · rfl

/-- What acceptance means for the stored arrays. -/
theorem C20_accepted_is_valid (o f a : List Bool) (s : Space) (h : Space.new o f a = .ok s) :
    s = ⟨o, f, a⟩ ∧ o.length = f.length ∧ f.length = a.length ∧
      ∀ p, ¬ (inMask f p = true ∧ inMask a p = true) := by
  have hne : Space.new o f a ≠ .error .valueError := by rw [h]; simp
  have hs := C20_accepts o f a hne
  rw [Ne, C20_rejects_iff, not_or, not_not, not_exists] at hne
  rw [h] at hs
  cases hs
  exact ⟨rfl, hne.1.1, hne.1.2, hne.2⟩

example : Space.new [true, true, false, false] [true, false, false, false] [false, true, true, false]
    = .ok ⟨[true, true, false, false], [true, false, false, false], [false, true, true, false]⟩ := rfl
example : Space.new [true, false] [true, false] [true, false] = .error .valueError := rfl
example : Space.new [true, false] [true, false] [false] = .error .valueError := rfl

end Ebcc
