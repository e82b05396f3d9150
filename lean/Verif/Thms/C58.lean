import Verif.Model.Package
import Mathlib.Data.Rat.Floor
import Mathlib.Algebra.Order.Floor.Ring
import Mathlib.Tactic.Linarith
import Mathlib.Tactic.Ring
/-!
C58: formatted times.  The units that are shown add up to the whole number of milliseconds, each unit is shown once and
with a number below that of the next unit, and the text determines the number of milliseconds.  The number of units
does not depend on `precision`: at most `precision` units are shown only in the sense of `C58_precision_partial`.
-/

namespace Ebcc

/-- The milliseconds of a unit. -/
def TimeUnit.inMs : TimeUnit → Int
  | .h => 3600000
  | .m => 60000
  | .s => 1000
  | .ms => 1

theorem lastSlice_max {α : Type} (xs : List α) (k : Int) : lastSlice xs (max k xs.length) = xs := by
  unfold lastSlice
  rcases le_total k (xs.length : Int) with h | h
  · rw [max_eq_right h]
    split
    · rfl
    · split
      · simp
      · omega
  · rw [max_eq_left h]
    split
    · rfl
    · split
      · rw [show xs.length - k.toNat = 0 by omega]
        rfl
      · omega

/-- The argument `precision` has no effect. -/
theorem C58_precision_ignored (t : Rat) (p q : Int) : formatTime t p = formatTime t q ∧ shownParts t p = timeParts t := by
  have h : ∀ p, shownParts t p = timeParts t := fun p => lastSlice_max _ _
  exact ⟨by unfold formatTime; rw [h p, h q], h p⟩

theorem floor_ms (t : Rat) : (((t - (t.floor : Rat)) * 1000).floor : Int) + 1000 * t.floor = (t * 1000).floor := by
  have h : (t * 1000 : Rat) = (t - (t.floor : Rat)) * 1000 + ((1000 * t.floor : Int) : Rat) := by
    push_cast
    ring
  rw [h]
  exact (Int.floor_add_intCast ((t - (t.floor : Rat)) * 1000) (1000 * t.floor)).symm

theorem ms_bounds (t : Rat) : 0 ≤ (t - (t.floor : Rat)) * 1000 ∧ (t - (t.floor : Rat)) * 1000 < 1000 := by
  have h1 : ((t.floor : Int) : Rat) ≤ t := Int.floor_le t
  have h2 : t < ((t.floor : Int) : Rat) + 1 := Int.lt_floor_add_one t
  constructor <;> linarith

/-- The parts that are shown add up to the whole number of milliseconds. -/
theorem C58_total (t : Rat) (precision : Int) :
    ((shownParts t precision).map fun x => x.1 * x.2.inMs).sum = (t * 1000).floor := by
  rw [(C58_precision_ignored t precision precision).2, ← floor_ms]
  have e1 : ∀ (n : Int) (u : TimeUnit), (((if n ≠ 0 then [(n, u)] else []) : List (Int × TimeUnit)).map
      fun x => x.1 * x.2.inMs).sum = n * u.inMs := by
    intro n u
    by_cases h : n = 0 <;> simp [h]
  have e2 : ∀ q : Rat, (((if q ≠ 0 then [(q.floor, TimeUnit.ms)] else []) : List (Int × TimeUnit)).map
      fun x => x.1 * x.2.inMs).sum = q.floor := by
    intro q
    by_cases h : q = 0
    · subst h; rfl
    · simp [h, TimeUnit.inMs]
  unfold timeParts
  simp only [List.map_append, List.sum_append, e1, e2]
  simp only [TimeUnit.inMs]
  have h1 := Int.mul_fdiv_add_fmod t.floor 60
  have h2 := Int.mul_fdiv_add_fmod (t.floor.fdiv 60) 60
  omega

/-- Each unit is shown at most once, from the largest to the smallest; minutes and seconds are below 60 and milliseconds
below 1000, and for a time that is not negative no number is negative. -/
theorem C58_units (t : Rat) (precision : Int) :
    ((shownParts t precision).map Prod.snd).Sublist [.h, .m, .s, .ms] ∧
    ∀ x ∈ shownParts t precision, (x.2 = .m ∨ x.2 = .s → 0 < x.1 ∧ x.1 < 60) ∧ (x.2 = .ms → 0 ≤ x.1 ∧ x.1 < 1000) ∧
      (0 ≤ t → 0 ≤ x.1) := by
  rw [(C58_precision_ignored t precision precision).2]
  unfold timeParts
  constructor
  · simp only [List.map_append]
    rw [show ([.h, .m, .s, .ms] : List TimeUnit) = (([.h] ++ [.m]) ++ [.s]) ++ [.ms] from rfl]
    refine List.Sublist.append (List.Sublist.append (List.Sublist.append ?_ ?_) ?_) ?_
    all_goals
      split
      · exact List.Sublist.refl _
      · exact List.nil_sublist _
  · intro x hx
    have hms := ms_bounds t
    have f1 : (0 : Int) ≤ ((t - (t.floor : Rat)) * 1000).floor := Int.floor_nonneg.2 hms.1
    have f2 : ((t - (t.floor : Rat)) * 1000).floor < 1000 := Int.floor_lt.2 (by exact_mod_cast hms.2)
    have g1 := Int.fmod_nonneg_of_pos t.floor (b := 60) (by decide)
    have g2 := Int.fmod_lt_of_pos t.floor (b := 60) (by decide)
    have g3 := Int.fmod_nonneg_of_pos (t.floor.fdiv 60) (b := 60) (by decide)
    have g4 := Int.fmod_lt_of_pos (t.floor.fdiv 60) (b := 60) (by decide)
    simp only [List.mem_append] at hx
    rcases hx with ((hx | hx) | hx) | hx
    all_goals
      split at hx
      · rename_i hne
        simp only [List.mem_singleton] at hx
        subst hx
        refine ⟨fun h => ?_, fun h => ?_, fun h => ?_⟩
        all_goals simp only at h ⊢
        all_goals first
          | (rcases h with h | h <;> cases h; done)
          | (cases h; done)
          | omega
          | (have : (0 : Int) ≤ t.floor := Int.floor_nonneg.2 h
             exact Int.fdiv_nonneg (Int.fdiv_nonneg this (by decide)) (by decide))
      · cases hx

/-- If at most `precision` units are not zero, at most `precision` units are shown. -/
theorem C58_precision_partial (t : Rat) (precision : Int) (h : ((timeParts t).length : Int) ≤ precision) :
    ((shownParts t precision).length : Int) ≤ precision := by
  rw [(C58_precision_ignored t precision precision).2]
  exact h

/-- More than `precision` units are shown. -/
theorem C58_precision_fails : ¬ ∀ (t : Rat) (precision : Int), 0 ≤ t → 0 ≤ precision →
    ((shownParts t precision).length : Int) ≤ precision := by
  intro h
  exact absurd (h (3661 + 1 / 2) 2 (by decide +kernel) (by decide)) (by decide +kernel)

/-! ### The text -/

theorem space_split {a b r s : List Char} (ha : ' ' ∉ a) (hb : ' ' ∉ b) (h : a ++ ' ' :: r = b ++ ' ' :: s) : a = b ∧ r = s := by
  induction a generalizing b with
  | nil =>
    cases b with
    | nil => exact ⟨rfl, by simpa using h⟩
    | cons d b =>
      simp only [List.nil_append, List.cons_append, List.cons.injEq] at h
      exact absurd (h.1 ▸ List.mem_cons_self) hb
  | cons c a ih =>
    cases b with
    | nil =>
      simp only [List.nil_append, List.cons_append, List.cons.injEq] at h
      exact absurd (h.1 ▸ List.mem_cons_self) ha
    | cons d b =>
      simp only [List.cons_append, List.cons.injEq] at h
      obtain ⟨h1, h2⟩ := ih (fun hh => ha (List.mem_cons_of_mem _ hh)) (fun hh => hb (List.mem_cons_of_mem _ hh)) h.2
      exact ⟨by rw [h.1, h1], h2⟩

theorem showInt_inj {m n : Int} (hm : 0 ≤ m) (hn : 0 ≤ n) (h : showInt m = showInt n) : m = n := by
  unfold showInt at h
  rw [if_neg (by omega), if_neg (by omega), List.nil_append, List.nil_append] at h
  have h := congrArg (fun l => Nat.ofDigitChars 10 l 0) h
  simp only [Nat.ofDigitChars_toDigits (b := 10) (by decide) (by decide)] at h
  omega

theorem space_showInt (n : Int) : ' ' ∉ showInt n := by
  unfold showInt
  intro h
  rcases List.mem_append.1 h with h | h
  · split at h
    · simp at h
    · cases h
  · have := Nat.isDigit_of_mem_toDigits (b := 10) (by decide) (by decide) h
    exact absurd this (by decide)

/-- The text of a list of parts. -/
theorem intercalate_parts (x : List Char) (l : List (List Char)) (hl : l ≠ []) :
    List.intercalate [' '] (x :: l) = x ++ ' ' :: List.intercalate [' '] l := by
  cases l with
  | nil => exact absurd rfl hl
  | cons y l => simp [List.intercalate, List.intersperse]

theorem intercalate_one (x : List Char) : List.intercalate [' '] [x] = x := by simp [List.intercalate, List.intersperse]

theorem unit_text_space (u : TimeUnit) : ' ' ∉ u.text := by cases u <;> decide

theorem unit_text_inj {u v : TimeUnit} (h : u.text = v.text) : u = v := by
  revert h
  cases u <;> cases v <;> decide

theorem parts_of_text (xs ys : List (Int × TimeUnit)) (hx : ∀ x ∈ xs, 0 ≤ x.1) (hy : ∀ y ∈ ys, 0 ≤ y.1)
    (h : List.intercalate [' '] (xs.map fun p => showInt p.1 ++ ' ' :: p.2.text)
      = List.intercalate [' '] (ys.map fun p => showInt p.1 ++ ' ' :: p.2.text)) : xs = ys := by
  have hne : ∀ (z : Int × TimeUnit) (zs : List (Int × TimeUnit)),
      List.intercalate [' '] ((z :: zs).map fun p => showInt p.1 ++ ' ' :: p.2.text) ≠ [] := by
    intro z zs
    cases zs with
    | nil => rw [List.map_cons, List.map_nil, intercalate_one]; simp
    | cons w ws => rw [List.map_cons, intercalate_parts _ _ (by simp)]; simp
  induction xs generalizing ys with
  | nil =>
    cases ys with
    | nil => rfl
    | cons y ys => exact absurd h.symm (hne y ys)
  | cons x xs ih =>
    cases ys with
    | nil => exact absurd h (hne x xs)
    | cons y ys =>
      have h1 : ∀ {a b : Int × TimeUnit} {r s : List Char}, 0 ≤ a.1 → 0 ≤ b.1 →
          showInt a.1 ++ ' ' :: r = showInt b.1 ++ ' ' :: s → a.1 = b.1 ∧ r = s := by
        intro a b r s ha hb h
        obtain ⟨h1, h2⟩ := space_split (space_showInt _) (space_showInt _) h
        exact ⟨showInt_inj ha hb h1, h2⟩
      have hx0 := hx x List.mem_cons_self
      have hy0 := hy y List.mem_cons_self
      cases xs with
      | nil =>
        cases ys with
        | nil =>
          simp only [List.map_cons, List.map_nil, intercalate_one] at h
          obtain ⟨e1, e2⟩ := h1 hx0 hy0 h
          rw [Prod.ext e1 (unit_text_inj e2)]
        | cons z ys =>
          rw [List.map_cons, List.map_nil, intercalate_one, List.map_cons, intercalate_parts _ _ (by simp),
            List.append_assoc, List.cons_append] at h
          have := (h1 hx0 hy0 h).2
          exact absurd (this ▸ (List.mem_append_right _ List.mem_cons_self)) (unit_text_space x.2)
      | cons w xs =>
        cases ys with
        | nil =>
          rw [List.map_cons (l := []), List.map_nil, intercalate_one, List.map_cons, intercalate_parts _ _ (by simp),
            List.append_assoc, List.cons_append] at h
          have := (h1 hx0 hy0 h).2
          exact absurd (this ▸ (List.mem_append_right _ List.mem_cons_self)) (unit_text_space y.2)
        | cons z ys =>
          rw [List.map_cons, List.map_cons (l := z :: ys), intercalate_parts _ _ (by simp), intercalate_parts _ _ (by simp),
            List.append_assoc, List.append_assoc, List.cons_append, List.cons_append] at h
          obtain ⟨e1, e2⟩ := h1 hx0 hy0 h
          obtain ⟨e3, e4⟩ := space_split (unit_text_space _) (unit_text_space _) e2
          rw [Prod.ext e1 (unit_text_inj e3), ih (z :: ys) (fun a ha => hx a (List.mem_cons_of_mem _ ha))
            (fun a ha => hy a (List.mem_cons_of_mem _ ha)) e4]

/-- Two times with the same text have the same whole number of milliseconds. -/
theorem C58_text (t t' : Rat) (p p' : Int) (ht : 0 ≤ t) (ht' : 0 ≤ t') (h : formatTime t p = formatTime t' p') :
    (t * 1000).floor = (t' * 1000).floor := by
  have := parts_of_text _ _ (fun x hx => ((C58_units t p).2 x hx).2.2 ht) (fun x hx => ((C58_units t' p').2 x hx).2.2 ht') h
  rw [← C58_total t p, ← C58_total t' p', this]

/-- The time zero has an empty text. -/
theorem C58_zero (p : Int) : formatTime 0 p = [] := by
  unfold formatTime
  rw [(C58_precision_ignored 0 p p).2]
  decide +kernel

/-- One hour, one minute, one second and a half, with all four units in spite of a precision of two. -/
example : formatTime (3661 + 1 / 2) 2 = "1 h 1 m 1 s 500 ms".toList := by decide +kernel

/-- A time below a millisecond. -/
example : formatTime (1 / 10000) 2 = "0 ms".toList := by decide +kernel

end Ebcc
