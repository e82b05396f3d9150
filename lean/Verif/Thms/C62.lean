import Verif.Model.Utilities
import Mathlib.Algebra.Order.Group.Defs
import Mathlib.Algebra.BigOperators.Group.List.Basic
import Mathlib.Algebra.Order.Group.Int
import Mathlib.Tactic.Abel

/-!
C62: the laps of a timer are consecutive intervals: they add up to the time from the creation of the timer to the last
lap, whatever calls of `total` are made in between, and `total` does not disturb the laps.
-/

namespace Ebcc

/-- The times at which `lap` was called. -/
def lapTimes62 {T : Type} : List (TimerCall T) → List T
  | [] => []
  | .lap now :: cs => now :: lapTimes62 cs
  | .total _ :: cs => lapTimes62 cs

/-- The numbers returned by the calls of `lap`, given the calls and all the numbers returned. -/
def lapValues62 {T : Type} : List (TimerCall T) → List T → List T
  | .lap _ :: cs, x :: out => x :: lapValues62 cs out
  | .total _ :: cs, _ :: out => lapValues62 cs out
  | _, _ => []

/-- C62: the numbers returned by `lap` add up to the time between the creation of the timer and the last lap (nothing if
there was no lap). -/
theorem C62_laps_add_up {T : Type} [AddCommGroup T] (s : Timer T) (cs : List (TimerCall T)) :
    (lapValues62 cs (s.run cs).1).sum = (lapTimes62 cs).getLastD s.tCurr - s.tCurr := by
  induction cs generalizing s with
  | nil => simp [lapValues62, lapTimes62, Timer.run]
  | cons c cs ih =>
    cases c with
    | lap now =>
      simp only [lapValues62, lapTimes62, Timer.run, List.sum_cons, List.getLastD_cons]
      rw [ih (s.call (.lap now)).2]
      simp only [Timer.call]
      abel
    | total now => exact ih (s.call (.total now)).2

/-- C62: every lap is the time since the lap before it (or since the creation). -/
theorem C62_lap {T : Type} [AddCommGroup T] (s : Timer T) (cs : List (TimerCall T)) (now : T) :
    ((s.run cs).2.call (.lap now)).1 = now - (lapTimes62 cs).getLastD s.tCurr := by
  induction cs generalizing s with
  | nil => simp [lapTimes62, Timer.run, Timer.call]
  | cons c cs ih =>
    cases c with
    | lap t =>
      simp only [lapTimes62, Timer.run, List.getLastD_cons]
      exact ih (s.call (.lap t)).2
    | total t => exact ih (s.call (.total t)).2

/-- C62: `total` is the time since the creation, after every history. -/
theorem C62_total {T : Type} [AddCommGroup T] (t0 t1 t2 : T) (cs : List (TimerCall T)) (now : T) :
    (((Timer.new t0 t1 t2).run cs).2.call (.total now)).1 = now - t0 := by
  have : ∀ s : Timer T, (s.run cs).2.tInit = s.tInit := by
    induction cs with
    | nil => intro s; rfl
    | cons c cs ih =>
      intro s
      simp only [Timer.run]
      rw [ih]
      cases c <;> rfl
  simp only [Timer.call, this, Timer.new]

/-- C62: with a clock that does not run backwards no number returned is negative. -/
theorem C62_nonneg {T : Type} [AddCommGroup T] [LinearOrder T] [IsOrderedAddMonoid T] (s : Timer T)
    (cs : List (TimerCall T)) (h0 : s.tInit ≤ s.tCurr)
    (hmono : (s.tCurr :: cs.map fun c => match c with | .lap t => t | .total t => t).Pairwise (· ≤ ·)) :
    ∀ x ∈ (s.run cs).1, 0 ≤ x := by
  induction cs generalizing s with
  | nil => simp [Timer.run]
  | cons c cs ih =>
    simp only [List.map_cons, List.pairwise_cons, List.mem_cons, forall_eq_or_imp] at hmono
    obtain ⟨⟨h1, h2⟩, h3, h4⟩ := hmono
    intro x hx
    simp only [Timer.run, List.mem_cons] at hx
    cases c with
    | lap t =>
      rcases hx with rfl | hx
      · simpa [Timer.call] using h1
      · refine ih (s.call (.lap t)).2 (h0.trans h1) ?_ x hx
        rw [List.pairwise_cons]
        exact ⟨h3, h4⟩
    | total t =>
      rcases hx with rfl | hx
      · simpa [Timer.call] using h0.trans h1
      · refine ih (s.call (.total t)).2 h0 ?_ x hx
        rw [List.pairwise_cons]
        exact ⟨h2, h4⟩

/-- Non-vacuity: two laps with a call of `total` in between. -/
example : ((Timer.new (0 : Int) 0 0).run [.lap 3, .total 5, .lap 10]).1 = [3, 5, 7] ∧
    lapValues62 [.lap 3, .total 5, .lap 10] ((Timer.new (0 : Int) 0 0).run [.lap 3, .total 5, .lap 10]).1 = [3, 7] := by
  decide

end Ebcc
