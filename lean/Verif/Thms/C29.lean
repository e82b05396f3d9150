import Verif.Model.Damping
import Verif.Lemmas.Py
import Mathlib.Algebra.Module.Rat
import Mathlib.Algebra.Order.Field.Rat
import Mathlib.Algebra.Module.Basic

/-!
C29: linear damping.
-/

namespace Ebcc

section
variable {V R : Type} [Ring R] [AddCommGroup V] [Module R V]

/-- The vectors returned: the first is unchanged, then each is mixed with the one before it. -/
def dampedOutputs (f : R) : List V → List V
  | [] => []
  | a :: l => a :: List.zipWith (fun cur prev => (1 - f) • cur + f • prev) l (a :: l)

/-- The state after the last vector `a` at counter `n - 1`, preceded by `p`. -/
theorem lin_step (f : R) (p a b : V) (n : Nat) (st : LinState V)
    (hst : st = ⟨[(n, p), (n + 1, a)], n + 2⟩) :
    st.call f b = .ok ((1 - f) • b + f • a, ⟨[(n + 1, a), (n + 2, b)], n + 3⟩) := by
  subst hst
  have hmin : minKey [(n, p), (n + 1, a)] = .ok n := by
    simp [minKey, Dict.keys]
  unfold LinState.call LinState.push
  simp only [List.length_cons, List.length_nil, if_pos, hmin, bind, Except.bind, pure, Except.pure]
  simp [Dict.erase, Dict.set, LinState.extrapolate, List.insertionSort]

theorem lin_run (f : R) (p a : V) (n : Nat) (l : List V) :
    LinState.run f ⟨[(n, p), (n + 1, a)], n + 2⟩ l =
      .ok (List.zipWith (fun cur prev => (1 - f) • cur + f • prev) l (a :: l),
        match l.reverse with
        | [] => ⟨[(n, p), (n + 1, a)], n + 2⟩
        | [b] => ⟨[(n + 1, a), (n + 2, b)], n + 3⟩
        | b :: c :: _ => ⟨[(n + l.length, c), (n + l.length + 1, b)], n + l.length + 2⟩) := by
  induction l generalizing p a n with
  | nil => rfl
  | cons b l ih =>
    rw [LinState.run, lin_step f p a b n _ rfl]
    simp only [bind, Except.bind]
    rw [ih a b (n + 1)]
    simp only [pure, Except.pure, List.zipWith_cons_cons, Except.ok.injEq, Prod.mk.injEq, true_and,
      List.reverse_cons]
    rcases hr : l.reverse with _ | ⟨x, _ | ⟨y, t⟩⟩
    · rfl
    · have hl : l = [x] := by rw [← List.reverse_reverse l, hr]; rfl
      subst hl; simp
    · simp only [List.cons_append, List.length_cons]
      rw [show n + 1 + l.length = n + (l.length + 1) by omega]

/-- Any sequence of vectors: the outputs are as stated, never an exception, and at most two vectors are
kept. -/
theorem C29_linear_damping (f : R) (l : List V) :
    ∃ st, LinState.run f LinState.init l = .ok (dampedOutputs f l, st) ∧ st.arrays.length ≤ 2 := by
  rcases l with _ | ⟨a, _ | ⟨b, l⟩⟩
  · exact ⟨_, rfl, by simp [LinState.init]⟩
  · refine ⟨⟨[(0, a)], 1⟩, ?_, by simp⟩
    simp [LinState.run, LinState.call, LinState.push, LinState.extrapolate, LinState.init, bind, Except.bind,
      pure, Except.pure, Dict.set, dampedOutputs]
  · have h1 : LinState.call f (LinState.init : LinState V) a = .ok (a, ⟨[(0, a)], 1⟩) := by
      simp [LinState.call, LinState.push, LinState.extrapolate, LinState.init, bind, Except.bind,
        pure, Except.pure, Dict.set]
    have h2 : LinState.call f (⟨[(0, a)], 1⟩ : LinState V) b
        = .ok ((1 - f) • b + f • a, ⟨[(0, a), (1, b)], 2⟩) := by
      simp [LinState.call, LinState.push, LinState.extrapolate, bind, Except.bind,
        pure, Except.pure, Dict.set, List.insertionSort]
    have h3 := lin_run f a b 0 l
    refine ⟨_, by rw [LinState.run, h1]; simp only [bind, Except.bind]; rw [LinState.run, h2];
                  simp only [bind, Except.bind]; rw [h3]; rfl, ?_⟩
    rcases l.reverse with _ | ⟨x, _ | ⟨y, t⟩⟩ <;> simp

/-- A fixed point is preserved: when two vectors in a row agree, the output is that vector. -/
theorem C29_fixed_point (f : R) (l : List V) (x : V) (k : Nat) (h1 : l[k]? = some x)
    (h2 : l[k + 1]? = some x) : (dampedOutputs f l)[k + 1]? = some x := by
  cases l with
  | nil => simp at h1
  | cons a l =>
    simp only [dampedOutputs, List.getElem?_cons_succ]
    rw [List.getElem?_zipWith_eq_some]
    refine ⟨x, x, by simpa using h2, h1, ?_⟩
    rw [← add_smul, sub_add_cancel, one_smul]

/-- The first vector is returned unchanged, and without damping every vector is. -/
theorem C29_undamped (l : List V) : dampedOutputs (0 : R) l = l := by
  cases l with
  | nil => rfl
  | cons a l =>
    simp only [dampedOutputs, sub_zero, one_smul, zero_smul, add_zero, List.cons.injEq, true_and]
    have : ∀ m : List V, l.length ≤ m.length → List.zipWith (fun cur _ => cur) l m = l := by
      intro m
      induction l generalizing m with
      | nil => simp
      | cons b l ih =>
        cases m with
        | nil => intro h; simp at h
        | cons c m =>
          intro h
          rw [List.zipWith_cons_cons, ih m (by simpa using h)]
    exact this _ (by simp)

end

example : ∃ st, LinState.run (1/4 : Rat) LinState.init ([1, 5, 5, 9] : List Rat) = .ok ([1, 4, 5, 8], st) := by
  obtain ⟨st, h, _⟩ := C29_linear_damping (1/4 : Rat) ([1, 5, 5, 9] : List Rat)
  refine ⟨st, ?_⟩
  rw [h, show dampedOutputs (1/4 : Rat) ([1, 5, 5, 9] : List Rat) = [1, 4, 5, 8] from by decide +kernel]

end Ebcc
