import Verif.Model.Arguments
import Mathlib.Algebra.Field.Rat

/-!
C69: quantities computed for given amplitudes do not depend on the stored ones.
-/

namespace Ebcc

section
variable {ε α β : Type}

/-- The same calculation with other stored amplitudes. -/
def restored69 (s : Session ε α β) (t l : Dict (List Char) α) : Session ε α β :=
  { s with amplitudes := t, lambdas := l }

theorem getAmps_given69 (s : Session ε α β) {T : Dict (List Char) α} (hT : T ≠ []) : s.getAmps (some T) = .ok T := by
  have h : truthy (some T) = true := by simp [truthy, hT]
  simp [Session.getAmps, h]

theorem getLams_given69 (s : Session ε α β) {L : Dict (List Char) α} (hL : L ≠ []) (t) :
    s.getLams (some L) t = .ok L := by
  have h : truthy (some L) = true := by simp [truthy, hL]
  simp [Session.getLams, h]

/-- The energy and the amplitude update of given amplitudes. -/
theorem C69_amplitudes (s : Session ε α β) (t l : Dict (List Char) α) (name : List Char) (eris : EriArg ε)
    {T : Dict (List Char) α} (hT : T ≠ []) :
    s.callAmps name eris (some T) = (restored69 s t l).callAmps name eris (some T) := by
  unfold Session.callAmps Session.load Session.loadAmps
  simp only []
  rw [getAmps_given69 s hT, getAmps_given69 (restored69 s t l) hT]
  rfl

/-- Functions of given amplitudes and lambda amplitudes. -/
theorem C69_lambdas (s : Session ε α β) (t l : Dict (List Char) α) (name : List Char) (eris : EriArg ε)
    {T L : Dict (List Char) α} (hT : T ≠ []) (hL : L ≠ []) :
    s.callLams name eris (some T) (some L) = (restored69 s t l).callLams name eris (some T) (some L) := by
  unfold Session.callLams Session.load Session.loadAmps Session.loadLams
  simp only []
  rw [getAmps_given69 s hT, getAmps_given69 (restored69 s t l) hT, getLams_given69 s hL,
    getLams_given69 (restored69 s t l) hL]
  rfl

/-- Given amplitudes without lambda amplitudes, and none stored: the initial lambda amplitudes are those of the given
amplitudes, again whatever amplitudes are stored. -/
theorem C69_initial_lambdas (s : Session ε α β) (t : Dict (List Char) α) (hl : s.lambdas = []) (name : List Char)
    (eris : EriArg ε) {T L : Dict (List Char) α} (hT : T ≠ []) (hL : L ≠ []) (hi : s.initLams T = .ok L) :
    s.callLams name eris (some T) none = (restored69 s t []).callLams name eris (some T) none ∧
    s.callLams name eris (some T) none = s.callLams name eris (some T) (some L) := by
  have key : ∀ r : Session ε α β, r.lambdas = [] → r.initLams T = .ok L → r.getLams none (some T) = .ok L := by
    intro r h1 h2
    unfold Session.getLams
    simp only [truthy, h1, List.isEmpty_nil, Bool.not_true, Bool.false_eq_true, if_false]
    rw [getAmps_given69 r hT]
    exact h2
  have e1 : ∀ r : Session ε α β, r.lambdas = [] → r.initLams T = .ok L →
      r.callLams name eris (some T) none = r.callLams name eris (some T) (some L) := by
    intro r h1 h2
    unfold Session.callLams Session.load Session.loadAmps Session.loadLams
    simp only []
    rw [key r h1 h2, getLams_given69 r hL]
  refine ⟨?_, e1 s hl hi⟩
  rw [e1 s hl hi, e1 (restored69 s t []) rfl hi]
  exact C69_lambdas s t [] name eris hT hL

end

section
variable {ε α R : Type} [Field R]

/-- Fermionic density matrices and the boson amplitude of given amplitudes. -/
theorem C69_density_matrices (s : Session ε α (List (NDArray R))) (t l : Dict (List Char) α) (eris : EriArg ε)
    {T L : Dict (List Char) α} (hT : T ≠ []) (hL : L ≠ []) (herm : Bool) :
    s.makeRdm1f eris (some T) (some L) herm = (restored69 s t l).makeRdm1f eris (some T) (some L) herm ∧
    s.makeRdm2f eris (some T) (some L) herm = (restored69 s t l).makeRdm2f eris (some T) (some L) herm ∧
    s.makeSingB eris (some T) (some L) = (restored69 s t l).makeSingB eris (some T) (some L) := by
  refine ⟨?_, ?_, ?_⟩
  · unfold Session.makeRdm1f; rw [C69_lambdas s t l _ eris hT hL]
  · unfold Session.makeRdm2f; rw [C69_lambdas s t l _ eris hT hL]
  · unfold Session.makeSingB; rw [C69_lambdas s t l _ eris hT hL]

/-- Bosonic and electron-boson density matrices of given amplitudes, when no shift is undone.  The full property has
no such condition and is false. -/
theorem C69_bosons_partial (s : Session ε α (List (NDArray R))) (t l : Dict (List Char) α) (shift : Bool)
    (xi : NDArray R) (eris : EriArg ε) {T L : Dict (List Char) α} (hT : T ≠ []) (hL : L ≠ []) (unshifted herm : Bool)
    (h : (unshifted && shift) = false) :
    s.makeRdm1b shift xi eris (some T) (some L) unshifted herm
      = (restored69 s t l).makeRdm1b shift xi eris (some T) (some L) unshifted herm ∧
    s.makeEbCoup shift xi eris (some T) (some L) unshifted herm
      = (restored69 s t l).makeEbCoup shift xi eris (some T) (some L) unshifted herm := by
  refine ⟨?_, ?_⟩
  · unfold Session.makeRdm1b; rw [C69_lambdas s t l _ eris hT hL, h]; rfl
  · unfold Session.makeEbCoup finishEbCoup; rw [C69_lambdas s t l _ eris hT hL, h]; rfl

end

/-- One boson and one orbital; the density matrices are made of the amplitude `s1`. -/
def demo69 (t : Rat) : Session Unit Rat (List (NDArray Rat)) where
  spin := .R
  withDf := false
  freshEris := ()
  freshCderis := ()
  isCderis := fun _ => false
  fock := 0
  g := 0
  G := 0
  w := 0
  space := 0
  nocc := 0
  nvir := 0
  nbos := 1
  naux := 0
  amplitudes := [("s1".toList, t)]
  lambdas := [("ls1".toList, 1)]
  initAmps := fun _ => .ok []
  initLams := fun _ => .ok []
  eqns :=
    [("make_rdm1_b".toList, fun kw => match kw.get? "s1".toList with
        | some (.val x) => .ok [⟨[1, 1], [x * x]⟩] | _ => .error .typeError),
     ("make_sing_b_dm".toList, fun kw => match kw.get? "s1".toList with
        | some (.val x) => .ok [⟨[2, 1], [x, x]⟩] | _ => .error .typeError),
     ("make_rdm1_f".toList, fun kw => match kw.get? "s1".toList with
        | some (.val x) => .ok [⟨[1, 1], [x]⟩] | _ => .error .typeError),
     ("make_eb_coup_rdm".toList, fun kw => match kw.get? "s1".toList with
        | some (.val x) => .ok [⟨[1, 1, 1], [x]⟩, ⟨[1, 1, 1], [x]⟩] | _ => .error .typeError)]

/-- Undoing the shift uses the stored amplitudes: the density matrices of given amplitudes depend on them. -/
theorem C69_unshifted_fails :
    (∃ (s : Session Unit Rat (List (NDArray Rat))) (t l T L : Dict (List Char) Rat) (xi : NDArray Rat),
      T ≠ [] ∧ L ≠ [] ∧ s.makeRdm1b true xi .default (some T) (some L) true true
        ≠ (restored69 s t l).makeRdm1b true xi .default (some T) (some L) true true) ∧
    ∃ (s : Session Unit Rat (List (NDArray Rat))) (t l T L : Dict (List Char) Rat) (xi : NDArray Rat),
      T ≠ [] ∧ L ≠ [] ∧ s.makeEbCoup true xi .default (some T) (some L) true true
        ≠ (restored69 s t l).makeEbCoup true xi .default (some T) (some L) true true := by
  refine ⟨⟨demo69 5, [("s1".toList, 7)], [("ls1".toList, 1)], [("s1".toList, 2)], [("ls1".toList, 1)], ⟨[1], [1]⟩,
    by decide, by decide, ?_⟩, demo69 5, [("s1".toList, 7)], [("ls1".toList, 1)], [("s1".toList, 2)],
    [("ls1".toList, 1)], ⟨[1], [1]⟩, by decide, by decide, ?_⟩
  · have h1 : (demo69 5).makeRdm1b true ⟨[1], [1]⟩ .default (some [("s1".toList, 2)]) (some [("ls1".toList, 1)]) true
        true = .ok ⟨[1, 1], [-5]⟩ := by decide +kernel
    have h2 : (restored69 (demo69 5) [("s1".toList, 7)] [("ls1".toList, 1)]).makeRdm1b true ⟨[1], [1]⟩ .default
        (some [("s1".toList, 2)]) (some [("ls1".toList, 1)]) true true = .ok ⟨[1, 1], [-9]⟩ := by decide +kernel
    rw [h1, h2]
    decide
  · have h1 : (demo69 5).makeEbCoup true ⟨[1], [1]⟩ .default (some [("s1".toList, 2)]) (some [("ls1".toList, 1)]) true
        true = .ok (⟨[1, 1, 1], [-3]⟩, ⟨[1, 1, 1], [-3]⟩) := by decide +kernel
    have h2 : (restored69 (demo69 5) [("s1".toList, 7)] [("ls1".toList, 1)]).makeEbCoup true ⟨[1], [1]⟩ .default
        (some [("s1".toList, 2)]) (some [("ls1".toList, 1)]) true true
        = .ok (⟨[1, 1, 1], [-5]⟩, ⟨[1, 1, 1], [-5]⟩) := by decide +kernel
    rw [h1, h2]
    decide

/-- With no shift the matrix of the given amplitudes comes out, here the square of the amplitude. -/
example : (demo69 5).makeRdm1b false ⟨[1], [1]⟩ .default (some [("s1".toList, 3)]) (some [("ls1".toList, 1)]) true true
    = .ok ⟨[1, 1], [9]⟩ ∧ (demo69 5).makeRdm1f .default none none true = .ok ⟨[1, 1], [5]⟩ := by
  constructor <;> decide +kernel

end Ebcc
