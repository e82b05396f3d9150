import Verif.Model.Guesses
import Verif.Thms.C13
import Verif.Thms.C43

/-!
C44: initial guesses of EOM calculations.

The property as stated (smallest diagonal elements) is true of excitations without the option `koopmans`.  For
ionisation and attachment the code sorts by absolute value (`C44_absolute`, a counterexample to the literal
statement); with `koopmans` fewer vectors than roots may be returned (`C44_koopmans_few`).
`C44_guesses` states what holds for all types and both options.
-/

namespace Ebcc

section
variable {R : Type} [Field R] [LinearOrder R]

/-- The quantity by which the guesses are ordered: the diagonal, or its absolute value for charged excitations. -/
def orderedBy (which : Which) (x : R) : R :=
  match which with
  | .ee => x
  | _ => |x|

theorem guessKey_eq (which : Which) (x : R) : guessKey which x = orderedBy which x := by
  cases which <;> rfl

/-- The list of unit vectors at given positions. -/
def unitsAt (n : Nat) (l : List Nat) : List (List R) :=
  l.map fun i => (List.replicate n (0 : R)).set i 1

theorem unitVector_eq (n i : Nat) : (unitVector n i : List R) = (List.replicate n (0 : R)).set i 1 := by
  apply List.ext_getElem
  · simp [unitVector]
  · intro k h1 h2
    simp only [unitVector, List.getElem_map, List.getElem_range, List.getElem_set, List.getElem_replicate]
    by_cases h : k = i
    · subst h; simp
    · rw [if_neg h, if_neg (Ne.symm h)]

/-- The guesses are unit vectors at distinct positions among the first `m` elements; there are as many as roots
asked for unless there are too few elements; they come in order of the diagonal (or its absolute value), equal
values in order of position; all other positions among the first `m` come later in this order. -/
theorem C44_guesses (which : Which) (koopmans : Option Nat) (nroots : Nat) (diag : List R)
    (m : Nat) (hm : m = min (koopmans.getD diag.length) diag.length) (hpos : 0 < min nroots m) :
    ∃ pos : List Nat, getGuesses which koopmans nroots diag = .ok (unitsAt diag.length pos) ∧
      pos.length = min nroots m ∧ pos.Nodup ∧ (∀ i ∈ pos, i < m) ∧
      (pos.Pairwise fun i j => ∃ a b, diag[i]? = some a ∧ diag[j]? = some b ∧
        (orderedBy which a < orderedBy which b ∨ (orderedBy which a = orderedBy which b ∧ i < j))) ∧
      ∀ i ∈ pos, ∀ j < m, j ∉ pos → ∃ a b, diag[i]? = some a ∧ diag[j]? = some b ∧
        (orderedBy which a < orderedBy which b ∨ (orderedBy which a = orderedBy which b ∧ i < j)) := by
  have hmn : m ≤ diag.length := by omega
  let l : List R := (diag.take m).map (orderedBy which)
  have harg : argsortGuesses which koopmans diag = argsort l := by
    unfold argsortGuesses
    simp only [funext (guessKey_eq which)]
    cases koopmans with
    | none =>
      simp only [Option.getD_none, min_self] at hm
      simp only [l]
      rw [hm, List.take_length]
    | some k =>
      simp only [Option.getD_some] at hm
      simp only [l]
      congr 2
      rw [hm]
      by_cases hk : k ≤ diag.length
      · rw [min_eq_left hk]
      · rw [min_eq_right (by omega), List.take_length, List.take_of_length_le (by omega)]
  have hl : l.length = m := by simp only [l, List.length_map, List.length_take]; omega
  have hperm := C13_permutation l
  have hsort := C13_sorted_stable l
  rw [hl] at hperm
  have hlen : (argsort l).length = m := by rw [hperm.length_eq, List.length_range]
  have hget : ∀ (i : Nat) (a : R), l[i]? = some a → ∃ x, diag[i]? = some x ∧ orderedBy which x = a := by
    intro i a h
    simp only [l, List.getElem?_map, List.getElem?_take] at h
    split at h
    · cases hx : diag[i]? with
      | none => rw [hx] at h; cases h
      | some x => rw [hx] at h; exact ⟨x, rfl, Option.some.inj h⟩
    · cases h
  have hsort' : (argsort l).Pairwise fun i j => ∃ a b, diag[i]? = some a ∧ diag[j]? = some b ∧
        (orderedBy which a < orderedBy which b ∨ (orderedBy which a = orderedBy which b ∧ i < j)) := by
    refine hsort.imp ?_
    rintro i j ⟨a, b, ha, hb, h⟩
    obtain ⟨x, hx, rfl⟩ := hget i a ha
    obtain ⟨y, hy, rfl⟩ := hget j b hb
    exact ⟨x, y, hx, hy, h⟩
  have hk : (argsort l).take (min nroots diag.length) = (argsort l).take (min nroots m) := by
    by_cases h : nroots ≤ m
    · rw [min_eq_left h, min_eq_left (by omega)]
    · rw [min_eq_right (by omega : m ≤ nroots), List.take_of_length_le (by rw [hlen]; omega),
        List.take_of_length_le (by rw [hlen])]
  have hpl : ((argsort l).take (min nroots m)).length = min nroots m := by rw [List.length_take, hlen]; omega
  refine ⟨(argsort l).take (min nroots m), ?_, hpl, ?_, ?_, ?_, ?_⟩
  · unfold getGuesses
    simp only [harg, hk, unitVector_eq]
    rw [if_neg]
    · rfl
    · intro h0
      have := congrArg List.length h0
      rw [List.length_map, hpl] at this
      simp only [List.length_nil] at this
      omega
  · exact (hperm.nodup_iff.2 List.nodup_range).sublist (List.take_sublist _ _)
  · intro i hi
    exact List.mem_range.1 (hperm.mem_iff.1 (List.mem_of_mem_take hi))
  · exact hsort'.sublist (List.take_sublist _ _)
  · intro i hi j hj hjn
    have hjm : j ∈ argsort l := hperm.mem_iff.2 (List.mem_range.2 hj)
    rw [← List.take_append_drop (min nroots m) (argsort l)] at hsort' hjm
    have hjd := (List.mem_append.1 hjm).resolve_left hjn
    exact (List.pairwise_append.1 hsort').2.2 i hi j hjd

/-- Excitations without `koopmans`: the property as stated. -/
theorem C44_excitations (nroots : Nat) (diag : List R) (hn : 0 < nroots) (hd : diag ≠ []) :
    ∃ pos : List Nat, getGuesses .ee none nroots diag = .ok (unitsAt diag.length pos) ∧
      pos.length = min nroots diag.length ∧ pos.Nodup ∧ (∀ i ∈ pos, i < diag.length) ∧
      (pos.Pairwise fun i j => ∃ a b, diag[i]? = some a ∧ diag[j]? = some b ∧ a ≤ b) ∧
      ∀ i ∈ pos, ∀ j < diag.length, j ∉ pos → ∃ a b, diag[i]? = some a ∧ diag[j]? = some b ∧ a ≤ b := by
  have hpos : 0 < diag.length := List.length_pos_of_ne_nil hd
  obtain ⟨pos, h1, h2, h3, h4, h5, h6⟩ := C44_guesses (R := R) .ee none nroots diag diag.length (by simp) (by omega)
  refine ⟨pos, h1, h2, h3, h4, h5.imp ?_, fun i hi j hj hjn => ?_⟩
  · rintro i j ⟨a, b, ha, hb, h⟩
    exact ⟨a, b, ha, hb, h.elim le_of_lt fun h => h.1.le⟩
  · obtain ⟨a, b, ha, hb, h⟩ := h6 i hi j hj hjn
    exact ⟨a, b, ha, hb, h.elim le_of_lt fun h => h.1.le⟩

/-- No roots or no elements: `ValueError`. -/
theorem C44_none (which : Which) (koopmans : Option Nat) (nroots : Nat) (diag : List R)
    (h0 : min nroots (min (koopmans.getD diag.length) diag.length) = 0) :
    getGuesses which koopmans nroots diag = .error .valueError := by
  have hlen : (argsortGuesses which koopmans diag).length = min (koopmans.getD diag.length) diag.length := by
    cases koopmans with
    | none => simp [argsortGuesses, (C13_permutation _).length_eq]
    | some k => simp [argsortGuesses, (C13_permutation _).length_eq]
  unfold getGuesses
  simp only
  rw [if_pos]
  rw [List.map_eq_nil_iff, ← List.length_eq_zero_iff, List.length_take, hlen]
  omega

omit [LinearOrder R] in
/-- Distinct positions give distinct vectors. -/
theorem C44_distinct (n : Nat) (pos : List Nat) (hnd : pos.Nodup) (hlt : ∀ i ∈ pos, i < n) :
    (unitsAt n pos : List (List R)).Nodup := by
  unfold unitsAt
  refine List.Nodup.map_on ?_ hnd
  intro i hi j hj h
  by_contra hne
  have hi' := hlt i hi
  have := congrArg (fun l => l[i]?) h
  simp only [List.getElem?_set, List.length_replicate, hi', if_true, if_neg (Ne.symm hne),
    List.getElem?_replicate, Option.some.injEq, one_ne_zero] at this

end

/-- Ionisation: the smallest element is at position 0, the guess is at position 1. -/
theorem C44_absolute : ∃ diag : List Rat, diag[0]? = some (-3 : Rat) ∧ diag[1]? = some (1 : Rat) ∧
    getGuesses .ip none 1 diag = .ok [[0, 1]] :=
  ⟨[-3, 1], by decide +kernel, by decide +kernel, by decide +kernel⟩

/-- With `koopmans`: fewer vectors than roots and elements. -/
theorem C44_koopmans_few : ∃ (diag : List Rat), diag.length = 3 ∧ gSinglesSize
      ⟨"CCSD".toList, [], 0, 0, false, none⟩ .ip space21 diag = .ok 2 ∧
    getGuesses .ip (some 2) 3 diag = .ok [[0, 1, 0], [1, 0, 0]] :=
  ⟨[2, 1, 0], by decide +kernel, by decide +kernel, by decide +kernel⟩

example : getGuesses .ee none 2 [3, -1, 2, (-1 : Rat)] = .ok [[0, 1, 0, 0], [0, 0, 0, 1]] := by decide +kernel

end Ebcc
