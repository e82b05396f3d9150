import Verif.Thms.C24
import Verif.Thms.C23

/-!
C25: perturbative corrections and method types.
-/

namespace Ebcc

theorem strip_pert (base x rest : List Char) (h1 : '(' ∉ base) (h2 : ')' ∉ base) :
    stripPerturbative (base ++ '(' :: x ++ ')' :: rest) = .ok base := by
  have hs : (base ++ '(' :: x ++ ')' :: rest).idxOf '(' = base.length := by
    rw [List.append_assoc, List.idxOf_append_of_notMem h1]
    simp
  have ht : base.length ≤ (base ++ '(' :: x ++ ')' :: rest).idxOf ')' := by
    rw [List.append_assoc, List.idxOf_append_of_notMem h2]
    omega
  unfold stripPerturbative
  rw [if_pos (by simp), if_pos (by simp)]
  simp only [hs]
  have htake : (base ++ '(' :: x ++ ')' :: rest).take base.length = base := by
    rw [List.append_assoc, List.take_left' rfl]
  rw [htake, if_neg (by omega)]

theorem strip_plain (base : List Char) (h1 : '(' ∉ base) : stripPerturbative base = .ok base := by
  unfold stripPerturbative; rw [if_neg h1]

/-- A correction in parentheses does not change the cluster ranks, except for CCD in equations of
motion. -/
theorem C25_fermionic_partial (base x rest : List Char) (hne : base ≠ []) (h1 : '(' ∉ base) (h2 : ')' ∉ base)
    (spin : SpinType) (which : Which)
    (hccd : ¬ (base = "CCD".toList ∧ (which = .ip ∨ which = .ea ∨ which = .ee))) :
    fermionicClusterRanks (base ++ '(' :: x ++ ')' :: rest) spin which = fermionicClusterRanks base spin which := by
  have hccd' : ¬ (base ++ '(' :: x ++ ')' :: rest = "CCD".toList ∧
      (which = .ip ∨ which = .ea ∨ which = .ee)) := by
    rintro ⟨h, _⟩
    have hm : '(' ∈ "CCD".toList := by rw [← h]; simp
    revert hm; decide
  unfold fermionicClusterRanks
  rw [strip_pert base x rest h1 h2, strip_plain base h1, if_neg (by simp), if_neg hne]
  simp only [if_neg hccd, if_neg hccd']

/-- The same for bosons, without exception. -/
theorem C25_bosonic (base x rest : List Char) (h1 : '(' ∉ base) (h2 : ')' ∉ base)
    (which : Which) :
    bosonicClusterRanks (base ++ '(' :: x ++ ')' :: rest) which = bosonicClusterRanks base which := by
  unfold bosonicClusterRanks
  rw [strip_pert base x rest h1 h2, strip_plain base h1, if_neg (by simp)]
  by_cases h : base = []
  · subst h
    rw [if_pos rfl]
    simp only [boson_collect]
    simp [finishRanks]
  · rw [if_neg h]

/-- The exception: with a correction the singles of EOM-CCD disappear. -/
theorem C25_ccd_fails :
    fermionicClusterRanks "CCD".toList .G .ee = .ok [("r1".toList, "ov".toList, 1), ("r2".toList, "oovv".toList, 2)] ∧
    fermionicClusterRanks "CCD(T)".toList .G .ee = .ok [("r2".toList, "oovv".toList, 2)] := by
  decide +kernel

/-- `has_perturbative_correction` can be read off the name, if the parentheses of the two parts are
matched. -/
theorem C25_has_perturbative (a : Ansatz) (hf : '(' ∈ a.fermionAnsatz ↔ ')' ∈ a.fermionAnsatz)
    (hb : '(' ∈ a.bosonAnsatz ↔ ')' ∈ a.bosonAnsatz) :
    a.hasPerturbativeCorrection = true ↔ '(' ∈ a.name := by
  have hdig : ∀ n : Nat, '(' ∉ Nat.toDigits 10 n := by
    intro n h
    have := Nat.isDigit_of_mem_toDigits (by decide) (by decide) h
    revert this; decide
  have hval : a.hasPerturbativeCorrection = true ↔ '(' ∈ a.fermionAnsatz ∨ '(' ∈ a.bosonAnsatz := by
    unfold Ansatz.hasPerturbativeCorrection
    simp [← hf, ← hb]
  rw [hval]
  unfold Ansatz.name
  simp only [List.mem_append]
  constructor
  · rintro (h | h)
    · exact Or.inl (Or.inl (Or.inr h))
    · left; right
      rw [if_pos (by rintro h'; rw [h'] at h; cases h)]
      exact List.mem_cons_of_mem _ h
  · rintro (((h | h) | h) | h)
    · split at h
      · exact absurd h (by decide)
      · cases h
    · exact Or.inl h
    · split at h
      · rcases List.mem_cons.1 h with h | h
        · exact absurd h (by decide)
        · exact Or.inr h
      · cases h
    · split at h
      · rw [List.mem_append] at h
        rcases h with h | h
        · rcases List.mem_cons.1 h with h | h
          · exact absurd h (by decide)
          · exact absurd h (hdig _)
        · rcases List.mem_cons.1 h with h | h
          · exact absurd h (by decide)
          · exact absurd h (hdig _)
      · cases h

/-- Without density fitting and bosons, `is_one_shot` says that the name starts with MP. -/
theorem C25_one_shot (f : List Char) (hf : f ≠ []) (m : Option (List Char)) :
    (Ansatz.mk f [] 0 0 false m).isOneShot = true ↔ ∃ l, (Ansatz.mk f [] 0 0 false m).name = 'M' :: 'P' :: l := by
  have hn : (Ansatz.mk f [] 0 0 false m).name = f := by simp [Ansatz.name]
  rw [hn]
  unfold Ansatz.isOneShot
  simp only [List.all_cons, List.all_nil, decide_eq_false hf, Bool.or_false, decide_true, Bool.or_true,
    Bool.and_true, List.isPrefixOf_iff_prefix]
  constructor
  · rintro ⟨l, h⟩; exact ⟨l, h.symm⟩
  · rintro ⟨l, h⟩; exact ⟨l, h.symm⟩

/-- The flags depend on the two ansatz strings only. -/
theorem C25_flags_by_name (a b : Ansatz) (hf : a.fermionAnsatz = b.fermionAnsatz)
    (hb : a.bosonAnsatz = b.bosonAnsatz) :
    a.hasPerturbativeCorrection = b.hasPerturbativeCorrection ∧ a.isOneShot = b.isOneShot := by
  unfold Ansatz.hasPerturbativeCorrection Ansatz.isOneShot
  rw [hf, hb]
  exact ⟨rfl, rfl⟩

/-- `from_string` accepts the listed names only; each starts with a supported method type, and the
ansatz has that name again. -/
theorem C25_from_string (s : List Char) (df : Bool) :
    ((∃ a, Ansatz.fromString s df = .ok a) ↔ s ∈ namedAnsatzes.map Prod.fst) ∧
    (s ∉ namedAnsatzes.map Prod.fst → Ansatz.fromString s df = .error .modelNotImplemented) ∧
    ((∀ m ∈ methodTypes, ∀ l, s ≠ m ++ l) → Ansatz.fromString s df = .error .modelNotImplemented) ∧
    (∀ a, Ansatz.fromString s df = .ok a → a.name = (if df then "DF".toList else []) ++ s) := by
  have hlook : ∀ (l : List (List Char × List Char × List Char × Nat × Nat)),
      l.lookup s = none ↔ s ∉ l.map Prod.fst := by
    intro l
    induction l with
    | nil => simp
    | cons x l ih =>
      rw [List.lookup_cons, List.map_cons, List.mem_cons, not_or]
      split
      · rename_i hx
        have : s = x.1 := by simpa using hx
        simp [this]
      · rename_i hx
        have : s ≠ x.1 := by simpa using hx
        rw [ih]; simp [this]
  have hnone : s ∉ namedAnsatzes.map Prod.fst → Ansatz.fromString s df = .error .modelNotImplemented := by
    intro h
    unfold Ansatz.fromString
    rw [(hlook _).2 h]
  refine ⟨?_, hnone, ?_, ?_⟩
  · constructor
    · rintro ⟨a, ha⟩
      by_contra hcon
      rw [hnone hcon] at ha
      cases ha
    · intro hm
      unfold Ansatz.fromString
      cases hl : namedAnsatzes.lookup s with
      | none => exact absurd hm ((hlook _).1 hl)
      | some r => exact ⟨_, rfl⟩
  · intro h
    apply hnone
    intro hm
    have : ∀ s ∈ namedAnsatzes.map Prod.fst, ∃ m ∈ methodTypes, m.isPrefixOf s = true := by decide +kernel
    obtain ⟨m, hmm, hp⟩ := this s hm
    obtain ⟨l, hl⟩ := List.isPrefixOf_iff_prefix.1 hp
    exact h m hmm l hl.symm
  · intro a ha
    unfold Ansatz.fromString at ha
    cases hr : namedAnsatzes.lookup s with
    | none => rw [hr] at ha; cases ha
    | some r =>
      rw [hr] at ha
      cases ha
      have hfin : ∀ x ∈ namedAnsatzes, ∀ df : Bool,
          Ansatz.name ⟨x.2.1, x.2.2.1, x.2.2.2.1, x.2.2.2.2, df, none⟩
            = (if df then "DF".toList else []) ++ x.1 := by decide +kernel
      exact hfin _ (mem_of_lookup hr) df

/-- The constructor does not check the method type: a name with none of them is treated as
Møller-Plesset. -/
theorem C25_unknown_method_is_mp (s : List Char) (hne : s ≠ []) (hp : '(' ∉ s)
    (hm : ∀ m ∈ methodTypes, ∀ l, s ≠ m ++ l) (spin : SpinType) (which : Which)
    (hw : which = .t ∨ which = .l) :
    fermionicClusterRanks s spin which = .ok [Cls.entry which .D] := by
  have hs : splitMethod s (sortedByLenRev methodTypes) = ("MP".toList, s) := by
    rw [method_keys]
    have hnp : ∀ m ∈ methodTypes, m.isPrefixOf s = false := by
      intro m hmm
      rw [← Bool.not_eq_true, List.isPrefixOf_iff_prefix]
      rintro ⟨l, hl⟩
      exact hm m hmm l hl.symm
    simp only [splitMethod, hnp "QCC".toList (by decide), hnp "QCI".toList (by decide),
      hnp "LCC".toList (by decide), hnp "DC".toList (by decide), hnp "CC".toList (by decide),
      hnp "MP".toList (by decide), Bool.false_eq_true, if_false]
  unfold fermionicClusterRanks
  rw [strip_plain s hp, if_neg hne]
  have hccd : ¬ (s = "CCD".toList ∧ (which = .ip ∨ which = .ea ∨ which = .ee)) := by
    rcases hw with rfl | rfl <;> simp
  simp only [hs, if_neg hccd]
  rw [if_pos ⟨trivial, hw⟩]
  rcases hw with rfl | rfl <;> cases spin <;> decide +kernel

theorem C25_unknown_method_accepted : fermionicClusterRanks "XYZ".toList .G .t =
    .ok [("t2".toList, "oovv".toList, 2)] := by decide +kernel

example : fermionicClusterRanks "CCSD(T)".toList .G .t = fermionicClusterRanks "CCSD".toList .G .t := by
  decide +kernel
example : (Ansatz.mk "CCSD(T)".toList [] 0 0 true none).hasPerturbativeCorrection = true := by decide
example : (Ansatz.mk "MP2".toList [] 0 0 true none).isOneShot = true ∧
    (Ansatz.mk "CCSD".toList "S".toList 1 1 false none).isOneShot = false := by decide

end Ebcc
