import Verif.Model.Package
import Verif.Thms.C23
/-!
C57: the names listed by `available_models`.  Every name has the letter of the spin type in front and is no ansatz as it
stands (`C57_fails`).  Without that letter, the names of modules for methods without hyphen, square bracket and prime at
the end are the names of the methods, and resolve to the module (`C57_listed_partial`, `C57_resolves_partial`); other
names do not (`C57_hyphen_fails`, `C57_prime_fails`).
-/

namespace Ebcc

/-- Each list is sorted and consists of the names with that letter made from the files. -/
theorem C57_lists (files : List (List Char)) (spin : SpinType) :
    (availableModels files spin).Pairwise (· ≤ ·) ∧
    (availableModels files spin).Perm
      ((files.filterMap modelName).filter fun f => f.head? = some (solverLetter spin)) := by
  unfold availableModels sortedStrings
  exact ⟨List.pairwise_insertionSort _ _, List.perm_insertionSort _ _⟩

theorem mem_availableModels {files : List (List Char)} {spin : SpinType} {n : List Char} :
    n ∈ availableModels files spin ↔ n.head? = some (solverLetter spin) ∧ ∃ f ∈ files, modelName f = some n := by
  rw [(C57_lists files spin).2.mem_iff, List.mem_filter, List.mem_filterMap]
  simp [and_comm]

/-- No name that is listed is accepted as an ansatz. -/
theorem C57_fails (files : List (List Char)) (spin : SpinType) (n : List Char) (h : n ∈ availableModels files spin)
    (df : Bool) : Ansatz.fromString n df = .error .modelNotImplemented := by
  obtain ⟨h1, _⟩ := mem_availableModels.1 h
  unfold Ansatz.fromString
  cases hl : namedAnsatzes.lookup n with
  | none => rfl
  | some v =>
    exfalso
    have hm := mem_of_lookup hl
    have : ∀ x ∈ namedAnsatzes, x.1.head? ≠ some 'R' ∧ x.1.head? ≠ some 'U' ∧ x.1.head? ≠ some 'G' := by decide +kernel
    have hx := this _ hm
    cases spin
    · exact hx.1 h1
    · exact hx.2.1 h1
    · exact hx.2.2 h1

/-- The file of the module for a method. -/
def moduleFile (spin : SpinType) (name : List Char) : List Char :=
  solverLetter spin :: nameToIdentifier name ++ ".py".toList

/-- A method whose name is not changed on the way to the list: no hyphen, no square bracket, none of the letters with a
meaning in identifiers, parentheses in turn, no prime at the end. -/
def PlainMethod (name : List Char) : Prop :=
  (∀ c ∈ name, c ≠ '-' ∧ c ≠ '[' ∧ c ≠ ']' ∧ c ≠ 'w' ∧ c ≠ 'x' ∧ c ≠ 'y' ∧ c ≠ 'p' ∧ c ≠ '_') ∧
    Alternating '(' ')' true name ∧ (∀ c, name.getLast? = some c → c ≠ '\'' ∧ c ≠ '.')

theorem pyRstrip_append (chars s t : List Char) (ht : ∀ c ∈ t, c ∈ chars) (hs : ∀ c, s.getLast? = some c → c ∉ chars) :
    pyRstrip chars (s ++ t) = s := by
  unfold pyRstrip
  rw [List.reverse_append, List.dropWhile_append_of_pos (by simpa using ht)]
  have : s.reverse.dropWhile (fun c => decide (c ∈ chars)) = s.reverse := by
    cases hr : s.reverse with
    | nil => rfl
    | cons c l =>
      rw [List.dropWhile_cons_of_neg]
      have : s.getLast? = some c := by rw [← List.head?_reverse, hr]; rfl
      simpa using hs c this
  rw [this, List.reverse_reverse]

theorem encChar_ne_nil (c : Char) : encChar c ≠ [] := by
  unfold encChar
  split_ifs <;> simp

theorem encChar_last (c : Char) (h1 : c ≠ '\'') (h2 : c ≠ '.') (h3 : c ≠ '[') (h4 : c ≠ ']') (d : Char)
    (hd : (encChar c).getLast? = some d) : d ∉ ".py".toList := by
  intro hm
  have hm' : d = '.' ∨ d = 'p' ∨ d = 'y' := by simpa using hm
  unfold encChar at hd
  split_ifs at hd with a1 a2 a3 a4
  · simp at hd; subst hd; revert hm'; decide
  · simp at hd; subst hd; revert hm'; decide
  · rcases a3 with a3 | a3
    · exact h3 a3
    · exact h4 a3
  · simp at hd; subst hd; revert hm'; decide
  · simp only [List.getLast?_singleton, Option.some.injEq] at hd
    subst hd
    rcases hm' with rfl | rfl | rfl
    · exact h2 rfl
    · exact a1 (by decide)
    · exact a1 (by decide)

theorem nameToIdentifier_last (name : List Char) (hb : ∀ c ∈ name, c ≠ '[' ∧ c ≠ ']')
    (hl : ∀ c, name.getLast? = some c → c ≠ '\'' ∧ c ≠ '.') (d : Char) (hd : (nameToIdentifier name).getLast? = some d) :
    d ∉ ".py".toList := by
  rw [nameToIdentifier_eq] at hd
  rcases List.eq_nil_or_concat name with rfl | ⟨l, c, rfl⟩
  · simp at hd
  · rw [List.concat_eq_append, List.flatMap_append, List.flatMap_singleton] at hd
    rw [List.getLast?_append_of_ne_nil _ (encChar_ne_nil c)] at hd
    have hc := hl c (by simp)
    have hb' := hb c (by simp)
    exact encChar_last c hc.1 hc.2 hb'.1 hb'.2 d hd

theorem nameToIdentifier_no_us (name : List Char) (h : ∀ c ∈ name, c ≠ '-' ∧ c ≠ '_') :
    replaceChar '_' '-' (nameToIdentifier name) = nameToIdentifier name := by
  rw [nameToIdentifier_eq]
  unfold replaceChar
  conv_rhs => rw [← List.map_id (List.flatMap encChar name)]
  refine List.map_congr_left fun d hd => ?_
  have : d ≠ '_' := by
    rintro rfl
    obtain ⟨c, hc, hcd⟩ := List.mem_flatMap.1 hd
    obtain ⟨h1, h2⟩ := h c hc
    unfold encChar at hcd
    split_ifs at hcd with a1 a2 a3 a4
    · simp only [List.mem_cons, List.not_mem_nil, or_false] at hcd
      rcases hcd with hcd | hcd | hcd
      · revert hcd; decide
      · exact h2 hcd.symm
      · revert hcd; decide
    · revert hcd; decide
    · revert hcd; decide
    · revert hcd; decide
    · exact h2 (List.mem_singleton.1 hcd).symm
  rw [if_neg this]
  rfl

theorem identifierToName_letter (spin : SpinType) (iden : List Char) :
    identifierToName (solverLetter spin :: iden) = solverLetter spin :: identifierToName iden := by
  rw [identifierToName_eq, identifierToName_eq]
  cases spin <;> rfl

/-- The name in the list for the module of a plain method is the letter followed by the name of the method. -/
theorem modelName_plain (spin : SpinType) (name : List Char) (h : PlainMethod name) :
    modelName (moduleFile spin name) = some (solverLetter spin :: name) := by
  obtain ⟨h1, h2, h3⟩ := h
  unfold modelName moduleFile
  rw [if_pos (by
    rw [List.isSuffixOf_iff_suffix]
    exact ⟨_, rfl⟩)]
  rw [pyRstrip_append _ _ _ (fun c hc => hc)]
  · have e : replaceChar '_' '-' (solverLetter spin :: nameToIdentifier name)
        = solverLetter spin :: replaceChar '_' '-' (nameToIdentifier name) := by cases spin <;> rfl
    rw [e, nameToIdentifier_no_us name (fun c hc => ⟨(h1 c hc).1, (h1 c hc).2.2.2.2.2.2.2⟩), identifierToName_letter,
      (C23_roundtrip_partial name (fun c hc => ⟨(h1 c hc).1, (h1 c hc).2.1, (h1 c hc).2.2.1, (h1 c hc).2.2.2.1,
        (h1 c hc).2.2.2.2.1, (h1 c hc).2.2.2.2.2.1, (h1 c hc).2.2.2.2.2.2.1⟩)).2 h2]
  · intro d hd
    cases hi : nameToIdentifier name with
    | nil =>
      rw [hi] at hd
      simp only [List.getLast?_singleton, Option.some.injEq] at hd
      subst hd
      cases spin <;> decide
    | cons c l =>
      rw [hi, List.getLast?_cons_cons, ← hi] at hd
      exact nameToIdentifier_last name (fun c hc => ⟨(h1 c hc).2.1, (h1 c hc).2.2.1⟩) h3 d hd

/-- The module of a plain method is listed, under the letter of its spin type and the name of the method. -/
theorem C57_listed_partial (files : List (List Char)) (spin : SpinType) (name : List Char) (h : PlainMethod name)
    (hf : moduleFile spin name ∈ files) : solverLetter spin :: name ∈ availableModels files spin :=
  mem_availableModels.2 ⟨rfl, _, hf, modelName_plain spin name h⟩

/-- Without density fitting the name of an ansatz is the string it was made from. -/
theorem fromString_name {n : List Char} {a : Ansatz} (ha : Ansatz.fromString n false = .ok a) : a.name = n := by
  unfold Ansatz.fromString at ha
  cases hl : namedAnsatzes.lookup n with
  | none => rw [hl] at ha; cases ha
  | some v =>
    rw [hl] at ha
    cases ha
    have : ∀ x ∈ namedAnsatzes,
        (Ansatz.mk x.2.1 x.2.2.1 x.2.2.2.1 x.2.2.2.2 false none).name = x.1 := by decide +kernel
    exact this _ (mem_of_lookup hl)

/-- If the directory has modules of plain methods only, every name of the list without its letter, when it is an ansatz,
resolves to the file from which the name was made. -/
theorem C57_resolves_partial (files : List (List Char))
    (hfiles : ∀ f ∈ files, ∃ spin name, PlainMethod name ∧ f = moduleFile spin name) (spin : SpinType) (n : List Char)
    (hn : n ∈ availableModels files spin) (a : Ansatz) (ha : Ansatz.fromString n.tail false = .ok a)
    (modules : List (List Char))
    (hm : ∀ f ∈ files, ∃ m ∈ modules, f = m ++ ".py".toList) :
    ∃ m, getEqns modules a spin = .ok m ∧ m ++ ".py".toList ∈ files ∧ modelName (m ++ ".py".toList) = some n := by
  obtain ⟨h1, f, hf, hmf⟩ := mem_availableModels.1 hn
  obtain ⟨spin', name, hp, rfl⟩ := hfiles f hf
  rw [modelName_plain spin' name hp] at hmf
  have hmf := Option.some.inj hmf
  subst hmf
  have hs : spin' = spin := by
    have h1 : solverLetter spin' = solverLetter spin := by simpa using h1
    revert h1
    cases spin' <;> cases spin <;> decide
  subst hs
  have hmn : a.moduleName = none := by
    unfold Ansatz.fromString at ha
    split at ha <;> cases ha
    rfl
  have hname : a.name = name := fromString_name ha
  obtain ⟨m, hm1, hm2⟩ := hm _ hf
  have hmeq : m = solverLetter spin' :: nameToIdentifier name := by
    unfold moduleFile at hm2
    exact (List.append_cancel_right hm2).symm
  subst hmeq
  refine ⟨_, ?_, hf, modelName_plain spin' name hp⟩
  unfold getEqns
  simp only [hmn, Option.getD_none, hname]
  rw [if_pos hm1]

/-- A name with a hyphen is listed with underscores, and is no ansatz with or without the letter. -/
theorem C57_hyphen_fails :
    modelName (moduleFile .R "CCSD-SD-1-2".toList) = some "RCCSD_SD_1_2".toList ∧
    Ansatz.fromString "CCSD-SD-1-2".toList false ≠ .error .modelNotImplemented ∧
    ∀ df, Ansatz.fromString "CCSD_SD_1_2".toList df = .error .modelNotImplemented :=
  ⟨by decide +kernel, by decide +kernel, fun _ => rfl⟩

/-- A name with a prime at the end loses it. -/
theorem C57_prime_fails :
    modelName (moduleFile .R "CCSDt'".toList) = some "RCCSDt".toList ∧
    Ansatz.fromString "CCSDt'".toList false ≠ .error .modelNotImplemented ∧
    ∀ df, Ansatz.fromString "CCSDt".toList df = .error .modelNotImplemented :=
  ⟨by decide +kernel, by decide +kernel, fun _ => rfl⟩

/-- The methods of the table that are not plain. -/
example : (namedAnsatzes.map Prod.fst).filter (fun n => modelName (moduleFile .R n) ≠ some ('R' :: n))
    = ["CCSDt'", "CCSD-S-1-1", "CCSD-SD-1-1", "CCSD-SD-1-2"].map String.toList := by decide +kernel

/-- Some files of the directory, and the lists. -/
example : availableModels (["UCCSD.py", "RCCSDxTx.py", "RCCD.py", "README.md", "__init__.py", "RecCC.py"].map String.toList) .R
    = ["RCCD", "RCCSD(T)", "RecCC"].map String.toList := by decide +kernel

end Ebcc
