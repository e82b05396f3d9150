import Verif.Model.Package
import Verif.Lemmas.Py
import Mathlib.Tactic.SplitIfs
/-!
C56: the class and the ansatz of the solvers made by `EBCC` and by the factories.  A factory overrides an ansatz given
by keyword; one given by position raises (`C56_positional_fails`).
-/

namespace Ebcc

variable {modules : List (List Char)}

/-- What is known of a solver that was built. -/
theorem construct_ok {cls : SpinType} {mf : MFObj} {args : List PyVal} {kwargs : Dict (List Char) PyVal}
    {heap heap' : List OptObj} {s : Solver} (h : buildSolver modules cls mf args kwargs heap = (.ok s, heap')) :
    ∃ param rest r heap1 off, bindArgs args kwargs = .ok (param, rest) ∧ initRest modules cls mf param r = .ok (s, off) ∧
      ((param "options".toList = .none ∧ r = heap.length ∧ heap1 = heap ++ [defaultOptions]) ∨
        (param "options".toList = .ref r ∧ r < heap.length ∧ heap1 = heap)) ∧
      heap' = (if off then setAttrs (setAttrs heap1 r rest) r [("shift".toList, .bool false)] else setAttrs heap1 r rest) := by
  unfold buildSolver at h
  cases hb : bindArgs args kwargs with
  | error e => rw [hb] at h; cases h
  | ok pr =>
    obtain ⟨param, rest⟩ := pr
    rw [hb] at h
    simp only at h
    have key : ∀ r heap1, (match initRest modules cls mf param r with
        | .error e => (Except.error e, setAttrs heap1 r rest)
        | .ok (s, shiftOff) => (.ok s, if shiftOff = true then
            setAttrs (setAttrs heap1 r rest) r [("shift".toList, .bool false)] else setAttrs heap1 r rest))
          = ((.ok s, heap') : Except PyErr Solver × List OptObj) →
        ∃ off, initRest modules cls mf param r = .ok (s, off) ∧ heap' = (if off then
          setAttrs (setAttrs heap1 r rest) r [("shift".toList, .bool false)] else setAttrs heap1 r rest) := by
      intro r heap1 h
      cases hi : initRest modules cls mf param r with
      | error e => rw [hi] at h; cases h
      | ok so =>
        obtain ⟨s', off⟩ := so
        rw [hi] at h
        simp only [Prod.mk.injEq, Except.ok.injEq] at h
        exact ⟨off, by rw [h.1], h.2.symm⟩
    cases ho : param "options".toList with
    | none =>
      rw [ho] at h
      obtain ⟨off, h1, h2⟩ := key _ _ h
      exact ⟨param, rest, heap.length, _, off, rfl, h1, Or.inl ⟨ho, rfl, rfl⟩, h2⟩
    | ref r =>
      rw [ho] at h
      simp only at h
      split at h
      · rename_i hr
        obtain ⟨off, h1, h2⟩ := key _ _ h
        exact ⟨param, rest, r, heap, off, rfl, h1, Or.inr ⟨ho, hr, rfl⟩, h2⟩
      · cases h
    | _ => rw [ho] at h; cases h

/-- What is known of the later part of the constructor. -/
theorem initRest_ok {cls : SpinType} {mf : MFObj} {param : List Char → PyVal} {r : Nat} {s : Solver} {off : Bool}
    (h : initRest modules cls mf param r = .ok (s, off)) :
    initAnsatz mf (param "ansatz".toList) = .ok s.ansatz ∧ getEqns modules s.ansatz cls = .ok s.module_ ∧ s.cls = cls ∧
      s.options = r ∧ s.param = param ∧ (s.ansatz.fermionCouplingRank = 0 ↔ s.ansatz.bosonCouplingRank = 0) ∧
      (off = true ↔ s.ansatz.bosonAnsatz = []) := by
  unfold initRest at h
  simp only [bind, Except.bind, pure, Except.pure] at h
  cases ha : initAnsatz mf (param "ansatz".toList) with
  | error e => rw [ha] at h; cases h
  | ok a =>
    rw [ha] at h
    simp only at h
    cases hm : getEqns modules a cls with
    | error e => rw [hm] at h; cases h
    | ok m =>
      rw [hm] at h
      simp only at h
      split_ifs at h with h1 h2 h3 <;> cases h
      · refine ⟨rfl, hm, rfl, rfl, rfl, ?_, by simpa using h2⟩
        simpa using h1
      · refine ⟨rfl, hm, rfl, rfl, rfl, ?_, by simpa using h2⟩
        simpa using h1

theorem construct_cls {cls : SpinType} {mf : MFObj} {args : List PyVal} {kwargs : Dict (List Char) PyVal}
    {heap heap' : List OptObj} {s : Solver} (h : buildSolver modules cls mf args kwargs heap = (.ok s, heap')) :
    s.cls = cls ∧ s.module_ ∈ modules ∧
      (s.ansatz.moduleName = none → s.module_ = solverLetter cls :: nameToIdentifier s.ansatz.name) := by
  obtain ⟨param, rest, r, heap1, off, _, h2, _, _⟩ := construct_ok h
  obtain ⟨_, h4, h5, _⟩ := initRest_ok h2
  refine ⟨h5, ?_⟩
  unfold getEqns at h4
  simp only at h4
  split at h4
  · rename_i hm
    have h4 := Except.ok.inj h4
    rw [h4] at hm
    exact ⟨hm, fun hn => by rw [← h4, hn]; rfl⟩
  · cases h4

/-- The class of a solver built for a mean-field object. -/
def RightClass (mf : MFObj) (s : Solver) : Prop :=
  (mf.isUHF = true → s.cls = .U) ∧ (mf.isUHF = false → mf.isGHF = true → s.cls = .G) ∧
    (mf.isUHF = false → mf.isGHF = false → s.cls = .R)

/-- The module of the equations exists, and is that of the class and the name of the ansatz unless the ansatz has a
module of its own. -/
def RightModule (modules : List (List Char)) (s : Solver) : Prop :=
  s.module_ ∈ modules ∧ (s.ansatz.moduleName = none →
    s.module_ = (match s.cls with | .R => 'R' | .U => 'U' | .G => 'G') :: nameToIdentifier s.ansatz.name)

theorem dispatch_aux {mf : MFObj} {args : List PyVal} {kwargs : Dict (List Char) PyVal} {heap heap' : List OptObj}
    {s : Solver} (h : (if mf.isUHF then buildSolver modules .U mf args kwargs heap
      else if mf.isGHF then buildSolver modules .G mf args kwargs heap
      else buildSolver modules .R mf args kwargs heap) = (.ok s, heap')) : RightClass mf s ∧ RightModule modules s := by
  unfold RightClass RightModule
  cases hu : mf.isUHF with
  | true =>
    rw [hu] at h
    obtain ⟨h1, h2, h3⟩ := construct_cls h
    exact ⟨⟨fun _ => h1, fun h => (by cases h), fun h => (by cases h)⟩, h2, by rw [h1]; exact h3⟩
  | false =>
    rw [hu] at h
    cases hg : mf.isGHF with
    | true =>
      rw [hg] at h
      obtain ⟨h1, h2, h3⟩ := construct_cls h
      exact ⟨⟨fun h => (by cases h), fun _ _ => h1, fun _ h => (by cases h)⟩, h2, by rw [h1]; exact h3⟩
    | false =>
      rw [hg] at h
      obtain ⟨h1, h2, h3⟩ := construct_cls h
      exact ⟨⟨fun h => (by cases h), fun _ h => (by cases h), fun _ _ => h1⟩, h2, by rw [h1]; exact h3⟩

/-- Every solver that `EBCC` or a factory builds has the class for its mean-field object and the equations for its class
and ansatz. -/
theorem C56_dispatch (mf : MFObj) (args : List PyVal) (kwargs : Dict (List Char) PyVal) (heap heap' : List OptObj)
    (s : Solver) :
    (ebccNew modules mf args kwargs heap = (.ok s, heap') → RightClass mf s ∧ RightModule modules s) ∧
    ∀ ansatz, factoryNew modules ansatz mf args kwargs heap = (.ok s, heap') → RightClass mf s ∧ RightModule modules s := by
  constructor
  · intro h
    unfold ebccNew at h
    split at h
    · cases h
    · exact dispatch_aux h
  · intro ansatz h
    unfold factoryNew at h
    split at h
    · cases h
    · exact dispatch_aux h

/-- With an ansatz of the table whose equations exist for the class, and no bosons, a solver is built. -/
theorem C56_builds (mf : MFObj) (name : List Char) (a : Ansatz) (heap : List OptObj)
    (ha : Ansatz.fromString name mf.withDF = .ok a) (hb : a.bosonAnsatz = [])
    (hc : a.fermionCouplingRank = 0 ↔ a.bosonCouplingRank = 0)
    (hm : (if mf.isUHF then 'U' else if mf.isGHF then 'G' else 'R') :: nameToIdentifier a.name ∈ modules) :
    ∃ s heap', ebccNew modules mf [] [("ansatz".toList, .str name)] heap = (.ok s, heap') ∧ s.ansatz = a := by
  have hn : a.moduleName = none := by
    unfold Ansatz.fromString at ha
    split at ha <;> cases ha
    rfl
  have key : ∀ cls, solverLetter cls :: nameToIdentifier a.name ∈ modules →
      ∃ s heap', buildSolver modules cls mf [] [("ansatz".toList, .str name)] heap = (.ok s, heap') ∧ s.ansatz = a := by
    intro cls hm
    have hr : ∀ param r, param "ansatz".toList = .str name → param "omega".toList = .none →
        initRest modules cls mf param r
          = .ok (⟨cls, a, solverLetter cls :: nameToIdentifier a.name, r, param⟩, true) := by
      intro param r hp ho
      unfold initRest
      rw [hp, ho]
      simp only [initAnsatz, ha, bind, Except.bind]
      have hg : getEqns modules a cls = .ok (solverLetter cls :: nameToIdentifier a.name) := by
        unfold getEqns
        rw [hn]
        simp only [Option.getD_none]
        rw [if_pos hm]
      rw [hg]
      simp only
      rw [if_neg (by simp [hc]), if_neg (by simp [hb]), if_pos (by rfl)]
      rfl
    unfold buildSolver
    have hbind : bindArgs [] [("ansatz".toList, .str name)] = .ok (fun p =>
        ((Dict.get? ([("ansatz".toList, PyVal.str name)] : Dict (List Char) PyVal) p)).getD (paramDefault p), []) := by
      rfl
    rw [hbind]
    simp only
    rw [hr _ _ rfl rfl]
    exact ⟨_, _, rfl, rfl⟩
  unfold ebccNew
  rw [if_neg (show ¬ Dict.contains [("ansatz".toList, PyVal.str name)] "mf".toList = true from Bool.false_ne_true)]
  cases hu : mf.isUHF with
  | true => rw [hu] at hm; exact key .U hm
  | false =>
    rw [hu] at hm
    cases hg : mf.isGHF with
    | true => rw [hg] at hm; exact key .G hm
    | false => rw [hg] at hm; exact key .R hm

theorem bind_ansatz {args : List PyVal} {kwargs : Dict (List Char) PyVal} {v : PyVal} (hl : args.length < 2)
    {param : List Char → PyVal} {rest : Dict (List Char) PyVal}
    (h : bindArgs args (kwargs.set "ansatz".toList v) = .ok (param, rest)) : param "ansatz".toList = v := by
  unfold bindArgs at h
  simp only at h
  split_ifs at h
  cases h
  have hz : Dict.get? (initParams.zip args) "ansatz".toList = none := by
    rcases args with _ | ⟨x, _ | ⟨y, args⟩⟩
    · rfl
    · rfl
    · simp only [List.length_cons] at hl
      omega
  change ((Dict.get? (initParams.zip args) "ansatz".toList).orElse fun _ =>
    (kwargs.set "ansatz".toList v).get? "ansatz".toList).getD (paramDefault "ansatz".toList) = v
  rw [hz]
  simp [Dict.get?_set]

theorem dict_set_set (d : Dict (List Char) PyVal) (k : List Char) (v w : PyVal) : (d.set k v).set k w = d.set k w := by
  induction d with
  | nil => simp [Dict.set]
  | cons x d ih =>
    obtain ⟨k', v'⟩ := x
    by_cases h : k' = k
    · simp [h, Dict.set]
    · have e : ∀ (d : Dict (List Char) PyVal) (w : PyVal), Dict.set ((k', v') :: d) k w = (k', v') :: Dict.set d k w :=
        fun d w => by rw [Dict.set, if_neg h]
      rw [e, e, e, ih]

theorem contains_set_mf (d : Dict (List Char) PyVal) (v : PyVal) :
    (d.set "ansatz".toList v).contains "mf".toList = d.contains "mf".toList := by
  unfold Dict.contains
  rw [Dict.get?_set, if_neg (by decide)]

/-- A factory builds solvers of its own ansatz, with density fitting if the mean-field object has it, whatever ansatz is
given by keyword, as long as no ansatz is given by position. -/
theorem C56_override_partial (ansatz : List Char) (mf : MFObj) (args : List PyVal) (kwargs : Dict (List Char) PyVal)
    (heap : List OptObj) (hl : args.length < 2) :
    (∀ s heap', factoryNew modules ansatz mf args kwargs heap = (.ok s, heap') →
      Ansatz.fromString ansatz mf.withDF = .ok s.ansatz) ∧
    ∀ v, factoryNew modules ansatz mf args (kwargs.set "ansatz".toList v) heap
      = factoryNew modules ansatz mf args kwargs heap := by
  constructor
  · intro s heap' h
    unfold factoryNew at h
    split at h
    · cases h
    · simp only at h
      have key : ∀ cls, buildSolver modules cls mf args (kwargs.set "ansatz".toList (.str ansatz)) heap = (.ok s, heap') →
          Ansatz.fromString ansatz mf.withDF = .ok s.ansatz := by
        intro cls h
        obtain ⟨param, rest, r, heap1, off, h1, h2, _, _⟩ := construct_ok h
        obtain ⟨h3, _⟩ := initRest_ok h2
        rw [bind_ansatz hl h1] at h3
        exact h3
      split_ifs at h <;> exact key _ h
  · intro v
    unfold factoryNew
    rw [contains_set_mf, dict_set_set]

/-- A factory that is given an ansatz by position raises `TypeError`. -/
theorem C56_positional_fails (ansatz : List Char) (mf : MFObj) (args : List PyVal) (kwargs : Dict (List Char) PyVal)
    (heap : List OptObj) (hl : 2 ≤ args.length) :
    factoryNew modules ansatz mf args kwargs heap = (.error .typeError, heap) := by
  have key : ∀ cls, buildSolver modules cls mf args (kwargs.set "ansatz".toList (.str ansatz)) heap
      = (.error .typeError, heap) := by
    intro cls
    have hb : bindArgs args (kwargs.set "ansatz".toList (.str ansatz)) = .error .typeError := by
      unfold bindArgs
      simp only
      split_ifs with h1 h2 h3
      · rfl
      · rfl
      · rfl
      · exfalso
        apply h3
        rcases args with _ | ⟨x, _ | ⟨y, args⟩⟩
        · simp at hl
        · simp at hl
        · rw [List.any_eq_true]
          refine ⟨("ansatz".toList, y), by simp [initParams], ?_⟩
          unfold Dict.contains
          simp [Dict.get?_set]
    unfold buildSolver
    rw [hb]
  unfold factoryNew
  simp only [key]
  split_ifs <;> rfl

/-- The shipped modules for a few methods. -/
def modules56 : List (List Char) := ["RCCSD", "UCCSD", "GCCSD", "RDFCCSD", "RCC2"].map String.toList

/-- A factory with another ansatz by keyword, for a density-fitted restricted mean field. -/
example : ((factoryNew modules56 "CCSD".toList ⟨false, false, true⟩ [.none] [("ansatz".toList, .str "CC2".toList)] []).1
    |>.toOption.map Solver.module_) = some "RDFCCSD".toList := by decide +kernel

/-- A method that exists for restricted references only. -/
example : (ebccNew modules56 ⟨true, false, false⟩ [] [("ansatz".toList, .str "CC2".toList)] []).1.toOption.isNone := by
  decide +kernel

end Ebcc
