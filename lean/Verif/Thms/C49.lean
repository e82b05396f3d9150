import Verif.Model.Dump
import Verif.Lemmas.Convert
/-!
# C49 — saving and loading reproduces the calculation
-/

namespace Ebcc

section
variable {V : Type}

/-! ### Reading sections -/

theorem byName_perm {X : Type} (d : Dict (List Char) X) : (byName d).Perm d := List.perm_insertionSort _ _

theorem get?_eq_some_iff_mem {X : Type} (d : Dict (List Char) X) (h : (Dict.keys d).Nodup) (k : List Char) (v : X) :
    d.get? k = some v ↔ (k, v) ∈ d := by
  induction d with
  | nil => simp [Dict.get?]
  | cons kv d ih =>
    obtain ⟨k', v'⟩ := kv
    have hn : k' ∉ Dict.keys d ∧ (Dict.keys d).Nodup := by simpa [Dict.keys] using h
    simp only [Dict.get?, List.mem_cons, Prod.mk.injEq]
    by_cases hk : k' = k
    · subst hk
      rw [if_pos rfl]
      constructor
      · intro e; cases e; exact .inl ⟨rfl, rfl⟩
      · rintro (⟨_, rfl⟩ | hm)
        · rfl
        · exact absurd (List.mem_map.2 ⟨_, hm, rfl⟩) hn.1
    · rw [if_neg hk, ih hn.2]
      constructor
      · exact .inr
      · rintro (⟨rfl, _⟩ | hm)
        · exact absurd rfl hk
        · exact hm

/-- Dictionaries with the same items have the same values. -/
theorem get?_perm {X : Type} {d e : Dict (List Char) X} (h : d.Perm e) (hd : (Dict.keys d).Nodup) (k : List Char) :
    d.get? k = e.get? k := by
  have he : (Dict.keys e).Nodup := (h.map Prod.fst).nodup_iff.1 hd
  cases hk : e.get? k with
  | none =>
    cases hk' : d.get? k with
    | none => rfl
    | some v =>
      have := (get?_eq_some_iff_mem e he k v).2 (h.mem_iff.1 ((get?_eq_some_iff_mem d hd k v).1 hk'))
      rw [hk] at this; cases this
  | some v =>
    exact (get?_eq_some_iff_mem d hd k v).2 (h.mem_iff.2 ((get?_eq_some_iff_mem e he k v).1 hk))

theorem get?_byName {X : Type} (d : Dict (List Char) X) (hd : (Dict.keys d).Nodup) (k : List Char) :
    (byName d).get? k = d.get? k :=
  (get?_perm (byName_perm d).symm hd k).symm

theorem get?_mapVal {X Y : Type} (f : X → Y) (d : Dict (List Char) X) (k : List Char) :
    Dict.get? (d.map fun kv => (kv.1, f kv.2)) k = (d.get? k).map f := by
  induction d with
  | nil => rfl
  | cons kv d ih =>
    simp only [List.map_cons, Dict.get?]
    split
    · rfl
    · exact ih

theorem keys_mapVal {X Y : Type} (f : X → Y) (d : Dict (List Char) X) :
    Dict.keys (d.map fun kv => (kv.1, f kv.2)) = Dict.keys d := by
  simp [Dict.keys]

/-- What is read from a section that has been written. -/
theorem load_get (file : H5File V) (name : List Char) (sec : H5Section V) (h : file.get? name = some sec)
    (hnd : (Dict.keys sec).Nodup) :
    ∃ s, h5load file name = some s ∧ ∀ k, s.get? k = (sec.get? k).map H5Val.readBack := by
  refine ⟨_, by rw [h5load, h]; rfl, fun k => ?_⟩
  rw [get?_byName _ (by rw [keys_mapVal]; exact hnd), get?_mapVal]

/-! ### Options -/

theorem entry_get {X : Type} (name k : List Char) (x : Option X) (f : X → H5Val V) :
    Dict.get? (entry name x f) k = if name = k then x.map f else none := by
  cases x with
  | none => simp [entry, Dict.get?]
  | some x => simp [entry, Dict.get?]

theorem keys_options (o : Dict (List Char) (Option V)) :
    (Dict.keys (o.flatMap fun kv => entry kv.1 kv.2 H5Val.num)).Sublist (Dict.keys o) := by
  induction o with
  | nil => exact List.Sublist.refl _
  | cons kv o ih =>
    obtain ⟨k, x⟩ := kv
    cases x with
    | none => exact ih.cons _
    | some v => exact ih.cons_cons _

theorem get_options (o : Dict (List Char) (Option V)) (hnd : (Dict.keys o).Nodup) (k : List Char) :
    Dict.get? (o.flatMap fun kv => entry kv.1 kv.2 H5Val.num) k = ((o.get? k).bind id).map H5Val.num := by
  induction o with
  | nil => rfl
  | cons kv o ih =>
    obtain ⟨k', x⟩ := kv
    have hn : k' ∉ Dict.keys o ∧ (Dict.keys o).Nodup := by simpa [Dict.keys] using hnd
    rw [List.flatMap_cons, Dict.get?_append, entry_get, ih hn.2]
    simp only [Dict.get?]
    by_cases hk : k' = k
    · rw [if_pos hk, if_pos hk]
      cases x with
      | some v => rfl
      | none =>
        subst hk
        rw [(Dict.get?_eq_none_iff _ _).2 hn.1]
        rfl
    · rw [if_neg hk, if_neg hk]
      rfl

theorem readOptions_ok (defaults : Dict (List Char) (Option V)) (sec : H5Section V) (hnd : (Dict.keys sec).Nodup)
    (hnum : ∀ k x, sec.get? k = some x → ∃ v, x = .num v) :
    ∃ o, readOptions defaults sec = .ok o ∧ ∀ k, (∀ v, sec.get? k = some (.num v) → o.get? k = some (some v)) ∧
      (sec.get? k = none → o.get? k = defaults.get? k) := by
  unfold readOptions
  induction sec generalizing defaults with
  | nil => exact ⟨defaults, rfl, fun k => ⟨fun v h => (by cases h), fun _ => rfl⟩⟩
  | cons kv sec ih =>
    obtain ⟨k0, x0⟩ := kv
    have hn : k0 ∉ Dict.keys sec ∧ (Dict.keys sec).Nodup := by simpa [Dict.keys] using hnd
    obtain ⟨v0, rfl⟩ := hnum k0 x0 (by simp [Dict.get?])
    have hnone : Dict.get? sec k0 = none := (Dict.get?_eq_none_iff _ _).2 hn.1
    obtain ⟨o, h1, h2⟩ := ih (defaults.set k0 (some v0)) hn.2 (by
      intro k x hx
      apply hnum k x
      simp only [Dict.get?]
      rw [if_neg]
      · exact hx
      · rintro rfl; rw [hnone] at hx; cases hx)
    refine ⟨o, h1, fun k => ?_⟩
    simp only [Dict.get?]
    by_cases hk : k0 = k
    · subst hk
      rw [if_pos rfl]
      refine ⟨fun v hv => ?_, fun h => by cases h⟩
      cases hv
      rw [(h2 k0).2 hnone, Dict.get?_set, if_pos rfl]
    · rw [if_neg hk]
      refine ⟨(h2 k).1, fun h => ?_⟩
      rw [(h2 k).2 h, Dict.get?_set, if_neg hk]

/-! ### Amplitudes -/

/-- The same amplitudes: the same names, and for each name the same array, or the same spin blocks (perhaps in another
order). -/
def SameAmp : DumpAmp V → DumpAmp V → Prop
  | .array v, .array w => v = w
  | .spins d, .spins e => d.Perm e
  | _, _ => False

def SameAmps (a b : Option (Dict (List Char) (DumpAmp V))) : Prop :=
  match a, b with
  | none, none => True
  | some a, some b => ∀ k, match a.get? k, b.get? k with
    | none, none => True
    | some x, some y => SameAmp x y
    | _, _ => False
  | _, _ => False

/-- For R and G all amplitudes are arrays. -/
def AmpsFit (spin : SpinType) (a : Dict (List Char) (DumpAmp V)) : Prop :=
  spin = .U ∨ ∀ kv ∈ a, ∃ v, kv.2 = .array v

def ampToH5 : DumpAmp V → H5Val V
  | .array v => .num v
  | .spins d => .group d

def ampOfH5 (x : DumpAmp V) : DumpAmp V :=
  match x with
  | .array v => .array v
  | .spins d => .spins (byName d)

theorem dumpAmps_ok (spin : SpinType) (a : Dict (List Char) (DumpAmp V)) (h : AmpsFit spin a) :
    dumpAmps spin a = .ok (a.map fun kv => (kv.1, ampToH5 kv.2)) := by
  unfold dumpAmps
  apply mapM_ok
  rintro ⟨k, x⟩ hx
  cases x with
  | array v => rfl
  | spins d =>
    rcases h with rfl | h
    · rfl
    · obtain ⟨v, hv⟩ := h _ hx
      cases hv

/-- Writing and reading amplitudes. -/
theorem amps_roundtrip (spin : SpinType) (a : Dict (List Char) (DumpAmp V)) (hnd : (Dict.keys a).Nodup)
    (h : AmpsFit spin a) (file : H5File V) (name : List Char)
    (hf : file.get? name = some (a.map fun kv => (kv.1, ampToH5 kv.2))) :
    ∃ b, (h5load file name).mapM (readAmps spin) = .ok (some b) ∧ SameAmps (some a) (some b) := by
  have e1 : h5load file name = some (byName (a.map fun kv => (kv.1, (ampToH5 kv.2).readBack))) := by
    rw [h5load, hf, Option.map_some, List.map_map]
    rfl
  let r : List Char × H5Val V → List Char × DumpAmp V := fun kv =>
    match kv.2 with
    | .num v => (kv.1, .array v)
    | .group d => (kv.1, .spins d)
    | _ => (kv.1, .spins [])
  have e2 : readAmps spin (byName (a.map fun kv => (kv.1, (ampToH5 kv.2).readBack)))
      = .ok ((byName (a.map fun kv => (kv.1, (ampToH5 kv.2).readBack))).map r) := by
    unfold readAmps
    apply mapM_ok
    intro kv hkv
    rw [(byName_perm _).mem_iff, List.mem_map] at hkv
    obtain ⟨⟨k, x⟩, hx, rfl⟩ := hkv
    cases x with
    | array v => rfl
    | spins d =>
      rcases h with rfl | h
      · rfl
      · obtain ⟨v, hv⟩ := h _ hx
        cases hv
  refine ⟨_, by rw [e1]; simp only [Option.mapM_some, e2]; rfl, ?_⟩
  intro k
  have hperm : ((byName (a.map fun kv => (kv.1, (ampToH5 kv.2).readBack))).map r).Perm
      (a.map fun kv => (kv.1, ampOfH5 kv.2)) := by
    refine ((byName_perm _).map r).trans (List.Perm.of_eq ?_)
    rw [List.map_map]
    apply List.map_congr_left
    rintro ⟨k, x⟩ _
    cases x <;> rfl
  rw [get?_perm hperm (by
    rw [show Dict.keys ((byName (a.map fun kv => (kv.1, (ampToH5 kv.2).readBack))).map r)
      = ((byName (a.map fun kv => (kv.1, (ampToH5 kv.2).readBack))).map r).map Prod.fst from rfl]
    rw [(hperm.map Prod.fst).nodup_iff, List.map_map]
    exact hnd), get?_mapVal]
  cases a.get? k with
  | none => trivial
  | some x =>
    cases x with
    | array v => rfl
    | spins d => exact (byName_perm d).symm

/-! ### The calculation -/

/-- Two calculations agree in everything that can be observed. -/
structure SameCalc (c d : Calc V) : Prop where
  spin : d.spin = c.spin
  options : ∀ k, d.options.get? k = c.options.get? k
  mf : (d.mfETot, d.mfMoEnergy, d.mfMoCoeff, d.mfMoOcc) = (c.mfETot, c.mfMoEnergy, c.mfMoCoeff, c.mfMoOcc)
  mo : (d.moCoeff, d.moOcc) = (c.moCoeff, c.moOcc)
  fermion : d.ansatz.fermionAnsatz = c.ansatz.fermionAnsatz
  boson : d.ansatz.bosonAnsatz = c.ansatz.bosonAnsatz
  ranks : (d.ansatz.fermionCouplingRank, d.ansatz.bosonCouplingRank)
    = (c.ansatz.fermionCouplingRank, c.ansatz.bosonCouplingRank)
  densityFitting : d.ansatz.densityFitting.truthy = c.ansatz.densityFitting.truthy
  moduleName : d.ansatz.moduleName = c.ansatz.moduleName
  space : d.space = c.space
  bosons : (d.omega, d.bareg, d.bareG) = (c.omega, c.bareg, c.bareG)
  energy : d.eCorr = c.eCorr
  converged : (d.converged, d.convergedLambda) = (c.converged, c.convergedLambda)
  amplitudes : SameAmps c.amplitudes d.amplitudes
  lambdas : SameAmps c.lambdas d.lambdas

/-- The spaces are valid, and one or two as the spin type wants. -/
def SpaceFits : SpinType → DumpSpace → Prop
  | .U, .two a b => Space.new a.occupied a.frozen a.active = .ok a ∧ Space.new b.occupied b.frozen b.active = .ok b
  | .U, .one _ => False
  | _, .one s => Space.new s.occupied s.frozen s.active = .ok s
  | _, .two _ _ => False

/-- A calculation that the constructor can have made, with all its attributes set. -/
structure Complete (defaults : Dict (List Char) (Option V)) (nbos : Option V → Nat) (false_ : V) (c : Calc V) : Prop where
  space : SpaceFits c.spin c.space
  optionKeys : (Dict.keys c.options).Nodup
  optionsSet : ∀ k, c.options.get? k ≠ some none
  defaults : ∀ k, c.options.get? k = none → defaults.get? k = none
  coupling : c.ansatz.fermionCouplingRank = 0 ↔ c.ansatz.bosonCouplingRank = 0
  noBosons : c.ansatz.bosonAnsatz = [] → nbos c.omega = 0 ∧ c.options.get? "shift".toList = some (some false_)
  energy : c.eCorr ≠ none
  converged : c.converged ≠ none
  convergedLambda : c.convergedLambda ≠ none
  amps : ∀ a, c.amplitudes = some a → (Dict.keys a).Nodup ∧ AmpsFit c.spin a
  lams : ∀ a, c.lambdas = some a → (Dict.keys a).Nodup ∧ AmpsFit c.spin a

theorem readSpace_ok (spin : SpinType) (sp : DumpSpace) (h : SpaceFits spin sp) :
    ∃ sec : H5Section V, dumpSpace spin sp = .ok sec ∧ (Dict.keys sec).Nodup ∧
      ∀ s : H5Section V, (∀ k, s.get? k = (sec.get? k).map H5Val.readBack) → readSpace spin s = .ok sp := by
  cases spin <;> cases sp <;> try exact h.elim
  · rename_i s
    refine ⟨_, rfl, (by simp [Dict.keys]), fun t ht => ?_⟩
    have h1 : t.get? "occupied".toList = some (.mask s.occupied) := ht _
    have h2 : t.get? "frozen".toList = some (.mask s.frozen) := ht _
    have h3 : t.get? "active".toList = some (.mask s.active) := ht _
    simp only [readSpace, getMask]
    rw [h1, h2, h3]
    change (do let s' ← Space.new s.occupied s.frozen s.active; pure (DumpSpace.one s')) = _
    rw [show Space.new s.occupied s.frozen s.active = .ok s from h]
    rfl
  · rename_i a b
    refine ⟨_, rfl, (by simp [Dict.keys]), fun t ht => ?_⟩
    have h1 : t.get? "occupied".toList = some (.masks a.occupied b.occupied) := ht _
    have h2 : t.get? "frozen".toList = some (.masks a.frozen b.frozen) := ht _
    have h3 : t.get? "active".toList = some (.masks a.active b.active) := ht _
    simp only [readSpace, getMasks]
    rw [h1, h2, h3]
    change (do
      let sa ← Space.new a.occupied a.frozen a.active
      let sb ← Space.new b.occupied b.frozen b.active
      pure (DumpSpace.two sa sb)) = _
    rw [h.1, h.2]
    rfl
  · rename_i s
    refine ⟨_, rfl, (by simp [Dict.keys]), fun t ht => ?_⟩
    have h1 : t.get? "occupied".toList = some (.mask s.occupied) := ht _
    have h2 : t.get? "frozen".toList = some (.mask s.frozen) := ht _
    have h3 : t.get? "active".toList = some (.mask s.active) := ht _
    simp only [readSpace, getMask]
    rw [h1, h2, h3]
    change (do let s' ← Space.new s.occupied s.frozen s.active; pure (DumpSpace.one s')) = _
    rw [show Space.new s.occupied s.frozen s.active = .ok s from h]
    rfl

/-- The sections for the options, the ansatz, the bosons and the rest. -/
def optionsSec (c : Calc V) : H5Section V := c.options.flatMap fun kv => entry kv.1 kv.2 .num
def mfSec (c : Calc V) : H5Section V := [("e_tot".toList, .num c.mfETot), ("mo_energy".toList, .num c.mfMoEnergy),
    ("mo_coeff".toList, .num c.mfMoCoeff), ("mo_occ".toList, .num c.mfMoOcc)]
def moSec (c : Calc V) : H5Section V := [("mo_coeff".toList, .num c.moCoeff), ("mo_occ".toList, .num c.moOcc)]
def ansatzSec (c : Calc V) : H5Section V := [("fermion_ansatz".toList, .text c.ansatz.fermionAnsatz),
    ("boson_ansatz".toList, .text c.ansatz.bosonAnsatz), ("fermion_coupling_rank".toList, .rank c.ansatz.fermionCouplingRank),
    ("boson_coupling_rank".toList, .rank c.ansatz.bosonCouplingRank)] ++
    entry "module_name".toList c.ansatz.moduleName .text
def bosonsSec (c : Calc V) : H5Section V := entry "omega".toList c.omega .num ++ entry "bare_g".toList c.bareg .num ++
    entry "bare_G".toList c.bareG .num
def miscSec (c : Calc V) : H5Section V := [("spin_type".toList, .text (spinLetter c.spin))] ++
    entry "e_corr".toList c.eCorr .num ++ entry "converged".toList c.converged .num ++
    entry "converged_lambda".toList c.convergedLambda .num

/-- The contents of the file after `write`. -/
theorem write_ok (file : H5File V) (c : Calc V) (sp : H5Section V) (hsp : dumpSpace c.spin c.space = .ok sp)
    (ha : ∀ a, c.amplitudes = some a → AmpsFit c.spin a) (hl : ∀ a, c.lambdas = some a → AmpsFit c.spin a) :
    ∃ f, dumpWrite file c = .ok f ∧ f.get? "options".toList = some (optionsSec c) ∧
      f.get? "mean-field".toList = some (mfSec c) ∧ f.get? "mo".toList = some (moSec c) ∧
      f.get? "ansatz".toList = some (ansatzSec c) ∧ f.get? "space".toList = some sp ∧
      f.get? "bosons".toList = some (bosonsSec c) ∧ f.get? "misc".toList = some (miscSec c) ∧
      (f.get? "amplitudes".toList = match c.amplitudes with
        | none => file.get? "amplitudes".toList
        | some a => some (a.map fun kv => (kv.1, ampToH5 kv.2))) ∧
      (f.get? "lambdas".toList = match c.lambdas with
        | none => file.get? "lambdas".toList
        | some a => some (a.map fun kv => (kv.1, ampToH5 kv.2))) := by
  unfold dumpWrite
  rw [hsp]
  cases h1 : c.amplitudes with
  | none =>
    cases h2 : c.lambdas with
    | none =>
      simp only [bind, Except.bind, pure, Except.pure]
      refine ⟨_, rfl, ?_⟩
      simp [h5dump, Dict.get?_set, optionsSec, mfSec, moSec, ansatzSec, bosonsSec, miscSec]
    | some l =>
      simp only [bind, Except.bind, pure, Except.pure, dumpAmps_ok _ _ (hl l h2)]
      refine ⟨_, rfl, ?_⟩
      simp [h5dump, Dict.get?_set, optionsSec, mfSec, moSec, ansatzSec, bosonsSec, miscSec]
  | some a =>
    cases h2 : c.lambdas with
    | none =>
      simp only [bind, Except.bind, pure, Except.pure, dumpAmps_ok _ _ (ha a h1)]
      refine ⟨_, rfl, ?_⟩
      simp [h5dump, Dict.get?_set, optionsSec, mfSec, moSec, ansatzSec, bosonsSec, miscSec]
    | some l =>
      simp only [bind, Except.bind, pure, Except.pure, dumpAmps_ok _ _ (ha a h1), dumpAmps_ok _ _ (hl l h2)]
      refine ⟨_, rfl, ?_⟩
      simp [h5dump, Dict.get?_set, optionsSec, mfSec, moSec, ansatzSec, bosonsSec, miscSec]

/-- A calculation whose ansatz uses neither density fitting nor a named module is reproduced, if all attributes are set
and all options have values, whatever the file contained before, provided that amplitudes and lambdas that are absent
in the calculation are absent in the file.  What is missing: the flag for density fitting and the name of the module
are not restored (`C49_density_fitting_fails`, `C49_module_name_fails`), old lambdas survive in the file
(`C49_stale_fails`), and options and attributes that are `None` come back as the defaults (`C49_none_fails`). -/
theorem C49_roundtrip_partial (defaults : Dict (List Char) (Option V)) (nbos : Option V → Nat) (false_ zero : V)
    (file : H5File V) (c : Calc V) (h : Complete defaults nbos false_ c)
    (hdf : c.ansatz.densityFitting.truthy = false) (hmod : c.ansatz.moduleName = none)
    (ha : c.amplitudes = none → file.get? "amplitudes".toList = none)
    (hl : c.lambdas = none → file.get? "lambdas".toList = none) :
    ∃ f d, dumpWrite file c = .ok f ∧ dumpRead defaults nbos false_ zero f = .ok d ∧ SameCalc c d := by
  obtain ⟨sp, hsp, hspn, hspr⟩ := readSpace_ok (V := V) c.spin c.space h.space
  obtain ⟨f, hw, g1, g2, g3, g4, g5, g6, g7, g8, g9⟩ := write_ok file c sp hsp (fun a e => (h.amps a e).2)
    (fun a e => (h.lams a e).2)
  refine ⟨f, ?_⟩
  -- the sections
  obtain ⟨ec, hec⟩ := Option.ne_none_iff_exists'.1 h.energy
  obtain ⟨cv, hcv⟩ := Option.ne_none_iff_exists'.1 h.converged
  obtain ⟨cl, hcl⟩ := Option.ne_none_iff_exists'.1 h.convergedLambda
  have n1 : (Dict.keys (optionsSec c)).Nodup := (keys_options c.options).nodup h.optionKeys
  obtain ⟨s2, l2, r2⟩ := load_get f _ _ g2 (by simp [Dict.keys, mfSec])
  obtain ⟨s3, l3, r3⟩ := load_get f _ _ g3 (by simp [Dict.keys, moSec])
  obtain ⟨s4, l4, r4⟩ := load_get f _ _ g4 (by simp [Dict.keys, ansatzSec, hmod, entry])
  obtain ⟨s5, l5, r5⟩ := load_get f _ _ g5 hspn
  obtain ⟨s6, l6, r6⟩ := load_get f _ _ g6 (by
    rcases hom : c.omega with _ | _ <;> rcases hbg : c.bareg with _ | _ <;> rcases hbG : c.bareG with _ | _ <;>
      simp [Dict.keys, bosonsSec, entry, hom, hbg, hbG])
  obtain ⟨s7, l7, r7⟩ := load_get f _ _ g7 (by simp [Dict.keys, miscSec, hec, hcv, hcl, entry])
  obtain ⟨o, o1, o2⟩ : ∃ o, (∃ s1, h5load f "options".toList = some s1 ∧ readOptions defaults s1 = .ok o) ∧
      ∀ k, o.get? k = c.options.get? k := by
    have hl1 : h5load f "options".toList = some (byName ((optionsSec c).map fun kv => (kv.1, kv.2.readBack))) := by
      rw [h5load, g1]; rfl
    have hnd : (Dict.keys (byName ((optionsSec c).map fun kv => (kv.1, kv.2.readBack)))).Nodup := by
      have hp : (Dict.keys (byName ((optionsSec c).map fun kv => (kv.1, kv.2.readBack)))).Perm
          (Dict.keys ((optionsSec c).map fun kv => (kv.1, kv.2.readBack))) := (byName_perm _).map Prod.fst
      rw [hp.nodup_iff, keys_mapVal]
      exact n1
    have hget : ∀ k, (byName ((optionsSec c).map fun kv => (kv.1, kv.2.readBack))).get? k
        = ((c.options.get? k).bind id).map H5Val.num := by
      intro k
      rw [get?_byName _ (by rw [keys_mapVal]; exact n1), get?_mapVal, optionsSec, get_options _ h.optionKeys]
      cases (c.options.get? k).bind id <;> rfl
    obtain ⟨o, e1, e2⟩ := readOptions_ok defaults _ hnd (by
      intro k x hx
      rw [hget] at hx
      obtain ⟨v, _, hv⟩ := Option.map_eq_some_iff.1 hx
      exact ⟨v, hv.symm⟩)
    refine ⟨o, ⟨_, hl1, e1⟩, fun k => ?_⟩
    cases hk : c.options.get? k with
    | none =>
      rw [(e2 k).2 (by rw [hget, hk]; rfl)]
      exact h.defaults k hk
    | some x =>
      cases x with
      | none => exact absurd hk (h.optionsSet k)
      | some v => exact (e2 k).1 v (by rw [hget, hk]; rfl)
  obtain ⟨s1, l1, o1⟩ := o1
  have m1 : s2.get? "e_tot".toList = some (.num c.mfETot) := r2 _
  have m2 : s2.get? "mo_energy".toList = some (.num c.mfMoEnergy) := r2 _
  have m3 : s2.get? "mo_coeff".toList = some (.num c.mfMoCoeff) := r2 _
  have m4 : s2.get? "mo_occ".toList = some (.num c.mfMoOcc) := r2 _
  have m5 : s3.get? "mo_coeff".toList = some (.num c.moCoeff) := r3 _
  have m6 : s3.get? "mo_occ".toList = some (.num c.moOcc) := r3 _
  have a1 : s4.get? "fermion_ansatz".toList = some (.bytes c.ansatz.fermionAnsatz) := r4 _
  have a2 : s4.get? "boson_ansatz".toList = some (.bytes c.ansatz.bosonAnsatz) := r4 _
  have a3 : s4.get? "fermion_coupling_rank".toList = some (.rank c.ansatz.fermionCouplingRank) := r4 _
  have a4 : s4.get? "boson_coupling_rank".toList = some (.rank c.ansatz.bosonCouplingRank) := r4 _
  have a5 : s4.get? "module_name".toList = none := by
    rw [r4, ansatzSec, hmod]
    simp [Dict.get?, entry]
  have b1 : getNum s6 "omega".toList = .ok c.omega := by
    have : s6.get? "omega".toList = c.omega.map .num := by
      rw [r6]
      simp only [bosonsSec, Dict.get?_append, entry_get]
      cases c.omega <;> simp [H5Val.readBack]
    rw [getNum, this]
    cases c.omega <;> rfl
  have b2 : getNum s6 "bare_g".toList = .ok c.bareg := by
    have : s6.get? "bare_g".toList = c.bareg.map .num := by
      rw [r6]
      simp only [bosonsSec, Dict.get?_append, entry_get]
      cases c.bareg <;> simp [H5Val.readBack]
    rw [getNum, this]
    cases c.bareg <;> rfl
  have b3 : getNum s6 "bare_G".toList = .ok c.bareG := by
    have : s6.get? "bare_G".toList = c.bareG.map .num := by
      rw [r6]
      simp only [bosonsSec, Dict.get?_append, entry_get]
      cases c.bareG <;> simp [H5Val.readBack]
    rw [getNum, this]
    cases c.bareG <;> rfl
  have k0 : s7.get? "spin_type".toList = some (.bytes (spinLetter c.spin)) := r7 _
  have k1 : s7.get? "e_corr".toList = some (.num ec) := by
    rw [r7]
    simp [miscSec, Dict.get?, entry, hec, hcv, hcl, H5Val.readBack]
  have k2 : s7.get? "converged".toList = some (.num cv) := by
    rw [r7]
    simp [miscSec, Dict.get?, entry, hec, hcv, hcl, H5Val.readBack]
  have k3 : s7.get? "converged_lambda".toList = some (.num cl) := by
    rw [r7]
    simp [miscSec, Dict.get?, entry, hec, hcv, hcl, H5Val.readBack]
  have hspin : readSpin s7 = .ok c.spin := by
    rw [readSpin, k0]
    cases c.spin <;> rfl
  have hamp : ∀ (name : List Char) (x : Option (Dict (List Char) (DumpAmp V))),
      (∀ a, x = some a → (Dict.keys a).Nodup ∧ AmpsFit c.spin a) →
      (x = none → file.get? name = none) →
      (f.get? name = match x with
        | none => file.get? name
        | some a => some (a.map fun kv => (kv.1, ampToH5 kv.2))) →
      ∃ y, (h5load f name).mapM (readAmps c.spin) = .ok y ∧ SameAmps x y := by
    intro name x hx hn hf
    cases x with
    | none =>
      refine ⟨none, ?_, trivial⟩
      rw [h5load, hf]
      simp only [hn rfl]
      rfl
    | some a =>
      obtain ⟨b, p1, p2⟩ := amps_roundtrip c.spin a (hx a rfl).1 (hx a rfl).2 f name hf
      exact ⟨some b, p1, p2⟩
  obtain ⟨ya, ya1, ya2⟩ := hamp _ c.amplitudes h.amps ha g8
  obtain ⟨yl, yl1, yl2⟩ := hamp _ c.lambdas h.lams hl g9
  have hcons : ∀ (o : Dict (List Char) (Option V)), (∀ k, o.get? k = c.options.get? k) →
      ∃ d, construct nbos false_ zero
        { spin := c.spin, options := o, mfETot := c.mfETot, mfMoEnergy := c.mfMoEnergy, mfMoCoeff := c.mfMoCoeff,
          mfMoOcc := c.mfMoOcc, moCoeff := c.moCoeff, moOcc := c.moOcc,
          ansatz := ⟨c.ansatz.fermionAnsatz, c.ansatz.bosonAnsatz, c.ansatz.fermionCouplingRank,
            c.ansatz.bosonCouplingRank, .none, none⟩, space := c.space,
          omega := c.omega, bareg := c.bareg, bareG := c.bareG, eCorr := none, converged := none, convergedLambda := none,
          amplitudes := none, lambdas := none } = .ok d ∧
        SameCalc c { d with eCorr := c.eCorr, converged := c.converged, convergedLambda := c.convergedLambda,
                            amplitudes := ya, lambdas := yl } := by
    intro o ho
    unfold construct
    have hcr : ¬ (decide (c.ansatz.fermionCouplingRank ≠ 0) ≠ decide (c.ansatz.bosonCouplingRank ≠ 0)) := by
      have := h.coupling
      by_cases h0 : c.ansatz.fermionCouplingRank = 0
      · simp [h0, this.1 h0]
      · simp [h0, mt this.2 h0]
    rw [if_neg hcr]
    simp only
    by_cases hb : c.ansatz.bosonAnsatz ≠ []
    · rw [if_pos hb]
      exact ⟨_, rfl, ⟨rfl, ho, rfl, rfl, rfl, rfl, rfl, hdf.symm, hmod.symm, rfl, rfl, rfl, rfl, ya2, yl2⟩⟩
    · rw [if_neg hb, if_pos (h.noBosons (by simpa using hb)).1]
      refine ⟨_, rfl, ⟨rfl, ?_, rfl, rfl, rfl, rfl, rfl, hdf.symm, hmod.symm, rfl, rfl, rfl, rfl, ya2, yl2⟩⟩
      intro k
      simp only [Dict.get?_set]
      split
      · rename_i e
        rw [← e, (h.noBosons (by simpa using hb)).2]
      · exact ho k
  obtain ⟨d, hd1, hd2⟩ := hcons o o2
  refine ⟨_, hw, ?_, hd2⟩
  simp only [dumpRead, needSection, l1, l2, l3, l4, l5, l6, l7, o1, hspin, needNum, getNum, m1, m2, m3, m4, m5, m6,
    H5Val.asNum, getText, a1, a2, getRank, a3, a4, a5, hspr s5 r5, bind, Except.bind, pure, Except.pure]
  simp only [getNum, H5Val.asNum, bind, Except.bind, pure, Except.pure] at b1 b2 b3
  rw [b1, b2, b3, ya1, yl1]
  simp only [Option.getD_some]
  rw [hd1]
  simp only [updateNum, getNum, k1, k2, k3, H5Val.asNum, bind, Except.bind, pure, Except.pure, hec, hcv, hcl]

end

/-! ### What is not restored -/

/-- The options of `BaseOptions`, as far as they matter here. -/
def defaults49 : Dict (List Char) (Option Int) := [("max_iter".toList, some 200), ("shift".toList, some 1)]

/-- The number of bosons: none without frequencies. -/
def nbos49 : Option Int → Nat
  | none => 0
  | some _ => 1

/-- A converged restricted calculation without bosons, changed options, one frozen orbital. -/
def calc49 : Calc Int where
  spin := .R
  options := [("max_iter".toList, some 50), ("shift".toList, some 0)]
  mfETot := -76
  mfMoEnergy := 1
  mfMoCoeff := 2
  mfMoOcc := 3
  moCoeff := 4
  moOcc := 5
  ansatz := ⟨"CCSD".toList, [], 0, 0, .bool false, none⟩
  space := .one ⟨[true, true, false], [true, false, false], [false, false, false]⟩
  omega := none
  bareg := none
  bareG := none
  eCorr := some (-7)
  converged := some 1
  convergedLambda := some 0
  amplitudes := some [("t2".toList, .array 8), ("t1".toList, .array 9)]
  lambdas := some []

/-- The hypotheses of `C49_roundtrip_partial` are satisfied. -/
example : Complete defaults49 nbos49 0 calc49 where
  space := by unfold SpaceFits calc49; decide
  optionKeys := by decide
  optionsSet := by
    intro k
    simp only [calc49, Dict.get?]
    split
    · simp
    · split <;> simp
  defaults := by
    intro k
    simp only [calc49, defaults49, Dict.get?]
    split
    · simp
    · split <;> simp
  coupling := by decide
  noBosons := by decide
  energy := by decide
  converged := by decide
  convergedLambda := by decide
  amps := by
    intro a h
    cases h
    refine ⟨by decide, .inr ?_⟩
    intro kv hkv
    simp only [List.mem_cons, List.not_mem_nil, or_false] at hkv
    rcases hkv with rfl | rfl
    · exact ⟨8, rfl⟩
    · exact ⟨9, rfl⟩
  lams := by
    intro a h
    cases h
    exact ⟨by decide, .inr fun kv h => by cases h⟩

/-- Writing and reading. -/
def roundTrip49 (file : H5File Int) (c : Calc Int) : Except PyErr (Calc Int) := do
  dumpRead defaults49 nbos49 0 0 (← dumpWrite file c)

/-- The amplitudes come back in the order of their names. -/
example : roundTrip49 [] calc49 = .ok { calc49 with
    ansatz := ⟨"CCSD".toList, [], 0, 0, .none, none⟩,
    amplitudes := some [("t1".toList, .array 9), ("t2".toList, .array 8)] } := by decide +kernel

/-- An unrestricted calculation with bosons and spin blocks. -/
example : roundTrip49 [] { calc49 with
    spin := .U, omega := some 3, bareg := some 4, ansatz := ⟨"CCSD".toList, "S".toList, 1, 1, .bool false, none⟩,
    space := .two ⟨[true, false], [false, false], [false, true]⟩ ⟨[true, true], [false, false], [false, false]⟩,
    amplitudes := some [("t1".toList, .spins [("aa".toList, 1), ("bb".toList, 2)]), ("s1".toList, .array 6)] }
    = .ok { calc49 with
    spin := .U, omega := some 3, bareg := some 4, ansatz := ⟨"CCSD".toList, "S".toList, 1, 1, .none, none⟩,
    space := .two ⟨[true, false], [false, false], [false, true]⟩ ⟨[true, true], [false, false], [false, false]⟩,
    amplitudes := some [("s1".toList, .array 6), ("t1".toList, .spins [("aa".toList, 1), ("bb".toList, 2)])] } := by
  decide +kernel

/-- A calculation with density fitting comes back without. -/
theorem C49_density_fitting_fails :
    (roundTrip49 [] { calc49 with ansatz := ⟨"CCSD".toList, [], 0, 0, .bool true, none⟩ }).map (fun c => c.ansatz.densityFitting.truthy)
      = .ok false := by decide +kernel

/-- A calculation with its own module comes back without it, and with density fitting. -/
theorem C49_module_name_fails :
    (roundTrip49 [] { calc49 with ansatz := ⟨"CCSD".toList, [], 0, 0, .bool false, some "RMine".toList⟩ }).map
        (fun c => (c.ansatz.moduleName, c.ansatz.densityFitting.truthy)) = .ok (none, true) := by decide +kernel

/-- A file that is used again: the lambdas of the earlier calculation are read for one that has none. -/
theorem C49_stale_fails :
    (do
      let f ← dumpWrite [] { calc49 with lambdas := some [("l1".toList, .array 5)] }
      roundTrip49 f { calc49 with lambdas := none }).map (fun (c : Calc Int) => c.lambdas)
      = .ok (some [("l1".toList, .array 5)]) := by decide +kernel

/-- Options and attributes that are `None` come back as the defaults. -/
theorem C49_none_fails :
    (roundTrip49 [] { calc49 with options := [("max_iter".toList, none), ("shift".toList, some 0)], eCorr := none }).map
        (fun c => (c.options.get? "max_iter".toList, c.eCorr)) = .ok (some (some 200), some 0) := by decide +kernel

end Ebcc
