import Verif.Model.Arguments
import Verif.Lemmas.Py
import Verif.Lemmas.Amps

/-!
C68: the arguments of the generated functions.
-/

namespace Ebcc

section
variable {ε α β : Type}

/-- Amplitudes in use: those given if there are any, else those stored if there are any, else the initial ones. -/
inductive Resolved68 (stored : Dict (List Char) α) (initial : Dict (List Char) α → Prop) :
    Option (Dict (List Char) α) → Dict (List Char) α → Prop
  | given (d : Dict (List Char) α) (h : d ≠ []) : Resolved68 stored initial (some d) d
  | stored (t : Option (Dict (List Char) α)) (ht : t = none ∨ t = some []) (h : stored ≠ []) :
    Resolved68 stored initial t stored
  | initial (t : Option (Dict (List Char) α)) (d : Dict (List Char) α) (ht : t = none ∨ t = some [])
    (h : stored = []) (hd : initial d) : Resolved68 stored initial t d

/-- The container in use: the one passed, else a new one, density fitted if the mean field is. -/
inductive Container68 (s : Session ε α β) : EriArg ε → ε → Prop
  | passed (e : ε) : Container68 s (.obj e) e
  | plain (a : EriArg ε) (ha : a = .omitted ∨ a = .default) (h : s.withDf = false) : Container68 s a s.freshEris
  | fitted (a : EriArg ε) (ha : a = .omitted ∨ a = .default) (h : s.withDf = true) (hs : s.spin ≠ .G) :
    Container68 s a s.freshCderis

/-- The initial amplitudes: made from new integrals. -/
def Initial68 (s : Session ε α β) (t : Dict (List Char) α) : Prop :=
  ∃ v, Container68 s .default v ∧ s.initAmps v = .ok t

/-- The amplitudes passed to the function. -/
def Amps68 (s : Session ε α β) : AmpArg α → Dict (List Char) α → Prop
  | .omitted, d => d = []
  | .given t, d => Resolved68 s.amplitudes (Initial68 s) t d

/-- The namespace of amplitudes a call mentions. -/
def mention68 : AmpArg α → Option (Dict (List Char) α)
  | .omitted => none
  | .given t => t

/-- The lambda amplitudes passed to the function. -/
def Lams68 (s : Session ε α β) (t : AmpArg α) : AmpArg α → Dict (List Char) α → Prop
  | .omitted, d => d = []
  | .given l, d => Resolved68 s.lambdas
      (fun d => ∃ t', Resolved68 s.amplitudes (Initial68 s) (mention68 t) t' ∧ s.initLams t' = .ok d) l d

/-- Whether the number of auxiliary functions is passed. -/
def Naux68 (s : Session ε α β) (a : EriArg ε) (v : ε) : Prop :=
  s.isCderis v = true ∧ (s.spin = .R ∨ s.spin = .U ∧ a ≠ .omitted)

/-- The arguments every function gets. -/
def standard68 (s : Session ε α β) (v : ε) : Dict (List Char) (ArgVal ε α) :=
  [("f".toList, .val s.fock), ("v".toList, .eris v), ("g".toList, .val s.g), ("G".toList, .val s.G),
   ("w".toList, .val s.w), ("space".toList, .val s.space), ("nocc".toList, .val s.nocc), ("nvir".toList, .val s.nvir),
   ("nbos".toList, .val s.nbos)]

theorem getEris_iff68 (s : Session ε α β) (a : EriArg ε) (ha : a ≠ .omitted) (v : ε) :
    s.getEris a = .ok v ↔ Container68 s a v := by
  constructor
  · intro h
    cases a with
    | omitted => exact absurd rfl ha
    | obj e => cases h; exact .passed _
    | other => cases h
    | default =>
      simp only [Session.getEris] at h
      split at h
      · rename_i hd
        split at h
        · cases h
        · rename_i hs; cases h; exact .fitted _ (Or.inr rfl) hd hs
      · rename_i hd; cases h; exact .plain _ (Or.inr rfl) (by simpa using hd)
  · intro h
    cases h with
    | passed e => rfl
    | plain _ h hd =>
      rcases h with h | h
      · exact absurd h ha
      · subst h; simp [Session.getEris, hd]
    | fitted _ h hd hs =>
      rcases h with h | h
      · exact absurd h ha
      · subst h; simp [Session.getEris, hd, hs]

theorem resolve68 (stored : Dict (List Char) α) (t : Option (Dict (List Char) α))
    (m : Except PyErr (Dict (List Char) α)) (d : Dict (List Char) α) (P : Dict (List Char) α → Prop)
    (hP : ∀ d, m = .ok d ↔ P d) :
    (if truthy (some (if truthy t then t.getD [] else stored)) then
      Except.ok (if truthy t then t.getD [] else stored) else m) = .ok d ↔ Resolved68 stored P t d := by
  have hcase : (∃ x, t = some x ∧ x ≠ []) ∨ (t = none ∨ t = some []) := by
    cases t with
    | none => exact Or.inr (Or.inl rfl)
    | some x =>
      by_cases hx : x = []
      · exact Or.inr (Or.inr (by rw [hx]))
      · exact Or.inl ⟨x, rfl, hx⟩
  rcases hcase with ⟨x, rfl, hx⟩ | ht
  · have h1 : truthy (some x) = true := by simp [truthy, hx]
    simp only [h1, if_true, Option.getD_some]
    constructor
    · intro h; cases h; exact .given _ hx
    · intro h
      cases h with
      | given => rfl
      | stored _ ht => rcases ht with ht | ht <;> cases ht; exact absurd rfl hx
      | initial _ _ ht => rcases ht with ht | ht <;> cases ht; exact absurd rfl hx
  · have h1 : truthy t = false := by rcases ht with rfl | rfl <;> rfl
    simp only [h1, Bool.false_eq_true, if_false]
    by_cases hs : stored = []
    · have h2 : truthy (some stored) = false := by rw [hs]; rfl
      simp only [h2, Bool.false_eq_true, if_false]
      rw [hP]
      constructor
      · intro h; exact .initial _ _ ht hs h
      · intro h
        cases h with
        | given _ hx => rcases ht with ht | ht <;> cases ht; exact absurd rfl hx
        | stored _ _ h => exact absurd hs h
        | initial _ _ _ _ h => exact h
    · have h2 : truthy (some stored) = true := by simp [truthy, hs]
      simp only [h2, if_true]
      constructor
      · intro h; cases h; exact .stored _ ht hs
      · intro h
        cases h with
        | given _ hx => rcases ht with ht | ht <;> cases ht; exact absurd rfl hx
        | stored _ _ h => rfl
        | initial _ _ _ h => exact absurd h hs

theorem getAmps_iff68 (s : Session ε α β) (t : Option (Dict (List Char) α)) (d : Dict (List Char) α) :
    s.getAmps t = .ok d ↔ Resolved68 s.amplitudes (Initial68 s) t d := by
  unfold Session.getAmps
  refine resolve68 _ _ _ _ _ fun d => ?_
  simp only [bind, Except.bind]
  constructor
  · intro h
    cases he : s.getEris .default with
    | error e => rw [he] at h; cases h
    | ok v => rw [he] at h; exact ⟨v, (getEris_iff68 s .default (by simp) v).1 he, h⟩
  · rintro ⟨v, hv, h⟩
    rw [(getEris_iff68 s .default (by simp) v).2 hv]
    exact h

theorem getLams_iff68 (s : Session ε α β) (l t : Option (Dict (List Char) α)) (d : Dict (List Char) α) :
    s.getLams l t = .ok d ↔ Resolved68 s.lambdas
      (fun d => ∃ t', Resolved68 s.amplitudes (Initial68 s) t t' ∧ s.initLams t' = .ok d) l d := by
  unfold Session.getLams
  refine resolve68 _ _ _ _ _ fun d => ?_
  simp only [bind, Except.bind]
  constructor
  · intro h
    cases he : s.getAmps t with
    | error e => rw [he] at h; cases h
    | ok v => rw [he] at h; exact ⟨v, (getAmps_iff68 s t v).1 he, h⟩
  · rintro ⟨v, hv, h⟩
    rw [(getAmps_iff68 s t v).2 hv]
    exact h

theorem updateDict_get68 {κ ν : Type} [DecidableEq κ] (kw d : Dict κ ν) (hn : kw.keys.Nodup) (k : κ) :
    (updateDict d kw).get? k = (kw.get? k <|> d.get? k) := by
  unfold updateDict
  induction kw generalizing d with
  | nil => rfl
  | cons p kw ih =>
    obtain ⟨a, b⟩ := p
    simp only [Dict.keys, List.map_cons, List.nodup_cons] at hn
    rw [List.foldl_cons, ih _ hn.2, Dict.get?_set]
    simp only [Dict.get?]
    by_cases h : a = k
    · subst h
      have : Dict.get? kw a = none := (Dict.get?_eq_none_iff kw a).2 hn.1
      simp [this]
    · simp [h]

theorem asArgs_get68 (d : Dict (List Char) α) (k : List Char) :
    (asArgs (ε := ε) d).get? k = (d.get? k).map .val := by
  unfold asArgs
  induction d with
  | nil => rfl
  | cons p d ih =>
    obtain ⟨a, b⟩ := p
    simp only [List.map_cons, Dict.get?, ih]
    split <;> rfl

theorem asArgs_keys68 (d : Dict (List Char) α) : (asArgs (ε := ε) d).keys = d.keys := by
  simp [asArgs, Dict.keys, Function.comp_def]

theorem ok_bind68 {γ δ : Type} {m : Except PyErr γ} {k : γ → Except PyErr δ} {y : δ}
    (h : (m >>= k) = .ok y) : ∃ x, m = .ok x ∧ k x = .ok y := by
  cases m with
  | error e => cases h
  | ok x => exact ⟨x, rfl, h⟩

theorem container68 (s : Session ε α β) (a : EriArg ε) (e : Option ε) (v : ε) (he : s.loadEris a = .ok e)
    (hv : s.getEris (.ofOption e) = .ok v) :
    Container68 s a v ∧ (s.fitted v e = true ↔ Naux68 s a v) := by
  have hsome : ∀ a, a ≠ .omitted → (s.getEris a).map some = .ok e →
      Container68 s a v ∧ (s.fitted v e = true ↔ Naux68 s a v) := by
    intro a ha h
    cases hg : s.getEris a with
    | error x => rw [hg] at h; cases h
    | ok w =>
      rw [hg] at h
      cases h
      cases hv
      refine ⟨(getEris_iff68 s a ha _).1 hg, ?_⟩
      unfold Session.fitted Naux68
      cases s.spin <;> simp [ha]
  cases a with
  | omitted =>
    cases he
    refine ⟨?_, ?_⟩
    · have := (getEris_iff68 s .default (by simp) v).1 hv
      cases this with
      | plain _ _ h => exact .plain _ (Or.inl rfl) h
      | fitted _ _ h h' => exact .fitted _ (Or.inl rfl) h h'
    · unfold Session.fitted Naux68
      cases s.spin <;> simp
  | default => exact hsome _ (by simp) he
  | obj x => exact hsome _ (by simp) he
  | other => exact hsome _ (by simp) he

/-- The dictionaries are those of one namespace. -/
def Shows68 (ds : List (Dict (List Char) (ArgVal ε α))) (t : Dict (List Char) α) : Prop :=
  ∀ d k, t.keys.Nodup → (ds.foldl updateDict d).get? k = ((t.get? k).map ArgVal.val <|> d.get? k)

theorem shows_one68 (t : Dict (List Char) α) : Shows68 [asArgs (ε := ε) t] t := by
  intro d k hn
  rw [List.foldl_cons, List.foldl_nil, updateDict_get68 _ _ (by rw [asArgs_keys68]; exact hn), asArgs_get68]

theorem shows_nil68 : Shows68 ([] : List (Dict (List Char) (ArgVal ε α))) [] := by
  intro d k _
  simp [Dict.get?]

theorem loadAmps68 (s : Session ε α β) (t : AmpArg α) (ds) (h : s.loadAmps t = .ok ds) :
    ∃ t', Amps68 s t t' ∧ Shows68 ds t' := by
  cases t with
  | omitted => cases h; exact ⟨[], rfl, shows_nil68⟩
  | given t =>
    simp only [Session.loadAmps] at h
    cases hg : s.getAmps t with
    | error x => rw [hg] at h; cases h
    | ok d => rw [hg] at h; cases h; exact ⟨d, (getAmps_iff68 s t d).1 hg, shows_one68 d⟩

theorem loadLams68 (s : Session ε α β) (t l : AmpArg α) (ds) (h : s.loadLams t l = .ok ds) :
    ∃ l', Lams68 s t l l' ∧ Shows68 ds l' := by
  have key : s.loadLams t l = match l with
      | .omitted => .ok []
      | .given l => (s.getLams l (mention68 t)).map fun l => [asArgs l] := by
    cases l <;> cases t <;> rfl
  rw [key] at h
  cases l with
  | omitted => cases h; exact ⟨[], rfl, shows_nil68⟩
  | given l =>
    simp only at h
    cases hg : s.getLams l (mention68 t) with
    | error x => rw [hg] at h; cases h
    | ok d => rw [hg] at h; cases h; exact ⟨d, (getLams_iff68 s l _ d).1 hg, shows_one68 d⟩

theorem loadExc68 (exc : Option (Dict (List Char) α)) :
    Shows68 (if truthy exc then [asArgs (ε := ε) (exc.getD [])] else []) (exc.getD []) := by
  cases exc with
  | none => exact shows_nil68
  | some d =>
    by_cases hd : d = []
    · subst hd; exact shows_nil68
    · rw [if_pos (by simp [truthy, hd])]; exact shows_one68 d

theorem loadKw68 (kw : Dict (List Char) α) :
    Shows68 (if kw.isEmpty then [] else [asArgs (ε := ε) kw]) kw := by
  cases kw with
  | nil => exact shows_nil68
  | cons p kw => exact shows_one68 _

theorem loadFunc_iff68 (s : Session ε α β) (name : List Char) (f) :
    s.loadFunc name = .ok f ↔ s.eqns.get? name = some f := by
  unfold Session.loadFunc
  cases s.eqns.get? name <;> simp

/-- The arguments of a call.  The dictionaries of the caller are passed as they are; where names coincide, keyword
arguments win over excitations, excitations over lambda amplitudes, these over amplitudes and these over the arguments
every function gets.  `naux` is passed according to `Naux68`. -/
theorem C68_arguments (s : Session ε α β) (name : List Char) (a : EriArg ε) (t l : AmpArg α)
    (exc : Option (Dict (List Char) α)) (kw : Dict (List Char) α)
    (f : Dict (List Char) (ArgVal ε α) → Except PyErr β) (all : Dict (List Char) (ArgVal ε α))
    (h : s.load name a t l exc kw = .ok (f, all)) :
    s.eqns.get? name = some f ∧ ∃ (v : ε) (t' l' : Dict (List Char) α),
      Container68 s a v ∧ Amps68 s t t' ∧ Lams68 s t l l' ∧
      (t'.keys.Nodup → l'.keys.Nodup → (exc.getD []).keys.Nodup → kw.keys.Nodup →
        (∀ k, k ≠ "naux".toList →
          all.get? k = ((((kw.get? k <|> (exc.getD []).get? k) <|> l'.get? k) <|> t'.get? k).map ArgVal.val
            <|> (standard68 s v).get? k)) ∧
        ("naux".toList ∉ kw.keys ++ (exc.getD []).keys ++ l'.keys ++ t'.keys →
          (Naux68 s a v → all.get? "naux".toList = some (.val s.naux)) ∧
          (¬ Naux68 s a v → all.get? "naux".toList = none))) := by
  unfold Session.load at h
  obtain ⟨e, he, h⟩ := ok_bind68 h
  obtain ⟨d1, h1, h⟩ := ok_bind68 h
  obtain ⟨d2, h2, h⟩ := ok_bind68 h
  obtain ⟨f', hf, h⟩ := ok_bind68 h
  obtain ⟨all', hp, h⟩ := ok_bind68 h
  cases h
  obtain ⟨v, hv, hp⟩ := ok_bind68 hp
  cases hp
  obtain ⟨c1, c2⟩ := container68 s a e v he hv
  obtain ⟨t', t1, t2⟩ := loadAmps68 s t d1 h1
  obtain ⟨l', l1, l2⟩ := loadLams68 s t l d2 h2
  refine ⟨(loadFunc_iff68 s name _).1 hf, v, t', l', c1, t1, l1, fun n1 n2 n3 n4 => ?_⟩
  have hget : ∀ (d : Dict (List Char) (ArgVal ε α)) (k : List Char),
      ((d1 ++ d2 ++ (if truthy exc then [asArgs (exc.getD [])] else [])
        ++ (if kw.isEmpty then [] else [asArgs kw])).foldl updateDict d).get? k
      = ((((kw.get? k <|> (exc.getD []).get? k) <|> l'.get? k) <|> t'.get? k).map ArgVal.val <|> d.get? k) := by
    intro d k
    rw [List.foldl_append, List.foldl_append, List.foldl_append, loadKw68 kw _ k n4, loadExc68 exc _ k n3, l2 _ k n2,
      t2 _ k n1]
    cases Dict.get? kw k <;> cases Dict.get? (exc.getD []) k <;> cases Dict.get? l' k <;> cases Dict.get? t' k <;> rfl
  have hb : ∀ k, (s.baseArgs v).get? k = (standard68 s v).get? k := fun k => rfl
  refine ⟨fun k hk => ?_, fun hno => ?_⟩
  · rw [hget, ← hb]
    congr 1
    funext _
    split
    · rw [Dict.get?_set, if_neg (fun e => hk e.symm)]
    · rfl
  · simp only [List.mem_append, not_or] at hno
    have z1 := (Dict.get?_eq_none_iff kw _).2 hno.1.1.1
    have z2 := (Dict.get?_eq_none_iff (exc.getD []) _).2 hno.1.1.2
    have z3 := (Dict.get?_eq_none_iff l' _).2 hno.1.2
    have z4 := (Dict.get?_eq_none_iff t' _).2 hno.2
    refine ⟨fun hn => ?_, fun hn => ?_⟩
    · rw [hget, z1, z2, z3, z4, if_pos (c2.2 hn), Dict.get?_set, if_pos rfl]; rfl
    · rw [hget, z1, z2, z3, z4, if_neg (fun h => hn (c2.1 h))]; rfl

/-- A call succeeds if the generated code has the function, the integrals are of a known kind and the amplitudes can
be found; without the function it raises `ModelNotImplemented`. -/
theorem C68_success (s : Session ε α β) (name : List Char) (a : EriArg ε) (t l : AmpArg α)
    (exc : Option (Dict (List Char) α)) (kw : Dict (List Char) α)
    (ha : ∃ v, Container68 s a v) (ht : ∃ t', Amps68 s t t') (hl : ∃ l', Lams68 s t l l') :
    (∀ f, s.eqns.get? name = some f → ∃ all, s.load name a t l exc kw = .ok (f, all)) ∧
    (s.eqns.get? name = none → s.load name a t l exc kw = .error .modelNotImplemented) := by
  obtain ⟨v, hv⟩ := ha
  obtain ⟨t', ht⟩ := ht
  obtain ⟨l', hl⟩ := hl
  obtain ⟨e, he, hg⟩ : ∃ e, s.loadEris a = .ok e ∧ ∃ v, s.getEris (.ofOption e) = .ok v := by
    cases a with
    | omitted =>
      refine ⟨none, rfl, v, (getEris_iff68 s .default (by simp) v).2 ?_⟩
      cases hv with
      | plain _ _ h => exact .plain _ (Or.inr rfl) h
      | fitted _ _ h h' => exact .fitted _ (Or.inr rfl) h h'
    | default =>
      have := (getEris_iff68 s .default (by simp) v).2 hv
      exact ⟨some v, by simp [Session.loadEris, this, Except.map], v, rfl⟩
    | obj x => exact ⟨some x, rfl, x, rfl⟩
    | other =>
      cases hv with
      | plain _ h => rcases h with h | h <;> cases h
      | fitted _ h => rcases h with h | h <;> cases h
  obtain ⟨d1, h1⟩ : ∃ d1, s.loadAmps t = .ok d1 := by
    cases t with
    | omitted => exact ⟨[], rfl⟩
    | given t => exact ⟨[asArgs t'], by simp [Session.loadAmps, (getAmps_iff68 s t t').2 ht, Except.map]⟩
  obtain ⟨d2, h2⟩ : ∃ d2, s.loadLams t l = .ok d2 := by
    cases l with
    | omitted => exact ⟨[], rfl⟩
    | given l =>
      have := (getLams_iff68 s l (mention68 t) l').2 hl
      cases t <;> exact ⟨[asArgs l'], by simp only [mention68] at this; simp [Session.loadLams, this, Except.map]⟩
  obtain ⟨w, hw⟩ := hg
  refine ⟨fun f hf => ?_, fun hf => ?_⟩
  · simp [Session.load, he, h1, h2, (loadFunc_iff68 s name f).2 hf, Session.pack, hw, bind, Except.bind, pure,
      Except.pure]
  · simp [Session.load, he, h1, h2, Session.loadFunc, hf, bind, Except.bind]

/-- Integrals that are not a container are rejected, whatever else is passed. -/
theorem C68_foreign_integrals (s : Session ε α β) (name : List Char) (t l : AmpArg α)
    (exc : Option (Dict (List Char) α)) (kw : Dict (List Char) α) :
    s.load name .other t l exc kw = .error .typeError := rfl

/-- The general class cannot be used with density fitting: it has no class of density fitted integrals. -/
theorem C68_general_density_fitting_fails (s : Session ε α β) (hs : s.spin = .G) (hd : s.withDf = true)
    (name : List Char) (t l : AmpArg α) (exc : Option (Dict (List Char) α)) (kw : Dict (List Char) α) :
    s.load name .default t l exc kw = .error .attributeError := by
  simp [Session.load, Session.loadEris, Session.getEris, hs, hd, bind, Except.bind, Except.map]

end

/-- Names of amplitudes of one kind. -/
def names68 (fs bs : List Rank) (cs : List CRank) : List (List Char) :=
  (fs.map fun r => r.1) ++ (bs.map fun r => r.1) ++ cs.map fun r => r.1

/-- The names of the other arguments. -/
def fixed68 : List (List Char) :=
  ["f", "v", "g", "G", "w", "space", "nocc", "nvir", "nbos", "naux", "ints"].map String.toList

theorem fixed_heads68 : ∀ k ∈ fixed68, k.head? ≠ some 't' ∧ k.head? ≠ some 'u' ∧ k.head? ≠ some 'l' ∧
    k.head? ≠ some 'r' ∧ (k.head? = some 's' → k.length = 5) := by decide

theorem ferm_head68 {ansatz : List Char} {spin : SpinType} {which : Which} {fs : List Rank}
    (h : fermionicClusterRanks ansatz spin which = .ok fs) (k : List Char) (hk : k ∈ fs.map fun r => r.1) :
    k.head? = some (symbolOf which) := by
  obtain ⟨r, hr, rfl⟩ := List.mem_map.1 hk
  obtain ⟨c, rfl⟩ := (C24_well_formed ansatz spin which fs h).2.2 r hr
  rfl

theorem boson_head68 {op : List Char} {which : Which} {bs : List Rank} (h : bosonicClusterRanks op which = .ok bs)
    (k : List Char) (hk : k ∈ bs.map fun r => r.1) :
    (which = .t → k.head? = some 's' ∧ k.length = 2) ∧ (which ≠ .t → k.head? = some 'l') := by
  obtain ⟨r, hr, rfl⟩ := List.mem_map.1 hk
  obtain ⟨n, hn, rfl⟩ := (boson_well_formed h).2 r hr
  cases which <;> rcases hn with rfl | rfl | rfl <;> decide

theorem coupling_head68 {nf nb : Nat} {which : Which} {cs : List CRank} (hw : which = .t ∨ which = .l)
    (h : couplingClusterRanks nf nb which = .ok cs) (k : List Char) (hk : k ∈ cs.map fun r => r.1) :
    (which = .t → k.head? = some 'u') ∧ (which ≠ .t → k.head? = some 'l') := by
  obtain ⟨r, hr, rfl⟩ := List.mem_map.1 hk
  rcases hw with rfl | rfl
  · rw [(C24_coupling nf nb).1] at h
    cases h
    simp only [List.mem_flatMap, List.mem_map, List.mem_range] at hr
    obtain ⟨i, hi, j, hj, rfl⟩ := hr
    simp
  · rw [(C24_coupling nf nb).2] at h
    cases h
    simp only [List.mem_flatMap, List.mem_map, List.mem_range] at hr
    obtain ⟨i, hi, j, hj, rfl⟩ := hr
    simp

/-- The names of amplitudes, lambda amplitudes, excitations and the other arguments never coincide, so that nothing
passed to a generated function replaces anything else. -/
theorem C68_names {a : Ansatz} {spin : SpinType} {which : Which} {fs bs fs' bs' es : List Rank} {cs cs' : List CRank}
    (ht : HasRanks a spin .t fs bs cs) (hl : HasRanks a spin .l fs' bs' cs')
    (hw : which = .ip ∨ which = .ea ∨ which = .ee)
    (he : fermionicClusterRanks a.fermionAnsatz spin which = .ok es) :
    ((∀ k ∈ names68 fs bs cs, k ∉ names68 fs' bs' cs' ∧ k ∉ names68 es [] [] ∧ k ∉ fixed68) ∧
    (∀ k ∈ names68 fs' bs' cs', k ∉ names68 es [] [] ∧ k ∉ fixed68) ∧
    ∀ k ∈ names68 es [] [], k ∉ fixed68) := by
  have t1 : ∀ k ∈ names68 fs bs cs, k.head? = some 't' ∨ (k.head? = some 's' ∧ k.length = 2) ∨ k.head? = some 'u' := by
    intro k hk
    simp only [names68, List.mem_append] at hk
    rcases hk with (hk | hk) | hk
    · exact Or.inl (ferm_head68 ht.f k hk)
    · exact Or.inr (Or.inl ((boson_head68 ht.b k hk).1 rfl))
    · exact Or.inr (Or.inr ((coupling_head68 (Or.inl rfl) ht.c k hk).1 rfl))
  have l1 : ∀ k ∈ names68 fs' bs' cs', k.head? = some 'l' := by
    intro k hk
    simp only [names68, List.mem_append] at hk
    rcases hk with (hk | hk) | hk
    · exact ferm_head68 hl.f k hk
    · exact (boson_head68 hl.b k hk).2 (by decide)
    · exact (coupling_head68 (Or.inr rfl) hl.c k hk).2 (by decide)
  have e1 : ∀ k ∈ names68 es [] [], k.head? = some 'r' := by
    intro k hk
    simp only [names68, List.map_nil, List.append_nil] at hk
    rw [ferm_head68 he k hk]
    rcases hw with rfl | rfl | rfl <;> rfl
  refine ⟨fun k hk => ⟨fun h => ?_, fun h => ?_, fun h => ?_⟩, fun k hk => ⟨fun h => ?_, fun h => ?_⟩, fun k hk h => ?_⟩
  · have := l1 k h
    rcases t1 k hk with h' | h' | h'
    · rw [this] at h'; exact absurd h' (by decide)
    · rw [this] at h'; exact absurd h'.1 (by decide)
    · rw [this] at h'; exact absurd h' (by decide)
  · have := e1 k h
    rcases t1 k hk with h' | h' | h'
    · rw [this] at h'; exact absurd h' (by decide)
    · rw [this] at h'; exact absurd h'.1 (by decide)
    · rw [this] at h'; exact absurd h' (by decide)
  · have := fixed_heads68 k h
    rcases t1 k hk with h' | h' | h'
    · exact this.1 h'
    · have := this.2.2.2.2 h'.1; omega
    · exact this.2.1 h'
  · have := e1 k h
    rw [l1 k hk] at this; exact absurd this (by decide)
  · exact (fixed_heads68 k h).2.2.1 (l1 k hk)
  · exact (fixed_heads68 k h).2.2.2.1 (e1 k hk)

/-- A calculation with density fitting: the containers are `false` (four index) and `true` (density fitted), the
initial amplitudes depend on the integrals. -/
def demo68 (spin : SpinType) (t : Dict (List Char) Nat) : Session Bool Nat Nat where
  spin := spin
  withDf := true
  freshEris := false
  freshCderis := true
  isCderis := id
  fock := 1
  g := 2
  G := 3
  w := 4
  space := 5
  nocc := 6
  nvir := 7
  nbos := 8
  naux := 9
  amplitudes := t
  lambdas := []
  initAmps := fun e => .ok [("t2".toList, if e then 21 else 20)]
  initLams := fun t => .ok (t.map fun p => ("l2".toList, p.2 + 100))
  eqns := [("energy".toList, fun kw => match kw.get? "t2".toList with | some (.val x) => .ok x | _ => .error .typeError)]

/-- The number of auxiliary functions is passed exactly when the integrals are density fitted: in the unrestricted
class this is false for calls that leave the integrals to the packing. -/
theorem C68_naux_fails :
    ∃ (s : Session Bool Nat Nat) (f : _) (all : Dict (List Char) (ArgVal Bool Nat)),
      s.spin = .U ∧ s.load "energy".toList .omitted (.given none) .omitted none [] = .ok (f, all) ∧
      all.get? "v".toList = some (.eris true) ∧ s.isCderis true = true ∧ all.get? "naux".toList = none :=
  ⟨demo68 .U [], _, _, rfl, rfl, by decide, rfl, by decide⟩

/-- The initial amplitudes belong to the integrals of the call: false, they are made from new integrals. -/
theorem C68_initial_integrals_fails :
    ∃ (s : Session Bool Nat Nat) (e : Bool) (t : Dict (List Char) Nat), s.amplitudes = [] ∧ s.initAmps e = .ok t ∧
      s.callAmps "energy".toList (.obj e) none ≠ s.callAmps "energy".toList (.obj e) (some t) :=
  ⟨demo68 .R [], false, _, rfl, rfl, fun h => by
    have : (Except.ok 21 : Except PyErr Nat) = .ok 20 := h
    cases this⟩

/-- With amplitudes, lambda amplitudes, excitations and a keyword of the same name: the last one wins. -/
example : ∃ f all, (demo68 .R [("t1".toList, 50), ("t2".toList, 51)]).load "energy".toList .default
      (.given (some [("t2".toList, 60)])) (.given none) (some [("r1".toList, 70)]) [("ints".toList, 80), ("w".toList, 81)]
      = .ok (f, all) ∧
    all.map Prod.fst = ["f", "v", "g", "G", "w", "space", "nocc", "nvir", "nbos", "naux", "t2", "l2", "r1", "ints"].map
      String.toList ∧
    all.get? "t2".toList = some (.val 60) ∧ all.get? "t1".toList = none ∧ all.get? "l2".toList = some (.val 160) ∧
    all.get? "w".toList = some (.val 81) ∧ all.get? "naux".toList = some (.val 9) :=
  ⟨_, _, rfl, by decide +kernel, by decide +kernel, by decide +kernel, by decide +kernel, by decide +kernel,
    by decide +kernel⟩

end Ebcc
