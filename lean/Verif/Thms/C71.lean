import Verif.Model.EomOps
import Verif.Thms.C43
import Verif.Thms.C68
import Verif.Thms.C70
import Verif.Lemmas.TransposeInv
import Mathlib.Algebra.Ring.CharZero
import Mathlib.Tactic.FieldSimp
import Mathlib.Tactic.Ring

/-!
C71: matrix-vector products of EOM calculations.
-/

namespace Ebcc

section
variable {ε V I R : Type}

/-- Passing the intermediates returned by `matvec_intermediates` gives the same product as passing none. -/
theorem C71_intermediates (s : Session ε (EomVal V I) (Dict (List Char) (EomVal V I)))
    (wrap : Dict (List Char) (EomVal V I) → I) (pack : Dict (List Char) V → Except PyErr (List R))
    (unpack : List R → Except PyErr (Dict (List Char) V)) (which : Which) (left : Bool) (eris : EriArg ε)
    (i : Dict (List Char) (EomVal V I)) (hi : s.eomInts which left eris = .ok i) (x : List R) :
    s.matvec wrap pack unpack which left eris (some i) x = s.matvec wrap pack unpack which left eris none x := by
  have h1 : s.theInts which left eris none = .ok i := by
    simp only [Session.theInts, truthy, Bool.false_eq_true, if_false, hi]
  have h2 : s.theInts which left eris (some i) = .ok i := by
    unfold Session.theInts
    split
    · rfl
    · exact hi
  unfold Session.matvec
  rw [h1, h2]

theorem asExc_get71 (T : Dict (List Char) V) (k : List Char) :
    Dict.get? (T.map fun p => (p.1, (EomVal.amp p.2 : EomVal V I))) k = (T.get? k).map EomVal.amp := by
  induction T with
  | nil => rfl
  | cons p T ih =>
    obtain ⟨a, b⟩ := p
    simp only [List.map_cons, Dict.get?, ih]
    split <;> rfl

/-- What a successful product is: the generated function named after the type of excitation, the one with `l` for the
left-hand side, is called with the unpacked vector, the intermediates, the stored amplitudes (the initial ones if
none are stored) and the standard arguments; the returned namespace is renamed and packed. -/
theorem C71_arguments (s : Session ε (EomVal V I) (Dict (List Char) (EomVal V I)))
    (wrap : Dict (List Char) (EomVal V I) → I) (pack : Dict (List Char) V → Except PyErr (List R))
    (unpack : List R → Except PyErr (Dict (List Char) V)) (which : Which) (left : Bool) (eris : EriArg ε)
    (ints : Option (Dict (List Char) (EomVal V I))) (x y : List R)
    (h : s.matvec wrap pack unpack which left eris ints x = .ok y) :
    ∃ (f : _) (all : Dict (List Char) (ArgVal ε (EomVal V I))) (i t res : Dict (List Char) (EomVal V I))
      (T : Dict (List Char) V) (v : ε),
      s.eqns.get? ("hbar_".toList ++ (if left then "lmatvec_" else "matvec_").toList ++ excitationType which) = some f ∧
      (ints = some i ∧ i ≠ [] ∨ (ints = none ∨ ints = some []) ∧ s.eomInts which left eris = .ok i) ∧
      unpack x = .ok T ∧ Container68 s eris v ∧
      (s.amplitudes ≠ [] ∧ t = s.amplitudes ∨ s.amplitudes = [] ∧ Initial68 s t) ∧
      f all = .ok res ∧ pack (ampsOf (renameNew res)) = .ok y ∧
      (t.keys.Nodup → T.keys.Nodup → all.get? "ints".toList = some (.val (.obj (wrap i))) ∧
        ∀ k, k ≠ "naux".toList → k ≠ "ints".toList →
          all.get? k = (((T.get? k).map EomVal.amp <|> t.get? k).map ArgVal.val <|> (standard68 s v).get? k)) := by
  unfold Session.matvec at h
  obtain ⟨i, h1, h⟩ := ok_bind68 h
  obtain ⟨T, h2, h⟩ := ok_bind68 h
  obtain ⟨T1, h3, h⟩ := ok_bind68 h
  unfold Session.eomAction at h3
  obtain ⟨⟨f, all⟩, h4, h3⟩ := ok_bind68 h3
  simp only at h3
  obtain ⟨res, h5, h3⟩ := ok_bind68 h3
  cases h3
  obtain ⟨c1, v, t, l, c2, c3, c4, c5⟩ := C68_arguments s _ _ _ _ _ _ f all h4
  refine ⟨f, all, i, t, res, T, v, ?_, ?_, h2, c2, ?_, h5, h, ?_⟩
  · rw [← c1]
    cases left <;> cases which <;> rfl
  · unfold Session.theInts at h1
    split at h1
    · rename_i ht
      cases h1
      cases ints with
      | none => cases ht
      | some d => exact Or.inl ⟨rfl, by simpa [truthy] using ht⟩
    · rename_i ht
      refine Or.inr ⟨?_, h1⟩
      cases ints with
      | none => exact Or.inl rfl
      | some d => exact Or.inr (by simpa [truthy] using ht)
  · cases c3 with
    | given _ hne => exact Or.inl ⟨hne, rfl⟩
    | stored _ ht hne => exact Or.inl ⟨hne, rfl⟩
    | initial _ _ ht hne hd => exact Or.inr ⟨hne, hd⟩
  · intro n1 n2
    have hl : l = [] := c4
    subst hl
    obtain ⟨d1, _⟩ := c5 n1 (by simp [Dict.keys]) (by simpa [Dict.keys, Function.comp_def] using n2)
      (by simp [Dict.keys])
    refine ⟨?_, ?_⟩
    · rw [d1 _ (by decide)]
      rfl
    · intro k hk1 hk2
      rw [d1 k hk1, Option.getD_some, asExc_get71]
      have : Dict.get? [("ints".toList, (EomVal.obj (wrap i) : EomVal V I))] k = none := by
        show (if "ints".toList = k then _ else Dict.get? [] k) = none
        rw [if_neg (Ne.symm hk2)]
        rfl
      rw [this]
      cases T.get? k <;> simp [Dict.get?]

/-- The arguments of the function for the intermediates: the integrals that were given, the amplitudes and the standard
arguments. -/
theorem C71_intermediate_arguments (s : Session ε (EomVal V I) (Dict (List Char) (EomVal V I))) (which : Which)
    (left : Bool) (eris : EriArg ε) (i : Dict (List Char) (EomVal V I)) (h : s.eomInts which left eris = .ok i) :
    ∃ (f : _) (all : Dict (List Char) (ArgVal ε (EomVal V I))) (t : Dict (List Char) (EomVal V I)) (v : ε),
      s.eqns.get? ("hbar_".toList ++ (if left then "lmatvec_" else "matvec_").toList ++ excitationType which ++
        "_intermediates".toList) = some f ∧ Container68 s eris v ∧
      (s.amplitudes ≠ [] ∧ t = s.amplitudes ∨ s.amplitudes = [] ∧ Initial68 s t) ∧
      f all = .ok i ∧
      (t.keys.Nodup → ∀ k, k ≠ "naux".toList →
        all.get? k = ((t.get? k).map ArgVal.val <|> (standard68 s v).get? k)) := by
  unfold Session.eomInts at h
  obtain ⟨⟨f, all⟩, h4, h⟩ := ok_bind68 h
  simp only at h
  obtain ⟨c1, v, t, l, c2, c3, c4, c5⟩ := C68_arguments s _ _ _ _ _ _ f all h4
  refine ⟨f, all, t, v, ?_, c2, ?_, h, ?_⟩
  · rw [← c1]
    cases left <;> cases which <;> rfl
  · cases c3 with
    | given _ hne => exact Or.inl ⟨hne, rfl⟩
    | stored _ ht hne => exact Or.inl ⟨hne, rfl⟩
    | initial _ _ ht hne hd => exact Or.inr ⟨hne, hd⟩
  · intro n1 k hk
    have hl : l = [] := c4
    subst hl
    obtain ⟨d1, _⟩ := c5 n1 (by simp [Dict.keys]) (by simp [Dict.keys]) (by simp [Dict.keys])
    rw [d1 k hk]
    simp [Dict.get?]

end

/-! ### Eigenvectors -/

section
variable {ε I R : Type}

theorem packItems_map71 {X : Type} (items : List (Item R X)) (g : X → X) (f : R → R) (T T' : Dict (List Char) X)
    (hT : ∀ it ∈ items, T'.get? it.name = (T.get? it.name).map g)
    (h : ∀ it ∈ items, ∀ x v, T.get? it.name = some x → it.pack x = .ok v → it.pack (g x) = .ok (v.map f))
    {vs : List (List R)} (hv : packItems items T = .ok vs) :
    packItems items T' = .ok (vs.map (List.map f)) := by
  unfold packItems at hv ⊢
  induction items generalizing vs with
  | nil => cases hv; rfl
  | cons it items ih =>
    rw [List.mapM_cons] at hv ⊢
    obtain ⟨v, h1, hv⟩ := ok_bind68 hv
    obtain ⟨ws, h2, hv⟩ := ok_bind68 hv
    cases hv
    obtain ⟨x, h3, h4⟩ := ok_bind68 h1
    have hx : T.get? it.name = some x := by
      unfold Dict.getItem at h3
      cases hg : T.get? it.name with
      | none => rw [hg] at h3; cases h3
      | some z => rw [hg] at h3; cases h3; rfl
    have h5 : T'.get? it.name = some (g x) := by rw [hT it List.mem_cons_self, hx]; rfl
    have h6 := h it List.mem_cons_self x v hx h4
    have h7 := ih (fun it hit => hT it (List.mem_cons_of_mem _ hit))
      (fun it hit => h it (List.mem_cons_of_mem _ hit)) h2
    simp only [Dict.getItem, h5, bind, Except.bind, h6, pure, Except.pure] at h7 ⊢
    rw [h7]
    rfl

/-- The amplitudes multiplied by a number. -/
def scaled71 [Mul R] (c : R) (T : Dict (List Char) (NDArray R)) : Dict (List Char) (NDArray R) :=
  T.map fun p => (p.1, p.2.map fun x => c * x)

theorem scaled_get71 [Mul R] (c : R) (T : Dict (List Char) (NDArray R)) (k : List Char) :
    (scaled71 c T).get? k = (T.get? k).map fun t => t.map fun x => c * x := by
  unfold scaled71
  induction T with
  | nil => rfl
  | cons p T ih =>
    obtain ⟨a, b⟩ := p
    simp only [List.map_cons, Dict.get?, ih]
    split <;> rfl

/-- A vector is an eigenvector of the product exactly if the amplitudes are an eigenvector of the generated function.
Any way to pack. -/
theorem eigen71 [Mul R] (fs : List Rank) (pack : Dict (List Char) (NDArray R) → Except PyErr (List R))
    (Good : Dict (List Char) (NDArray R) → Prop)
    (hinj : ∀ T T', Good T → Good T' → pack T = pack T' → ∀ r ∈ fs, T.get? r.1 = T'.get? r.1)
    (hcongr : ∀ T T', (∀ r ∈ fs, T.get? r.1 = T'.get? r.1) → pack T = pack T')
    (hscale : ∀ c T x, Good T → pack T = .ok x → Good (scaled71 c T) ∧ pack (scaled71 c T) = .ok (x.map fun y => c * y))
    (c : R) (T T1 : Dict (List Char) (NDArray R)) (x : List R) (hT : Good T) (hT1 : Good T1) (hx : pack T = .ok x) :
    pack T1 = .ok (x.map fun y => c * y) ↔
      ∀ r ∈ fs, T1.get? r.1 = (T.get? r.1).map fun t => t.map fun z => c * z := by
  obtain ⟨g, e⟩ := hscale c T x hT hx
  constructor
  · intro h r hr
    rw [← scaled_get71]
    exact hinj T1 (scaled71 c T) hT1 g (by rw [h, e]) r hr
  · intro h
    rw [hcongr T1 (scaled71 c T) (by intro r hr; rw [scaled_get71]; exact h r hr), e]

end

/-- Restricted: the eigenvectors of the product are the packed eigenvectors of the generated function. -/
theorem C71_restricted_eigenvectors {ε I R : Type} [CommRing R]
    (s : Session ε (EomVal (NDArray R) I) (Dict (List Char) (EomVal (NDArray R) I)))
    (wrap : Dict (List Char) (EomVal (NDArray R) I) → I) {a : Ansatz} {which : Which} {fs : List Rank}
    (h : HasRanks a .R which fs [] []) (hne : fs ≠ []) (hnd : (fs.map fun r => r.1).Nodup) (space : Space) (left : Bool)
    (eris : EriArg ε) (ints : Option (Dict (List Char) (EomVal (NDArray R) I)))
    (i : Dict (List Char) (EomVal (NDArray R) I)) (hi : s.theInts which left eris ints = .ok i)
    (x : List R) (hx : x.length = rEomLength space fs)
    (T1 : Dict (List Char) (NDArray R)) (hT1 : RBlocks space fs T1)
    (hact : ∀ T, rVectorToEom a which space x = .ok T → s.eomAction wrap which left eris i T = .ok T1) (c : R) :
    ∃ T, rVectorToEom a which space x = .ok T ∧
      (s.matvec wrap (rEomToVector a which) (rVectorToEom a which space) which left eris ints x
          = .ok (x.map fun y => c * y) ↔
        ∀ r ∈ fs, T1.get? r.1 = (T.get? r.1).map fun t => t.map fun z => c * z) := by
  obtain ⟨T, h1, _, h3, h4⟩ := C43_restricted_vectors h hne hnd space x hx
  refine ⟨T, h1, ?_⟩
  have hm : s.matvec wrap (rEomToVector a which) (rVectorToEom a which space) which left eris ints x
      = rEomToVector a which T1 := by
    unfold Session.matvec
    rw [hi]
    simp only [bind, Except.bind, h1, hact T h1]
  rw [hm]
  have hv : ∀ T : Dict (List Char) (NDArray R), rEomToVector a which T
      = (packItems (itemsOf R (layout space 0 fs [] [])) T).bind concatenate := by
    intro T
    rw [rEomToVector_eq h, amplitudesToVector_eq h space 0]
    rfl
  refine eigen71 fs (rEomToVector a which) (RBlocks space fs) ?_ ?_ ?_ c T T1 x h3 hT1 h4
  · intro T T' g g' e r hr
    obtain ⟨y, U, p1, _, p3, _, p5⟩ := C43_restricted_amplitudes h hne hnd space T g
    obtain ⟨y', U', q1, _, q3, _, q5⟩ := C43_restricted_amplitudes h hne hnd space T' g'
    rw [p1, q1] at e
    cases e
    rw [p3] at q3
    cases q3
    rw [← p5 r hr, q5 r hr]
  · intro T T' e
    rw [hv, hv]
    congr 1
    apply packItems_congr
    intro it hit
    rw [layout_fermions] at hit
    simp only [itemsOf, List.map_map, List.mem_map, Function.comp] at hit
    obtain ⟨r, hr, rfl⟩ := hit
    exact e r hr
  · intro c T x g e
    refine ⟨fun r hr => ?_, ?_⟩
    · obtain ⟨t, t1, t2, t3⟩ := g r hr
      exact ⟨t.map fun z => c * z, by rw [scaled_get71, t1]; rfl, by simpa [NDArray.WF, NDArray.map] using t2, t3⟩
    · rw [hv] at e ⊢
      cases hp : packItems (itemsOf R (layout space 0 fs [] [])) T with
      | error e' => rw [hp] at e; cases e
      | ok vs =>
        rw [hp] at e
        rw [packItems_map71 _ (fun t => t.map fun z => c * z) (fun z => c * z) T (scaled71 c T)
          (fun it _ => scaled_get71 c T it.name) (by
            intro it hit x v _ hpk
            simp only [itemsOf, List.mem_map] at hit
            obtain ⟨p, _, rfl⟩ := hit
            cases hpk
            rfl) hp]
        simp only [Except.bind, concatenate] at e ⊢
        cases vs with
        | nil => cases e
        | cons v vs =>
          cases e
          simp [List.map_flatten]

theorem good_scaled71 {R : Type} [CommRing R] {space : Space} {key : List Char} {t : NDArray R} (c : R)
    (h : GoodGBlock space key t) : GoodGBlock space key (t.map fun z => c * z) := by
  obtain ⟨h1, h2, h3⟩ := h
  refine ⟨by simpa [NDArray.WF, NDArray.map] using h1, h2, ?_⟩
  intro i j k hij hi hj idx hidx
  have := h3 i j k hij hi hj idx hidx
  rw [map_get t (fun z => c * z) (mul_zero c), map_get t (fun z => c * z) (mul_zero c), this]
  ring

/-- General: the same. -/
theorem C71_general_eigenvectors {ε I R : Type} [CommRing R] (h2 : ∀ x : R, x + x = 0 → x = 0)
    (s : Session ε (EomVal (NDArray R) I) (Dict (List Char) (EomVal (NDArray R) I)))
    (wrap : Dict (List Char) (EomVal (NDArray R) I) → I) {a : Ansatz} {which : Which} {fs : List Rank}
    (h : HasRanks a .G which fs [] []) (hne : fs ≠ []) (hnd : (fs.map fun r => r.1).Nodup) (space : Space) (left : Bool)
    (eris : EriArg ε) (ints : Option (Dict (List Char) (EomVal (NDArray R) I)))
    (i : Dict (List Char) (EomVal (NDArray R) I)) (hi : s.theInts which left eris ints = .ok i)
    (x : List R) (hx : x.length = gEomLength space fs)
    (T1 : Dict (List Char) (NDArray R)) (hT1 : GBlocks space fs T1)
    (hact : ∀ T, gVectorToEom a which space x = .ok T → s.eomAction wrap which left eris i T = .ok T1) (c : R) :
    ∃ T, gVectorToEom a which space x = .ok T ∧
      (s.matvec wrap (gEomToVector a which) (gVectorToEom a which space) which left eris ints x
          = .ok (x.map fun y => c * y) ↔
        ∀ r ∈ fs, T1.get? r.1 = (T.get? r.1).map fun t => t.map fun z => c * z) := by
  obtain ⟨T, h1, _, h3, h4⟩ := C43_general_vectors h2 h hne hnd space x hx
  refine ⟨T, h1, ?_⟩
  have hm : s.matvec wrap (gEomToVector a which) (gVectorToEom a which space) which left eris ints x
      = gEomToVector a which T1 := by
    unfold Session.matvec
    rw [hi]
    simp only [bind, Except.bind, h1, hact T h1]
  rw [hm]
  refine eigen71 fs (gEomToVector a which) (GBlocks space fs) ?_ ?_ ?_ c T T1 x h3 hT1 h4
  · intro T T' g g' e r hr
    obtain ⟨y, U, p1, _, p3, _, p5⟩ := C43_general_amplitudes h2 h hne hnd space T g
    obtain ⟨y', U', q1, _, q3, _, q5⟩ := C43_general_amplitudes h2 h hne hnd space T' g'
    rw [p1, q1] at e
    cases e
    rw [p3] at q3
    cases q3
    rw [← p5 r hr, q5 r hr]
  · intro T T' e
    rw [gToVector_eq h hne space, gToVector_eq h hne space]
    congr 1
    apply packItems_congr
    intro it hit
    obtain ⟨r, hr, rfl⟩ := List.mem_map.1 hit
    exact e r hr
  · intro c T x g e
    refine ⟨fun r hr => ?_, ?_⟩
    · obtain ⟨t, t1, t2⟩ := g r hr
      exact ⟨t.map fun z => c * z, by rw [scaled_get71, t1]; rfl, good_scaled71 c t2⟩
    · rw [gToVector_eq h hne space] at e ⊢
      cases hp : packItems (fs.map (gItem R space)) T with
      | error e' => rw [hp] at e; cases e
      | ok vs =>
        rw [hp] at e
        cases e
        rw [packItems_map71 _ (fun t => t.map fun z => c * z) (fun z => c * z) T (scaled71 c T)
          (fun it _ => scaled_get71 c T it.name) (by
            intro it hit x v hx hpk
            obtain ⟨r, hr, rfl⟩ := List.mem_map.1 hit
            obtain ⟨t, t1, t2⟩ := g r hr
            have hx : T.get? r.1 = some x := hx
            rw [t1] at hx
            cases hx
            simp only [gItem] at hpk ⊢
            obtain ⟨u, u1, u2⟩ := ok_bind68 hpk
            cases u2
            rw [compress_map r.2.1 x false (fun z => c * z) (mul_zero c) ⟨szOf space, t2.2.1⟩ u1]
            rfl) hp]
        simp [Except.map, List.map_flatten]

/-! ### Unrestricted -/

section
variable {R : Type} [Field R]

theorem divideParts_scale71 (l : List (Nat × Nat)) (c : R) (v : List R) :
    divideParts l (v.map fun y => c * y) = (divideParts l v).map fun y => c * y := by
  induction l generalizing v with
  | nil => rfl
  | cons p l ih =>
    obtain ⟨m, f⟩ := p
    simp only [divideParts, ← List.map_take, ← List.map_drop, ih, List.map_append, List.map_map, Function.comp_def,
      mul_div_assoc]

theorem divideParts_inj71 (l : List (Nat × Nat)) (hl : ∀ p ∈ l, (p.2 : R) ≠ 0) (v w : List R)
    (hv : v.length = (l.map Prod.fst).sum) (hw : w.length = (l.map Prod.fst).sum)
    (h : divideParts l v = divideParts l w) : v = w := by
  induction l generalizing v w with
  | nil =>
    simp only [List.map_nil, List.sum_nil, List.length_eq_zero_iff] at hv hw
    rw [hv, hw]
  | cons p l ih =>
    obtain ⟨m, f⟩ := p
    simp only [List.map_cons, List.sum_cons] at hv hw
    simp only [divideParts] at h
    obtain ⟨h1, h2⟩ := List.append_inj h (by simp [hv, hw])
    have h3 := ih (fun q hq => hl q (List.mem_cons_of_mem _ hq)) _ _ (by rw [List.length_drop]; omega)
      (by rw [List.length_drop]; omega) h2
    have h4 : v.take m = w.take m := by
      refine List.map_injective_iff.2 ?_ h1
      intro a b hab
      exact (div_left_inj' (hl (m, f) List.mem_cons_self)).1 hab
    rw [← List.take_append_drop m v, ← List.take_append_drop m w, h3, h4]

/-- The block of a rank and spin combination. -/
def block71 (T : Dict (List Char) (UVal R)) (r : Rank) (s : List Char) : Option (NDArray R) :=
  match T.get? r.1 with
  | some (.spins d) => d.get? s
  | _ => none

theorem block_some71 {which : Which} {sa sb : Space} {fs : List Rank} {T : Dict (List Char) (UVal R)}
    (h : UEomBlocks which sa sb fs T) (r : Rank) (hr : r ∈ fs) (s : List Char) (hs : s ∈ eomSpins which r.2.2) :
    ∃ x, block71 T r s = some x ∧ GoodBlock sa sb r.2.1 s x := by
  obtain ⟨d, d1, d2⟩ := h r hr
  obtain ⟨x, x1, x2⟩ := d2 s hs
  exact ⟨x, by rw [block71, d1]; exact x1, x2⟩

/-- Amplitudes with given blocks. -/
def ofBlocks71 (which : Which) (fs : List Rank) (b : Rank → List Char → NDArray R) : Dict (List Char) (UVal R) :=
  fs.map fun r => (r.1, UVal.spins ((eomSpins which r.2.2).map fun s => (s, b r s)))

theorem ofBlocks_get71 (which : Which) (fs : List Rank) (hnd : (fs.map fun r => r.1).Nodup)
    (b : Rank → List Char → NDArray R) (r : Rank) (hr : r ∈ fs) :
    (ofBlocks71 which fs b).get? r.1 = some (.spins ((eomSpins which r.2.2).map fun s => (s, b r s))) ∧
      ∀ s ∈ eomSpins which r.2.2, Dict.get? ((eomSpins which r.2.2).map fun s => (s, b r s)) s = some (b r s) :=
  ⟨get?_map_mem fs (fun r => r.1) _ hnd r hr, fun s hs =>
    get?_map_mem (eomSpins which r.2.2) (fun s => s) _ (by simpa using eomSpins_nodup which r.2.2) s hs⟩

theorem good_block_scaled71 {sa sb : Space} {key s : List Char} {t : NDArray R} (c : R)
    (h : GoodBlock sa sb key s t) : GoodBlock sa sb key s (t.map fun z => c * z) := by
  obtain ⟨h1, h2, h3⟩ := h
  refine ⟨by simpa [NDArray.WF, NDArray.map] using h1, h2, ?_⟩
  intro i j k hij hi hj idx hidx
  have := h3 i j k hij hi hj idx hidx
  rw [map_get t (fun z => c * z) (mul_zero c), map_get t (fun z => c * z) (mul_zero c), this]
  ring

/-- Two amplitude sets have the same blocks. -/
def SameBlocks71 (which : Which) (fs : List Rank) (T T' : Dict (List Char) (UVal R)) : Prop :=
  ∀ r ∈ fs, ∀ s ∈ eomSpins which r.2.2, block71 T r s = block71 T' r s

theorem pack_congr71 {a : Ansatz} {which : Which} {fs : List Rank} (hw : IsEom which)
    (h : HasRanks a .U which fs [] []) (hne : fs ≠ []) (sa sb : Space) (T T' : Dict (List Char) (UVal R))
    (hT : UEomBlocks which sa sb fs T) (hT' : UEomBlocks which sa sb fs T') (he : SameBlocks71 which fs T T') :
    uEomToVector a which T = uEomToVector a which T' := by
  rw [uEomToVector_eq h hne (fun r _ => eomSpins_nonempty hw r.2.2) sa sb [],
    uEomToVector_eq h hne (fun r _ => eomSpins_nonempty hw r.2.2) sa sb []]
  congr 1
  unfold packItems
  apply mapM_congr_mem
  intro it hit
  obtain ⟨r, hr, rfl⟩ := List.mem_map.1 hit
  obtain ⟨d, d1, _⟩ := hT r hr
  obtain ⟨d', d1', _⟩ := hT' r hr
  have e1 : T.getItem (eomItem R which sa sb [] r).name = .ok (.spins d) := by
    simp only [Dict.getItem, eomItem, d1]
  have e2 : T'.getItem (eomItem R which sa sb [] r).name = .ok (.spins d') := by
    simp only [Dict.getItem, eomItem, d1']
  rw [e1, e2]
  simp only [bind, Except.bind, eomItem_pack]
  congr 1
  apply packItems_congr
  intro it' hit'
  obtain ⟨s, hs, rfl⟩ := List.mem_map.1 hit'
  have := he r hr s hs
  rw [block71, block71, d1, d1'] at this
  exact this

theorem pack_scale71 {a : Ansatz} {which : Which} {fs : List Rank} (hw : IsEom which)
    (h : HasRanks a .U which fs [] []) (hne : fs ≠ []) (hq : which = .ee ∨ ∀ r ∈ fs, r.2.2 ≤ 3) (sa sb : Space) (c : R)
    (T T' : Dict (List Char) (UVal R)) (hT : UEomBlocks which sa sb fs T) (hT' : UEomBlocks which sa sb fs T')
    (he : ∀ r ∈ fs, ∀ s ∈ eomSpins which r.2.2, block71 T' r s = (block71 T r s).map fun t => t.map fun z => c * z)
    (x : List R) (hx : uEomToVector a which T = .ok x) :
    uEomToVector a which T' = .ok (x.map fun z => c * z) := by
  obtain ⟨sizes, hsz, hsizes⟩ := uSizes_ok sa sb
  let g : UVal R → UVal R := fun v => match v with
    | .spins d => .spins (scaled71 c d)
    | .array t => .array t
  let S : Dict (List Char) (UVal R) := T.map fun p => (p.1, g p.2)
  have hS : ∀ k, S.get? k = (T.get? k).map g := by
    intro k
    show Dict.get? (T.map fun p => (p.1, g p.2)) k = _
    clear hx hT he
    induction T with
    | nil => rfl
    | cons p T ih =>
      obtain ⟨u, v⟩ := p
      simp only [List.map_cons, Dict.get?, ih]
      split <;> rfl
  have hSg : UEomBlocks which sa sb fs S := by
    intro r hr
    obtain ⟨d, d1, d2⟩ := hT r hr
    refine ⟨scaled71 c d, by rw [hS, d1]; rfl, fun s hs => ?_⟩
    obtain ⟨t, t1, t2⟩ := d2 s hs
    exact ⟨t.map fun z => c * z, by rw [scaled_get71, t1]; rfl, good_block_scaled71 c t2⟩
  rw [pack_congr71 hw h hne sa sb T' S hT' hSg (by
    intro r hr s hs
    rw [he r hr s hs]
    obtain ⟨d, d1, d2⟩ := hT r hr
    rw [block71, block71, hS, d1]
    exact (scaled_get71 c d s).symm)]
  rw [uEomToVector_eq h hne (fun r _ => eomSpins_nonempty hw r.2.2) sa sb sizes] at hx ⊢
  cases hp : packItems (fs.map (eomItem R which sa sb sizes)) T with
  | error e' => rw [hp] at hx; cases hx
  | ok vs =>
    rw [hp] at hx
    cases hx
    rw [packItems_map71 _ g (fun z => c * z) T S (fun it _ => hS it.name) (by
      intro it hit x v hx hpk
      obtain ⟨r, hr, rfl⟩ := List.mem_map.1 hit
      obtain ⟨d, d1, d2⟩ := hT r hr
      have hx : T.get? r.1 = some x := hx
      rw [d1] at hx
      cases hx
      rw [eomItem_pack] at hpk
      show (eomItem R which sa sb sizes r).pack (.spins (scaled71 c d)) = _
      rw [eomItem_pack]
      cases hp' : packItems (eomSpinItems R which sa sb sizes r) d with
      | error e' => rw [hp'] at hpk; cases hpk
      | ok us =>
        rw [hp'] at hpk
        cases hpk
        rw [packItems_map71 _ (fun t => t.map fun z => c * z) (fun z => c * z) d (scaled71 c d)
          (fun it _ => scaled_get71 c d it.name) (by
            intro it' hit' y v hy hpk
            obtain ⟨s, hs, rfl⟩ := List.mem_map.1 hit'
            obtain ⟨t, t1, t2⟩ := d2 s hs
            have hy : d.get? s = some y := hy
            rw [t1] at hy
            cases hy
            have hk := (eom_keySpin hw h.f r hr (hq.imp id fun h3 => h3 r hr) s hs).1
            obtain ⟨sub, osizes, c1, c2, g, p1, p2, p3⟩ := combine_two r.2.1 s sizes (sz2 sa sb) hk.len hk.ne hk.card
              fun p hp => hsizes p.1 p.2 (hk.key _ (List.of_mem_zip hp).1) (hk.spin _ (List.of_mem_zip hp).2)
            let sz : Char → Nat := fun c => (osizes.get? c).getD 0
            have hshape : sub.map sz = (r.2.1.zip s).map (sz2 sa sb) := by
              rw [p1, List.map_map]
              exact List.map_congr_left fun p hp => by simp only [Function.comp, sz, p3 p hp]; rfl
            have hc : Consistent sub y.shape := ⟨sz, by rw [t2.2.1, hshape]⟩
            simp only [dividedItem, spinItem, c2, bind, Except.bind] at hpk ⊢
            cases hcc : compressAxes sub y false with
            | error e' => rw [hcc] at hpk; cases hpk
            | ok u =>
              rw [hcc] at hpk
              cases hpk
              rw [compress_map sub y false (fun z => c * z) (mul_zero c) hc hcc]
              rfl) hp']
        simp [Except.map, List.map_flatten]) hp]
    simp [Except.map, List.map_flatten]

theorem sameSpin_pos71 {which : Which} {fs : List Rank} {ansatz : List Char} (hw : IsEom which)
    (h : fermionicClusterRanks ansatz .U which = .ok fs) (hq : which = .ee ∨ ∀ r ∈ fs, r.2.2 ≤ 3)
    (r : Rank) (hr : r ∈ fs) (s : List Char) (hs : s ∈ eomSpins which r.2.2) : sameSpin r.2.2 s ≠ 0 := by
  obtain ⟨hk, h0⟩ := eom_keySpin hw h r hr (hq.imp id fun h3 => h3 r hr) s hs
  obtain ⟨c, t, ht⟩ := List.exists_cons_of_ne_nil h0
  have hc : c ∈ s.take r.2.2 := by rw [ht]; exact List.mem_cons_self
  have hpos : 0 < (s.take r.2.2).count c := List.count_pos_iff.2 hc
  unfold sameSpin
  rcases hk.spin c (List.mem_of_mem_take hc) with rfl | rfl
  · exact (lt_of_lt_of_le hpos (le_max_left _ _)).ne'
  · exact (lt_of_lt_of_le hpos (le_max_right _ _)).ne'

/-- Unrestricted: a vector is an eigenvector of the product exactly if every block of the result of the generated
function is the eigenvalue times the block given to it times the larger of the numbers of alpha and beta indices.
The full property would be without this last factor, which comes from the unpacking (C43). -/
theorem C71_unrestricted_eigenvectors_partial [CharZero R] {ε I : Type}
    (s : Session ε (EomVal (UVal R) I) (Dict (List Char) (EomVal (UVal R) I)))
    (wrap : Dict (List Char) (EomVal (UVal R) I) → I) {a : Ansatz} {which : Which} {fs : List Rank}
    (hw : IsEom which) (h : HasRanks a .U which fs [] []) (hne : fs ≠ []) (hnd : (fs.map fun r => r.1).Nodup)
    (hq : which = .ee ∨ ∀ r ∈ fs, r.2.2 ≤ 3) (sa sb : Space) (left : Bool)
    (eris : EriArg ε) (ints : Option (Dict (List Char) (EomVal (UVal R) I)))
    (i : Dict (List Char) (EomVal (UVal R) I)) (hi : s.theInts which left eris ints = .ok i)
    (x : List R) (hx : x.length = uEomLength which sa sb fs)
    (T1 : Dict (List Char) (UVal R)) (hT1 : UEomBlocks which sa sb fs T1)
    (hact : ∀ T, uVectorToEom a which sa sb x = .ok T → s.eomAction wrap which left eris i T = .ok T1) (c : R) :
    ∃ T, uVectorToEom a which sa sb x = .ok T ∧ UEomBlocks which sa sb fs T ∧
      (s.matvec wrap (uEomToVector a which) (uVectorToEom a which sa sb) which left eris ints x
          = .ok (x.map fun y => c * y) ↔
        ∀ r ∈ fs, ∀ sp ∈ eomSpins which r.2.2,
          block71 T1 r sp = (block71 T r sp).map fun t => t.map fun z => c * sameSpin r.2.2 sp * z) := by
  have h2 : ∀ x : R, x + x = 0 → x = 0 := fun x hx => by
    have : (2 : R) * x = 0 := by rw [two_mul]; exact hx
    exact (mul_eq_zero.1 this).resolve_left two_ne_zero
  obtain ⟨T, h1, _, h3, h4⟩ := C43_unrestricted_vectors_partial h2 hw h hne hnd hq sa sb x hx
  refine ⟨T, h1, h3, ?_⟩
  have hm : s.matvec wrap (uEomToVector a which) (uVectorToEom a which sa sb) which left eris ints x
      = uEomToVector a which T1 := by
    unfold Session.matvec
    rw [hi]
    simp only [bind, Except.bind, h1, hact T h1]
  rw [hm]
  have hf : ∀ r ∈ fs, ∀ sp ∈ eomSpins which r.2.2, (sameSpin r.2.2 sp : R) ≠ 0 := fun r hr sp hsp =>
    Nat.cast_ne_zero.2 (sameSpin_pos71 hw h.f hq r hr sp hsp)
  -- the blocks times the factors
  let b : Rank → List Char → NDArray R := fun r sp =>
    ((block71 T r sp).getD ⟨[], []⟩).map fun z => c * sameSpin r.2.2 sp * z
  let T2 := ofBlocks71 which fs b
  have b2 : ∀ r ∈ fs, ∀ sp ∈ eomSpins which r.2.2,
      block71 T2 r sp = (block71 T r sp).map fun t => t.map fun z => c * sameSpin r.2.2 sp * z := by
    intro r hr sp hsp
    obtain ⟨g1, g2⟩ := ofBlocks_get71 which fs hnd b r hr
    obtain ⟨t, t1, _⟩ := block_some71 h3 r hr sp hsp
    rw [block71, g1]
    show Dict.get? _ sp = _
    rw [g2 sp hsp]
    simp only [b, t1]
    rfl
  have g2 : UEomBlocks which sa sb fs T2 := by
    intro r hr
    obtain ⟨g1, g2⟩ := ofBlocks_get71 which fs hnd b r hr
    refine ⟨_, g1, fun sp hsp => ⟨_, g2 sp hsp, ?_⟩⟩
    obtain ⟨t, t1, t2⟩ := block_some71 h3 r hr sp hsp
    simp only [b, t1]
    exact good_block_scaled71 _ t2
  obtain ⟨y, U, p1, p2, p3, _, p5⟩ := C43_unrestricted_amplitudes_partial h2 hw h hne hnd hq sa sb T2 g2
  obtain ⟨U', q1, _, q3, q4⟩ := C43_unrestricted_vectors_partial h2 hw h hne hnd hq sa sb y p2
  rw [p3] at q1
  cases q1
  have hU : ∀ r ∈ fs, ∀ sp ∈ eomSpins which r.2.2,
      block71 U r sp = (block71 T r sp).map fun t => t.map fun z => c * z := by
    intro r hr sp hsp
    obtain ⟨d', d, e1, e2, _, e4⟩ := p5 r hr
    obtain ⟨z, z1, z2⟩ := e4 sp hsp
    have k := b2 r hr sp hsp
    obtain ⟨t, t1, _⟩ := block_some71 h3 r hr sp hsp
    rw [t1] at k ⊢
    rw [block71, e2] at k
    have k : d.get? sp = _ := k
    rw [z1] at k
    cases k
    rw [block71, e1]
    show d'.get? sp = _
    rw [z2]
    simp only [Option.map_some, NDArray.map, List.map_map, Option.some.injEq, NDArray.mk.injEq, true_and]
    apply List.map_congr_left
    intro w _
    have := hf r hr sp hsp
    simp only [Function.comp]
    field_simp
  have hy : y = x.map fun z => c * z := by
    have e := pack_scale71 hw h hne hq sa sb c T U h3 q3 hU _ h4
    rw [q4, ← divideParts_scale71] at e
    refine divideParts_inj71 (eomBlocks which sa sb fs) ?_ _ _ p2 (by rw [List.length_map]; exact hx) (Except.ok.inj e)
    intro p hp
    obtain ⟨r, hr, hp⟩ := List.mem_flatMap.1 hp
    obtain ⟨sp, hsp, rfl⟩ := List.mem_map.1 hp
    exact hf r hr sp hsp
  subst hy
  rw [← p1]
  constructor
  · intro e r hr sp hsp
    rw [← b2 r hr sp hsp]
    obtain ⟨y1, U1, k1, _, k3, _, k5⟩ := C43_unrestricted_amplitudes_partial h2 hw h hne hnd hq sa sb T1 hT1
    rw [k1, p1] at e
    cases e
    rw [p3] at k3
    cases k3
    obtain ⟨d1', d1, e1, e2, _, e4⟩ := k5 r hr
    obtain ⟨d2', d2, f1, f2, _, f4⟩ := p5 r hr
    rw [e1] at f1
    cases f1
    obtain ⟨z, z1, z2⟩ := e4 sp hsp
    obtain ⟨w, w1, w2⟩ := f4 sp hsp
    rw [z2] at w2
    rw [block71, block71, e2, f2]
    show d1.get? sp = d2.get? sp
    rw [z1, w1]
    congr 1
    have w2 := Option.some.inj w2
    obtain ⟨sz, dz⟩ := z
    obtain ⟨sw, dw⟩ := w
    simp only [NDArray.map, NDArray.mk.injEq] at w2
    rw [NDArray.mk.injEq]
    refine ⟨w2.1, ?_⟩
    refine List.map_injective_iff.2 ?_ w2.2
    intro u v huv
    exact (div_left_inj' (hf r hr sp hsp)).1 huv
  · intro e
    exact pack_congr71 hw h hne sa sb T1 T2 hT1 g2 fun r hr sp hsp => by rw [e r hr sp hsp, b2 r hr sp hsp]

end

/-! ### An example -/

/-- The generated functions of the example: the product returns the amplitudes it is given times the first
intermediate. -/
def double71 {V : Type} (mul : Rat → V → V) (kw : Dict (List Char) (ArgVal Unit (EomVal V Rat))) :
    Except PyErr (Dict (List Char) (EomVal V Rat)) :=
  match kw.get? "r1".toList, kw.get? "r2".toList, kw.get? "ints".toList with
  | some (.val (.amp x)), some (.val (.amp y)), some (.val (.obj i)) =>
    .ok [("r1new".toList, .amp (mul i x)), ("r2new".toList, .amp (mul i y))]
  | _, _, _ => .error .typeError

/-- A calculation with these functions. -/
def demo71 {V : Type} (spin : SpinType) (mul : Rat → V → V) :
    Session Unit (EomVal V Rat) (Dict (List Char) (EomVal V Rat)) where
  spin := spin
  withDf := false
  freshEris := ()
  freshCderis := ()
  isCderis := fun _ => false
  fock := .obj 0
  g := .obj 0
  G := .obj 0
  w := .obj 0
  space := .obj 0
  nocc := .obj 0
  nvir := .obj 0
  nbos := .obj 0
  naux := .obj 0
  amplitudes := []
  lambdas := []
  initAmps := fun _ => .ok []
  initLams := fun _ => .ok []
  eqns := [("hbar_matvec_ip_intermediates".toList, fun _ => .ok [("i".toList, .obj 3)]),
    ("hbar_matvec_ip".toList, double71 mul)]

/-- The first value of a namespace. -/
def first71 {V : Type} (d : Dict (List Char) (EomVal V Rat)) : Rat :=
  match d with
  | (_, .obj x) :: _ => x
  | _ => 0

def mulU71 (c : Rat) : UVal Rat → UVal Rat
  | .spins d => .spins (scaled71 c d)
  | .array a => .array (a.map fun z => c * z)

/-- Unrestricted: with a generated function that multiplies all amplitudes by three, the product of the vector of a
double excitation of two electrons of equal spin is not three times the vector. -/
theorem C71_unrestricted_fails :
    ∃ x y : List Rat, (demo71 .U mulU71).matvec first71 (uEomToVector ccsd70 .ip) (uVectorToEom ccsd70 .ip space21 space21)
      .ip false .default none x = .ok y ∧ y ≠ x.map fun z => 3 * z :=
  ⟨[1, 2, 3, 4, 10, 20, 21, 22, 23, 30, 31, 32, 33, 11], [3, 6, 9, 12, 15, 60, 63, 66, 69, 90, 93, 96, 99, 33/2],
    by decide +kernel, by decide +kernel⟩

/-- General: the same function, every vector is an eigenvector; the intermediates are computed or given. -/
example : (demo71 .G fun c (a : NDArray Rat) => a.map fun z => c * z).matvec first71 (gEomToVector ccsd70 .ip)
      (gVectorToEom ccsd70 .ip space21) .ip false .default none [1, 2, 3] = .ok [3, 6, 9] ∧
    (demo71 .G fun c (a : NDArray Rat) => a.map fun z => c * z).matvec first71 (gEomToVector ccsd70 .ip)
      (gVectorToEom ccsd70 .ip space21) .ip false .default (some [("i".toList, .obj 5)]) [1, 2, 3]
      = .ok [5, 10, 15] :=
  ⟨by decide +kernel, by decide +kernel⟩

end Ebcc
