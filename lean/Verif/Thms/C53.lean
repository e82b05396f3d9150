import Verif.Model.Ham
import Verif.Thms.C32
/-!
C53: integral containers as caches.  Every sequence of reads of the two-electron integrals (exact or density fitted,
restricted, unrestricted or general) and of the couplings gives the results that the same reads give on a new
container.  The Fock matrix stores its block before the shift is applied: reading a block with an index in the atomic
basis raises and spoils the container (`C53_fock_partial`, `C53_fock_fails`).  Some unknown keys are accepted
(`C53_unknown_fails`).
-/

namespace Ebcc

section
variable {R : Type} [CommRing R]

/-- Every sequence of reads of a container that was just made gives the results of single reads of such a container. -/
def Transparent {S V O : Type} (read : O → HRead S V) (s0 : S) (ops : List O) : Prop :=
  (runReads read ops s0).1 = ops.map fun o => (read o s0).1

theorem runReads_spec {S V O : Type} (read : O → HRead S V) (Inv : S → Prop) (spec : O → Except PyErr V) (ops : List O)
    (hstep : ∀ o ∈ ops, ∀ s, Inv s → (read o s).1 = spec o ∧ Inv (read o s).2) (s : S) (hs : Inv s) :
    (runReads read ops s).1 = ops.map spec ∧ Inv (runReads read ops s).2 := by
  induction ops generalizing s with
  | nil => exact ⟨rfl, hs⟩
  | cons o os ih =>
    obtain ⟨h1, h2⟩ := hstep o List.mem_cons_self s hs
    obtain ⟨h3, h4⟩ := ih (fun o' h => hstep o' (List.mem_cons_of_mem _ h)) _ h2
    refine ⟨?_, h4⟩
    simp only [runReads, List.map_cons]
    rw [h1, h3]

theorem transparent_of {S V O : Type} (read : O → HRead S V) (Inv : S → Prop) (s0 : S) (h0 : Inv s0) (ops : List O)
    (hstep : ∀ o ∈ ops, ∀ s, Inv s → (read o s).1 = (read o s0).1 ∧ Inv (read o s).2) :
    Transparent read s0 ops :=
  (runReads_spec read Inv _ ops hstep s0 h0).1

/-- The members hold what the blocks are. -/
def CacheSound {V : Type} (block : List Char → Except PyErr V) (m : Dict (List Char) V) : Prop :=
  ∀ k v, m.get? k = some v → block k = .ok v

theorem cacheRead_sound {V : Type} (block : List Char → Except PyErr V) (key : List Char) (m : Dict (List Char) V)
    (h : CacheSound block m) :
    (cacheRead block key m).1 = block key ∧ CacheSound block (cacheRead block key m).2 ∧
      ((∃ e, block key = .error e) → (cacheRead block key m).2 = m) := by
  unfold cacheRead
  cases hk : m.get? key with
  | some v => exact ⟨(h key v hk).symm, h, fun _ => rfl⟩
  | none =>
    cases hb : block key with
    | error e => exact ⟨rfl, h, fun _ => rfl⟩
    | ok v =>
      refine ⟨rfl, ?_, fun ⟨e, he⟩ => by cases he⟩
      intro k w hw
      rw [Dict.get?_set] at hw
      split at hw
      · rename_i hkk
        subst hkk
        cases hw
        exact hb
      · exact h k w hw

theorem cacheRead_nil {V : Type} (block : List Char → Except PyErr V) (key : List Char) :
    (cacheRead block key []).1 = block key :=
  (cacheRead_sound block key [] fun k v h => by cases h).1

/-- Restricted two-electron integrals: transparent, and a read that raises changes nothing. -/
theorem C53_eris (ao2mo : List (NDArray R) → Except PyErr (NDArray R)) (spaces : List Space)
    (coeffs : List (NDArray R)) (ops : List (List Char)) :
    Transparent (reriRead ao2mo spaces coeffs) [] ops ∧
    ∀ key e, (reriRead ao2mo spaces coeffs key (runReads (reriRead ao2mo spaces coeffs) ops []).2).1 = .error e →
      (reriRead ao2mo spaces coeffs key (runReads (reriRead ao2mo spaces coeffs) ops []).2).2
        = (runReads (reriRead ao2mo spaces coeffs) ops []).2 := by
  have h0 : CacheSound (eriBlock ao2mo spaces coeffs) ([] : Dict (List Char) (NDArray R)) := fun k v h => by cases h
  have hs := runReads_spec (reriRead ao2mo spaces coeffs) (CacheSound (eriBlock ao2mo spaces coeffs))
    (fun key => eriBlock ao2mo spaces coeffs key) ops (fun o _ s hs => ⟨(cacheRead_sound _ o s hs).1, (cacheRead_sound _ o s hs).2.1⟩) [] h0
  refine ⟨hs.1.trans (List.map_congr_left fun o _ => (cacheRead_nil _ o).symm), fun key e he => ?_⟩
  have := cacheRead_sound (eriBlock ao2mo spaces coeffs) key _ hs.2
  exact this.2.2 ⟨e, this.1.symm.trans he⟩

/-- Couplings, restricted and general. -/
theorem C53_couplings (g : NDArray R) (spaces : List Space) (ops : List (List Char)) :
    Transparent (relbosRead g spaces) [] ops ∧
    ∀ key e, (relbosRead g spaces key (runReads (relbosRead g spaces) ops []).2).1 = .error e →
      (relbosRead g spaces key (runReads (relbosRead g spaces) ops []).2).2 = (runReads (relbosRead g spaces) ops []).2 := by
  have h0 : CacheSound (fun k => (elbosBlock g spaces k).map GVal.block) ([] : Dict (List Char) (GVal R)) :=
    fun k v h => by cases h
  have hs := runReads_spec (relbosRead g spaces) (CacheSound fun k => (elbosBlock g spaces k).map GVal.block)
    (fun key => (elbosBlock g spaces key).map GVal.block) ops
    (fun o _ s hs => ⟨(cacheRead_sound _ o s hs).1, (cacheRead_sound _ o s hs).2.1⟩) [] h0
  refine ⟨hs.1.trans (List.map_congr_left fun o _ =>
    (cacheRead_nil (fun k => (elbosBlock g spaces k).map GVal.block) o).symm), fun key e he => ?_⟩
  have := cacheRead_sound (fun k => (elbosBlock g spaces k).map GVal.block) key _ hs.2
  exact this.2.2 ⟨e, this.1.symm.trans he⟩

/-- Containers of containers: the inner containers are sound, each for its own key. -/
def NestedSound {I : Type} (sound : List Char → I → Prop) (m : Dict (List Char) I) : Prop :=
  ∀ spin inner, m.get? spin = some inner → sound spin inner

theorem nested_getD {I : Type} {sound : List Char → I → Prop} {m : Dict (List Char) I} (h : NestedSound sound m)
    (spin : List Char) (new : I) (hn : sound spin new) : sound spin ((m.get? spin).getD new) := by
  cases hk : m.get? spin with
  | none => exact hn
  | some inner => exact h spin inner hk

theorem nested_set {I : Type} {sound : List Char → I → Prop} {m : Dict (List Char) I} (h : NestedSound sound m)
    (spin : List Char) (inner : I) (hn : sound spin inner) : NestedSound sound (m.set spin inner) := by
  intro s i hi
  rw [Dict.get?_set] at hi
  split at hi
  · rename_i hs
    subst hs
    cases hi
    exact hn
  · exact h s i hi

/-- Unrestricted two-electron integrals: a read is a pair of a spin key and a block key; unknown spin keys change
nothing. -/
theorem C53_eris_unrestricted (ao2mo : List (NDArray R) → Except PyErr (NDArray R)) (spaces : List (Space × Space))
    (coeffs : List (NDArray R × NDArray R)) (ops : List (List Char × List Char)) :
    Transparent (fun o => ueriRead ao2mo spaces coeffs o.1 o.2) [] ops ∧
    ∀ spin key m, spin ∉ ["aaaa".toList, "aabb".toList, "bbaa".toList, "bbbb".toList] →
      ueriRead ao2mo spaces coeffs spin key m = (.error .keyError, m) := by
  refine ⟨?_, fun spin key m h => by rw [ueriRead, if_pos h]⟩
  refine transparent_of _ (NestedSound fun spin => CacheSound
    (eriBlock ao2mo (pickSpins spaces (eriSpins spin)) (pickSpins coeffs (eriSpins spin)))) [] (fun _ _ h => by cases h)
    ops fun o _ s hs => ?_
  simp only [ueriRead]
  split
  · exact ⟨rfl, hs⟩
  · have hi := nested_getD hs o.1 [] fun k v h => by cases h
    obtain ⟨h1, h2, -⟩ := cacheRead_sound _ o.2 _ hi
    refine ⟨?_, nested_set hs _ _ h2⟩
    simp only [reriRead]
    rw [h1]
    exact (cacheRead_nil _ _).symm

/-- What a member of a coupling container for one spin is. -/
def CouplingSound (i : Nat) (block : List Char → Except PyErr (GVal R)) (m : Dict (List Char) (GVal R)) : Prop :=
  m.get? "_spin_index".toList = some (.index i) ∧
    ∀ k v, k ≠ "_spin_index".toList → m.get? k = some v → block k = .ok v

theorem newElbos_sound (i : Nat) (block : List Char → Except PyErr (GVal R)) : CouplingSound i block (newElbos i) := by
  unfold newElbos
  refine ⟨by rw [Dict.get?_set, if_pos rfl], fun k v hk h => ?_⟩
  rw [Dict.get?_set, if_neg fun e => hk e.symm] at h
  cases h

/-- What a read of a coupling container for one spin returns. -/
def couplingSpec (i : Nat) (block : List Char → Except PyErr (GVal R)) (k : List Char) : Except PyErr (GVal R) :=
  if k = "_spin_index".toList then .ok (.index i) else block k

theorem coupling_read (i : Nat) (block : List Char → Except PyErr (GVal R)) (key : List Char)
    (m : Dict (List Char) (GVal R)) (h : CouplingSound i block m) :
    (cacheRead block key m).1 = couplingSpec i block key ∧ CouplingSound i block (cacheRead block key m).2 := by
  unfold cacheRead couplingSpec
  by_cases hk : key = "_spin_index".toList
  · subst hk
    rw [h.1, if_pos rfl]
    exact ⟨rfl, h⟩
  · rw [if_neg hk]
    cases hm : m.get? key with
    | some v => exact ⟨(h.2 key v hk hm).symm, h⟩
    | none =>
      cases hb : block key with
      | error e => exact ⟨rfl, h⟩
      | ok v =>
        refine ⟨rfl, ?_, ?_⟩
        · rw [Dict.get?_set, if_neg hk]
          exact h.1
        · intro k w hkk hw
          rw [Dict.get?_set] at hw
          split at hw
          · rename_i e
            subst e
            cases hw
            exact hb
          · exact h.2 k w hkk hw

/-- Unrestricted couplings. -/
theorem C53_couplings_unrestricted (g : NDArray R) (spaces : List (Space × Space)) (ops : List (List Char × List Char)) :
    Transparent (fun o => uelbosRead g spaces o.1 o.2) [] ops ∧
    ∀ spin key m, spin ∉ ["aa".toList, "bb".toList] → uelbosRead g spaces spin key m = (.error .keyError, m) := by
  refine ⟨?_, fun spin key m h => by rw [uelbosRead, if_pos h]⟩
  refine transparent_of _ (NestedSound fun spin => CouplingSound (spinIndex (spin.getD 0 ' ')) fun k =>
    (elbosBlock (spinCoupling g (spinIndex (spin.getD 0 ' ')))
      (pickSpins spaces [spinIndex (spin.getD 0 ' '), spinIndex (spin.getD 0 ' ')]) k).map GVal.block) []
    (fun _ _ h => by cases h) ops fun o _ s hs => ?_
  simp only [uelbosRead]
  split
  · exact ⟨rfl, hs⟩
  · have hi := nested_getD hs o.1 (newElbos (spinIndex (o.1.getD 0 ' '))) (newElbos_sound _ _)
    obtain ⟨h1, h2⟩ := coupling_read _ _ o.2 _ hi
    refine ⟨?_, nested_set hs _ _ h2⟩
    simp only [relbosRead]
    rw [h1]
    exact (coupling_read _ _ o.2 _ (newElbos_sound _ _)).1.symm

/-- The members of a density fitted container hold what the blocks are. -/
def CderiSound (nrE2 : NDArray R → NDArray R → NDArray R) (spaces : List Space) (coeffs : List (NDArray R))
    (m : Dict (List Char) (NDArray R)) : Prop :=
  ∀ key e2 v, m.get? (cderiKey key e2) = some v → cderiBlock nrE2 spaces coeffs e2 key = .ok v

theorem cderiKey_inj {k k' : List Char} {e e' : Bool} (h : cderiKey k e = cderiKey k' e') : k = k' ∧ e = e' := by
  unfold cderiKey at h
  have hl : (if e then "_e2".toList else "_e1".toList).length = (if e' then "_e2".toList else "_e1".toList).length := by
    cases e <;> cases e' <;> rfl
  obtain ⟨h1, h2⟩ := List.append_inj' h hl
  refine ⟨h1, ?_⟩
  cases e <;> cases e' <;> simp at h2 <;> rfl

theorem cderiRead3_sound (nrE2 : NDArray R → NDArray R → NDArray R) (spaces : List Space) (coeffs : List (NDArray R))
    (e2 : Bool) (key : List Char) (m : Dict (List Char) (NDArray R)) (h : CderiSound nrE2 spaces coeffs m) :
    (cderiRead3 nrE2 spaces coeffs e2 key m).1 = cderiBlock nrE2 spaces coeffs e2 key ∧
      CderiSound nrE2 spaces coeffs (cderiRead3 nrE2 spaces coeffs e2 key m).2 := by
  unfold cderiRead3
  cases hk : m.get? (cderiKey key e2) with
  | some v => exact ⟨(h key e2 v hk).symm, h⟩
  | none =>
    cases hb : cderiBlock nrE2 spaces coeffs e2 key with
    | error e => exact ⟨rfl, h⟩
    | ok v =>
      refine ⟨rfl, ?_⟩
      intro k e w hw
      rw [Dict.get?_set] at hw
      split at hw
      · rename_i he
        obtain ⟨rfl, rfl⟩ := cderiKey_inj he
        cases hw
        exact hb
      · exact h k e w hw

/-- What a read of a density fitted container returns. -/
def cderiSpec (nrE2 : NDArray R → NDArray R → NDArray R) (spaces : List Space) (coeffs : List (NDArray R))
    (key : List Char) : Except PyErr (NDArray R) :=
  if key.length = 4 then
    match cderiBlock nrE2 spaces coeffs false (key.take 2) with
    | .error e => .error e
    | .ok v1 =>
      match cderiBlock nrE2 spaces coeffs true (key.drop 2) with
      | .error e => .error e
      | .ok v2 => .ok (contractQ v1 v2)
  else if key.length = 3 then cderiBlock nrE2 spaces coeffs false (key.drop 1)
  else .error .keyError

theorem rcderiRead_sound (nrE2 : NDArray R → NDArray R → NDArray R) (spaces : List Space) (coeffs : List (NDArray R))
    (key : List Char) (m : Dict (List Char) (NDArray R)) (h : CderiSound nrE2 spaces coeffs m) :
    (rcderiRead nrE2 spaces coeffs key m).1 = cderiSpec nrE2 spaces coeffs key ∧
      CderiSound nrE2 spaces coeffs (rcderiRead nrE2 spaces coeffs key m).2 := by
  unfold rcderiRead cderiSpec
  split
  · obtain ⟨h1, h2⟩ := cderiRead3_sound nrE2 spaces coeffs false (key.take 2) m h
    cases hr : cderiRead3 nrE2 spaces coeffs false (key.take 2) m with
    | mk r m1 =>
      rw [hr] at h1 h2
      simp only at h1 h2
      rw [← h1]
      cases r with
      | error e => exact ⟨rfl, h2⟩
      | ok v1 =>
        simp only
        obtain ⟨h3, h4⟩ := cderiRead3_sound nrE2 spaces coeffs true (key.drop 2) m1 h2
        cases hr' : cderiRead3 nrE2 spaces coeffs true (key.drop 2) m1 with
        | mk r' m2 =>
          rw [hr'] at h3 h4
          simp only at h3 h4
          rw [← h3]
          cases r' with
          | error e => exact ⟨rfl, h4⟩
          | ok v2 => exact ⟨rfl, h4⟩
  · split
    · exact cderiRead3_sound nrE2 spaces coeffs false (key.drop 1) m h
    · exact ⟨rfl, h⟩

/-- Density fitted integrals, restricted. -/
theorem C53_cderis (nrE2 : NDArray R → NDArray R → NDArray R) (spaces : List Space) (coeffs : List (NDArray R))
    (ops : List (List Char)) : Transparent (rcderiRead nrE2 spaces coeffs) [] ops := by
  have h0 : CderiSound nrE2 spaces coeffs ([] : Dict (List Char) (NDArray R)) := fun _ _ _ h => by cases h
  refine transparent_of _ (CderiSound nrE2 spaces coeffs) [] h0 ops fun o _ s hs => ?_
  obtain ⟨h1, h2⟩ := rcderiRead_sound nrE2 spaces coeffs o s hs
  exact ⟨h1.trans (rcderiRead_sound nrE2 spaces coeffs o [] h0).1.symm, h2⟩

/-- Density fitted integrals, unrestricted; unknown spin keys change nothing. -/
theorem C53_cderis_unrestricted (nrE2 : NDArray R → NDArray R → NDArray R) (spaces : List (Space × Space))
    (coeffs : List (NDArray R × NDArray R)) (ops : List (List Char × List Char)) :
    Transparent (fun o => ucderiRead nrE2 spaces coeffs o.1 o.2) [] ops ∧
    ∀ spin key m e, ucderiKey spin = .error e → ucderiRead nrE2 spaces coeffs spin key m = (.error e, m) := by
  refine ⟨?_, fun spin key m e h => by rw [ucderiRead, h]⟩
  refine transparent_of _ (NestedSound fun spin => CderiSound nrE2 (pickSpins spaces (eriSpins spin))
    (pickSpins coeffs (eriSpins spin))) [] (fun _ _ h => by cases h) ops fun o _ s hs => ?_
  simp only [ucderiRead]
  cases hk : ucderiKey o.1 with
  | error e => exact ⟨rfl, hs⟩
  | ok spin =>
    have h0 : CderiSound nrE2 (pickSpins spaces (eriSpins spin)) (pickSpins coeffs (eriSpins spin))
      ([] : Dict (List Char) (NDArray R)) := fun _ _ _ h => by cases h
    obtain ⟨h1, h2⟩ := rcderiRead_sound nrE2 _ _ o.2 _ (nested_getD hs spin [] h0)
    refine ⟨?_, nested_set hs _ _ h2⟩
    simp only
    rw [h1]
    exact (rcderiRead_sound nrE2 _ _ o.2 [] h0).1.symm

/-- Reads of the coupling do not depend on the state, as long as it satisfies a condition. -/
structure CouplingInv (D : FockData R) (g0 : Dict (List Char) (GVal R)) (P : Dict (List Char) (GVal R) → Prop) : Prop where
  init : P g0
  step : ∀ key m, P m → (relbosRead D.g D.spaces key m).1 = (relbosRead D.g D.spaces key g0).1 ∧
    P (relbosRead D.g D.spaces key m).2

/-- The value of an attribute from the result of the read. -/
def attrResult : Except PyErr (GVal R) → Except PyErr (NDArray R)
  | .ok (.block x) => .ok x
  | .ok (.index _) => .error .valueError
  | .error .keyError => .error .attributeError
  | .error e => .error e

theorem couplingAttr_eq (g : NDArray R) (spaces : List Space) (key : List Char) (m : Dict (List Char) (GVal R)) :
    couplingAttr g spaces key m
      = (attrResult (relbosRead g spaces ('b' :: key) m).1, (relbosRead g spaces ('b' :: key) m).2) := by
  unfold couplingAttr
  rcases relbosRead g spaces ('b' :: key) m with ⟨r, m'⟩
  rcases r with e | v
  · cases e <;> rfl
  · cases v <;> rfl

theorem couplingAttr_step {D : FockData R} {g0 : Dict (List Char) (GVal R)} {P : Dict (List Char) (GVal R) → Prop}
    (h : CouplingInv D g0 P) (key : List Char) (m : Dict (List Char) (GVal R)) (hm : P m) :
    (couplingAttr D.g D.spaces key m).1 = (couplingAttr D.g D.spaces key g0).1 ∧
      P (couplingAttr D.g D.spaces key m).2 := by
  rw [couplingAttr_eq, couplingAttr_eq]
  obtain ⟨h1, h2⟩ := h.step ('b' :: key) m hm
  exact ⟨by rw [h1], h2⟩

/-- If the block of the Fock matrix exists and is shifted, the couplings for the shift exist. -/
def Shiftable (D : FockData R) (g0 : Dict (List Char) (GVal R)) (key : List Char) : Prop :=
  D.shift = true → (∃ b, fockBlock D.fock D.spaces D.coeffs key = .ok b) →
    (∃ x, (couplingAttr D.g D.spaces key g0).1 = .ok x) ∧ ∃ y, (couplingAttr D.g D.spaces key.reverse g0).1 = .ok y

/-- The invariant of a Fock container. -/
def FockSound (D : FockData R) (g0 : Dict (List Char) (GVal R)) (P : Dict (List Char) (GVal R) → Prop)
    (st : FockState R) : Prop :=
  (∀ k v, st.fock.get? k = some v → (fockRead D k ⟨[], g0⟩).1 = .ok v) ∧ P st.g

theorem fock_set {D : FockData R} {g0 : Dict (List Char) (GVal R)} {f : Dict (List Char) (NDArray R)}
    (h : ∀ k v, f.get? k = some v → (fockRead D k ⟨[], g0⟩).1 = .ok v) (key : List Char) (x : NDArray R)
    (hx : (fockRead D key ⟨[], g0⟩).1 = .ok x) :
    ∀ k v, (f.set key x).get? k = some v → (fockRead D k ⟨[], g0⟩).1 = .ok v := by
  intro k v hv
  rw [Dict.get?_set] at hv
  split at hv
  · rename_i e
    subst e
    cases hv
    exact hx
  · exact h k v hv

theorem set_set {ν : Type} (f : Dict (List Char) ν) (k : List Char) (x y : ν) : (f.set k x).set k y = f.set k y := by
  induction f with
  | nil => simp [Dict.set]
  | cons p f ih =>
    obtain ⟨k', v'⟩ := p
    simp only [Dict.set]
    split
    · simp [Dict.set]
    · rename_i h
      simp only [Dict.set, if_neg h, ih]

theorem fockRead_sound {D : FockData R} {g0 : Dict (List Char) (GVal R)} {P : Dict (List Char) (GVal R) → Prop}
    (hP : CouplingInv D g0 P) (key : List Char) (hkey : Shiftable D g0 key) (st : FockState R)
    (h : FockSound D g0 P st) :
    (fockRead D key st).1 = (fockRead D key ⟨[], g0⟩).1 ∧ FockSound D g0 P (fockRead D key st).2 := by
  obtain ⟨hf, hg⟩ := h
  unfold Shiftable at hkey
  cases hk : st.fock.get? key with
  | some v =>
    have e : fockRead D key st = (.ok v, st) := by unfold fockRead; rw [hk]
    rw [e]
    exact ⟨(hf key v hk).symm, hf, hg⟩
  | none =>
    cases hb : fockBlock D.fock D.spaces D.coeffs key with
    | error e =>
      have e1 : ∀ s : FockState R, s.fock.get? key = none → fockRead D key s = (.error e, s) := by
        intro s hs
        unfold fockRead
        rw [hs, hb]
      rw [e1 st hk, e1 ⟨[], g0⟩ rfl]
      exact ⟨rfl, hf, hg⟩
    | ok block =>
      cases hs : D.shift with
      | false =>
        have e1 : ∀ s : FockState R, s.fock.get? key = none →
            fockRead D key s = (.ok block, ⟨s.fock.set key block, s.g⟩) := by
          intro s hs'
          unfold fockRead
          rw [hs', hb]
          simp [hs]
        have e2 := e1 ⟨[], g0⟩ rfl
        rw [e1 st hk, e2]
        exact ⟨rfl, fock_set hf key block (by rw [e2]), hg⟩
      | true =>
        obtain ⟨⟨x, hx⟩, y, hy⟩ := hkey hs ⟨block, hb⟩
        have e1 : ∀ s : FockState R, s.fock.get? key = none → P s.g →
            ∃ g, P g ∧ fockRead D key s
              = (.ok (shiftBlock D.xi block x y), ⟨s.fock.set key (shiftBlock D.xi block x y), g⟩) := by
          intro s hs' hPg
          obtain ⟨c1, c2⟩ := couplingAttr_step hP key s.g hPg
          obtain ⟨c3, c4⟩ := couplingAttr_step hP key.reverse _ c2
          refine ⟨_, c4, ?_⟩
          unfold fockRead
          rw [hs', hb]
          simp only [hs, if_true]
          rcases hc : couplingAttr D.g D.spaces key s.g with ⟨r, g1⟩
          rw [hc] at c1 c2 c3 c4
          simp only at c1 c3
          rw [c1, hx]
          simp only
          rcases hc' : couplingAttr D.g D.spaces key.reverse g1 with ⟨r', g2⟩
          rw [hc'] at c3 c4
          simp only at c3
          rw [c3, hy]
          simp only
          rw [set_set]
        obtain ⟨g1, hg1, e2⟩ := e1 st hk hg
        obtain ⟨g2, hg2, e3⟩ := e1 ⟨[], g0⟩ rfl hP.init
        rw [e2, e3]
        exact ⟨rfl, fock_set hf key _ (by rw [e3]), hg1⟩

theorem getSlices_two (s : Space) (a b : Char) {x y : Int × Int} (ha : s.slice a = .ok x) (hb : s.slice b = .ok y) :
    getSlices [s, s] [a, b] = .ok [x, y] := by
  simp [getSlices, List.mapM_cons, ha, hb, bind, Except.bind, pure, Except.pure]

theorem coupling_present (g : NDArray R) (s : Space) (hg : g.shape.length = 3) (g0 : Dict (List Char) (GVal R))
    (a b : Char) (h0 : g0.get? ['b', a, b] = none) (ha : a ≠ 'p') (hb : b ≠ 'p') {x y : Int × Int}
    (hx : s.slice a = .ok x) (hy : s.slice b = .ok y) : ∃ z, (couplingAttr g [s, s] [a, b] g0).1 = .ok z := by
  have : ∃ z, elbosBlock g [s, s] ['b', a, b] = .ok z := by
    unfold elbosBlock
    simp only
    rw [if_neg (by simp), if_neg (by simp [ha.symm, hb.symm]), getSlices_two s a b hx hy]
    simp only [bind, Except.bind]
    unfold npSlices
    rw [if_pos (by simp [hg])]
    exact ⟨_, rfl⟩
  obtain ⟨z, hz⟩ := this
  refine ⟨z, ?_⟩
  rw [couplingAttr_eq]
  simp only [relbosRead, cacheRead, h0, hz]
  rfl

theorem shiftable_of (D : FockData R) (s : Space) (hs : D.spaces = [s, s]) (hg : D.g.shape.length = 3)
    (g0 : Dict (List Char) (GVal R)) (h0 : ∀ k, g0.get? ('b' :: k) = none) (key : List Char) (hp : 'p' ∉ key) :
    Shiftable D g0 key := by
  rintro - ⟨bl, hb⟩
  unfold fockBlock at hb
  simp only [bind, Except.bind] at hb
  split at hb
  · cases hb
  · rename_i cs hcs
    unfold getCoeffs at hcs
    have hl := mapM_length hcs
    split at hb
    · rename_i ci cj
      have hkl : key.length = 2 := by simpa using hl.symm
      match key, hkl with
      | [a, b], _ =>
        simp only [List.mem_cons, List.not_mem_nil, or_false, not_or] at hp
        have hsl : ∀ i k c, k ≠ 'p' → i < 2 → getCoeff D.spaces D.coeffs i k = .ok c → ∃ x, s.slice k = .ok x := by
          intro i k c hk hi hc
          unfold getCoeff at hc
          split at hc
          · cases hc
          · rw [if_neg hk, hs] at hc
            have : ([s, s] : List Space)[i]? = some s := by
              match i, hi with
              | 0, _ => rfl
              | 1, _ => rfl
            rw [this] at hc
            simp only [bind, Except.bind] at hc
            split at hc
            · cases hc
            · rename_i x hx
              exact ⟨x, hx⟩
        have h1 : ∃ c, getCoeff D.spaces D.coeffs 0 a = .ok c := by
          simp only [List.zipIdx_cons, List.zipIdx_nil, List.mapM_cons, bind, Except.bind] at hcs
          split at hcs
          · cases hcs
          · rename_i c hc
            exact ⟨c, hc⟩
        have h2 : ∃ c, getCoeff D.spaces D.coeffs 1 b = .ok c := by
          simp only [List.zipIdx_cons, List.zipIdx_nil, List.mapM_cons, bind, Except.bind] at hcs
          split at hcs
          · cases hcs
          · split at hcs
            · cases hcs
            · rename_i hc
              split at hc
              · cases hc
              · rename_i c hc'
                exact ⟨c, hc'⟩
        obtain ⟨c1, h1⟩ := h1
        obtain ⟨c2, h2⟩ := h2
        obtain ⟨x, hx⟩ := hsl 0 a c1 (Ne.symm hp.1) (by omega) h1
        obtain ⟨y, hy⟩ := hsl 1 b c2 (Ne.symm hp.2) (by omega) h2
        rw [hs]
        exact ⟨coupling_present D.g s hg g0 a b (h0 _) (Ne.symm hp.1) (Ne.symm hp.2) hx hy,
          coupling_present D.g s hg g0 b a (h0 _) (Ne.symm hp.2) (Ne.symm hp.1) hy hx⟩
    · cases hb

/-- The keys of the Fock matrix are read in the molecular basis, or there is no shift. -/
def FockReads (shift : Bool) (keys : List (List Char)) : Prop := shift = false ∨ ∀ key ∈ keys, 'p' ∉ key

/-- The Fock keys of a sequence of reads. -/
def FockOp.fockKey : FockOp → Option (List Char)
  | .fock key => some key
  | .g _ => none

/-- Restricted and general Fock matrices, with reads of the coupling interleaved: transparent for reads in the
molecular basis.  Missing: with a shift, keys with an index in the atomic basis. -/
theorem C53_fock_partial (D : FockData R) (s : Space) (hs : D.spaces = [s, s]) (hg : D.g.shape.length = 3)
    (ops : List FockOp) (hops : FockReads D.shift (ops.filterMap FockOp.fockKey)) :
    Transparent (fockOp D) ⟨[], []⟩ ops := by
  have hP : CouplingInv D [] (CacheSound fun k => (elbosBlock D.g D.spaces k).map GVal.block) :=
    ⟨fun _ _ h => (by cases h), fun key m hm => by
      obtain ⟨h1, h2, -⟩ := cacheRead_sound _ key m hm
      exact ⟨h1.trans (cacheRead_nil (fun k => (elbosBlock D.g D.spaces k).map GVal.block) key).symm, h2⟩⟩
  refine transparent_of _ (FockSound D [] (CacheSound fun k => (elbosBlock D.g D.spaces k).map GVal.block)) ⟨[], []⟩
    ⟨fun _ _ h => (by cases h), hP.init⟩ ops fun o ho st hst => ?_
  cases o with
  | fock key =>
    have hkey : Shiftable D [] key := by
      rcases hops with h | h
      · intro h'
        rw [h] at h'
        cases h'
      · exact shiftable_of D s hs hg [] (fun _ => rfl) key (h key (List.mem_filterMap.2 ⟨_, ho, rfl⟩))
    obtain ⟨h1, h2⟩ := fockRead_sound hP key hkey st hst
    exact ⟨by simp only [fockOp]; rw [h1], h2⟩
  | g key =>
    obtain ⟨h1, h2⟩ := hP.step key st.g hst.2
    exact ⟨h1, hst.1, h2⟩

/-- The Fock keys of a sequence of reads. -/
def UFockOp.fockKey : UFockOp → Option (List Char)
  | .fock _ key => some key
  | .g _ _ => none

theorem coupling_key_ne (k : List Char) : 'b' :: k ≠ "_spin_index".toList := by
  intro h
  have := congrArg List.head? h
  simp at this

theorem newElbos_none (i : Nat) (k : List Char) : (newElbos i : Dict (List Char) (GVal R)).get? ('b' :: k) = none := by
  unfold newElbos
  rw [Dict.get?_set, if_neg fun e => coupling_key_ne k e.symm]
  rfl

theorem spin_coupling_inv (D : FockData R) (i : Nat) :
    CouplingInv D (newElbos i) (CouplingSound i fun k => (elbosBlock D.g D.spaces k).map GVal.block) :=
  ⟨newElbos_sound _ _, fun key m hm => by
    obtain ⟨h1, h2⟩ := coupling_read i (fun k => (elbosBlock D.g D.spaces k).map GVal.block) key m hm
    exact ⟨h1.trans (coupling_read i (fun k => (elbosBlock D.g D.spaces k).map GVal.block) key _
      (newElbos_sound i _)).1.symm, h2⟩⟩

/-- Unrestricted Fock matrices, with reads of the coupling interleaved. -/
theorem C53_fock_unrestricted_partial (D : UFockData R) (s : Space × Space) (hs : D.spaces = [s, s])
    (hg : D.g.shape.length = 4 ∨ D.g.shape.length = 3) (ops : List UFockOp)
    (hops : FockReads D.shift (ops.filterMap UFockOp.fockKey)) :
    Transparent (ufockOp D) ⟨[], []⟩ ops := by
  let idx : List Char → Nat := fun spin => spinIndex (spin.getD 0 ' ')
  let P : List Char → Dict (List Char) (GVal R) → Prop := fun spin =>
    CouplingSound (idx spin) fun k => (elbosBlock (D.spin (idx spin)).g (D.spin (idx spin)).spaces k).map GVal.block
  have hP : ∀ spin, CouplingInv (D.spin (idx spin)) (newElbos (idx spin)) (P spin) := fun spin => spin_coupling_inv _ _
  let F : List Char → Dict (List Char) (NDArray R) → Prop := fun spin f =>
    ∀ k v, f.get? k = some v → (fockRead (D.spin (idx spin)) k ⟨[], newElbos (idx spin)⟩).1 = .ok v
  have hspaces : ∀ i, (D.spin i).spaces = [if i = 0 then s.1 else s.2, if i = 0 then s.1 else s.2] := by
    intro i
    simp [UFockData.spin, hs, pickSpins]
  have hshape : ∀ i, (D.spin i).g.shape.length = 3 := by
    intro i
    simp only [UFockData.spin, spinCoupling]
    split
    · rename_i h
      simp [h]
    · rename_i h
      exact hg.resolve_left h
  refine transparent_of _ (fun st : UFockState R => NestedSound F st.fock ∧ NestedSound P st.g) ⟨[], []⟩
    ⟨fun _ _ h => (by cases h), fun _ _ h => by cases h⟩ ops fun o ho st hst => ?_
  cases o with
  | fock spin key =>
    have hkey : Shiftable (D.spin (idx spin)) (newElbos (idx spin)) key := by
      rcases hops with h | h
      · intro h'
        change D.shift = true at h'
        rw [h] at h'
        cases h'
      · exact shiftable_of _ _ (hspaces _) (hshape _) _ (newElbos_none _) key (h key (List.mem_filterMap.2 ⟨_, ho, rfl⟩))
    simp only [ufockOp, ufockRead]
    split
    · exact ⟨rfl, hst⟩
    · have hF := nested_getD hst.1 spin [] (fun _ _ h => by cases h)
      have hG := nested_getD hst.2 spin (newElbos (idx spin)) (hP spin).init
      obtain ⟨h1, h2, h3⟩ := fockRead_sound (hP spin) key hkey ⟨_, _⟩ ⟨hF, hG⟩
      refine ⟨?_, nested_set hst.1 _ _ h2, nested_set hst.2 _ _ h3⟩
      simp only
      exact congrArg (Except.map GVal.block) h1
  | g spin key =>
    simp only [ufockOp, uelbosRead]
    split
    · exact ⟨rfl, hst⟩
    · have hG := nested_getD hst.2 spin (newElbos (idx spin)) (hP spin).init
      obtain ⟨h1, h2⟩ := (hP spin).step key _ hG
      exact ⟨h1, hst.1, nested_set hst.2 _ _ h2⟩

/-- The characters that name a class of orbitals, or the atomic basis. -/
def knownChars : List Char := ['x', 'o', 'O', 'i', 'v', 'V', 'a', 'p']

theorem slice_unknown (s : Space) (k : Char) (h : k ∉ knownChars) : s.slice k = .error .keyError := by
  simp only [knownChars, List.mem_cons, List.not_mem_nil, or_false, not_or] at h
  have : s.mask k = .error .keyError := by
    simp [Space.mask, Dict.getItem, Dict.get?, Ne.symm h.1, Ne.symm h.2.1, Ne.symm h.2.2.1, Ne.symm h.2.2.2.1,
      Ne.symm h.2.2.2.2.1, Ne.symm h.2.2.2.2.2.1, Ne.symm h.2.2.2.2.2.2.1]
  simp [Space.slice, this, bind, Except.bind]

theorem mapM_error {α β : Type} (f : α → Except PyErr β) (l : List α) (x : α) (hx : x ∈ l) (h : ∃ e, f x = .error e) :
    ∃ e, l.mapM f = .error e := by
  induction l with
  | nil => cases hx
  | cons y l ih =>
    simp only [List.mapM_cons, bind, Except.bind]
    cases hy : f y with
    | error e => exact ⟨e, rfl⟩
    | ok z =>
      simp only
      rcases List.mem_cons.1 hx with rfl | hx'
      · obtain ⟨e, he⟩ := h
        rw [hy] at he
        cases he
      · obtain ⟨e, he⟩ := ih hx'
        rw [he]
        exact ⟨e, rfl⟩

theorem getCoeffs_unknown (spaces : List Space) (coeffs : List (NDArray R)) (key : List Char) (offset : Nat) (k : Char)
    (hk : k ∈ key) (h : k ∉ knownChars) : ∃ e, getCoeffs spaces coeffs key offset = .error e := by
  obtain ⟨i, hi, rfl⟩ := List.getElem_of_mem hk
  refine mapM_error _ _ (key[i], i) (List.mem_zipIdx_iff_getElem?.2 (List.getElem?_eq_getElem hi)) ?_
  simp only [getCoeff]
  cases coeffs[i + offset]? with
  | none => exact ⟨_, rfl⟩
  | some c =>
    simp only
    rw [if_neg (by rintro e; rw [e] at h; simp [knownChars] at h)]
    cases spaces[i + offset]? with
    | none => exact ⟨_, rfl⟩
    | some s =>
      simp only [slice_unknown s key[i] h, bind, Except.bind]
      exact ⟨_, rfl⟩

/-- A key with a character that names no class of orbitals raises, for the two-electron integrals, the Fock matrix
and the density fitted integrals, and changes nothing. -/
theorem C53_unknown (ao2mo : List (NDArray R) → Except PyErr (NDArray R)) (nrE2 : NDArray R → NDArray R → NDArray R)
    (D : FockData R) (spaces : List Space) (coeffs : List (NDArray R)) (key : List Char) (k : Char) (hk : k ∈ key)
    (h : k ∉ knownChars) (m : Dict (List Char) (NDArray R)) (hm : m.get? key = none) (st : FockState R)
    (hst : st.fock.get? key = none) (e2 : Bool) (hm3 : m.get? (cderiKey key e2) = none) :
    (∃ e, reriRead ao2mo spaces coeffs key m = (.error e, m)) ∧ (∃ e, fockRead D key st = (.error e, st)) ∧
      ∃ e, cderiRead3 nrE2 spaces coeffs e2 key m = (.error e, m) := by
  refine ⟨?_, ?_, ?_⟩
  · obtain ⟨e, he⟩ := getCoeffs_unknown spaces coeffs key 0 k hk h
    refine ⟨e, ?_⟩
    simp [reriRead, cacheRead, hm, eriBlock, he, bind, Except.bind]
  · obtain ⟨e, he⟩ := getCoeffs_unknown D.spaces D.coeffs key 0 k hk h
    refine ⟨e, ?_⟩
    simp [fockRead, hst, fockBlock, he, bind, Except.bind]
  · obtain ⟨e, he⟩ := getCoeffs_unknown spaces coeffs key (if e2 then 2 else 0) k hk h
    refine ⟨e, ?_⟩
    simp [cderiRead3, hm3, cderiBlock, he, bind, Except.bind]

end

/-- One occupied and one virtual orbital. -/
def space53 : Space := ⟨[true, false], [false, false], [false, false]⟩

/-- A Fock matrix with a shift. -/
def fock53 : FockData Int :=
  ⟨⟨[2, 2], [1, 2, 2, 5]⟩, ⟨[1, 2, 2], [1, 1, 1, 1]⟩, [space53, space53],
    [⟨[2, 2], [1, 0, 0, 1]⟩, ⟨[2, 2], [1, 0, 0, 1]⟩], true, [3]⟩

/-- The elements of the block, if there is one. -/
def shown53 : Except PyErr (GVal Int) → Option (List Int)
  | .ok (.block x) => some x.data
  | _ => none

/-- Blocks in the molecular basis are shifted and do not depend on the order. -/
example : (runReads (fockOp fock53) [.fock "ov".toList, .g "bov".toList, .fock "ov".toList, .fock "xx".toList] ⟨[], []⟩).1.map
    shown53 = [some [-4], some [1], some [-4], some [-5, -4, -4, -1]] := by decide +kernel

example : FockReads fock53.shift ([.fock "ov".toList, .g "bov".toList, .fock "ov".toList].filterMap FockOp.fockKey) :=
  Or.inr (by decide)

/-- Reading a block in the atomic basis raises the first time; the second time it returns the block without the
shift. -/
theorem C53_fock_fails :
    (runReads (fockOp fock53) [.fock "pp".toList, .fock "pp".toList] ⟨[], []⟩).1.map shown53 = [none, some [1, 2, 2, 5]] ∧
    ¬ Transparent (fockOp fock53) ⟨[], []⟩ [.fock "pp".toList, .fock "pp".toList] := by
  have h : (runReads (fockOp fock53) [.fock "pp".toList, .fock "pp".toList] ⟨[], []⟩).1.map shown53
    = [none, some [1, 2, 2, 5]] := by decide +kernel
  refine ⟨h, fun ht => ?_⟩
  have h' := congrArg (List.map shown53) ht
  rw [h] at h'
  revert h'
  decide +kernel

/-- Unknown keys that are accepted: characters after the last index of the coupling or of the general integrals are
ignored. -/
theorem C53_unknown_fails :
    shown53 (relbosRead fock53.g [space53, space53] "bov?".toList []).1 = some [1] ∧
    ((geriRead (⟨[2, 2, 2, 2], List.range 16 |>.map fun n => (n : Int)⟩ : NDArray Int)
      [space53, space53, space53, space53] "oovv??".toList).toOption.map NDArray.data) = some [3] := by
  decide +kernel

end Ebcc
