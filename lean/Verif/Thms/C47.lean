import Verif.Model.Context
import Verif.Model.Tailor
import Verif.Lemmas.PutIx
import Verif.Thms.C21
import Verif.Thms.C45
/-!
# C47 — tailoring and external corrections are reversible contexts

The property of the contexts is a refinement: a program with nested `with` statements does the same as in a semantics
without any state, in which a call inside the contexts `c₁, …, cₙ` computes the original function changed by each of
them; afterwards `update_amps` is what it was.  It holds when a context object is not entered inside itself
(`C47_reentrant_fails` shows what happens otherwise).
-/

namespace Ebcc

/-! ### The contexts -/

section
variable {A : Type}

/-- The function that a nest of contexts (innermost first) should compute. -/
def composed (env : CtxEnv A) : List Nat → A → Except PyErr A
  | [], x => env.orig x
  | c :: cs, x => do
    env.before c x
    let r ← composed env cs x
    env.after c x r

/-- What a program should show, without any state. -/
def meaning (env : CtxEnv A) : List Nat → CtxProg A → Shown A
  | cs, .call x => (outcome (composed env cs x), [composed env cs x])
  | _, .fail e => (.error e, [])
  | _, .skip => (.ok (), [])
  | cs, .seq p q =>
    match (meaning env cs p).1 with
    | .error e => (.error e, (meaning env cs p).2)
    | .ok _ => ((meaning env cs q).1, (meaning env cs p).2 ++ (meaning env cs q).2)
  | cs, .within c p =>
    match env.prepare c with
    | .error e => (.error e, [])
    | .ok _ => meaning env (c :: cs) p
  | cs, .attempt p => (.ok (), (meaning env cs p).2)

/-- No context object is entered inside itself. -/
def WellNested : List Nat → CtxProg A → Prop
  | _, .call _ => True
  | _, .fail _ => True
  | _, .skip => True
  | cs, .seq p q => WellNested cs p ∧ WellNested cs q
  | cs, .within c p => c ∉ cs ∧ WellNested (c :: cs) p
  | cs, .attempt p => WellNested cs p

/-- The depth of nesting. -/
def nesting : CtxProg A → Nat
  | .call _ => 0
  | .fail _ => 0
  | .skip => 0
  | .seq p q => max (nesting p) (nesting q)
  | .within _ p => nesting p + 1
  | .attempt p => nesting p

/-- The function `f` is that of the open contexts `cs`. -/
def Open (saved : Nat → Option UpdateFn) : UpdateFn → List Nat → Prop
  | f, [] => f = .original
  | f, c :: cs => f = .wrapped c ∧ ∃ g, saved c = some g ∧ Open saved g cs

theorem open_congr {saved saved' : Nat → Option UpdateFn} {f : UpdateFn} {cs : List Nat}
    (h : ∀ c ∈ cs, saved' c = saved c) (ho : Open saved f cs) : Open saved' f cs := by
  induction cs generalizing f with
  | nil => exact ho
  | cons c cs ih =>
    obtain ⟨h1, g, h2, h3⟩ := ho
    exact ⟨h1, g, by rw [h c (by simp)]; exact h2, ih (fun c hc => h c (by simp [hc])) h3⟩

theorem callUpdate_open (env : CtxEnv A) {saved : Nat → Option UpdateFn} {f : UpdateFn} {cs : List Nat}
    (ho : Open saved f cs) (fuel : Nat) (hf : cs.length < fuel) (x : A) :
    callUpdate env saved fuel f x = composed env cs x := by
  induction cs generalizing f fuel with
  | nil =>
    cases ho
    cases fuel with
    | zero => simp at hf
    | succ n => rfl
  | cons c cs ih =>
    obtain ⟨rfl, g, h2, h3⟩ := ho
    cases fuel with
    | zero => simp at hf
    | succ n =>
      simp only [callUpdate, composed, h2]
      rw [ih h3 n (by simpa using hf)]

/-- A well nested program inside the contexts `cs` shows what it should, and leaves `update_amps` and what the open
contexts have saved as they were. -/
theorem exec_open (env : CtxEnv A) (fuel : Nat) (p : CtxProg A) (cs : List Nat) (st : CtxState)
    (hw : WellNested cs p) (ho : Open st.saved st.current cs) (hf : cs.length + nesting p < fuel) :
    (execCtx env fuel p st).2 = meaning env cs p ∧ (execCtx env fuel p st).1.current = st.current ∧
      ∀ c ∈ cs, (execCtx env fuel p st).1.saved c = st.saved c := by
  induction p generalizing cs st with
  | call x =>
    simp only [execCtx, meaning]
    rw [callUpdate_open env ho fuel (by simpa [nesting] using hf)]
    exact ⟨rfl, trivial, fun _ _ => trivial⟩
  | fail e => exact ⟨rfl, rfl, fun _ _ => rfl⟩
  | skip => exact ⟨rfl, rfl, fun _ _ => rfl⟩
  | seq p q ihp ihq =>
    obtain ⟨hw1, hw2⟩ := hw
    simp only [nesting] at hf
    obtain ⟨p1, p2, p3⟩ := ihp cs st hw1 ho (by omega)
    have ho' : Open (execCtx env fuel p st).1.saved (execCtx env fuel p st).1.current cs := by
      rw [p2]; exact open_congr p3 ho
    obtain ⟨q1, q2, q3⟩ := ihq cs _ hw2 ho' (by omega)
    simp only [execCtx, meaning, ← p1]
    cases h : (execCtx env fuel p st).2.1 with
    | error e => exact ⟨rfl, p2, p3⟩
    | ok u =>
      simp only
      rw [← q1]
      exact ⟨rfl, by rw [q2, p2], fun c hc => by rw [q3 c hc, p3 c hc]⟩
  | within c p ih =>
    obtain ⟨hc, hw⟩ := hw
    simp only [nesting] at hf
    simp only [execCtx, ctxEnter, meaning]
    have hsame : ∀ c' ∈ cs, Function.update st.saved c (some st.current) c' = st.saved c' := by
      intro c' hc'
      rw [Function.update_of_ne (by rintro rfl; exact hc hc')]
    cases env.prepare c with
    | error e => exact ⟨rfl, rfl, hsame⟩
    | ok u =>
      simp only
      obtain ⟨p1, p2, p3⟩ := ih (c :: cs) ⟨.wrapped c, Function.update st.saved c (some st.current)⟩ hw
        ⟨rfl, st.current, Function.update_self .., open_congr hsame ho⟩ (by simp only [List.length_cons]; omega)
      have hsv := p3 c (by simp)
      rw [show (⟨.wrapped c, Function.update st.saved c (some st.current)⟩ : CtxState).saved c = some st.current from
        Function.update_self ..] at hsv
      simp only [ctxExit, hsv]
      refine ⟨p1, trivial, fun c' hc' => ?_⟩
      rw [Function.update_of_ne (by rintro rfl; exact hc hc'), p3 c' (by simp [hc'])]
      exact hsame c' hc'
  | attempt p ih =>
    obtain ⟨p1, p2, p3⟩ := ih cs st hw ho hf
    simp only [execCtx, meaning, ← p1]
    exact ⟨trivial, p2, p3⟩

/-- Whatever a well nested program does (return, raise an exception, fail to enter a context), `update_amps` is
afterwards what it was before, and a later call does what it would have done before. -/
theorem C47_restored (env : CtxEnv A) (fuel : Nat) (p : CtxProg A) (st : CtxState) (hw : WellNested [] p)
    (h0 : st.current = .original) (hf : nesting p < fuel) :
    (execCtx env fuel p st).1.current = .original ∧
      ∀ x, callUpdate env (execCtx env fuel p st).1.saved fuel (execCtx env fuel p st).1.current x = env.orig x := by
  obtain ⟨_, h2, _⟩ := exec_open env fuel p [] st hw h0 (by simpa using hf)
  refine ⟨by rw [h2, h0], fun x => ?_⟩
  rw [h2, h0]
  cases fuel with
  | zero => omega
  | succ n => rfl

/-- The calls inside contexts compute the original function changed by each open context, the innermost last, and the
exceptions are those of the program: the state cannot be observed. -/
theorem C47_refines (env : CtxEnv A) (fuel : Nat) (p : CtxProg A) (st : CtxState) (hw : WellNested [] p)
    (h0 : st.current = .original) (hf : nesting p < fuel) :
    (execCtx env fuel p st).2 = meaning env [] p :=
  (exec_open env fuel p [] st hw h0 (by simpa using hf)).1

/-- The same object entered inside itself: a call does not terminate (`RecursionError`), the outer exit raises
`AssertionError`, and `update_amps` remains replaced. -/
theorem C47_reentrant_fails (env : CtxEnv A) (hb : ∀ c x, env.before c x = .ok ()) (hp : ∀ c, env.prepare c = .ok ())
    (fuel : Nat) (x : A) :
    (execCtx env fuel (.within 0 (.within 0 (.call x))) ⟨.original, fun _ => none⟩).2
        = (.error .assertionError, [.error .recursionError]) ∧
    (execCtx env fuel (.within 0 (.within 0 (.call x))) ⟨.original, fun _ => none⟩).1.current = .wrapped 0 := by
  have key : ∀ (saved : Nat → Option UpdateFn), saved 0 = some (.wrapped 0) → ∀ n,
      callUpdate env saved n (.wrapped 0) x = .error .recursionError := by
    intro saved hs n
    induction n with
    | zero => rfl
    | succ n ih => simp only [callUpdate, hs, hb, ih, bind, Except.bind]
  simp only [execCtx, ctxEnter, hp, ctxExit, Function.update_self]
  rw [key _ (Function.update_self ..)]
  exact ⟨rfl, trivial⟩

/-- Two contexts, one inside the other, around two calls of which the second raises: the trace shows both
modifications, and the exception goes on. -/
example : (execCtx ⟨fun (x : Int) => if x = 0 then .error .valueError else .ok (x + 1), fun _ => .ok (),
      fun _ _ => .ok (), fun c _ r => .ok (10 * r + c)⟩ 5
      (.seq (.within 1 (.within 2 (.seq (.call 4) (.call 0)))) (.call 7)) ⟨.original, fun _ => none⟩).2
    = (.error .valueError, [.ok 512, .error .valueError]) := by decide +kernel

end

/-! ### The active block -/

section
variable {R : Type}

/-- The orbitals of an axis of an amplitude: correlated, and occupied or not. -/
def axisOrbitals (s : Space) (occ : Bool) : List Nat :=
  (List.range s.nmo).filter fun p => !inMask s.frozen p && (inMask s.occupied p == occ)

/-- For every orbital of the axis that `c` belongs to, whether it is in the class `c`. -/
def axisClass (s : Space) (c : Char) : List Bool :=
  (axisOrbitals s (decide (c ∈ ['o', 'O', 'i']))).map fun p =>
    if c ∈ ['O', 'V'] then inMask s.active p else if c ∈ ['i', 'a'] then !inMask s.active p else true

theorem selectMask_map {α : Type} (d : α) (m : List Bool) (y : List α) (h : m.length = y.length) :
    selectMask m y = ((List.range m.length).filter (inMask m)).map fun p => y.getD p d := by
  rw [← selectMask_range0]
  have hy : y = (List.range m.length).map fun p => y.getD p d := by
    apply List.ext_getElem
    · simp [h]
    · intro i h1 h2
      simp [List.getD_eq_getElem?_getD, List.getElem?_eq_getElem h1]
  conv_lhs => rw [hy]
  unfold selectMask
  rw [List.zip_map_right, List.filterMap_map, List.map_filterMap]
  congr 1
  funext p
  by_cases hp : p.1 = true <;> simp [hp]

theorem extMask_ok {o f a : List Bool} {s : Space} (hs : Space.new o f a = .ok s) (hfro : ∀ p, inMask s.frozen p = false)
    (c : Char) (hc : c ∈ ['o', 'O', 'i', 'v', 'V', 'a']) : extMask s c = .ok (axisClass s c) := by
  obtain ⟨l1, l2, l3, l4, l5, _⟩ := mask_lengths hs
  have key : ∀ (sec m : List Bool) (occ : Bool) (g : Nat → Bool), sec.length = s.nmo → m.length = s.nmo →
      (∀ p, p < s.nmo → inMask sec p = (inMask s.occupied p == occ)) →
      (∀ p, p < s.nmo → inMask sec p = true → inMask m p = g p) →
      selectMask sec m = (axisOrbitals s occ).map g := by
    intro sec m occ g h1 h2 h3 h4
    rw [selectMask_map false sec m (by omega), h1]
    have hf : (List.range s.nmo).filter (inMask sec) = axisOrbitals s occ := by
      apply List.filter_congr
      intro p hp
      rw [h3 p (List.mem_range.1 hp), hfro]
      simp
    rw [← hf]
    apply List.map_congr_left
    intro p hp
    rw [List.mem_filter, List.mem_range] at hp
    exact h4 p hp.1 hp.2
  have hcor : ∀ p, p < s.nmo → inMask s.correlated p = true := by
    intro p hp
    have : p < s.frozen.length := by omega
    unfold Space.correlated
    rw [inMask_not this, hfro]; rfl
  have hvir : ∀ p, p < s.nmo → inMask s.virtual p = (inMask s.occupied p == false) := by
    intro p hp
    have h1 : p < s.occupied.length := by rw [l1]; exact hp
    unfold Space.virtual
    rw [inMask_not h1]
    cases inMask s.occupied p <;> rfl
  have hina : ∀ p, p < s.nmo → inMask s.inactive p = !inMask s.active p := by
    intro p hp
    have h1 : p < s.active.length := by rw [l3]; exact hp
    unfold Space.inactive
    rw [inMask_not h1]
  have hml : ∀ (c : Char) (m : List Bool), s.mask c = .ok m → m.length = s.nmo := fun c m h => mask_length hs h
  have hocc : ∀ p, p < s.nmo → inMask s.occupied p = (inMask s.occupied p == true) := by
    intro p _
    cases inMask s.occupied p <;> rfl
  simp only [List.mem_cons, List.not_mem_nil, or_false] at hc
  rcases hc with rfl | rfl | rfl | rfl | rfl | rfl
  · have e1 : s.mask 'o' = .ok s.correlatedOccupied := by simp [Space.mask, Dict.getItem, Dict.get?]
    have e2 : axisClass s 'o' = (axisOrbitals s true).map (fun _ => true) := by simp [axisClass]
    have e3 : extMask s 'o' = .ok (selectMask s.occupied s.correlatedOccupied) := by
      simp [extMask, Space.omask, e1, bind, Except.bind, pure, Except.pure]
    rw [e3, e2]
    refine congrArg _ (key _ _ true _ l1 (hml 'o' _ e1) hocc ?_)
    intro p hp hq
    unfold Space.correlatedOccupied
    rw [inMask_and, hcor p hp, hq]; rfl
  · have e1 : s.mask 'O' = .ok s.activeOccupied := by simp [Space.mask, Dict.getItem, Dict.get?]
    have e2 : axisClass s 'O' = (axisOrbitals s true).map (fun p => inMask s.active p) := by simp [axisClass]
    have e3 : extMask s 'O' = .ok (selectMask s.occupied s.activeOccupied) := by
      simp [extMask, Space.omask, e1, bind, Except.bind, pure, Except.pure]
    rw [e3, e2]
    refine congrArg _ (key _ _ true _ l1 (hml 'O' _ e1) hocc ?_)
    intro p hp hq
    unfold Space.activeOccupied
    rw [inMask_and, hq, Bool.and_true]
  · have e1 : s.mask 'i' = .ok s.inactiveOccupied := by simp [Space.mask, Dict.getItem, Dict.get?]
    have e2 : axisClass s 'i' = (axisOrbitals s true).map (fun p => !inMask s.active p) := by simp [axisClass]
    have e3 : extMask s 'i' = .ok (selectMask s.occupied s.inactiveOccupied) := by
      simp [extMask, Space.omask, e1, bind, Except.bind, pure, Except.pure]
    rw [e3, e2]
    refine congrArg _ (key _ _ true _ l1 (hml 'i' _ e1) hocc ?_)
    intro p hp hq
    unfold Space.inactiveOccupied
    rw [inMask_and, hq, Bool.and_true, hina p hp]
  · have e1 : s.mask 'v' = .ok s.correlatedVirtual := by simp [Space.mask, Dict.getItem, Dict.get?]
    have e2 : axisClass s 'v' = (axisOrbitals s false).map (fun _ => true) := by simp [axisClass]
    have e3 : extMask s 'v' = .ok (selectMask s.virtual s.correlatedVirtual) := by
      simp [extMask, Space.vmask, e1, bind, Except.bind, pure, Except.pure]
    rw [e3, e2]
    refine congrArg _ (key _ _ false _ l4 (hml 'v' _ e1) hvir ?_)
    intro p hp hq
    unfold Space.correlatedVirtual
    rw [inMask_and, hcor p hp, hq]; rfl
  · have e1 : s.mask 'V' = .ok s.activeVirtual := by simp [Space.mask, Dict.getItem, Dict.get?]
    have e2 : axisClass s 'V' = (axisOrbitals s false).map (fun p => inMask s.active p) := by simp [axisClass]
    have e3 : extMask s 'V' = .ok (selectMask s.virtual s.activeVirtual) := by
      simp [extMask, Space.vmask, e1, bind, Except.bind, pure, Except.pure]
    rw [e3, e2]
    refine congrArg _ (key _ _ false _ l4 (hml 'V' _ e1) hvir ?_)
    intro p hp hq
    unfold Space.activeVirtual
    rw [inMask_and, hq, Bool.and_true]
  · have e1 : s.mask 'a' = .ok s.inactiveVirtual := by simp [Space.mask, Dict.getItem, Dict.get?]
    have e2 : axisClass s 'a' = (axisOrbitals s false).map (fun p => !inMask s.active p) := by simp [axisClass]
    have e3 : extMask s 'a' = .ok (selectMask s.virtual s.inactiveVirtual) := by
      simp [extMask, Space.vmask, e1, bind, Except.bind, pure, Except.pure]
    rw [e3, e2]
    refine congrArg _ (key _ _ false _ l4 (hml 'a' _ e1) hvir ?_)
    intro p hp hq
    unfold Space.inactiveVirtual
    rw [inMask_and, hq, Bool.and_true, hina p hp]

/-- All indices are in the given classes (one list for each axis). -/
def inBlock (cls : List (List Bool)) (idx : List Nat) : Bool :=
  (List.zipWith (fun (m : List Bool) i => m.getD i false) cls idx).all id

/-- The positions of the indices within their classes. -/
def blockIdx (cls : List (List Bool)) (idx : List Nat) : List Nat :=
  List.zipWith (fun (m : List Bool) i => (m.take i).count true) cls idx

theorem maskInds_idxOf (m : List Bool) (i : Nat) (h : m.getD i false = true) :
    (maskInds m).idxOf i = (m.take i).count true := by
  have h1 := maskInds_at m i h
  obtain ⟨hlt, h2⟩ := List.getElem?_eq_some_iff.1 h1
  conv_lhs => rw [← h2]
  exact (maskInds_nodup m).idxOf_getElem _ hlt

theorem put_block [Zero R] (x : NDArray R) (cls : List (List Bool)) (v : NDArray R) (hx : x.WF) (hv : v.WF)
    (hs : x.shape = cls.map List.length) (hvs : v.shape = cls.map (List.count true)) :
    ∃ y, putIx x (cls.map maskInds) v = .ok y ∧ y.shape = x.shape ∧ y.WF ∧
      ∀ idx, InBox x.shape idx → y.get idx = if inBlock cls idx then v.get (blockIdx cls idx) else x.get idx := by
  refine ⟨_, putIx_ok x _ v hx hv ?_ ?_ ?_, rfl, NDArray.ofFn_wf _ _, ?_⟩
  · rw [hs, List.forall₂_map_left_iff, List.forall₂_map_right_iff, List.forall₂_same]
    intro m _ i hi
    unfold maskInds at hi
    exact List.mem_range.1 (List.mem_filter.1 hi).1
  · intro l hl
    obtain ⟨m, _, rfl⟩ := List.mem_map.1 hl
    exact maskInds_nodup m
  · rw [hvs, List.map_map]
    apply List.map_congr_left
    intro m _
    exact (maskInds_length m).symm
  · intro idx hidx
    unfold ixPut
    rw [NDArray.get_ofFn _ _ hidx]
    have e1 : (List.zipWith (fun (l : List Nat) i => decide (i ∈ l)) (cls.map maskInds) idx).all id = inBlock cls idx := by
      unfold inBlock
      rw [List.zipWith_map_left]
      congr 2
      funext m i
      rw [Bool.eq_iff_iff, decide_eq_true_eq, mem_maskInds]
    rw [e1]
    by_cases hb : inBlock cls idx = true
    · rw [if_pos hb, if_pos hb]
      congr 1
      clear hidx e1 hs hvs
      unfold blockIdx
      unfold inBlock at hb
      rw [List.zipWith_map_left]
      induction cls generalizing idx with
      | nil => rfl
      | cons m cls ih =>
        cases idx with
        | nil => rfl
        | cons i idx =>
          simp only [List.zipWith_cons_cons, List.all_cons, id_eq, Bool.and_eq_true] at hb ⊢
          rw [ih idx hb.2, maskInds_idxOf m i hb.1]
    · rw [if_neg hb, if_neg hb]

/-- A loop that replaces some entries of a dictionary. -/
theorem replaceOpt_ok {ι V : Type} (name : ι → List Char) (G : ι → Option (V → Except PyErr V)) (fs : List ι)
    (hnd : (fs.map name).Nodup) (d : Dict (List Char) V)
    (h : ∀ r ∈ fs, ∀ F, G r = some F → ∃ x y, d.get? (name r) = some x ∧ F x = .ok y) :
    ∃ d', fs.foldlM (fun (d : Dict (List Char) V) r =>
        match G r with
        | none => (pure d : Except PyErr _)
        | some F => do
          let x ← d.getItem (name r)
          let y ← F x
          pure (d.set (name r) y)) d = .ok d' ∧ d'.keys = d.keys ∧
      (∀ r ∈ fs, ∀ F, G r = some F → ∀ x, d.get? (name r) = some x → ∃ y, F x = .ok y ∧ d'.get? (name r) = some y) ∧
      ∀ nm, (∀ r ∈ fs, name r = nm → G r = none) → d'.get? nm = d.get? nm := by
  induction fs generalizing d with
  | nil => exact ⟨d, rfl, rfl, by simp, fun _ _ => rfl⟩
  | cons r fs ih =>
    rw [List.map_cons, List.nodup_cons] at hnd
    have hne : ∀ r' ∈ fs, name r ≠ name r' := fun r' hr' e => hnd.1 (List.mem_map.2 ⟨r', hr', e.symm⟩)
    cases hG : G r with
    | none =>
      obtain ⟨d', e1, e2, e3, e4⟩ := ih hnd.2 d fun r' hr' => h r' (by simp [hr'])
      refine ⟨d', ?_, e2, ?_, fun nm hnm => e4 nm fun r' hr' => hnm r' (by simp [hr'])⟩
      · simp only [List.foldlM_cons, hG, bind, Except.bind, pure, Except.pure] at e1 ⊢
        exact e1
      · intro r' hr' F hF
        rcases List.mem_cons.1 hr' with rfl | hr'
        · rw [hG] at hF; cases hF
        · exact e3 r' hr' F hF
    | some F =>
      obtain ⟨x, y, hx, hy⟩ := h r (by simp) F hG
      obtain ⟨d', e1, e2, e3, e4⟩ := ih hnd.2 (d.set (name r) y) (by
        intro r' hr' F' hF'
        obtain ⟨x', y', h1, h2⟩ := h r' (by simp [hr']) F' hF'
        exact ⟨x', y', by rw [Dict.get?_set, if_neg (hne r' hr')]; exact h1, h2⟩)
      refine ⟨d', ?_, ?_, ?_, ?_⟩
      · have hg : d.getItem (name r) = .ok x := by simp [Dict.getItem, hx]
        simp only [List.foldlM_cons, hG, hg, hy, bind, Except.bind, pure, Except.pure] at e1 ⊢
        exact e1
      · rw [e2, Dict.keys_set_of_mem _ _ _ ((Dict.mem_keys_iff _ _).2 ⟨x, hx⟩)]
      · intro r' hr' F' hF' x' hx'
        rcases List.mem_cons.1 hr' with rfl | hr'
        · rw [hx] at hx'
          rw [hG] at hF'
          cases hx'
          cases hF'
          refine ⟨y, hy, ?_⟩
          rw [e4 (name r') fun r'' hr'' e => absurd e.symm (hne r'' hr''), Dict.get?_set, if_pos rfl]
        · exact e3 r' hr' F' hF' x' (by rw [Dict.get?_set, if_neg (hne r' hr')]; exact hx')
      · intro nm hnm
        rw [e4 nm fun r' hr' => hnm r' (by simp [hr']), Dict.get?_set, if_neg]
        intro e
        have := hnm r (by simp) e
        rw [hG] at this
        cases this

/-- The classes of the axes of an amplitude in which tailoring acts: active occupied or virtual orbitals. -/
def activeClasses (space : Space) (key : List Char) : List (List Bool) :=
  key.map fun k => axisClass space (if k = 'o' then 'O' else 'V')

/-- Tailoring one amplitude over occupied and virtual orbitals. -/
theorem tailorArray_ok [Zero R] {o f a : List Bool} {s : Space} (hs : Space.new o f a = .ok s)
    (hfro : ∀ p, inMask s.frozen p = false) (key : List Char) (hk : ∀ c ∈ key, c = 'o' ∨ c = 'v') (x act : NDArray R)
    (hx : x.WF) (ha : act.WF) (hxs : x.shape = (activeClasses s key).map List.length)
    (has : act.shape = (activeClasses s key).map (List.count true)) :
    ∃ y, tailorArray (extMask s) key x act = .ok y ∧ y.shape = x.shape ∧ y.WF ∧
      ∀ idx, InBox x.shape idx → y.get idx = if inBlock (activeClasses s key) idx then
        act.get (blockIdx (activeClasses s key) idx) else x.get idx := by
  obtain ⟨y, h1, h2⟩ := put_block x _ act hx ha hxs has
  refine ⟨y, ?_, h2⟩
  have hm : (key.mapM fun k => extMask s k.toUpper) = .ok (activeClasses s key) := by
    unfold activeClasses
    apply mapM_ok
    intro k hkk
    rcases hk k hkk with rfl | rfl
    · exact extMask_ok hs hfro 'O' (by decide)
    · exact extMask_ok hs hfro 'V' (by decide)
  unfold tailorArray
  rw [hm]
  exact h1

/-- The result of tailoring one array: the given amplitude in the active block, unchanged outside. -/
def Tailored [Zero R] (cls : List (List Bool)) (x act y : NDArray R) : Prop :=
  y.shape = x.shape ∧ y.WF ∧
    ∀ idx, InBox x.shape idx → y.get idx = if inBlock cls idx then act.get (blockIdx cls idx) else x.get idx

/-- Restricted and general: the amplitudes given for the active space are written into the active block of the
amplitudes of the same name; nothing else changes.  What is missing: spaces with frozen orbitals, for which it is
false (`C47_frozen_fails`, `C47_frozen_raises`), and amplitudes with active axes (ansatzes such as CCSDt'), for which
the whole axis is active but the masks refer to the whole sector (`C47_active_axis_raises`). -/
theorem C47_tailored_partial [Zero R] {o f a : List Bool} {s : Space} (hs : Space.new o f a = .ok s)
    (hfro : ∀ p, inMask s.frozen p = false) (an : Ansatz) (spin : SpinType) (fs : List Rank)
    (hf : fermionicClusterRanks an.fermionAnsatz spin .t = .ok fs) (hnd : (fs.map fun r => r.1).Nodup)
    (hk : ∀ r ∈ fs, ∀ c ∈ r.2.1, c = 'o' ∨ c = 'v') (amps active : Dict (List Char) (NDArray R))
    (hx : ∀ r ∈ fs, ∃ x, amps.get? r.1 = some x ∧ x.WF ∧ x.shape = (activeClasses s r.2.1).map List.length)
    (ha : ∀ r ∈ fs, ∀ v, active.get? r.1 = some v → v.WF ∧ v.shape = (activeClasses s r.2.1).map (List.count true)) :
    ∃ amps', setActiveSpace an spin s amps active = .ok amps' ∧ amps'.keys = amps.keys ∧
      (∀ r ∈ fs, ∀ x v, amps.get? r.1 = some x → active.get? r.1 = some v →
        ∃ y, amps'.get? r.1 = some y ∧ Tailored (activeClasses s r.2.1) x v y) ∧
      ∀ nm, (active.get? nm = none ∨ ∀ r ∈ fs, r.1 ≠ nm) → amps'.get? nm = amps.get? nm := by
  have hone : ∀ r ∈ fs, ∀ x v, amps.get? r.1 = some x → active.get? r.1 = some v →
      ∃ y, tailorArray (extMask s) r.2.1 x v = .ok y ∧ Tailored (activeClasses s r.2.1) x v y := by
    intro r hr x v h1 h2
    obtain ⟨x', e1, e2, e3⟩ := hx r hr
    rw [h1] at e1
    cases e1
    obtain ⟨e4, e5⟩ := ha r hr v h2
    exact tailorArray_ok hs hfro r.2.1 (hk r hr) x v e2 e4 e3 e5
  obtain ⟨d', e1, e2, e3, e4⟩ := replaceOpt_ok (fun r : Rank => r.1)
    (fun r => (active.get? r.1).map fun v x => tailorArray (extMask s) r.2.1 x v) fs hnd amps (by
      intro r hr F hF
      obtain ⟨v, hv, rfl⟩ := Option.map_eq_some_iff.1 hF
      obtain ⟨x, hx1, _⟩ := hx r hr
      obtain ⟨y, hy, _⟩ := hone r hr x v hx1 hv
      exact ⟨x, y, hx1, hy⟩)
  refine ⟨d', ?_, e2, ?_, ?_⟩
  · unfold setActiveSpace
    rw [hf]
    simp only [bind, Except.bind] at e1 ⊢
    rw [← e1]
    apply foldlM_congr_mem
    intro r _ d
    cases active.get? r.1 <;> rfl
  · intro r hr x v h1 h2
    obtain ⟨y, hy, hy2⟩ := hone r hr x v h1 h2
    obtain ⟨y', hy', hg⟩ := e3 r hr _ (by rw [h2]; rfl) x h1
    replace hy' := hy.symm.trans hy'
    cases hy'
    exact ⟨y, hg, hy2⟩
  · intro nm hnm
    apply e4
    intro r hr e
    rcases hnm with h | h
    · rw [e, h]; rfl
    · exact absurd e (h r hr)

/-- The classes of the axes of a spin block. -/
def uActiveClasses (sa sb : Space) (comb key : List Char) : List (List Bool) :=
  (comb.zip key).map fun p => axisClass (if p.1 = 'a' then sa else sb) (if p.2 = 'o' then 'O' else 'V')

/-- Unrestricted: every spin block of the amplitudes is set in its active block. -/
theorem C47_tailored_unrestricted_partial [Zero R] {oa fa aa ob fb ab : List Bool} {sa sb : Space}
    (hsa : Space.new oa fa aa = .ok sa) (hsb : Space.new ob fb ab = .ok sb)
    (hfa : ∀ p, inMask sa.frozen p = false) (hfb : ∀ p, inMask sb.frozen p = false) (an : Ansatz) (fs : List Rank)
    (hf : fermionicClusterRanks an.fermionAnsatz .U .t = .ok fs) (hnd : (fs.map fun r => r.1).Nodup)
    (hk : ∀ r ∈ fs, ∀ c ∈ r.2.1, c = 'o' ∨ c = 'v') (amps active : Dict (List Char) (UVal R))
    (hx : ∀ r ∈ fs, ∃ d, amps.get? r.1 = some (.spins d) ∧ d.keys.Nodup ∧ ∀ comb x, d.get? comb = some x →
      (∀ c ∈ comb, c = 'a' ∨ c = 'b') ∧ x.WF ∧ x.shape = (uActiveClasses sa sb comb r.2.1).map List.length)
    (ha : ∀ r ∈ fs, ∀ v, active.get? r.1 = some v → ∃ da, v = .spins da ∧
      ∀ d, amps.get? r.1 = some (.spins d) → ∀ comb ∈ d.keys, ∃ x, da.get? comb = some x ∧ x.WF ∧
        x.shape = (uActiveClasses sa sb comb r.2.1).map (List.count true)) :
    ∃ amps', uSetActiveSpace an sa sb amps active = .ok amps' ∧ amps'.keys = amps.keys ∧
      (∀ r ∈ fs, ∀ d da, amps.get? r.1 = some (.spins d) → active.get? r.1 = some (.spins da) →
        ∃ d', amps'.get? r.1 = some (.spins d') ∧ d'.keys = d.keys ∧ ∀ comb x v, d.get? comb = some x →
          da.get? comb = some v → ∃ y, d'.get? comb = some y ∧ Tailored (uActiveClasses sa sb comb r.2.1) x v y) ∧
      ∀ nm, (active.get? nm = none ∨ ∀ r ∈ fs, r.1 ≠ nm) → amps'.get? nm = amps.get? nm := by
  have hblock : ∀ (key comb : List Char), (∀ c ∈ key, c = 'o' ∨ c = 'v') → (∀ c ∈ comb, c = 'a' ∨ c = 'b') →
      ((comb.zip key).mapM fun p => do
        let sp ← spinSpace sa sb p.1
        extMask sp p.2.toUpper) = .ok (uActiveClasses sa sb comb key) := by
    intro key comb h1 h2
    apply mapM_ok
    intro p hp
    have hp1 := h2 _ (List.of_mem_zip hp).1
    have hp2 := h1 _ (List.of_mem_zip hp).2
    obtain ⟨c, k⟩ := p
    rcases hp1 with rfl | rfl <;> rcases hp2 with rfl | rfl
    · exact extMask_ok hsa hfa 'O' (by decide)
    · exact extMask_ok hsa hfa 'V' (by decide)
    · exact extMask_ok hsb hfb 'O' (by decide)
    · exact extMask_ok hsb hfb 'V' (by decide)
  have hone : ∀ r ∈ fs, ∀ d da, amps.get? r.1 = some (.spins d) → active.get? r.1 = some (.spins da) →
      ∃ d', uTailorBlocks sa sb r.2.1 d da = .ok d' ∧ d'.keys = d.keys ∧ ∀ comb x v, d.get? comb = some x →
          da.get? comb = some v → ∃ y, d'.get? comb = some y ∧ Tailored (uActiveClasses sa sb comb r.2.1) x v y := by
    intro r hr d da hd hda
    obtain ⟨d1, h1, hdn, h2⟩ := hx r hr
    rw [hd] at h1
    cases h1
    obtain ⟨da', h3, h4⟩ := ha r hr _ hda
    cases h3
    have hb : ∀ comb x, d.get? comb = some x → ∃ v y, da.get? comb = some v ∧ (do
        let masks ← (comb.zip r.2.1).mapM fun (p : Char × Char) => do
          let sp ← spinSpace sa sb p.1
          extMask sp p.2.toUpper
        let v ← da.getItem comb
        putIx x (masks.map maskInds) v) = .ok y ∧ Tailored (uActiveClasses sa sb comb r.2.1) x v y := by
      intro comb x hx'
      obtain ⟨a1, a2, a3⟩ := h2 comb x hx'
      obtain ⟨v, b1, b2, b3⟩ := h4 d hd comb ((Dict.mem_keys_iff _ _).2 ⟨x, hx'⟩)
      obtain ⟨y, c1, c2⟩ := put_block x _ v a2 b2 a3 b3
      refine ⟨v, y, b1, ?_, c2⟩
      have hg : da.getItem comb = .ok v := by simp [Dict.getItem, b1]
      rw [hblock _ _ (hk r hr) a1, hg]
      exact c1
    obtain ⟨d', e1, e2, e3, e4⟩ := replaceOpt_ok (fun comb : List Char => comb)
      (fun comb => some fun x => do
        let masks ← (comb.zip r.2.1).mapM fun (p : Char × Char) => do
          let sp ← spinSpace sa sb p.1
          extMask sp p.2.toUpper
        let v ← da.getItem comb
        putIx x (masks.map maskInds) v) d.keys (by simpa using hdn) d (by
        intro comb hc F hF
        obtain ⟨x, hx'⟩ := (Dict.mem_keys_iff _ _).1 hc
        cases hF
        obtain ⟨v, y, _, q2, _⟩ := hb comb x hx'
        exact ⟨x, y, hx', q2⟩)
    refine ⟨d', ?_, e2, ?_⟩
    · unfold uTailorBlocks
      rw [← e1]
      apply foldlM_congr_mem
      intro comb hcomb dd
      obtain ⟨x, hx'⟩ := (Dict.mem_keys_iff _ _).1 hcomb
      rw [hblock _ _ (hk r hr) (h2 comb x hx').1]
      simp only [bind, Except.bind]
      cases dd.getItem comb <;> cases da.getItem comb <;> rfl
    · intro comb x v hx' hv
      obtain ⟨v', y, q1, q2, q3⟩ := hb comb x hx'
      rw [hv] at q1
      cases q1
      obtain ⟨y', hy', hg⟩ := e3 comb ((Dict.mem_keys_iff _ _).2 ⟨x, hx'⟩) _ rfl x hx'
      rw [q2] at hy'
      cases hy'
      exact ⟨y, hg, q3⟩
  let F : UVal R → Rank → UVal R → Except PyErr (UVal R) := fun act r x =>
    match x, act with
    | .spins d, .spins da => do
      let d' ← uTailorBlocks sa sb r.2.1 d da
      pure (.spins d')
    | _, _ => .error .attributeError
  have hF : ∀ r ∈ fs, ∀ d da, amps.get? r.1 = some (.spins d) → active.get? r.1 = some (.spins da) →
      ∃ d', F (.spins da) r (.spins d) = .ok (.spins d') ∧ d'.keys = d.keys ∧ ∀ comb x v, d.get? comb = some x →
          da.get? comb = some v → ∃ y, d'.get? comb = some y ∧ Tailored (uActiveClasses sa sb comb r.2.1) x v y := by
    intro r hr d da hd hda
    obtain ⟨d', q1, q2⟩ := hone r hr d da hd hda
    exact ⟨d', by simp only [F, q1, bind, Except.bind, pure, Except.pure], q2⟩
  obtain ⟨d', e1, e2, e3, e4⟩ := replaceOpt_ok (fun r : Rank => r.1)
    (fun r => (active.get? r.1).map fun v x => F v r x) fs hnd amps (by
      intro r hr G hG
      obtain ⟨v, hv, rfl⟩ := Option.map_eq_some_iff.1 hG
      obtain ⟨d, hd, _⟩ := hx r hr
      obtain ⟨da, rfl, _⟩ := ha r hr v hv
      obtain ⟨y, hy, _⟩ := hF r hr d da hd hv
      exact ⟨_, _, hd, hy⟩)
  refine ⟨d', ?_, e2, ?_, ?_⟩
  · unfold uSetActiveSpace
    rw [hf]
    simp only [bind, Except.bind] at e1 ⊢
    rw [← e1]
    apply foldlM_congr_mem
    intro r _ dd
    cases active.get? r.1 with
    | none => rfl
    | some act =>
      simp only [Option.map_some]
      cases dd.getItem r.1 with
      | error e => rfl
      | ok x =>
        cases x <;> cases act <;> try rfl
        simp only [F, bind, Except.bind]
        split <;> rfl
  · intro r hr d da h1 h2
    obtain ⟨y, hy, hy2⟩ := hF r hr d da h1 h2
    obtain ⟨y', hy', hg⟩ := e3 r hr _ (by rw [h2]; rfl) _ h1
    replace hy' := hy.symm.trans hy'
    cases hy'
    exact ⟨y, hg, hy2⟩
  · intro nm hnm
    apply e4
    intro r hr e
    rcases hnm with h | h
    · rw [e, h]; rfl
    · exact absurd e (h r hr)

/-! ### External corrections -/

/-- A block of corrections: zero outside the classes of its key. -/
def blockElem [Zero R] (cls : List (List Bool)) (v : NDArray R) (idx : List Nat) : R :=
  if inBlock cls idx then v.get (blockIdx cls idx) else 0

theorem addExternal_ok [Ring R] {o f a : List Bool} {s : Space} (hs : Space.new o f a = .ok s)
    (hfro : ∀ p, inMask s.frozen p = false) (key : List Char) (hk : ∀ c ∈ key, c ∈ ['o', 'O', 'i', 'v', 'V', 'a'])
    (x ext : NDArray R) (hx : x.WF) (he : ext.WF) (hxs : x.shape = (key.map (axisClass s)).map List.length)
    (hes : ext.shape = (key.map (axisClass s)).map (List.count true)) :
    ∃ y, addExternal s x key ext = .ok y ∧ y.shape = x.shape ∧ y.WF ∧
      ∀ idx, InBox x.shape idx → y.get idx = x.get idx + blockElem (key.map (axisClass s)) ext idx := by
  have hm : key.mapM (extMask s) = .ok (key.map (axisClass s)) := mapM_ok _ _ _ fun c hc => extMask_ok hs hfro c (hk c hc)
  generalize key.map (axisClass s) = cls at hxs hes hm ⊢
  have hsh : (ixGet x (cls.map maskInds)).shape = cls.map (List.count true) := by
    change (cls.map maskInds).map List.length = _
    rw [List.map_map]
    apply List.map_congr_left
    intro m _
    exact maskInds_length m
  obtain ⟨v, hv1, hv2, hv3, hv4⟩ := add_ok (ixGet x (cls.map maskInds)) ext (NDArray.ofFn_wf _ _) he (by rw [hsh, hes])
  obtain ⟨y, y1, y2, y3, y4⟩ := put_block x cls v hx hv3 hxs (by rw [hv2, hsh])
  refine ⟨y, ?_, y2, y3, ?_⟩
  · have hcond : (cls.map maskInds).length = x.shape.length ∧
        (prodL (cls.map maskInds)).all (fun t => decide (t ∈ box x.shape)) = true := by
      by_contra hn
      unfold putIx at y1
      rw [if_neg hn] at y1
      cases y1
    unfold addExternal
    rw [hm]
    simp only [bind, Except.bind]
    rw [if_pos hcond, hv1]
    exact y1
  · intro idx hidx
    rw [y4 idx hidx]
    unfold blockElem
    by_cases hb : inBlock cls idx = true
    · rw [if_pos hb, if_pos hb, hv4]
      congr 1
      have hb' : (List.zipWith (fun (l : List Nat) i => decide (i ∈ l)) (cls.map maskInds) idx).all id = true := by
        rw [← hb]
        unfold inBlock
        rw [List.zipWith_map_left]
        congr 2
        funext m i
        rw [Bool.eq_iff_iff, decide_eq_true_eq, mem_maskInds]
      have hlen : (cls.map maskInds).length = idx.length := by
        rw [hidx.length_eq, hxs]; simp
      obtain ⟨z1, z2⟩ := zip_getD_idxOf _ idx hlen hb'
      have hbi : List.zipWith (fun (l : List Nat) i => l.idxOf i) (cls.map maskInds) idx = blockIdx cls idx := by
        clear hidx hxs hes hm hsh hv1 hv2 hv4 y1 y4 hb' hlen z1 z2
        unfold blockIdx
        unfold inBlock at hb
        rw [List.zipWith_map_left]
        induction cls generalizing idx with
        | nil => rfl
        | cons m cls ih =>
          cases idx with
          | nil => rfl
          | cons i idx =>
            simp only [List.zipWith_cons_cons, List.all_cons, id_eq, Bool.and_eq_true] at hb ⊢
            rw [ih idx hb.2, maskInds_idxOf m i hb.1]
      rw [hbi] at z1 z2
      unfold ixGet
      rw [NDArray.get_ofFn _ _ (mem_box.1 z1), z2]
    · rw [if_neg hb, if_neg hb, add_zero]

/-- The corrections fit the amplitude: keys over the classes of orbitals, the right shapes. -/
def BlocksFit (s : Space) (x : NDArray R) (blocks : Dict (List Char) (NDArray R)) : Prop :=
  ∀ kv ∈ blocks, (∀ c ∈ kv.1, c ∈ ['o', 'O', 'i', 'v', 'V', 'a']) ∧ kv.2.WF ∧
    x.shape = (kv.1.map (axisClass s)).map List.length ∧ kv.2.shape = (kv.1.map (axisClass s)).map (List.count true)

/-- Every element is increased by the sum of all corrections. -/
def Corrected [Ring R] (s : Space) (blocks : Dict (List Char) (NDArray R)) (x y : NDArray R) : Prop :=
  y.shape = x.shape ∧ y.WF ∧ ∀ idx, InBox x.shape idx →
    y.get idx = x.get idx + (blocks.map fun kv => blockElem (kv.1.map (axisClass s)) kv.2 idx).sum

theorem addBlocks_ok [Ring R] {o f a : List Bool} {s : Space} (hs : Space.new o f a = .ok s)
    (hfro : ∀ p, inMask s.frozen p = false) (blocks : Dict (List Char) (NDArray R)) (x : NDArray R) (hx : x.WF)
    (hb : BlocksFit s x blocks) :
    ∃ y, blocks.foldlM (fun x (kv : List Char × NDArray R) => addExternal s x kv.1 kv.2) x = .ok y ∧
      Corrected s blocks x y := by
  induction blocks generalizing x with
  | nil => exact ⟨x, rfl, rfl, hx, fun idx _ => by simp⟩
  | cons kv blocks ih =>
    obtain ⟨b1, b2, b3, b4⟩ := hb kv (by simp)
    obtain ⟨y, y1, y2, y3, y4⟩ := addExternal_ok hs hfro kv.1 b1 x kv.2 hx b2 b3 b4
    obtain ⟨z, z1, z2, z3, z4⟩ := ih y y3 (by
      intro kv' hkv'
      rw [y2]
      exact hb kv' (by simp [hkv']))
    refine ⟨z, ?_, by rw [z2, y2], z3, ?_⟩
    · rw [List.foldlM_cons, y1]
      exact z1
    · intro idx hidx
      rw [z4 idx (by rw [y2]; exact hidx), y4 idx hidx, List.map_cons, List.sum_cons, add_assoc]

/-- Restricted and general, without frozen orbitals: every amplitude for which there are corrections is increased by
them, block by block; nothing else changes. -/
theorem C47_corrected_partial [Ring R] {o f a : List Bool} {s : Space} (hs : Space.new o f a = .ok s)
    (hfro : ∀ p, inMask s.frozen p = false) (amps : Dict (List Char) (NDArray R))
    (exts : Dict (List Char) (Dict (List Char) (NDArray R))) (hnd : exts.keys.Nodup)
    (hfit : ∀ nm x blocks, amps.get? nm = some x → exts.get? nm = some blocks → x.WF ∧ BlocksFit s x blocks) :
    ∃ amps', addToAmps s amps exts = .ok amps' ∧ amps'.keys = amps.keys ∧
      (∀ nm x blocks, amps.get? nm = some x → exts.get? nm = some blocks →
        ∃ y, amps'.get? nm = some y ∧ Corrected s blocks x y) ∧
      ∀ nm, exts.get? nm = none → amps'.get? nm = amps.get? nm := by
  unfold addToAmps
  induction exts generalizing amps with
  | nil => exact ⟨amps, rfl, rfl, fun _ _ _ _ h => (by cases h), fun _ _ => rfl⟩
  | cons e exts ih =>
    obtain ⟨nm0, b0⟩ := e
    have hnd' : nm0 ∉ Dict.keys exts ∧ (Dict.keys exts).Nodup := by
      simpa [Dict.keys] using hnd
    have hne : ∀ nm blocks, Dict.get? exts nm = some blocks → nm ≠ nm0 := by
      rintro nm blocks h rfl
      exact hnd'.1 ((Dict.mem_keys_iff _ _).2 ⟨blocks, h⟩)
    have hcons : ∀ nm, Dict.get? ((nm0, b0) :: exts) nm = if nm0 = nm then some b0 else Dict.get? exts nm := by
      intro nm
      rfl
    rw [List.foldlM_cons]
    cases h0 : amps.get? nm0 with
    | none =>
      obtain ⟨d', e1, e2, e3, e4⟩ := ih amps hnd'.2 (by
        intro nm x blocks h1 h2
        exact hfit nm x blocks h1 (by rw [hcons, if_neg (hne nm blocks h2).symm]; exact h2))
      refine ⟨d', e1, e2, ?_, ?_⟩
      · intro nm x blocks h1 h2
        rw [hcons] at h2
        split at h2
        · rename_i e; subst e; rw [h0] at h1; cases h1
        · exact e3 nm x blocks h1 h2
      · intro nm h
        rw [hcons] at h
        split at h
        · cases h
        · exact e4 nm h
    | some x0 =>
      obtain ⟨q1, q2⟩ := hfit nm0 x0 b0 h0 (by rw [hcons, if_pos rfl])
      obtain ⟨y0, r1, r2⟩ := addBlocks_ok hs hfro b0 x0 q1 q2
      obtain ⟨d', e1, e2, e3, e4⟩ := ih (amps.set nm0 y0) hnd'.2 (by
        intro nm x blocks h1 h2
        rw [Dict.get?_set, if_neg (hne nm blocks h2).symm] at h1
        exact hfit nm x blocks h1 (by rw [hcons, if_neg (hne nm blocks h2).symm]; exact h2))
      refine ⟨d', ?_, ?_, ?_, ?_⟩
      · simp only [bind, Except.bind, pure, Except.pure] at r1 e1 ⊢
        rw [r1]
        exact e1
      · rw [e2, Dict.keys_set_of_mem _ _ _ ((Dict.mem_keys_iff _ _).2 ⟨x0, h0⟩)]
      · intro nm x blocks h1 h2
        rw [hcons] at h2
        split at h2
        · rename_i e
          subst e
          cases h2
          rw [h0] at h1
          cases h1
          have hn : Dict.get? exts nm0 = none := by
            cases h : Dict.get? exts nm0 with
            | none => rfl
            | some b => exact absurd rfl (hne nm0 b h)
          exact ⟨y0, by rw [e4 nm0 hn, Dict.get?_set, if_pos rfl], r2⟩
        · rename_i e
          exact e3 nm x blocks (by rw [Dict.get?_set, if_neg e]; exact h1) h2
      · intro nm h
        rw [hcons] at h
        split at h
        · cases h
        · rename_i e
          rw [e4 nm h, Dict.get?_set, if_neg e]

end

/-! ### Frozen orbitals and active axes -/

def ccs47 : Ansatz := ⟨"CCSD".toList, [], 0, 0, false, none⟩

/-- Three occupied orbitals (frozen, active, inactive) and one active virtual orbital. -/
def frozen47 : Space := ⟨[true, true, true, false], [true, false, false, false], [false, true, false, true]⟩

/-- The amplitude of the active orbital is written to the inactive one: the masks count the frozen orbital, the axes of
the amplitudes do not.  `t1` has the elements 1 (active) and 2 (inactive); the active amplitude is 9. -/
theorem C47_frozen_fails :
    Space.new frozen47.occupied frozen47.frozen frozen47.active = .ok frozen47 ∧
    axisOrbitals frozen47 true = [1, 2] ∧ axisClass frozen47 'O' = [true, false] ∧
    setActiveSpace ccs47 .R frozen47 [(['t', '1'], (⟨[2, 1], [1, 2]⟩ : NDArray Int))] [(['t', '1'], ⟨[1, 1], [9]⟩)]
      = .ok [(['t', '1'], ⟨[2, 1], [1, 9]⟩)] := by decide +kernel

/-- With the active orbital last the position does not exist. -/
theorem C47_frozen_raises :
    setActiveSpace ccs47 .R ⟨[true, true, false], [true, false, false], [false, true, true]⟩
      [(['t', '1'], (⟨[1, 1], [1]⟩ : NDArray Int))] [(['t', '1'], ⟨[1, 1], [9]⟩)] = .error .valueError := by
  decide +kernel

/-- The triples of CCSDt' have active axes: the axis for one active orbital, the second of the occupied ones, has one
element, and the mask asks for the second. -/
theorem C47_active_axis_raises :
    setActiveSpace ⟨"CCSDt'".toList, [], 0, 0, false, none⟩ .R ⟨[true, true, false], [false, false, false], [false, true, true]⟩
      [("t3".toList, (⟨[1, 1, 1, 1, 1, 1], [1]⟩ : NDArray Int))] [("t3".toList, ⟨[1, 1, 1, 1, 1, 1], [9]⟩)]
      = .error .valueError := by
  decide +kernel

/-! ### Examples -/

/-- Two occupied and two virtual orbitals, one of each active. -/
def space47 : Space := ⟨[true, true, false, false], [false, false, false, false], [false, true, true, false]⟩

/-- The hypotheses of `C47_tailored_partial` are satisfied. -/
example : Space.new space47.occupied space47.frozen space47.active = .ok space47 ∧
    (activeClasses space47 ['o', 'v']).map List.length = [2, 2] ∧
    (activeClasses space47 ['o', 'v']).map (List.count true) = [1, 1] := by decide +kernel

/-- Only the element of the active orbitals is set. -/
example : setActiveSpace ccs47 .R space47 [(['t', '1'], (⟨[2, 2], [1, 2, 3, 4]⟩ : NDArray Int)), (['t', '2'], ⟨[], [0]⟩)]
    [(['t', '1'], ⟨[1, 1], [9]⟩)] = .ok [(['t', '1'], ⟨[2, 2], [1, 2, 9, 4]⟩), (['t', '2'], ⟨[], [0]⟩)] := by
  decide +kernel

/-- Unrestricted. -/
example : uSetActiveSpace ccs47 space47 space47
    [(['t', '1'], .spins [(['a', 'a'], (⟨[2, 2], [1, 2, 3, 4]⟩ : NDArray Int)), (['b', 'b'], ⟨[2, 2], [5, 6, 7, 8]⟩)])]
    [(['t', '1'], .spins [(['a', 'a'], ⟨[1, 1], [0]⟩), (['b', 'b'], ⟨[1, 1], [-1]⟩)])]
      = .ok [(['t', '1'], .spins [(['a', 'a'], ⟨[2, 2], [1, 2, 0, 4]⟩), (['b', 'b'], ⟨[2, 2], [5, 6, -1, 8]⟩)])] := by
  decide +kernel

/-- Corrections for two blocks of one amplitude, and for one that is not there. -/
example : addToAmps space47 [(['t', '1'], (⟨[2, 2], [1, 2, 3, 4]⟩ : NDArray Int))]
    [(['t', '3'], []), (['t', '1'], [(['i', 'V'], ⟨[1, 1], [10]⟩), (['O', 'v'], ⟨[1, 2], [20, 30]⟩)])]
      = .ok [(['t', '1'], ⟨[2, 2], [11, 2, 23, 34]⟩)] := by decide +kernel

end Ebcc
