import Verif.Thms.C27
import Verif.Thms.C29

/-!
C28: what is returned before the extrapolation starts. The claim is false of DIIS: until there are enough
stored errors it returns the first vector, not the newest.
-/

set_option linter.unusedSectionVars false

namespace Ebcc

open Dict

section
variable {V R : Type} [Field R] [LinearOrder R] [IsStrictOrderedRing R] [AddCommGroup V] [Module R V]

theorem store_reference {dot : V → V → R} (cfg : DIISConfig R) {st st' : DIIS V R}
    (h : DInv dot cfg.space (st.counter + 1) st) (a e : V) (hs : st.store dot cfg a e = .ok st') :
    st'.arrays.get? (-1) = st.arrays.get? (-1) ∧ st'.errors.length ≤ st.errors.length + 1 := by
  have hc : st.counter ≠ -1 := by have := h.counter; omega
  have hset : (st.arrays.set st.counter a).get? (-1) = st.arrays.get? (-1) := by
    rw [get?_set, if_neg hc]
  have hlen : (st.errors.set st.counter e).length ≤ st.errors.length + 1 := by
    rw [← length_keys, ← length_keys]
    by_cases hm : st.counter ∈ st.errors.keys
    · rw [keys_set_of_mem _ _ _ hm]; omega
    · rw [keys_set_of_not_mem _ _ _ hm]; simp
  have hnd : (st.arrays.set st.counter a).keys.Nodup := nodup_keys_set _ h.nodup _ _
  unfold DIIS.store at hs
  simp only [bind, Except.bind, pure, Except.pure] at hs
  split at hs
  · split at hs
    · simp at hs
    · rename_i v hv
      split at hs
      · simp at hs
      · rename_i x l hz
        simp only [Except.ok.injEq] at hs
        subst hs
        have hk : argMax x l ∈ (st.errors.set st.counter e).keys := by
          have := argMax_mem x l
          rw [← hz, List.mem_map] at this
          obtain ⟨p, hp, he⟩ := this
          exact he ▸ (List.of_mem_zip hp).1
        have hk0 : argMax x l ≠ -1 := by
          by_cases hm : st.counter ∈ st.errors.keys
          · rw [keys_set_of_mem _ _ _ hm] at hk
            have := (h.range _ hk).1; omega
          · rw [keys_set_of_not_mem _ _ _ hm, List.mem_append, List.mem_singleton] at hk
            rcases hk with hk | hk
            · have := (h.range _ hk).1; omega
            · rw [hk]; exact hc
        refine ⟨?_, ?_⟩
        · simp only
          rw [get?_erase_of_nodup _ hnd, if_neg hk0, hset]
        · simp only
          refine le_trans ?_ hlen
          rw [← length_keys, ← length_keys, keys_erase]
          exact List.length_erase_le
  · simp only [Except.ok.injEq] at hs
    subst hs
    exact ⟨hset, hlen⟩

theorem push_reference {dot : V → V → R} (cfg : DIISConfig R) {st st' : DIIS V R}
    (h : DInv dot cfg.space (st.counter + 1) st) (a : V) (err : Option V)
    (hs : st.push dot cfg a err = .ok st') (a0 : V) (h0 : st.arrays.get? (-1) = some a0) :
    st'.arrays.get? (-1) = some a0 ∧ st'.errors.length ≤ st.errors.length + 1 := by
  have hne : st.arrays.length ≠ 0 := by
    intro he
    rw [List.length_eq_zero_iff] at he
    rw [he] at h0; simp [Dict.get?] at h0
  cases err with
  | none =>
    simp only [DIIS.push, h0] at hs
    rw [← h0]
    exact store_reference cfg h _ _ hs
  | some e =>
    simp only [DIIS.push, if_neg hne] at hs
    rw [← h0]
    exact store_reference cfg h _ _ hs

/-- While fewer errors are stored than needed, a call returns the reference (the first vector). -/
theorem call_reference {dot : V → V → R} (hdot : ∀ x y, dot x y = dot y x)
    (solve : List (List R) → List R → List R) (cfg : DIISConfig R) (hmin : 1 ≤ cfg.minSpace)
    {st : DIIS V R} (h : DInv dot cfg.space (st.counter + 1) st) (a : V) (err : Option V) (a0 : V)
    (h0 : st.arrays.get? (-1) = some a0)
    (hfew : st.errors.length + 1 < cfg.minSpace ∨ cfg.space = 1) :
    ∃ st', st.call dot solve cfg a err = .ok (a0, st') ∧ DInv dot cfg.space (st'.counter + 1) st' ∧
      st'.arrays.get? (-1) = some a0 ∧ st'.errors.length ≤ st.errors.length + 1 := by
  obtain ⟨s1, p1, p2, p3⟩ := push_ok hdot cfg h a err
  obtain ⟨q1, q2⟩ := push_reference cfg h a err p1 a0 h0
  obtain ⟨hex, _⟩ := extrapolate_eq hdot solve cfg hmin p2 p3
  have hcl : s1.counters.length = s1.errors.length := by
    unfold DIIS.counters
    rw [List.length_insertionSort, length_keys]
  have hsmall : s1.counters.length < cfg.minSpace := by
    rcases hfew with hf | hf
    · omega
    · have hsp := p2.space
      rw [List.filter_eq_self.2 fun k hk => by simpa using (p2.range k hk).2] at hsp
      rw [length_keys] at hsp
      omega
  refine ⟨s1, ?_, ?_, q1, q2⟩
  · rw [DIIS.call, p1]
    simp only [bind, Except.bind]
    rw [hex hsmall, errorAt, q1]; rfl
  · exact ⟨p2.nodup, p2.keys, fun k hk => ⟨(p2.range k hk).1, by have := (p2.range k hk).2; omega⟩,
      p2.cacheOK, p2.cacheBound, p2.counter, p2.space⟩

theorem first_call (dot : V → V → R) (solve : List (List R) → List R → List R) (cfg : DIISConfig R)
    (hmin : 1 ≤ cfg.minSpace) (a : V) (err : Option V) :
    DIIS.call dot solve cfg DIIS.init a err = .ok (a, ⟨[(-1, a)], [], 0, []⟩) := by
  have hp : DIIS.push dot cfg (DIIS.init : DIIS V R) a err = .ok ⟨[(-1, a)], [], 0, []⟩ := by
    cases err <;> simp [DIIS.push, DIIS.init, Dict.get?, Dict.set]
  rw [DIIS.call, hp]
  simp only [bind, Except.bind]
  have hm : 0 < cfg.minSpace := hmin
  simp [DIIS.extrapolate, hm, Dict.getItem, Dict.get?, bind, Except.bind, pure, Except.pure, Dict.keys]

/-- The first call returns its argument, for both kinds of damping. -/
theorem C28_first_call_partial (dot : V → V → R) (solve : List (List R) → List R → List R) (cfg : DIISConfig R)
    (hmin : 1 ≤ cfg.minSpace) (a : V) (err : Option V) (f : R) :
    (∃ st, DIIS.call dot solve cfg DIIS.init a err = .ok (a, st)) ∧
    (∃ st, LinState.call f (LinState.init : LinState V) a = .ok (a, st)) := by
  refine ⟨⟨_, first_call dot solve cfg hmin a err⟩, ⟨⟨[(0, a)], 1⟩, ?_⟩⟩
  simp [LinState.call, LinState.push, LinState.extrapolate, LinState.init, bind, Except.bind,
    pure, Except.pure, Dict.set]

theorem run_reference {dot : V → V → R} (hdot : ∀ x y, dot x y = dot y x)
    (solve : List (List R) → List R → List R) (cfg : DIISConfig R) (hmin : 1 ≤ cfg.minSpace) (a0 : V)
    (l : List (V × Option V)) (st : DIIS V R) (h : DInv dot cfg.space (st.counter + 1) st)
    (h0 : st.arrays.get? (-1) = some a0) (hl : st.errors.length + l.length < cfg.minSpace ∨ cfg.space = 1) :
    ∃ st', DIIS.run dot solve cfg st (l.map fun p => .call p.1 p.2) = .ok (List.replicate l.length a0, st') := by
  induction l generalizing st with
  | nil => exact ⟨st, rfl⟩
  | cons p l ih =>
    obtain ⟨s1, c1, c2, c3, c4⟩ := call_reference hdot solve cfg hmin h p.1 p.2 a0 h0
      (by rcases hl with hl | hl
          · left; simp only [List.length_cons] at hl; omega
          · exact .inr hl)
    obtain ⟨s2, e2⟩ := ih s1 c2 c3 (by
      rcases hl with hl | hl
      · left; simp only [List.length_cons] at hl; omega
      · exact .inr hl)
    refine ⟨s2, ?_⟩
    rw [List.map_cons, DIIS.run, c1]
    simp only [bind, Except.bind]
    rw [e2]
    rfl

/-- Refutation of the claim, for every setting and all vectors: until `min_space` errors are stored DIIS
returns the first vector it was given, whatever is pushed; with `space = 1` it does so for ever. -/
theorem C28_stuck_at_first (dot : V → V → R) (hdot : ∀ x y, dot x y = dot y x)
    (solve : List (List R) → List R → List R) (cfg : DIISConfig R) (hmin : 1 ≤ cfg.minSpace)
    (hspace : 1 ≤ cfg.space) (a0 : V) (e0 : Option V) (l : List (V × Option V))
    (hl : l.length < cfg.minSpace ∨ cfg.space = 1) :
    ∃ st, DIIS.run dot solve cfg DIIS.init (((a0, e0) :: l).map fun p => .call p.1 p.2)
      = .ok (List.replicate (l.length + 1) a0, st) := by
  have h1 := first_call dot solve cfg hmin a0 e0
  have hinv := run_inv hdot solve cfg hmin hspace [.call a0 e0] DIIS.init (init_inv dot cfg.space hspace)
  obtain ⟨o, s, r1, r2⟩ := hinv
  rw [DIIS.run, h1] at r1
  simp only [bind, Except.bind, DIIS.run, pure, Except.pure, Except.ok.injEq, Prod.mk.injEq] at r1
  obtain ⟨_, rfl⟩ := r1
  obtain ⟨st', e⟩ := run_reference hdot solve cfg hmin a0 l _ r2 (by simp [Dict.get?])
    (by rcases hl with hl | hl
        · left; simpa using hl
        · exact .inr hl)
  refine ⟨st', ?_⟩
  rw [List.map_cons, DIIS.run, h1]
  simp only [bind, Except.bind]
  rw [e]
  rfl

/-- In particular the second call does not return its argument, when more than one error is needed. -/
theorem C28_newest_not_returned (dot : V → V → R) (hdot : ∀ x y, dot x y = dot y x)
    (solve : List (List R) → List R → List R) (cfg : DIISConfig R) (hmin : 2 ≤ cfg.minSpace)
    (hspace : 1 ≤ cfg.space) (a0 a1 : V) (hne : a1 ≠ a0) (outs : List V) (st : DIIS V R)
    (hrun : DIIS.run dot solve cfg DIIS.init [.call a0 none, .call a1 none] = .ok (outs, st)) :
    outs ≠ [a0, a1] := by
  obtain ⟨s, e⟩ := C28_stuck_at_first dot hdot solve cfg (by omega) hspace a0 none [(a1, none)]
    (by left; simp; omega)
  rw [List.map_cons, List.map_cons, List.map_nil, hrun] at e
  cases e
  simpa using Ne.symm hne

/-- With the default settings (one error suffices, room for two vectors, no damping) the second call does
return its argument, if the solver solves the linear system of size two. -/
theorem C28_default_second_call_partial (dot : V → V → R) (hin : IsInner dot)
    (solve : List (List R) → List R → List R) (cfg : DIISConfig R) (hmin : cfg.minSpace = 1)
    (hspace : 2 ≤ cfg.space) (a0 a1 : V)
    (hsol : Solves [[dot (a1 - a0) (a1 - a0), -1], [-1, 0]]
      (solve [[dot (a1 - a0) (a1 - a0), -1], [-1, 0]] [0, -1]) [0, -1])
    (hlen : (solve [[dot (a1 - a0) (a1 - a0), -1], [-1, 0]] [0, -1]).length = 2) :
    ∃ st, DIIS.run dot solve cfg DIIS.init [.call a0 none, .call a1 none]
      = .ok ([a0, (1 - cfg.factor) • a1 + cfg.factor • a0], st) := by
  have h1 := first_call dot solve cfg (by omega) a0 none
  have hp : DIIS.push dot cfg (⟨[(-1, a0)], [], 0, []⟩ : DIIS V R) a1 none
      = .ok ⟨[(-1, a0), (0, a1)], [(0, a1 - a0)], 1, []⟩ := by
    have hs : ¬ 2 > cfg.space := by omega
    simp [DIIS.push, DIIS.store, Dict.get?, Dict.set, hs, pure, Except.pure]
  have hctr : DIIS.counters (⟨[(-1, a0), (0, a1)], [(0, a1 - a0)], 1, []⟩ : DIIS V R) = [0] := rfl
  have hmat : DIIS.matrix dot (⟨[(-1, a0), (0, a1)], [(0, a1 - a0)], 1, []⟩ : DIIS V R)
      = [[dot (a1 - a0) (a1 - a0), -1], [-1, 0]] := by
    rw [DIIS.matrix, hctr]
    simp [diisMatrix, errorAt, Dict.get?]
  have hco : DIIS.coeffs dot solve (⟨[(-1, a0), (0, a1)], [(0, a1 - a0)], 1, []⟩ : DIIS V R)
      = solve [[dot (a1 - a0) (a1 - a0), -1], [-1, 0]] [0, -1] := by
    rw [DIIS.coeffs, hmat, hctr]; rfl
  have hrun : DIIS.run dot solve cfg DIIS.init [.call a0 none]
      = .ok ([a0], (⟨[(-1, a0)], [], 0, []⟩ : DIIS V R)) := by
    rw [DIIS.run, h1]; rfl
  obtain ⟨c, y, st2, q1, q2, q3, q4, _, _, _⟩ := C27_extrapolation dot hin solve cfg (by omega) (by omega)
    [.call a0 none] _ _ _ hrun a1 none hp (by simp [hmin]) (by rw [hmat, hco, hctr]; exact hsol)
    (by rw [hco, hctr]; exact hlen)
  obtain ⟨x, rfl⟩ : ∃ x, c = [x] := List.length_eq_one_iff.1 q1
  have hx : x = 1 := by simpa using q2
  subst hx
  refine ⟨st2, ?_⟩
  rw [DIIS.run, h1]
  simp only [bind, Except.bind]
  rw [DIIS.run, q3]
  simp only [bind, Except.bind, DIIS.run, pure, Except.pure]
  rw [q4, hctr]
  simp [lc, errorAt, Dict.get?]

end

/-- A concrete run: min_space 2; the vectors 1, 5 come back as 1, 1. -/
example : ∃ st, DIIS.run (fun x y : Rat => x * y) exSolve ⟨9, 2, 0⟩ DIIS.init
    [.call (1 : Rat) none, .call 5 none] = .ok ([1, 1], st) :=
  C28_stuck_at_first (fun x y : Rat => x * y) (fun x y => mul_comm x y) exSolve ⟨9, 2, 0⟩ (by simp) (by simp) 1 none
    [(5, none)] (by left; simp)

end Ebcc
