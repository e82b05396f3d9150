import Verif.Lemmas.GenSpace
import Verif.Lemmas.Spread
import Mathlib.Tactic.Abel
import Mathlib.Tactic.Ring

/-!
The arrays of general orbitals built by `GEBCC.from_uebcc`: orbitals of a class, one- and two-particle arrays.
-/

namespace Ebcc

/-! ### Orbitals of a class -/

/-- The orbitals selected by a mask. -/
def orbitalsOf (m : List Bool) : List Nat := (List.range m.length).filter fun i => m.getD i false

theorem orbitalsOf_append (m : List Bool) (b : Bool) :
    orbitalsOf (m ++ [b]) = orbitalsOf m ++ if b then [m.length] else [] := by
  unfold orbitalsOf
  rw [List.length_append, List.length_singleton, List.range_succ, List.filter_append]
  congr 1
  · apply List.filter_congr
    intro i hi
    rw [List.mem_range] at hi
    simp [List.getElem?_append_left hi]
  · cases b <;> simp

theorem selectMask_eq (m : List Bool) (x : List Char) (hl : m.length = x.length) :
    selectMask m x = (orbitalsOf m).map fun i => x.getD i ' ' := by
  induction x using List.reverseRecOn generalizing m with
  | nil => cases m <;> simp_all [selectMask, orbitalsOf]
  | append_singleton l c ih =>
    obtain ⟨m', b, rfl⟩ : ∃ m' b, m = m' ++ [b] := by
      rcases List.eq_nil_or_concat m with rfl | ⟨m', b, rfl⟩
      · simp at hl
      · exact ⟨m', b, List.concat_eq_append ..⟩
    have hl' : m'.length = l.length := by simpa using hl
    rw [selectMask_append _ _ _ _ hl', ih m' hl', orbitalsOf_append, List.map_append]
    congr 1
    · apply List.map_congr_left
      intro i hi
      have hi' : i < l.length := by
        rw [orbitalsOf, List.mem_filter, List.mem_range] at hi
        omega
      simp [List.getElem?_append_left hi']
    · cases b <;> simp [selectMask, hl']

theorem whereSpin_append (l : List Char) (c s : Char) :
    whereSpin (l ++ [c]) s = whereSpin l s ++ if c = s then [l.length] else [] := by
  unfold whereSpin
  rw [List.length_append, List.length_singleton, List.range_succ, List.filter_append]
  congr 1
  · apply List.filter_congr
    intro i hi
    rw [List.mem_range] at hi
    simp [List.getElem?_append_left hi]
  · by_cases h : c = s <;> simp [h]

/-- The orbitals of one spin in a class, numbered within the spin. -/
theorem orbitals_spin (orbspin : List Char) (m : List Bool) (hl : m.length = orbspin.length) (s : Char) :
    orbitalsOf ((whereSpin orbspin s).map fun i => m.getD i false)
      = ((orbitalsOf m).filter fun i => orbspin.getD i ' ' = s).map (spinPos orbspin) := by
  induction orbspin using List.reverseRecOn generalizing m with
  | nil => cases m <;> simp_all [whereSpin, orbitalsOf]
  | append_singleton l c ih =>
    obtain ⟨m', b, rfl⟩ : ∃ m' b, m = m' ++ [b] := by
      rcases List.eq_nil_or_concat m with rfl | ⟨m', b, rfl⟩
      · simp at hl
      · exact ⟨m', b, List.concat_eq_append ..⟩
    have hl' : m'.length = l.length := by simpa using hl
    have hm : ∀ i ∈ orbitalsOf m', i < l.length := by
      intro i hi
      rw [orbitalsOf, List.mem_filter, List.mem_range] at hi
      omega
    have e1 : (whereSpin l s).map (fun i => (m' ++ [b]).getD i false)
        = (whereSpin l s).map fun i => m'.getD i false := by
      apply List.map_congr_left
      intro i hi
      have := ((mem_whereSpin _ _ _).1 hi).1
      simp [List.getElem?_append_left (hl' ▸ this : i < m'.length)]
    have e2 : ((orbitalsOf m').filter fun i => decide ((l ++ [c]).getD i ' ' = s)).map (spinPos (l ++ [c]))
        = ((orbitalsOf m').filter fun i => decide (l.getD i ' ' = s)).map (spinPos l) := by
      have : ((orbitalsOf m').filter fun i => decide ((l ++ [c]).getD i ' ' = s))
          = (orbitalsOf m').filter fun i => decide (l.getD i ' ' = s) := by
        apply List.filter_congr
        intro i hi
        simp [List.getElem?_append_left (hm i hi)]
      rw [this]
      apply List.map_congr_left
      intro i hi
      have hi' := hm i (List.mem_of_mem_filter hi)
      simp [spinPos, List.getElem?_append_left hi', List.take_append_of_le_length (le_of_lt hi')]
    rw [whereSpin_append, List.map_append, e1, orbitalsOf_append, List.filter_append, List.map_append, e2]
    by_cases h : c = s
    · rw [if_pos h]
      rw [show ([l.length].map fun i => (m' ++ [b]).getD i false) = [b] by simp [← hl'], orbitalsOf_append, ih m' hl']
      congr 1
      cases b
      · simp
      · simp [h, hl', spinPos, length_whereSpin]
    · rw [if_neg h, List.map_nil, List.append_nil, ih m' hl']
      cases b <;> simp [h, hl']

theorem filter_nth {α : Type} (f : α → Char) (s : Char) (L : List α) (d : α) (p : Nat) (hp : p < L.length)
    (hs : f (L.getD p d) = s) :
    (L.filter fun i => f i = s).getD (((L.map f).take p).count s) d = L.getD p d := by
  induction L generalizing p with
  | nil => simp at hp
  | cons x L ih =>
    cases p with
    | zero =>
      simp only [List.getD_cons_zero] at hs
      simp [hs]
    | succ p =>
      simp only [List.getD_cons_succ, List.length_cons, Nat.add_lt_add_iff_right] at hs hp
      have := ih p hp hs
      by_cases hx : f x = s
      · rw [List.filter_cons_of_pos (by simpa using hx)]
        simp only [List.map_cons, List.take_succ_cons, hx, List.count_cons_self, List.getD_cons_succ]
        exact this
      · rw [List.filter_cons_of_neg (by simpa using hx)]
        simp only [List.map_cons, List.take_succ_cons, List.getD_cons_succ]
        rw [List.count_cons_of_ne (by simpa using hx)]
        exact this

/-! ### One- and two-particle arrays -/

section
variable {R : Type} [Ring R]

/-- The spin blocks of a one-particle amplitude. -/
def HasSingles (block : List Char → Except PyErr (NDArray R)) (pre : List Nat) (so sv : List Char)
    (U : Char → NDArray R) : Prop :=
  ∀ s, s = 'a' ∨ s = 'b' → block [s, s] = .ok (U s) ∧ (U s).WF ∧ (U s).shape = pre ++ [so.count s, sv.count s]

/-- A one-particle amplitude of general orbitals: zero between different spins, otherwise the spin block. -/
def IsSingles (pre : List Nat) (so sv : List Char) (U : Char → NDArray R) (G : NDArray R) : Prop :=
  G.WF ∧ G.shape = pre ++ [so.length, sv.length] ∧
    ∀ bs p q, ValidIdx pre bs → p < so.length → q < sv.length → G.get (bs ++ [p, q]) =
      if so.getD p ' ' = sv.getD q ' ' then (U (so.getD p ' ')).get (bs ++ [spinPos so p, spinPos sv q]) else 0

theorem combos_one (uniq : Bool) : ∃ s1 s2, generateSpinCombinations 1 false uniq = [[s1, s1], [s2, s2]] ∧
    (s1 = 'a' ∧ s2 = 'b' ∨ s1 = 'b' ∧ s2 = 'a') := by
  cases uniq
  · exact ⟨'a', 'b', by decide, Or.inl ⟨rfl, rfl⟩⟩
  · exact ⟨'b', 'a', by decide, Or.inr ⟨rfl, rfl⟩⟩

theorem getD_spin {sig : List Char} (h : ∀ c ∈ sig, c = 'a' ∨ c = 'b') {p : Nat} (hp : p < sig.length) :
    sig.getD p ' ' = 'a' ∨ sig.getD p ' ' = 'b' := by
  rw [List.getD_eq_getElem?_getD, List.getElem?_eq_getElem hp, Option.getD_some]
  exact h _ (List.getElem_mem hp)

theorem spreadSpins_one {slices : Char → Char → Except PyErr (List Nat)} {size : Char → Except PyErr Nat}
    {sig : Char → List Char} {o v : Char} (hL : SpinLayout slices size sig [o, v]) (nbos nb : Nat) (uniq : Bool)
    (block : List Char → Except PyErr (NDArray R)) (U : Char → NDArray R)
    (hU : HasSingles block (List.replicate nb nbos) (sig o) (sig v) U) :
    ∃ G, spreadSpins slices size nbos nb 1 uniq [o, v] block = .ok G ∧
      IsSingles (List.replicate nb nbos) (sig o) (sig v) U G := by
  obtain ⟨s1, s2, hc, hs⟩ := combos_one uniq
  have hs1 : s1 = 'a' ∨ s1 = 'b' := by rcases hs with h | h <;> simp [h.1]
  have hs2 : s2 = 'a' ∨ s2 = 'b' := by rcases hs with h | h <;> simp [h.2]
  have hsh : [o, v].mapM size = .ok [(sig o).length, (sig v).length] := by
    simp [List.mapM_cons, hL.size, bind, Except.bind, pure, Except.pure]
  obtain ⟨u1, u2, u3⟩ := hU s1 hs1
  obtain ⟨w1, w2, w3⟩ := hU s2 hs2
  obtain ⟨g1, a1, a2, a3, a4⟩ := spread_one hL nbos nb s1 hs1 block (U s1) u1 u2 u3
    (NDArray.zeros (List.replicate nb nbos ++ [(sig o).length, (sig v).length])) rfl
  obtain ⟨g2, b1, b2, b3, b4⟩ := spread_one hL nbos nb s2 hs2 block (U s2) w1 w2 w3 g1 a3
  refine ⟨g2, ?_, b2, b3.trans a3, fun bs p q hbs hp hq => ?_⟩
  · unfold spreadSpins
    simp only [hsh, bind, Except.bind, hc, List.foldlM_cons, a1, b1, List.foldlM_nil, pure, Except.pure]
  · have hv : ValidIdx (List.replicate nb nbos ++ [(sig o).length, (sig v).length]) (bs ++ [p, q]) := by
      unfold ValidIdx at *
      exact List.rel_append hbs (by simp [hp, hq])
    rw [b4 bs p q hbs hp hq, a4 bs p q hbs hp hq, zeros_get, zero_add]
    have h1 := getD_spin (hL.spins o (by simp)) hp
    have h2 := getD_spin (hL.spins v (by simp)) hq
    generalize (sig o).getD p ' ' = c at h1
    generalize (sig v).getD q ' ' = d at h2
    rcases hs with ⟨rfl, rfl⟩ | ⟨rfl, rfl⟩ <;> rcases h1 with rfl | rfl <;> rcases h2 with rfl | rfl <;> simp

/-- The independent spin blocks of a two-particle amplitude. -/
def HasDoubles (block : List Char → Except PyErr (NDArray R)) (so sv : List Char) (Uaa Uab Ubb : NDArray R) : Prop :=
  (block ['a', 'a', 'a', 'a'] = .ok Uaa ∧ Uaa.WF ∧ Uaa.shape = [so.count 'a', so.count 'a', sv.count 'a', sv.count 'a']) ∧
  (block ['a', 'b', 'a', 'b'] = .ok Uab ∧ Uab.WF ∧ Uab.shape = [so.count 'a', so.count 'b', sv.count 'a', sv.count 'b']) ∧
  (block ['b', 'b', 'b', 'b'] = .ok Ubb ∧ Ubb.WF ∧ Ubb.shape = [so.count 'b', so.count 'b', sv.count 'b', sv.count 'b'])

/-- Element of a two-particle amplitude of general orbitals. -/
def doublesElem (so sv : List Char) (Uaa Uab Ubb : NDArray R) (p q r t : Nat) : R :=
  if spins4 so sv p q r t = ['a', 'a', 'a', 'a'] then Uaa.get (pos4 so sv p q r t) - Uaa.get (pos4 so sv q p r t)
  else if spins4 so sv p q r t = ['b', 'b', 'b', 'b'] then Ubb.get (pos4 so sv p q r t) - Ubb.get (pos4 so sv q p r t)
  else if spins4 so sv p q r t = ['a', 'b', 'a', 'b'] then Uab.get (pos4 so sv p q r t)
  else if spins4 so sv p q r t = ['a', 'b', 'b', 'a'] then -Uab.get (pos4 so sv p q t r)
  else if spins4 so sv p q r t = ['b', 'a', 'a', 'b'] then -Uab.get (pos4 so sv q p r t)
  else if spins4 so sv p q r t = ['b', 'a', 'b', 'a'] then Uab.get (pos4 so sv q p t r)
  else 0

def IsDoubles (so sv : List Char) (Uaa Uab Ubb G : NDArray R) : Prop :=
  G.WF ∧ G.shape = [so.length, so.length, sv.length, sv.length] ∧
    ∀ p q r t, InRange4 so sv p q r t → G.get [p, q, r, t] = doublesElem so sv Uaa Uab Ubb p q r t

theorem spreadSpins_two {slices : Char → Char → Except PyErr (List Nat)} {size : Char → Except PyErr Nat}
    {sig : Char → List Char} {o v : Char} (hL : SpinLayout slices size sig [o, v]) (nbos : Nat)
    (block : List Char → Except PyErr (NDArray R)) (Uaa Uab Ubb : NDArray R)
    (hU : HasDoubles block (sig o) (sig v) Uaa Uab Ubb) :
    ∃ G, spreadSpins slices size nbos 0 2 true [o, o, v, v] block = .ok G ∧
      IsDoubles (sig o) (sig v) Uaa Uab Ubb G := by
  obtain ⟨⟨u1, u2, u3⟩, ⟨v1, v2, v3⟩, w1, w2, w3⟩ := hU
  have hc : generateSpinCombinations 2 false true
      = [['a', 'a', 'a', 'a'], ['a', 'b', 'a', 'b'], ['b', 'b', 'b', 'b']] := by decide
  have hsh : [o, o, v, v].mapM size = .ok [(sig o).length, (sig o).length, (sig v).length, (sig v).length] := by
    simp [List.mapM_cons, hL.size, bind, Except.bind, pure, Except.pure]
  obtain ⟨g1, a1, a2, a3, a4⟩ := spread_same hL nbos 'a' (Or.inl rfl) block Uaa u1 u2 u3
    (NDArray.zeros [(sig o).length, (sig o).length, (sig v).length, (sig v).length]) rfl
  obtain ⟨g2, b1, b2, b3, b4⟩ := spread_mixed hL nbos block Uab v1 v2 v3 g1 a3
  obtain ⟨g3, c1, c2, c3, c4⟩ := spread_same hL nbos 'b' (Or.inr rfl) block Ubb w1 w2 w3 g2 (b3.trans a3)
  refine ⟨g3, ?_, c2, c3.trans (b3.trans a3), fun p q r t h => ?_⟩
  · unfold spreadSpins
    simp only [hsh, bind, Except.bind, hc, List.foldlM_cons, List.replicate_zero, List.nil_append, a1, b1, c1,
      List.foldlM_nil, pure, Except.pure]
  · have hv : ValidIdx [(sig o).length, (sig o).length, (sig v).length, (sig v).length] [p, q, r, t] := by
      obtain ⟨h1, h2, h3, h4⟩ := h
      simp [validIdx_cons, validIdx_nil, h1, h2, h3, h4]
    rw [c4 p q r t h, b4 p q r t h, a4 p q r t h, zeros_get, zero_add]
    unfold doublesElem
    generalize spins4 (sig o) (sig v) p q r t = sp
    by_cases e1 : sp = ['a', 'a', 'a', 'a']
    · subst e1; simp
    by_cases e2 : sp = ['b', 'b', 'b', 'b']
    · subst e2; simp
    by_cases e3 : sp = ['a', 'b', 'a', 'b']
    · subst e3; simp
    by_cases e4 : sp = ['a', 'b', 'b', 'a']
    · subst e4; simp
    by_cases e5 : sp = ['b', 'a', 'a', 'b']
    · subst e5; simp
    by_cases e6 : sp = ['b', 'a', 'b', 'a']
    · subst e6; simp
    simp [e1, e2, e3, e4, e5, e6]

end

end Ebcc
