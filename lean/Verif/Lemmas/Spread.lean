import Verif.Lemmas.Convert

/-!
The loops of `GEBCC.from_uebcc` for one and two particles.
-/

namespace Ebcc

section
variable {R : Type} [Ring R]

theorem perms_one : permutationsWithSigns (List.range 1) = [([0], 1)] := by decide

theorem perms_two : permutationsWithSigns (List.range 2) = [([0, 1], 1), ([1, 0], -1)] := by decide

theorem mem_slice (sig : List Char) (s : Char) (i : Nat) (hi : i < sig.length) :
    decide (i ∈ whereSpin sig s) = decide (sig.getD i ' ' = s) := by
  rw [decide_eq_decide, mem_whereSpin]
  simp [hi]

/-- One spin of a one-particle array. -/
theorem spread_one {slices : Char → Char → Except PyErr (List Nat)} {size : Char → Except PyErr Nat}
    {sig : Char → List Char} {k0 k1 : Char} (hL : SpinLayout slices size sig [k0, k1]) (nbos nb : Nat) (s : Char)
    (hs : s = 'a' ∨ s = 'b') (block : List Char → Except PyErr (NDArray R)) (U : NDArray R)
    (hb : block [s, s] = .ok U) (hU : U.WF)
    (hUs : U.shape = List.replicate nb nbos ++ [(sig k0).count s, (sig k1).count s])
    (g : NDArray R) (hgs : g.shape = List.replicate nb nbos ++ [(sig k0).length, (sig k1).length]) :
    ∃ g', spreadComb slices nbos nb 1 [k0, k1] block g [s, s] = .ok g' ∧ g'.WF ∧ g'.shape = g.shape ∧
      ∀ bs p q, ValidIdx (List.replicate nb nbos) bs → p < (sig k0).length → q < (sig k1).length →
        g'.get (bs ++ [p, q]) = g.get (bs ++ [p, q])
          + if (sig k0).getD p ' ' = s ∧ (sig k1).getD q ' ' = s
            then U.get (bs ++ [spinPos (sig k0) p, spinPos (sig k1) q]) else 0 := by
  have hax : ∀ n, List.range n ++ [0].map (fun p => p + n) ++ [0].map (fun p => p + (n + 1)) = List.range (n + 2) := by
    intro n
    simp [List.range_succ]
  have hax' : ∀ n, List.range n ++ [0].map (fun p => p + n) ++ (List.range 1).map (fun p => p + (n + 1))
      = List.range (n + 2) := by
    intro n
    simp [List.range_succ]
  have hn : U.shape.length = nb + 2 := by rw [hUs]; simp
  have hid : ∀ x : R, x * ((1 : Int) : R) = x := by intro x; simp
  have hmap : (U.map fun x => x * ((1 : Int) : R) * ((1 : Int) : R)) = U := by
    unfold NDArray.map
    simp only [hid, List.map_id']
  obtain ⟨v, v1, v2, v3, v4⟩ := put_step g U (List.replicate nb (List.range nbos)
    ++ [whereSpin (sig k0) s, whereSpin (sig k1) s]) ((1 : Int) : R) (by rw [hgs]; simp) hU (by
      rw [hUs]
      simp [length_whereSpin])
  refine ⟨_, ?_, v2, v3, fun bs p q hbs hp hq => ?_⟩
  · unfold spreadComb
    have e0 : permuteString [s] [0] = .ok [s] := rfl
    simp only [perms_one, List.flatMap_cons, List.flatMap_nil, List.map_cons, List.map_nil, List.append_nil,
      List.foldlM_cons, List.foldlM_nil, bind, Except.bind, pure, Except.pure, List.take_succ_cons, List.take_zero,
      List.drop_succ_cons, List.drop_zero, e0, List.not_mem_nil, if_false, List.singleton_append, List.zip_cons_cons,
      List.zip_nil_right, List.mapM_cons, List.mapM_nil, hL.slices k0 (by simp) s hs, hL.slices k1 (by simp) s hs, hb]
    rw [← List.map_singleton (f := fun p => p + nb), ← List.map_singleton (f := fun p => p + (nb + 1)), hax,
      transpose_range U hU _ hn]
    simp only [hmap]
    unfold spreadBlock
    simp only [perms_one, List.foldlM_cons, List.foldlM_nil, bind, Except.bind, pure, Except.pure,
      List.take_succ_cons, List.take_zero, e0, if_true, hax', transpose_range U hU _ hn, v1]
  · have hv : ValidIdx g.shape (bs ++ [p, q]) := by
      rw [hgs]
      exact List.rel_append hbs ((validIdx_cons _ _ _ _).2 ⟨hp, (validIdx_cons _ _ _ _).2 ⟨hq, validIdx_nil⟩⟩)
    obtain ⟨m1, m2⟩ := mask_bosons nbos nb bs hbs [whereSpin (sig k0) s, whereSpin (sig k1) s] [p, q]
    rw [v4 _ hv, m1, m2, hid]
    congr 1
    have : ixMem [whereSpin (sig k0) s, whereSpin (sig k1) s] [p, q]
        = decide ((sig k0).getD p ' ' = s ∧ (sig k1).getD q ' ' = s) := by
      simp only [ixMem, List.zipWith_cons_cons, List.zipWith_nil_left, List.all_cons, List.all_nil, id,
        mem_slice _ _ _ hp, mem_slice _ _ _ hq, Bool.and_true, Bool.decide_and]
    rw [this]
    by_cases h : (sig k0).getD p ' ' = s ∧ (sig k1).getD q ' ' = s
    · rw [if_pos (by simpa using h), if_pos h]
      simp only [maskPos, List.zipWith_cons_cons, List.zipWith_nil_left, idxOf_whereSpin _ _ _ hp h.1,
        idxOf_whereSpin _ _ _ hq h.2]
    · rw [if_neg (by simpa using h), if_neg h]

/-! ### Two particles -/

/-- The spins of four orbitals. -/
def spins4 (so sv : List Char) (p q r t : Nat) : List Char :=
  [so.getD p ' ', so.getD q ' ', sv.getD r ' ', sv.getD t ' ']

/-- The places of four orbitals among those of their spin. -/
def pos4 (so sv : List Char) (p q r t : Nat) : List Nat :=
  [spinPos so p, spinPos so q, spinPos sv r, spinPos sv t]

/-- The slices of four spins. -/
def mask4 (so sv : List Char) (s0 s1 s2 s3 : Char) : List (List Nat) :=
  [whereSpin so s0, whereSpin so s1, whereSpin sv s2, whereSpin sv s3]

def InRange4 (so sv : List Char) (p q r t : Nat) : Prop :=
  p < so.length ∧ q < so.length ∧ r < sv.length ∧ t < sv.length

theorem put_four (so sv : List Char) (s0 s1 s2 s3 : Char) (T : NDArray R) (hT : T.WF)
    (hTs : T.shape = [so.count s0, so.count s1, sv.count s2, sv.count s3]) (c : R) (g : NDArray R)
    (hgs : g.shape = [so.length, so.length, sv.length, sv.length]) :
    ∃ v, (ixGet g (mask4 so sv s0 s1 s2 s3)).add (T.map fun x => x * c) = .ok v ∧
      (ixPut g (mask4 so sv s0 s1 s2 s3) v).WF ∧ (ixPut g (mask4 so sv s0 s1 s2 s3) v).shape = g.shape ∧
      ∀ p q r t, InRange4 so sv p q r t → (ixPut g (mask4 so sv s0 s1 s2 s3) v).get [p, q, r, t]
        = g.get [p, q, r, t]
          + if spins4 so sv p q r t = [s0, s1, s2, s3] then T.get (pos4 so sv p q r t) * c else 0 := by
  obtain ⟨v, v1, v2, v3, v4⟩ := put_step g T (mask4 so sv s0 s1 s2 s3) c (by rw [hgs]; rfl) hT (by
    rw [hTs]
    simp [mask4, length_whereSpin])
  refine ⟨v, v1, v2, v3, ?_⟩
  rintro p q r t ⟨hp, hq, hr, ht⟩
  rw [v4 _ (by rw [hgs]; simp [validIdx_cons, validIdx_nil, hp, hq, hr, ht])]
  congr 1
  have : ixMem (mask4 so sv s0 s1 s2 s3) [p, q, r, t] = decide (spins4 so sv p q r t = [s0, s1, s2, s3]) := by
    simp only [ixMem, mask4, List.zipWith_cons_cons, List.zipWith_nil_left, List.all_cons, List.all_nil, id,
      mem_slice _ _ _ hp, mem_slice _ _ _ hq, mem_slice _ _ _ hr, mem_slice _ _ _ ht, Bool.and_true, spins4,
      List.cons.injEq, and_true, Bool.decide_and]
  rw [this]
  by_cases h : spins4 so sv p q r t = [s0, s1, s2, s3]
  · rw [if_pos (by simpa using h), if_pos h]
    simp only [spins4, List.cons.injEq, and_true] at h
    simp only [maskPos, mask4, List.zipWith_cons_cons, List.zipWith_nil_left, idxOf_whereSpin _ _ _ hp h.1,
      idxOf_whereSpin _ _ _ hq h.2.1, idxOf_whereSpin _ _ _ hr h.2.2.1, idxOf_whereSpin _ _ _ ht h.2.2.2, pos4]
  · rw [if_neg (by simpa using h), if_neg h]

theorem mul_one_one (U : NDArray R) : (U.map fun x => x * ((1 : Int) : R) * ((1 : Int) : R)) = U := by
  unfold NDArray.map
  simp

/-- Transposition of an array with four axes. -/
theorem transpose4 (U : NDArray R) (axes : List Nat) (h : axes.Perm (List.range 4)) (hl : U.shape.length = 4) :
    ∃ b, U.transpose axes = .ok b ∧ b.WF ∧ b.shape = (axes.map fun p => U.shape.getD p 0) ∧
      ∀ idx, ValidIdx b.shape idx → b.get idx = U.get (unpermute axes idx) :=
  transpose_get U axes (by rw [hl]; exact h)

theorem pos4_valid (so sv : List Char) (p q r t : Nat) (h : InRange4 so sv p q r t) (s0 s1 s2 s3 : Char)
    (hs : spins4 so sv p q r t = [s0, s1, s2, s3]) :
    ValidIdx [so.count s0, so.count s1, sv.count s2, sv.count s3] (pos4 so sv p q r t) := by
  obtain ⟨hp, hq, hr, ht⟩ := h
  simp only [spins4, List.cons.injEq, and_true] at hs
  have h0 := spinPos_lt so p hp
  have h1 := spinPos_lt so q hq
  have h2 := spinPos_lt sv r hr
  have h3 := spinPos_lt sv t ht
  rw [hs.1] at h0; rw [hs.2.1] at h1; rw [hs.2.2.1] at h2; rw [hs.2.2.2] at h3
  simp [pos4, validIdx_cons, validIdx_nil, h0, h1, h2, h3]

/-- Both spins equal. -/
theorem spread_same {slices : Char → Char → Except PyErr (List Nat)} {size : Char → Except PyErr Nat}
    {sig : Char → List Char} {o v : Char} (hL : SpinLayout slices size sig [o, v]) (nbos : Nat) (s : Char)
    (hs : s = 'a' ∨ s = 'b') (block : List Char → Except PyErr (NDArray R)) (U : NDArray R)
    (hb : block [s, s, s, s] = .ok U) (hU : U.WF)
    (hUs : U.shape = [(sig o).count s, (sig o).count s, (sig v).count s, (sig v).count s])
    (g : NDArray R) (hgs : g.shape = [(sig o).length, (sig o).length, (sig v).length, (sig v).length]) :
    ∃ g', spreadComb slices nbos 0 2 [o, o, v, v] block g [s, s, s, s] = .ok g' ∧ g'.WF ∧ g'.shape = g.shape ∧
      ∀ p q r t, InRange4 (sig o) (sig v) p q r t → g'.get [p, q, r, t] = g.get [p, q, r, t]
          + if spins4 (sig o) (sig v) p q r t = [s, s, s, s]
            then U.get (pos4 (sig o) (sig v) p q r t) - U.get (pos4 (sig o) (sig v) q p r t) else 0 := by
  have hn : U.shape.length = 4 := by rw [hUs]; rfl
  obtain ⟨T, t1, t2, t3, t4⟩ := transpose4 U [1, 0, 2, 3] (by decide) hn
  have hTs : T.shape = [(sig o).count s, (sig o).count s, (sig v).count s, (sig v).count s] := by
    rw [t3, hUs]; rfl
  obtain ⟨x, x1, x2, x3, x4⟩ := put_four (sig o) (sig v) s s s s U hU hUs ((1 : Int) : R) g hgs
  obtain ⟨y, y1, y2, y3, y4⟩ := put_four (sig o) (sig v) s s s s T t2 hTs ((-1 : Int) : R) _ (x3.trans hgs)
  have hR : U.transpose [0, 1, 2, 3] = .ok U := transpose_range U hU 4 hn
  refine ⟨_, ?_, y2, y3.trans x3, fun p q r t h => ?_⟩
  · unfold spreadComb
    have e0 : permuteString [s, s] [0, 1] = .ok [s, s] := rfl
    have e1 : permuteString [s, s] [1, 0] = .ok [s, s] := rfl
    have hsb : spreadBlock 0 2 [s, s, s, s] (mask4 (sig o) (sig v) s s s s) U g
        = .ok (ixPut (ixPut g (mask4 (sig o) (sig v) s s s s) x) (mask4 (sig o) (sig v) s s s s) y) := by
      unfold spreadBlock
      have a1 : List.range 0 ++ [0, 1].map (fun p => p + 0) ++ (List.range 2).map (fun p => p + (0 + 2)) = [0, 1, 2, 3] :=
        rfl
      have a2 : List.range 0 ++ [1, 0].map (fun p => p + 0) ++ (List.range 2).map (fun p => p + (0 + 2)) = [1, 0, 2, 3] :=
        rfl
      simp only [perms_two, List.foldlM_cons, List.foldlM_nil, bind, Except.bind, pure, Except.pure,
        List.take_succ_cons, List.take_zero, e0, e1, if_true, a1, a2, hR, t1, x1, y1]
    have a0 : List.range 0 ++ [0, 1].map (fun p => p + 0) ++ [0, 1].map (fun p => p + (0 + 2)) = [0, 1, 2, 3] := rfl
    have am : List.replicate 0 (List.range nbos) ++ [whereSpin (sig o) s, whereSpin (sig o) s, whereSpin (sig v) s,
      whereSpin (sig v) s] = mask4 (sig o) (sig v) s s s s := rfl
    have hpairs : ([([0, 1], 1), ([1, 0], -1)].flatMap fun l => [([0, 1], 1), ([1, 0], -1)].map fun u => (l, u) :
        List ((List Nat × Int) × (List Nat × Int)))
        = [(([0, 1], 1), ([0, 1], 1)), (([0, 1], 1), ([1, 0], -1)), (([1, 0], -1), ([0, 1], 1)),
          (([1, 0], -1), ([1, 0], -1))] := rfl
    simp only [perms_two]
    rw [hpairs]
    simp only [List.foldlM_cons, List.foldlM_nil, bind, Except.bind, pure, Except.pure, List.take_succ_cons,
      List.take_zero, List.drop_succ_cons, List.drop_zero, e0, e1, List.not_mem_nil, if_false, List.cons_append,
      List.nil_append, List.zip_cons_cons, List.zip_nil_right, List.mapM_cons, List.mapM_nil,
      hL.slices o (by simp) s hs, hL.slices v (by simp) s hs, hb, a0, hR, mul_one_one, am, hsb,
      List.mem_singleton, if_true]
  · rw [y4 p q r t h, x4 p q r t h]
    by_cases hsp : spins4 (sig o) (sig v) p q r t = [s, s, s, s]
    · rw [if_pos hsp, if_pos hsp, if_pos hsp, t4 _ (by rw [hTs]; exact pos4_valid _ _ _ _ _ _ h _ _ _ _ hsp)]
      have : unpermute [1, 0, 2, 3] (pos4 (sig o) (sig v) p q r t) = pos4 (sig o) (sig v) q p r t := rfl
      rw [this]
      simp [sub_eq_add_neg, add_assoc]
    · rw [if_neg hsp, if_neg hsp, if_neg hsp]
      simp

/-- Opposite spins: one addition per arrangement. -/
theorem block_mixed (so sv : List Char) (s0 s1 s2 s3 : Char) (A : NDArray R) (hA : A.WF)
    (hAs : A.shape = [so.count s0, so.count s1, sv.count s2, sv.count s3]) (g : NDArray R)
    (hgs : g.shape = [so.length, so.length, sv.length, sv.length]) :
    ∃ g', spreadBlock 0 2 ['a', 'b', 'a', 'b'] (mask4 so sv s0 s1 s2 s3) A g = .ok g' ∧ g'.WF ∧ g'.shape = g.shape ∧
      ∀ p q r t, InRange4 so sv p q r t → g'.get [p, q, r, t] = g.get [p, q, r, t]
        + if spins4 so sv p q r t = [s0, s1, s2, s3] then A.get (pos4 so sv p q r t) else 0 := by
  obtain ⟨x, x1, x2, x3, x4⟩ := put_four so sv s0 s1 s2 s3 A hA hAs ((1 : Int) : R) g hgs
  refine ⟨_, ?_, x2, x3, fun p q r t h => ?_⟩
  · unfold spreadBlock
    have a1 : List.range 0 ++ [0, 1].map (fun p => p + 0) ++ (List.range 2).map (fun p => p + (0 + 2)) = [0, 1, 2, 3] :=
      rfl
    have e0 : permuteString ['a', 'b'] [0, 1] = .ok ['a', 'b'] := rfl
    have e1 : permuteString ['a', 'b'] [1, 0] = .ok ['b', 'a'] := rfl
    have e2 : ¬ (['b', 'a'] : List Char) = ['a', 'b'] := by decide
    have hR : A.transpose [0, 1, 2, 3] = .ok A := transpose_range A hA 4 (by rw [hAs]; rfl)
    simp only [perms_two, List.foldlM_cons, List.foldlM_nil, bind, Except.bind, pure, Except.pure,
      List.take_succ_cons, List.take_zero, e0, e1, if_true, a1, hR, x1]
    simp only [e2, if_false]
  · rw [x4 p q r t h]
    simp

theorem spread_mixed {slices : Char → Char → Except PyErr (List Nat)} {size : Char → Except PyErr Nat}
    {sig : Char → List Char} {o v : Char} (hL : SpinLayout slices size sig [o, v]) (nbos : Nat)
    (block : List Char → Except PyErr (NDArray R)) (U : NDArray R)
    (hb : block ['a', 'b', 'a', 'b'] = .ok U) (hU : U.WF)
    (hUs : U.shape = [(sig o).count 'a', (sig o).count 'b', (sig v).count 'a', (sig v).count 'b'])
    (g : NDArray R) (hgs : g.shape = [(sig o).length, (sig o).length, (sig v).length, (sig v).length]) :
    ∃ g', spreadComb slices nbos 0 2 [o, o, v, v] block g ['a', 'b', 'a', 'b'] = .ok g' ∧ g'.WF ∧ g'.shape = g.shape ∧
      ∀ p q r t, InRange4 (sig o) (sig v) p q r t → g'.get [p, q, r, t] = g.get [p, q, r, t]
          + (if spins4 (sig o) (sig v) p q r t = ['a', 'b', 'a', 'b'] then U.get (pos4 (sig o) (sig v) p q r t) else 0)
          + (if spins4 (sig o) (sig v) p q r t = ['a', 'b', 'b', 'a'] then -U.get (pos4 (sig o) (sig v) p q t r) else 0)
          + (if spins4 (sig o) (sig v) p q r t = ['b', 'a', 'a', 'b'] then -U.get (pos4 (sig o) (sig v) q p r t) else 0)
          + (if spins4 (sig o) (sig v) p q r t = ['b', 'a', 'b', 'a'] then U.get (pos4 (sig o) (sig v) q p t r) else 0) := by
  have hn : U.shape.length = 4 := by rw [hUs]; rfl
  obtain ⟨T1, a1, a2, a3, a4⟩ := transpose4 U [0, 1, 3, 2] (by decide) hn
  obtain ⟨T2, b1, b2, b3, b4⟩ := transpose4 U [1, 0, 2, 3] (by decide) hn
  obtain ⟨T3, c1, c2, c3, c4⟩ := transpose4 U [1, 0, 3, 2] (by decide) hn
  have hR : U.transpose [0, 1, 2, 3] = .ok U := transpose_range U hU 4 hn
  have ha3 : T1.shape = [(sig o).count 'a', (sig o).count 'b', (sig v).count 'b', (sig v).count 'a'] := by
    rw [a3, hUs]; rfl
  have hb3 : T2.shape = [(sig o).count 'b', (sig o).count 'a', (sig v).count 'a', (sig v).count 'b'] := by
    rw [b3, hUs]; rfl
  have hc3 : T3.shape = [(sig o).count 'b', (sig o).count 'a', (sig v).count 'b', (sig v).count 'a'] := by
    rw [c3, hUs]; rfl
  let A1 := T1.map fun x => x * ((1 : Int) : R) * ((-1 : Int) : R)
  let A2 := T2.map fun x => x * ((-1 : Int) : R) * ((1 : Int) : R)
  let A3 := T3.map fun x => x * ((-1 : Int) : R) * ((-1 : Int) : R)
  obtain ⟨g0, u1, u2, u3, u4⟩ := block_mixed (sig o) (sig v) 'a' 'b' 'a' 'b' U hU hUs g hgs
  obtain ⟨g1, v1, v2, v3, v4⟩ := block_mixed (sig o) (sig v) 'a' 'b' 'b' 'a' A1 (map_wf _ _ a2) ha3 g0 (u3.trans hgs)
  obtain ⟨g2, w1, w2, w3, w4⟩ := block_mixed (sig o) (sig v) 'b' 'a' 'a' 'b' A2 (map_wf _ _ b2) hb3 g1
    (v3.trans (u3.trans hgs))
  obtain ⟨g3, y1, y2, y3, y4⟩ := block_mixed (sig o) (sig v) 'b' 'a' 'b' 'a' A3 (map_wf _ _ c2) hc3 g2
    (w3.trans (v3.trans (u3.trans hgs)))
  refine ⟨g3, ?_, y2, y3.trans (w3.trans (v3.trans u3)), fun p q r t h => ?_⟩
  · unfold spreadComb
    have e0 : permuteString ['a', 'b'] [0, 1] = .ok ['a', 'b'] := rfl
    have e1 : permuteString ['a', 'b'] [1, 0] = .ok ['b', 'a'] := rfl
    have p0 : List.range 0 ++ [0, 1].map (fun p => p + 0) ++ [0, 1].map (fun p => p + (0 + 2)) = [0, 1, 2, 3] := rfl
    have p1 : List.range 0 ++ [0, 1].map (fun p => p + 0) ++ [1, 0].map (fun p => p + (0 + 2)) = [0, 1, 3, 2] := rfl
    have p2 : List.range 0 ++ [1, 0].map (fun p => p + 0) ++ [0, 1].map (fun p => p + (0 + 2)) = [1, 0, 2, 3] := rfl
    have p3 : List.range 0 ++ [1, 0].map (fun p => p + 0) ++ [1, 0].map (fun p => p + (0 + 2)) = [1, 0, 3, 2] := rfl
    have am : ∀ s0 s1 s2 s3, List.replicate 0 (List.range nbos) ++ [whereSpin (sig o) s0, whereSpin (sig o) s1,
      whereSpin (sig v) s2, whereSpin (sig v) s3] = mask4 (sig o) (sig v) s0 s1 s2 s3 := fun _ _ _ _ => rfl
    have hpairs : ([([0, 1], 1), ([1, 0], -1)].flatMap fun l => [([0, 1], 1), ([1, 0], -1)].map fun u => (l, u) :
        List ((List Nat × Int) × (List Nat × Int)))
        = [(([0, 1], 1), ([0, 1], 1)), (([0, 1], 1), ([1, 0], -1)), (([1, 0], -1), ([0, 1], 1)),
          (([1, 0], -1), ([1, 0], -1))] := rfl
    simp only [perms_two]
    rw [hpairs]
    have n1 : ¬ (['a', 'b', 'b', 'a'] : List Char) ∈ [['a', 'b', 'a', 'b']] := by decide
    have n2 : ¬ (['b', 'a', 'a', 'b'] : List Char) ∈ [['a', 'b', 'b', 'a'], ['a', 'b', 'a', 'b']] := by decide
    have n3 : ¬ (['b', 'a', 'b', 'a'] : List Char) ∈ [['b', 'a', 'a', 'b'], ['a', 'b', 'b', 'a'], ['a', 'b', 'a', 'b']] := by
      decide
    simp only [List.foldlM_cons, List.foldlM_nil, bind, Except.bind, pure, Except.pure, List.take_succ_cons,
      List.take_zero, List.drop_succ_cons, List.drop_zero, e0, e1, List.not_mem_nil, if_false, List.cons_append,
      List.nil_append, List.zip_cons_cons, List.zip_nil_right, List.mapM_cons, List.mapM_nil,
      hL.slices o (by simp) 'a' (Or.inl rfl), hL.slices v (by simp) 'a' (Or.inl rfl),
      hL.slices o (by simp) 'b' (Or.inr rfl), hL.slices v (by simp) 'b' (Or.inr rfl),
      hb, p0, p1, p2, p3, hR, a1, b1, c1, mul_one_one, am, u1]
    rw [if_neg n1]
    rw [show spreadBlock 0 2 ['a', 'b', 'a', 'b'] (mask4 (sig o) (sig v) 'a' 'b' 'b' 'a')
      (T1.map fun x => x * ((1 : Int) : R) * ((-1 : Int) : R)) g0 = _ from v1]
    simp only
    rw [if_neg n2]
    rw [show spreadBlock 0 2 ['a', 'b', 'a', 'b'] (mask4 (sig o) (sig v) 'b' 'a' 'a' 'b')
      (T2.map fun x => x * ((-1 : Int) : R) * ((1 : Int) : R)) g1 = _ from w1]
    simp only
    rw [if_neg n3]
    rw [show spreadBlock 0 2 ['a', 'b', 'a', 'b'] (mask4 (sig o) (sig v) 'b' 'a' 'b' 'a')
      (T3.map fun x => x * ((-1 : Int) : R) * ((-1 : Int) : R)) g2 = _ from y1]
  · rw [y4 p q r t h, w4 p q r t h, v4 p q r t h, u4 p q r t h]
    congr 1
    · congr 1
      · congr 1
        by_cases hsp : spins4 (sig o) (sig v) p q r t = ['a', 'b', 'b', 'a']
        · rw [if_pos hsp, if_pos hsp]
          change (T1.map fun x => x * ((1 : Int) : R) * ((-1 : Int) : R)).get _ = _
          rw [map_get _ _ (by simp), a4 _ (by rw [ha3]; exact pos4_valid _ _ _ _ _ _ h _ _ _ _ hsp)]
          have : unpermute [0, 1, 3, 2] (pos4 (sig o) (sig v) p q r t) = pos4 (sig o) (sig v) p q t r := rfl
          rw [this]
          simp
        · rw [if_neg hsp, if_neg hsp]
      · by_cases hsp : spins4 (sig o) (sig v) p q r t = ['b', 'a', 'a', 'b']
        · rw [if_pos hsp, if_pos hsp]
          change (T2.map fun x => x * ((-1 : Int) : R) * ((1 : Int) : R)).get _ = _
          rw [map_get _ _ (by simp), b4 _ (by rw [hb3]; exact pos4_valid _ _ _ _ _ _ h _ _ _ _ hsp)]
          have : unpermute [1, 0, 2, 3] (pos4 (sig o) (sig v) p q r t) = pos4 (sig o) (sig v) q p r t := rfl
          rw [this]
          simp
        · rw [if_neg hsp, if_neg hsp]
    · by_cases hsp : spins4 (sig o) (sig v) p q r t = ['b', 'a', 'b', 'a']
      · rw [if_pos hsp, if_pos hsp]
        change (T3.map fun x => x * ((-1 : Int) : R) * ((-1 : Int) : R)).get _ = _
        rw [map_get _ _ (by simp), c4 _ (by rw [hc3]; exact pos4_valid _ _ _ _ _ _ h _ _ _ _ hsp)]
        have : unpermute [1, 0, 3, 2] (pos4 (sig o) (sig v) p q r t) = pos4 (sig o) (sig v) q p t r := rfl
        rw [this]
        simp
      · rw [if_neg hsp, if_neg hsp]

end

end Ebcc
