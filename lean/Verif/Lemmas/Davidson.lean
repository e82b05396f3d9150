import Verif.Model.Davidson
import Verif.Lemmas.PutIx

namespace Ebcc

theorem idxOf_range' (a n i : Nat) (h1 : a ≤ i) (h2 : i < a + n) : (List.range' a n).idxOf i = i - a := by
  have hl : i - a < (List.range' a n).length := by rw [List.length_range']; omega
  have hg : (List.range' a n)[i - a] = i := by rw [List.getElem_range']; omega
  conv_lhs => rw [← hg]
  exact (List.nodup_range' (s := a) (n := n)).idxOf_getElem _ hl

theorem inBox2 {n m i j : Nat} : InBox [n, m] [i, j] ↔ i < n ∧ j < m := by
  simp [InBox]

/-- Writing a rectangular block. -/
theorem putIx_block {R : Type} [Zero R] (x v : NDArray R) (N a n b m : Nat) (hx : x.WF) (hv : v.WF)
    (hsx : x.shape = [N, N]) (hsv : v.shape = [n, m]) (h1 : a + n ≤ N) (h2 : b + m ≤ N) :
    ∃ y, putIx x [List.range' a n, List.range' b m] v = .ok y ∧ y.WF ∧ y.shape = [N, N] ∧
      ∀ i j, i < N → j < N → y.get [i, j] =
        if (a ≤ i ∧ i < a + n) ∧ b ≤ j ∧ j < b + m then v.get [i - a, j - b] else x.get [i, j] := by
  refine ⟨ixPut x [List.range' a n, List.range' b m] v, ?_, NDArray.ofFn_wf _ _, hsx, ?_⟩
  · apply putIx_ok x _ v hx hv
    · rw [hsx]
      refine List.Forall₂.cons ?_ (List.Forall₂.cons ?_ List.Forall₂.nil)
      · intro i hi
        rw [List.mem_range'_1] at hi
        omega
      · intro i hi
        rw [List.mem_range'_1] at hi
        omega
    · intro l hl
      simp only [List.mem_cons, List.not_mem_nil, or_false] at hl
      rcases hl with rfl | rfl <;> exact List.nodup_range'
    · rw [hsv]; simp
  · intro i j hi hj
    unfold ixPut
    rw [NDArray.get_ofFn _ _ (by rw [hsx, inBox2]; exact ⟨hi, hj⟩)]
    by_cases h : (a ≤ i ∧ i < a + n) ∧ b ≤ j ∧ j < b + m
    · rw [if_pos h, if_pos]
      · simp only [List.zipWith_cons_cons, List.zipWith_nil_left]
        rw [idxOf_range' a n i h.1.1 h.1.2, idxOf_range' b m j h.2.1 h.2.2]
      · simp [List.mem_range'_1, h]
    · rw [if_neg h, if_neg]
      simpa [List.mem_range'_1] using h

section
variable {K : Type} [Field K] [StarRing K] {d : Nat}

theorem gram_wf (a b : List (DVec K d)) : (gram a b).WF := NDArray.ofFn_wf _ _

theorem gram_get (a b : List (DVec K d)) {i j : Nat} (hi : i < a.length) (hj : j < b.length) :
    (gram a b).get [i, j] = dotc (a.getD i 0) (b.getD j 0) := by
  unfold gram
  rw [NDArray.get_ofFn _ _ (by rw [inBox2]; exact ⟨hi, hj⟩)]
  rfl

theorem getD_append_left' {X : Type} (l l' : List X) (x : X) {i : Nat} (h : i < l.length) :
    (l ++ l').getD i x = l.getD i x := by
  simp [List.getD_eq_getElem?_getD, List.getElem?_append_left h]

theorem getD_append_right' {X : Type} (l l' : List X) (x : X) {i : Nat} (h : l.length ≤ i) :
    (l ++ l').getD i x = l'.getD (i - l.length) x := by
  simp [List.getD_eq_getElem?_getD, List.getElem?_append_right h]

/-- The new rows and columns of the matrix. -/
theorem fillSubspace_ok (matrix : NDArray K) (N : Nat) (b mb t mt : List (DVec K d)) (hx : matrix.WF)
    (hs : matrix.shape = [N, N]) (hl : b.length = mb.length) (hlt : t.length = mt.length)
    (hN : b.length + t.length ≤ N) :
    ∃ m, fillSubspace matrix (b ++ t) (mb ++ mt) t mt = .ok m ∧ m.WF ∧ m.shape = [N, N] ∧
      (∀ i j, i < b.length → j < b.length → m.get [i, j] = matrix.get [i, j]) ∧
      (∀ i j, i < b.length + t.length → j < b.length + t.length → b.length ≤ i ∨ b.length ≤ j →
        m.get [i, j] = dotc ((b ++ t).getD i 0) ((mb ++ mt).getD j 0)) := by
  have e0 : (mb ++ mt).length - mt.length = b.length := by simp [hl]
  have e1 : (mb ++ mt).length - b.length = t.length := by simp [hl, hlt]
  obtain ⟨m1, p1, w1, s1, g1⟩ := putIx_block matrix (gram t mt) N b.length t.length b.length t.length hx (gram_wf _ _) hs
    (by simp [gram, hlt]) hN hN
  obtain ⟨m2, p2, w2, s2, g2⟩ := putIx_block m1 (gram b mt) N 0 b.length b.length t.length w1 (gram_wf _ _) s1
    (by simp [gram, hlt]) (by omega) hN
  obtain ⟨m3, p3, w3, s3, g3⟩ := putIx_block m2 (gram t mb) N b.length t.length 0 b.length w2 (gram_wf _ _) s2
    (by simp [gram, hl]) hN (by omega)
  refine ⟨m3, ?_, w3, s3, ?_, ?_⟩
  · unfold fillSubspace
    simp only [e0, e1, bind, Except.bind]
    rw [p1]
    simp only
    rw [show (b ++ t).take b.length = b by simp, show mt.take t.length = mt by rw [hlt]; simp,
      List.range_eq_range', p2]
    simp only
    rw [show t.take t.length = t by simp, show (mb ++ mt).take b.length = mb by rw [hl]; simp]
    exact p3
  · intro i j hi hj
    rw [g3 i j (by omega) (by omega), if_neg (by omega), g2 i j (by omega) (by omega), if_neg (by omega),
      g1 i j (by omega) (by omega), if_neg (by omega)]
  · intro i j hi hj hij
    by_cases hi' : b.length ≤ i
    · by_cases hj' : b.length ≤ j
      · rw [g3 i j (by omega) (by omega), if_neg (by omega), g2 i j (by omega) (by omega), if_neg (by omega),
          g1 i j (by omega) (by omega), if_pos (by omega), gram_get _ _ (by omega) (by omega),
          getD_append_right' _ _ _ hi', getD_append_right' _ _ _ (by omega), hl]
      · rw [g3 i j (by omega) (by omega), if_pos (by omega), gram_get _ _ (by omega) (by omega),
          getD_append_right' _ _ _ hi', getD_append_left' _ _ _ (by omega)]
        rfl
    · rw [g3 i j (by omega) (by omega), if_neg (by omega), g2 i j (by omega) (by omega), if_pos (by omega),
        gram_get _ _ (by omega) (by omega), getD_append_left' _ _ _ (by omega), getD_append_right' _ _ _ (by omega), hl]
      rfl

/-- Vectors that do not fit into the matrix raise `ValueError`. -/
theorem fillSubspace_overflow (matrix : NDArray K) (N : Nat) (b mb t mt : List (DVec K d))
    (hs : matrix.shape = [N, N]) (hl : b.length = mb.length) (hlt : t.length = mt.length) (ht : t ≠ [])
    (hN : N < b.length + t.length) :
    fillSubspace matrix (b ++ t) (mb ++ mt) t mt = .error .valueError := by
  have e0 : (mb ++ mt).length - mt.length = b.length := by simp [hl]
  have e1 : (mb ++ mt).length - b.length = t.length := by simp [hl, hlt]
  have hpos : 0 < t.length := List.length_pos_iff.2 ht
  unfold fillSubspace
  simp only [e0, e1, bind, Except.bind]
  have : putIx matrix [List.range' b.length t.length, List.range' b.length t.length] (gram t mt) = .error .valueError := by
    unfold putIx
    rw [if_neg]
    rintro ⟨-, h⟩
    rw [List.all_eq_true] at h
    have := h [b.length + t.length - 1, b.length + t.length - 1] (by
      simp only [prodL, List.mem_flatMap, List.mem_map, List.mem_range'_1, List.mem_singleton]
      exact ⟨b.length + t.length - 1, by omega, [b.length + t.length - 1], ⟨b.length + t.length - 1, by omega, [], rfl, rfl⟩, rfl⟩)
    rw [decide_eq_true_eq, hs, mem_box, inBox2] at this
    omega
  rw [this]

theorem npStack_ok {X : Type} {l l' : List X} (h : npStack l = .ok l') : l' = l ∧ l ≠ [] := by
  unfold npStack at h
  split at h
  · cases h
  · cases h; exact ⟨rfl, by assumption⟩

theorem orthonormaliseLoop_length (env : DavEnv K d) (vs : List (DVec K d)) :
    (orthonormaliseLoop env vs).length ≤ vs.length := by
  unfold orthonormaliseLoop
  suffices ∀ outs : List (DVec K d), (vs.foldl (fun outs v =>
      let u := orthogonalise outs v
      if env.indep (env.norm u) then outs ++ [fun k => u k / env.norm u] else outs) outs).length
      ≤ outs.length + vs.length by simpa using this []
  induction vs with
  | nil => intro outs; simp
  | cons v vs ih =>
    intro outs
    rw [List.foldl_cons]
    refine (ih _).trans ?_
    simp only
    split <;> simp only [List.length_append, List.length_cons, List.length_nil] <;> omega

theorem outerProduct_length {rows : Nat} {v : List (Nat → K)} {b o : List (DVec K d)}
    (h : outerProduct rows v b = .ok o) : o.length = v.length ∧ rows = b.length := by
  unfold outerProduct at h
  split at h
  · cases h; exact ⟨by simp, by assumption⟩
  · cases h

theorem normaliseVectors_length (env : DavEnv K d) (vs : List (DVec K d)) :
    (normaliseVectors env vs).length ≤ vs.length := by
  unfold normaliseVectors
  rw [List.length_map]
  exact List.length_filter_le _ _

/-- The parts of an iteration. -/
structure Solved (env : DavEnv K d) (nroots maxTrials : Nat) (st s : DavState K d) (b mb : List (DVec K d)) (sp : Nat)
    (t : List (DVec K d)) (wPrev : List K) (mv : List (DVec K d)) : Prop where
  trial : davTrial env maxTrials st = .ok (b, mb, sp, t)
  ne : t ≠ []
  basis : s.basis = b ++ t
  mbasis : s.mbasis = mb ++ t.map env.matvec
  space : s.space = sp + t.length
  fill : fillSubspace st.matrix (b ++ t) (mb ++ t.map env.matvec) t (t.map env.matvec) = .ok s.matrix
  w : s.w = (env.solve (leading s.matrix s.space) nroots s.basis).1.take nroots
  v : s.v = (env.solve (leading s.matrix s.space) nroots s.basis).2.take nroots
  rows : s.rows = s.space
  prev : prevValues env st s.v = .ok wPrev
  dw : s.dw = if wPrev.length = s.w.length then List.zipWith (· - ·) s.w wPrev else s.w
  vectors : outerProduct s.space s.v s.basis = .ok s.vectors
  mvectors : outerProduct s.space s.v s.mbasis = .ok mv
  residual : s.trial = (List.zip s.w (List.zip mv s.vectors)).map fun t => fun j => t.2.1 j - t.1 * t.2.2 j
  norms : s.norms = s.trial.map env.norm
  conv : s.conv = (List.range s.w.length).map fun k => env.steady (s.dw.getD k 0) && env.below (s.norms.getD k 0)
  restart : s.restart = st.restart

theorem davSolve_ok {env : DavEnv K d} {nroots maxTrials : Nat} {st s : DavState K d}
    (h : davSolve env nroots maxTrials st = .ok s) :
    ∃ b mb sp t wPrev mv, Solved env nroots maxTrials st s b mb sp t wPrev mv := by
  unfold davSolve at h
  simp only [bind, Except.bind, pure, Except.pure] at h
  cases h1 : davTrial env maxTrials st with
  | error e => rw [h1] at h; cases h
  | ok r =>
    obtain ⟨b, mb, sp, t⟩ := r
    rw [h1] at h
    simp only at h
    cases h2 : npStack (t.map env.matvec) with
    | error e => rw [h2] at h; cases h
    | ok mt =>
      rw [h2] at h
      simp only at h
      obtain ⟨rfl, hne⟩ := npStack_ok h2
      cases h3 : fillSubspace st.matrix (b ++ t) (mb ++ t.map env.matvec) t (t.map env.matvec) with
      | error e => rw [h3] at h; cases h
      | ok m =>
        rw [h3] at h
        simp only at h
        split at h
        · cases h
        · rename_i hw
          cases h4 : prevValues env st ((env.solve (leading m (sp + t.length)) nroots (b ++ t)).2.take nroots) with
          | error e => rw [h4] at h; cases h
          | ok wPrev =>
            rw [h4] at h
            simp only at h
            cases h5 : outerProduct (sp + t.length)
                ((env.solve (leading m (sp + t.length)) nroots (b ++ t)).2.take nroots) (b ++ t) with
            | error e => rw [h5] at h; cases h
            | ok vs =>
              rw [h5] at h
              simp only at h
              cases h6 : outerProduct (sp + t.length)
                  ((env.solve (leading m (sp + t.length)) nroots (b ++ t)).2.take nroots)
                  (mb ++ t.map env.matvec) with
              | error e => rw [h6] at h; cases h
              | ok mv =>
                rw [h6] at h
                cases h
                exact ⟨b, mb, sp, t, wPrev, mv, ⟨h1, by simpa using hne, rfl, rfl, rfl, h3, rfl, rfl, rfl, h4, rfl,
                  h5, h6, rfl, rfl, rfl, rfl⟩⟩

end

end Ebcc
