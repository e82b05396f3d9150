import Verif.Lemmas.Davidson
import Mathlib.Algebra.Star.Rat
/-!
C50: the subspace of the Davidson solver and its projected matrix.  `maxSpace` is the value after line 295 and `nroots` is
at least one.  The claim holds (`C50_projected`, `C50_bounded`) if the initial vectors fit into the matrix; otherwise
the solver raises (`C50_too_many`).  The option `follow_state` always raises when it takes effect
(`C50_follow_state_raises`).
-/

namespace Ebcc

section
variable {K : Type} [Field K] [StarRing K] {d : Nat}

/-- Element `(i, j)` of the projected matrix is the inner product of basis vector `i` with the product of the operator
with basis vector `j`. -/
def Projected (A : DVec K d → DVec K d) (basis : List (DVec K d)) (matrix : NDArray K) : Prop :=
  ∀ i j (hi : i < basis.length) (hj : j < basis.length), matrix.get [i, j] = ∑ k, star (basis[i] k) * A basis[j] k

/-- What holds in every state. -/
structure DavCore (env : DavEnv K d) (N : Nat) (st : DavState K d) : Prop where
  wf : st.matrix.WF
  shape : st.matrix.shape = [N, N]
  prods : st.mbasis = st.basis.map env.matvec
  space : st.space = st.basis.length
  fits : st.space ≤ N
  proj : Projected env.matvec st.basis st.matrix

/-- What holds in addition when another iteration follows. -/
structure DavReady (env : DavEnv K d) (nroots maxSpace : Nat) (st : DavState K d) : Prop where
  fresh : st.restart = true → (orthonormaliseLoop env st.vectors).length ≤ maxSpace + nroots
  few : st.restart = true → st.rows = 0 ∨ st.vectors.length ≤ nroots
  room : st.restart = false → st.space + nroots ≤ maxSpace
  trials : st.restart = false → st.trial.length ≤ nroots
  rows : st.restart = false → st.rows = st.space
  cols : st.v.length ≤ nroots

theorem getD_eq_get {X : Type} {l : List X} {i : Nat} (h : i < l.length) (x : X) : l.getD i x = l[i] := by
  simp [List.getD_eq_getElem?_getD, List.getElem?_eq_getElem h]

theorem davTrial_core {env : DavEnv K d} {N maxTrials : Nat} {st : DavState K d} (hc : DavCore env N st)
    {b mb : List (DVec K d)} {sp : Nat} {t : List (DVec K d)} (h : davTrial env maxTrials st = .ok (b, mb, sp, t)) :
    mb = b.map env.matvec ∧ sp = b.length ∧ Projected env.matvec b st.matrix := by
  unfold davTrial at h
  simp only [bind, Except.bind, pure, Except.pure] at h
  split at h
  · split at h
    · cases h
    · cases h
      exact ⟨rfl, rfl, by intro i j hi; simp at hi⟩
  · split at h
    · split at h
      · cases h
      · cases h
        exact ⟨hc.prods, hc.space, hc.proj⟩
    · cases h
      exact ⟨hc.prods, hc.space, hc.proj⟩

theorem davSolve_core {env : DavEnv K d} {N nroots maxTrials : Nat} {st s : DavState K d} (hc : DavCore env N st)
    (h : davSolve env nroots maxTrials st = .ok s) : DavCore env N s := by
  obtain ⟨b, mb, sp, t, wPrev, mv, hs⟩ := davSolve_ok h
  obtain ⟨rfl, rfl, hp⟩ := davTrial_core hc hs.trial
  have hN : b.length + t.length ≤ N := by
    by_contra hcon
    have := fillSubspace_overflow st.matrix N b (b.map env.matvec) t (t.map env.matvec) hc.shape (by simp) (by simp) hs.ne
      (by omega)
    rw [hs.fill] at this
    cases this
  obtain ⟨m, hm, hwf, hsh, hold, hnew⟩ := fillSubspace_ok st.matrix N b (b.map env.matvec) t (t.map env.matvec) hc.wf
    hc.shape (by simp) (by simp) hN
  rw [hs.fill] at hm
  cases hm
  refine ⟨hwf, hsh, by rw [hs.basis, hs.mbasis, List.map_append], by rw [hs.space, hs.basis, List.length_append],
    by rw [hs.space]; exact hN, ?_⟩
  rw [hs.basis]
  intro i j hi hj
  rw [List.length_append] at hi hj
  by_cases hij : b.length ≤ i ∨ b.length ≤ j
  · rw [hnew i j hi hj hij, ← List.map_append, getD_eq_get (by simpa using hi), getD_eq_get (by simpa using hj),
      List.getElem_map]
    rfl
  · push Not at hij
    rw [hold i j hij.1 hij.2, hp i j hij.1 hij.2]
    simp only [List.getElem_append_left hij.1, List.getElem_append_left hij.2]

theorem davStep_core {env : DavEnv K d} {N nroots maxSpace maxTrials : Nat} {follow : Bool} {shift : K}
    {st s : DavState K d} {stop : Bool} (hc : DavCore env N st)
    (h : davStep env nroots maxSpace maxTrials follow shift st = .ok (s, stop)) : DavCore env N s := by
  unfold davStep at h
  simp only [bind, Except.bind, pure, Except.pure] at h
  cases h1 : davSolve env nroots maxTrials st with
  | error e => rw [h1] at h; cases h
  | ok s' =>
    have hs := davSolve_core hc h1
    rw [h1] at h
    simp only at h
    split at h
    · cases h; exact hs
    · split at h
      · split at h
        · cases h
        · cases h
          exact ⟨hs.wf, hs.shape, hs.prods, hs.space, hs.fits, hs.proj⟩
      · split at h <;> cases h <;> exact ⟨hs.wf, hs.shape, hs.prods, hs.space, hs.fits, hs.proj⟩

theorem davInit_core (env : DavEnv K d) (nroots maxSpace : Nat) (junk : List Nat → K) (vectors : List (DVec K d)) :
    DavCore env (maxSpace + nroots) (davInit nroots maxSpace junk vectors) :=
  ⟨NDArray.ofFn_wf _ _, rfl, rfl, rfl, Nat.zero_le _, by intro i j hi; simp [davInit] at hi⟩

theorem davLoop_core {env : DavEnv K d} {N nroots maxSpace maxTrials : Nat} {follow : Bool} {shift : K} (n : Nat)
    {st s : DavState K d} {stop : Bool} (hc : DavCore env N st)
    (h : davLoop env nroots maxSpace maxTrials follow shift n st = .ok (s, stop)) : DavCore env N s := by
  induction n generalizing st with
  | zero => cases h; exact hc
  | succ n ih =>
    rw [davLoop] at h
    simp only [bind, Except.bind, pure, Except.pure] at h
    cases h1 : davStep env nroots maxSpace maxTrials follow shift st with
    | error e => rw [h1] at h; cases h
    | ok r =>
      obtain ⟨s', stop'⟩ := r
      rw [h1] at h
      have hs := davStep_core hc h1
      cases stop' with
      | true => cases h; exact hs
      | false => exact ih hs h

/-- After any number of iterations from any initial vectors, also after restarts: the subspace fits into the matrix
that was allocated, the stored products are those of the basis, and the projected matrix is that of the operator in
the current basis, whatever the memory of the matrix held at first. -/
theorem C50_projected (env : DavEnv K d) (nroots maxSpace maxTrials : Nat) (follow : Bool) (shift : K)
    (junk : List Nat → K) (guess : List (DVec K d)) (n : Nat) (s : DavState K d) (stop : Bool)
    (h : davLoop env nroots maxSpace maxTrials follow shift n (davInit nroots maxSpace junk guess) = .ok (s, stop)) :
    s.basis.length = s.space ∧ s.space ≤ maxSpace + nroots ∧ s.mbasis = s.basis.map env.matvec ∧
      Projected env.matvec s.basis s.matrix := by
  have hs := davLoop_core n (davInit_core env nroots maxSpace junk guess) h
  exact ⟨hs.space.symm, hs.fits, hs.prods, hs.proj⟩

theorem davTrial_bound {env : DavEnv K d} {N nroots maxSpace maxTrials : Nat} {st : DavState K d}
    (hc : DavCore env N st) (hr : DavReady env nroots maxSpace st) {b mb : List (DVec K d)} {sp : Nat}
    {t : List (DVec K d)} (h : davTrial env maxTrials st = .ok (b, mb, sp, t)) :
    sp + t.length ≤ maxSpace + nroots ∧
      (st.restart = true → sp = 0 ∧ (st.rows = 0 ∨ t.length ≤ nroots)) ∧ (st.restart = false → sp = st.space) := by
  unfold davTrial at h
  simp only [bind, Except.bind, pure, Except.pure] at h
  have hort : ∀ l l' : List (DVec K d), orthonormalise env l = .ok l' → l' = orthonormaliseLoop env l :=
    fun l l' h => (npStack_ok h).1
  split at h
  · rename_i hre
    split at h
    · cases h
    · rename_i t' ht'
      cases h
      have e := hort _ _ ht'
      subst e
      refine ⟨by simpa using hr.fresh hre, fun _ => ⟨rfl, ?_⟩, fun hf => by rw [hre] at hf; cases hf⟩
      exact (hr.few hre).imp id fun h => (orthonormaliseLoop_length env _).trans h
  · rename_i hre
    have hre : st.restart = false := by simpa using hre
    have hroom := hr.room hre
    have htr := hr.trials hre
    split at h
    · split at h
      · cases h
      · rename_i t' ht'
        cases h
        have e := hort _ _ ht'
        subst e
        refine ⟨?_, fun hf => (by rw [hre] at hf; cases hf), fun _ => rfl⟩
        have := orthonormaliseLoop_length env st.trial
        rw [List.length_take]
        omega
    · cases h
      exact ⟨by omega, fun hf => (by rw [hre] at hf; cases hf), fun _ => rfl⟩

theorem solved_lengths {env : DavEnv K d} {nroots maxTrials : Nat} {st s : DavState K d} {b mb : List (DVec K d)}
    {sp : Nat} {t : List (DVec K d)} {wPrev : List K} {mv : List (DVec K d)}
    (hs : Solved env nroots maxTrials st s b mb sp t wPrev mv) :
    s.w.length ≤ nroots ∧ s.v.length ≤ nroots ∧ s.vectors.length ≤ nroots ∧ s.trial.length ≤ nroots := by
  have hv : s.v.length ≤ nroots := by rw [hs.v, List.length_take]; omega
  have hw : s.w.length ≤ nroots := by rw [hs.w, List.length_take]; omega
  refine ⟨hw, hv, by rw [(outerProduct_length hs.vectors).1]; exact hv, ?_⟩
  rw [hs.residual, List.length_map, List.length_zip]
  omega

/-- Following a state by restarting from the previous vectors always fails. -/
theorem follow_error {env : DavEnv K d} {N nroots maxSpace maxTrials : Nat} {st s : DavState K d}
    (hc : DavCore env N st) (hr : DavReady env nroots maxSpace st) (h : davSolve env nroots maxTrials st = .ok s)
    (hsp : s.space > nroots + 4) : outerProduct st.rows st.v s.basis = .error .valueError := by
  have hcs := davSolve_core hc h
  obtain ⟨b, mb, sp, t, wPrev, mv, hs⟩ := davSolve_ok h
  obtain ⟨hb, h1, h2⟩ := davTrial_bound hc hr hs.trial
  have hpos : 0 < t.length := List.length_pos_iff.2 hs.ne
  have hss := hs.space
  have hsb := hcs.space
  unfold outerProduct
  rw [if_neg]
  cases hre : st.restart with
  | true =>
    obtain ⟨rfl, h | h⟩ := h1 hre
    · omega
    · omega
  | false =>
    have := h2 hre
    have := hr.rows hre
    omega

theorem davStep_ready {env : DavEnv K d} {N nroots maxSpace maxTrials : Nat} {follow : Bool} {shift : K}
    {st s : DavState K d} (hc : DavCore env N st) (hr : DavReady env nroots maxSpace st)
    (h : davStep env nroots maxSpace maxTrials follow shift st = .ok (s, false)) : DavReady env nroots maxSpace s := by
  unfold davStep at h
  simp only [bind, Except.bind, pure, Except.pure] at h
  cases h1 : davSolve env nroots maxTrials st with
  | error e => rw [h1] at h; cases h
  | ok s' =>
    rw [h1] at h
    simp only at h
    split at h
    · cases h
    · split at h
      · rename_i hf
        simp only [Bool.and_eq_true, decide_eq_true_eq] at hf
        rw [follow_error hc hr h1 hf.2] at h
        cases h
      · split at h
        · cases h
        · cases h
          obtain ⟨b, mb, sp, t, wPrev, mv, hs⟩ := davSolve_ok h1
          obtain ⟨hw, hv, hvs, ht⟩ := solved_lengths hs
          refine ⟨fun _ => ?_, fun _ => Or.inr hvs, fun hf => ?_, fun _ => ?_, fun _ => hs.rows, hv⟩
          · have := orthonormaliseLoop_length env s'.vectors
            simp only
            omega
          · simp only [decide_eq_false_iff_not] at hf
            simp only
            omega
          · simp only
            refine (normaliseVectors_length env _).trans ?_
            unfold projectVectors
            rw [List.length_map, List.length_map]
            exact ht

theorem davLoop_ready {env : DavEnv K d} {N nroots maxSpace maxTrials : Nat} {follow : Bool} {shift : K} (n : Nat)
    {st s : DavState K d} (hc : DavCore env N st) (hr : DavReady env nroots maxSpace st)
    (h : davLoop env nroots maxSpace maxTrials follow shift n st = .ok (s, false)) : DavReady env nroots maxSpace s := by
  induction n generalizing st with
  | zero => cases h; exact hr
  | succ n ih =>
    rw [davLoop] at h
    simp only [bind, Except.bind, pure, Except.pure] at h
    cases h1 : davStep env nroots maxSpace maxTrials follow shift st with
    | error e => rw [h1] at h; cases h
    | ok r =>
      obtain ⟨s', stop'⟩ := r
      rw [h1] at h
      cases stop' with
      | true => cases h
      | false => exact ih (davStep_core hc h1) (davStep_ready hc hr h1) h

theorem davInit_ready (env : DavEnv K d) (nroots maxSpace : Nat) (junk : List Nat → K) (guess : List (DVec K d))
    (hg : (orthonormaliseLoop env guess).length ≤ maxSpace + nroots) :
    DavReady env nroots maxSpace (davInit nroots maxSpace junk guess) :=
  ⟨fun _ => hg, fun _ => Or.inl rfl, fun h => (by cases h), fun h => (by cases h), fun h => (by cases h), Nat.zero_le _⟩

/-- The next vectors always fit into the matrix that was allocated, provided the initial ones do (in particular if
there are at most `maxSpace + nroots` of them): filling the matrix never raises. -/
theorem C50_bounded (env : DavEnv K d) (nroots maxSpace maxTrials : Nat) (follow : Bool) (shift : K)
    (junk : List Nat → K) (guess : List (DVec K d)) (hg : guess.length ≤ maxSpace + nroots) (n : Nat)
    (s : DavState K d)
    (h : davLoop env nroots maxSpace maxTrials follow shift n (davInit nroots maxSpace junk guess) = .ok (s, false))
    (b mb : List (DVec K d)) (sp : Nat) (t : List (DVec K d)) (ht : davTrial env maxTrials s = .ok (b, mb, sp, t)) :
    sp + t.length ≤ maxSpace + nroots ∧
      ∃ m, fillSubspace s.matrix (b ++ t) (mb ++ t.map env.matvec) t (t.map env.matvec) = .ok m := by
  have hi := davInit_core env nroots maxSpace junk guess
  have hc := davLoop_core n hi h
  have hr := davLoop_ready n hi (davInit_ready env nroots maxSpace junk guess
    ((orthonormaliseLoop_length env guess).trans hg)) h
  obtain ⟨hb, -⟩ := davTrial_bound hc hr ht
  obtain ⟨rfl, rfl, -⟩ := davTrial_core hc ht
  obtain ⟨m, hm, -⟩ := fillSubspace_ok s.matrix _ b (b.map env.matvec) t (t.map env.matvec) hc.wf hc.shape (by simp)
    (by simp) hb
  exact ⟨hb, m, hm⟩

/-- More independent initial vectors than the matrix has rows are rejected. -/
theorem C50_too_many (env : DavEnv K d) (nroots maxSpace maxTrials : Nat) (follow : Bool) (shift : K)
    (junk : List Nat → K) (guess : List (DVec K d))
    (hg : maxSpace + nroots < (orthonormaliseLoop env guess).length) (n : Nat) :
    davLoop env nroots maxSpace maxTrials follow shift (n + 1) (davInit nroots maxSpace junk guess)
      = .error .valueError := by
  have hne : orthonormaliseLoop env guess ≠ [] := by intro h; rw [h] at hg; simp at hg
  have h1 : davTrial env maxTrials (davInit nroots maxSpace junk guess) = .ok ([], [], 0, orthonormaliseLoop env guess) := by
    simp [davTrial, davInit, orthonormalise, npStack, hne, bind, Except.bind, pure, Except.pure]
  have h2 := fillSubspace_overflow (davInit nroots maxSpace junk guess : DavState K d).matrix (maxSpace + nroots) [] []
    (orthonormaliseLoop env guess) ((orthonormaliseLoop env guess).map env.matvec) rfl rfl (by simp) hne (by simpa using hg)
  have h3 : davSolve env nroots maxTrials (davInit nroots maxSpace junk guess) = .error .valueError := by
    unfold davSolve
    simp only [bind, Except.bind, h1]
    rw [npStack, if_neg (by simpa using hne)]
    simp only
    rw [h2]
  rw [davLoop]
  simp only [bind, Except.bind, davStep]
  rw [h3]

/-- `follow_state` never works: the branch that restarts from the vectors of the last iteration raises `ValueError`,
because those vectors refer to a smaller basis. -/
theorem C50_follow_state_raises (env : DavEnv K d) (nroots maxSpace maxTrials : Nat) (shift : K)
    (junk : List Nat → K) (guess : List (DVec K d)) (hg : guess.length ≤ maxSpace + nroots) (n : Nat)
    (s s' : DavState K d)
    (h : davLoop env nroots maxSpace maxTrials true shift n (davInit nroots maxSpace junk guess) = .ok (s, false))
    (h' : davSolve env nroots maxTrials s = .ok s') (hconv : s'.conv.all id = false) (hl : env.large s'.norms = true)
    (hsp : s'.space > nroots + 4) :
    davStep env nroots maxSpace maxTrials true shift s = .error .valueError := by
  have hi := davInit_core env nroots maxSpace junk guess
  have hc := davLoop_core n hi h
  have hr := davLoop_ready n hi (davInit_ready env nroots maxSpace junk guess
    ((orthonormaliseLoop_length env guess).trans hg)) h
  unfold davStep
  simp only [bind, Except.bind, h']
  rw [hconv, if_neg (by simp), hl, if_pos (by simpa using hsp), follow_error hc hr h' hsp]

end

/-- An operator on three components, with a crude eigensolver and norm. -/
def env50 : DavEnv Rat 3 where
  matvec := fun v => ![2 * v 0 + v 1, v 0 + 3 * v 1 + v 2, v 1 + 4 * v 2]
  solve := fun m _ b => ([m.get [b.length - 1, b.length - 1]], [fun x => if x + 1 = b.length then 1 else 0])
  solveLeft := fun m _ _ => ([m.get [0, 0]], [fun x => if x = 0 then 1 else 0])
  precond := fun _ v => v
  norm := fun v => |v 0| + |v 1| + |v 2|
  indep := fun x => decide (1 / 100 < x)
  steady := fun x => decide (|x| < 1 / 1000)
  below := fun x => decide (x < 1 / 1000)
  large := fun l => l.any fun x => decide (1 < x)
  absLt := fun x y => decide (|x| < |y|)

/-- The state after `n` iterations: the size of the subspace, whether a restart follows, and whether the loop was
left. -/
def summary50 (n : Nat) : Option (Nat × Bool × Bool) :=
  match davLoop env50 1 2 40 false 0 n (davInit 1 2 (fun _ => 7) [![1, 0, 0]]) with
  | .ok (s, stop) => some (s.space, s.restart, stop)
  | .error _ => none

/-- Two iterations fill the subspace, the third starts it again. -/
example : summary50 1 = some (1, false, false) ∧ summary50 2 = some (2, true, false) ∧
    summary50 3 = some (1, false, false) := by decide +kernel

/-- Three vectors do not fit into a matrix with two rows. -/
example : 1 + 1 < (orthonormaliseLoop env50 [![1, 0, 0], ![0, 1, 0], ![0, 0, 1]]).length := by decide +kernel

/-- An operator on six components with a large residual. -/
def env50' : DavEnv Rat 6 where
  matvec := fun v => fun i => 5 * v (i + 1)
  solve := fun m _ _ => ([m.get [0, 0]], [fun x => if x = 0 then 1 else 0])
  solveLeft := fun m _ _ => ([m.get [0, 0]], [fun x => if x = 0 then 1 else 0])
  precond := fun _ v => v
  norm := fun v => ∑ i, |v i|
  indep := fun x => decide (1 / 100 < x)
  steady := fun x => decide (|x| < 1 / 1000)
  below := fun x => decide (x < 1 / 1000)
  large := fun l => l.any fun x => decide (1 < x)
  absLt := fun x y => decide (|x| < |y|)

/-- The error of one iteration from the six unit vectors. -/
def error50 (follow : Bool) : Option PyErr :=
  match davStep env50' 1 12 40 follow 0 (davInit 1 12 (fun _ => 7) ((List.finRange 6).map fun i => Pi.single i 1)) with
  | .ok _ => none
  | .error e => some e

example : error50 true = some .valueError ∧ error50 false = none := by decide +kernel

end Ebcc
