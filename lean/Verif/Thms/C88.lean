import Verif.Model.EomKernel
import Verif.Thms.C44
import Verif.Thms.C51
import Verif.Thms.C52
import Verif.Thms.C63
import Mathlib.Algebra.Star.BigOperators
import Mathlib.Analysis.Real.Sqrt
import Mathlib.Data.Real.Star

/-!
C88: the roots returned by the kernel of EOM calculations.  If `converged` is set, every returned vector satisfies the
eigenvalue equation with the returned energy up to the square root of the tolerance (`C88_converged`), the energies ascend
and there are at most as many as asked for (`C88_roots`), and vectors of real roots are normalised (`C88_normalised`).
`converged` does not mean that as many roots as asked for were found (`C88_count_false`).
-/

namespace Ebcc

theorem odds_mem88 {X : Type} : ∀ (l : List X) (x : X), x ∈ odds l → x ∈ l
  | _ :: b :: l, x, h => by
    rcases List.mem_cons.1 h with rfl | h
    · simp
    · exact List.mem_cons_of_mem _ (List.mem_cons_of_mem _ (odds_mem88 l x h))
  | [], _, h => by cases h
  | [_], _, h => by cases h

section
variable {R : Type} [Field R] [LinearOrder R]

/-- The picked vector of a real eigenvalue is the real part of its column. -/
theorem makeReal_real88 (argsort : List R → List Nat) (w : List (R × R)) (v : List (List (R × R))) (realIdx : List Nat)
    {ws : List R} {vs : List (List R)} {idx : List Nat} (h : makeEigenvectorsReal argsort w v realIdx = (ws, vs, idx)) :
    vs.length = idx.length ∧ ∀ a (h1 : a < vs.length) (h2 : a < idx.length), (w.getD idx[a] (0, 0)).2 = 0 →
      vs[a] = (v.getD idx[a] []).map fun z => z.1 := by
  simp only [makeEigenvectorsReal, Prod.mk.injEq] at h
  obtain ⟨-, h2, h3⟩ := h
  rw [h3] at h2
  subst h2
  refine ⟨by simp, ?_⟩
  intro a h1 h2 hz
  rw [List.getElem_mapIdx, List.getElem_map, if_neg]
  intro hc
  have := (List.mem_filter.1 (odds_mem88 _ _ hc)).2
  simp only [List.getD_eq_getElem?_getD, decide_eq_true_eq] at this
  apply this
  rw [List.getElem?_map, List.getElem?_eq_getElem h2]
  simpa [List.getD_eq_getElem?_getD] using hz

/-- What is used of `np.linalg.eig`: as many columns as eigenvalues; the column of a real eigenvalue is real and
normalised. -/
structure UnitColumns88 (eig : NDArray R → List (R × R) × List (List (R × R))) : Prop where
  count : ∀ m, (eig m).2.length = (eig m).1.length
  unit : ∀ m i, i < (eig m).1.length → ((eig m).1.getD i (0, 0)).2 = 0 →
    ((List.range (m.shape.getD 0 0)).map fun x =>
      (((eig m).2.getD i []).getD x (0, 0)).1 * (((eig m).2.getD i []).getD x (0, 0)).1).sum = 1

/-- The result of picking: values in ascending order, each with its vector. -/
theorem eomPick_ok88 [IsOrderedAddMonoid R] {argsort : List R → List Nat} (ha : IsArgsort63 argsort) {d : Nat} {sqrt : R → R}
    {koop : Bool} {guesses basis : List (DVec R d)} {w : List (R × R)} {v : List (List (R × R))} {n : Nat} {ws : List R}
    {vs : List (List R)} {idx : List Nat} (h : eomPick sqrt argsort koop guesses basis w v n = .ok (ws, vs, idx)) :
    ws.Pairwise (· ≤ ·) ∧ ws.length = vs.length ∧ ws = idx.map (fun i => (w.getD i (0, 0)).1) ∧ vs.length = idx.length ∧
    (v.length = w.length → ∀ i ∈ idx, i < w.length) ∧
    ∀ a (h1 : a < vs.length) (h2 : a < idx.length), (w.getD idx[a] (0, 0)).2 = 0 →
      vs[a] = (v.getD idx[a] []).map fun z => z.1 := by
  unfold eomPick at h
  cases koop with
  | true =>
    simp only [if_true] at h
    have h := Except.ok.inj h
    obtain ⟨-, -, k3, -, k5, k6⟩ := C63_koopmans ha _ w v n ws vs idx h
    obtain ⟨l1, l2⟩ := makeReal_real88 _ _ _ _ h
    refine ⟨k6, ?_, k5, l1, ?_, l2⟩
    · rw [k5, List.length_map, l1]
    · intro hl i hi
      have := k3 i hi
      rwa [koopmansOverlaps, List.length_map, hl] at this
  | false =>
    simp only [Bool.false_eq_true, if_false] at h
    obtain ⟨-, k2, -, k4, k5, k6⟩ := C63_pick_keeps ha h
    obtain ⟨x, -, h⟩ := pick_ok63 h
    obtain ⟨l1, l2⟩ := makeReal_real88 _ _ _ _ h.symm
    refine ⟨k5, ?_, k4, l1, fun _ => k2, l2⟩
    rw [k4, List.length_map, l1]

end

section
variable {R : Type} [Field R] [LinearOrder R] [StarRing R] {d : Nat}

omit [LinearOrder R] in
/-- The last iteration of a successful run: without following a state it keeps what it computed. -/
theorem davidson_last88 {env : DavEnv R d} {nroots maxIter maxSpace maxTrials : Nat} {shift : R} {junk : List Nat → R}
    {guess : List (DVec R d)} {conv : List Bool} {w : List R} {vectors : List (DVec R d)} (hi : 0 < maxIter)
    (h : davidson env nroots maxIter maxSpace maxTrials false false shift junk guess = .ok (conv, w, vectors)) :
    ∃ (N m : Nat) (st s s' : DavState R d) (stop : Bool),
      davLoop env nroots N maxTrials false shift m (davInit nroots N junk guess) = .ok (st, false) ∧
      davStep env nroots N maxTrials false shift st = .ok (s, stop) ∧ davSolve env nroots maxTrials st = .ok s' ∧
      conv = s.conv ∧ w = s.w ∧ vectors = s.vectors ∧ s.w = s'.w ∧ s.vectors = s'.vectors ∧ s.basis = s'.basis ∧
      (s'.w = [] → nroots = 0) := by
  unfold davidson at h
  simp only [bind, Except.bind, pure, Except.pure] at h
  split at h
  · cases h
  · rename_i r hr
    obtain ⟨s, stop⟩ := r
    simp only [Bool.false_eq_true, if_false] at h
    cases h
    have last : ∃ m st stop', davLoop env nroots (maxSpace + (nroots - 1) * 6) maxTrials false shift m
        (davInit nroots (maxSpace + (nroots - 1) * 6) junk guess) = .ok (st, false) ∧
        davStep env nroots (maxSpace + (nroots - 1) * 6) maxTrials false shift st = .ok (s, stop') := by
      obtain ⟨n, rfl⟩ : ∃ n, maxIter = n + 1 := ⟨maxIter - 1, by omega⟩
      rw [davLoop] at hr
      simp only [bind, Except.bind, pure, Except.pure] at hr
      cases h1 : davStep env nroots (maxSpace + (nroots - 1) * 6) maxTrials false shift
          (davInit nroots (maxSpace + (nroots - 1) * 6) junk guess) with
      | error e => rw [h1] at hr; cases hr
      | ok r =>
        obtain ⟨s1, stop1⟩ := r
        rw [h1] at hr
        cases stop1 with
        | true => cases hr; exact ⟨0, _, true, rfl, h1⟩
        | false =>
          rcases davLoop_last _ hr with rfl | ⟨m, st, stop', h2, h3⟩
          · exact ⟨0, _, false, rfl, h1⟩
          · refine ⟨m + 1, st, stop', ?_, h3⟩
            rw [davLoop]
            simp only [bind, Except.bind, h1]
            exact h2
    obtain ⟨m, st, stop', h1, h2⟩ := last
    have h2' := h2
    unfold davStep at h2'
    simp only [bind, Except.bind, pure, Except.pure] at h2'
    cases h3 : davSolve env nroots maxTrials st with
    | error e => rw [h3] at h2'; cases h2'
    | ok s' =>
      rw [h3] at h2'
      simp only [Bool.false_and, Bool.false_eq_true, if_false] at h2'
      have hne : s'.w = [] → nroots = 0 := by
        intro hw
        unfold davSolve at h3
        simp only [bind, Except.bind, pure, Except.pure] at h3
        repeat' split at h3
        all_goals first
          | cases h3; done
          | (cases h3
             rcases List.take_eq_nil_iff.1 hw with h | h
             · exact h
             · exact absurd h (by assumption))
      refine ⟨_, m, st, s, s', stop', h1, h2, h3, rfl, rfl, rfl, ?_⟩
      split at h2'
      · cases h2'; exact ⟨rfl, rfl, rfl, hne⟩
      · split at h2'
        · cases h2'; exact ⟨rfl, rfl, rfl, hne⟩
        · cases h2'; exact ⟨rfl, rfl, rfl, hne⟩

variable [IsStrictOrderedRing R]

omit [StarRing R] in
theorem eomEnv_matched88 {argsort : List R → List Nat} (ha : IsArgsort63 argsort) (sqrt : R → R)
    (eig : NDArray R → List (R × R) × List (List (R × R))) (o : EomOptions R) (A : DVec R d → DVec R d) (diag : DVec R d)
    (guesses : List (DVec R d)) : Matched (eomEnv sqrt argsort eig o A diag guesses) := by
  intro m n b
  simp only [eomEnv]
  split
  · rename_i r hr
    rw [List.length_map]
    exact (eomPick_ok88 ha (ws := r.1) (vs := r.2.1) (idx := r.2.2) hr).2.1
  · rfl

omit [IsStrictOrderedRing R] in
/-- A successful call of the kernel is a successful run of the solver. -/
theorem kernel_run88 {sqrt : R → R} {argsort : List R → List Nat} {eig : NDArray R → List (R × R) × List (List (R × R))}
    {junk : List Nat → R} {which : Which} {singles : Nat} {o : EomOptions R} {A : DVec R d → DVec R d} {diag : DVec R d}
    {guesses : Option (List (DVec R d))} {conv : Bool} {e : List R} {v : List (DVec R d)}
    (h : eomKernel sqrt argsort eig junk which singles o A diag guesses = .ok (conv, e, v)) :
    ∃ g flags, kernelGuesses which singles o diag guesses = .ok g ∧ conv = flags.all id ∧
      davidson (eomEnv sqrt argsort eig o A diag g) (min g.length o.nroots) o.maxIter o.maxSpace 40 false false 0 junk g
        = .ok (flags, e, v) := by
  unfold eomKernel at h
  simp only [bind, Except.bind, pure, Except.pure] at h
  split at h
  · cases h
  · rename_i g hg
    split at h
    · cases h
    · rename_i r hr
      obtain ⟨flags, e', v'⟩ := r
      cases h
      exact ⟨g, flags, hg, rfl, hr⟩

/-- C88: as many vectors as energies, in ascending order, at most as many as asked for and as there are guesses, and at
least one if one is asked for and there is a guess. -/
theorem C88_roots (sqrt : R → R) {argsort : List R → List Nat} (ha : IsArgsort63 argsort)
    (eig : NDArray R → List (R × R) × List (List (R × R))) (junk : List Nat → R) (which : Which) (singles : Nat)
    (o : EomOptions R) (hi : 0 < o.maxIter) (A : DVec R d → DVec R d) (diag : DVec R d)
    (guesses : Option (List (DVec R d))) (conv : Bool) (e : List R) (v : List (DVec R d))
    (h : eomKernel sqrt argsort eig junk which singles o A diag guesses = .ok (conv, e, v)) :
    v.length = e.length ∧ e.Pairwise (· ≤ ·) ∧ e.length ≤ o.nroots ∧
    ∃ g, kernelGuesses which singles o diag guesses = .ok g ∧ e.length ≤ g.length ∧
      (g ≠ [] → 0 < o.nroots → 0 < e.length) := by
  obtain ⟨g, flags, hg, -, hd⟩ := kernel_run88 h
  obtain ⟨N, m, st, s, s', stop, -, -, h3, -, rfl, rfl, hw, hv, -, hne⟩ := davidson_last88 hi hd
  obtain ⟨b, mb, sp, t, wPrev, mv, hs⟩ := davSolve_ok h3
  rw [hw, hv]
  have hlen : s'.w.length ≤ min g.length o.nroots := by
    rw [hs.w]; exact List.length_take_le _ _
  refine ⟨?_, ?_, by omega, g, hg, by omega, ?_⟩
  · rw [(outerProduct_length hs.vectors).1, hs.v, hs.w, List.length_take, List.length_take,
      eomEnv_matched88 ha sqrt eig o A diag g]
  · rw [hs.w]
    refine List.Pairwise.sublist (List.take_sublist _ _) ?_
    simp only [eomEnv]
    split
    · rename_i r hr
      exact (eomPick_ok88 ha (ws := r.1) (vs := r.2.1) (idx := r.2.2) hr).1
    · exact List.Pairwise.nil
  · intro h1 h2
    by_contra hc
    have h0 := hne (List.eq_nil_of_length_eq_zero (by omega))
    have := List.length_pos_iff.2 h1
    omega

/-- C88: if the attribute `converged` is set, every returned vector satisfies the eigenvalue equation with its energy up to
the square root of the tolerance, in the norm of the vector of all amplitudes. -/
theorem C88_converged (sqrt : R → R) {argsort : List R → List Nat} (ha : IsArgsort63 argsort)
    (eig : NDArray R → List (R × R) × List (List (R × R))) (junk : List Nat → R) (which : Which) (singles : Nat)
    (o : EomOptions R) (hi : 0 < o.maxIter) (A : DVec R d → DVec R d) (hA : IsLinearMap R A) (diag : DVec R d)
    (guesses : Option (List (DVec R d))) (e : List R) (v : List (DVec R d))
    (h : eomKernel sqrt argsort eig junk which singles o A diag guesses = .ok (true, e, v))
    (k : Nat) (h1 : k < e.length) (h2 : k < v.length) :
    sqrt (∑ j, (A v[k] j - e[k] * v[k] j) * (A v[k] j - e[k] * v[k] j)) < sqrt o.eTol := by
  obtain ⟨g, flags, hg, hall, hd⟩ := kernel_run88 h
  have hm := eomEnv_matched88 ha sqrt eig o A diag g
  have hk : k < flags.length := by
    obtain ⟨N, m, st, s, s', stop, l1, l2, -, rfl, rfl, -⟩ := davidson_last88 hi hd
    obtain ⟨hc, hn⟩ := reached l1
    have := (davStep_flag (env := eomEnv sqrt argsort eig o A diag g) hA hm hc hn l2).2.1
    omega
  have hck : flags[k] = true := by
    have := List.all_eq_true.1 hall.symm flags[k] (List.getElem_mem hk)
    exact this
  obtain ⟨_, _, hb⟩ := C52_residual (eomEnv sqrt argsort eig o A diag g) hA hm _ _ _ _ _ _ _ _ _ _ _ hd k hk hck
  have := of_decide_eq_true hb
  simpa [eomEnv] using this

omit [StarRing R] [LinearOrder R] [IsStrictOrderedRing R] in
theorem range_single88 (n x : Nat) (c : R) :
    ((List.range n).map fun y => if y = x then c else 0).sum = if x < n then c else 0 := by
  induction n with
  | zero => simp
  | succ n ih =>
    rw [List.range_succ, List.map_append, List.sum_append, ih]
    by_cases h1 : x < n
    · simp [h1, Nat.lt_succ_of_lt h1, Nat.ne_of_gt h1]
    · by_cases h2 : n = x
      · subst h2; simp
      · have : ¬ x < n + 1 := by omega
        simp [h1, h2, this]

omit [LinearOrder R] [IsStrictOrderedRing R] in
theorem dotc_sum88 (a : DVec R d) (l : List Nat) (c : Nat → R) (f : Nat → DVec R d) :
    dotc a (fun j => (l.map fun x => c x * f x j).sum) = (l.map fun x => c x * dotc a (f x)).sum := by
  induction l with
  | nil => simp [dotc]
  | cons x l ih =>
    simp only [List.map_cons, List.sum_cons, ← ih]
    unfold dotc
    rw [Finset.mul_sum, ← Finset.sum_add_distrib]
    exact Finset.sum_congr rfl fun k _ => by ring

omit [LinearOrder R] [IsStrictOrderedRing R] in
theorem dotc_comm88 [TrivialStar R] (a b : DVec R d) : dotc a b = dotc b a := by
  unfold dotc
  exact Finset.sum_congr rfl fun k _ => by rw [star_trivial, star_trivial, mul_comm]

omit [LinearOrder R] [IsStrictOrderedRing R] in
/-- The norm of a combination of orthonormal vectors. -/
theorem combination_norm88 [TrivialStar R] (basis : List (DVec R d)) (hb : OrthonormalList basis) (c : Nat → R) :
    dotc (fun j => ((List.range basis.length).map fun x => c x * basis.getD x 0 j).sum)
      (fun j => ((List.range basis.length).map fun x => c x * basis.getD x 0 j).sum) =
      ((List.range basis.length).map fun x => c x * c x).sum := by
  rw [dotc_sum88]
  congr 1
  refine List.map_congr_left fun x hx => ?_
  rw [List.mem_range] at hx
  rw [dotc_comm88, dotc_sum88]
  congr 1
  have : ((List.range basis.length).map fun y => c y * dotc (basis.getD x 0) (basis.getD y 0)) =
      (List.range basis.length).map fun y => if y = x then c x else 0 := by
    refine List.map_congr_left fun y hy => ?_
    rw [List.mem_range] at hy
    rw [getD_eq_get hx, getD_eq_get hy]
    have := hb x y hx hy
    unfold dotc
    rw [this]
    by_cases h : y = x
    · subst h; simp
    · simp [h, Ne.symm h]
  rw [this, range_single88, if_pos hx]

/-- C88: the vector returned with a root that is the real part of an eigenvalue of a projected matrix is normalised if that
eigenvalue is real. -/
theorem C88_normalised [TrivialStar R] (sqrt : R → R) (hsq : ∀ x, 0 ≤ x → sqrt x * sqrt x = x)
    {argsort : List R → List Nat} (ha : IsArgsort63 argsort) {eig : NDArray R → List (R × R) × List (List (R × R))}
    (he : UnitColumns88 eig) (junk : List Nat → R) (which : Which) (singles : Nat) (o : EomOptions R) (hi : 0 < o.maxIter)
    (A : DVec R d → DVec R d) (diag : DVec R d) (guesses : Option (List (DVec R d))) (conv : Bool) (e : List R)
    (v : List (DVec R d)) (h : eomKernel sqrt argsort eig junk which singles o A diag guesses = .ok (conv, e, v)) :
    ∃ m : NDArray R, ∀ k (h1 : k < e.length) (h2 : k < v.length), ∃ i, i < (eig m).1.length ∧
      e[k] = ((eig m).1.getD i (0, 0)).1 ∧ (((eig m).1.getD i (0, 0)).2 = 0 → ∑ j, v[k] j * v[k] j = 1) := by
  obtain ⟨g, flags, hg, -, hd⟩ := kernel_run88 h
  have hex : ExactNorm (eomEnv sqrt argsort eig o A diag g) := by
    refine ⟨fun v => ?_, fun v => star_trivial _, fun x hx => ?_⟩
    · simp only [eomEnv, star_trivial]
      exact hsq _ (Finset.sum_nonneg fun k _ => mul_self_nonneg _)
    · rintro rfl
      have := of_decide_eq_true hx
      rw [mul_zero] at this
      exact absurd this (not_lt.2 (by positivity))
  obtain ⟨N, m, st, s, s', stop, l1, l2, h3, -, rfl, rfl, hw, hv, hb, -⟩ := davidson_last88 hi hd
  obtain ⟨b, mb, sp, t, wPrev, mv, hs⟩ := davSolve_ok h3
  have hbas : OrthonormalList s'.basis := by
    obtain ⟨o1, o2⟩ := davLoop_ortho hex _ (davInit_ortho _ _ _ _) l1
    rw [← hb]
    exact (onPairs_iff _).1 (davStep_ortho hex (o2 rfl) l2).1
  refine ⟨leading s'.matrix s'.space, ?_⟩
  intro k h1 h2
  obtain ⟨ws, vs, idx, hp, e1, e2⟩ : ∃ ws vs idx, eomPick sqrt argsort o.koopmans g s'.basis
      (eig (leading s'.matrix s'.space)).1 (eig (leading s'.matrix s'.space)).2 (min g.length o.nroots) = .ok (ws, vs, idx) ∧
      s'.w = ws.take (min g.length o.nroots) ∧
      s'.v = (vs.map fun c => fun x => c.getD x 0).take (min g.length o.nroots) := by
    have q1 := hs.w
    have q2 := hs.v
    simp only [eomEnv] at q1 q2
    split at q1
    · rename_i r hr
      rw [hr] at q2
      exact ⟨r.1, r.2.1, r.2.2, hr, q1, q2⟩
    · rw [hw, q1] at h1
      simp at h1
  obtain ⟨-, p2, p3, p4, p5, p6⟩ := eomPick_ok88 ha hp
  have hkw : k < s'.w.length := by rw [← hw]; exact h1
  have hk : k < ws.length := by rw [e1, List.length_take] at hkw; omega
  have hki : k < idx.length := by omega
  have hkv : k < vs.length := by omega
  refine ⟨idx[k], p5 (he.count _) _ (List.getElem_mem hki), ?_, ?_⟩
  · have : s.w[k] = ws[k] := by
      have : s.w = ws.take (min g.length o.nroots) := hw.trans e1
      simp only [this, List.getElem_take]
    rw [this]
    simp only [p3, List.getElem_map]
  · intro hz
    have hun := he.unit (leading s'.matrix s'.space) idx[k] (p5 (he.count _) _ (List.getElem_mem hki)) hz
    have hsp : s'.space = s'.basis.length := (outerProduct_length hs.vectors).2
    have hvk : s.vectors[k] = fun j => ((List.range s'.basis.length).map fun x => vs[k].getD x 0 * s'.basis.getD x 0 j).sum := by
      have q := hs.vectors
      unfold outerProduct at q
      rw [if_pos hsp] at q
      have q := Except.ok.inj q
      have : s.vectors = ((vs.map fun c => fun x => c.getD x 0).take (min g.length o.nroots)).map fun c => fun j =>
          ((List.range s'.space).map fun x => c x * s'.basis.getD x 0 j).sum := by
        rw [hv, ← q, e2]
      simp only [this, List.getElem_map, List.getElem_take, hsp]
    have := combination_norm88 s'.basis hbas fun x => vs[k].getD x 0
    rw [← hvk] at this
    have e3 : ∑ j, s.vectors[k] j * s.vectors[k] j = dotc s.vectors[k] s.vectors[k] := by
      unfold dotc; simp only [star_trivial]
    rw [e3, this, ← hun]
    have e4 : (leading s'.matrix s'.space).shape.getD 0 0 = s'.basis.length := by
      rw [leading, NDArray.ofFn_shape, ← hsp]; rfl
    rw [e4, p6 k hkv hki hz]
    congr 1
    refine List.map_congr_left fun x _ => ?_
    simp only [List.getD_eq_getElem?_getD, List.getElem?_map]
    cases (((eig (leading s'.matrix s'.space)).2[idx[k]]?.getD [])[x]?) <;> rfl

end

/-! A matrix with a real eigenvalue and a pair of imaginary ones. -/

/-- The root of a square of a rational number. -/
def sqrt88 (x : Rat) : Rat := (x.num.toNat.sqrt : Rat) / (x.den.sqrt : Rat)

def argsort88 (l : List Rat) : List Nat := (List.range l.length).insertionSort fun i j => l.getD i 0 ≤ l.getD j 0

/-- The matrix with the rows (1, 0, 0), (0, 0, 9) and (0, -16, 0). -/
def matvec88 (x : DVec Rat 3) : DVec Rat 3 := ![x 0, 9 * x 2, -16 * x 1]

/-- Eigenvalues and normalised eigenvectors of the matrices that occur: the matrix with the last component reversed, and its
leading block. -/
def eig88 (m : NDArray Rat) : List (Rat × Rat) × List (List (Rat × Rat)) :=
  if m.data = [1, 0, 0, 0] then ([(1, 0), (0, 0)], [[(1, 0), (0, 0)], [(0, 0), (1, 0)]])
  else if m.data = [1, 0, 0, 0, 0, -9, 0, 16, 0] then
    ([(1, 0), (0, 12), (0, -12)],
      [[(1, 0), (0, 0), (0, 0)], [(0, 0), (3 / 5, 0), (0, -4 / 5)], [(0, 0), (3 / 5, 0), (0, 4 / 5)]])
  else ([], [])

def options88 : EomOptions Rat := ⟨2, false, 1 / 10 ^ 12, 50, 12⟩

def run88 : Option (Bool × List Rat × List (DVec Rat 3)) :=
  (eomKernel sqrt88 argsort88 eig88 (fun _ => 7) .ee 0 options88 matvec88 ![1, 2, 3] none).toOption

/-- The eigenvectors above are such. -/
example : ∀ p ∈ [((0 : Rat), (12 : Rat), (3 / 5 : Rat), (-4 / 5 : Rat)), (0, -12, 3 / 5, 4 / 5)],
    -- (0, -9; 16, 0) (a, b i) = μ i (a, b i)
    -9 * p.2.2.2 = p.2.1 * p.2.2.1 ∧ 16 * p.2.2.1 = -(p.2.1 * p.2.2.2) ∧
      p.2.2.1 * p.2.2.1 + p.2.2.2 * p.2.2.2 = 1 := by decide +kernel

/-- C88 (negative): `converged` does not mean that as many roots as asked for were found: two roots are asked for, two
guesses are made, one root is returned. -/
theorem C88_count_false : options88.nroots = 2 ∧ run88 = some (true, [1], [![1, 0, 0]]) := by
  refine ⟨rfl, ?_⟩
  decide +kernel

theorem argsort_is88 : IsArgsort63 argsort88 := by
  intro l
  refine ⟨List.perm_insertionSort _ _, ?_⟩
  rw [List.pairwise_map]
  have : Std.Total fun i j : Nat => l.getD i 0 ≤ l.getD j 0 := ⟨fun _ _ => le_total _ _⟩
  have : IsTrans Nat fun i j : Nat => l.getD i 0 ≤ l.getD j 0 := ⟨fun _ _ _ => le_trans⟩
  exact List.pairwise_insertionSort _ _

/-- The assumptions about the operator and the square root can be met: the product of the example is linear, and the square
root of real numbers is exact. -/
example : IsLinearMap Rat matvec88 ∧ ∀ x : ℝ, 0 ≤ x → Real.sqrt x * Real.sqrt x = x := by
  refine ⟨⟨?_, ?_⟩, fun x => Real.mul_self_sqrt⟩
  · intro x y
    funext i
    fin_cases i <;> simp [matvec88] <;> ring
  · intro c x
    funext i
    fin_cases i <;> simp [matvec88] <;> ring

/-- The theorems apply to real numbers, with their square root. -/
example {d : Nat} {argsort : List ℝ → List Nat} (ha : IsArgsort63 argsort)
    {eig : NDArray ℝ → List (ℝ × ℝ) × List (List (ℝ × ℝ))} (junk : List Nat → ℝ) (which : Which) (singles : Nat)
    (o : EomOptions ℝ) (hi : 0 < o.maxIter) (A : DVec ℝ d → DVec ℝ d) (hA : IsLinearMap ℝ A) (diag : DVec ℝ d)
    (e : List ℝ) (v : List (DVec ℝ d))
    (h : eomKernel Real.sqrt argsort eig junk which singles o A diag none = .ok (true, e, v))
    (k : Nat) (h1 : k < e.length) (h2 : k < v.length) :
    ∑ j, (A v[k] j - e[k] * v[k] j) ^ 2 < o.eTol := by
  have := C88_converged Real.sqrt ha eig junk which singles o hi A hA diag none e v h k h1 h2
  have := (Real.sqrt_lt_sqrt_iff (Finset.sum_nonneg fun j _ => mul_self_nonneg _)).1 this
  simpa only [pow_two] using this

end Ebcc
