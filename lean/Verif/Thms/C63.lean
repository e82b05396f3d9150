import Verif.Model.PickRoots
import Mathlib.Data.List.Sort
import Mathlib.Data.List.Basic
import Mathlib.Algebra.Order.Group.Int

/-!
C63: the roots chosen in the subspace of the Davidson solver.  `pick_real_eigenvalues` returns the wanted number of roots
iff enough eigenvalues are real to within `1e-3`; it sorts them by real part; a pair of complex conjugate eigenvectors is
replaced by the real and imaginary part of one of them.
-/

namespace Ebcc

variable {R : Type} [AddCommGroup R] [LinearOrder R]

/-- What is known of `np.argsort`: the result lists all positions, and the values there in ascending order. -/
def IsArgsort63 (argsort : List R → List Nat) : Prop :=
  ∀ l : List R, (argsort l).Perm (List.range l.length) ∧
    ((argsort l).map fun i => l.getD i 0).Pairwise (· ≤ ·)

theorem getD_map_getD63 {X Y : Type} (l : List X) (f : X → Y) (x : X) (y : Y) (k : Nat) (h : k < l.length) :
    (l.map f).getD k y = f (l.getD k x) := by
  simp [List.getD_eq_getElem?_getD, h]

theorem map_getD_range63 {X : Type} (l : List X) (x : X) : (List.range l.length).map (fun k => l.getD k x) = l := by
  apply List.ext_getElem
  · simp
  · intro i h1 h2
    simp [List.getD_eq_getElem?_getD, h2]

/-- The indices in the result of `make_eigenvectors_real`. -/
theorem makeReal_idx63 {argsort : List R → List Nat} (ha : IsArgsort63 argsort) (w : List (R × R))
    (v : List (List (R × R))) (realIdx : List Nat) :
    (makeEigenvectorsReal argsort w v realIdx).2.2.Perm realIdx ∧
    ((makeEigenvectorsReal argsort w v realIdx).2.2.map fun i => (w.getD i (0, 0)).1).Pairwise (· ≤ ·) := by
  obtain ⟨h1, h2⟩ := ha (realIdx.map fun i => (w.getD i (0, 0)).1)
  rw [List.length_map] at h1
  simp only [makeEigenvectorsReal]
  constructor
  · have := h1.map fun k => realIdx.getD k 0
    rwa [map_getD_range63] at this
  · convert h2 using 1
    rw [List.map_map]
    apply List.map_congr_left
    intro k hk
    have hk' : k < realIdx.length := List.mem_range.1 (h1.mem_iff.1 hk)
    rw [getD_map_getD63 realIdx _ 0 _ k hk']
    rfl

/-- C63: `make_eigenvectors_real` returns the chosen roots, each once, by ascending real part, together with the real parts
of their eigenvalues. -/
theorem C63_make_real {argsort : List R → List Nat} (ha : IsArgsort63 argsort) (w : List (R × R))
    (v : List (List (R × R))) (realIdx : List Nat) (ws : List R) (vs : List (List R)) (idx : List Nat)
    (h : makeEigenvectorsReal argsort w v realIdx = (ws, vs, idx)) :
    idx.Perm realIdx ∧ ws = idx.map (fun i => (w.getD i (0, 0)).1) ∧ ws.Pairwise (· ≤ ·) ∧
    vs.length = idx.length := by
  have h0 := makeReal_idx63 ha w v realIdx
  have hw : (makeEigenvectorsReal argsort w v realIdx).1 =
      (makeEigenvectorsReal argsort w v realIdx).2.2.map fun i => (w.getD i (0, 0)).1 := by
    simp only [makeEigenvectorsReal, List.map_map]
    rfl
  have hv : (makeEigenvectorsReal argsort w v realIdx).2.1.length =
      (makeEigenvectorsReal argsort w v realIdx).2.2.length := by simp [makeEigenvectorsReal]
  rw [h] at h0 hw hv
  exact ⟨h0.1, hw, by rw [show ws = _ from hw]; exact h0.2, hv⟩

omit [AddCommGroup R] in
theorem npSort_perm63 (l : List R) : (npSort l).Perm l := List.perm_insertionSort _ _

omit [AddCommGroup R] in
theorem npSort_sorted63 (l : List R) : (npSort l).Pairwise (· ≤ ·) := List.pairwise_insertionSort _ _

omit [AddCommGroup R] in
/-- In a sorted list fewer than `m` entries are below the entry at position `m - 1`. -/
theorem countP_lt_sorted63 (l : List R) (hs : l.Pairwise (· ≤ ·)) (m : Nat) (hm : m < l.length) :
    l.countP (fun x => decide (x < l[m])) ≤ m := by
  induction l generalizing m with
  | nil => cases hm
  | cons a l ih =>
    rw [List.pairwise_cons] at hs
    cases m with
    | zero =>
      simp only [List.getElem_cons_zero, Nat.le_zero_eq, List.countP_eq_zero, decide_eq_true_eq, not_lt]
      intro x hx
      rcases List.mem_cons.1 hx with rfl | hx
      · exact le_rfl
      · exact hs.1 x hx
    | succ m =>
      have hm' : m < l.length := by simpa using hm
      simp only [List.getElem_cons_succ, List.countP_cons]
      have := ih hs.2 m hm'
      split <;> omega

theorem pick_ok63 {argsort : List R → List Nat} {tol : R} {w : List (R × R)} {v : List (List (R × R))} {nroots : Nat}
    {r : List R × List (List R) × List Nat} (h : pickRealEigenvalues argsort tol w v nroots = .ok r) :
    ∃ x, pyIndex (npSort (w.map fun z => |z.2|)) ((min w.length nroots : Nat) - 1 : Int) = .ok x ∧
    r = makeEigenvectorsReal argsort w v (npWhere w.length fun i => decide ((w.map fun z => |z.2|).getD i 0 < max tol x)) := by
  simp only [pickRealEigenvalues, bind, Except.bind] at h
  rcases hx : pyIndex (npSort (w.map fun z => |z.2|)) ((min w.length nroots : Nat) - 1 : Int) with e | x
  · rw [hx] at h; cases h
  · rw [hx] at h
    exact ⟨x, rfl, (Except.ok.inj h).symm⟩

/-- C63: `pick_real_eigenvalues` fails only on an empty list of eigenvalues. -/
theorem C63_pick_raises (argsort : List R → List Nat) (tol : R) (w : List (R × R)) (v : List (List (R × R)))
    (nroots : Nat) (e : PyErr) : pickRealEigenvalues argsort tol w v nroots = .error e ↔ w = [] ∧ e = .indexError := by
  have hl : (npSort (w.map fun z => |z.2|)).length = w.length := by simpa using (npSort_perm63 (w.map fun z => |z.2|)).length_eq
  constructor
  · intro h
    simp only [pickRealEigenvalues, bind, Except.bind] at h
    rcases hx : pyIndex (npSort (w.map fun z => |z.2|)) ((min w.length nroots : Nat) - 1 : Int) with e' | x
    · rw [hx] at h
      have he : e' = e := Except.error.inj h
      subst he
      unfold pyIndex at hx
      split at hx
      · cases hx
      · rename_i hn
        have : w = [] := by
          by_contra hw
          have hpos : 0 < w.length := List.length_pos_iff.2 hw
          split_ifs at hn with c1 c2
          · rw [List.getElem?_eq_none_iff, hl] at hn
            omega
          · rw [List.getElem?_eq_none_iff, hl] at hn
            rw [hl] at c2
            omega
          · rw [hl] at c2
            omega
        exact ⟨this, (Except.error.inj hx).symm⟩
    · rw [hx] at h; cases h
  · rintro ⟨rfl, rfl⟩
    simp [pickRealEigenvalues, pyIndex, npSort, bind, Except.bind]

/-- C63: every eigenvalue that is real to within the tolerance is returned, once. -/
theorem C63_pick_keeps {argsort : List R → List Nat} (ha : IsArgsort63 argsort) {tol : R} {w : List (R × R)}
    {v : List (List (R × R))} {nroots : Nat} {ws : List R} {vs : List (List R)} {idx : List Nat}
    (h : pickRealEigenvalues argsort tol w v nroots = .ok (ws, vs, idx)) :
    idx.Nodup ∧ (∀ i ∈ idx, i < w.length) ∧
    (∀ i, (hi : i < w.length) → |w[i].2| < tol → i ∈ idx) ∧
    ws = idx.map (fun i => (w.getD i (0, 0)).1) ∧ ws.Pairwise (· ≤ ·) ∧ vs.length = idx.length := by
  obtain ⟨x, _, h⟩ := pick_ok63 h
  obtain ⟨h1, h2, h3, h4⟩ := C63_make_real ha _ _ _ _ _ _ h.symm
  refine ⟨h1.nodup_iff.2 (List.nodup_range.filter _), fun i hi => ?_, fun i hi hlt => ?_, h2, h3, h4⟩
  · have := (List.mem_filter.1 (h1.mem_iff.1 hi)).1
    exact List.mem_range.1 this
  · refine h1.mem_iff.2 (List.mem_filter.2 ⟨List.mem_range.2 hi, ?_⟩)
    simp only [List.getD_eq_getElem?_getD, List.length_map, hi, getElem?_pos, List.getElem_map, Option.getD_some,
      decide_eq_true_eq]
    exact lt_of_lt_of_le hlt (le_max_left _ _)

omit [LinearOrder R] in
theorem npWhere_length63 (l : List R) (p : R → Bool) :
    (npWhere l.length fun i => p (l.getD i 0)).length = l.countP p := by
  unfold npWhere
  rw [← List.countP_eq_length_filter]
  conv_rhs => rw [← map_getD_range63 l 0, List.countP_map]
  rfl

/-- C63: the number of roots returned reaches the number asked for (at most the number of eigenvalues) iff that many
eigenvalues are real to within the tolerance. -/
theorem C63_pick_enough {argsort : List R → List Nat} (ha : IsArgsort63 argsort) {tol : R} {w : List (R × R)}
    {v : List (List (R × R))} {nroots : Nat} (hn : 0 < nroots) {ws : List R} {vs : List (List R)} {idx : List Nat}
    (h : pickRealEigenvalues argsort tol w v nroots = .ok (ws, vs, idx)) :
    min nroots w.length ≤ idx.length ↔ min nroots w.length ≤ w.countP fun z => decide (|z.2| < tol) := by
  have hw : w ≠ [] := by
    rintro rfl
    have := (C63_pick_raises argsort tol [] v nroots .indexError).2 ⟨rfl, rfl⟩
    rw [this] at h; cases h
  have hpos : 0 < w.length := List.length_pos_iff.2 hw
  obtain ⟨x, hx, h⟩ := pick_ok63 h
  have h1 := (C63_make_real ha _ _ _ _ _ _ h.symm).1.length_eq
  set l := w.map fun z => |z.2| with hl
  have hlen : l.length = w.length := by simp [hl]
  rw [← hlen, npWhere_length63 l (fun y => decide (y < max tol x))] at h1
  have hcount : w.countP (fun z => decide (|z.2| < tol)) = l.countP fun y => decide (y < tol) := by
    rw [hl, List.countP_map]; rfl
  rw [h1, hcount]
  set m := min w.length nroots - 1 with hm
  have hm' : m < (npSort l).length := by rw [(npSort_perm63 l).length_eq, hlen]; omega
  have hx' : x = (npSort l)[m] := by
    unfold pyIndex at hx
    have e : ((min w.length nroots : Nat) - 1 : Int) = (m : Int) := by omega
    rw [e] at hx
    simp only [Int.natCast_nonneg, if_true, Int.toNat_natCast] at hx
    rw [List.getElem?_eq_getElem hm'] at hx
    exact (Except.ok.inj hx).symm
  constructor
  · intro hge
    by_cases htx : x ≤ tol
    · rwa [max_eq_left htx] at hge
    · exfalso
      rw [max_eq_right (le_of_not_ge htx)] at hge
      have hb := countP_lt_sorted63 (npSort l) (npSort_sorted63 l) m hm'
      rw [← hx'] at hb
      rw [(npSort_perm63 l).countP_eq] at hb
      omega
  · intro hge
    refine le_trans hge (List.countP_mono_left ?_)
    intro y _ hy
    simp only [decide_eq_true_eq] at hy ⊢
    exact lt_of_lt_of_le hy (le_max_left _ _)

/-- An `argsort` for the examples: insertion sort. -/
def argsort63 (l : List Int) : List Nat :=
  (List.range l.length).insertionSort fun i j => l.getD i 0 ≤ l.getD j 0

theorem argsort_is63 : IsArgsort63 argsort63 := by
  intro l
  refine ⟨List.perm_insertionSort _ _, ?_⟩
  rw [List.pairwise_map]
  have : Std.Total fun i j : Nat => l.getD i 0 ≤ l.getD j 0 := ⟨fun _ _ => le_total _ _⟩
  have : IsTrans Nat fun i j : Nat => l.getD i 0 ≤ l.getD j 0 := ⟨fun _ _ _ => le_trans⟩
  exact List.pairwise_insertionSort _ _

/-- C63 (negative): the documented purpose, a pick of `nroots` roots, fails: with one root asked for and a pair of complex
eigenvalues no root at all is returned. -/
theorem C63_pick_too_few : IsArgsort63 argsort63 ∧
    pickRealEigenvalues argsort63 1 [(0, 5), (0, -5)] [[(1, 0)], [(1, 0)]] 1 = .ok ([], [], []) :=
  ⟨argsort_is63, by decide +kernel⟩

/-! Pairs of complex conjugates. -/

/-- Consecutive pairs `a, p a`. -/
inductive Paired63 (p : Nat → Nat) : List Nat → Prop
  | nil : Paired63 p []
  | cons {a : Nat} {l : List Nat} : Paired63 p l → Paired63 p (a :: p a :: l)

omit [AddCommGroup R] in
theorem paired_of_sorted63 (p : Nat → Nat) (key : Nat → R) (n : Nat) :
    ∀ l : List Nat, l.length ≤ n → l.Nodup → (l.map key).Pairwise (· ≤ ·) →
    (∀ a ∈ l, p a ∈ l ∧ p a ≠ a ∧ p (p a) = a ∧ key (p a) = key a) →
    (∀ a ∈ l, ∀ b ∈ l, key a = key b → b = a ∨ b = p a) → Paired63 p l := by
  induction n with
  | zero =>
    intro l hl _ _ _ _
    rw [List.length_eq_zero_iff.1 (Nat.le_zero.1 hl)]
    exact .nil
  | succ n ih =>
    intro l hl hnd hs hp hk
    match l, hl, hnd, hs, hp, hk with
    | [], _, _, _, _, _ => exact .nil
    | [a], _, _, _, hp, _ =>
      have := hp a (by simp)
      exact absurd (List.mem_singleton.1 this.1) this.2.1
    | a :: b :: l, hl, hnd, hs, hp, hk =>
      have ha := hp a (by simp)
      have hb : b = p a := by
        simp only [List.map_cons, List.pairwise_cons, List.mem_cons, forall_eq_or_imp] at hs
        have hpa : p a = b ∨ p a ∈ l := by
          rcases List.mem_cons.1 ha.1 with h | h
          · exact absurd h ha.2.1
          · exact List.mem_cons.1 h
        rcases hpa with h | h
        · exact h.symm
        · have h1 : key b ≤ key (p a) := hs.2.1 _ (List.mem_map_of_mem h)
          rw [ha.2.2.2] at h1
          have h2 : key a = key b := le_antisymm hs.1.1 h1
          rcases hk a (by simp) b (by simp) h2 with h3 | h3
          · subst h3
            simp at hnd
          · exact h3
      subst hb
      refine .cons (ih l (by simp only [List.length_cons] at hl; omega) ?_ ?_ ?_ ?_)
      · exact (List.nodup_cons.1 (List.nodup_cons.1 hnd).2).2
      · simp only [List.map_cons, List.pairwise_cons] at hs
        exact hs.2.2
      · intro c hc
        have h := hp c (by simp [hc])
        refine ⟨?_, h.2⟩
        rcases List.mem_cons.1 h.1 with h1 | h1
        · exfalso
          have : c = p a := by rw [← h1, h.2.2.1]
          subst this
          exact (List.nodup_cons.1 (List.nodup_cons.1 hnd).2).1 hc
        · rcases List.mem_cons.1 h1 with h2 | h2
          · exfalso
            have : c = a := by rw [← h.2.2.1, h2, ha.2.2.1]
            subst this
            exact (List.nodup_cons.1 hnd).1 (by simp [hc])
          · exact h2
      · intro c hc e he
        exact hk c (by simp [hc]) e (by simp [he])

theorem odds_sublist63 {X : Type} : ∀ l : List X, (odds l).Sublist l
  | [] => by simp [odds]
  | [a] => by simp [odds]
  | a :: b :: l => by
    simp only [odds]
    exact ((odds_sublist63 l).cons_cons b).cons a

theorem odds_map63 {X Y : Type} (f : X → Y) : ∀ l : List X, odds (l.map f) = (odds l).map f
  | [] => by simp [odds]
  | [a] => by simp [odds]
  | a :: b :: l => by simp [odds, odds_map63 f l]

/-- Of each pair exactly one member is at an odd position. -/
theorem odds_paired63 {p : Nat → Nat} {l : List Nat} (h : Paired63 p l) (hnd : l.Nodup)
    (hp : ∀ a ∈ l, p (p a) = a) : ∀ a ∈ l, (a ∈ odds l ↔ p a ∉ odds l) := by
  induction h with
  | nil => simp
  | @cons b l h ih =>
    have h1 := List.nodup_cons.1 hnd
    have h2 := List.nodup_cons.1 h1.2
    have hbl : b ∉ l := fun h => h1.1 (by simp [h])
    have hsub : ∀ c, c ∈ odds l → c ∈ l := fun c hc => (odds_sublist63 l).subset hc
    have hppb := hp b (by simp)
    intro a ha
    simp only [odds, List.mem_cons]
    rcases List.mem_cons.1 ha with rfl | ha
    · constructor
      · rintro (h | h)
        · exact absurd (by rw [← h]; simp) h1.1
        · exact absurd (hsub _ h) hbl
      · intro h
        exact absurd (Or.inl rfl) h
    · rcases List.mem_cons.1 ha with rfl | ha
      · rw [hppb]
        constructor
        · rintro _ (h | h)
          · exact absurd (by rw [← h]; simp) h1.1
          · exact absurd (hsub _ h) hbl
        · intro _; exact Or.inl rfl
      · have hpa := hp a (by simp [ha])
        have e1 : a ≠ p b := fun e => h2.1 (e ▸ ha)
        have e2 : p a ≠ p b := fun e => hbl (by rw [← hppb, ← e, hpa]; exact ha)
        simp only [e1, e2, false_or]
        exact ih h2.2 (fun c hc => hp c (by simp [hc])) a ha

theorem npWhere_map63 (l : List Nat) (q : Nat → Bool) :
    (npWhere l.length fun i => q (l.getD i 0)).map (fun i => l.getD i 0) = l.filter q := by
  unfold npWhere
  conv_rhs => rw [← map_getD_range63 l 0, List.filter_map]
  rfl

/-- The columns of the eigenvectors in terms of the indices of the roots. -/
theorem makeReal_cols63 (argsort : List R → List Nat) (w : List (R × R)) (v : List (List (R × R)))
    (realIdx : List Nat) (idx : List Nat) (hidx : (makeEigenvectorsReal argsort w v realIdx).2.2 = idx)
    (hnd : idx.Nodup) :
    (makeEigenvectorsReal argsort w v realIdx).2.1 = idx.map fun j =>
      if j ∈ odds (idx.filter fun j => decide ((w.getD j (0, 0)).2 ≠ 0)) then (v.getD j []).map fun z => z.2
      else (v.getD j []).map fun z => z.1 := by
  simp only [makeEigenvectorsReal] at hidx ⊢
  rw [hidx]
  have hd : (npWhere (idx.map fun i => w.getD i (0, 0)).length fun i =>
      decide (((idx.map fun i => w.getD i (0, 0)).getD i (0, 0)).2 ≠ 0)) =
      npWhere idx.length fun i => decide ((w.getD (idx.getD i 0) (0, 0)).2 ≠ 0) := by
    rw [List.length_map]
    unfold npWhere
    apply List.filter_congr
    intro i hi
    rw [getD_map_getD63 idx _ 0 _ i (List.mem_range.1 hi)]
  rw [hd]
  rw [← npWhere_map63 idx, odds_map63]
  apply List.ext_getElem
  · simp
  · intro i h1 h2
    have hi : i < idx.length := by simpa using h1
    simp only [List.getElem_mapIdx, List.getElem_map]
    have hiff : (i ∈ odds (npWhere idx.length fun i => decide ((w.getD (idx.getD i 0) (0, 0)).2 ≠ 0))) ↔
        idx[i] ∈ (odds (npWhere idx.length fun i => decide ((w.getD (idx.getD i 0) (0, 0)).2 ≠ 0))).map
          (fun i => idx.getD i 0) := by
      rw [List.mem_map]
      constructor
      · intro h; exact ⟨i, h, by simp [List.getD_eq_getElem?_getD, hi]⟩
      · rintro ⟨k, hk, e⟩
        have hk' : k < idx.length := by
          have := (odds_sublist63 _).subset hk
          exact List.mem_range.1 (List.mem_filter.1 this).1
        have : idx[k] = idx[i] := by
          rw [← e]; simp [List.getD_eq_getElem?_getD, hk']
        rwa [← (List.Nodup.getElem_inj_iff hnd).1 this]
    by_cases hc : i ∈ odds (npWhere idx.length fun i => decide ((w.getD (idx.getD i 0) (0, 0)).2 ≠ 0))
    · rw [if_pos hc, if_pos (hiff.1 hc)]
    · rw [if_neg hc, if_neg fun h => hc (hiff.2 h)]

/-- `p` pairs the complex eigenvalues (and their eigenvectors) with their conjugates, and complex eigenvalues of different
pairs have different real parts. -/
structure Conjugates63 (w : List (R × R)) (v : List (List (R × R))) (p : Nat → Nat) : Prop where
  pair : ∀ i, i < w.length → (w.getD i (0, 0)).2 ≠ 0 →
    p i < w.length ∧ p i ≠ i ∧ p (p i) = i ∧ w.getD (p i) (0, 0) = ((w.getD i (0, 0)).1, -(w.getD i (0, 0)).2) ∧
    v.getD (p i) [] = (v.getD i []).map fun z => (z.1, -z.2)
  distinct : ∀ i k, i < w.length → k < w.length → (w.getD i (0, 0)).2 ≠ 0 → (w.getD k (0, 0)).2 ≠ 0 →
    (w.getD i (0, 0)).1 = (w.getD k (0, 0)).1 → k = i ∨ k = p i

/-- C63: the columns returned.  A real eigenvalue keeps the real part of its eigenvector; of two conjugate eigenvalues both
are returned or none, and their columns are the real and the imaginary part of one eigenvector. -/
theorem C63_pick_vectors_partial [IsOrderedAddMonoid R] {argsort : List R → List Nat} (ha : IsArgsort63 argsort) {tol : R}
    {w : List (R × R)} {v : List (List (R × R))} {nroots : Nat} {ws : List R} {vs : List (List R)} {idx : List Nat}
    {p : Nat → Nat} (hp : Conjugates63 w v p) (h : pickRealEigenvalues argsort tol w v nroots = .ok (ws, vs, idx)) :
    ∀ a, (h1 : a < idx.length) → (h2 : a < vs.length) →
    ((w.getD idx[a] (0, 0)).2 = 0 → vs[a] = (v.getD idx[a] []).map fun z => z.1) ∧
    ((w.getD idx[a] (0, 0)).2 ≠ 0 → ∃ b, ∃ (h3 : b < idx.length) (h4 : b < vs.length), idx[b] = p idx[a] ∧
      ((vs[a] = (v.getD idx[a] []).map (fun z => z.1) ∧ vs[b] = (v.getD idx[a] []).map fun z => -z.2) ∨
       (vs[a] = (v.getD idx[a] []).map (fun z => z.2) ∧ vs[b] = (v.getD idx[a] []).map fun z => z.1))) := by
  obtain ⟨hnd, hlt, -, hws, hsorted, -⟩ := C63_pick_keeps ha h
  obtain ⟨x, _, h⟩ := pick_ok63 h
  have hperm := (C63_make_real ha _ _ _ _ _ _ h.symm).1
  have hidx : (makeEigenvectorsReal argsort w v (npWhere w.length fun i =>
      decide ((w.map fun z => |z.2|).getD i 0 < max tol x))).2.2 = idx := by rw [← h]
  have hcols := makeReal_cols63 argsort w v _ idx hidx hnd
  rw [← h] at hcols
  simp only at hcols
  set L := idx.filter fun j => decide ((w.getD j (0, 0)).2 ≠ 0) with hL
  have hLmem : ∀ j, j ∈ L ↔ j ∈ idx ∧ (w.getD j (0, 0)).2 ≠ 0 := by
    intro j; rw [hL, List.mem_filter, decide_eq_true_eq]
  have hLnd : L.Nodup := hnd.filter _
  have hmem : ∀ j, j ∈ idx ↔ j < w.length ∧ |(w.getD j (0, 0)).2| < max tol x := by
    intro j
    rw [hperm.mem_iff]
    unfold npWhere
    rw [List.mem_filter, List.mem_range, decide_eq_true_eq]
    constructor
    · rintro ⟨h1, h2⟩
      rw [getD_map_getD63 w _ (0, 0) _ j h1] at h2
      exact ⟨h1, h2⟩
    · rintro ⟨h1, h2⟩
      refine ⟨h1, ?_⟩
      rw [getD_map_getD63 w _ (0, 0) _ j h1]
      exact h2
  have hclosed : ∀ j ∈ idx, (w.getD j (0, 0)).2 ≠ 0 → p j ∈ idx := by
    intro j hj hc
    obtain ⟨q1, _, _, q4, _⟩ := hp.pair j (hlt j hj) hc
    rw [hmem]
    refine ⟨q1, ?_⟩
    rw [q4]
    simp only [abs_neg]
    exact ((hmem j).1 hj).2
  have hpL : ∀ j ∈ L, p j ∈ L ∧ p j ≠ j ∧ p (p j) = j ∧ (w.getD (p j) (0, 0)).1 = (w.getD j (0, 0)).1 := by
    intro j hj
    obtain ⟨hj1, hj2⟩ := (hLmem j).1 hj
    obtain ⟨q1, q2, q3, q4, _⟩ := hp.pair j (hlt j hj1) hj2
    refine ⟨(hLmem _).2 ⟨hclosed j hj1 hj2, ?_⟩, q2, q3, ?_⟩
    · rw [q4]; simpa using hj2
    · rw [q4]
  have hpaired : Paired63 p L := by
    refine paired_of_sorted63 p (fun j => (w.getD j (0, 0)).1) L.length L le_rfl hLnd ?_ hpL ?_
    · rw [hws] at hsorted
      exact List.Pairwise.sublist (List.filter_sublist.map _) hsorted
    · intro j hj k hk e
      obtain ⟨hj1, hj2⟩ := (hLmem j).1 hj
      obtain ⟨hk1, hk2⟩ := (hLmem k).1 hk
      exact hp.distinct j k (hlt j hj1) (hlt k hk1) hj2 hk2 e
  have hodd := odds_paired63 hpaired hLnd fun j hj => (hpL j hj).2.2.1
  intro a h1 h2
  have hcol : ∀ c, (h1 : c < idx.length) → (h2 : c < vs.length) → vs[c] = if idx[c] ∈ odds L then
      (v.getD idx[c] []).map (fun z => z.2) else (v.getD idx[c] []).map fun z => z.1 := by
    intro c h1 h2
    simp only [hcols, List.getElem_map]
  constructor
  · intro hr
    rw [hcol a h1 h2, if_neg]
    intro hm
    exact ((hLmem _).1 ((odds_sublist63 L).subset hm)).2 hr
  · intro hc
    have haL : idx[a] ∈ L := (hLmem _).2 ⟨List.getElem_mem h1, hc⟩
    have hpi := hclosed idx[a] (List.getElem_mem h1) hc
    obtain ⟨b, hb, hbe⟩ := List.getElem_of_mem hpi
    have hb' : b < vs.length := by rw [hcols]; simpa using hb
    refine ⟨b, hb, hb', hbe, ?_⟩
    obtain ⟨_, _, _, _, q5⟩ := hp.pair idx[a] (hlt _ (List.getElem_mem h1)) hc
    rw [hcol a h1 h2, hcol b hb hb', hbe, q5]
    have := hodd idx[a] haL
    by_cases ho : idx[a] ∈ odds L
    · right
      rw [if_pos ho, if_neg (this.1 ho)]
      exact ⟨rfl, by simp⟩
    · left
      have hpo : p idx[a] ∈ odds L := by
        by_contra hc'
        exact ho (this.2 hc')
      rw [if_neg ho, if_pos hpo]
      exact ⟨rfl, by simp⟩

/-- Non-vacuity: a real eigenvalue and a conjugate pair. -/
example : pickRealEigenvalues argsort63 10 [(7, 0), (3, 2), (3, -2)] [[(1, 0), (0, 0)], [(4, 5), (6, 8)], [(4, -5), (6, -8)]] 2 =
    .ok ([3, 3, 7], [[4, 6], [-5, -8], [1, 0]], [1, 2, 0]) := by decide +kernel

/-- An `argsort` that orders equal values differently. -/
def argsortMixed63 (l : List Int) : List Nat := if l = [3, 3, 3, 3] then [0, 2, 1, 3] else argsort63 l

theorem argsortMixed_is63 : IsArgsort63 argsortMixed63 := by
  intro l
  unfold argsortMixed63
  split_ifs with h
  · subst h
    decide
  · exact argsort_is63 l

/-- C63 (negative): when two pairs have the same real part nothing in `np.argsort` keeps the pairs together; here the columns
of the first pair are the same vector twice. -/
theorem C63_pairs_mixed : IsArgsort63 argsortMixed63 ∧
    pickRealEigenvalues argsortMixed63 10 [(3, 1), (3, -1), (3, 2), (3, -2)]
      [[(4, 5)], [(4, -5)], [(6, 8)], [(6, -8)]] 4 = .ok ([3, 3, 3, 3], [[4], [8], [4], [-8]], [0, 2, 1, 3]) :=
  ⟨argsortMixed_is63, by decide +kernel⟩

/-! Koopmans. -/

theorem nodup_take_drop63 {X : Type} {l : List X} (h : l.Nodup) {n : Nat} {x : X} (hx : x ∈ l) (hn : x ∉ l.take n) :
    x ∈ l.drop n := by
  rw [← List.take_append_drop n l] at hx
  exact (List.mem_append.1 hx).resolve_left hn

/-- C63: with the option `koopmans` the roots with the largest overlaps are returned, as many as asked for, again by
ascending real part. -/
theorem C63_koopmans [IsOrderedAddMonoid R] {argsort : List R → List Nat} (ha : IsArgsort63 argsort) (s : List R)
    (w : List (R × R)) (v : List (List (R × R))) (nroots : Nat) (ws : List R) (vs : List (List R)) (idx : List Nat)
    (h : pickKoopmans argsort s w v nroots = (ws, vs, idx)) :
    idx.length = min nroots s.length ∧ idx.Nodup ∧ (∀ i ∈ idx, i < s.length) ∧
    (∀ i ∈ idx, ∀ k, k < s.length → k ∉ idx → s.getD k 0 ≤ s.getD i 0) ∧
    ws = idx.map (fun i => (w.getD i (0, 0)).1) ∧ ws.Pairwise (· ≤ ·) := by
  unfold pickKoopmans at h
  obtain ⟨h1, h2, h3, _⟩ := C63_make_real ha _ _ _ _ _ _ h
  obtain ⟨p1, p2⟩ := ha (s.map fun x => -x)
  rw [List.length_map] at p1
  set A := argsort (s.map fun x => -x) with hA
  have hAnd : A.Nodup := p1.nodup_iff.2 List.nodup_range
  have hAmem : ∀ k, k ∈ A ↔ k < s.length := fun k => by rw [p1.mem_iff, List.mem_range]
  refine ⟨?_, h1.nodup_iff.2 (hAnd.sublist (List.take_sublist _ _)),
    fun i hi => (hAmem i).1 (List.mem_of_mem_take (h1.mem_iff.1 hi)), ?_, h2, h3⟩
  · rw [h1.length_eq, List.length_take, p1.length_eq, List.length_range]
  · intro i hi k hk hki
    have hi' := h1.mem_iff.1 hi
    have hk' : k ∈ A.drop nroots := nodup_take_drop63 hAnd ((hAmem k).2 hk) fun hh => hki (h1.mem_iff.2 hh)
    rw [List.pairwise_map, ← List.take_append_drop nroots A, List.pairwise_append] at p2
    have := p2.2.2 i hi' k hk'
    rw [getD_map_getD63 s _ 0 _ i ((hAmem i).1 (List.mem_of_mem_take hi')), getD_map_getD63 s _ 0 _ k hk] at this
    exact neg_le_neg_iff.1 this

/-- C63 (negative): with `koopmans` the pairs may be broken up: two roots from different pairs are chosen and the second one
is represented by the imaginary part of its eigenvector, here the zero vector. -/
theorem C63_koopmans_breaks_pairs : IsArgsort63 argsort63 ∧
    pickKoopmans argsort63 [9, 1, 8, 0] [(3, 1), (3, -1), (5, 2), (5, -2)]
      [[(4, 5)], [(4, -5)], [(6, 0)], [(6, 0)]] 2 = ([3, 5], [[4], [0]], [0, 2]) :=
  ⟨argsort_is63, by decide +kernel⟩

end Ebcc
