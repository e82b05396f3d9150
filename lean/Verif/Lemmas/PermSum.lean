import Verif.Lemmas.Sym
import Verif.Model.Symmetrise
import Mathlib.Algebra.BigOperators.Group.List.Basic
import Mathlib.Algebra.BigOperators.Ring.List
import Mathlib.Algebra.Order.Group.Unbundled.Int

namespace Ebcc

/-! ### exchanging two entries -/

theorem swapNat_invol (i j p : Nat) : swapNat i j (swapNat i j p) = p := by
  unfold swapNat
  repeat' split
  all_goals omega

theorem swapIdx_invol {i j : Nat} {l : List Nat} (hi : i < l.length) (hj : j < l.length) :
    swapIdx i j (swapIdx i j l) = l := by
  apply List.ext_getElem
  · simp [swapIdx]
  · intro p p1 p2
    have : swapNat i j p < l.length := swapNat_lt hi hj p2
    have e : (swapIdx i j (swapIdx i j l)).getD p 0 = l.getD p 0 := by
      rw [swapIdx_getD _ _ _ _ (by rw [swapIdx_length]; exact p2), swapIdx_getD _ _ _ _ this,
        swapNat_invol]
    simpa [p1, p2] using e

theorem swapIdx_perm {i j : Nat} {l : List Nat} (hi : i < l.length) (hj : j < l.length) :
    (swapIdx i j l).Perm l := by
  have h1 : ((List.range l.length).map (swapNat i j)).Perm (List.range l.length) := by
    rw [List.perm_ext_iff_of_nodup _ List.nodup_range]
    · intro a
      simp only [List.mem_map, List.mem_range]
      constructor
      · rintro ⟨p, hp, rfl⟩; exact swapNat_lt hi hj hp
      · intro ha; exact ⟨swapNat i j a, swapNat_lt hi hj ha, swapNat_invol _ _ _⟩
    · apply List.nodup_range.map
      intro a b h
      have := congrArg (swapNat i j) h
      simpa [swapNat_invol] using this
  have h2 := h1.map fun p => l.getD p 0
  rw [List.map_map] at h2
  have e : (List.range l.length).map (fun p => l.getD p 0) = l := range_map_getD l
  rw [e] at h2
  exact h2

theorem swapIdx_idxOf {i j n : Nat} {P : List Nat} (hP : P.Perm (List.range n)) (hi : i < n) (hj : j < n)
    {q : Nat} (hq : q < n) : (swapIdx i j P).idxOf q = swapNat i j (P.idxOf q) := by
  have hl : P.length = n := by simpa using hP.length_eq
  have hm : q ∈ P := hP.mem_iff.2 (List.mem_range.2 hq)
  have hk := List.idxOf_lt_length_of_mem hm
  have hs : swapNat i j (P.idxOf q) < P.length := swapNat_lt (by omega) (by omega) hk
  have hnd : (swapIdx i j P).Nodup :=
    (swapIdx_perm (by omega) (by omega)).nodup_iff.2 (hP.nodup_iff.2 List.nodup_range)
  have hs' : swapNat i j (P.idxOf q) < (swapIdx i j P).length := by rw [swapIdx_length]; exact hs
  have e : (swapIdx i j P)[swapNat i j (P.idxOf q)] = q := by
    have h1 := swapIdx_getD i j P _ hs
    rw [swapNat_invol, getD_eq _ _ _ hs', getD_eq _ _ _ hk] at h1
    rw [h1]; exact List.getElem_idxOf hk
  have := hnd.idxOf_getElem _ hs'
  rw [e] at this
  exact this

theorem unpermute_swap {i j n : Nat} {P idx : List Nat} (hP : P.Perm (List.range n)) (hi : i < n)
    (hj : j < n) (hl : idx.length = n) :
    unpermute P (swapIdx i j idx) = unpermute (swapIdx i j P) idx := by
  have hPl : P.length = n := by simpa using hP.length_eq
  unfold unpermute
  rw [swapIdx_length]
  apply List.map_congr_left
  intro q hq
  have hq' : q < n := by simpa [hPl] using hq
  have hk : P.idxOf q < P.length := List.idxOf_lt_length_of_mem (hP.mem_iff.2 (List.mem_range.2 hq'))
  rw [swapIdx_getD _ _ _ _ (by omega), swapIdx_idxOf hP hi hj hq']

theorem unpermute_range (idx : List Nat) : unpermute (List.range idx.length) idx = idx := by
  apply List.ext_getElem
  · simp [unpermute]
  · intro p p1 p2
    simp only [unpermute, List.getElem_map, List.getElem_range]
    have : (List.range idx.length).idxOf p = p := by
      have hp : p < (List.range idx.length).length := by simpa using p2
      have := List.nodup_range.idxOf_getElem p hp
      simpa using this
    rw [this]; simp [p2]

/-! ### signed sums over transposes -/

section
variable {R : Type} [Ring R]

/-- Element of a signed sum of transposes. -/
def permSum (LP : List (List Nat × Int)) (a : NDArray R) (idx : List Nat) : R :=
  (LP.map fun ps => a.get (unpermute ps.1 idx) * ((ps.2 : Int) : R)).sum

theorem add_ofFn (s : List Nat) (f g : List Nat → R) :
    (NDArray.ofFn s f).add (NDArray.ofFn s g) = .ok (NDArray.ofFn s fun i => f i + g i) := by
  unfold NDArray.add NDArray.ofFn
  simp only [if_true]
  congr 2
  rw [List.zipWith_map, List.zipWith_self]

omit [Ring R] in
theorem map_ofFn {S : Type} (s : List Nat) (f : List Nat → R) (h : R → S) :
    (NDArray.ofFn s f).map h = NDArray.ofFn s fun i => h (f i) := by
  simp [NDArray.map, NDArray.ofFn]

theorem foldlM_perms {τ : Type} (a : NDArray R) (g : NDArray R → τ → Except PyErr (NDArray R))
    (pm : τ → List Nat) (sg : τ → Int) (L : List τ)
    (hg : ∀ t ∈ L, ∀ acc, g acc t = do
      let x ← a.transpose (pm t)
      acc.add (x.map fun x => x * ((sg t : Int) : R)))
    (hP : ∀ t ∈ L, (pm t).Perm (List.range a.shape.length))
    (hs : ∀ t ∈ L, (pm t).map (fun p => a.shape.getD p 0) = a.shape) (f : List Nat → R) :
    L.foldlM g (NDArray.ofFn a.shape f) = .ok (NDArray.ofFn a.shape fun idx =>
      f idx + permSum (L.map fun t => (pm t, sg t)) a idx) := by
  induction L generalizing f with
  | nil => simp [permSum, pure, Except.pure]
  | cons t L ih =>
    rw [List.foldlM_cons, hg t (by simp), transpose_ok a _ (hP t (by simp))]
    simp only [bind, Except.bind]
    rw [hs t (by simp), map_ofFn, add_ofFn]
    simp only
    rw [ih (fun t ht => hg t (by simp [ht])) (fun t ht => hP t (by simp [ht]))
      (fun t ht => hs t (by simp [ht]))]
    congr 2
    funext idx
    simp [permSum, add_assoc]

theorem zeros_eq_ofFn (s : List Nat) : NDArray.zeros (R := R) s = NDArray.ofFn s fun _ => 0 := rfl

theorem inBox_swap {s : List Nat} {i j : Nat} {idx : List Nat} (hi : i < s.length) (hj : j < s.length)
    (he : s.getD i 0 = s.getD j 0) (h : InBox s idx) : InBox s (swapIdx i j idx) := by
  have hl := h.length_eq
  rw [inBox_iff_getD] at h ⊢
  refine ⟨by rw [swapIdx_length]; exact h.1, fun p hp => ?_⟩
  rw [swapIdx_getD _ _ _ _ (by omega)]
  have h1 := h.2 (swapNat i j p) (swapNat_lt hi hj hp)
  unfold swapNat at h1 ⊢
  split
  · rename_i e; subst e; rw [if_pos rfl] at h1; rwa [← he] at h1
  · split
    · rename_i h2 e; subst e; rw [if_neg h2, if_pos rfl] at h1; rwa [he] at h1
    · rename_i h2 h3; rwa [if_neg h2, if_neg h3] at h1

/-- Exchange symmetry of a signed sum. -/
theorem permSum_swap (LP : List (List Nat × Int)) (a : NDArray R) {n i j : Nat} (ε : Int)
    (hε : ε * ε = 1) (hnd : LP.Nodup) (hP : ∀ ps ∈ LP, ps.1.Perm (List.range n)) (hi : i < n) (hj : j < n)
    (hcl : ∀ ps ∈ LP, (swapIdx i j ps.1, ε * ps.2) ∈ LP) {idx : List Nat} (hl : idx.length = n) :
    permSum LP a (swapIdx i j idx) = ((ε : Int) : R) * permSum LP a idx := by
  have hlen : ∀ ps ∈ LP, ps.1.length = n := fun ps h => by simpa using (hP ps h).length_eq
  have hperm : (LP.map fun ps => (swapIdx i j ps.1, ε * ps.2)).Perm LP := by
    have hnd' : (LP.map fun ps => (swapIdx i j ps.1, ε * ps.2)).Nodup := by
      apply List.Nodup.map_on _ hnd
      intro x hx y hy hxy
      simp only [Prod.mk.injEq] at hxy
      have e1 := congrArg (swapIdx i j) hxy.1
      rw [swapIdx_invol (by rw [hlen x hx]; exact hi) (by rw [hlen x hx]; exact hj),
        swapIdx_invol (by rw [hlen y hy]; exact hi) (by rw [hlen y hy]; exact hj)] at e1
      have e2 := congrArg (ε * ·) hxy.2
      simp only [← mul_assoc, hε, one_mul] at e2
      exact Prod.ext e1 e2
    have hsub : (LP.map fun ps => (swapIdx i j ps.1, ε * ps.2)) ⊆ LP := by
      intro x hx
      rw [List.mem_map] at hx
      obtain ⟨ps, hps, rfl⟩ := hx
      exact hcl ps hps
    exact List.Subperm.perm_of_length_le (List.subperm_of_subset hnd' hsub) (by simp)
  have h1 := (hperm.map fun ps => a.get (unpermute ps.1 idx) * ((ps.2 : Int) : R)).sum_eq
  unfold permSum
  rw [← h1, List.map_map, ← List.sum_map_mul_left]
  congr 1
  apply List.map_congr_left
  intro ps hps
  rw [unpermute_swap (hP ps hps) hi hj hl]
  simp only [Function.comp]
  rw [← mul_assoc, Int.cast_comm, mul_assoc, ← Int.cast_mul, ← mul_assoc, hε, one_mul]

/-- Terms of a signed sum for an array with the symmetry. -/
theorem permSum_term (LP : List (List Nat × Int)) (a : NDArray R) {n : Nat} (ε : Int) (hε : ε * ε = 1)
    (E : Nat → Nat → Prop) (hn : a.shape.length = n)
    (hE : ∀ i j, E i j → i < j ∧ j < n ∧ a.shape.getD i 0 = a.shape.getD j 0)
    (hP : ∀ ps ∈ LP, ps.1.Perm (List.range n))
    (hcl : ∀ i j, E i j → ∀ ps ∈ LP, (swapIdx i j ps.1, ε * ps.2) ∈ LP)
    (hred : ∀ ps ∈ LP, ps = (List.range n, 1) ∨ ∃ i j, E i j ∧ ps.1.getD j 0 < ps.1.getD i 0)
    (hsym : ∀ i j, E i j → ∀ idx, InBox a.shape idx →
      a.get (swapIdx i j idx) = ((ε : Int) : R) * a.get idx) :
    ∀ ps ∈ LP, ps.2 * ps.2 = 1 ∧ ∀ idx, InBox a.shape idx →
      a.get (unpermute ps.1 idx) = ((ps.2 : Int) : R) * a.get idx := by
  suffices H : ∀ m, ∀ ps ∈ LP, weight (ps.1.map fun x => n - x) < m → ps.2 * ps.2 = 1 ∧
      ∀ idx, InBox a.shape idx → a.get (unpermute ps.1 idx) = ((ps.2 : Int) : R) * a.get idx from
    fun ps hps => H _ ps hps (Nat.lt_succ_self _)
  intro m
  induction m with
  | zero => intro ps _ h; omega
  | succ m ih =>
    intro ps hps hw
    have hPl : ps.1.length = n := by simpa using (hP ps hps).length_eq
    rcases hred ps hps with h | ⟨i, j, hij, hlt⟩
    · subst h
      refine ⟨rfl, fun idx hidx => ?_⟩
      have : idx.length = n := by rw [← hn]; exact hidx.length_eq
      rw [← this, unpermute_range]; simp
    · obtain ⟨h1, h2, h3⟩ := hE i j hij
      have hswm : (swapIdx i j ps.1).map (fun x => n - x) = swapIdx i j (ps.1.map fun x => n - x) := by
        simp only [swapIdx, List.map_map, List.length_map]
        apply List.map_congr_left
        intro p hp
        have hp' : swapNat i j p < ps.1.length :=
          swapNat_lt (by omega) (by omega) (by simpa using hp)
        simp [hp']
      have hmem : ∀ k < n, ps.1.getD k 0 < n := by
        intro k hk
        have hk' : k < ps.1.length := by omega
        rw [getD_eq _ _ _ hk']
        exact List.mem_range.1 ((hP ps hps).mem_iff.1 (List.getElem_mem hk'))
      have hw2 : weight ((swapIdx i j ps.1).map fun x => n - x) < m := by
        have := weight_swap (i := i) (j := j) (idx := ps.1.map fun x => n - x) h1
          (by simpa [hPl] using h2) (by
            have hi' : i < ps.1.length := by omega
            have hj' : j < ps.1.length := by omega
            have q1 := hmem i (by omega)
            have q2 := hmem j h2
            rw [getD_eq _ _ _ (by simpa using hi'), getD_eq _ _ _ (by simpa using hj'),
              List.getElem_map, List.getElem_map]
            rw [getD_eq _ _ _ hi', getD_eq _ _ _ hj'] at hlt
            rw [getD_eq _ _ _ hi'] at q1
            rw [getD_eq _ _ _ hj'] at q2
            omega)
        rw [hswm]; omega
      obtain ⟨i1, i2⟩ := ih _ (hcl i j hij ps hps) hw2
      have hs2 : ps.2 * ps.2 = 1 := by
        have : ε * ps.2 * (ε * ps.2) = (ε * ε) * (ps.2 * ps.2) := by ring
        simp only at i1
        rw [this, hε, one_mul] at i1; exact i1
      refine ⟨hs2, fun idx hidx => ?_⟩
      have hli : idx.length = n := by rw [← hn]; exact hidx.length_eq
      have hin := inBox_swap (by omega) (by omega) h3 hidx
      have e1 := i2 _ hin
      simp only at e1
      rw [← unpermute_swap (hP ps hps) (by omega) h2 (by rw [swapIdx_length]; exact hli),
        swapIdx_invol (by omega) (by omega), hsym i j hij idx hidx, ← mul_assoc, ← Int.cast_mul] at e1
      rw [e1]
      congr 2
      calc ε * ps.2 * ε = (ε * ε) * ps.2 := by ring
        _ = ps.2 := by rw [hε, one_mul]

/-- Scaling of an array that already has the symmetry. -/
theorem permSum_scale (LP : List (List Nat × Int)) (a : NDArray R) {idx : List Nat}
    (h : ∀ ps ∈ LP, ps.2 * ps.2 = 1 ∧ a.get (unpermute ps.1 idx) = ((ps.2 : Int) : R) * a.get idx) :
    permSum LP a idx = (LP.length : R) * a.get idx := by
  unfold permSum
  have : (LP.map fun ps => a.get (unpermute ps.1 idx) * ((ps.2 : Int) : R)) = LP.map fun _ => a.get idx := by
    apply List.map_congr_left
    intro ps hps
    rw [(h ps hps).2, Int.cast_comm, mul_assoc, ← Int.cast_mul, (h ps hps).1]; simp
  rw [this, List.map_const', List.sum_replicate, nsmul_eq_mul]

end

/-! ### signs under exchange -/

theorem inversions_swap (A B C : List Nat) (x y : Nat) (hxy : x ≠ y) (hx : x ∉ B) (hy : y ∉ B) :
    (inversions (A ++ x :: (B ++ y :: C)) + inversions (A ++ y :: (B ++ x :: C))) % 2 = 1 := by
  -- negate all entries below a bound
  obtain ⟨N, hN⟩ : ∃ N, ∀ z ∈ A ++ x :: (B ++ y :: C), z ≤ N := by
    have : ∀ l : List Nat, ∃ N, ∀ z ∈ l, z ≤ N := by
      intro l
      induction l with
      | nil => exact ⟨0, by simp⟩
      | cons a l ih =>
        obtain ⟨N, h⟩ := ih
        refine ⟨N + a, fun z hz => ?_⟩
        rcases List.mem_cons.1 hz with rfl | hz
        · omega
        · have := h z hz; omega
    exact this _
  have hN' : ∀ z ∈ A ++ y :: (B ++ x :: C), z ≤ N := by
    intro z hz
    apply hN
    simp only [List.mem_append, List.mem_cons] at hz ⊢
    tauto
  have anti : ∀ l : List Nat, (∀ z ∈ l, z ≤ N) → ascents (l.map fun z => N - z) = inversions l := by
    intro l hl
    apply ascents_map_antitone
    intro i hi j hj
    have := hl i hi; have := hl j hj
    omega
  rw [← anti _ hN, ← anti _ hN']
  simp only [List.map_append, List.map_cons]
  have bx : x ≤ N := hN x (by simp)
  have by' : y ≤ N := hN y (by simp)
  have nb : ∀ w, w ≤ N → w ∉ B → N - w ∉ B.map fun z => N - z := by
    intro w hw hwB hmem
    rw [List.mem_map] at hmem
    obtain ⟨z, hz, e⟩ := hmem
    have : z ≤ N := hN z (by simp [hz])
    exact hwB ((by omega : z = w) ▸ hz)
  exact ascents_swap _ _ _ _ _ (by omega) (nb x bx hx) (nb y by' hy)

theorem inversions_eq_zero_of_sorted (l : List Nat) (h : l.Pairwise (· ≤ ·)) : inversions l = 0 := by
  induction l with
  | nil => rfl
  | cons x l ih =>
    rw [List.pairwise_cons] at h
    simp only [inversions, ih h.2, Nat.add_zero, List.length_eq_zero_iff, List.filter_eq_nil_iff,
      decide_eq_true_eq]
    intro a ha; have := h.1 a ha; omega

end Ebcc
