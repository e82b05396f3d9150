import Verif.Lemmas.Amps
import Verif.Lemmas.PermSum
import Verif.Lemmas.AntisymArray
import Verif.Thms.C02
import Verif.Thms.C13
/-!
Transposing by a permutation and by its inverse.
-/

namespace Ebcc

/-- Reading through a permutation and through its inverse. -/
theorem map_inv {α : Type} (d : α) {p q : List Nat} {l : List α} (hpl : p.length = l.length) (hql : q.length = l.length)
    (hlt : ∀ k < l.length, p.getD k 0 < l.length) (hinv : ∀ k < l.length, q.getD (p.getD k 0) 0 = k) :
    (p.map fun k => (q.map fun j => l.getD j d).getD k d) = l := by
  apply List.ext_getElem
  · simpa using hpl
  · intro k h1 h2
    have hk : k < p.length := by simpa using h1
    have e1 := hlt k h2
    have e2 := hinv k h2
    rw [getD_eq p k 0 hk] at e1 e2
    rw [getD_eq q _ 0 (by omega)] at e2
    rw [List.getElem_map, getD_eq _ _ _ (by simp; omega), List.getElem_map, e2, getD_eq _ _ _ h2]

theorem argsort_inv {p : List Nat} (hp : p.Perm (List.range p.length)) :
    (∀ k < p.length, (argsort p).getD (p.getD k 0) 0 = k) ∧ (∀ k < p.length, p.getD ((argsort p).getD k 0) 0 = k) := by
  constructor
  · intro k hk
    obtain ⟨_, i, h1, h2⟩ := C13_inverse p hp k hk
    simp [List.getD_eq_getElem?_getD, h1, h2]
  · intro k hk
    obtain ⟨⟨i, h1, h2⟩, _⟩ := C13_inverse p hp k hk
    simp [List.getD_eq_getElem?_getD, h1, h2]

theorem perm_range_getD_lt {p : List Nat} {n : Nat} (hp : p.Perm (List.range n)) {k : Nat} (hk : k < n) : p.getD k 0 < n := by
  have hl : p.length = n := by simpa using hp.length_eq
  rw [getD_eq _ _ _ (by omega)]
  have := hp.mem_iff.1 (List.getElem_mem (by omega : k < p.length))
  simpa using this

/-- Transposing and transposing back. -/
theorem transpose_inv {R : Type} [Zero R] (a : NDArray R) (ha : a.WF) (p q : List Nat)
    (hp : p.Perm (List.range a.shape.length)) (hq : q.Perm (List.range a.shape.length))
    (hinv : ∀ k < a.shape.length, q.getD (p.getD k 0) 0 = k) :
    ∃ t, a.transpose q = .ok t ∧ t.WF ∧ t.shape = (q.map fun k => a.shape.getD k 0) ∧ t.transpose p = .ok a ∧
      (∀ idx, ValidIdx a.shape idx → t.get (q.map fun k => idx.getD k 0) = a.get idx) ∧
      (∀ idx, ValidIdx t.shape idx → a.get (p.map fun k => idx.getD k 0) = t.get idx) := by
  have hpl : p.length = a.shape.length := by simpa using hp.length_eq
  have hql : q.length = a.shape.length := by simpa using hq.length_eq
  obtain ⟨t, ht, hw, hs, hg⟩ := transpose_spec a q hq
  have hts : t.shape.length = a.shape.length := by rw [hs, List.length_map, hql]
  obtain ⟨r, hr, hrw, hrs, hrg⟩ := transpose_spec t p (by rw [hts]; exact hp)
  have hra : r = a := by
    have hsh : r.shape = a.shape := by
      rw [hrs, hs]
      exact map_inv 0 hpl hql (fun k hk => perm_range_getD_lt hp hk) hinv
    apply NDArray.ext_get hrw ha hsh
    intro idx hidx
    change InBox r.shape idx at hidx
    rw [hsh] at hidx
    have hil : idx.length = a.shape.length := List.Forall₂.length_eq hidx
    have e : (p.map fun k => (q.map fun j => idx.getD j 0).getD k 0) = idx :=
      map_inv 0 (by omega) (by omega) (fun k hk => by rw [hil]; exact perm_range_getD_lt hp (by omega))
        (fun k hk => hinv k (by omega))
    have hv : ValidIdx t.shape (q.map fun j => idx.getD j 0) := by
      rw [hs]
      exact inBox_map_perm (by rw [hql]; exact hq) hql.symm hidx
    have h1 := hrg _ hv
    rw [e] at h1
    rw [h1, hg idx hidx]
  subst hra
  exact ⟨t, ht, hw, hs, hr, hg, hrg⟩

/-- Transposing commutes with elementwise maps. -/
theorem transpose_map {R : Type} [Zero R] (a : NDArray R) (p : List Nat) (f : R → R) (hf : f 0 = 0) :
    (a.map f).transpose p = (a.transpose p).map (NDArray.map f) := by
  unfold NDArray.transpose
  by_cases h : p.isPerm (List.range a.shape.length) = true
  · rw [if_pos h, if_pos (by exact h)]
    simp only [Except.map, NDArray.ofFn, NDArray.map, List.map_map]
    congr 2
    apply List.map_congr_left
    intro idx _
    exact map_get a f hf _
  · rw [if_neg h, if_neg (by exact h)]
    rfl

/-- The symmetry of the transposed array. -/
theorem groupSymmetric_transpose {R κ : Type} [DecidableEq κ] [Inhabited κ] [Ring R] (s : κ → Char) (sub : List κ) (sz : κ → Nat)
    (t b : NDArray R) (p : List Nat)
    (hp : p.Perm (List.range sub.length)) (hts : t.shape = sub.map sz)
    (hg : ∀ idx, ValidIdx t.shape idx → b.get (p.map fun k => idx.getD k 0) = t.get idx)
    (hbs : b.shape = (p.map fun k => t.shape.getD k 0))
    (hb : GroupSymmetric (p.map fun k => sub.getD k default) s b) : GroupSymmetric sub s t := by
  have hpl : p.length = sub.length := by simpa using hp.length_eq
  have htl : t.shape.length = sub.length := by rw [hts, List.length_map]
  have hnd : p.Nodup := hp.nodup_iff.2 List.nodup_range
  intro i j c hij hi hj idx hidx
  have hil : idx.length = sub.length := (List.Forall₂.length_eq hidx).trans htl
  obtain ⟨hi1, hi2⟩ := List.getElem?_eq_some_iff.1 hi
  obtain ⟨hj1, hj2⟩ := List.getElem?_eq_some_iff.1 hj
  have hsw : ValidIdx t.shape (swapIdx i j idx) :=
    swapIdx_inBox (sub := sub) ⟨sz, hts⟩ hi1 hj1 (by rw [hi2, hj2]) hidx
  obtain ⟨i', hi', ei⟩ := List.getElem_of_mem (hp.mem_iff.2 (List.mem_range.2 hi1))
  obtain ⟨j', hj', ej⟩ := List.getElem_of_mem (hp.mem_iff.2 (List.mem_range.2 hj1))
  have hne : i' ≠ j' := by
    rintro rfl
    rw [ei] at ej; omega
  have key : (p.map fun k => (swapIdx i j idx).getD k 0) = swapIdx i' j' (p.map fun k => idx.getD k 0) := by
    apply List.ext_getElem
    · rw [swapIdx_length]; simp
    · intro k h1 h2
      have hk : k < p.length := by simpa using h1
      have hpk : p[k] < sub.length := by
        have := hp.mem_iff.1 (List.getElem_mem hk); simpa using this
      rw [List.getElem_map, swapIdx_getD _ _ _ _ (by omega)]
      have h3 := swapIdx_getD i' j' (p.map fun k => idx.getD k 0) k (by simpa using hk)
      rw [getD_eq _ _ _ h2] at h3
      rw [h3]
      have hs : swapNat i' j' k < p.length := swapNat_lt hi' hj' hk
      rw [getD_eq (p.map _) _ _ (by simpa using hs), List.getElem_map]
      congr 1
      unfold swapNat
      by_cases e1 : k = i'
      · subst e1
        simp [ei, ej]
      · by_cases e2 : k = j'
        · subst e2
          have : ¬ p[k] = i := by rw [ej]; omega
          simp [ei, ej, Ne.symm hne, show ¬ j = i by omega]
        · have h4 : ¬ p[k] = i := fun h => e1 (hnd.getElem_inj_iff.1 (h.trans ei.symm))
          have h5 : ¬ p[k] = j := fun h => e2 (hnd.getElem_inj_iff.1 (h.trans ej.symm))
          simp [h4, h5, e1, e2]
  have hvb : ValidIdx b.shape (p.map fun k => idx.getD k 0) := by
    rw [hbs]
    exact inBox_map_perm (by rw [hpl]; exact hp) (by omega) hidx
  have ti : (p.map fun k => sub.getD k default)[i']? = some c := by
    rw [List.getElem?_eq_getElem (by simpa using hi'), List.getElem_map, ei, getD_eq _ _ _ hi1, hi2]
  have tj : (p.map fun k => sub.getD k default)[j']? = some c := by
    rw [List.getElem?_eq_getElem (by simpa using hj'), List.getElem_map, ej, getD_eq _ _ _ hj1, hj2]
  rw [← hg _ hsw, key, ← hg _ hidx]
  rcases Nat.lt_or_gt_of_ne hne with h | h
  · exact hb i' j' c h ti tj _ hvb
  · rw [swapIdx_comm]
    exact hb j' i' c h tj ti _ hvb

/-- Compression commutes with elementwise maps. -/
theorem compress_map {κ R : Type} [DecidableEq κ] [Zero R] (sub : List κ) (a : NDArray R) (diag : Bool) (f : R → R) (hf : f 0 = 0)
    (hc : Consistent sub a.shape) {c : NDArray R} (h : compressAxes sub a diag = .ok c) :
    compressAxes sub (a.map f) diag = .ok (c.map f) := by
  rw [compressAxes_ok sub a diag hc] at h
  injection h with h
  subst h
  rw [compressAxes_ok sub (a.map f) diag (by exact hc)]
  simp only [NDArray.map, List.map_map]
  congr 2
  apply List.map_congr_left
  intro ts _
  exact map_get a f hf _

/-- The permutation of a string, as a map over its positions. -/
theorem permuteString_map {s t : List Char} {p : List Nat} (h : permuteString s p = .ok t) :
    t = p.map fun k => s.getD k default := by
  unfold permuteString at h
  induction p generalizing t with
  | nil => simp only [List.mapM_nil, pure, Except.pure, Except.ok.injEq] at h; subst h; rfl
  | cons k p ih =>
    rw [List.mapM_cons] at h
    simp only [bind, Except.bind, pure, Except.pure] at h
    unfold strIndex at h
    cases hk : s[k]? with
    | none => rw [hk] at h; simp at h
    | some c =>
      rw [hk] at h
      simp only at h
      split at h
      · cases h
      · rename_i v hv
        injection h with h
        subst h
        rw [List.map_cons, ← ih hv]
        simp [List.getD_eq_getElem?_getD, hk]

end Ebcc
