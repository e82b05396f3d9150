import Verif.Model.Damping
import Verif.Lemmas.Py
import Mathlib.Algebra.Order.Field.Rat
import Mathlib.Data.List.Perm.Basic
import Mathlib.Algebra.Module.Rat

/-!
C26: the bookkeeping of DIIS.
-/

set_option linter.unusedSectionVars false

namespace Ebcc

open Dict

section
variable {V R : Type} [Field R] [LinearOrder R] [AddCommGroup V] [Module R V]

/-- Every cached inner product is the inner product of the errors stored under its keys. -/
def CacheOK (dot : V → V → R) (errors : Dict Int V) (cache : Dict (Int × Int) R) : Prop :=
  ∀ i j x, cache.get? (i, j) = some x → ∀ ei ej, errors.get? i = some ei → errors.get? j = some ej →
    x = dot ei ej

/-- The keys of the cache lie below the counter. -/
def CacheBound (counter : Int) (cache : Dict (Int × Int) R) : Prop :=
  ∀ i j x, cache.get? (i, j) = some x → i < counter ∧ j < counter

theorem errorNorm_ok (dot : V → V → R) (hdot : ∀ x y, dot x y = dot y x) (errors : Dict Int V)
    (cache : Dict (Int × Int) R) (hc : CacheOK dot errors cache) (b : Int) (hb : CacheBound b cache)
    (i j : Int) (ei ej : V) (hi : errors.get? i = some ei) (hj : errors.get? j = some ej)
    (hib : i < b) (hjb : j < b) :
    ∃ cache', errorNorm dot errors cache i j = .ok (dot ei ej, cache') ∧ CacheOK dot errors cache' ∧
      CacheBound b cache' := by
  unfold errorNorm
  cases hx : cache.get? (i, j) with
  | some x =>
    refine ⟨cache, ?_, hc, hb⟩
    simp only [hc i j x hx ei ej hi hj]
  | none =>
    refine ⟨_, by simp only [Dict.getItem, hi, hj, bind, Except.bind, pure, Except.pure]; rfl, ?_, ?_⟩
    · intro a b x hab ea eb hea heb
      rw [get?_set, get?_set] at hab
      split at hab
      · rename_i h
        simp only [Prod.mk.injEq] at h
        obtain ⟨rfl, rfl⟩ := h
        rw [hj] at hea
        rw [hi] at heb
        cases hab; cases hea; cases heb
        exact hdot _ _
      · split at hab
        · rename_i h
          simp only [Prod.mk.injEq] at h
          obtain ⟨rfl, rfl⟩ := h
          rw [hi] at hea
          rw [hj] at heb
          cases hab; cases hea; cases heb
          rfl
        · exact hc a b x hab ea eb hea heb
    · intro a c x hab
      rw [get?_set, get?_set] at hab
      split at hab
      · rename_i h
        simp only [Prod.mk.injEq] at h
        obtain ⟨rfl, rfl⟩ := h
        exact ⟨hjb, hib⟩
      · split at hab
        · rename_i h
          simp only [Prod.mk.injEq] at h
          obtain ⟨rfl, rfl⟩ := h
          exact ⟨hib, hjb⟩
        · exact hb a c x hab

/-- The error stored under a key. -/
def errorAt (errors : Dict Int V) (k : Int) : V := (errors.get? k).getD 0

theorem get?_errorAt {errors : Dict Int V} {k : Int} (h : k ∈ errors.keys) :
    errors.get? k = some (errorAt errors k) := by
  obtain ⟨v, hv⟩ := (mem_keys_iff errors k).1 h
  unfold errorAt
  rw [hv]; rfl

theorem errorNorms_ok (dot : V → V → R) (hdot : ∀ x y, dot x y = dot y x) (errors : Dict Int V)
    (cache : Dict (Int × Int) R) (hc : CacheOK dot errors cache) (b : Int) (hb : CacheBound b cache)
    (l : List (Int × Int))
    (hl : ∀ p ∈ l, p.1 ∈ errors.keys ∧ p.2 ∈ errors.keys ∧ p.1 < b ∧ p.2 < b) :
    ∃ cache', errorNorms dot errors cache l
        = .ok (l.map fun p => dot (errorAt errors p.1) (errorAt errors p.2), cache') ∧
      CacheOK dot errors cache' ∧ CacheBound b cache' := by
  induction l generalizing cache with
  | nil => exact ⟨cache, rfl, hc, hb⟩
  | cons p l ih =>
    obtain ⟨i, j⟩ := p
    obtain ⟨h1, h2, h3, h4⟩ := hl (i, j) List.mem_cons_self
    obtain ⟨c1, e1, hc1, hb1⟩ := errorNorm_ok dot hdot errors cache hc b hb i j _ _
      (get?_errorAt h1) (get?_errorAt h2) h3 h4
    obtain ⟨c2, e2, hc2, hb2⟩ := ih c1 hc1 hb1 fun q hq => hl q (List.mem_cons_of_mem _ hq)
    refine ⟨c2, ?_, hc2, hb2⟩
    rw [errorNorms, e1]
    simp only [bind, Except.bind, e2, pure, Except.pure, List.map_cons]

theorem errorRows_ok (dot : V → V → R) (hdot : ∀ x y, dot x y = dot y x) (errors : Dict Int V)
    (cache : Dict (Int × Int) R) (hc : CacheOK dot errors cache) (b : Int) (hb : CacheBound b cache)
    (ks : List Int) (hks : ∀ k ∈ ks, k ∈ errors.keys ∧ k < b)
    (l : List Int) (hl : ∀ k ∈ l, k ∈ errors.keys ∧ k < b) :
    ∃ cache', errorRows dot errors ks cache l
        = .ok (l.map fun i => ks.map fun j => dot (errorAt errors i) (errorAt errors j), cache') ∧
      CacheOK dot errors cache' ∧ CacheBound b cache' := by
  induction l generalizing cache with
  | nil => exact ⟨cache, rfl, hc, hb⟩
  | cons i l ih =>
    obtain ⟨h1, h2⟩ := hl i List.mem_cons_self
    obtain ⟨c1, e1, hc1, hb1⟩ := errorNorms_ok dot hdot errors cache hc b hb (ks.map fun j => (i, j)) (by
      intro p hp
      obtain ⟨j, hj, rfl⟩ := List.mem_map.1 hp
      exact ⟨h1, (hks j hj).1, h2, (hks j hj).2⟩)
    obtain ⟨c2, e2, hc2, hb2⟩ := ih c1 hc1 hb1 fun q hq => hl q (List.mem_cons_of_mem _ hq)
    refine ⟨c2, ?_, hc2, hb2⟩
    rw [errorRows, e1]
    simp only [bind, Except.bind, e2, pure, Except.pure, List.map_cons, List.map_map]
    rfl

theorem argMax_mem (best : Int × R) (l : List (Int × R)) : argMax best l ∈ (best :: l).map Prod.fst := by
  induction l generalizing best with
  | nil => simp [argMax]
  | cons x l ih =>
    rw [argMax]
    split
    · have := ih x
      rw [List.map_cons]
      exact List.mem_cons_of_mem _ this
    · have := ih best
      simp only [List.map_cons, List.mem_cons] at this ⊢
      tauto

/-- The state after `push` (`b` = counter) and after `extrapolate` (`b` = counter + 1). -/
structure DInv (dot : V → V → R) (space : Nat) (b : Int) (st : DIIS V R) : Prop where
  nodup : st.arrays.keys.Nodup
  keys : (st.arrays = [] ∧ st.errors = []) ∨ st.arrays.keys.Perm (-1 :: st.errors.keys)
  range : ∀ k ∈ st.errors.keys, 0 ≤ k ∧ k < b
  cacheOK : CacheOK dot st.errors st.cache
  cacheBound : CacheBound st.counter st.cache
  counter : 0 ≤ st.counter
  space : (st.errors.keys.filter (· < st.counter)).length + 1 ≤ space

theorem DInv.errorsNodup {dot : V → V → R} {space : Nat} {b : Int} {st : DIIS V R}
    (h : DInv dot space b st) : st.errors.keys.Nodup := by
  rcases h.keys with ⟨_, he⟩ | hp
  · rw [he]; simp [Dict.keys]
  · have := hp.nodup_iff.1 h.nodup
    exact (List.nodup_cons.1 this).2

theorem perm_set {d e : Dict Int V} {k : Int} {v w : V} (h : d.keys.Perm (-1 :: e.keys)) (hk : k ≠ -1) :
    (d.set k v).keys.Perm (-1 :: (e.set k w).keys) := by
  by_cases hm : k ∈ e.keys
  · rw [keys_set_of_mem e k w hm, keys_set_of_mem d k v (h.mem_iff.2 (List.mem_cons_of_mem _ hm))]
    exact h
  · have hm' : k ∉ d.keys := by
      rw [h.mem_iff, List.mem_cons, not_or]; exact ⟨hk, hm⟩
    rw [keys_set_of_not_mem e k w hm, keys_set_of_not_mem d k v hm', ← List.cons_append]
    exact List.Perm.append_right _ h

theorem length_keys {κ ν : Type} (d : Dict κ ν) : d.keys.length = d.length := List.length_map _

theorem store_ok {dot : V → V → R} (hdot : ∀ x y, dot x y = dot y x) (cfg : DIISConfig R)
    {st : DIIS V R} (h : DInv dot cfg.space (st.counter + 1) st) (hne : st.arrays ≠ []) (array error : V) :
    ∃ st', st.store dot cfg array error = .ok st' ∧ DInv dot cfg.space st'.counter st' ∧
      st'.counter = st.counter + 1 ∧ st'.arrays ≠ [] := by
  have hperm : st.arrays.keys.Perm (-1 :: st.errors.keys) := by
    rcases h.keys with ⟨he, _⟩ | hp
    · exact absurd he hne
    · exact hp
  have hcn : st.counter ≠ -1 := by have := h.counter; omega
  have hperm' := perm_set (v := array) (w := error) hperm hcn
  have hnd := nodup_keys_set st.arrays h.nodup st.counter array
  have hnde : (st.errors.set st.counter error).keys.Nodup :=
    nodup_keys_set st.errors h.errorsNodup st.counter error
  have hmem : ∀ k, k ∈ (st.errors.set st.counter error).keys ↔ k = st.counter ∨ k ∈ st.errors.keys := by
    intro k
    rw [mem_keys_iff, mem_keys_iff, get?_set]
    by_cases hk : st.counter = k
    · simp [hk]
    · rw [if_neg hk]; simp [Ne.symm (Ne.intro hk)]
  have hrange : ∀ k ∈ (st.errors.set st.counter error).keys, 0 ≤ k ∧ k < st.counter + 1 := by
    intro k hk
    rcases (hmem k).1 hk with rfl | hk
    · exact ⟨h.counter, by omega⟩
    · exact h.range k hk
  have hcache : CacheOK dot (st.errors.set st.counter error) st.cache := by
    intro i j x hx ei ej hi hj
    have hb := h.cacheBound i j x hx
    rw [get?_set, if_neg (by omega)] at hi hj
    exact h.cacheOK i j x hx ei ej hi hj
  have hbound : CacheBound (st.counter + 1) st.cache := by
    intro i j x hx
    have := h.cacheBound i j x hx
    omega
  have hcount : (st.errors.set st.counter error).keys.length ≤ cfg.space := by
    have hsub : (st.errors.set st.counter error).keys.Subperm
        (st.counter :: st.errors.keys.filter (· < st.counter)) := by
      apply List.subperm_of_subset hnde
      intro k hk
      rw [List.mem_cons, List.mem_filter]
      rcases (hmem k).1 hk with rfl | hk'
      · exact Or.inl rfl
      · have := h.range k hk'
        by_cases hkc : k = st.counter
        · exact Or.inl hkc
        · exact Or.inr ⟨hk', by simpa using (by omega : k < st.counter)⟩
    have := hsub.length_le
    rw [List.length_cons] at this
    exact le_trans this h.space
  have hlen := hperm'.length_eq
  rw [List.length_cons, length_keys] at hlen
  have hall : ∀ (e : Dict Int V), (∀ k ∈ e.keys, 0 ≤ k ∧ k < st.counter + 1) →
      (e.keys.filter (· < st.counter + 1)).length = e.keys.length := by
    intro e he
    congr 1
    rw [List.filter_eq_self]
    intro k hk
    simpa using (he k hk).2
  unfold DIIS.store
  by_cases hgt : (st.arrays.set st.counter array).length > cfg.space
  · simp only [if_pos hgt]
    obtain ⟨cache', e1, hc1, hb1⟩ := errorNorms_ok dot hdot (st.errors.set st.counter error) st.cache hcache
      (st.counter + 1) hbound ((st.errors.set st.counter error).keys.map fun k => (k, k)) (by
        intro p hp
        obtain ⟨k, hk, rfl⟩ := List.mem_map.1 hp
        exact ⟨hk, hk, (hrange k hk).2, (hrange k hk).2⟩)
    rw [e1]
    simp only [bind, Except.bind]
    have hz : ∀ x l, ((st.errors.set st.counter error).keys.zip
        (((st.errors.set st.counter error).keys.map fun k => (k, k)).map fun p =>
          dot (errorAt (st.errors.set st.counter error) p.1) (errorAt (st.errors.set st.counter error) p.2)))
        = x :: l → (x :: l).map Prod.fst = (st.errors.set st.counter error).keys := by
      intro x l hxl
      rw [← hxl, List.map_fst_zip (by simp)]
    cases hzip : ((st.errors.set st.counter error).keys.zip
        (((st.errors.set st.counter error).keys.map fun k => (k, k)).map fun p =>
          dot (errorAt (st.errors.set st.counter error) p.1) (errorAt (st.errors.set st.counter error) p.2))) with
    | nil =>
      exfalso
      have hm : st.counter ∈ (st.errors.set st.counter error).keys := (hmem _).2 (Or.inl rfl)
      have hl := congrArg List.length hzip
      rw [List.length_zip] at hl
      simp only [List.length_map, Nat.min_self, List.length_nil] at hl
      rw [List.length_eq_zero_iff] at hl
      rw [hl] at hm
      cases hm
    | cons x l =>
      simp only [pure, Except.pure]
      have hk : argMax x l ∈ (st.errors.set st.counter error).keys := hz x l hzip ▸ argMax_mem x l
      generalize argMax x l = k at hk
      have hka : k ∈ (st.arrays.set st.counter array).keys := hperm'.mem_iff.2 (List.mem_cons_of_mem _ hk)
      have hk1 : k ≠ -1 := by have := hrange k hk; omega
      refine ⟨_, rfl, ⟨?_, ?_, ?_, ?_, hb1, ?_, ?_⟩, rfl, ?_⟩
      · simp only [keys_erase]; exact hnd.erase k
      · right
        simp only [keys_erase]
        have := hperm'.erase k
        rwa [List.erase_cons_tail (by simpa using fun h : -1 = k => hk1 h.symm)] at this
      · simp only [keys_erase]
        intro j hj
        exact hrange j (List.mem_of_mem_erase hj)
      · intro i j y hy ei ej hi hj
        have ei' := hi
        rw [get?_erase_of_nodup _ hnde] at hi hj
        split at hi
        · cases hi
        · split at hj
          · cases hj
          · exact hc1 i j y hy ei ej hi hj
      · have := h.counter; show 0 ≤ st.counter + 1; omega
      · simp only
        rw [hall, keys_erase, List.length_erase_of_mem hk]
        · have : 0 < (st.errors.set st.counter error).keys.length := List.length_pos_of_mem hk
          omega
        · simp only [keys_erase]
          intro j hj
          exact hrange j (List.mem_of_mem_erase hj)
      · have : -1 ∈ ((st.arrays.set st.counter array).erase k).keys := by
          rw [keys_erase, List.mem_erase_of_ne fun h => hk1 h.symm, hperm'.mem_iff]
          exact List.mem_cons_self
        intro h0
        simp only at h0
        rw [h0] at this
        cases this
  · simp only [if_neg hgt, pure, Except.pure]
    refine ⟨_, rfl, ⟨hnd, Or.inr hperm', hrange, hcache, hbound, ?_, ?_⟩, rfl, ?_⟩
    · have := h.counter; show 0 ≤ st.counter + 1; omega
    · simp only
      rw [hall _ hrange]
      omega
    · have : -1 ∈ (st.arrays.set st.counter array).keys := by
        rw [hperm'.mem_iff]; exact List.mem_cons_self
      intro h0
      simp only at h0
      rw [h0] at this
      cases this

theorem push_ok {dot : V → V → R} (hdot : ∀ x y, dot x y = dot y x) (cfg : DIISConfig R)
    {st : DIIS V R} (h : DInv dot cfg.space (st.counter + 1) st) (array : V) (error : Option V) :
    ∃ st', st.push dot cfg array error = .ok st' ∧ DInv dot cfg.space st'.counter st' ∧ st'.arrays ≠ [] := by
  have hstart : st.arrays = [] → ∃ st', (Except.ok { st with arrays := st.arrays.set (-1) array } :
      Except PyErr (DIIS V R)) = .ok st' ∧ DInv dot cfg.space st'.counter st' ∧ st'.arrays ≠ [] := by
    intro he
    have hee : st.errors = [] := by
      rcases h.keys with ⟨_, he'⟩ | hp
      · exact he'
      · rw [he] at hp
        exact absurd hp.length_eq (by simp [Dict.keys])
    refine ⟨_, rfl, ⟨?_, ?_, ?_, ?_, h.cacheBound, h.counter, ?_⟩, ?_⟩
    · simp [he, Dict.set, Dict.keys]
    · right; simp [he, hee, Dict.set, Dict.keys]
    · simp [hee, Dict.keys]
    · exact h.cacheOK
    · have := h.space; simpa [hee, Dict.keys] using (by omega : 1 ≤ cfg.space)
    · simp [he, Dict.set]
  have hstore : ∀ e, st.arrays ≠ [] → ∃ st', st.store dot cfg array e = .ok st' ∧
      DInv dot cfg.space st'.counter st' ∧ st'.arrays ≠ [] := by
    intro e hne
    obtain ⟨st', h1, h2, _, h4⟩ := store_ok hdot cfg h hne array e
    exact ⟨st', h1, h2, h4⟩
  unfold DIIS.push
  cases error with
  | none =>
    cases hg : st.arrays.get? (-1) with
    | none =>
      simp only
      apply hstart
      rcases h.keys with ⟨he, _⟩ | hp
      · exact he
      · have : -1 ∈ st.arrays.keys := hp.mem_iff.2 List.mem_cons_self
        exact absurd this ((get?_eq_none_iff _ _).1 hg)
    | some prev =>
      simp only
      apply hstore
      rintro he
      rw [he] at hg
      cases hg
  | some e =>
    simp only
    by_cases hl : st.arrays.length = 0
    · rw [if_pos hl]
      exact hstart (List.length_eq_zero_iff.1 hl)
    · rw [if_neg hl]
      exact hstore e fun h0 => hl (by rw [h0]; rfl)

theorem foldl_add_eq_sum (l : List V) : l.foldl (· + ·) 0 = l.sum := by
  rw [List.sum_eq_foldl]

theorem combine_ok (d : Dict Int V) (ks : List Int) (hks : ∀ k ∈ ks, k ∈ d.keys) (c : List R) :
    combine d ks c = .ok ((ks.zip c).map fun p => p.2 • errorAt d p.1).sum := by
  have key : ∀ l : List (Int × R), (∀ p ∈ l, p.1 ∈ d.keys) →
      l.mapM (fun (p : Int × R) => do let v ← d.getItem p.1; pure (p.2 • v))
        = (.ok (l.map fun p => p.2 • errorAt d p.1) : Except PyErr (List V)) := by
    intro l hl
    induction l with
    | nil => rfl
    | cons p l ih =>
      have h1 : d.getItem p.1 = .ok (errorAt d p.1) := by
        unfold Dict.getItem; rw [get?_errorAt (hl p List.mem_cons_self)]
      rw [List.mapM_cons, ih fun q hq => hl q (List.mem_cons_of_mem _ hq), h1]
      rfl
  unfold combine
  have := key (ks.zip c) fun p hp => hks _ (List.of_mem_zip hp).1
  simp only [bind, Except.bind] at this ⊢
  rw [this]
  simp only [pure, Except.pure]
  rw [foldl_add_eq_sum]

/-- The keys of the stored errors in increasing order. -/
def DIIS.counters (st : DIIS V R) : List Int := st.errors.keys.insertionSort (· ≤ ·)

theorem mem_counters (st : DIIS V R) (k : Int) : k ∈ st.counters ↔ k ∈ st.errors.keys :=
  (List.perm_insertionSort _ _).mem_iff

/-- The matrix of the inner products of the stored errors, in the linear system. -/
def DIIS.matrix (dot : V → V → R) (st : DIIS V R) : List (List R) :=
  diisMatrix (st.counters.map fun i => st.counters.map fun j =>
    dot (errorAt st.errors i) (errorAt st.errors j))

/-- The coefficients of the extrapolation. -/
def DIIS.coeffs (dot : V → V → R) (solve : List (List R) → List R → List R) (st : DIIS V R) : List R :=
  solve (st.matrix dot) (diisResidual st.counters.length)

/-- What `extrapolate` does, in any state reached after `push`. -/
theorem extrapolate_eq {dot : V → V → R} (hdot : ∀ x y, dot x y = dot y x)
    (solve : List (List R) → List R → List R) (cfg : DIISConfig R)
    (hmin : 1 ≤ cfg.minSpace) {st : DIIS V R} (h : DInv dot cfg.space st.counter st) (hne : st.arrays ≠ []) :
    (st.counters.length < cfg.minSpace → st.extrapolate dot solve cfg = .ok (errorAt st.arrays (-1), st)) ∧
    (cfg.minSpace ≤ st.counters.length → ∃ cache', CacheOK dot st.errors cache' ∧ CacheBound st.counter cache' ∧
      let x := ((st.counters.zip (st.coeffs dot solve)).map fun p => p.2 • errorAt st.arrays p.1).sum
      let e := ((st.counters.zip (st.coeffs dot solve)).map fun p => p.2 • errorAt st.errors p.1).sum
      let y := if cfg.factor ≠ 0 then (1 - cfg.factor) • x + cfg.factor • errorAt st.arrays (-1) else x
      st.extrapolate dot solve cfg = .ok (y,
        ⟨(st.arrays.set (-1) y).set st.counter y, st.errors.set st.counter e, st.counter, cache'⟩)) := by
  have hperm : st.arrays.keys.Perm (-1 :: st.errors.keys) := by
    rcases h.keys with ⟨he, _⟩ | hp
    · exact absurd he hne
    · exact hp
  have hm1 : st.arrays.getItem (-1) = .ok (errorAt st.arrays (-1)) := by
    unfold Dict.getItem
    rw [get?_errorAt (hperm.mem_iff.2 List.mem_cons_self)]
  constructor
  · intro hlt
    unfold DIIS.extrapolate
    change st.counters.length < _ at hlt
    show (if st.counters.length < cfg.minSpace then _ else _) = _
    rw [if_pos hlt, hm1]
    rfl
  · intro hge
    have hks : ∀ k ∈ st.counters, k ∈ st.errors.keys ∧ k < st.counter := by
      intro k hk
      rw [mem_counters] at hk
      exact ⟨hk, (h.range k hk).2⟩
    obtain ⟨cache', e1, hc1, hb1⟩ := errorRows_ok dot hdot st.errors st.cache h.cacheOK st.counter
      h.cacheBound st.counters hks st.counters hks
    refine ⟨cache', hc1, hb1, ?_⟩
    have ha := combine_ok st.arrays st.counters (fun k hk => hperm.mem_iff.2 (List.mem_cons_of_mem _ (hks k hk).1))
      (st.coeffs dot solve)
    have he := combine_ok st.errors st.counters (fun k hk => (hks k hk).1) (st.coeffs dot solve)
    unfold DIIS.extrapolate
    show (if st.counters.length < cfg.minSpace then _ else if st.counters.length = 0 then _ else
      (do let (rows, cache) ← errorRows dot st.errors st.counters st.cache st.counters; _)) = _
    rw [if_neg (by omega), if_neg (by omega), e1]
    simp only [bind, Except.bind]
    have hcoef : solve (diisMatrix (st.counters.map fun i => st.counters.map fun j =>
        dot (errorAt st.errors i) (errorAt st.errors j))) (diisResidual st.counters.length)
        = st.coeffs dot solve := rfl
    have hcd : st.errors.keys.insertionSort (fun a b => a ≤ b) = st.counters := rfl
    simp only [hcd, hcoef, ha, he]
    by_cases hf : cfg.factor ≠ 0
    · simp only [if_pos hf, hm1, pure, Except.pure]
    · simp only [if_neg hf, pure, Except.pure]

theorem extrapolate_ok {dot : V → V → R} (hdot : ∀ x y, dot x y = dot y x)
    (solve : List (List R) → List R → List R) (cfg : DIISConfig R)
    (hmin : 1 ≤ cfg.minSpace) {st : DIIS V R} (h : DInv dot cfg.space st.counter st) (hne : st.arrays ≠ []) :
    ∃ x st', st.extrapolate dot solve cfg = .ok (x, st') ∧ DInv dot cfg.space (st'.counter + 1) st' ∧
      st'.arrays ≠ [] ∧ errorAt st'.arrays (-1) = x := by
  have hperm : st.arrays.keys.Perm (-1 :: st.errors.keys) := by
    rcases h.keys with ⟨he, _⟩ | hp
    · exact absurd he hne
    · exact hp
  obtain ⟨h1, h2⟩ := extrapolate_eq hdot solve cfg hmin h hne
  by_cases hlt : st.counters.length < cfg.minSpace
  · refine ⟨_, _, h1 hlt, ⟨h.nodup, h.keys, fun k hk => ?_, h.cacheOK, h.cacheBound, h.counter, h.space⟩, hne, rfl⟩
    have := h.range k hk
    omega
  · obtain ⟨cache', hc, hb, he⟩ := h2 (by omega)
    refine ⟨_, _, he, ?_, ?_, ?_⟩
    · have hm1 : -1 ∈ st.arrays.keys := hperm.mem_iff.2 List.mem_cons_self
      have hcn : st.counter ≠ -1 := by have := h.counter; omega
      have hp' : ∀ y, (st.arrays.set (-1) y).keys.Perm (-1 :: st.errors.keys) := by
        intro y
        rw [keys_set_of_mem _ _ _ hm1]; exact hperm
      have hmem : ∀ e k, k ∈ (st.errors.set st.counter e).keys ↔ k = st.counter ∨ k ∈ st.errors.keys := by
        intro e k
        rw [mem_keys_iff, mem_keys_iff, get?_set]
        by_cases hk : st.counter = k
        · simp [hk]
        · rw [if_neg hk]; simp [Ne.symm (Ne.intro hk)]
      refine ⟨?_, ?_, ?_, ?_, hb, h.counter, ?_⟩
      · exact nodup_keys_set _ (nodup_keys_set _ h.nodup _ _) _ _
      · right
        exact perm_set (hp' _) hcn
      · intro k hk
        rcases (hmem _ k).1 hk with rfl | hk
        · have := h.counter
          show 0 ≤ st.counter ∧ st.counter < st.counter + 1
          omega
        · have := h.range k hk
          show 0 ≤ k ∧ k < st.counter + 1
          omega
      · intro i j x hx ei ej hi hj
        have hbd := hb i j x hx
        simp only at hi hj
        rw [get?_set, if_neg (by omega)] at hi hj
        exact hc i j x hx ei ej hi hj
      · simp only
        refine le_trans ?_ h.space
        apply Nat.add_le_add_right
        apply List.Subperm.length_le
        apply List.subperm_of_subset ((nodup_keys_set _ h.errorsNodup _ _).filter _)
        intro k hk
        rw [List.mem_filter] at hk ⊢
        rcases (hmem _ k).1 hk.1 with rfl | h'
        · simp at hk
        · exact ⟨h', hk.2⟩
    · intro h0
      have := congrArg (fun d => Dict.get? d st.counter) h0
      simp only at this
      rw [get?_set, if_pos rfl] at this
      cases this
    · simp only [errorAt]
      rw [get?_set, if_neg (by have := h.counter; omega), get?_set, if_pos rfl]
      rfl

theorem init_inv (dot : V → V → R) (space : Nat) (hs : 1 ≤ space) :
    DInv dot space ((DIIS.init : DIIS V R).counter + 1) (DIIS.init : DIIS V R) := by
  refine ⟨by simp [DIIS.init, Dict.keys], Or.inl ⟨rfl, rfl⟩, by simp [DIIS.init, Dict.keys], ?_, ?_, ?_, ?_⟩
  · intro i j x hx; cases hx
  · intro i j x hx; cases hx
  · exact le_refl _
  · simpa [DIIS.init, Dict.keys] using hs

theorem run_inv {dot : V → V → R} (hdot : ∀ x y, dot x y = dot y x)
    (solve : List (List R) → List R → List R) (cfg : DIISConfig R)
    (hmin : 1 ≤ cfg.minSpace) (hspace : 1 ≤ cfg.space) (ops : List (DIISOp V)) (st : DIIS V R)
    (h : DInv dot cfg.space (st.counter + 1) st) :
    ∃ outs st', DIIS.run dot solve cfg st ops = .ok (outs, st') ∧ DInv dot cfg.space (st'.counter + 1) st' := by
  induction ops generalizing st with
  | nil => exact ⟨[], st, rfl, h⟩
  | cons op ops ih =>
    cases op with
    | reset => exact ih DIIS.init (init_inv dot cfg.space hspace)
    | call a e =>
      obtain ⟨s1, p1, p2, p3⟩ := push_ok hdot cfg h a e
      obtain ⟨x, s2, q1, q2, q3, _⟩ := extrapolate_ok hdot solve cfg hmin p2 p3
      obtain ⟨outs, s3, r1, r2⟩ := ih s2 q2
      refine ⟨x :: outs, s3, ?_, r2⟩
      rw [DIIS.run, DIIS.call, p1]
      simp only [bind, Except.bind, q1, r1, pure, Except.pure]

/-- After any sequence of calls and resets, with any errors passed or not, any data and any solver:
nothing is raised; apart from the reference vector (key -1) exactly the vectors with an error are stored,
each under one key; there are at most `space` of them; and every cached inner product of keys in use is
the inner product of the errors now stored. -/
theorem C26_bookkeeping_partial (dot : V → V → R) (hdot : ∀ x y, dot x y = dot y x)
    (solve : List (List R) → List R → List R) (cfg : DIISConfig R)
    (hmin : 1 ≤ cfg.minSpace) (hspace : 1 ≤ cfg.space) (ops : List (DIISOp V)) :
    ∃ outs st, DIIS.run dot solve cfg DIIS.init ops = .ok (outs, st) ∧
      st.arrays.keys.Nodup ∧
      (∀ k, k ≠ -1 → ((∃ v, st.arrays.get? k = some v) ↔ ∃ e, st.errors.get? k = some e)) ∧
      st.errors.get? (-1) = none ∧
      st.errors.length ≤ cfg.space ∧ st.arrays.length ≤ cfg.space + 1 ∧
      (∀ i j x, st.cache.get? (i, j) = some x → ∀ ei ej, st.errors.get? i = some ei →
        st.errors.get? j = some ej → x = dot ei ej) := by
  obtain ⟨outs, st, h1, h⟩ := run_inv hdot solve cfg hmin hspace ops DIIS.init (init_inv dot cfg.space hspace)
  have hle : st.errors.length ≤ cfg.space := by
    have hsub : st.errors.keys.Subperm (st.counter :: st.errors.keys.filter (· < st.counter)) := by
      apply List.subperm_of_subset h.errorsNodup
      intro k hk
      rw [List.mem_cons, List.mem_filter]
      have := h.range k hk
      by_cases hkc : k = st.counter
      · exact Or.inl hkc
      · exact Or.inr ⟨hk, by simpa using (by omega : k < st.counter)⟩
    have := hsub.length_le
    rw [List.length_cons, length_keys] at this
    exact le_trans this h.space
  refine ⟨outs, st, h1, h.nodup, ?_, ?_, hle, ?_, h.cacheOK⟩
  · intro k hk
    rw [← mem_keys_iff, ← mem_keys_iff]
    rcases h.keys with ⟨ha, he⟩ | hp
    · rw [ha, he]
    · rw [hp.mem_iff, List.mem_cons]
      simp [hk]
  · rw [get?_eq_none_iff]
    intro hk
    have := h.range _ hk
    omega
  · rcases h.keys with ⟨ha, he⟩ | hp
    · rw [ha]; simp
    · have := hp.length_eq
      rw [List.length_cons, length_keys, length_keys] at this
      omega

/-- After a call the vector returned is stored as the reference. -/
theorem C26_output_is_reference (dot : V → V → R) (hdot : ∀ x y, dot x y = dot y x)
    (solve : List (List R) → List R → List R) (cfg : DIISConfig R)
    (hmin : 1 ≤ cfg.minSpace) (hspace : 1 ≤ cfg.space) (ops : List (DIISOp V)) (outs : List V) (st : DIIS V R)
    (hrun : DIIS.run dot solve cfg DIIS.init ops = .ok (outs, st)) (a : V) (e : Option V) :
    ∃ x st', st.call dot solve cfg a e = .ok (x, st') ∧ st'.arrays.get? (-1) = some x := by
  obtain ⟨outs', st', h1, h⟩ := run_inv hdot solve cfg hmin hspace ops DIIS.init (init_inv dot cfg.space hspace)
  rw [hrun] at h1
  cases h1
  obtain ⟨s1, p1, p2, p3⟩ := push_ok hdot cfg h a e
  obtain ⟨x, s2, q1, q2, q3, q4⟩ := extrapolate_ok hdot solve cfg hmin p2 p3
  refine ⟨x, s2, ?_, ?_⟩
  · rw [DIIS.call, p1]; exact q1
  · rcases q2.keys with ⟨ha, _⟩ | hp
    · exact absurd ha q3
    · rw [get?_errorAt (hp.mem_iff.2 List.mem_cons_self), q4]

end

/-! ### What is false -/

/-- A solver for the examples: one or two stored vectors. -/
def exSolve (m : List (List Rat)) (_ : List Rat) : List Rat :=
  match m with
  | [[a, _], _] => [1, a]
  | [[a, b, _], [_, c, _], _] =>
    if a - 2 * b + c = 0 then [1/2, 1/2] else [(c - b) / (a - 2 * b + c), (a - b) / (a - 2 * b + c)]
  | _ => []

/-- The space is exceeded by one vector after an extrapolation. -/
theorem C26_space_exceeded :
    ∃ outs st, DIIS.run (V := Rat) (R := Rat) (· * ·) exSolve ⟨2, 1, 0⟩ DIIS.init
        [.call 1 none, .call 3 none] = .ok (outs, st) ∧ st.arrays.length = 3 := by
  refine ⟨_, _, rfl, by decide +kernel⟩

/-- The newest vector is dropped when its error is the largest: with two vectors the third, 10, is not
stored. -/
theorem C26_newest_dropped :
    ∃ st st' : DIIS Rat Rat, (do
        let (_, st) ← DIIS.call (· * ·) exSolve ⟨2, 1, 0⟩ DIIS.init 0 none
        let (_, st) ← DIIS.call (· * ·) exSolve ⟨2, 1, 0⟩ st 1 none
        pure st : Except PyErr (DIIS Rat Rat)) = .ok st ∧
      st.push (· * ·) ⟨2, 1, 0⟩ 10 none = .ok st' ∧ 10 ∉ st'.arrays.map Prod.snd := by
  refine ⟨_, _, rfl, rfl, by decide +kernel⟩

/-- When `extrapolate` is called by itself a second time, the inner products of the extrapolated error are
cached under a key that the next `push` uses again: the cache is stale from then on. -/
theorem C26_stale_cache :
    ∃ st : DIIS Rat Rat, (do
        let (_, st) ← DIIS.call (· * ·) exSolve ⟨6, 1, 0⟩ DIIS.init 0 none
        let (_, st) ← DIIS.call (· * ·) exSolve ⟨6, 1, 0⟩ st 1 none
        let (_, st) ← DIIS.extrapolate (· * ·) exSolve ⟨6, 1, 0⟩ st
        st.push (· * ·) ⟨6, 1, 0⟩ 4 none : Except PyErr (DIIS Rat Rat)) = .ok st ∧
      ∃ x e, st.cache.get? (1, 1) = some x ∧ st.errors.get? 1 = some e ∧ x ≠ e * e := by
  refine ⟨⟨[(-1, 1), (0, 1), (1, 4)], [(0, 1), (1, 3)], 2,
    [((0, 0), 1), ((0, 1), 1), ((1, 0), 1), ((1, 1), 1)]⟩, by decide +kernel, 1, 3, by decide +kernel,
    by decide +kernel, by decide +kernel⟩

example : ∃ st : DIIS Rat Rat, DIIS.run (· * ·) exSolve ⟨2, 1, 0⟩ DIIS.init
    [.call 0 none, .call 1 none, .call 4 none, .reset, .call 2 none, .call 5 (some 1)] = .ok ([0, 1, 1, 2, 5], st) ∧
    st.errors.keys = [0, 1] := by
  refine ⟨⟨[(-1, 5), (0, 5), (1, 5)], [(0, 1), (1, 1)], 1, [((0, 0), 1)]⟩, by decide +kernel,
    by decide +kernel⟩

end Ebcc
