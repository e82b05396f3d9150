import Verif.Model.Compress
import Verif.Spec.Antisym
import Verif.Lemmas.Array
import Verif.Lemmas.Perms
import Verif.Lemmas.Tril
import Verif.Lemmas.Misc
import Verif.Thms.C01
import Mathlib.Data.List.Perm.Basic
import Mathlib.Data.List.Sort
import Mathlib.Data.List.Forall2
import Mathlib.Tactic.Ring

namespace Ebcc

/-! ### itertools.product -/

theorem mem_prodL {α : Type} {ls : List (List α)} {t : List α} :
    t ∈ prodL ls ↔ List.Forall₂ (fun x l => x ∈ l) t ls := by
  induction ls generalizing t with
  | nil => simp [prodL]
  | cons l ls ih =>
    simp only [prodL, List.mem_flatMap, List.mem_map, List.forall₂_cons_right_iff]
    constructor
    · rintro ⟨x, hx, t', ht', rfl⟩; exact ⟨x, t', hx, ih.1 ht', rfl⟩
    · rintro ⟨x, t', hx, ht', rfl⟩; exact ⟨x, hx, t', ih.2 ht', rfl⟩

theorem length_prodL {α : Type} (ls : List (List α)) :
    (prodL ls).length = prodN (ls.map List.length) := by
  induction ls with
  | nil => rfl
  | cons l ls ih => simp [prodL, List.length_flatMap, ih, prodN, List.map_const']

theorem nodup_prodL {α : Type} (ls : List (List α)) (h : ∀ l ∈ ls, l.Nodup) :
    (prodL ls).Nodup := by
  induction ls with
  | nil => simp [prodL]
  | cons l ls ih =>
    have ih' := ih fun l hl => h l (by simp [hl])
    simp only [prodL]
    rw [List.nodup_flatMap]
    constructor
    · intro i _; exact ih'.map (fun a b h => by simpa using h)
    · apply (h l (by simp)).imp
      intro a b hab l hl hl'
      simp only [List.mem_map] at hl hl'
      obtain ⟨_, _, rfl⟩ := hl
      obtain ⟨_, _, h⟩ := hl'
      exact hab (List.cons.inj h).1.symm

theorem prodL_zipWith_map {α β : Type} : ∀ (fs : List (α → β)) (ls : List (List α)),
    fs.length = ls.length →
    prodL (List.zipWith (fun f l => l.map f) fs ls)
      = (prodL ls).map fun t => List.zipWith (fun f x => f x) fs t := by
  intro fs
  induction fs with
  | nil => intro ls h; cases ls <;> simp_all [prodL]
  | cons f fs ih =>
    intro ls h
    cases ls with
    | nil => simp at h
    | cons l ls =>
      simp only [List.zipWith_cons_cons, prodL, List.flatMap_map, List.map_flatMap, List.map_map]
      rw [ih ls (by simpa using h)]
      simp [List.map_map, Function.comp_def]

/-! ### ravel -/

theorem ravelIdx_append {s1 s2 a b : List Nat} (h : a.length = s1.length) :
    ravelIdx (s1 ++ s2) (a ++ b) = ravelIdx s1 a * prodN s2 + ravelIdx s2 b := by
  induction s1 generalizing a with
  | nil => simp at h; subst h; simp [ravelIdx]
  | cons n s1 ih =>
    cases a with
    | nil => simp at h
    | cons i a =>
      simp only [List.cons_append, ravelIdx, prodN_append]
      rw [ih (by simpa using h)]
      ring

theorem prodN_flatten (ss : List (List Nat)) : prodN ss.flatten = prodN (ss.map prodN) := by
  induction ss with
  | nil => rfl
  | cons s ss ih => simp [prodN, prodN_append, ih]

theorem ravelIdx_flatten {ss rows : List (List Nat)}
    (h : List.Forall₂ (fun r s => r.length = s.length) rows ss) :
    ravelIdx (ss.map prodN) (List.zipWith ravelIdx ss rows) = ravelIdx ss.flatten rows.flatten := by
  induction h with
  | nil => simp [ravelIdx]
  | @cons r s rows ss h1 _ ih =>
    simp only [List.map_cons, List.zipWith_cons_cons, ravelIdx, List.flatten_cons]
    rw [ravelIdx_append h1, ih]
    rw [prodN_flatten]

theorem prodN_replicate (m n : Nat) : prodN (List.replicate m n) = n ^ m := by
  induction m with
  | zero => rfl
  | succ m ih => simp [List.replicate_succ, prodN, ih, Nat.pow_succ, Nat.mul_comm]

/-! ### permuting axes -/

theorem map_unpermute {axes T : List Nat} (hp : axes.Perm (List.range axes.length))
    (hT : T.length = axes.length) : (axes.map fun p => (unpermute axes T).getD p 0) = T := by
  apply List.ext_getElem
  · simp [hT]
  · intro j h1 h2
    have hj : j < axes.length := by simpa using h1
    have hnd : axes.Nodup := hp.nodup_iff.2 List.nodup_range
    have hlt : axes[j] < axes.length := by
      have := hp.mem_iff.1 (List.getElem_mem hj); simpa using this
    simp [unpermute, hlt, hnd.idxOf_getElem, h2]

theorem unpermute_map {axes idx : List Nat} (hp : axes.Perm (List.range axes.length))
    (hT : idx.length = axes.length) : unpermute axes (axes.map fun p => idx.getD p 0) = idx := by
  apply List.ext_getElem
  · simp [unpermute, hT]
  · intro p h1 h2
    have hpl : p < axes.length := by omega
    have hmem : p ∈ axes := hp.mem_iff.2 (by simpa using hpl)
    have hix : axes.idxOf p < axes.length := List.idxOf_lt_length_of_mem hmem
    simp [unpermute, hix, h2]

theorem length_unpermute (axes T : List Nat) : (unpermute axes T).length = axes.length := by
  simp [unpermute]

theorem inBox_iff_getD {s idx : List Nat} :
    InBox s idx ↔ idx.length = s.length ∧ ∀ p < s.length, idx.getD p 0 < s.getD p 0 := by
  unfold InBox
  rw [List.forall₂_iff_get]
  constructor
  · rintro ⟨h1, h2⟩
    refine ⟨h1, fun p hp => ?_⟩
    have := h2 p (by omega) hp
    simpa [List.getD, List.getElem?_eq_getElem, hp, h1] using this
  · rintro ⟨h1, h2⟩
    refine ⟨h1, fun p hp hp' => ?_⟩
    have := h2 p hp'
    simpa [List.getD, List.getElem?_eq_getElem, hp'  , h1] using this

theorem inBox_unpermute {axes shape T : List Nat} (hp : axes.Perm (List.range axes.length))
    (hs : shape.length = axes.length) (hT : InBox (axes.map fun p => shape.getD p 0) T) :
    InBox shape (unpermute axes T) := by
  have hTl : T.length = axes.length := by simpa using hT.length_eq
  rw [inBox_iff_getD] at hT ⊢
  refine ⟨by simp [length_unpermute, hs], fun p hpl => ?_⟩
  have hmem : p ∈ axes := hp.mem_iff.2 (by simp; omega)
  have hix : axes.idxOf p < axes.length := List.idxOf_lt_length_of_mem hmem
  have := hT.2 (axes.idxOf p) (by simpa using hix)
  have e : (unpermute axes T).getD p 0 = T.getD (axes.idxOf p) 0 := by
    simp [unpermute, List.getD, show p < axes.length by omega]
  rw [e]
  simpa [List.getD, hix] using this

theorem inBox_map_perm {axes shape idx : List Nat} (hp : axes.Perm (List.range axes.length))
    (hs : shape.length = axes.length) (h : InBox shape idx) :
    InBox (axes.map fun p => shape.getD p 0) (axes.map fun p => idx.getD p 0) := by
  rw [inBox_iff_getD] at h ⊢
  refine ⟨by simp, fun j hj => ?_⟩
  have hj' : j < axes.length := by simpa using hj
  have hlt : axes[j] < axes.length := by
    have := hp.mem_iff.1 (List.getElem_mem hj'); simpa using this
  have := h.2 axes[j] (by omega)
  simpa [List.getD, hj'] using this

theorem transpose_ok {R : Type} [Zero R] (a : NDArray R) (axes : List Nat)
    (hp : axes.Perm (List.range a.shape.length)) :
    a.transpose axes = .ok (NDArray.ofFn (axes.map fun p => a.shape.getD p 0)
      fun T => a.get (unpermute axes T)) := by
  unfold NDArray.transpose
  rw [if_pos (List.isPerm_iff.2 hp)]

/-! ### ascents and inversions -/

theorem ascents_map_antitone (t : Nat → Nat) (p : List Nat)
    (ht : ∀ i ∈ p, ∀ j ∈ p, i < j ↔ t j < t i) : ascents (p.map t) = inversions p := by
  induction p with
  | nil => rfl
  | cons x p ih =>
    simp only [List.map_cons, ascents, inversions]
    rw [ih (fun i hi j hj => ht i (by simp [hi]) j (by simp [hj]))]
    congr 1
    rw [List.filter_map, List.length_map]
    congr 1
    apply List.filter_congr
    intro y hy
    simp only [Function.comp]
    rw [decide_eq_decide]
    exact (ht y (by simp [hy]) x (by simp)).symm

theorem ascents_append (a b : List Nat) :
    ascents (a ++ b) = ascents a + ascents b
      + (a.map fun x => (b.filter fun y => decide (x < y)).length).sum := by
  induction a with
  | nil => simp [ascents]
  | cons x a ih => simp [ascents, ih, List.filter_append]; omega

theorem ascents_eq_zero_of_sorted (l : List Nat) (h : l.Pairwise fun a b => b ≤ a) :
    ascents l = 0 := by
  induction l with
  | nil => rfl
  | cons x l ih =>
    rw [List.pairwise_cons] at h
    simp only [ascents, ih h.2]
    simp only [Nat.add_zero, List.length_eq_zero_iff, List.filter_eq_nil_iff]
    intro a ha; have := h.1 a ha; simp; omega

theorem ascents_swap_adjacent (A C : List Nat) (x y : Nat) (h : x ≠ y) :
    (ascents (A ++ x :: y :: C) + ascents (A ++ y :: x :: C)) % 2 = 1 := by
  rw [ascents_append, ascents_append]
  have e : (A.map fun z => ((x :: y :: C).filter fun w => decide (z < w)).length)
      = (A.map fun z => ((y :: x :: C).filter fun w => decide (z < w)).length) := by
    apply List.map_congr_left
    intro z _
    exact ((List.Perm.swap y x C).filter _).length_eq
  rw [e]
  simp only [ascents, List.filter_cons, decide_eq_true_eq]
  rcases Nat.lt_or_gt_of_ne h with h | h
  · simp only [h, if_true, show ¬ y < x by omega, if_false, List.length_cons]; omega
  · simp only [h, if_true, show ¬ x < y by omega, if_false, List.length_cons]; omega

theorem ascents_move (A B C : List Nat) (x : Nat) (h : x ∉ B) :
    (ascents (A ++ x :: (B ++ C)) + ascents (A ++ (B ++ x :: C)) + B.length) % 2 = 0 := by
  induction B generalizing A with
  | nil => simp; omega
  | cons b B ih =>
    have h1 := ascents_swap_adjacent A (B ++ C) x b (fun e => h (by simp [e]))
    have h2 := ih (A ++ [b]) (fun e => h (by simp [e]))
    simp only [List.append_assoc, List.cons_append, List.nil_append, List.length_cons] at h1 h2 ⊢
    omega

theorem ascents_swap (A B C : List Nat) (x y : Nat) (hxy : x ≠ y) (hx : x ∉ B) (hy : y ∉ B) :
    (ascents (A ++ x :: (B ++ y :: C)) + ascents (A ++ y :: (B ++ x :: C))) % 2 = 1 := by
  have h1 := ascents_move A (B ++ [y]) C x (by simp [hx, hxy])
  have h2 := ascents_move A B (x :: C) y hy
  simp only [List.append_assoc, List.cons_append, List.nil_append, List.length_append,
    List.length_cons, List.length_nil] at h1 h2
  omega

theorem perm_map_exists {α β : Type} (f : α → β) {l : List β} {L : List α}
    (h : l.Perm (L.map f)) : ∃ L' : List α, L'.Perm L ∧ l = L'.map f := by
  generalize hM : L.map f = M at h
  induction h generalizing L with
  | nil => exact ⟨[], by simp_all⟩
  | cons x _ ih =>
    cases L with
    | nil => simp at hM
    | cons a L =>
      simp only [List.map_cons, List.cons.injEq] at hM
      obtain ⟨L', h1, h2⟩ := ih hM.2
      exact ⟨a :: L', h1.cons a, by simp [h2, hM.1]⟩
  | swap x y l =>
    match L, hM with
    | a :: b :: L, hM =>
      simp only [List.map_cons, List.cons.injEq] at hM
      exact ⟨b :: a :: L, List.Perm.swap _ _ _, by simp [hM]⟩
  | trans _ _ ih1 ih2 =>
    obtain ⟨L1, h1, rfl⟩ := ih2 hM
    obtain ⟨L2, h2, rfl⟩ := ih1 rfl
    exact ⟨L2, h2.trans h1, rfl⟩

/-! ### one group: permutations of the positions applied to decreasing tuples -/

theorem applyPerm_perm {p t : List Nat} (hp : p.Perm (List.range t.length)) :
    (applyPerm p t).Perm t := by
  unfold applyPerm
  refine (hp.map _).trans ?_
  apply List.Perm.of_eq
  apply List.ext_getElem
  · simp
  · intro i h1 h2; simp [h2]

theorem exists_applyPerm {g t : List Nat} (h : g.Perm t) :
    ∃ p, p.Perm (List.range t.length) ∧ applyPerm p t = g := by
  have : t = (List.range t.length).map fun i => t.getD i 0 := by
    apply List.ext_getElem
    · simp
    · intro i h1 h2; simp [h1]
  have h' : g.Perm ((List.range t.length).map fun i => t.getD i 0) := this ▸ h
  obtain ⟨L', h1, h2⟩ := perm_map_exists _ h'
  exact ⟨L', h1, h2.symm⟩

theorem arrangementSign_range {m : Nat} {p : List Nat} (hp : p.Perm (List.range m)) :
    arrangementSign (List.range m) p = signOfParity (inversions p) := by
  unfold arrangementSign
  congr 2
  conv_rhs => rw [← List.map_id p]
  apply List.map_congr_left
  intro a ha
  have : a < m := by simpa using hp.mem_iff.1 ha
  have h1 := List.nodup_range (n := m) |>.idxOf_getElem a (by simpa using this)
  simpa using h1

theorem sign_of_mem_pws {m : Nat} {p : List Nat} {s : Int}
    (h : (p, s) ∈ permutationsWithSigns (List.range m)) :
    p.Perm (List.range m) ∧ s = signOfParity (inversions p) := by
  have hp : p.Perm (List.range m) := (C01_complete _ _).1 (List.mem_map_of_mem (f := Prod.fst) h)
  exact ⟨hp, (C01_sign _ List.nodup_range _ _ h).trans (arrangementSign_range hp)⟩

theorem mem_pws_of_perm {m : Nat} {p : List Nat} (h : p.Perm (List.range m)) :
    (p, signOfParity (inversions p)) ∈ permutationsWithSigns (List.range m) := by
  have := (C01_complete (List.range m) p).2 h
  rw [List.mem_map] at this
  obtain ⟨⟨q, s⟩, hq, rfl⟩ := this
  rw [(sign_of_mem_pws hq).2] at hq
  exact hq

theorem ascents_applyPerm {p t : List Nat} (hp : p.Perm (List.range t.length))
    (ht : t.Pairwise fun a b => b < a) : ascents (applyPerm p t) = inversions p := by
  unfold applyPerm
  apply ascents_map_antitone
  have mono : ∀ i < t.length, ∀ j < t.length, i < j → t.getD j 0 < t.getD i 0 := by
    intro i hi j hj hij
    have := List.pairwise_iff_getElem.1 ht i j hi hj hij
    simpa [hi, hj] using this
  intro i hi j hj
  have hi' : i < t.length := by simpa using hp.mem_iff.1 hi
  have hj' : j < t.length := by simpa using hp.mem_iff.1 hj
  constructor
  · exact mono i hi' j hj'
  · intro h
    by_contra hij
    rcases Nat.eq_or_lt_of_le (Nat.le_of_not_lt hij) with e | e
    · subst e; omega
    · have := mono j hj' i hi' e; omega

theorem eq_of_perm_sorted {t t' : List Nat} (h : t.Perm t') (h1 : t.Pairwise fun a b => b ≤ a)
    (h2 : t'.Pairwise fun a b => b ≤ a) : t = t' :=
  List.Perm.eq_of_pairwise (fun _ _ _ _ h h' => Nat.le_antisymm h' h) h1 h2 h

end Ebcc
