import Verif.Thms.C26
import Mathlib.Algebra.Order.Ring.Defs
import Mathlib.Algebra.BigOperators.Group.List.Basic
import Mathlib.Tactic.Linarith
import Mathlib.Tactic.Ring

/-!
C27: the DIIS extrapolation is the affine combination of least error.
-/

set_option linter.unusedSectionVars false

namespace Ebcc

open Dict

section
variable {V R : Type} [Field R] [LinearOrder R] [IsStrictOrderedRing R] [AddCommGroup V] [Module R V]

/-- A linear combination. -/
def lc (c : List R) (vs : List V) : V := (List.zipWith (· • ·) c vs).sum

/-- `c` solves the linear system with the matrix `m` (list of rows) and right-hand side `r`. -/
def Solves (m : List (List R)) (c r : List R) : Prop :=
  m.map (fun row => (List.zipWith (· * ·) row c).sum) = r

/-- A real inner product. -/
structure IsInner (dot : V → V → R) : Prop where
  symm : ∀ x y, dot x y = dot y x
  add : ∀ x y z, dot (x + y) z = dot x z + dot y z
  smul : ∀ a x y, dot (a • x) y = a * dot x y
  nonneg : ∀ x, 0 ≤ dot x x

theorem IsInner.zero {dot : V → V → R} (h : IsInner dot) (y : V) : dot 0 y = 0 := by
  have := h.smul 0 0 y
  simpa using this

theorem dot_lc {dot : V → V → R} (h : IsInner dot) (c : List R) (vs : List V) (y : V) :
    dot (lc c vs) y = (List.zipWith (fun a v => a * dot v y) c vs).sum := by
  induction c generalizing vs with
  | nil => simp [lc, h.zero]
  | cons a c ih =>
    cases vs with
    | nil => simp [lc, h.zero]
    | cons v vs =>
      have := ih vs
      unfold lc at this ⊢
      rw [List.zipWith_cons_cons, List.zipWith_cons_cons, List.sum_cons, List.sum_cons, h.add, h.smul, this]

theorem dot_lc_const {dot : V → V → R} (h : IsInner dot) (c : List R) (vs : List V) (y : V) (m : R)
    (hlen : c.length = vs.length) (hm : ∀ v ∈ vs, dot v y = m) : dot (lc c vs) y = c.sum * m := by
  rw [dot_lc h]
  induction c generalizing vs with
  | nil => simp
  | cons a c ih =>
    cases vs with
    | nil => simp at hlen
    | cons v vs =>
      rw [List.zipWith_cons_cons, List.sum_cons, List.sum_cons, hm v List.mem_cons_self,
        ih vs (by simpa using hlen) fun w hw => hm w (List.mem_cons_of_mem _ hw)]
      ring

theorem lc_const (c : List R) (v : V) (n : Nat) (hlen : c.length = n) :
    lc c (List.replicate n v) = c.sum • v := by
  subst hlen
  induction c with
  | nil => simp [lc]
  | cons a c ih =>
    unfold lc at ih ⊢
    rw [List.length_cons, List.replicate_succ, List.zipWith_cons_cons, List.sum_cons, ih, List.sum_cons,
      add_smul]

/-- The solution of the DIIS equations is the affine combination of least norm. -/
theorem diis_minimal {dot : V → V → R} (h : IsInner dot) (es : List V) (c : List R)
    (hs : Solves (diisMatrix (es.map fun x => es.map fun y => dot x y)) c (diisResidual es.length))
    (hlen : c.length = es.length + 1) :
    (c.take es.length).sum = 1 ∧
    ∀ d : List R, d.length = es.length → d.sum = 1 →
      dot (lc (c.take es.length) es) (lc (c.take es.length) es) ≤ dot (lc d es) (lc d es) := by
  obtain ⟨c', m, rfl⟩ : ∃ c' m, c = c' ++ [m] := by
    rcases List.eq_nil_or_concat c with rfl | ⟨c', m, rfl⟩
    · simp at hlen
    · exact ⟨c', m, by simp⟩
  have hl' : c'.length = es.length := by simpa using hlen
  rw [List.take_left' hl']
  unfold Solves diisMatrix diisResidual at hs
  rw [List.map_append] at hs
  have hsplit := List.append_inj hs (by simp)
  obtain ⟨h1, h2⟩ := hsplit
  have hsum : c'.sum = 1 := by
    simp only [List.map_cons, List.map_nil, List.length_map, List.cons.injEq, and_true] at h2
    rw [List.zipWith_append (by simp [hl'])] at h2
    simp only [List.zipWith_cons_cons, List.zipWith_nil_left, List.sum_append, List.sum_cons, List.sum_nil,
      zero_mul, add_zero] at h2
    have hneg : ∀ (l : List R) (n : Nat), l.length = n →
        (List.zipWith (· * ·) (List.replicate n (-1)) l).sum = - l.sum := by
      intro l n hn
      subst hn
      induction l with
      | nil => simp
      | cons a l ih =>
        rw [List.length_cons, List.replicate_succ, List.zipWith_cons_cons, List.sum_cons, ih, List.sum_cons]
        ring
    rw [hneg c' _ hl'] at h2
    linarith
  -- every stored error has the same inner product with the combination
  have hrow : ∀ x ∈ es, dot x (lc c' es) = m := by
    intro x hx
    simp only [List.map_map] at h1
    have hall : ∀ (l : List V) (n : Nat), l.map ((fun row => (List.zipWith (· * ·) row (c' ++ [m])).sum) ∘
        (fun row : List R => row ++ [-1]) ∘ fun x => es.map fun y => dot x y) = List.replicate n 0 →
        ∀ x ∈ l, (List.zipWith (· * ·) ((es.map fun y => dot x y) ++ [-1]) (c' ++ [m])).sum = 0 := by
      intro l n hl x hx
      have : (List.zipWith (· * ·) ((es.map fun y => dot x y) ++ [-1]) (c' ++ [m])).sum ∈
          List.replicate n (0 : R) := by
        rw [← hl]; exact List.mem_map_of_mem hx
      exact List.eq_of_mem_replicate this
    have := hall es _ h1 x hx
    rw [List.zipWith_append (by simp [hl'])] at this
    simp only [List.zipWith_cons_cons, List.zipWith_nil_left, List.sum_append, List.sum_cons, List.sum_nil,
      add_zero] at this
    rw [h.symm, dot_lc h]
    have hcomm : (List.zipWith (fun a v => a * dot v x) c' es).sum
        = (List.zipWith (· * ·) (es.map fun y => dot x y) c').sum := by
      clear this hs h1 h2 hsum hall hx hlen hl'
      induction c' generalizing es with
      | nil => simp
      | cons a c' ih =>
        cases es with
        | nil => simp
        | cons e es =>
          rw [List.zipWith_cons_cons, List.map_cons, List.zipWith_cons_cons, List.sum_cons, List.sum_cons, ih es,
            h.symm, mul_comm]
    rw [hcomm]
    linarith
  refine ⟨hsum, fun d hd hds => ?_⟩
  have e1 := dot_lc_const h c' es _ m hl' hrow
  have e2 := dot_lc_const h d es _ m hd hrow
  rw [hsum, one_mul] at e1
  rw [hds, one_mul] at e2
  generalize lc c' es = e at e1 e2
  generalize lc d es = w at e2
  have hpos := h.nonneg (w + (-1 : R) • e)
  rw [h.add, h.smul, h.symm w, h.symm e, h.add, h.smul, h.add, h.smul, h.symm e w, e1, e2] at hpos
  rw [e1]
  linarith

theorem zip_map_smul (ks : List Int) (c : List R) (f : Int → V) :
    ((ks.zip c).map fun p => p.2 • f p.1).sum = lc (c.take ks.length) (ks.map f) := by
  unfold lc
  congr 1
  induction ks generalizing c with
  | nil => simp
  | cons k ks ih =>
    cases c with
    | nil => simp
    | cons a c => simp [ih]

/-- After any history and the push of a new vector, if the coefficients solve the linear system: they sum
to one; the new vector is the combination of the stored vectors with these coefficients, mixed with the
reference vector by the damping factor; its error is the combination of the stored errors, of least norm
among all affine combinations; and if all stored vectors agree nothing changes. -/
theorem C27_extrapolation (dot : V → V → R) (hin : IsInner dot)
    (solve : List (List R) → List R → List R) (cfg : DIISConfig R)
    (hmin : 1 ≤ cfg.minSpace) (hspace : 1 ≤ cfg.space) (ops : List (DIISOp V)) (outs : List V) (st st1 : DIIS V R)
    (hrun : DIIS.run dot solve cfg DIIS.init ops = .ok (outs, st)) (a : V) (err : Option V)
    (hpush : st.push dot cfg a err = .ok st1) (hsize : cfg.minSpace ≤ st1.errors.length)
    (hsol : Solves (st1.matrix dot) (st1.coeffs dot solve) (diisResidual st1.counters.length))
    (hlen : (st1.coeffs dot solve).length = st1.counters.length + 1) :
    ∃ (c : List R) (y : V) (st2 : DIIS V R), c.length = st1.errors.length ∧ c.sum = 1 ∧
      st.call dot solve cfg a err = .ok (y, st2) ∧
      y = (1 - cfg.factor) • lc c (st1.counters.map (errorAt st1.arrays)) + cfg.factor • errorAt st1.arrays (-1) ∧
      st2.errors.get? st1.counter = some (lc c (st1.counters.map (errorAt st1.errors))) ∧
      (∀ d : List R, d.length = st1.errors.length → d.sum = 1 →
        dot (lc c (st1.counters.map (errorAt st1.errors))) (lc c (st1.counters.map (errorAt st1.errors))) ≤
        dot (lc d (st1.counters.map (errorAt st1.errors))) (lc d (st1.counters.map (errorAt st1.errors)))) ∧
      (∀ v, (∀ k w, st1.arrays.get? k = some w → w = v) → y = v) := by
  obtain ⟨outs', st', h1, h⟩ := run_inv hin.symm solve cfg hmin hspace ops DIIS.init (init_inv dot cfg.space hspace)
  rw [hrun] at h1
  cases h1
  obtain ⟨s1, p1, p2, p3⟩ := push_ok hin.symm cfg h a err
  rw [hpush] at p1
  cases p1
  have hcl : st1.counters.length = st1.errors.length := by
    unfold DIIS.counters
    rw [List.length_insertionSort, length_keys]
  obtain ⟨_, hex⟩ := extrapolate_eq hin.symm solve cfg hmin p2 p3
  obtain ⟨cache', _, _, hx⟩ := hex (by omega)
  simp only [zip_map_smul] at hx
  have hperm : st1.arrays.keys.Perm (-1 :: st1.errors.keys) := by
    rcases p2.keys with ⟨he, _⟩ | hp
    · exact absurd he p3
    · exact hp
  have hmap : (st1.counters.map fun i => st1.counters.map fun j => dot (errorAt st1.errors i) (errorAt st1.errors j))
      = (st1.counters.map (errorAt st1.errors)).map fun x => (st1.counters.map (errorAt st1.errors)).map fun y =>
          dot x y := by
    simp [List.map_map, Function.comp_def]
  obtain ⟨hsum, hleast⟩ := diis_minimal hin (st1.counters.map (errorAt st1.errors)) (st1.coeffs dot solve)
    (by rw [← hmap, List.length_map]; exact hsol) (by rw [List.length_map]; exact hlen)
  rw [List.length_map] at hsum hleast
  have hcall := (show st.call dot solve cfg a err = st1.extrapolate dot solve cfg by
    rw [DIIS.call, hpush]; rfl).trans hx
  refine ⟨(st1.coeffs dot solve).take st1.counters.length, _, _, ?_, hsum, hcall, ?_, ?_, ?_, ?_⟩
  · rw [List.length_take]; omega
  · split
    · rfl
    · rename_i hf
      have : cfg.factor = 0 := by simpa using hf
      rw [this]; simp
  · simp only
    rw [get?_set, if_pos rfl]
  · rw [← hcl]; exact hleast
  · intro v hv
    have hat : ∀ k ∈ st1.arrays.keys, errorAt st1.arrays k = v :=
      fun k hk => hv k _ (get?_errorAt hk)
    have hrep : st1.counters.map (errorAt st1.arrays) = List.replicate st1.counters.length v := by
      rw [List.eq_replicate_iff]
      refine ⟨by simp, fun w hw => ?_⟩
      obtain ⟨k, hk, rfl⟩ := List.mem_map.1 hw
      exact hat k (hperm.mem_iff.2 (List.mem_cons_of_mem _ ((mem_counters _ _).1 hk)))
    have hm1 := hat (-1) (hperm.mem_iff.2 List.mem_cons_self)
    rw [hrep, lc_const _ _ _ (by rw [List.length_take]; omega), hsum, one_smul, hm1]
    split
    · rw [← add_smul]; simp
    · rfl

end

/-- The example solver solves the equations for errors 1 and 3. -/
example : Solves (diisMatrix [[1, 3], [3, 9]]) (exSolve (diisMatrix [[1, 3], [3, 9]]) [] ++ [0])
    (diisResidual 2 : List Rat) := by unfold Solves; decide +kernel

example : IsInner (fun x y : Rat => x * y) :=
  ⟨fun x y => mul_comm x y, fun x y z => add_mul x y z, fun a x y => by simp [mul_assoc], fun x => mul_self_nonneg x⟩

end Ebcc
