import Verif.Spec.ExpCoeff
import Mathlib.Tactic.Ring
import Mathlib.Tactic.LinearCombination
import Mathlib.Algebra.BigOperators.Group.List.Lemmas
import Mathlib.Algebra.BigOperators.Ring.List
/-!
The coefficients of `exp(T)` are antisymmetric, and every antisymmetric function is given by coefficients of an
`exp(T)`.
-/

namespace Ebcc

section
variable {R : Type} [Field R] {α : Type}

/-- The signed sum over the ways to divide a list. -/
def pickSum (l : List α) (F : List α → List α → R) : R := ((picks l).map fun p => (p.1 : R) * F p.2.1 p.2.2).sum

theorem pickSum_nil (F : List α → List α → R) : pickSum [] F = F [] [] := by simp [pickSum, picks]

theorem pickSum_cons (x : α) (l : List α) (F : List α → List α → R) :
    pickSum (x :: l) F = pickSum l (fun p q => F (x :: p) q) + pickSum l fun p q => (-1) ^ p.length * F p (x :: q) := by
  simp only [pickSum, picks, List.map_append, List.sum_append, List.map_map, Function.comp_def, Int.cast_mul, Int.cast_pow,
    Int.cast_neg, Int.cast_one, mul_assoc]

theorem pickSum_congr {l : List α} {F G : List α → List α → R} (N : Nat) (hN : l.length ≤ N)
    (h : ∀ p q, p.length + q.length ≤ N → F p q = G p q) : pickSum l F = pickSum l G := by
  induction l generalizing N F G with
  | nil => rw [pickSum_nil, pickSum_nil]; exact h [] [] (by simp)
  | cons x l ih =>
    obtain ⟨M, rfl⟩ : ∃ M, N = M + 1 := ⟨N - 1, by simp at hN; omega⟩
    have hl : l.length ≤ M := by simp at hN; omega
    rw [pickSum_cons, pickSum_cons]
    congr 1
    · exact ih M hl fun p q hpq => h (x :: p) q (by simp only [List.length_cons]; omega)
    · exact ih M hl fun p q hpq => by rw [h p (x :: q) (by simp only [List.length_cons]; omega)]

theorem pickSum_add (l : List α) (F G : List α → List α → R) :
    pickSum l (fun p q => F p q + G p q) = pickSum l F + pickSum l G := by
  simp only [pickSum, mul_add]
  exact List.sum_map_add

theorem pickSum_mul (l : List α) (c : R) (F : List α → List α → R) :
    pickSum l (fun p q => c * F p q) = c * pickSum l F := by
  simp only [pickSum]
  rw [← List.sum_map_mul_left]
  congr 1
  apply List.map_congr_left
  intro p _
  ring

theorem pickSum_neg (l : List α) (F : List α → List α → R) : pickSum l (fun p q => -F p q) = -pickSum l F := by
  have := pickSum_mul l (-1) F
  simpa using this

theorem pickSum_zero (l : List α) : pickSum l (fun _ _ => (0 : R)) = 0 := by simp [pickSum]

theorem pickSum_comm {β : Type} (l : List α) (m : List β) (F : List α → List α → List β → List β → R) :
    pickSum l (fun p q => pickSum m fun u v => F p q u v) = pickSum m fun u v => pickSum l fun p q => F p q u v := by
  induction l generalizing F with
  | nil => simp only [pickSum_nil]
  | cons x l ih =>
    simp only [pickSum_cons]
    rw [pickSum_add, ih]
    congr 1
    rw [← ih]
    congr 1
    funext p q
    rw [pickSum_mul]

/-- Exchange of neighbours in the divided list. -/
theorem pickSum_anti (N : Nat) (l m : List α) (x y : α) (F : List α → List α → R) (hN : l.length + m.length + 2 ≤ N)
    (h1 : ∀ (I J : List α) (x y : α) (q : List α), I.length + J.length + 2 + q.length ≤ N →
      F (I ++ x :: y :: J) q = -F (I ++ y :: x :: J) q)
    (h2 : ∀ (p I J : List α) (x y : α), p.length + (I.length + J.length + 2) ≤ N →
      F p (I ++ x :: y :: J) = -F p (I ++ y :: x :: J)) :
    pickSum (l ++ x :: y :: m) F = -pickSum (l ++ y :: x :: m) F := by
  induction l generalizing F N with
  | nil =>
    simp only [List.nil_append, pickSum_cons]
    have e1 : pickSum m (fun p q => F (x :: y :: p) q) = -pickSum m fun p q => F (y :: x :: p) q := by
      rw [← pickSum_neg]
      exact pickSum_congr m.length (le_refl _) fun p q h => h1 [] p x y q (by simp only [List.length_nil] at *; omega)
    have e2 : pickSum m (fun p q => (-1) ^ p.length * ((-1) ^ p.length * F p (x :: y :: q)))
        = -pickSum m fun p q => (-1) ^ p.length * ((-1) ^ p.length * F p (y :: x :: q)) := by
      rw [← pickSum_neg]
      refine pickSum_congr m.length (le_refl _) fun p q h => ?_
      have := h2 p [] q x y (by simp only [List.length_nil] at *; omega)
      simp only [List.nil_append] at this
      rw [this]
      ring
    have e3 : ∀ x y : α, pickSum m (fun p q => (-1) ^ (y :: p).length * F (y :: p) (x :: q))
        = -pickSum m fun p q => (-1) ^ p.length * F (y :: p) (x :: q) := by
      intro x y
      rw [← pickSum_neg]
      congr 1
      funext p q
      rw [List.length_cons, pow_succ]
      ring
    rw [e1, e2, e3 x y, e3 y x]
    ring
  | cons z l ih =>
    obtain ⟨M, rfl⟩ : ∃ M, N = M + 1 := ⟨N - 1, by simp at hN; omega⟩
    have hl : l.length + m.length + 2 ≤ M := by simp only [List.length_cons] at hN; omega
    simp only [List.cons_append, pickSum_cons]
    rw [ih M (fun p q => F (z :: p) q) hl, ih M (fun p q => (-1) ^ p.length * F p (z :: q)) hl]
    · ring
    · intro I J x y q h
      rw [h1 I J x y (z :: q) (by simp only [List.length_cons]; omega)]
      simp only [List.length_append, List.length_cons]
      ring
    · intro p I J x y h
      have := h2 p (z :: I) J x y (by simp only [List.length_cons]; omega)
      simp only [List.cons_append] at this
      rw [this]
      ring
    · intro I J x y q h
      have := h1 (z :: I) J x y q (by simp only [List.length_cons]; omega)
      simpa only [List.cons_append] using this
    · intro p I J x y h
      exact h2 (z :: p) I J x y (by simp only [List.length_cons]; omega)

/-- The signed sum over the ways to divide a list into three. -/
def pick2 (l : List α) (H : List α → List α → List α → R) : R :=
  pickSum l fun S S' => pickSum S' fun U U' => H S U U'

theorem pick2_nil (H : List α → List α → List α → R) : pick2 [] H = H [] [] [] := by simp [pick2, pickSum_nil]

theorem pick2_cons (x : α) (l : List α) (H : List α → List α → List α → R) :
    pick2 (x :: l) H = pick2 l (fun S U V => H (x :: S) U V) + pick2 l (fun S U V => (-1) ^ S.length * H S (x :: U) V)
      + pick2 l fun S U V => (-1) ^ (S.length + U.length) * H S U (x :: V) := by
  unfold pick2
  rw [pickSum_cons]
  simp only [pickSum_cons, mul_add]
  rw [pickSum_add, ← add_assoc]
  congr 1
  · congr 1
    congr 1
    funext p q
    rw [pickSum_mul]
  · congr 1
    funext p q
    rw [← pickSum_mul]
    congr 1
    funext u v
    rw [pow_add]
    ring

theorem pick2_mul (l : List α) (c : R) (H : List α → List α → List α → R) :
    pick2 l (fun S U V => c * H S U V) = c * pick2 l H := by
  unfold pick2
  rw [← pickSum_mul]
  congr 1
  funext p q
  rw [pickSum_mul]

theorem pick2_swap (l : List α) (H : List α → List α → List α → R) :
    pick2 l H = pick2 l fun S U V => (-1) ^ (S.length * U.length) * H U S V := by
  induction l generalizing H with
  | nil => simp [pick2_nil]
  | cons x l ih =>
    rw [pick2_cons, pick2_cons, ih (fun S U V => H (x :: S) U V), ih (fun S U V => (-1) ^ S.length * H S (x :: U) V),
      ih (fun S U V => (-1) ^ (S.length + U.length) * H S U (x :: V))]
    rw [add_comm (pick2 l fun S U V => (-1) ^ (S.length * U.length) * H (x :: U) S V)]
    congr 1
    · congr 1
      · congr 1
        funext S U V
        rw [List.length_cons, Nat.add_mul, one_mul, pow_add]
        ring
      · congr 1
        funext S U V
        rw [List.length_cons, Nat.mul_add, mul_one, pow_add]
        have : ((-1 : R) ^ S.length) * (-1) ^ S.length = 1 := by rw [← mul_pow]; simp
        linear_combination (-(-1 : R) ^ (S.length * U.length) * H (x :: U) S V) * this
    · congr 1
      funext S U V
      rw [Nat.add_comm U.length S.length]
      ring

/-! ### The recursion for the coefficients -/

theorem picks_length {l : List α} {p : Int × List α × List α} (h : p ∈ picks l) : p.2.1.length + p.2.2.length = l.length := by
  induction l generalizing p with
  | nil => simp [picks] at h; subst h; rfl
  | cons x l ih =>
    simp only [picks, List.mem_append, List.mem_map] at h
    rcases h with ⟨q, hq, rfl⟩ | ⟨q, hq, rfl⟩ <;> have := ih hq <;> simp only [List.length_cons] <;> omega

theorem flatMap_congr84 {β γ : Type} {l : List β} {f g : β → List γ} (h : ∀ x ∈ l, f x = g x) : l.flatMap f = l.flatMap g := by
  induction l with
  | nil => rfl
  | cons x l ih =>
    rw [List.flatMap_cons, List.flatMap_cons, h x (List.mem_cons_self ..), ih fun y hy => h y (List.mem_cons_of_mem _ hy)]

theorem expTermsN_fuel (n m : Nat) (I A : List α) (hn : I.length ≤ n) (hm : I.length ≤ m) :
    expTermsN n I A = expTermsN m I A := by
  induction n generalizing m I A with
  | zero =>
    obtain rfl : I = [] := List.length_eq_zero_iff.1 (by omega)
    cases m <;> simp [expTermsN]
  | succ n ih =>
    cases I with
    | nil => cases m <;> simp [expTermsN]
    | cons i I =>
      obtain ⟨m, rfl⟩ : ∃ k, m = k + 1 := ⟨m - 1, by simp at hm; omega⟩
      simp only [List.length_cons] at hn hm
      simp only [expTermsN]
      refine flatMap_congr84 fun s hs => flatMap_congr84 fun r _ => ?_
      have := picks_length hs
      rw [ih m s.2.2 r.2.2 (by omega) (by omega)]

theorem sum_flatMap84 {β γ : Type} (l : List β) (f : β → List γ) (g : γ → R) :
    ((l.flatMap f).map g).sum = (l.map fun x => ((f x).map g).sum).sum := by
  induction l with
  | nil => rfl
  | cons x l ih => simp [List.flatMap_cons, ih]

theorem sum_filter84 {β : Type} (l : List β) (p : β → Bool) (f : β → R) :
    ((l.filter p).map f).sum = (l.map fun x => if p x then f x else 0).sum := by
  induction l with
  | nil => rfl
  | cons x l ih =>
    by_cases h : p x = true
    · rw [List.filter_cons_of_pos h]; simp [ih, h]
    · rw [List.filter_cons_of_neg h]; simp [ih, h]

variable {T : List Orb → List Orb → R}

theorem expCoeff_nil (T : List Orb → List Orb → R) (A : List Orb) : expCoeff T [] A = if A = [] then 1 else 0 := by
  cases A <;> simp [expCoeff, expTerms, expTermsN]

theorem expCoeff_cons (T : List Orb → List Orb → R) (i : Orb) (I A : List Orb) :
    expCoeff T (i :: I) A = pickSum I fun S S' => pickSum A fun B B' =>
      if B.length = S.length + 1 then T (i :: S) B * expCoeff T S' B' else 0 := by
  unfold expCoeff expTerms
  rw [List.length_cons, expTermsN, sum_flatMap84]
  unfold pickSum
  congr 1
  apply List.map_congr_left
  intro s hs
  rw [sum_flatMap84, sum_filter84, ← List.sum_map_mul_left]
  congr 1
  apply List.map_congr_left
  intro r _
  by_cases h : r.2.1.length = s.2.1.length + 1
  · simp only [h, beq_self_eq_true, if_true]
    have hl := picks_length hs
    rw [expTermsN_fuel I.length s.2.2.length s.2.2 r.2.2 (by omega) (le_refl _), List.map_map]
    rw [← mul_assoc, ← mul_assoc, ← List.sum_map_mul_left]
    congr 1
    apply List.map_congr_left
    intro c _
    simp only [Function.comp_def, List.map_cons, List.prod_cons, Int.cast_mul]
    ring
  · simp [h]

theorem expCoeff_vir (hT : Antisymmetric T) (I A B : List Orb) (x y : Orb) :
    expCoeff T I (A ++ x :: y :: B) = -expCoeff T I (A ++ y :: x :: B) := by
  induction hn : I.length using Nat.strong_induction_on generalizing I A B x y with
  | _ n ih =>
    cases I with
    | nil => simp [expCoeff_nil]
    | cons i I =>
      rw [expCoeff_cons, expCoeff_cons, ← pickSum_neg]
      refine pickSum_congr I.length (le_refl _) fun S S' hS => ?_
      have hlt : S'.length < n := by rw [← hn, List.length_cons]; omega
      refine pickSum_anti (A.length + B.length + 2) A B x y _ (le_refl _) ?_ ?_
      · intro C D u v q _
        simp only [List.length_append, List.length_cons]
        rw [hT.vir]
        split <;> ring
      · intro p C D u v _
        rw [ih S'.length hlt S' C D u v rfl]
        split <;> ring

theorem expCoeff_occ (hT : Antisymmetric T) (I J A : List Orb) (x y : Orb) :
    expCoeff T (I ++ x :: y :: J) A = -expCoeff T (I ++ y :: x :: J) A := by
  induction hn : I.length + J.length using Nat.strong_induction_on generalizing I J A x y with
  | _ n ih =>
    cases I with
    | cons i I =>
      rw [List.cons_append, List.cons_append, expCoeff_cons, expCoeff_cons]
      refine pickSum_anti (I.length + J.length + 2) I J x y _ (le_refl _) ?_ ?_
      · intro C D u v q _
        rw [← pickSum_neg]
        congr 1
        funext B B'
        have := hT.occ (i :: C) D u v B
        simp only [List.cons_append] at this
        rw [this]
        simp only [List.length_append, List.length_cons]
        split <;> ring
      · intro p C D u v h
        rw [← pickSum_neg]
        congr 1
        funext B B'
        rw [ih (C.length + D.length) (by rw [← hn, List.length_cons]; omega) C D B' u v rfl]
        split <;> ring
    | nil =>
      have key : ∀ i j : Orb, expCoeff T (i :: j :: J) A
          = (pickSum J fun S S' => pickSum A fun B B' =>
              if B.length = S.length + 2 then T (i :: j :: S) B * expCoeff T S' B' else 0)
            + pick2 J fun S U V => (-1) ^ S.length * pick2 A fun B C D =>
              if B.length = S.length + 1 ∧ C.length = U.length + 1 then T (i :: S) B * T (j :: U) C * expCoeff T V D
              else 0 := by
        intro i j
        rw [expCoeff_cons, pickSum_cons]
        congr 1
        unfold pick2
        congr 1
        funext S S'
        rw [pickSum_mul, pickSum_comm S' A]
        congr 1
        congr 1
        funext B B'
        by_cases h : B.length = S.length + 1
        · simp only [h, true_and, if_true]
          rw [expCoeff_cons, ← pickSum_mul]
          congr 1
          funext U V
          rw [← pickSum_mul]
          congr 1
          funext C D
          split <;> ring
        · simp only [if_neg h, h, false_and, if_false]
          simp only [pickSum_zero]
      simp only [List.nil_append]
      rw [key x y, key y x, neg_add]
      congr 1
      · rw [← pickSum_neg]
        congr 1
        funext S S'
        rw [← pickSum_neg]
        congr 1
        funext B B'
        have := hT.occ [] S x y B
        simp only [List.nil_append] at this
        rw [this]
        split <;> ring
      · rw [pick2_swap, neg_eq_neg_one_mul (pick2 J _), ← pick2_mul]
        congr 1
        funext S U V
        rw [pick2_swap A]
        have e : (fun B C D => (-1 : R) ^ (B.length * C.length) *
            if C.length = U.length + 1 ∧ B.length = S.length + 1 then T (x :: U) C * T (y :: S) B * expCoeff T V D else 0)
          = fun B C D => (-1 : R) ^ ((S.length + 1) * (U.length + 1)) *
            if B.length = S.length + 1 ∧ C.length = U.length + 1 then T (y :: S) B * T (x :: U) C * expCoeff T V D else 0 := by
          funext B C D
          by_cases h : B.length = S.length + 1 ∧ C.length = U.length + 1
          · rw [if_pos h, if_pos ⟨h.2, h.1⟩, h.1, h.2]
            ring
          · rw [if_neg h, if_neg (fun e => h ⟨e.2, e.1⟩)]
            ring
        rw [e, pick2_mul]
        have hsq : ∀ k : Nat, ((-1 : R) ^ k) * (-1) ^ k = 1 := fun k => by rw [← mul_pow]; simp
        have h1 : (-1 : R) ^ ((S.length + 1) * (U.length + 1))
            = -((-1) ^ (S.length * U.length) * (-1) ^ S.length * (-1) ^ U.length) := by
          rw [show (S.length + 1) * (U.length + 1) = S.length * U.length + S.length + U.length + 1 by ring]
          rw [pow_succ, pow_add, pow_add]
          ring
        rw [h1]
        generalize pick2 (R := R) A _ = z
        linear_combination (-(-1 : R) ^ S.length * z * ((-1 : R) ^ U.length * (-1) ^ U.length)) * hsq (S.length * U.length)
          + (-(-1 : R) ^ S.length * z) * hsq U.length

theorem expCoeff_antisymmetric (hT : Antisymmetric T) : Antisymmetric (expCoeff T) :=
  ⟨fun I J x y A => expCoeff_occ hT I J A x y, fun I A B x y => expCoeff_vir hT I A B x y⟩

theorem pickSum_betas (l : List Orb) (F : List Orb → List Orb → R)
    (h : ∀ p q, betas p + betas q = betas l → F p q = 0) : pickSum l F = 0 := by
  induction l generalizing F with
  | nil => rw [pickSum_nil]; exact h _ _ rfl
  | cons x l ih =>
    have hb : ∀ p : List Orb, betas (x :: p) = betas p + if decide (4 ≤ x.1) = true then 1 else 0 := by
      intro p; simp only [betas, List.countP_cons]
    rw [pickSum_cons, ih _ fun p q e => h _ _ (by rw [hb, hb]; omega),
      ih _ fun p q e => by rw [h p (x :: q) (by rw [hb, hb]; omega), mul_zero], add_zero]

/-- The coefficients of excitations which change the spin vanish. -/
theorem expCoeff_spin (hS : SpinConserving T) : SpinConserving (expCoeff T) := by
  intro I
  induction hn : I.length using Nat.strong_induction_on generalizing I with
  | _ n ih =>
    intro A hne
    cases I with
    | nil =>
      rw [expCoeff_nil, if_neg]
      rintro rfl
      exact hne rfl
    | cons i I =>
      have hb : ∀ p : List Orb, betas (i :: p) = betas p + if decide (4 ≤ i.1) = true then 1 else 0 := by
        intro p; simp only [betas, List.countP_cons]
      rw [expCoeff_cons]
      rw [← pickSum_congr (F := fun S S' => if S'.length < n then pickSum A fun B B' =>
        if B.length = S.length + 1 then T (i :: S) B * expCoeff T S' B' else 0 else 0) I.length (le_refl _)
        (fun p q h => if_pos (by rw [← hn, List.length_cons]; omega))]
      refine pickSum_betas I _ fun S S' e1 => ?_
      split
      · rename_i hlt
        refine pickSum_betas A _ fun B B' e2 => ?_
        split
        · by_cases h1 : betas (i :: S) = betas B
          · rw [ih S'.length hlt S' rfl B' (fun h2 => hne (by rw [hb] at *; omega)), mul_zero]
          · rw [hS _ _ h1, zero_mul]
        · rfl
      · rfl

/-! ### The logarithm -/

/-- The coefficients of `I` depend only on amplitudes with at most as many orbitals. -/
theorem expCoeff_congr {T T' : List Orb → List Orb → R} (I A : List Orb)
    (h : ∀ J B, J.length ≤ I.length → T J B = T' J B) : expCoeff T I A = expCoeff T' I A := by
  induction hn : I.length using Nat.strong_induction_on generalizing I A with
  | _ n ih =>
    cases I with
    | nil => rw [expCoeff_nil, expCoeff_nil]
    | cons i I =>
      rw [expCoeff_cons, expCoeff_cons]
      refine pickSum_congr I.length (le_refl _) fun S S' hS => ?_
      congr 1
      funext B B'
      simp only [List.length_cons] at h hn
      rw [h (i :: S) B (by simp only [List.length_cons]; omega),
        ih S'.length (by omega) S' B' (fun J C hJ => h J C (by omega)) rfl]

/-- The term with one group. -/
theorem pickSum_all (l : List α) (F : List α → List α → R) (h : ∀ p q, q ≠ [] → F p q = 0) : pickSum l F = F l [] := by
  induction l generalizing F with
  | nil => exact pickSum_nil F
  | cons x l ih =>
    rw [pickSum_cons, ih (fun p q => F (x :: p) q) fun p q hq => h _ _ hq]
    have : (fun p q => (-1) ^ p.length * F p (x :: q)) = fun _ _ => (0 : R) := by
      funext p q
      rw [h p (x :: q) (by simp), mul_zero]
    rw [this, pickSum_zero, add_zero]

/-- Changing the amplitudes with the number of orbitals of `I` adds the change to the coefficient. -/
theorem expCoeff_add {T D : List Orb → List Orb → R} (I A : List Orb) (hI : I ≠ []) (hl : A.length = I.length)
    (hD : ∀ J B, J.length < I.length → D J B = 0) :
    expCoeff (fun J B => T J B + D J B) I A = expCoeff T I A + D I A := by
  cases I with
  | nil => exact absurd rfl hI
  | cons i I =>
    simp only [List.length_cons] at hl hD
    rw [expCoeff_cons, expCoeff_cons]
    have e : ∀ S S' B B' : List Orb, S.length + S'.length ≤ I.length →
        (if B.length = S.length + 1 then (T (i :: S) B + D (i :: S) B) * expCoeff (fun J B => T J B + D J B) S' B' else 0)
          = (if B.length = S.length + 1 then T (i :: S) B * expCoeff T S' B' else 0)
            + if S' = [] then (if B' = [] then (if B.length = S.length + 1 then D (i :: S) B else 0) else 0) else 0 := by
      intro S S' B B' hS
      have h1 : expCoeff (fun J B => T J B + D J B) S' B' = expCoeff T S' B' :=
        expCoeff_congr S' B' fun J C hJ => by rw [hD J C (by omega), add_zero]
      rw [h1]
      by_cases hS' : S' = []
      · subst hS'
        rw [expCoeff_nil]
        by_cases hB' : B' = []
        · simp only [hB', if_true, mul_one]
          split <;> ring
        · simp [hB']
      · have : S'.length ≠ 0 := fun e => hS' (List.length_eq_zero_iff.1 e)
        rw [hD (i :: S) B (by simp only [List.length_cons]; omega), if_neg hS']
        simp
    rw [pickSum_congr (G := fun S S' => (pickSum A fun B B' => if B.length = S.length + 1 then T (i :: S) B * expCoeff T S' B' else 0)
      + pickSum A fun B B' => if S' = [] then (if B' = [] then (if B.length = S.length + 1 then D (i :: S) B else 0) else 0) else 0)
      I.length (le_refl _) (fun S S' hS => by
        rw [← pickSum_add]
        congr 1
        funext B B'
        exact e S S' B B' hS), pickSum_add]
    congr 1
    rw [pickSum_all, pickSum_all]
    · simp [hl]
    · intro p q hq
      simp [hq]
    · intro p q hq
      simp only [if_neg hq]
      exact pickSum_zero A

/-- Amplitudes up to the order `n` for given coefficients. -/
def logAmps (C : List Orb → List Orb → R) : Nat → List Orb → List Orb → R
  | 0, _, _ => 0
  | n + 1, I, A => logAmps C n I A + if I.length = n + 1 ∧ A.length = n + 1 then C I A - expCoeff (logAmps C n) I A else 0

theorem logAmps_antisymmetric {C : List Orb → List Orb → R} (hC : Antisymmetric C) (n : Nat) :
    Antisymmetric (logAmps C n) := by
  induction n with
  | zero => exact ⟨fun _ _ _ _ _ => by simp [logAmps], fun _ _ _ _ _ => by simp [logAmps]⟩
  | succ n ih =>
    have hE := expCoeff_antisymmetric ih
    refine ⟨fun I J x y A => ?_, fun I A B x y => ?_⟩
    · simp only [logAmps, List.length_append, List.length_cons]
      rw [ih.occ, hC.occ, hE.occ]
      split <;> ring
    · simp only [logAmps, List.length_append, List.length_cons]
      rw [ih.vir, hC.vir, hE.vir]
      split <;> ring

theorem logAmps_spin {C : List Orb → List Orb → R} (hC : SpinConserving C) (n : Nat) : SpinConserving (logAmps C n) := by
  induction n with
  | zero => intro I A _; rfl
  | succ n ih =>
    intro I A h
    simp only [logAmps]
    rw [ih I A h, hC I A h, expCoeff_spin ih I A h]
    simp

theorem logAmps_stable (C : List Orb → List Orb → R) (n k : Nat) (I A : List Orb) (h : I.length ≤ n) :
    logAmps C (n + k) I A = logAmps C n I A := by
  induction k with
  | zero => rfl
  | succ k ih =>
    rw [← Nat.add_assoc, logAmps, ih, if_neg (by omega), add_zero]

/-- Every antisymmetric function is given by coefficients of an `exp(T)`. -/
theorem expCoeff_logAmps (C : List Orb → List Orb → R) (n : Nat) (I A : List Orb) (h0 : I ≠ []) (hn : I.length ≤ n)
    (hl : A.length = I.length) : expCoeff (logAmps C n) I A = C I A := by
  obtain ⟨k, hk⟩ : ∃ k, I.length = k + 1 := ⟨I.length - 1, by
    have : I.length ≠ 0 := fun e => h0 (List.length_eq_zero_iff.1 e)
    omega⟩
  have h1 : expCoeff (logAmps C n) I A = expCoeff (logAmps C (k + 1)) I A := by
    apply expCoeff_congr
    intro J B hJ
    obtain ⟨j, rfl⟩ : ∃ j, n = k + 1 + j := ⟨n - (k + 1), by omega⟩
    exact logAmps_stable C _ _ _ _ (by omega)
  rw [h1, show logAmps C (k + 1) = fun I A => logAmps C k I A
    + if I.length = k + 1 ∧ A.length = k + 1 then C I A - expCoeff (logAmps C k) I A else 0 from rfl,
    expCoeff_add (T := logAmps C k) (D := fun I A => if I.length = k + 1 ∧ A.length = k + 1 then
      C I A - expCoeff (logAmps C k) I A else 0) I A h0 hl (fun J B hJ => if_neg (by omega)), if_pos ⟨hk, by omega⟩]
  ring

end
end Ebcc
