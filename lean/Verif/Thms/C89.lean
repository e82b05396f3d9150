import Verif.Model.Polaritonic
import Verif.Spec.BosonHam
import Verif.Thms.C40
import Verif.Thms.C66
import Mathlib.Tactic.Abel
import Mathlib.Tactic.Module
import Mathlib.Algebra.Polynomial.Derivative

/-!
C89: the shift of the bosons is a change of variables: Fock matrix, `xi`, `G` and `const` of a calculation with a shift
describe the same operator as those without, up to the constant `const`.
-/

namespace Ebcc

section
variable {K A : Type} [Field K] [Ring A] [Algebra K A]

theorem orbSum_add89 {M : Type} [AddCommMonoid M] (S : Finset Nat) (n : Nat → Char → Nat)
    (t u : Nat → Char → Nat → Char → Nat → M) :
    orbSum S n (fun σ a p c q => t σ a p c q + u σ a p c q) = orbSum S n t + orbSum S n u := by
  simp only [orbSum, Finset.sum_add_distrib]

theorem orbSum_smul89 (S : Finset Nat) (n : Nat → Char → Nat) (k : K) (t : Nat → Char → Nat → Char → Nat → A) :
    orbSum S n (fun σ a p c q => k • t σ a p c q) = k • orbSum S n t := by
  simp only [orbSum, Finset.smul_sum]

theorem orbSum_mul89 (S : Finset Nat) (n : Nat → Char → Nat) (B : A) (t : Nat → Char → Nat → Char → Nat → A) :
    orbSum S n (fun σ a p c q => t σ a p c q * B) = orbSum S n t * B := by
  simp only [orbSum, Finset.sum_mul]

theorem orbSum_sum89 {M : Type} [AddCommMonoid M] (S : Finset Nat) (n : Nat → Char → Nat) (J : Finset Nat)
    (t : Nat → Nat → Char → Nat → Char → Nat → M) :
    orbSum S n (fun σ a p c q => ∑ I ∈ J, t I σ a p c q) = ∑ I ∈ J, orbSum S n (t I) := by
  induction J using Finset.induction_on with
  | empty => simp [orbSum]
  | insert x J hx ih =>
    simp only [Finset.sum_insert hx]
    rw [orbSum_add89 S n (t x) fun σ a p c q => ∑ I ∈ J, t I σ a p c q, ih]

theorem orbSum_congr89 {M : Type} [AddCommMonoid M] {S : Finset Nat} {n : Nat → Char → Nat}
    {t u : Nat → Char → Nat → Char → Nat → M}
    (h : ∀ σ ∈ S, ∀ a ∈ ['o', 'v'], ∀ c ∈ ['o', 'v'], ∀ p < n σ a, ∀ q < n σ c, t σ a p c q = u σ a p c q) :
    orbSum S n t = orbSum S n u := by
  unfold orbSum
  refine Finset.sum_congr rfl fun σ hσ => Finset.sum_congr rfl fun a ha => Finset.sum_congr rfl fun c hc =>
    Finset.sum_congr rfl fun p hp => Finset.sum_congr rfl fun q hq =>
      h σ hσ a (by simpa using ha) c (by simpa using hc) p (Finset.mem_range.1 hp) q (Finset.mem_range.1 hq)

/-- The trace over the occupied orbitals of the spins. -/
def trace89 (S : Finset Nat) (n : Nat → Char → Nat) (g : Nat → Char → Char → NDArray K) (I : Nat) : K :=
  ∑ σ ∈ S, ∑ p ∈ Finset.range (n σ 'o'), (g σ 'o' 'o').get [I, p, p]

theorem orbSum_trace89 (S : Finset Nat) (n : Nat → Char → Nat) (t : Nat → Char → Nat → Char → Nat → K) :
    orbSum S n (fun σ a p c q => t σ a p c q • if a = 'o' ∧ c = 'o' ∧ p = q then (1 : A) else 0)
      = algebraMap K A (∑ σ ∈ S, ∑ p ∈ Finset.range (n σ 'o'), t σ 'o' p 'o' p) := by
  unfold orbSum
  rw [map_sum]
  refine Finset.sum_congr rfl fun σ _ => ?_
  rw [Finset.sum_pair (by decide), Finset.sum_pair (by decide), Finset.sum_pair (by decide)]
  have hov : ('o' : Char) ≠ 'v' := by decide
  simp only [hov.symm, true_and, false_and, if_false, smul_zero, Finset.sum_const_zero, add_zero]
  rw [map_sum]
  refine Finset.sum_congr rfl fun p hp => ?_
  rw [Finset.sum_eq_single p]
  · rw [if_pos rfl, Algebra.algebraMap_eq_smul_one]
  · intro q _ hq
    rw [if_neg fun e => hq e.symm, smul_zero]
  · intro h; exact absurd hp h

/-- The change of variables, for coefficients related as the code relates them. -/
theorem shift_algebra89 (S : Finset Nat) (n : Nat → Char → Nat) (nb : Nat) (f0 f g : Nat → Char → Char → NDArray K)
    (w xi G0 G : Nat → K) (c : K) (E : Nat → Char → Nat → Char → Nat → A) (b bd : Nat → A)
    (hf : ∀ σ ∈ S, ∀ a ∈ ['o', 'v'], ∀ c ∈ ['o', 'v'], ∀ p < n σ a, ∀ q < n σ c, (f σ a c).get [p, q]
      = (f0 σ a c).get [p, q] - ∑ I ∈ Finset.range nb, xi I * ((g σ a c).get [I, p, q] + (g σ c a).get [I, q, p]))
    (hG : ∀ I < nb, G I + w I * xi I = trace89 S n g I + G0 I) (hx : ∀ I < nb, G I * xi I = 0)
    (hc : c = ∑ I ∈ Finset.range nb, w I * xi I ^ 2) :
    bosonHam S n nb f g w G (normalOrdered E) (normalOrdered E) (fun I => b I + algebraMap K A (xi I))
        (fun I => bd I + algebraMap K A (xi I))
      = bosonHam S n nb f0 g w G0 (normalOrdered E) E b bd + algebraMap K A c := by
  set N := normalOrdered E with hN
  have e1 : orbSum S n (fun σ a p c q => (f σ a c).get [p, q] • N σ a p c q)
      = orbSum S n (fun σ a p c q => (f0 σ a c).get [p, q] • N σ a p c q)
        - ∑ I ∈ Finset.range nb, xi I • (orbSum S n (fun σ a p c q => (g σ a c).get [I, p, q] • N σ a p c q)
          + orbSum S n (fun σ a p c q => (g σ c a).get [I, q, p] • N σ a p c q)) := by
    rw [eq_sub_iff_add_eq]
    have : ∑ I ∈ Finset.range nb, xi I • (orbSum S n (fun σ a p c q => (g σ a c).get [I, p, q] • N σ a p c q)
          + orbSum S n (fun σ a p c q => (g σ c a).get [I, q, p] • N σ a p c q))
        = orbSum S n (fun σ a p c q => ∑ I ∈ Finset.range nb,
            xi I • ((g σ a c).get [I, p, q] • N σ a p c q + (g σ c a).get [I, q, p] • N σ a p c q)) := by
      rw [orbSum_sum89]
      refine Finset.sum_congr rfl fun I _ => ?_
      rw [orbSum_smul89, orbSum_add89]
    rw [this, ← orbSum_add89]
    refine orbSum_congr89 fun σ hσ a ha c hc p hp q hq => ?_
    rw [hf σ hσ a ha c hc p hp q hq, sub_smul, Finset.sum_smul]
    simp only [mul_smul, add_smul]
    abel
  have e2 : ∀ (I : Nat) (t : Nat → Char → Nat → Char → Nat → K),
      orbSum S n (fun σ a p c q => t σ a p c q • E σ a p c q)
        = orbSum S n (fun σ a p c q => t σ a p c q • N σ a p c q)
          + algebraMap K A (∑ σ ∈ S, ∑ p ∈ Finset.range (n σ 'o'), t σ 'o' p 'o' p) := by
    intro I t
    rw [← orbSum_trace89 (A := A) S n t, ← orbSum_add89]
    refine orbSum_congr89 fun σ _ a _ c _ p _ q _ => ?_
    rw [← smul_add, hN, normalOrdered, sub_add_cancel]
  have e3 : ∀ (t : Nat → Char → Nat → Char → Nat → K) (M : Nat → Char → Nat → Char → Nat → A) (B : A),
      orbSum S n (fun σ a p c q => t σ a p c q • (M σ a p c q * B))
        = orbSum S n (fun σ a p c q => t σ a p c q • M σ a p c q) * B := by
    intro t M B
    rw [← orbSum_mul89]
    simp only [smul_mul_assoc]
  unfold bosonHam
  simp only [e3, e1]
  subst hc
  rw [map_sum]
  have e4 : ∀ F0 : A, ∀ P Q R P' Q' R' T U: Nat → A,
      (∀ I < nb, P I + Q I + R I = T I + P' I + Q' I + R' I + U I) →
      F0 - ∑ I ∈ Finset.range nb, T I + ∑ I ∈ Finset.range nb, P I + ∑ I ∈ Finset.range nb, Q I
        + ∑ I ∈ Finset.range nb, R I
      = F0 + ∑ I ∈ Finset.range nb, P' I + ∑ I ∈ Finset.range nb, Q' I + ∑ I ∈ Finset.range nb, R' I
        + ∑ I ∈ Finset.range nb, U I := by
    intro F0 P Q R P' Q' R' T U h
    have h' : ∑ I ∈ Finset.range nb, (P I + Q I + R I) = ∑ I ∈ Finset.range nb, (T I + P' I + Q' I + R' I + U I) :=
      Finset.sum_congr rfl fun I hI => h I (Finset.mem_range.1 hI)
    simp only [Finset.sum_add_distrib] at h'
    rw [sub_add_eq_add_sub, sub_add_eq_add_sub, sub_add_eq_add_sub, sub_eq_iff_eq_add]
    calc _ = F0 + (∑ I ∈ Finset.range nb, P I + ∑ I ∈ Finset.range nb, Q I + ∑ I ∈ Finset.range nb, R I) := by abel
      _ = _ := by rw [h']; abel
  refine e4 _ _ _ _ _ _ _ _ _ fun I hI => ?_
  rw [e2 I (fun σ a p c q => (g σ a c).get [I, p, q]), e2 I (fun σ a p c q => (g σ c a).get [I, q, p])]
  have ht : (∑ σ ∈ S, ∑ p ∈ Finset.range (n σ 'o'), (g σ 'o' 'o').get [I, p, p]) = G I + w I * xi I - G0 I := by
    have := hG I hI
    rw [trace89] at this
    rw [this, add_sub_cancel_right]
  rw [ht]
  generalize orbSum S n (fun σ a p c q => (g σ a c).get [I, p, q] • N σ a p c q) = X
  generalize orbSum S n (fun σ a p c q => (g σ c a).get [I, q, p] • N σ a p c q) = Y
  have h0 := hx I hI
  have hk : w I * xi I ^ 2 = w I * (xi I * xi I) + 2 * (G I * xi I) := by rw [h0]; ring
  rw [hk]
  generalize b I = B
  generalize bd I = D
  generalize xi I = x at *
  generalize w I = ω at *
  generalize G I = G₁ at *
  generalize G0 I = G₂ at *
  simp only [Algebra.algebraMap_eq_smul_one, mul_add, add_mul, smul_mul_assoc, mul_smul_comm, one_mul, mul_one]
  module

/-- The spins of the orbitals of a class of objects: restricted objects have one set of blocks for both. -/
def spins89 : SpinType → Finset Nat
  | .G => {0}
  | _ => {0, 1}

/-- The modes: `xi`, `G` and `const` as the object has them. -/
structure Modes89 (spin : SpinType) (nb : Nat) (shift : Bool) (w : NDArray K) (bareG : Option (NDArray K))
    (boo : List (NDArray K)) (xi G : NDArray K) (c : K) : Prop where
  blocks : CouplingBlocks spin nb boo
  omega : w.WF ∧ w.shape = [nb]
  bare : ∀ g ∈ bareG, g.WF ∧ g.shape = [nb]
  /-- Frequencies are divided by. -/
  nonzero : shift = true → ∀ I < nb, w.get [I] ≠ 0
  isXi : xiOf spin shift (some w) (some boo) bareG = .ok xi
  isG : meanFieldG spin shift (some w) (some boo) bareG = .ok G
  isConst : constOf shift (some w) xi = .ok c

theorem list_sum_range89 {M : Type} [AddCommMonoid M] (f : Nat → M) (n : Nat) :
    ((List.range n).map f).sum = ∑ i ∈ Finset.range n, f i := rfl

theorem modes89 {spin : SpinType} {nb : Nat} {shift : Bool} {w : NDArray K} {bareG : Option (NDArray K)}
    {boo : List (NDArray K)} {xi G : NDArray K} {c : K} (h : Modes89 spin nb shift w bareG boo xi G c) :
    xi.data.length = nb ∧ (∀ I < nb, xi.get [I] = xi.data.getD I 0) ∧
      (∀ I < nb, G.get [I] + w.get [I] * xi.get [I] = couplingTrace spin boo I + bareTerm bareG I) ∧
      (∀ I < nb, G.get [I] * xi.get [I] = 0) ∧ (shift = false → ∀ I < nb, xi.get [I] = 0) ∧
      c = ∑ I ∈ Finset.range nb, w.get [I] * xi.get [I] ^ 2 := by
  obtain ⟨hb, ⟨hw, hws⟩, hg, hn, hx, hG, hc⟩ := h
  have hlen : xi.WF → xi.shape = [nb] → xi.data.length = nb ∧ ∀ I < nb, xi.get [I] = xi.data.getD I 0 := by
    intro h1 h2
    constructor
    · have : xi.data.length = prodN xi.shape := h1
      rw [this, h2]
      simp [prodN]
    · intro I hI
      rw [NDArray.get, h2]
      simp [ravelIdx, prodN]
  cases shift with
  | true =>
    obtain ⟨x, x1, x2, x3, x4⟩ := C40_xi spin nb boo hb w hw hws bareG hg
    rw [hx] at x1
    cases x1
    obtain ⟨G', g1, g2, g3⟩ := C40_shifted spin nb boo hb w hw hws bareG hg
    rw [hG] at g1
    cases g1
    refine ⟨(hlen x2 x3).1, (hlen x2 x3).2, fun I hI => ?_, fun I hI => ?_, fun h => Bool.noConfusion h, ?_⟩
    · rw [g3 I hI (hn rfl I hI), x4 I hI, mul_div_cancel₀ _ (hn rfl I hI), zero_add, add_comm]
    · rw [g3 I hI (hn rfl I hI), zero_mul]
    · simp only [constOf, if_true, hws, x3, List.length_singleton, and_self] at hc
      cases hc
      rfl
  | false =>
    obtain ⟨h1, G', g1, g2, g3⟩ := C40_unshifted spin nb boo hb w hw hws bareG hg
    rw [hx] at h1
    cases h1
    rw [hG] at g1
    cases g1
    have hz : ∀ I < nb, (NDArray.zeros [nb] : NDArray K).get [I] = 0 := by
      intro I hI
      refine NDArray.get_ofFn _ _ ?_
      simp [InBox, hI]
    have hl := hlen (NDArray.ofFn_wf _ _) rfl
    refine ⟨hl.1, hl.2, fun I hI => ?_, fun I hI => ?_, fun _ => hz, ?_⟩
    · rw [hz I hI, g3 I hI, mul_zero, add_zero, add_comm]
    · rw [hz I hI, mul_zero]
    · simp only [constOf, Bool.false_eq_true, if_false] at hc
      cases hc
      refine (Finset.sum_eq_zero fun I hI => ?_).symm
      rw [hz I (Finset.mem_range.1 hI)]
      ring

/-- The coupling block of classes `a` and `c`, for the values `gv` of the coupling in the orbitals of a spin. -/
def IsBlock89 (gv : Nat → Nat → Nat → K) (nb : Nat) (s : Space) (a c : Char) (x : NDArray K) : Prop :=
  ∃ ma mc, s.mask a = .ok ma ∧ s.mask c = .ok mc ∧ x.shape = [nb, (orbitals66 ma).length, (orbitals66 mc).length] ∧
    ∀ n p q, InBox x.shape [n, p, q] → x.get [n, p, q] = gv n ((orbitals66 ma).getD p 0) ((orbitals66 mc).getD q 0)

theorem fock_shift89 {nao nb : Nat} {F g g' : NDArray K} {gv : Nat → Nat → Nat → K} {xi : List K} {shift : Bool}
    {s : Space} (hs : Made66 s) {C C' : NDArray K} {a c : Char} {f f0 gac gca : NDArray K} (hxi : xi.length = nb)
    (hv : ∀ n p q, n < nb → p < s.nmo → q < s.nmo → g.get [n, p, q] = gv n p q)
    (hf : IsFock66 nao F g xi shift s C C' a c f) (hf0 : IsFock66 nao F g' xi false s C C' a c f0)
    (h1 : IsBlock89 gv nb s a c gac) (h2 : IsBlock89 gv nb s c a gca)
    (hz : shift = false → ∀ I < nb, xi.getD I 0 = 0) :
    ∀ p < f.shape.getD 0 0, ∀ q < f.shape.getD 1 0, f.get [p, q]
      = f0.get [p, q] - ∑ I ∈ Finset.range nb, xi.getD I 0 * (gac.get [I, p, q] + gca.get [I, q, p]) := by
  obtain ⟨ma, mc, k1, k2, k3, k4⟩ := hf
  obtain ⟨ma', mc', l1, l2, l3, l4⟩ := hf0
  obtain ⟨ma'', mc'', m1, m2, m3, m4⟩ := h1
  obtain ⟨mc₃, ma₃, n1, n2, n3, n4⟩ := h2
  rw [k1] at l1 m1 n2
  rw [k2] at l2 m2 n1
  cases l1; cases l2; cases m1; cases m2; cases n1; cases n2
  intro p hp q hq
  rw [k3] at hp hq
  have hp : p < (orbitals66 ma).length := hp
  have hq : q < (orbitals66 mc).length := hq
  rw [k4 p q (by rw [k3]; exact inBox266.2 ⟨hp, hq⟩), l4 p q (by rw [l3]; exact inBox266.2 ⟨hp, hq⟩)]
  have hp' := orbital_lt66 hs k1 hp
  have hq' := orbital_lt66 hs k2 hq
  have e : ∑ I ∈ Finset.range nb, xi.getD I 0 * (gac.get [I, p, q] + gca.get [I, q, p])
      = ∑ I ∈ Finset.range nb, xi.getD I 0 * (g.get [I, (orbitals66 ma).getD p 0, (orbitals66 mc).getD q 0]
          + g.get [I, (orbitals66 mc).getD q 0, (orbitals66 ma).getD p 0]) := by
    refine Finset.sum_congr rfl fun I hI => ?_
    have hI := Finset.mem_range.1 hI
    rw [m4 I p q (by rw [m3]; exact inBox3.2 ⟨hI, hp, hq⟩), n4 I q p (by rw [n3]; exact inBox3.2 ⟨hI, hq, hp⟩),
      hv I _ _ hI hp' hq', hv I _ _ hI hq' hp']
  rw [e]
  cases shift with
  | true =>
    simp only [if_true, Bool.false_eq_true, if_false, sub_zero, hxi]
    rfl
  | false =>
    have e0 : ∑ I ∈ Finset.range nb, xi.getD I 0 * (g.get [I, (orbitals66 ma).getD p 0, (orbitals66 mc).getD q 0]
          + g.get [I, (orbitals66 mc).getD q 0, (orbitals66 ma).getD p 0]) = 0 :=
      Finset.sum_eq_zero fun I hI => by rw [hz rfl I (Finset.mem_range.1 hI), zero_mul]
    rw [e0]
    simp

/-- The blocks of one spin have fitting shapes. -/
theorem fock_shapes89 {nao : Nat} {F : NDArray K} {g : Char → Char → NDArray K} {xi : List K} {shift : Bool} {s : Space}
    {C C' : NDArray K} {f : Char → Char → NDArray K}
    (kf : ∀ a ∈ ['o', 'v'], ∀ c ∈ ['o', 'v'], IsFock66 nao F (g a c) xi shift s C C' a c (f a c)) :
    ∀ a ∈ ['o', 'v'], ∀ c ∈ ['o', 'v'], (f a c).shape = [(f a a).shape.getD 0 0, (f c c).shape.getD 0 0] := by
  intro a ha c hc
  obtain ⟨ma, mc, k1, k2, k3, -⟩ := kf a ha c hc
  obtain ⟨m1, m1', l1, -, l3, -⟩ := kf a ha a ha
  obtain ⟨m2, m2', n1, -, n3, -⟩ := kf c hc c hc
  rw [k1] at l1
  rw [k2] at n1
  cases l1; cases n1
  rw [k3, l3, n3]
  rfl

theorem occ_size89 {nao nb : Nat} {F g : NDArray K} {gv : Nat → Nat → Nat → K} {xi : List K} {shift : Bool} {s : Space}
    {C C' f y : NDArray K} (kf : IsFock66 nao F g xi shift s C C' 'o' 'o' f) (ky : IsBlock89 gv nb s 'o' 'o' y) :
    y.shape.getD 1 0 = f.shape.getD 0 0 := by
  obtain ⟨ma, mc, k1, k2, k3, -⟩ := ky
  obtain ⟨m1, m1', l1, -, l3, -⟩ := kf
  rw [k1] at l1
  cases l1
  rw [k3, l3]
  rfl

/-- C89, restricted and general objects: for operators `p† q`, `b` and `b†` of any algebra, the Hamiltonian that the
integrals of the object describe, with normal ordered operators of the electrons and with `b + xi`, is that of the bare
coupling and the bare `G` with the Fock matrix without shift, plus `const`.  The blocks are those that the containers
return, after any reads. -/
theorem C89_hamiltonian (spin : SpinType) (hspin : spin ≠ .U) (nao nb : Nat) (shift : Bool) (s : Space)
    (C F g w : NDArray K) (bareG : Option (NDArray K)) (xi G : NDArray K) (c : K) (f f0 y : Char → Char → NDArray K)
    (hm : Modes89 spin nb shift w bareG [y 'o' 'o'] xi G c)
    (hF : F.shape = [nao, nao]) (hg : g.shape = [nb, s.nmo, s.nmo]) (hC : Fits66 nao s C)
    (before before0 : List FockOp) (beforeG : List (List Char))
    (hops : ∀ key ∈ before.filterMap FockOp.fockKey, 'p' ∉ key)
    (hf : ∀ a ∈ ['o', 'v'], ∀ c ∈ ['o', 'v'], (fockOp ⟨F, g, [s, s], [C, C], shift, xi.data⟩ (.fock [a, c])
      (runReads (fockOp ⟨F, g, [s, s], [C, C], shift, xi.data⟩) before ⟨[], []⟩).2).1 = .ok (.block (f a c)))
    (hf0 : ∀ a ∈ ['o', 'v'], ∀ c ∈ ['o', 'v'], (fockOp ⟨F, g, [s, s], [C, C], false, xi.data⟩ (.fock [a, c])
      (runReads (fockOp ⟨F, g, [s, s], [C, C], false, xi.data⟩) before0 ⟨[], []⟩).2).1 = .ok (.block (f0 a c)))
    (hy : ∀ a ∈ ['o', 'v'], ∀ c ∈ ['o', 'v'], (relbosRead g [s, s] ['b', a, c]
      (runReads (relbosRead g [s, s]) beforeG []).2).1 = .ok (.block (y a c)))
    (E : Nat → Char → Nat → Char → Nat → A) (b bd : Nat → A) :
    bosonHam (spins89 spin) (fun _ a => (f a a).shape.getD 0 0) nb (fun _ => f) (fun _ => y) (fun I => w.get [I])
        (fun I => G.get [I]) (normalOrdered E) (normalOrdered E) (fun I => b I + algebraMap K A (xi.get [I]))
        (fun I => bd I + algebraMap K A (xi.get [I]))
      = bosonHam (spins89 spin) (fun _ a => (f a a).shape.getD 0 0) nb (fun _ => f0) (fun _ => y) (fun I => w.get [I])
          (bareTerm bareG) (normalOrdered E) E b bd + algebraMap K A c := by
  obtain ⟨x1, x2, x3, x4, x5, x6⟩ := modes89 hm
  have hne : ∀ a ∈ ['o', 'v'], a ≠ 'p' := by decide
  have kf := fun a ha c hc => C66_fock_partial nao nb ⟨F, g, [s, s], [C, C], shift, xi.data⟩ s C C rfl rfl hF hg x1.le
    hC hC before (Or.inr hops) a c (hne a ha) (hne c hc) _ (hf a ha c hc)
  have kf0 := fun a ha c hc => C66_fock_partial nao nb ⟨F, g, [s, s], [C, C], false, xi.data⟩ s C C rfl rfl hF hg x1.le
    hC hC before0 (Or.inl rfl) a c (hne a ha) (hne c hc) _ (hf0 a ha c hc)
  have ky : ∀ a ∈ ['o', 'v'], ∀ c ∈ ['o', 'v'], IsBlock89 (fun n p q => g.get [n, p, q]) nb s a c (y a c) := by
    intro a ha c hc
    obtain ⟨ma, mc, k1, k2, k3, k4⟩ := C66_couplings g nb s s hC.1 hC.1 hg beforeG a c _ (hy a ha c hc)
    exact ⟨ma, mc, k1, k2, by rw [k3, hg]; rfl, k4⟩
  have hsz := fock_shapes89 (g := fun _ _ => g) kf
  refine shift_algebra89 _ _ nb (fun _ => f0) (fun _ => f) (fun _ => y) _ (fun I => xi.get [I]) _ _ c E b bd ?_ ?_ x4 x6
  · intro σ _ a ha c hc p hp q hq
    have := fock_shift89 hC.1 x1 (fun _ _ _ _ _ _ => rfl) (kf a ha c hc) (kf0 a ha c hc) (ky a ha c hc) (ky c hc a ha)
      (fun h I hI => by rw [← x2 I hI]; exact x5 h I hI) p (by rw [hsz a ha c hc]; exact hp) q
      (by rw [hsz a ha c hc]; exact hq)
    rw [this]
    refine congrArg₂ _ rfl (Finset.sum_congr rfl fun I hI => ?_)
    rw [x2 I (Finset.mem_range.1 hI)]
  · intro I hI
    rw [x3 I hI]
    refine congrArg₂ _ ?_ rfl
    have ho : 'o' ∈ ['o', 'v'] := by decide
    rw [trace89, couplingTrace, List.map_singleton, List.sum_singleton, occ_size89 (kf 'o' ho 'o' ho) (ky 'o' ho 'o' ho)]
    cases spin with
    | R => simp [spins89, two_mul]
    | G => simp [spins89]
    | U => exact absurd rfl hspin

/-- The character of a spin. -/
def spinChar89 (σ : Nat) : Char := if σ = 0 then 'a' else 'b'

/-- C89, unrestricted objects: the same with blocks, orbitals and coefficients of each spin. -/
theorem C89_hamiltonian_unrestricted (nao nb : Nat) (shift : Bool) (s : Space × Space) (C F : NDArray K × NDArray K)
    (g w : NDArray K) (bareG : Option (NDArray K)) (xi G : NDArray K) (c : K) (f f0 y : Nat → Char → Char → NDArray K)
    (hm : Modes89 .U nb shift w bareG [y 0 'o' 'o', y 1 'o' 'o'] xi G c)
    (hF : F.1.shape = [nao, nao] ∧ F.2.shape = [nao, nao])
    (hg : ∀ σ ∈ ['a', 'b'], g.shape = [nb, (ofSpin66 σ s).nmo, (ofSpin66 σ s).nmo] ∨
      g.shape = [2, nb, (ofSpin66 σ s).nmo, (ofSpin66 σ s).nmo])
    (hC : Fits66 nao s.1 C.1 ∧ Fits66 nao s.2 C.2)
    (before before0 : List UFockOp) (beforeG : List (List Char × List Char))
    (hops : ∀ key ∈ before.filterMap UFockOp.fockKey, 'p' ∉ key)
    (hf : ∀ σ ∈ [0, 1], ∀ a ∈ ['o', 'v'], ∀ c ∈ ['o', 'v'],
      (ufockOp ⟨F, g, [s, s], [C, C], shift, xi.data⟩ (.fock [spinChar89 σ, spinChar89 σ] [a, c])
        (runReads (ufockOp ⟨F, g, [s, s], [C, C], shift, xi.data⟩) before ⟨[], []⟩).2).1 = .ok (.block (f σ a c)))
    (hf0 : ∀ σ ∈ [0, 1], ∀ a ∈ ['o', 'v'], ∀ c ∈ ['o', 'v'],
      (ufockOp ⟨F, g, [s, s], [C, C], false, xi.data⟩ (.fock [spinChar89 σ, spinChar89 σ] [a, c])
        (runReads (ufockOp ⟨F, g, [s, s], [C, C], false, xi.data⟩) before0 ⟨[], []⟩).2).1 = .ok (.block (f0 σ a c)))
    (hy : ∀ σ ∈ [0, 1], ∀ a ∈ ['o', 'v'], ∀ c ∈ ['o', 'v'],
      (uelbosRead g [s, s] [spinChar89 σ, spinChar89 σ] ['b', a, c]
        (runReads (fun o => uelbosRead g [s, s] o.1 o.2) beforeG []).2).1 = .ok (.block (y σ a c)))
    (E : Nat → Char → Nat → Char → Nat → A) (b bd : Nat → A) :
    bosonHam (spins89 .U) (fun σ a => (f σ a a).shape.getD 0 0) nb f y (fun I => w.get [I])
        (fun I => G.get [I]) (normalOrdered E) (normalOrdered E) (fun I => b I + algebraMap K A (xi.get [I]))
        (fun I => bd I + algebraMap K A (xi.get [I]))
      = bosonHam (spins89 .U) (fun σ a => (f σ a a).shape.getD 0 0) nb f0 y (fun I => w.get [I])
          (bareTerm bareG) (normalOrdered E) E b bd + algebraMap K A c := by
  obtain ⟨x1, x2, x3, x4, x5, x6⟩ := modes89 hm
  have hne : ∀ a ∈ ['o', 'v'], a ≠ 'p' := by decide
  have hσ : ∀ σ ∈ [0, 1], spinChar89 σ ∈ ['a', 'b'] := by decide
  have hFσ : ∀ σ ∈ ['a', 'b'], (ofSpin66 σ F).shape = [nao, nao] := by
    intro σ _
    unfold ofSpin66
    split
    · exact hF.1
    · exact hF.2
  have hCσ : ∀ σ ∈ ['a', 'b'], Fits66 nao (ofSpin66 σ s) (ofSpin66 σ C) := by
    intro σ _
    unfold ofSpin66
    split
    · exact hC.1
    · exact hC.2
  let gv : Nat → Nat → Nat → Nat → K := fun σ n p q =>
    if g.shape.length = 4 then g.get [if spinChar89 σ = 'a' then 0 else 1, n, p, q] else g.get [n, p, q]
  have kf := fun σ (hs : σ ∈ [0, 1]) a ha c hc => C66_fock_unrestricted_partial nao nb
    ⟨F, g, [s, s], [C, C], shift, xi.data⟩ s C C rfl rfl _ (hσ σ hs) (hFσ _ (hσ σ hs)) (hg _ (hσ σ hs)) x1.le
    (hCσ _ (hσ σ hs)) (hCσ _ (hσ σ hs)) before (Or.inr hops) a c (hne a ha) (hne c hc) _ (hf σ hs a ha c hc)
  have kf0 := fun σ (hs : σ ∈ [0, 1]) a ha c hc => C66_fock_unrestricted_partial nao nb
    ⟨F, g, [s, s], [C, C], false, xi.data⟩ s C C rfl rfl _ (hσ σ hs) (hFσ _ (hσ σ hs)) (hg _ (hσ σ hs)) x1.le
    (hCσ _ (hσ σ hs)) (hCσ _ (hσ σ hs)) before0 (Or.inl rfl) a c (hne a ha) (hne c hc) _ (hf0 σ hs a ha c hc)
  have ky : ∀ σ ∈ [0, 1], ∀ a ∈ ['o', 'v'], ∀ c ∈ ['o', 'v'],
      IsBlock89 (gv σ) nb (ofSpin66 (spinChar89 σ) s) a c (y σ a c) := fun σ hs a ha c hc =>
    C66_couplings_unrestricted g nb s s beforeG (spinChar89 σ) (hCσ _ (hσ σ hs)).1 (hCσ _ (hσ σ hs)).1 a c _
      (hg _ (hσ σ hs)) (hy σ hs a ha c hc)
  have hmem : ∀ σ ∈ spins89 .U, σ ∈ [0, 1] := by decide
  have hsz : ∀ σ ∈ [0, 1], ∀ a ∈ ['o', 'v'], ∀ c ∈ ['o', 'v'],
      (f σ a c).shape = [(f σ a a).shape.getD 0 0, (f σ c c).shape.getD 0 0] := by
    intro σ hs a ha c hc
    obtain ⟨_, -, ma, mc, k1, k2, k3, -⟩ := kf σ hs a ha c hc
    obtain ⟨_, -, m1, m1', l1, -, l3, -⟩ := kf σ hs a ha a ha
    obtain ⟨_, -, m2, m2', n1, -, n3, -⟩ := kf σ hs c hc c hc
    rw [k1] at l1
    rw [k2] at n1
    cases l1; cases n1
    rw [k3, l3, n3]
    rfl
  refine shift_algebra89 _ _ nb f0 f y _ (fun I => xi.get [I]) _ _ c E b bd ?_ ?_ x4 x6
  · intro σ hs a ha c hc p hp q hq
    have hs := hmem σ hs
    obtain ⟨gσ, g1, g2⟩ := kf σ hs a ha c hc
    obtain ⟨g0, -, g3⟩ := kf0 σ hs a ha c hc
    have := fock_shift89 (hCσ _ (hσ σ hs)).1 x1 (gv := gv σ) g1 g2 g3 (ky σ hs a ha c hc) (ky σ hs c hc a ha)
      (fun h I hI => by rw [← x2 I hI]; exact x5 h I hI) p (by rw [hsz σ hs a ha c hc]; exact hp) q
      (by rw [hsz σ hs a ha c hc]; exact hq)
    rw [this]
    refine congrArg₂ _ rfl (Finset.sum_congr rfl fun I hI => ?_)
    rw [x2 I (Finset.mem_range.1 hI)]
  · intro I hI
    rw [x3 I hI]
    refine congrArg₂ _ ?_ rfl
    have ho : 'o' ∈ ['o', 'v'] := by decide
    obtain ⟨_, -, k0⟩ := kf 0 (by decide) 'o' ho 'o' ho
    obtain ⟨_, -, k1⟩ := kf 1 (by decide) 'o' ho 'o' ho
    rw [trace89, couplingTrace, List.map_cons, List.map_singleton, List.sum_cons, List.sum_singleton,
      occ_size89 k0 (ky 0 (by decide) 'o' ho 'o' ho), occ_size89 k1 (ky 1 (by decide) 'o' ho 'o' ho)]
    simp [spins89]

end

deriving instance DecidableEq for GVal

/-- C89 is false of the total energies: without electrons, one mode with frequency and bare term one.  With the shift
the state `1` has energy zero, so the exact correlation energy is zero; the bare Hamiltonian has the eigenvalue
`-const` for the same state.  `e_tot` adds no constant, so a calculation with and one without a shift report total
energies that differ by `const`. -/
theorem C89_total_energy_false : ∃ (xi G : NDArray Rat) (c : Rat) (b bd : Module.End Rat (Polynomial Rat)),
    Modes89 .G 1 true ⟨[1], [1]⟩ (some ⟨[1], [1]⟩) [⟨[1, 1, 1], [0]⟩] xi G c ∧ b * bd - bd * b = 1 ∧
    bosonHam (K := Rat) (A := Module.End Rat (Polynomial Rat)) ∅ (fun _ _ => 0) 1 (fun _ _ _ => ⟨[], []⟩) (fun _ _ _ => ⟨[], []⟩)
      (fun _ => 1) (fun I => G.get [I]) 0 0 (fun I => b + algebraMap Rat _ (xi.get [I]))
      (fun I => bd + algebraMap Rat _ (xi.get [I])) 1 = (0 : Rat) • 1 ∧
    bosonHam (K := Rat) (A := Module.End Rat (Polynomial Rat)) ∅ (fun _ _ => 0) 1 (fun _ _ _ => ⟨[], []⟩) (fun _ _ _ => ⟨[], []⟩)
      (fun _ => 1) (fun _ => 1) 0 0 (fun _ => b) (fun _ => bd) 1 = (-c) • 1 ∧
    ∀ eMf, eTot eMf 0 = eTot eMf (-c) + c ∧ eTot eMf 0 ≠ eTot eMf (-c) := by
  refine ⟨⟨[1], [1]⟩, ⟨[1], [0]⟩, 1, Polynomial.derivative - 1, LinearMap.mulLeft Rat Polynomial.X - 1, ?_, ?_, ?_, ?_, ?_⟩
  · refine ⟨⟨rfl, ?_⟩, ⟨rfl, rfl⟩, ?_, ?_, ?_, ?_, ?_⟩
    · intro x hx
      cases List.mem_singleton.1 hx
      rfl
    · intro g hg
      cases hg
      exact ⟨rfl, rfl⟩
    · intro _ I hI
      obtain rfl : I = 0 := by omega
      decide +kernel
    · decide +kernel
    · decide +kernel
    · decide +kernel
  · refine LinearMap.ext fun p => ?_
    simp [sub_mul, mul_sub, Polynomial.derivative_mul]
    ring
  · have h1 : (⟨[1], [1]⟩ : NDArray Rat).get [0] = 1 := by decide +kernel
    have h0 : (⟨[1], [0]⟩ : NDArray Rat).get [0] = 0 := by decide +kernel
    simp [bosonHam, orbSum, h1, h0]
  · simp [bosonHam, orbSum]
    ring
  · intro eMf
    simp [eTot]

/-- C89 is false with frozen occupied orbitals: the mean-field term of the coupling, here without a shift, is the sum
over the occupied orbitals that are not frozen, not the value for the reference determinant. -/
theorem C89_frozen_false : ∃ (s : Space) (g w boo G : NDArray Rat),
    Space.new [true, true, false] [true, false, false] [false, false, false] = .ok s ∧ g.shape = [1, 3, 3] ∧
    (relbosRead g [s, s] "boo".toList []).1 = .ok (.block boo) ∧
    meanFieldG .R false (some w) (some [boo]) none = .ok G ∧
    G.get [0] ≠ 2 * (g.get [0, 0, 0] + g.get [0, 1, 1]) := by
  refine ⟨⟨[true, true, false], [true, false, false], [false, false, false]⟩,
    ⟨[1, 3, 3], [5, 0, 0, 0, 7, 0, 0, 0, 11]⟩, ⟨[1], [1]⟩, ⟨[1, 1, 1], [7]⟩, ⟨[1], [14]⟩, ?_⟩
  decide +kernel

/-! ### A concrete case: an occupied and a virtual orbital, a coupling that is not symmetric, a bare term. -/

def space89 : Space := ⟨[true, false], [false, false], [false, false]⟩

def fock89 (a c : Char) : NDArray Rat :=
  ⟨[1, 1], [if a = 'o' then if c = 'o' then -4 else -31 / 2 else if c = 'o' then -31 / 2 else -5]⟩

def fockBare89 (a c : Char) : NDArray Rat :=
  ⟨[1, 1], [if a = 'o' then if c = 'o' then 1 else 2 else if c = 'o' then 2 else 5]⟩

def coupling89 (a c : Char) : NDArray Rat :=
  ⟨[1, 1, 1], [if a = 'o' then if c = 'o' then 1 else 4 else if c = 'o' then 3 else 2]⟩

example (E : Nat → Char → Nat → Char → Nat → Module.End Rat (Polynomial Rat))
    (b bd : Nat → Module.End Rat (Polynomial Rat)) :
    bosonHam {0, 1} (fun _ _ => 1) 1 (fun _ => fock89) (fun _ => coupling89) (fun _ => (2 : Rat)) (fun _ => 0)
        (normalOrdered E) (normalOrdered E) (fun I => b I + algebraMap Rat _ (5 / 2))
        (fun I => bd I + algebraMap Rat _ (5 / 2))
      = bosonHam {0, 1} (fun _ _ => 1) 1 (fun _ => fockBare89) (fun _ => coupling89) (fun _ => 2)
          (fun _ => 3) (normalOrdered E) E b bd + algebraMap Rat _ (25 / 2) := by
  have h := C89_hamiltonian .R (by decide) 2 1 true space89 ⟨[2, 2], [1, 0, 0, 1]⟩ ⟨[2, 2], [1, 2, 2, 5]⟩
    ⟨[1, 2, 2], [1, 4, 3, 2]⟩ ⟨[1], [2]⟩ (some ⟨[1], [3]⟩) ⟨[1], [5 / 2]⟩ ⟨[1], [0]⟩ (25 / 2) fock89 fockBare89 coupling89
    ⟨⟨rfl, fun x hx => by cases List.mem_singleton.1 hx; rfl⟩, ⟨rfl, rfl⟩, fun g hg => by cases hg; exact ⟨rfl, rfl⟩,
      fun _ I hI => by obtain rfl : I = 0 := (by omega); decide +kernel, by decide +kernel, by decide +kernel, by decide +kernel⟩
    rfl rfl ⟨⟨[true, false], [false, false], [false, false], by decide⟩, rfl⟩ [] [] [] (by simp)
    (by decide +kernel) (by decide +kernel) (by decide +kernel) E b bd
  have e1 : (⟨[1], [5 / 2]⟩ : NDArray Rat).get [0] = 5 / 2 := by decide +kernel
  have e2 : (⟨[1], [2]⟩ : NDArray Rat).get [0] = 2 := by decide +kernel
  have e3 : (⟨[1], [0]⟩ : NDArray Rat).get [0] = 0 := by decide +kernel
  have e4 : bareTerm (some (⟨[1], [3]⟩ : NDArray Rat)) 0 = 3 := by decide +kernel
  have e5 : ∀ a, (fock89 a a).shape.getD 0 0 = 1 := fun a => rfl
  simp only [bosonHam, Finset.sum_range_one, e1, e2, e3, e4, e5] at h ⊢
  exact h

end Ebcc
