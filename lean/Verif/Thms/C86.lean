import Verif.Thms.C85
import Verif.Thms.C86Sums
import Verif.Thms.C86Checks
/-!
C86: CI vectors and cluster amplitudes with restricted spins (`ext/fci.py` lines 76-268, `codegen/RecCC.py`): the amplitudes
of a singlet operator.
-/

namespace Ebcc

section
variable {R : Type} [Field R] [CharZero R] [DecidableEq R] {method : ContractMethod}
  {path : List (List Char) → List Char → List (NDArray R) → List Contraction} {sz : Nat → Nat}
  {T : List Orb → List Orb → R}

theorem names_ampArg86 : ∀ t ∈ [17, 18, 19, 20, 21], t ≠ 15 := by decide

theorem resNames_c86 {n : Nat} (h : n ∈ [1, 2, 3, 4]) {p : List Char × Nat} (hp : p ∈ resNames 'c' n) :
    p.2 ∈ [17, 18, 19, 20, 21] := resNames_tensor n h p (List.mem_append_left _ hp)

theorem resNames_t86 {n : Nat} (h : n ∈ [1, 2, 3, 4]) {p : List Char × Nat} (hp : p ∈ resNames 't' n) :
    p.2 ∈ [17, 18, 19, 20, 21] := resNames_tensor n h p (List.mem_append_right _ hp)

/-- Restricted: `convert_cn_to_tn` takes the coefficients of `exp(T)` of order `n` of a singlet `T`, and the lower
amplitudes, to the amplitudes of order `n`. -/
theorem C86_restricted_amplitudes (hpath : PathOk path) (hz : SpinSizes sz) (hT : Antisymmetric T) (hC : SpinConserving T)
    (hS : Singlet T) {n : Nat} (h1 : 1 ≤ n) (h4 : n ≤ 4) (vals : List Char → Option (NDArray R))
    (hc : ∀ p ∈ resNames 'c' n, vals p.1 = some (coefArr sz T (excSpaces (resPattern p.2))))
    (ht : ∀ k, 1 ≤ k → k < n → ∀ p ∈ resNames 't' k, vals p.1 = some (ampArr sz T 1 (excSpaces (resPattern p.2)))) :
    ∃ r, (toAmpsR n).call method path sz vals = .ok r ∧
      ∀ p ∈ resNames 't' n, r.get? p.1 = some (ampArr sz T 1 (excSpaces (resPattern p.2))) := by
  have hv : ∀ name v, Dict.get? (argsToAmpsR n) name = some v → ∃ a, vals name = some a ∧ ArgRep sz (resTensor T) v a := by
    intro name v hv
    have hm := get?_mem84 hv
    simp only [argsToAmpsR, List.mem_append, List.mem_map, List.mem_flatMap, List.mem_range'_1, Prod.mk.injEq] at hm
    rcases hm with ⟨p, hp, rfl, rfl⟩ | ⟨k, hk, p, hp, rfl, rfl⟩
    · exact ⟨_, hc p hp, coefArgD_rep hz hT hC hS (by simp) (resNames_c86 (mem_orders h1 h4) hp)⟩
    · exact ⟨_, ht k (by omega) (by omega) p hp,
        ampArgR_rep hz T (names_ampArg86 _ (resNames_t86 (mem_orders (by omega) (by omega)) hp))⟩
  obtain ⟨r, r1, r2⟩ := checkFun_sound (resSym_ok hT hS) (method := method) hpath hv (checkToAmpsR_ok n (mem_orders h1 h4))
  refine ⟨r, r1, fun p hp => ?_⟩
  exact r2 _ (List.mem_map.2 ⟨p, hp, rfl⟩) _ (ampArgR_rep hz T (names_ampArg86 _ (resNames_t86 (mem_orders h1 h4) hp)))

/-- Restricted: `convert_tn_to_cn` computes the coefficients of `exp(T)` of a singlet `T`. -/
theorem C86_restricted_coefficients (hpath : PathOk path) (hz : SpinSizes sz) (hT : Antisymmetric T) (hC : SpinConserving T)
    (hS : Singlet T) {n : Nat} (h1 : 1 ≤ n) (h4 : n ≤ 4) (vals : List Char → Option (NDArray R))
    (ht : ∀ k, 1 ≤ k → k ≤ n → ∀ p ∈ resNames 't' k, vals p.1 = some (ampArr sz T 1 (excSpaces (resPattern p.2)))) :
    ∃ r, (toCoefsR n).call method path sz vals = .ok r ∧
      ∀ p ∈ resNames 'c' n, r.get? p.1 = some (coefArr sz T (excSpaces (resPattern p.2))) := by
  have hv : ∀ name v, Dict.get? (argsToCoefsR n) name = some v → ∃ a, vals name = some a ∧ ArgRep sz (resTensor T) v a := by
    intro name v hv
    have hm := get?_mem84 hv
    simp only [argsToCoefsR, List.mem_map, List.mem_flatMap, List.mem_range'_1, Prod.mk.injEq] at hm
    obtain ⟨k, hk, p, hp, rfl, rfl⟩ := hm
    exact ⟨_, ht k (by omega) (by omega) p hp,
      ampArgR_rep hz T (names_ampArg86 _ (resNames_t86 (mem_orders (by omega) (by omega)) hp))⟩
  obtain ⟨r, r1, r2⟩ := checkFun_sound (resSym_ok hT hS) (method := method) hpath hv (checkToCoefsR_ok n (mem_orders h1 h4))
  refine ⟨r, r1, fun p hp => ?_⟩
  exact r2 _ (List.mem_map.2 ⟨p, hp, rfl⟩) _ (coefArgD_rep hz hT hC hS (by simp) (resNames_c86 (mem_orders h1 h4) hp))

/-! ### The chain -/

/-- The coefficients of `exp(T)` of the orders up to `m`, as the restricted functions take them: the spins of `c1`, `c2`,
`c3`, `c4` alternate, those of `c4a` are αβαα. -/
def HasCoefficientsR (sz : Nat → Nat) (T : List Orb → List Orb → R) (m : Nat) (d : Dict (List Char) (NDArray R)) : Prop :=
  ∀ n, 1 ≤ n → n ≤ m → ∀ p ∈ resNames 'c' n, d.get? p.1 = some (coefArr sz T (excSpaces (resPattern p.2)))

/-- The restricted amplitudes of the orders up to `m`. -/
def HasAmplitudesR (sz : Nat → Nat) (T : List Orb → List Orb → R) (m : Nat) (d : Dict (List Char) (NDArray R)) : Prop :=
  ∀ n, 1 ≤ n → n ≤ m → ∀ p ∈ resNames 't' n, d.get? p.1 = some (ampArr sz T 1 (excSpaces (resPattern p.2)))

theorem ret_keys86 : ∀ n ∈ [1, 2, 3, 4], ∀ p ∈ (toAmpsR n).ret, p.1.take 2 = ['t', orderChar n] := by
  decide +kernel

theorem resNames_take : ∀ n ∈ [1, 2, 3, 4], (∀ p ∈ resNames 't' n, p.1.take 2 = ['t', orderChar n]) ∧
    ∀ p ∈ resNames 'c' n, p.1.take 2 = ['c', orderChar n] := by decide

/-- The results so far have names of lower orders. -/
def LowKeys86 (m : Nat) (d : Dict (List Char) (NDArray R)) : Prop :=
  ∀ p ∈ d, ∃ k, 1 ≤ k ∧ k ≤ m ∧ p.1.take 2 = ['t', orderChar k]

omit [CharZero R] [DecidableEq R] in
theorem append86 {m : Nat} (hm : m + 1 ≤ 4) {d r : Dict (List Char) (NDArray R)} (hd : HasAmplitudesR sz T m d)
    (hl : LowKeys86 m d) (hk : ∀ p ∈ r, p.1.take 2 = ['t', orderChar (m + 1)])
    (hr : ∀ p ∈ resNames 't' (m + 1), r.get? p.1 = some (ampArr sz T 1 (excSpaces (resPattern p.2)))) :
    HasAmplitudesR sz T (m + 1) (d ++ r) ∧ LowKeys86 (m + 1) (d ++ r) := by
  refine ⟨fun k h1 h2 p hp => ?_, fun p hp => ?_⟩
  · rw [Dict.get?_append]
    by_cases hkm : k ≤ m
    · rw [hd k h1 hkm p hp]; rfl
    · obtain rfl : k = m + 1 := by omega
      have : d.get? p.1 = none := by
        cases hg : d.get? p.1 with
        | none => rfl
        | some x =>
          obtain ⟨j, j1, j2, j3⟩ := hl _ (get?_mem84 hg)
          rw [(resNames_take (m + 1) (mem_orders (by omega) hm)).1 p hp] at j3
          simp only [List.cons.injEq, and_true, true_and] at j3
          have := orderChar_inj (m + 1) (mem_orders (by omega) hm) j (mem_orders j1 (by omega)) j3
          omega
      rw [this, hr p hp]; rfl
  · rcases List.mem_append.1 hp with hp | hp
    · obtain ⟨k, k1, k2, k3⟩ := hl p hp
      exact ⟨k, k1, by omega, k3⟩
    · exact ⟨m + 1, by omega, le_refl _, hk p hp⟩

theorem chain86 (hpath : PathOk path) (hz : SpinSizes sz) (hT : Antisymmetric T) (hC : SpinConserving T)
    (hS : Singlet T) {M : Nat} (h4 : M ≤ 4) {camps : Dict (List Char) (NDArray R)} (hc : HasCoefficientsR sz T M camps)
    (j m : Nat) (hm : m + j ≤ M) (d : Dict (List Char) (NDArray R)) (hd : HasAmplitudesR sz T m d) (hl : LowKeys86 m d) :
    ∃ r, convertChain method path sz camps.get? ((List.range' (m + 1) j).map fun n => (['c', orderChar n], toAmpsR n)) d
        = .ok r ∧ HasAmplitudesR sz T (m + j) r := by
  induction j generalizing m d with
  | zero => exact ⟨d, rfl, hd⟩
  | succ j ih =>
    obtain ⟨r, r1, r2⟩ := C86_restricted_amplitudes (method := method) hpath hz hT hC hS (n := m + 1) (by omega) (by omega)
      (fun name => if name.take ['c', orderChar (m + 1)].length = ['c', orderChar (m + 1)] then camps.get? name
        else d.get? name)
      (fun p hp => by
        have := (resNames_take (m + 1) (mem_orders (by omega) (by omega))).2 p hp
        rw [show ['c', orderChar (m + 1)].length = 2 from rfl, if_pos this]
        exact hc (m + 1) (by omega) (by omega) p hp)
      (fun k k1 k2 p hp => by
        have := (resNames_take k (mem_orders (by omega) (by omega))).1 p hp
        rw [if_neg (by
          rw [show ['c', orderChar (m + 1)].length = 2 from rfl, this]
          simp)]
        exact hd k k1 (by omega) p hp)
    obtain ⟨e1, e2⟩ := append86 (by omega) hd hl
      (call_keys84 (ret_keys86 (m + 1) (mem_orders (by omega) (by omega))) r1) r2
    obtain ⟨u, u1, u2⟩ := ih (m + 1) (by omega) (d ++ r) e1 e2
    refine ⟨u, ?_, by rw [show m + (j + 1) = m + 1 + j by omega]; exact u2⟩
    rw [List.range'_succ, List.map_cons, convertChain, r1]
    exact u1

/-- `_coefficients_to_amplitudes_restricted` takes the coefficients of `exp(T)` of a singlet `T` to the amplitudes `T`. -/
theorem C86_amplitudes (hpath : PathOk path) (hz : SpinSizes sz) (hT : Antisymmetric T) (hC : SpinConserving T)
    (hS : Singlet T) {m : Nat} (h1 : 1 ≤ m) (h4 : m ≤ 4) {camps : Dict (List Char) (NDArray R)}
    (hc : HasCoefficientsR sz T m camps) :
    ∃ amps, coefficientsToAmplitudesR method path sz camps m = .ok amps ∧ HasAmplitudesR sz T m amps := by
  obtain ⟨r, r1, r2⟩ := chain86 (method := method) hpath hz hT hC hS h4 hc m 0 (by omega) []
    (fun k a b => by omega) (fun p hp => by cases hp)
  rw [Nat.zero_add] at r2
  refine ⟨r, ?_, r2⟩
  unfold coefficientsToAmplitudesR
  rw [convOrders_eq h1 h4]
  exact r1

/-! ### The amplitudes with unrestricted spins -/

theorem combs_list86 : (∀ s ∈ combs84 1, s ∈ [chars! "aa", chars! "bb"]) ∧
    (∀ s ∈ combs84 2, s ∈ [chars! "aaaa", chars! "abab", chars! "bbbb"]) ∧
    (∀ s ∈ combs84 3, s ∈ [chars! "aaaaaa", chars! "abaaba", chars! "babbab", chars! "bbbbbb"]) ∧
    ∀ s ∈ combs84 4, s ∈ [chars! "aaaaaaaa", chars! "aaabaaab", chars! "abababab", chars! "abbbabbb", chars! "bbbbbbbb"] := by
  decide +kernel

omit [DecidableEq R] in
/-- The blocks with unrestricted spins which `_amplitudes_to_ci_vector_restricted` builds are those of the operator, each
divided by the factorials of the numbers of spins.  (The comment at fci.py:224-225 asks why this works.) -/
theorem C86_unrestricted (hz : SpinSizes sz) (hT : Antisymmetric T) (hS : Singlet T) {m : Nat} (h1 : 1 ≤ m) (h4 : m ≤ 4)
    {amps : Dict (List Char) (NDArray R)} (ha : HasAmplitudesR sz T m amps) :
    ∃ u, toUnrestricted amps m = .ok u ∧ HasAmplitudes sz T m u := by
  obtain ⟨l1, l2, l3, l4⟩ := combs_list86
  have g1 : amps.get? (chars! "t1") = some (ampArr sz T 1 (excSpaces (chars! "a"))) := ha 1 (le_refl 1) h1 _ (List.mem_cons_self ..)
  have fb := ampArr_flip hS hz (1 : R) (chars! "a")
  have fbb := ampArr_flip hS hz (1 / 2 : R) (chars! "aa")
  have fbbb := ampArr_flip hS hz (1 / 6 : R) (chars! "aaa")
  have fbab := ampArr_flip hS hz (1 / 2 : R) (chars! "aba")
  have fbbbb := ampArr_flip hS hz (1 / 24 : R) (chars! "aaaa")
  have fabbb := ampArr_flip hS hz (1 / 6 : R) (chars! "baaa")
  have key : ∀ u : Dict (List Char) (NDArray R),
      (u.get? (chars! "t1.aa") = some (ampArr sz T 1 (excSpaces (chars! "a"))) ∧
        u.get? (chars! "t1.bb") = some (ampArr sz T 1 (excSpaces (chars! "a")))) →
      (2 ≤ m → u.get? (chars! "t2.aaaa") = some (ampArr sz T (1 / 2) (excSpaces (chars! "aa"))) ∧
        u.get? (chars! "t2.abab") = some (ampArr sz T 1 (excSpaces (chars! "ab"))) ∧
        u.get? (chars! "t2.bbbb") = some (ampArr sz T (1 / 2) (excSpaces (chars! "aa")))) →
      (3 ≤ m → u.get? (chars! "t3.aaaaaa") = some (ampArr sz T (1 / 6) (excSpaces (chars! "aaa"))) ∧
        u.get? (chars! "t3.abaaba") = some (ampArr sz T (1 / 2) (excSpaces (chars! "aba"))) ∧
        u.get? (chars! "t3.babbab") = some (ampArr sz T (1 / 2) (excSpaces (chars! "aba"))) ∧
        u.get? (chars! "t3.bbbbbb") = some (ampArr sz T (1 / 6) (excSpaces (chars! "aaa")))) →
      (4 ≤ m → u.get? (chars! "t4.aaaaaaaa") = some (ampArr sz T (1 / 24) (excSpaces (chars! "aaaa"))) ∧
        u.get? (chars! "t4.aaabaaab") = some (ampArr sz T (1 / 6) (excSpaces (chars! "aaab"))) ∧
        u.get? (chars! "t4.abababab") = some (ampArr sz T (1 / 4) (excSpaces (chars! "abab"))) ∧
        u.get? (chars! "t4.abbbabbb") = some (ampArr sz T (1 / 6) (excSpaces (chars! "baaa"))) ∧
        u.get? (chars! "t4.bbbbbbbb") = some (ampArr sz T (1 / 24) (excSpaces (chars! "aaaa")))) →
      HasAmplitudes sz T m u := by
    intro u k1 k2 k3 k4 n a b s hs
    change s ∈ combs84 n at hs
    have hn : n ≤ 4 := by omega
    interval_cases n
    · replace hs := l1 s hs
      fin_cases hs
      · have e : (1 / ((((((chars! "aa").take 1).count 'a').factorial * (((chars! "aa").take 1).count 'b').factorial : Nat)) : R)) = 1 := by
          rw [show ((((chars! "aa").take 1).count 'a').factorial * (((chars! "aa").take 1).count 'b').factorial) = 1 by decide]; norm_num
        exact (k1.1).trans (by rw [e]; rfl)
      · have e : (1 / ((((((chars! "bb").take 1).count 'a').factorial * (((chars! "bb").take 1).count 'b').factorial : Nat)) : R)) = 1 := by
          rw [show ((((chars! "bb").take 1).count 'a').factorial * (((chars! "bb").take 1).count 'b').factorial) = 1 by decide]; norm_num
        exact (k1.2).trans (by rw [e, ← fb]; rfl)
    · replace hs := l2 s hs
      obtain ⟨q1, q2, q3⟩ := k2 b
      fin_cases hs
      · have e : (1 / ((((((chars! "aaaa").take 2).count 'a').factorial * (((chars! "aaaa").take 2).count 'b').factorial : Nat)) : R)) = 1 / 2 := by
          rw [show ((((chars! "aaaa").take 2).count 'a').factorial * (((chars! "aaaa").take 2).count 'b').factorial) = 2 by decide]; norm_num
        exact q1.trans (by rw [e]; rfl)
      · have e : (1 / ((((((chars! "abab").take 2).count 'a').factorial * (((chars! "abab").take 2).count 'b').factorial : Nat)) : R)) = 1 := by
          rw [show ((((chars! "abab").take 2).count 'a').factorial * (((chars! "abab").take 2).count 'b').factorial) = 1 by decide]; norm_num
        exact q2.trans (by rw [e]; rfl)
      · have e : (1 / ((((((chars! "bbbb").take 2).count 'a').factorial * (((chars! "bbbb").take 2).count 'b').factorial : Nat)) : R)) = 1 / 2 := by
          rw [show ((((chars! "bbbb").take 2).count 'a').factorial * (((chars! "bbbb").take 2).count 'b').factorial) = 2 by decide]; norm_num
        exact q3.trans (by rw [e, ← fbb]; rfl)
    · replace hs := l3 s hs
      obtain ⟨q1, q2, q3, q4⟩ := k3 b
      fin_cases hs
      · have e : (1 / ((((((chars! "aaaaaa").take 3).count 'a').factorial * (((chars! "aaaaaa").take 3).count 'b').factorial : Nat)) : R)) = 1 / 6 := by
          rw [show ((((chars! "aaaaaa").take 3).count 'a').factorial * (((chars! "aaaaaa").take 3).count 'b').factorial) = 6 by decide]; norm_num
        exact q1.trans (by rw [e]; rfl)
      · have e : (1 / ((((((chars! "abaaba").take 3).count 'a').factorial * (((chars! "abaaba").take 3).count 'b').factorial : Nat)) : R)) = 1 / 2 := by
          rw [show ((((chars! "abaaba").take 3).count 'a').factorial * (((chars! "abaaba").take 3).count 'b').factorial) = 2 by decide]; norm_num
        exact q2.trans (by rw [e]; rfl)
      · have e : (1 / ((((((chars! "babbab").take 3).count 'a').factorial * (((chars! "babbab").take 3).count 'b').factorial : Nat)) : R)) = 1 / 2 := by
          rw [show ((((chars! "babbab").take 3).count 'a').factorial * (((chars! "babbab").take 3).count 'b').factorial) = 2 by decide]; norm_num
        exact q3.trans (by rw [e, ← fbab]; rfl)
      · have e : (1 / ((((((chars! "bbbbbb").take 3).count 'a').factorial * (((chars! "bbbbbb").take 3).count 'b').factorial : Nat)) : R)) = 1 / 6 := by
          rw [show ((((chars! "bbbbbb").take 3).count 'a').factorial * (((chars! "bbbbbb").take 3).count 'b').factorial) = 6 by decide]; norm_num
        exact q4.trans (by rw [e, ← fbbb]; rfl)
    · replace hs := l4 s hs
      obtain ⟨q1, q2, q3, q4, q5⟩ := k4 b
      fin_cases hs
      · have e : (1 / ((((((chars! "aaaaaaaa").take 4).count 'a').factorial * (((chars! "aaaaaaaa").take 4).count 'b').factorial : Nat)) : R)) = 1 / 24 := by
          rw [show ((((chars! "aaaaaaaa").take 4).count 'a').factorial * (((chars! "aaaaaaaa").take 4).count 'b').factorial) = 24 by decide]; norm_num
        exact q1.trans (by rw [e]; rfl)
      · have e : (1 / ((((((chars! "aaabaaab").take 4).count 'a').factorial * (((chars! "aaabaaab").take 4).count 'b').factorial : Nat)) : R)) = 1 / 6 := by
          rw [show ((((chars! "aaabaaab").take 4).count 'a').factorial * (((chars! "aaabaaab").take 4).count 'b').factorial) = 6 by decide]; norm_num
        exact q2.trans (by rw [e]; rfl)
      · have e : (1 / ((((((chars! "abababab").take 4).count 'a').factorial * (((chars! "abababab").take 4).count 'b').factorial : Nat)) : R)) = 1 / 4 := by
          rw [show ((((chars! "abababab").take 4).count 'a').factorial * (((chars! "abababab").take 4).count 'b').factorial) = 4 by decide]; norm_num
        exact q3.trans (by rw [e]; rfl)
      · have e : (1 / ((((((chars! "abbbabbb").take 4).count 'a').factorial * (((chars! "abbbabbb").take 4).count 'b').factorial : Nat)) : R)) = 1 / 6 := by
          rw [show ((((chars! "abbbabbb").take 4).count 'a').factorial * (((chars! "abbbabbb").take 4).count 'b').factorial) = 6 by decide]; norm_num
        exact q4.trans (by rw [e, ← fabbb]; rfl)
      · have e : (1 / ((((((chars! "bbbbbbbb").take 4).count 'a').factorial * (((chars! "bbbbbbbb").take 4).count 'b').factorial : Nat)) : R)) = 1 / 24 := by
          rw [show ((((chars! "bbbbbbbb").take 4).count 'a').factorial * (((chars! "bbbbbbbb").take 4).count 'b').factorial) = 24 by decide]; norm_num
        exact q5.trans (by rw [e, ← fbbbb]; rfl)
  unfold toUnrestricted
  simp only [Dict.getItem, g1, bind, Except.bind, pure, Except.pure]
  by_cases m2 : 1 < m
  · have g2 : amps.get? (chars! "t2") = some (ampArr sz T 1 (excSpaces (chars! "ab"))) :=
      ha 2 (by omega) m2 _ (List.mem_cons_self ..)
    simp only [if_pos m2, g2, over_aa hT hS hz]
    by_cases m3 : 2 < m
    · have g3 : amps.get? (chars! "t3") = some (ampArr sz T 1 (excSpaces (chars! "aba"))) :=
        ha 3 (by omega) m3 _ (List.mem_cons_self ..)
      simp only [if_pos m3, g3, over_aaa hT hS hz, over_aba hT hz]
      by_cases m4 : 3 < m
      · have g4 : amps.get? (chars! "t4") = some (ampArr sz T 1 (excSpaces (chars! "abab"))) :=
          ha 4 (by omega) m4 _ (List.mem_cons_self ..)
        have g5 : amps.get? (chars! "t4a") = some (ampArr sz T 1 (excSpaces (chars! "abaa"))) :=
          ha 4 (by omega) m4 _ (List.mem_cons_of_mem _ (List.mem_cons_self ..))
        simp only [if_pos m4, g4, g5, over_aaaa hT hS hz, over_aaab hT hz, over_baaa hT hz, over_abab hT hz,
          transpose_aaab hT hz, transpose_baaa hT hz]
        exact ⟨_, rfl, key _ ⟨rfl, rfl⟩ (fun _ => ⟨rfl, rfl, rfl⟩) (fun _ => ⟨rfl, rfl, rfl, rfl⟩)
          (fun _ => ⟨rfl, rfl, rfl, rfl, rfl⟩)⟩
      · simp only [if_neg m4]
        exact ⟨_, rfl, key _ ⟨rfl, rfl⟩ (fun _ => ⟨rfl, rfl, rfl⟩) (fun _ => ⟨rfl, rfl, rfl, rfl⟩) (fun h => by omega)⟩
    · simp only [if_neg m3, if_neg (show ¬ 3 < m by omega)]
      exact ⟨_, rfl, key _ ⟨rfl, rfl⟩ (fun _ => ⟨rfl, rfl, rfl⟩) (fun h => by omega) (fun h => by omega)⟩
  · simp only [if_neg m2, if_neg (show ¬ 2 < m by omega), if_neg (show ¬ 3 < m by omega)]
    exact ⟨_, rfl, key _ ⟨rfl, rfl⟩ (fun h => by omega) (fun h => by omega) (fun h => by omega)⟩


/-! ### The CI vector -/

omit [CharZero R] [DecidableEq R] in
/-- Two transpositions of an array with eight axes. -/
theorem transpose_twice86 {a b : NDArray R} (h : a.transpose [0, 1, 2, 6, 3, 4, 5, 7] = .ok b) :
    b.transpose [0, 3, 1, 2, 4, 7, 5, 6] = a.transpose [0, 6, 1, 2, 3, 7, 4, 5] := by
  have hp : ([0, 1, 2, 6, 3, 4, 5, 7] : List Nat).isPerm (List.range a.shape.length) = true := by
    by_contra hn
    unfold NDArray.transpose at h
    rw [if_neg hn] at h
    cases h
  have hl : a.shape.length = 8 := by simpa using (List.isPerm_iff.1 hp).length_eq.symm
  rw [transpose_ok a _ (List.isPerm_iff.1 hp)] at h
  injection h with h
  subst h
  rw [transpose_ok _ _ (by rw [NDArray.ofFn_shape, List.length_map]; exact List.isPerm_iff.1 (by decide)),
    transpose_ok a _ (by rw [hl]; exact List.isPerm_iff.1 (by decide))]
  congr 1
  simp only [NDArray.ofFn]
  congr 1
  apply List.map_congr_left
  intro idx hidx
  have hb := mem_box.1 hidx
  have e : unpermute [0, 6, 1, 2, 3, 7, 4, 5] idx
      = unpermute [0, 1, 2, 6, 3, 4, 5, 7] (unpermute [0, 3, 1, 2, 4, 7, 5, 6] idx) := rfl
  rw [e]
  refine NDArray.get_ofFn _ _ ?_
  rw [inBox_iff_getD] at hb ⊢
  obtain ⟨hb1, hb2⟩ := hb
  refine ⟨rfl, fun j hj => ?_⟩
  have hj8 : j < 8 := hj
  have b0 := hb2 0 (by simp)
  have b1 := hb2 1 (by simp)
  have b2 := hb2 2 (by simp)
  have b3 := hb2 3 (by simp)
  have b4 := hb2 4 (by simp)
  have b5 := hb2 5 (by simp)
  have b6 := hb2 6 (by simp)
  have b7 := hb2 7 (by simp)
  interval_cases j
  · exact b0
  · exact b2
  · exact b3
  · exact b1
  · exact b4
  · exact b6
  · exact b7
  · exact b5

omit [CharZero R] [DecidableEq R] in
/-- The block with the spins αβαα is the block with the spins αααβ, transposed. -/
theorem getC_abaa86 {ci : NDArray R} {A B : CIAddresses} {sh : List Nat} {x : NDArray R}
    (h : fciGetC ci A B sh (chars! "aaab") = .ok x) :
    fciGetC ci A B sh (chars! "abaa") = x.transpose [0, 3, 1, 2, 4, 7, 5, 6] := by
  have p1 : getStringPermutation (fciSubscript 3 1) (fciTarget (chars! "aaab")) = .ok [0, 1, 2, 6, 3, 4, 5, 7] := by
    decide +kernel
  have p2 : getStringPermutation (fciSubscript 3 1) (fciTarget (chars! "abaa")) = .ok [0, 6, 1, 2, 3, 7, 4, 5] := by
    decide +kernel
  have ca : (chars! "aaab").count 'a' = 3 ∧ (chars! "aaab").count 'b' = 1 := by decide
  have cb : (chars! "abaa").count 'a' = 3 ∧ (chars! "abaa").count 'b' = 1 := by decide
  unfold fciGetC at h ⊢
  simp only [ca.1, ca.2] at h
  simp only [cb.1, cb.2]
  split at h
  · rename_i c1
    rw [if_pos c1]
    split at h
    · rename_i c2
      rw [if_pos c2]
      cases hd : decompressAxes (fciSubscript 3 1) (scaleSigns ((prodL [A.at 3, B.at 1]).map ci.get) (blockSigns A B 3 1)) sh
        false none with
      | error e => rw [hd] at h; cases h
      | ok o =>
        rw [hd] at h
        simp only [bind, Except.bind, pure, Except.pure, p1] at h
        simp only [bind, Except.bind, pure, Except.pure, p2]
        cases ht : o.transpose [0, 1, 2, 6, 3, 4, 5, 7] with
        | error e => rw [ht] at h; cases h
        | ok y =>
          rw [ht] at h
          simp only [Except.ok.injEq] at h
          subst h
          have := transpose_map y [0, 3, 1, 2, 4, 7, 5, 6] (fun v => v / ci.get [0, 0]) (by simp)
          rw [this, transpose_twice86 ht]
          cases o.transpose [0, 6, 1, 2, 3, 7, 4, 5] <;> rfl
    · cases h
  · cases h

omit [Field R] [CharZero R] [DecidableEq R] in
/-- The blocks of an extracted dictionary. -/
theorem mapM_blocks86 {g : Nat × List Char → Except PyErr (NDArray R)} (l : List (Nat × List Char))
    (hn : (l.map (·.2)).Nodup) (d : Dict (List Char) (NDArray R))
    (h : (l.mapM fun c => do
      let x ← g c
      pure (c.2, x)) = .ok d) : ∀ c ∈ l, ∃ x, g c = .ok x ∧ d.get? c.2 = some x := by
  induction l generalizing d with
  | nil => intro c hc; cases hc
  | cons a l ih =>
    rw [List.map_cons, List.nodup_cons] at hn
    rw [List.mapM_cons] at h
    cases ha : g a with
    | error e => simp only [ha, bind, Except.bind] at h; cases h
    | ok x =>
      cases hl : (l.mapM fun c => do
        let x ← g c
        pure (c.2, x)) with
      | error e => simp only [ha, bind, Except.bind, pure, Except.pure] at h hl; rw [hl] at h; cases h
      | ok d' =>
        have hd : d = (a.2, x) :: d' := by
          simp only [ha, bind, Except.bind, pure, Except.pure] at h hl
          rw [hl] at h
          exact (Except.ok.inj h).symm
        subst hd
        intro c hc
        rcases List.mem_cons.1 hc with rfl | hc
        · exact ⟨x, ha, by simp [Dict.get?]⟩
        · obtain ⟨y, y1, y2⟩ := ih hn.2 d' hl c hc
          refine ⟨y, y1, ?_⟩
          simp only [Dict.get?]
          have hne : a.2 ≠ c.2 := fun e => hn.1 (e ▸ List.mem_map_of_mem hc)
          rw [if_neg hne]
          exact y2

theorem resSizes86 (size : Char → Nat) : SpinSizes (fciSizes fun _ => size) := ⟨rfl, rfl⟩

omit [CharZero R] [DecidableEq R] in
theorem coefArr_amp86 (T : List Orb → List Orb → R) (sp : List Nat) : coefArr sz T sp = ampArr sz (expCoeff T) 1 sp := by
  simp only [coefArr, ampArr, mul_one]

omit [CharZero R] [DecidableEq R] in
/-- The coefficients of single excitations of both spins are the same. -/
theorem coefArr_b86 (hz : SpinSizes sz) (hS : Singlet T) :
    coefArr sz T (excSpaces (chars! "b")) = coefArr sz T (excSpaces (chars! "a")) := by
  rw [coefArr_amp86, coefArr_amp86, ampArr_spinVal, ampArr_spinVal, hz.shape, hz.shape]
  simp only [NDArray.ofFn]
  congr 1
  apply List.map_congr_left
  intro idx hidx
  have hl : idx.length = 2 := (mem_box.1 hidx).length_eq
  match idx, hl with
  | [i, a], _ =>
    have := hS.flip [(0, i)] [(1, a)] (by intro x hx; simp at hx; simp [hx]) (by intro x hx; simp at hx; simp [hx])
    simp only [spinVal, resOrbs]
    simp [flipSpin, expCoeff_single86] at this ⊢
    exact this
where
  expCoeff_single86 (x y : Orb) : expCoeff T [x] [y] = T [x] [y] := by
    rw [expCoeff_cons]
    simp [pickSum, expCoeff, picks, expTerms, expTermsN]

omit [CharZero R] [DecidableEq R] in
/-- The blocks which `_ci_vector_to_coefficients_restricted` extracts from a CI vector with the coefficients of `exp(T)`. -/
theorem extract86 {A : CIAddresses} {size : Char → Nat} {m : Nat} (h1 : 1 ≤ m) (h4 : m ≤ 4) {ci : NDArray R}
    {d : Dict (List Char) (NDArray R)} (hT : Antisymmetric T) (hS : Singlet T)
    (hd : fciExtractU ci A A (fun _ => size) m = .ok d)
    (hc : ∀ c ∈ fciCombs m, d.get? c.2 = some (coefArr (fciSizes fun _ => size) T (excSpaces (c.2.take c.1)))) :
    ∃ e, fciExtractR ci A size m = .ok e ∧ HasCoefficientsR (fciSizes fun _ => size) T m e := by
  have hz := resSizes86 size
  unfold fciExtractU at hd
  rw [if_neg (by omega), if_neg (by omega)] at hd
  have hb := mapM_blocks86 (g := fun c => fciGetC ci A A (fciShapeU (fun _ => size) (c.2.take c.1)) (c.2.take c.1))
    (fciCombs m) (fciCombs_keys h4) d hd
  have hshape : ∀ s : List Char,
      fciShapeR size s = (fciSubscript (s.count 'a') (s.count 'b')).map (symSize fun _ => size) := by
    intro s
    unfold fciShapeR fciKinds fciSubscript
    simp [symSize]
  have get : ∀ n, 1 ≤ n → n ≤ m → ∀ s ∈ combs84 n, fciGetC ci A A (fciShapeR size (s.take n)) (s.take n)
      = .ok (coefArr (fciSizes fun _ => size) T (excSpaces (s.take n))) := by
    intro n a b s hs
    have hm : (n, s) ∈ fciCombs m := fciCombs_mem84.2 ⟨a, b, hs⟩
    obtain ⟨x, x1, x2⟩ := hb (n, s) hm
    rw [hshape, ← fciShapeU_ok h4 (Or.inr fun _ => rfl) (n, s) hm]
    have := hc (n, s) hm
    rw [x2] at this
    rw [← Option.some.inj this]
    exact x1
  have e1 : fciGetC ci A A (fciShapeR size (chars! "b")) (chars! "b")
      = .ok (coefArr (fciSizes fun _ => size) T (excSpaces (chars! "a"))) := by
    rw [← coefArr_b86 hz hS]
    exact get 1 (le_refl 1) h1 (chars! "bb") (by decide +kernel)
  have e2 : 2 ≤ m → fciGetC ci A A (fciShapeR size (chars! "ab")) (chars! "ab")
      = .ok (coefArr (fciSizes fun _ => size) T (excSpaces (chars! "ab"))) :=
    fun h => get 2 (by omega) h (chars! "abab") (by decide +kernel)
  have e3 : 3 ≤ m → fciGetC ci A A (fciShapeR size (chars! "aba")) (chars! "aba")
      = .ok (coefArr (fciSizes fun _ => size) T (excSpaces (chars! "aba"))) :=
    fun h => get 3 (by omega) h (chars! "abaaba") (by decide +kernel)
  have e4 : 4 ≤ m → fciGetC ci A A (fciShapeR size (chars! "abab")) (chars! "abab")
      = .ok (coefArr (fciSizes fun _ => size) T (excSpaces (chars! "abab"))) :=
    fun h => get 4 (by omega) h (chars! "abababab") (by decide +kernel)
  have e5 : 4 ≤ m → fciGetC ci A A (fciShapeR size (chars! "abaa")) (chars! "abaa")
      = .ok (coefArr (fciSizes fun _ => size) T (excSpaces (chars! "abaa"))) := by
    intro h
    have := getC_abaa86 (get 4 (by omega) h (chars! "aaabaaab") (by decide +kernel))
    rw [show fciShapeR size (chars! "abaa") = fciShapeR size ((chars! "aaabaaab").take 4) by rw [hshape, hshape]; rfl, this,
      coefArr_amp86, coefArr_amp86]
    exact transpose_amp86 (expCoeff_antisymmetric hT) hz (by decide +kernel) (by decide +kernel) (by decide +kernel)
      (by decide) (by decide)
  unfold fciExtractR
  rw [if_neg (by omega), if_neg (by omega)]
  let F : List Char → NDArray R := fun k =>
    coefArr (fciSizes fun _ => size) T (excSpaces (if k = chars! "b" then chars! "a" else k))
  have hF : ∀ b ∈ fciBlocksR m, (do
      let c ← fciGetC ci A A (fciShapeR size b.2) b.2
      pure (b.1, c)) = (.ok (b.1, F b.2) : Except PyErr (List Char × NDArray R)) := by
    intro b hbm
    have hmem : (b = (chars! "c1", chars! "b")) ∨ (b = (chars! "c2", chars! "ab") ∧ 2 ≤ m) ∨
        (b = (chars! "c3", chars! "aba") ∧ 3 ≤ m) ∨ (b = (chars! "c4", chars! "abab") ∧ 4 ≤ m) ∨
        (b = (chars! "c4a", chars! "abaa") ∧ 4 ≤ m) := by
      revert b
      interval_cases m <;> decide
    rcases hmem with rfl | ⟨rfl, h⟩ | ⟨rfl, h⟩ | ⟨rfl, h⟩ | ⟨rfl, h⟩
    · simp only [e1, bind, Except.bind, pure, Except.pure]; rfl
    · simp only [e2 h, bind, Except.bind, pure, Except.pure]; rfl
    · simp only [e3 h, bind, Except.bind, pure, Except.pure]; rfl
    · simp only [e4 h, bind, Except.bind, pure, Except.pure]; rfl
    · simp only [e5 h, bind, Except.bind, pure, Except.pure]; rfl
  refine ⟨_, mapM_ok _ (fun b : List Char × List Char => (b.1, F b.2)) (fciBlocksR m) hF, ?_⟩
  intro n a b p hp
  have hn : n ≤ 4 := by omega
  interval_cases n
  · obtain rfl := List.mem_singleton.1 hp
    rfl
  · obtain rfl := List.mem_singleton.1 hp
    interval_cases m <;> first | omega | rfl
  · obtain rfl := List.mem_singleton.1 hp
    interval_cases m <;> first | omega | rfl
  · interval_cases m
    rcases List.mem_cons.1 hp with rfl | hp
    · rfl
    · obtain rfl := List.mem_singleton.1 hp
      rfl

/-- `_amplitudes_to_ci_vector_restricted`: the CI vector has the coefficients of `exp(T)`. -/
theorem C86_vector (hpath : PathOk path) {size : Char → Nat} (A : CIAddresses) (hT : Antisymmetric T)
    (hC : SpinConserving T) (hS : Singlet T) {m : Nat} (h1 : 1 ≤ m) (h4 : m ≤ 4) {amps : Dict (List Char) (NDArray R)}
    (ha : HasAmplitudesR (fciSizes fun _ => size) T m amps) (norm : NDArray R → R) (normalise : Bool) :
    ∃ c, HasCoefficients (fciSizes fun _ => size) T m c ∧ amplitudesToCiR method path norm A size amps m normalise
      = fciVectorU norm A A (fun _ => size) (blocksBySpins c m) m normalise := by
  obtain ⟨u, u1, u2⟩ := C86_unrestricted (resSizes86 size) hT hS h1 h4 ha
  obtain ⟨c, c1, c2⟩ := C84_coefficients (method := method) hpath hT hC h1 h4 u2
  refine ⟨c, c2, ?_⟩
  unfold amplitudesToCiR amplitudesToCiU
  rw [if_neg (by omega), u1]
  simp only [bind, Except.bind]
  rw [if_neg (by omega), c1]

/-- C86: the amplitudes of a singlet operator converted to a CI vector (normalised or not) and back are unchanged. -/
theorem C86_roundtrip (hpath : PathOk path) {size : Char → Nat} {A : CIAddresses} (hA : A.Valid (size 'O') (size 'V'))
    (hT : Antisymmetric T) (hC : SpinConserving T) (hS : Singlet T) {m : Nat} (h1 : 1 ≤ m) (h4 : m ≤ 4)
    {amps : Dict (List Char) (NDArray R)} (ha : HasAmplitudesR (fciSizes fun _ => size) T m amps) (norm : NDArray R → R)
    (hnorm : ∀ x : NDArray R, x.get [0, 0] = 1 → norm x ≠ 0) (normalise : Bool) :
    ∃ ci amps', amplitudesToCiR method path norm A size amps m normalise = .ok ci ∧
      ciToAmplitudesR method path ci A size m = .ok amps' ∧
      ∀ n, 1 ≤ n → n ≤ m → ∀ p ∈ resNames 't' n, amps'.get? p.1 = amps.get? p.1 := by
  obtain ⟨camps, c2, cv⟩ := C86_vector (method := method) hpath A hT hC hS h1 h4 ha norm normalise
  have hbs : ∀ c ∈ fciCombs m, (blocksBySpins camps m).get? c.2
      = some (coefArr (fciSizes fun _ => size) T (excSpaces (c.2.take c.1))) := by
    intro c hc
    obtain ⟨x1, x2, x3⟩ := fciCombs_mem84.1 hc
    rw [blocksBySpins_eq85 h4 camps hc]
    exact c2 c.1 x1 x2 c.2 x3
  obtain ⟨ci, d, d1, d2, d3, d4⟩ := C59_roundtrip_partial (R := R) (A := A) (B := A) (size := fun _ => size)
    C85_amplitudes_partial.two_ne85 hA hA h1 h4 (Or.inr fun _ => rfl)
    (blocksBySpins camps m)
    (fun c hc => ⟨_, hbs c hc, isCoefficient_ofFn (fciSizes_ok _) (expCoeff_antisymmetric hT) (fciCombs_spins h4 c hc).2⟩)
    norm hnorm normalise
  obtain ⟨e, e1, e2⟩ := extract86 h1 h4 hT hS d2 (fun c hc => by
    rw [d4 c.2 (by rw [d3]; exact List.mem_map_of_mem hc)]
    exact hbs c hc)
  obtain ⟨amps', a1, a2⟩ := C86_amplitudes (method := method) hpath (resSizes86 size) hT hC hS h1 h4 e2
  refine ⟨ci, amps', by rw [cv]; exact d1, ?_, ?_⟩
  · unfold ciToAmplitudesR
    rw [e1]
    exact a1
  · intro n n1 n2 p hp
    rw [a2 n n1 n2 p hp, ha n n1 n2 p hp]

end

/-! ### Concrete cases -/

/-- Single excitations which do not change the spin. -/
def exSingle86 (x y : Orb) : ℚ :=
  if x.1 = 0 ∧ y.1 = 1 ∨ x.1 = 4 ∧ y.1 = 5 then (x.2 + 2 * y.2 + x.2 * y.2 + 1 : Nat) else 0

/-- Singlet amplitudes for singles and doubles. -/
def exAmp86 : List Orb → List Orb → ℚ
  | [i], [a] => 2 * exSingle86 i a
  | [i, j], [a, b] => exSingle86 i a * exSingle86 j b - exSingle86 i b * exSingle86 j a
  | _, _ => 0

theorem exAmp86_anti : Antisymmetric exAmp86 := by
  refine ⟨fun I J x y A => ?_, fun I A B x y => ?_⟩
  · match I, J, A with
    | [], [], [a, b] => simp only [List.nil_append, exAmp86]; ring
    | [], [], [] => simp [exAmp86]
    | [], [], [_] => simp [exAmp86]
    | [], [], _ :: _ :: _ :: _ => simp [exAmp86]
    | [], _ :: _, _ => simp [exAmp86]
    | [_], _, _ => simp [exAmp86]
    | _ :: _ :: _, _, _ => simp [exAmp86]
  · match A, B, I with
    | [], [], [a, b] => simp only [List.nil_append, exAmp86]; ring
    | [], [], [] => simp [exAmp86]
    | [], [], [_] => simp [exAmp86]
    | [], [], _ :: _ :: _ :: _ => simp [exAmp86]
    | [], _ :: _, [] => simp [exAmp86]
    | [], _ :: _, [_] => simp [exAmp86]
    | [], _ :: _, [_, _] => simp [exAmp86]
    | [], _ :: _, _ :: _ :: _ :: _ => simp [exAmp86]
    | [_], _, [] => simp [exAmp86]
    | [_], _, [_] => simp [exAmp86]
    | [_], _, [_, _] => simp [exAmp86]
    | [_], _, _ :: _ :: _ :: _ => simp [exAmp86]
    | _ :: _ :: _, _, [] => simp [exAmp86]
    | _ :: _ :: _, _, [_] => simp [exAmp86]
    | _ :: _ :: _, _, [_, _] => simp [exAmp86]
    | _ :: _ :: _, _, _ :: _ :: _ :: _ => simp [exAmp86]

theorem exSingle86_zero {x y : Orb} (h : decide (4 ≤ x.1) ≠ decide (4 ≤ y.1)) : exSingle86 x y = 0 := by
  unfold exSingle86
  rw [if_neg]
  rintro (⟨a, b⟩ | ⟨a, b⟩) <;> simp [a, b] at h

theorem exAmp86_spin : SpinConserving exAmp86 := by
  intro I A h
  match I, A with
  | [i], [a] =>
    rw [exAmp86, exSingle86_zero, mul_zero]
    intro e
    simp [betas, List.countP_cons] at h
    simp only [decide_eq_decide] at e
    simp [e] at h
  | [i, j], [a, b] =>
    rw [exAmp86]
    simp only [betas, List.countP_cons, List.countP_nil] at h
    have z1 := exSingle86_zero (x := i) (y := a)
    have z2 := exSingle86_zero (x := i) (y := b)
    have z3 := exSingle86_zero (x := j) (y := a)
    have z4 := exSingle86_zero (x := j) (y := b)
    by_cases hi : 4 ≤ i.1 <;> by_cases hj : 4 ≤ j.1 <;> by_cases ha : 4 ≤ a.1 <;> by_cases hb : 4 ≤ b.1 <;>
      simp [hi, hj, ha, hb] at h z1 z2 z3 z4 <;> simp [z1, z2, z3, z4]
  | [], _ => simp [exAmp86]
  | [_], [] => simp [exAmp86]
  | [_], _ :: _ :: _ => simp [exAmp86]
  | [_, _], [] => simp [exAmp86]
  | [_, _], [_] => simp [exAmp86]
  | [_, _], _ :: _ :: _ :: _ => simp [exAmp86]
  | _ :: _ :: _ :: _, _ => simp [exAmp86]

theorem exAmp86_zero {I A : List Orb} (h : I.length ≠ A.length ∨ I.length = 0 ∨ 2 < I.length) : exAmp86 I A = 0 := by
  match I, A with
  | [i], [a] => simp at h
  | [i, j], [a, b] => simp at h
  | [], _ => simp [exAmp86]
  | [_], [] => simp [exAmp86]
  | [_], _ :: _ :: _ => simp [exAmp86]
  | [_, _], [] => simp [exAmp86]
  | [_, _], [_] => simp [exAmp86]
  | [_, _], _ :: _ :: _ :: _ => simp [exAmp86]
  | _ :: _ :: _ :: _, _ => simp [exAmp86]

theorem lowered_length86 (l : List Orb) : ∀ m ∈ lowered l, m.length = l.length := by
  induction l with
  | nil => intro m h; cases h
  | cons x l ih =>
    intro m h
    simp only [lowered, List.mem_append, List.mem_map] at h
    rcases h with h | ⟨k, hk, rfl⟩
    · split at h
      · simp only [List.mem_singleton] at h; subst h; rfl
      · cases h
    · simp [ih k hk]

theorem raised_length86 (l : List Orb) : ∀ m ∈ raised l, m.length = l.length := by
  induction l with
  | nil => intro m h; cases h
  | cons x l ih =>
    intro m h
    simp only [raised, List.mem_append, List.mem_map] at h
    rcases h with h | ⟨k, hk, rfl⟩
    · split at h
      · cases h
      · simp only [List.mem_singleton] at h; subst h; rfl
    · simp [ih k hk]

theorem exAmp86_singlet : Singlet exAmp86 := by
  constructor
  · intro I A hI hA
    by_cases h : I.length ≠ A.length ∨ I.length = 0 ∨ 2 < I.length
    · rw [exAmp86_zero h, exAmp86_zero (by simpa using h)]
    · match I, A with
      | [], _ => simp at h
      | [i], [a] =>
        have h1 := hI i (by simp)
        have h2 := hA a (by simp)
        rcases h1 with h1 | h1 <;> rcases h2 with h2 | h2 <;> simp [exAmp86, exSingle86, flipSpin, h1, h2]
      | [i, j], [a, b] =>
        have h1 := hI i (by simp)
        have h2 := hA a (by simp)
        have h3 := hI j (by simp)
        have h4 := hA b (by simp)
        rcases h1 with h1 | h1 <;> rcases h2 with h2 | h2 <;> rcases h3 with h3 | h3 <;> rcases h4 with h4 | h4 <;>
          simp [exAmp86, exSingle86, flipSpin, h1, h2, h3, h4]
      | [_], [] => simp at h
      | [_], _ :: _ :: _ => simp at h
      | [_, _], [] => simp at h
      | [_, _], [_] => simp at h
      | [_, _], _ :: _ :: _ :: _ => simp at h
      | _ :: _ :: _ :: _, _ => simp at h
  · intro I A hI hA
    by_cases h : I.length ≠ A.length ∨ I.length = 0 ∨ 2 < I.length
    · rw [List.map_congr_left (g := fun _ => (0 : ℚ)) (fun m hm => exAmp86_zero (by rw [lowered_length86 A m hm]; exact h)),
        List.map_congr_left (g := fun _ => (0 : ℚ)) (l := raised I)
          (fun m hm => exAmp86_zero (by rw [raised_length86 I m hm]; exact h))]
      simp
    · match I, A with
      | [], _ => simp at h
      | [i], [a] =>
        have h1 := hI i (by simp)
        have h2 := hA a (by simp)
        rcases h1 with h1 | h1 <;> rcases h2 with h2 | h2 <;> simp [lowered, raised, exAmp86, exSingle86, flipSpin, h1, h2]
      | [i, j], [a, b] =>
        have h1 := hI i (by simp)
        have h2 := hA a (by simp)
        have h3 := hI j (by simp)
        have h4 := hA b (by simp)
        rcases h1 with h1 | h1 <;> rcases h2 with h2 | h2 <;> rcases h3 with h3 | h3 <;> rcases h4 with h4 | h4 <;>
          simp [lowered, raised, exAmp86, exSingle86, flipSpin, h1, h2, h3, h4] <;> ring
      | [_], [] => simp at h
      | [_], _ :: _ :: _ => simp at h
      | [_, _], [] => simp at h
      | [_, _], [_] => simp at h
      | [_, _], _ :: _ :: _ :: _ => simp at h
      | _ :: _ :: _ :: _, _ => simp at h

/-- Non-vacuity: the amplitudes and coefficients of the example do not vanish. -/
example : exAmp86 [(0, 0), (4, 1)] [(1, 0), (5, 2)] = 8 ∧ exAmp86 [(0, 0), (0, 1)] [(1, 0), (1, 2)] ≠ 0 ∧
    expCoeff exAmp86 [(0, 0), (4, 1), (0, 1)] [(1, 0), (5, 1), (1, 2)] ≠ 0 ∧
    expCoeff exAmp86 [(0, 0), (4, 1), (0, 1), (4, 0)] [(1, 0), (5, 1), (1, 1), (5, 2)] ≠ 0 := by
  decide +kernel

/-- The restricted arrays of an operator. -/
def resAmps86 (sz : Nat → Nat) (T : List Orb → List Orb → ℚ) : Dict (List Char) (NDArray ℚ) :=
  [(chars! "t1", ampArr sz T 1 (excSpaces (chars! "a"))), (chars! "t2", ampArr sz T 1 (excSpaces (chars! "ab"))),
    (chars! "t3", ampArr sz T 1 (excSpaces (chars! "aba"))), (chars! "t4", ampArr sz T 1 (excSpaces (chars! "abab"))),
    (chars! "t4a", ampArr sz T 1 (excSpaces (chars! "abaa")))]

theorem resAmps86_has (sz : Nat → Nat) (T : List Orb → List Orb → ℚ) : HasAmplitudesR sz T 4 (resAmps86 sz T) := by
  intro n a b p hp
  interval_cases n
  · obtain rfl := List.mem_singleton.1 hp; rfl
  · obtain rfl := List.mem_singleton.1 hp; rfl
  · obtain rfl := List.mem_singleton.1 hp; rfl
  · rcases List.mem_cons.1 hp with rfl | hp
    · rfl
    · obtain rfl := List.mem_singleton.1 hp; rfl

/-- Non-vacuity: the example with one occupied and two virtual orbitals, converted to a CI vector and back. -/
example : ∃ ci amps', amplitudesToCiR .backend onePath (fun _ => 1) (oneElectron 2) (fun k => if k = 'O' then 1 else 2)
      (resAmps86 (fciSizes fun _ => fun k => if k = 'O' then 1 else 2) exAmp86) 4 true = .ok ci ∧
    ciToAmplitudesR .backend onePath ci (oneElectron 2) (fun k => if k = 'O' then 1 else 2) 4 = .ok amps' ∧
    ∀ n, 1 ≤ n → n ≤ 4 → ∀ p ∈ resNames 't' n, amps'.get? p.1
      = (resAmps86 (fciSizes fun _ => fun k => if k = 'O' then 1 else 2) exAmp86).get? p.1 :=
  C86_roundtrip onePath_ok (oneElectron_valid 2) exAmp86_anti exAmp86_spin exAmp86_singlet (by decide) (le_refl 4)
    (resAmps86_has _ _) _ (fun _ _ => one_ne_zero) true

end Ebcc
