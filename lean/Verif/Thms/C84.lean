import Verif.Thms.C84Checks
import Verif.Lemmas.ExpCoeff
/-!
C84: the conversions between coefficients of determinants and cluster amplitudes (`ext/fci.py`, `codegen/GecCC.py`,
`codegen/UecCC.py`): the coefficients are those of `exp(T)`.
-/

namespace Ebcc

section
variable {R : Type} [Field R] [CharZero R] [DecidableEq R] {method : ContractMethod}
  {path : List (List Char) → List Char → List (NDArray R) → List Contraction} {sz : Nat → Nat}
  {T : List Orb → List Orb → R}

omit [CharZero R] [DecidableEq R] [Field R] in
theorem get?_mem84 {κ ν : Type} [DecidableEq κ] {d : Dict κ ν} {k : κ} {v : ν} (h : d.get? k = some v) : (k, v) ∈ d := by
  induction d with
  | nil => cases h
  | cons p d ih =>
    obtain ⟨a, b⟩ := p
    simp only [Dict.get?] at h
    by_cases hk : a = k
    · rw [if_pos hk] at h
      cases h
      subst hk
      exact List.mem_cons_self ..
    · rw [if_neg hk] at h
      exact List.mem_cons_of_mem _ (ih h)

theorem gAxes_lt (n : Nat) : ∀ s ∈ gAxes n, s < 16 := by
  intro s hs
  simp only [gAxes, List.mem_append, List.mem_replicate] at hs
  omega

theorem excSpaces_lt (l : List Char) : ∀ s ∈ excSpaces l, s < 16 := by
  intro s hs
  simp only [excSpaces, List.mem_append, List.mem_map] at hs
  rcases hs with ⟨c, _, rfl⟩ | ⟨c, _, rfl⟩ <;> split <;> omega

theorem ampArg_rep_one (T : List Orb → List Orb → R) (sp : List Nat) (hs : ∀ s ∈ sp, s < 16) :
    ArgRep sz (expTensor T) (ampArg 1 0 sp) (ampArr sz T 1 sp) := by
  have := ampArg_rep sz T 1 0 sp hs
  simpa [tcoef] using this

theorem mem_orders {n : Nat} (h1 : 1 ≤ n) (h4 : n ≤ 4) : n ∈ [1, 2, 3, 4] := by
  interval_cases n <;> simp

/-! ### Spin orbitals -/

/-- Spin orbitals: `convert_cn_to_tn` takes the coefficients of `exp(T)` of order `n`, and the lower amplitudes, to the
amplitudes of order `n`. -/
theorem C84_general_amplitudes (hpath : PathOk path) (hT : Antisymmetric T) {n : Nat} (h1 : 1 ≤ n) (h4 : n ≤ 4)
    (vals : List Char → Option (NDArray R)) (hc : vals (nameG 'c' n) = some (coefArr sz T (gAxes n)))
    (ht : ∀ k, 1 ≤ k → k < n → vals (nameG 't' k) = some (ampArr sz T 1 (gAxes k))) :
    ∃ r, (toAmpsG n).call method path sz vals = .ok r ∧ r.get? (nameG 't' n) = some (ampArr sz T 1 (gAxes n)) := by
  have hv : ∀ name v, Dict.get? (argsToAmpsG n) name = some v → ∃ a, vals name = some a ∧ ArgRep sz (expTensor T) v a := by
    intro name v hv
    have hm := get?_mem84 hv
    simp only [argsToAmpsG, List.mem_cons, List.mem_map, List.mem_range'_1, Prod.mk.injEq] at hm
    rcases hm with ⟨rfl, rfl⟩ | ⟨k, hk, rfl, rfl⟩
    · exact ⟨_, hc, coefArg_rep sz T false (by simp) _ (gAxes_lt n)⟩
    · exact ⟨_, ht k (by omega) (by omega), ampArg_rep_one T _ (gAxes_lt k)⟩
  obtain ⟨r, r1, r2⟩ := checkFun_sound (expSym_ok hT) (method := method) hpath hv (checkToAmpsG_ok n (mem_orders h1 h4))
  exact ⟨r, r1, r2 _ (List.mem_cons_self ..) _ (ampArg_rep_one T _ (gAxes_lt n))⟩

/-- Spin orbitals: `convert_tn_to_cn` computes the coefficients of `exp(T)`. -/
theorem C84_general_coefficients (hpath : PathOk path) (hT : Antisymmetric T) {n : Nat} (h1 : 1 ≤ n) (h4 : n ≤ 4)
    (vals : List Char → Option (NDArray R))
    (ht : ∀ k, 1 ≤ k → k ≤ n → vals (nameG 't' k) = some (ampArr sz T 1 (gAxes k))) :
    ∃ r, (toCoefsG n).call method path sz vals = .ok r ∧ r.get? (nameG 'c' n) = some (coefArr sz T (gAxes n)) := by
  have hv : ∀ name v, Dict.get? (argsToCoefsG n) name = some v → ∃ a, vals name = some a ∧ ArgRep sz (expTensor T) v a := by
    intro name v hv
    have hm := get?_mem84 hv
    simp only [argsToCoefsG, List.mem_map, List.mem_range'_1, Prod.mk.injEq] at hm
    obtain ⟨k, hk, rfl, rfl⟩ := hm
    exact ⟨_, ht k (by omega) (by omega), ampArg_rep_one T _ (gAxes_lt k)⟩
  obtain ⟨r, r1, r2⟩ := checkFun_sound (expSym_ok hT) (method := method) hpath hv (checkToCoefsG_ok n (mem_orders h1 h4))
  exact ⟨r, r1, r2 _ (List.mem_cons_self ..) _ (coefArg_rep sz T false (by simp) _ (gAxes_lt n))⟩

/-! ### Unrestricted functions -/

theorem combs84_ret : ∀ n ∈ [1, 2, 3, 4], ∀ s ∈ combs84 n, s ∈ retCombs (toAmpsU n) ∧ s ∈ retCombs (toCoefsU n) := by
  decide +kernel

theorem ret_keys84 : ∀ n ∈ [1, 2, 3, 4], (∀ p ∈ (toAmpsU n).ret, p.1.take 2 = ['t', orderChar n]) ∧
    ∀ p ∈ (toCoefsU n).ret, p.1.take 2 = ['c', orderChar n] := by
  decide +kernel

theorem spinWeight_dvd : ∀ n ∈ [1, 2, 3, 4], ∀ s ∈ combs84 n, spinWeight n s ∣ 24 ∧ spinWeight n s ≠ 0 := by
  decide +kernel

omit [DecidableEq R] in
theorem ampArg_rep_weight (T : List Orb → List Orb → R) {w : Nat} (hw : w ∣ 24) (h0 : w ≠ 0) (sp : List Nat)
    (hs : ∀ s ∈ sp, s < 16) : ArgRep sz (expTensor T) (ampArg (24 / w : Nat) 1 sp) (ampArr sz T (1 / (w : R)) sp) := by
  have := ampArg_rep sz T (24 / w : Nat) 1 sp hs
  have e : (tcoef ((24 / w : Nat) : Int) 1 : R) = 1 / (w : R) := by
    obtain ⟨c, hc⟩ := hw
    have hwR : (w : R) ≠ 0 := Nat.cast_ne_zero.2 h0
    have h24 : (24 : R) = w * c := by
      have := congrArg (Nat.cast (R := R)) hc
      simpa using this
    have hc0 : (c : R) ≠ 0 := by
      intro h
      rw [h, mul_zero] at h24
      norm_num at h24
    rw [show 24 / w = c by rw [hc]; exact Nat.mul_div_cancel_left c (Nat.pos_of_ne_zero h0)]
    simp only [tcoef, pow_one, Int.cast_natCast]
    rw [h24]
    field_simp
  rw [e] at this
  exact this

theorem unrestricted_amplitudes84 (hpath : PathOk path) (hT : Antisymmetric T) (hS : SpinConserving T) {n : Nat}
    (h1 : 1 ≤ n) (h4 : n ≤ 4) (vals : List Char → Option (NDArray R))
    (hc : ∀ s ∈ combs84 n, vals (convKey 'c' n s) = some (coefArr sz T (excSpaces (s.take n))))
    (ht : ∀ k, 1 ≤ k → k < n → ∀ s ∈ combs84 k, vals (convKey 't' k s) = some (ampArr sz T 1 (excSpaces (s.take k)))) :
    ∃ r, (toAmpsU n).call method path sz vals = .ok r ∧
      ∀ s ∈ combs84 n, r.get? (convKey 't' n s) = some (ampArr sz T 1 (excSpaces (s.take n))) := by
  have hv : ∀ name v, Dict.get? (argsToAmpsU n) name = some v → ∃ a, vals name = some a ∧ ArgRep sz (expTensor T) v a := by
    intro name v hv
    have hm := get?_mem84 hv
    simp only [argsToAmpsU, List.mem_append, List.mem_map, List.mem_flatMap, List.mem_range'_1, Prod.mk.injEq] at hm
    rcases hm with ⟨s, hs, rfl, rfl⟩ | ⟨k, hk, s, hs, rfl, rfl⟩
    · exact ⟨_, hc s hs, coefArg_rep sz T true (fun _ => hS) _ (excSpaces_lt _)⟩
    · exact ⟨_, ht k (by omega) (by omega) s hs, ampArg_rep_one T _ (excSpaces_lt _)⟩
  obtain ⟨r, r1, r2⟩ := checkFun_sound (expSym_ok hT) (method := method) hpath hv (checkToAmpsU_ok n (mem_orders h1 h4))
  refine ⟨r, r1, fun s hs => ?_⟩
  exact r2 _ (List.mem_map.2 ⟨s, (combs84_ret n (mem_orders h1 h4) s hs).1, rfl⟩) _
    (ampArg_rep_one T _ (excSpaces_lt _))

theorem unrestricted_coefficients84 (hpath : PathOk path) (hT : Antisymmetric T) (hS : SpinConserving T) {n : Nat}
    (h1 : 1 ≤ n) (h4 : n ≤ 4) (vals : List Char → Option (NDArray R))
    (ht : ∀ k, 1 ≤ k → k ≤ n → ∀ s ∈ combs84 k,
      vals (convKey 't' k s) = some (ampArr sz T (1 / (spinWeight k s : R)) (excSpaces (s.take k)))) :
    ∃ r, (toCoefsU n).call method path sz vals = .ok r ∧
      ∀ s ∈ combs84 n, r.get? (convKey 'c' n s) = some (coefArr sz T (excSpaces (s.take n))) := by
  have hv : ∀ name v, Dict.get? (argsToCoefsU n) name = some v → ∃ a, vals name = some a ∧ ArgRep sz (expTensor T) v a := by
    intro name v hv
    have hm := get?_mem84 hv
    simp only [argsToCoefsU, List.mem_map, List.mem_flatMap, List.mem_range'_1, Prod.mk.injEq] at hm
    obtain ⟨k, hk, s, hs, rfl, rfl⟩ := hm
    obtain ⟨w1, w2⟩ := spinWeight_dvd k (mem_orders (by omega) (by omega)) s hs
    exact ⟨_, ht k (by omega) (by omega) s hs, ampArg_rep_weight T w1 w2 _ (excSpaces_lt _)⟩
  obtain ⟨r, r1, r2⟩ := checkFun_sound (expSym_ok hT) (method := method) hpath hv (checkToCoefsU_ok n (mem_orders h1 h4))
  refine ⟨r, r1, fun s hs => ?_⟩
  exact r2 _ (List.mem_map.2 ⟨s, (combs84_ret n (mem_orders h1 h4) s hs).2, rfl⟩) _
    (coefArg_rep sz T true (fun _ => hS) _ (excSpaces_lt _))

/-! ### The chains -/

/-- The results of the orders up to `m` are there, with the values `F`, and none of higher orders. -/
def Converted (c : Char) (m : Nat) (F : Nat → List Char → NDArray R) (d : Dict (List Char) (NDArray R)) : Prop :=
  (∀ k, 1 ≤ k → k ≤ m → ∀ s ∈ combs84 k, d.get? (convKey c k s) = some (F k s)) ∧
  ∀ p ∈ d, ∃ k, 1 ≤ k ∧ k ≤ m ∧ p.1.take 2 = [c, orderChar k]

omit [CharZero R] [DecidableEq R] [Field R] in
theorem orderChar_inj : ∀ j ∈ [1, 2, 3, 4], ∀ k ∈ [1, 2, 3, 4], orderChar j = orderChar k → j = k := by decide

omit [CharZero R] [Field R] [DecidableEq R] in
theorem Converted.append {c : Char} {m : Nat} (hm : m + 1 ≤ 4) {F : Nat → List Char → NDArray R}
    {d r : Dict (List Char) (NDArray R)}
    (hd : Converted c m F d) (hk : ∀ p ∈ r, p.1.take 2 = [c, orderChar (m + 1)])
    (hr : ∀ s ∈ combs84 (m + 1), r.get? (convKey c (m + 1) s) = some (F (m + 1) s)) : Converted c (m + 1) F (d ++ r) := by
  refine ⟨fun k h1 h2 s hs => ?_, fun p hp => ?_⟩
  · rw [Dict.get?_append]
    by_cases hkm : k ≤ m
    · rw [hd.1 k h1 hkm s hs]; rfl
    · obtain rfl : k = m + 1 := by omega
      have : d.get? (convKey c (m + 1) s) = none := by
        cases hg : d.get? (convKey c (m + 1) s) with
        | none => rfl
        | some x =>
          obtain ⟨j, j1, j2, j3⟩ := hd.2 _ (get?_mem84 hg)
          simp only [convKey, List.take_succ_cons, List.take_zero, List.cons.injEq, and_true, true_and] at j3
          have := orderChar_inj (m + 1) (mem_orders (by omega) hm) j (mem_orders j1 (by omega)) j3
          omega
      rw [this, hr s hs]; rfl
  · rcases List.mem_append.1 hp with hp | hp
    · obtain ⟨k, k1, k2, k3⟩ := hd.2 p hp
      exact ⟨k, k1, by omega, k3⟩
    · exact ⟨m + 1, by omega, le_refl _, hk p hp⟩

omit [CharZero R] in
theorem call_keys84 {f : GenFun} {pre : List Char} (h : ∀ p ∈ f.ret, p.1.take 2 = pre)
    {vals : List Char → Option (NDArray R)} {r : Dict (List Char) (NDArray R)}
    (hr : f.call method path sz vals = .ok r) : ∀ p ∈ r, p.1.take 2 = pre := by
  intro p hp
  have := GenFun.call_keys hr
  have h1 : p.1 ∈ r.map Prod.fst := List.mem_map.2 ⟨p, hp, rfl⟩
  rw [this] at h1
  obtain ⟨q, hq, e⟩ := List.mem_map.1 h1
  rw [← e]
  exact h q hq

omit [CharZero R] in
/-- A chain of functions of the orders `m + 1`, .., `m + j`. -/
theorem chain84 {c : Char} {F : Nat → List Char → NDArray R} {src : List Char → Option (NDArray R)}
    (pre : Nat → List Char) (f : Nat → GenFun)
    (hf : ∀ n, 1 ≤ n → n ≤ 4 → ∀ p ∈ (f n).ret, p.1.take 2 = [c, orderChar n]) (bound : Nat) (hb : bound ≤ 4)
    (step : ∀ n, 1 ≤ n → n ≤ bound → ∀ d, Converted c (n - 1) F d →
      ∃ r, (f n).call method path sz (fun name => if name.take (pre n).length = pre n then src name else d.get? name) = .ok r ∧
        ∀ s ∈ combs84 n, r.get? (convKey c n s) = some (F n s))
    (j m : Nat) (hm : m + j ≤ bound) (d : Dict (List Char) (NDArray R)) (hd : Converted c m F d) :
    ∃ r, convertChain method path sz src ((List.range' (m + 1) j).map fun n => (pre n, f n)) d = .ok r ∧
      Converted c (m + j) F r := by
  induction j generalizing m d with
  | zero => exact ⟨d, rfl, hd⟩
  | succ j ih =>
    obtain ⟨r, r1, r2⟩ := step (m + 1) (by omega) (by omega) d hd
    have hd' := hd.append (by omega) (call_keys84 (hf (m + 1) (by omega) (by omega)) r1) r2
    obtain ⟨u, u1, u2⟩ := ih (m + 1) (by omega) (d ++ r) hd'
    refine ⟨u, ?_, by rw [show m + (j + 1) = m + 1 + j by omega]; exact u2⟩
    rw [List.range'_succ, List.map_cons, convertChain, r1]
    exact u1

omit [CharZero R] [DecidableEq R] [Field R] in
theorem convOrders_eq {m : Nat} (h1 : 1 ≤ m) (h4 : m ≤ 4) : convOrders m = List.range' (0 + 1) m := by
  interval_cases m <;> rfl

omit [CharZero R] [DecidableEq R] [Field R] in
theorem fciCombs_mem84 {m : Nat} {c : Nat × List Char} : c ∈ fciCombs m ↔ 1 ≤ c.1 ∧ c.1 ≤ m ∧ c.2 ∈ combs84 c.1 := by
  obtain ⟨n, s⟩ := c
  simp only [fciCombs, combs84, List.mem_flatMap, List.mem_range'_1, List.mem_map, Prod.mk.injEq]
  constructor
  · rintro ⟨k, hk, s', hs', rfl, rfl⟩
    exact ⟨by omega, by omega, hs'⟩
  · rintro ⟨a, b, h⟩
    exact ⟨n, by omega, s, h, rfl, rfl⟩

omit [CharZero R] [DecidableEq R] [Field R] in
theorem fciCombs_keys84 : ∀ m ∈ [1, 2, 3, 4], ((fciCombs m).map fun c => convKey 't' c.1 c.2).Nodup := by decide +kernel

omit [CharZero R] [DecidableEq R] in
/-- Division of distinct blocks. -/
theorem divide84 (l : List (Nat × List Char)) (hn : (l.map fun c => convKey 't' c.1 c.2).Nodup)
    (F : Nat × List Char → NDArray R) (d : Dict (List Char) (NDArray R))
    (hd : ∀ c ∈ l, d.get? (convKey 't' c.1 c.2) = some (F c)) :
    ∃ r, l.foldlM (m := Except PyErr) (fun amps c => do
        let x ← Dict.getItem amps (convKey 't' c.1 c.2)
        let w : Nat := ((c.2.take c.1).count 'a').factorial * ((c.2.take c.1).count 'b').factorial
        pure (Dict.set amps (convKey 't' c.1 c.2) (x.map fun v => v / (w : R)))) d = .ok r ∧
      (∀ c ∈ l, r.get? (convKey 't' c.1 c.2) = some ((F c).map fun v => v / (spinWeight c.1 c.2 : R))) ∧
      ∀ k, k ∉ l.map (fun c => convKey 't' c.1 c.2) → r.get? k = d.get? k := by
  induction l generalizing d with
  | nil => exact ⟨d, rfl, by simp, fun _ _ => rfl⟩
  | cons c l ih =>
    rw [List.map_cons, List.nodup_cons] at hn
    have h0 := hd c (List.mem_cons_self ..)
    have hne : ∀ c' ∈ l, convKey 't' c.1 c.2 ≠ convKey 't' c'.1 c'.2 := fun c' hc' e =>
      hn.1 (e ▸ List.mem_map.2 ⟨c', hc', rfl⟩)
    obtain ⟨r, r1, r2, r3⟩ := ih hn.2 (Dict.set d (convKey 't' c.1 c.2) ((F c).map fun v => v / (spinWeight c.1 c.2 : R)))
      (fun c' hc' => by
        rw [Dict.get?_set, if_neg (hne c' hc')]
        exact hd c' (List.mem_cons_of_mem _ hc'))
    refine ⟨r, ?_, ?_, ?_⟩
    · rw [List.foldlM_cons]
      simp only [Dict.getItem, h0, bind, Except.bind, pure, Except.pure]
      exact r1
    · intro c' hc'
      rcases List.mem_cons.1 hc' with rfl | hc'
      · rw [r3 _ hn.1, Dict.get?_set, if_pos rfl]
      · exact r2 c' hc'
    · intro k hk
      rw [List.map_cons, List.mem_cons, not_or] at hk
      rw [r3 k hk.2, Dict.get?_set, if_neg (fun e => hk.1 e.symm)]

omit [CharZero R] [DecidableEq R] in
theorem ampArr_div84 (T : List Orb → List Orb → R) (w : R) (sp : List Nat) :
    (ampArr sz T 1 sp).map (fun v => v / w) = ampArr sz T (1 / w) sp := by
  simp only [ampArr, NDArray.ofFn, NDArray.map, List.map_map]
  congr 1
  apply List.map_congr_left
  intro idx _
  simp [div_eq_mul_inv]

/-- The coefficients of `exp(T)` of the orders up to `m`, as `_coefficients_to_amplitudes_unrestricted` takes them. -/
def HasCoefficients (sz : Nat → Nat) (T : List Orb → List Orb → R) (m : Nat) (camps : Dict (List Char) (NDArray R)) : Prop :=
  ∀ n, 1 ≤ n → n ≤ m → ∀ s ∈ generateSpinCombinations n false true,
    camps.get? (convKey 'c' n s) = some (coefArr sz T (excSpaces (s.take n)))

/-- The amplitudes of the orders up to `m`; each block is divided by the factorials of the numbers of orbitals of spin
α and of spin β. -/
def HasAmplitudes (sz : Nat → Nat) (T : List Orb → List Orb → R) (m : Nat) (amps : Dict (List Char) (NDArray R)) : Prop :=
  ∀ n, 1 ≤ n → n ≤ m → ∀ s ∈ generateSpinCombinations n false true,
    amps.get? (convKey 't' n s) = some (ampArr sz T
      (1 / ((((s.take n).count 'a').factorial * ((s.take n).count 'b').factorial : Nat) : R)) (excSpaces (s.take n)))

/-- `_coefficients_to_amplitudes_unrestricted` takes the coefficients of `exp(T)` to the amplitudes `T`. -/
theorem C84_amplitudes (hpath : PathOk path) (hT : Antisymmetric T) (hS : SpinConserving T) {m : Nat} (h1 : 1 ≤ m)
    (h4 : m ≤ 4) {camps : Dict (List Char) (NDArray R)} (hc : HasCoefficients sz T m camps) :
    ∃ amps, coefficientsToAmplitudesU method path sz camps m = .ok amps ∧ HasAmplitudes sz T m amps := by
  obtain ⟨d, d1, d2⟩ := chain84 (method := method) (path := path) (sz := sz) (c := 't')
    (F := fun n s => ampArr sz T 1 (excSpaces (s.take n))) (src := camps.get?) (fun n => ['c', orderChar n]) toAmpsU
    (fun n a b => (ret_keys84 n (mem_orders a b)).1) m h4 (fun n a b d hd => by
      apply unrestricted_amplitudes84 hpath hT hS a (by omega)
      · intro s hs
        rw [if_pos (by simp [convKey])]
        exact hc n a b s hs
      · intro k k1 k2 s hs
        rw [if_neg (by simp [convKey])]
        exact hd.1 k k1 (by omega) s hs)
    m 0 (by omega) [] ⟨fun k a b => by omega, fun p hp => by cases hp⟩
  rw [Nat.zero_add] at d2
  obtain ⟨r, r1, r2, _⟩ := divide84 (fciCombs m) (fciCombs_keys84 m (mem_orders h1 h4))
    (fun c => ampArr sz T 1 (excSpaces (c.2.take c.1))) d
    (fun c hc' => by
      obtain ⟨a, b, e⟩ := fciCombs_mem84.1 hc'
      exact d2.1 c.1 a b c.2 e)
  refine ⟨r, ?_, fun n a b s hs => ?_⟩
  · unfold coefficientsToAmplitudesU
    rw [convOrders_eq h1 h4, d1]
    exact r1
  · have := r2 (n, s) (fciCombs_mem84.2 ⟨a, b, hs⟩)
    rw [ampArr_div84] at this
    exact this

/-- `_amplitudes_to_coefficients_unrestricted` computes the coefficients of `exp(T)`. -/
theorem C84_coefficients (hpath : PathOk path) (hT : Antisymmetric T) (hS : SpinConserving T) {m : Nat} (h1 : 1 ≤ m)
    (h4 : m ≤ 4) {amps : Dict (List Char) (NDArray R)} (ha : HasAmplitudes sz T m amps) :
    ∃ camps, amplitudesToCoefficientsU method path sz amps m = .ok camps ∧ HasCoefficients sz T m camps := by
  obtain ⟨d, d1, d2⟩ := chain84 (method := method) (path := path) (sz := sz) (c := 'c')
    (F := fun n s => coefArr sz T (excSpaces (s.take n))) (src := amps.get?) (fun _ => []) toCoefsU
    (fun n a b => (ret_keys84 n (mem_orders a b)).2) m h4 (fun n a b d hd => by
      apply unrestricted_coefficients84 hpath hT hS a (by omega)
      intro k k1 k2 s hs
      rw [if_pos (by simp)]
      exact ha k k1 (by omega) s hs)
    m 0 (by omega) [] ⟨fun k a b => by omega, fun p hp => by cases hp⟩
  rw [Nat.zero_add] at d2
  refine ⟨d, ?_, d2.1⟩
  unfold amplitudesToCoefficientsU
  rw [convOrders_eq h1 h4]
  exact d1

/-- Amplitudes are recovered from the coefficients, and coefficients of `exp(T)` from the amplitudes. -/
theorem C84_roundtrip (hpath : PathOk path) (hT : Antisymmetric T) (hS : SpinConserving T) {m : Nat} (h1 : 1 ≤ m)
    (h4 : m ≤ 4) {amps camps : Dict (List Char) (NDArray R)} (ha : HasAmplitudes sz T m amps)
    (hc : HasCoefficients sz T m camps) :
    (∃ c a, amplitudesToCoefficientsU method path sz amps m = .ok c ∧ coefficientsToAmplitudesU method path sz c m = .ok a ∧
      ∀ x ∈ fciCombs m, a.get? (convKey 't' x.1 x.2) = amps.get? (convKey 't' x.1 x.2)) ∧
    (∃ a c, coefficientsToAmplitudesU method path sz camps m = .ok a ∧ amplitudesToCoefficientsU method path sz a m = .ok c ∧
      ∀ x ∈ fciCombs m, c.get? (convKey 'c' x.1 x.2) = camps.get? (convKey 'c' x.1 x.2)) := by
  obtain ⟨c, c1, c2⟩ := C84_coefficients (method := method) hpath hT hS h1 h4 ha
  obtain ⟨a, a1, a2⟩ := C84_amplitudes (method := method) hpath hT hS h1 h4 c2
  obtain ⟨a', a1', a2'⟩ := C84_amplitudes (method := method) hpath hT hS h1 h4 hc
  obtain ⟨c', c1', c2'⟩ := C84_coefficients (method := method) hpath hT hS h1 h4 a2'
  refine ⟨⟨c, a, c1, a1, fun x hx => ?_⟩, ⟨a', c', a1', c1', fun x hx => ?_⟩⟩ <;>
    obtain ⟨x1, x2, x3⟩ := fciCombs_mem84.1 hx
  · rw [a2 x.1 x1 x2 x.2 x3, ha x.1 x1 x2 x.2 x3]
  · rw [c2' x.1 x1 x2 x.2 x3, hc x.1 x1 x2 x.2 x3]

omit [CharZero R] [DecidableEq R] in
theorem splitAxes_length84 {s : List Char} {idx : List Nat} (h : idx.length = (excSpaces s).length) :
    (splitAxes (excSpaces s) idx).1.length = s.length ∧ (splitAxes (excSpaces s) idx).2.length = s.length := by
  have : (excSpaces s).length = s.length + s.length := by simp [excSpaces]
  simp only [splitAxes, List.length_take, List.length_drop, List.length_zip, h, this]
  omega

omit [CharZero R] [DecidableEq R] in
/-- The coefficients of `exp` of the logarithm. -/
theorem coefArr_logAmps84 (C : List Orb → List Orb → R) {m : Nat} {s : List Char} (h0 : s ≠ []) (hs : s.length ≤ m) :
    coefArr sz (logAmps C m) (excSpaces s) = ampArr sz C 1 (excSpaces s) := by
  simp only [coefArr, ampArr, NDArray.ofFn]
  congr 1
  apply List.map_congr_left
  intro idx hidx
  have hl := (mem_box.1 hidx).length_eq
  obtain ⟨e1, e2⟩ := splitAxes_length84 (s := s) (idx := idx) (by simpa using hl)
  rw [mul_one]
  refine expCoeff_logAmps C m _ _ ?_ (by omega) (by omega)
  intro e
  rw [e] at e1
  exact h0 (List.length_eq_zero_iff.1 e1.symm)

omit [CharZero R] [DecidableEq R] [Field R] in
theorem combs84_ne : ∀ n ∈ [1, 2, 3, 4], ∀ s ∈ combs84 n, s.take n ≠ [] ∧ (s.take n).length = n := by decide +kernel

/-- For all coefficients, not only for those known to belong to some amplitudes: converted to amplitudes and back they are
unchanged, and there are amplitudes which are the result of the conversion. -/
theorem C84_inverse (hpath : PathOk path) {C : List Orb → List Orb → R} (hC : Antisymmetric C) (hS : SpinConserving C)
    {m : Nat} (h1 : 1 ≤ m) (h4 : m ≤ 4) {camps : Dict (List Char) (NDArray R)}
    (hc : ∀ x ∈ fciCombs m, camps.get? (convKey 'c' x.1 x.2) = some (ampArr sz C 1 (excSpaces (x.2.take x.1)))) :
    ∃ T a c, Antisymmetric T ∧ SpinConserving T ∧ coefficientsToAmplitudesU method path sz camps m = .ok a ∧
      HasAmplitudes sz T m a ∧ amplitudesToCoefficientsU method path sz a m = .ok c ∧
      ∀ x ∈ fciCombs m, c.get? (convKey 'c' x.1 x.2) = camps.get? (convKey 'c' x.1 x.2) := by
  have e : ∀ n, 1 ≤ n → n ≤ m → ∀ s ∈ combs84 n,
      coefArr sz (logAmps C m) (excSpaces (s.take n)) = ampArr sz C 1 (excSpaces (s.take n)) := by
    intro n a b s hs
    obtain ⟨c1, c2⟩ := combs84_ne n (mem_orders a (by omega)) s hs
    exact coefArr_logAmps84 C c1 (by omega)
  have hT := logAmps_antisymmetric hC m
  have hT' := logAmps_spin hS m
  have hc' : HasCoefficients sz (logAmps C m) m camps := by
    intro n a b s hs
    rw [e n a b s hs]
    exact hc (n, s) (fciCombs_mem84.2 ⟨a, b, hs⟩)
  obtain ⟨a, a1, a2⟩ := C84_amplitudes (method := method) hpath hT hT' h1 h4 hc'
  obtain ⟨c, c1, c2⟩ := C84_coefficients (method := method) hpath hT hT' h1 h4 a2
  refine ⟨_, a, c, hT, hT', a1, a2, c1, fun x hx => ?_⟩
  obtain ⟨x1, x2, x3⟩ := fciCombs_mem84.1 hx
  rw [c2 x.1 x1 x2 x.2 x3, hc' x.1 x1 x2 x.2 x3]

/-! ### Concrete cases -/

/-- The coefficients as a dictionary. -/
def coefDict84 (sz : Nat → Nat) (T : List Orb → List Orb → R) (m : Nat) : Dict (List Char) (NDArray R) :=
  (fciCombs m).map fun c => (convKey 'c' c.1 c.2, coefArr sz T (excSpaces (c.2.take c.1)))

omit [CharZero R] [DecidableEq R] [Field R] in
theorem get?_map84 {α : Type} (l : List α) (k : α → List Char) (F : α → NDArray R) (hk : ∀ x ∈ l, ∀ y ∈ l, k x = k y → x = y)
    {x : α} (hx : x ∈ l) : Dict.get? (l.map fun c => (k c, F c)) (k x) = some (F x) := by
  induction l with
  | nil => cases hx
  | cons y l ih =>
    simp only [List.map_cons, Dict.get?]
    by_cases h : k y = k x
    · rw [if_pos h, hk y (List.mem_cons_self ..) x hx h]
    · rw [if_neg h]
      rcases List.mem_cons.1 hx with rfl | hx
      · exact absurd rfl h
      · exact ih (fun a ha b hb => hk a (List.mem_cons_of_mem _ ha) b (List.mem_cons_of_mem _ hb)) hx

omit [CharZero R] [DecidableEq R] in
/-- Non-vacuity: there are such coefficients for all amplitudes. -/
theorem coefDict84_has (T : List Orb → List Orb → R) {m : Nat} (h4 : m ≤ 4) : HasCoefficients sz T m (coefDict84 sz T m) := by
  intro n a b s hs
  refine get?_map84 (fciCombs m) (fun c => convKey 'c' c.1 c.2) (fun c => coefArr sz T (excSpaces (c.2.take c.1))) ?_
    (x := (n, s)) (fciCombs_mem84.2 ⟨a, b, hs⟩)
  intro x hx y hy h
  obtain ⟨x1, x2, _⟩ := fciCombs_mem84.1 hx
  obtain ⟨y1, y2, _⟩ := fciCombs_mem84.1 hy
  simp only [convKey, List.cons.injEq, true_and] at h
  exact Prod.ext (orderChar_inj x.1 (mem_orders x1 (by omega)) y.1 (mem_orders y1 (by omega)) h.1) h.2

end

/-- An antisymmetric function of one or two orbitals. -/
def exFac84 : List Orb → ℚ
  | [i] => i.2 + 1
  | [i, j] => 3 * ((i.1 : ℚ) - j.1) + (i.2 - j.2)
  | _ => 0

theorem exFac84_anti (I J : List Orb) (x y : Orb) : exFac84 (I ++ x :: y :: J) = -exFac84 (I ++ y :: x :: J) := by
  match I, J with
  | [], [] => simp only [List.nil_append, exFac84]; ring
  | [], _ :: _ => simp [exFac84]
  | [_], _ => simp [exFac84]
  | _ :: _ :: _, _ => simp [exFac84]

/-- Amplitudes for singles and doubles. -/
def exAmp84 (I A : List Orb) : ℚ :=
  if betas I = betas A ∧ I.length = A.length then exFac84 I * exFac84 A else 0

theorem exAmp84_anti : Antisymmetric exAmp84 := by
  have hb : ∀ (I J : List Orb) (x y : Orb), betas (I ++ x :: y :: J) = betas (I ++ y :: x :: J) := by
    intro I J x y
    simp only [betas, List.countP_append, List.countP_cons]
    omega
  have hl : ∀ (I J : List Orb) (x y : Orb), (I ++ x :: y :: J).length = (I ++ y :: x :: J).length := by simp
  refine ⟨fun I J x y A => ?_, fun I A B x y => ?_⟩ <;> unfold exAmp84
  · rw [hb, hl, exFac84_anti]
    split <;> ring
  · rw [hb, hl, exFac84_anti]
    split <;> ring

theorem exAmp84_spin : SpinConserving exAmp84 := by
  intro I A h
  unfold exAmp84
  rw [if_neg (fun e => h e.1)]

/-- Non-vacuity: two electrons of different spin, and two of equal spin. -/
example : expCoeff exAmp84 [(0, 0), (4, 1)] [(1, 2), (5, 0)] = 136 ∧
    expCoeff exAmp84 [(0, 0), (0, 1)] [(1, 2), (1, 0)] = -2 ∧
    expCoeff exAmp84 [(0, 0), (4, 0), (0, 1)] [(1, 0), (5, 1), (1, 2)] ≠ 0 := by
  decide +kernel

/-- Non-vacuity: the conversions of these coefficients, and back. -/
example : ∃ a c, coefficientsToAmplitudesU .backend onePath (fun _ => 3) (coefDict84 (fun _ => 3) exAmp84 4) 4 = .ok a ∧
    amplitudesToCoefficientsU .backend onePath (fun _ => 3) a 4 = .ok c ∧ HasAmplitudes (fun _ => 3) exAmp84 4 a ∧
    HasCoefficients (fun _ => 3) exAmp84 4 c := by
  obtain ⟨a, a1, a2⟩ := C84_amplitudes (method := .backend) onePath_ok exAmp84_anti exAmp84_spin (m := 4) (by decide)
    (by decide) (coefDict84_has exAmp84 (le_refl 4))
  obtain ⟨c, c1, c2⟩ := C84_coefficients (method := .backend) onePath_ok exAmp84_anti exAmp84_spin (m := 4) (by decide)
    (by decide) a2
  exact ⟨a, c, a1, c1, a2, c2⟩

end Ebcc
