import Verif.Lemmas.CoeffArray
import Verif.Model.FciAmps
import Verif.Thms.C84
/-!
C85: CI vectors and cluster amplitudes (`ext/fci.py`), converted in both directions.
-/

namespace Ebcc

section
variable {R : Type} [Field R]

theorem fciSizes_ok (size : Char → Char → Nat) : SizesOk (fciSizes size) size := by
  simp [SizesOk, fciSizes]

/-- The arrays of a function of the blocks as a table by the numbers of spins. -/
def blkOf (m : Nat) (X : Nat × List Char → NDArray R) (na nb : Nat) : Option (List Char × NDArray R) :=
  ((fciCombs m).find? fun c => decide ((c.2.take c.1).count 'a' = na ∧ (c.2.take c.1).count 'b' = nb)).map
    fun c => (c.2.take c.1, X c)

omit [Field R] in
theorem fciCombs_counts85 : ∀ m ∈ [1, 2, 3, 4], ∀ c ∈ fciCombs m, ((fciCombs m).find? fun c' =>
    decide ((c'.2.take c'.1).count 'a' = (c.2.take c.1).count 'a' ∧ (c'.2.take c'.1).count 'b' = (c.2.take c.1).count 'b'))
      = some c ∧ c.2.length / 2 = c.1 := by decide +kernel

omit [Field R] in
theorem blkOf_self {m : Nat} (h1 : 1 ≤ m) (h4 : m ≤ 4) (X : Nat × List Char → NDArray R) {c : Nat × List Char}
    (hc : c ∈ fciCombs m) :
    blkOf m X ((c.2.take c.1).count 'a') ((c.2.take c.1).count 'b') = some (c.2.take c.1, X c) := by
  unfold blkOf
  rw [(fciCombs_counts85 m (mem_orders h1 h4) c hc).1]
  rfl

theorem blkOf_ok {size : Char → Char → Nat} {m : Nat} (h4 : m ≤ 4) (X : Nat × List Char → NDArray R)
    (hX : ∀ c ∈ fciCombs m, IsCoefficient size (c.2.take c.1) (X c)) : BlocksOk size (blkOf m X) := by
  intro na nb s x h
  unfold blkOf at h
  cases hf : (fciCombs m).find? fun c => decide ((c.2.take c.1).count 'a' = na ∧ (c.2.take c.1).count 'b' = nb) with
  | none => rw [hf] at h; cases h
  | some c =>
    rw [hf] at h
    simp only [Option.map_some, Option.some.injEq, Prod.mk.injEq] at h
    obtain ⟨rfl, rfl⟩ := h
    have hm := List.mem_of_find?_eq_some hf
    have hp := List.find?_some hf
    simp only [decide_eq_true_eq] at hp
    exact ⟨hp.1, hp.2, (fciCombs_spins h4 c hm).2, hX c hm⟩

theorem IsCoefficient.scale {size : Char → Char → Nat} {s : List Char} {x : NDArray R} (h : IsCoefficient size s x) (w : R) :
    IsCoefficient size s (x.map fun v => v * w) := by
  refine ⟨?_, h.shape, ?_⟩
  · have := h.wf
    simpa [NDArray.WF, NDArray.map] using this
  · intro i j c hij hi hj idx hidx
    rw [map_get _ _ (by simp), map_get _ _ (by simp), h.antisymmetric i j c hij hi hj idx hidx, mul_assoc]


/-! ### The names of the blocks -/

omit [Field R] in
theorem get?_mapKey85 (k : List Char → List Char) (hk : ∀ a b, k a = k b → a = b) (d : Dict (List Char) (NDArray R))
    (y : List Char) : Dict.get? (d.map fun p => (k p.1, p.2)) (k y) = d.get? y := by
  induction d with
  | nil => rfl
  | cons p d ih =>
    obtain ⟨a, b⟩ := p
    simp only [List.map_cons, Dict.get?]
    by_cases h : a = y
    · rw [if_pos h, if_pos (by rw [h])]
    · rw [if_neg h, if_neg (fun e => h (hk _ _ e)), ih]

omit [Field R] in
theorem nameBlocks_get85 {m : Nat} (h1 : 1 ≤ m) (h4 : m ≤ 4) (d : Dict (List Char) (NDArray R)) {c : Nat × List Char}
    (hc : c ∈ fciCombs m) : (nameBlocks d).get? (convKey 'c' c.1 c.2) = d.get? c.2 := by
  have e : convKey 'c' c.1 c.2 = convKey 'c' (c.2.length / 2) c.2 := by
    rw [(fciCombs_counts85 m (mem_orders h1 h4) c hc).2]
  rw [e]
  refine get?_mapKey85 (fun l => convKey 'c' (l.length / 2) l) (fun a b h => ?_) d c.2
  simp only [convKey, List.cons.injEq, true_and] at h
  exact h.2

omit [Field R] in
theorem get?_filterMap85 (l : List (Nat × List Char)) (hn : (l.map (·.2)).Nodup) (g : Nat × List Char → Option (NDArray R))
    {c : Nat × List Char} (hc : c ∈ l) : Dict.get? (l.filterMap fun c => (g c).map fun x => (c.2, x)) c.2 = g c := by
  induction l with
  | nil => cases hc
  | cons a l ih =>
    rw [List.map_cons, List.nodup_cons] at hn
    have hne : ∀ c' ∈ l, a.2 ≠ c'.2 := fun c' hc' e => hn.1 (e ▸ List.mem_map_of_mem hc')
    rcases List.mem_cons.1 hc with rfl | hc
    · cases hg : g c with
      | none =>
        rw [List.filterMap_cons_none (by rw [hg]; rfl)]
        cases hr : Dict.get? (l.filterMap fun c => (g c).map fun x => (c.2, x)) c.2 with
        | none => rfl
        | some v =>
          have := get?_mem84 hr
          rw [List.mem_filterMap] at this
          obtain ⟨c', h1, h2⟩ := this
          cases hg' : g c' with
          | none => rw [hg'] at h2; cases h2
          | some y =>
            rw [hg'] at h2
            simp only [Option.map_some, Option.some.injEq, Prod.mk.injEq] at h2
            exact absurd h2.1.symm (hne c' h1)
      | some x =>
        rw [List.filterMap_cons_some (b := (c.2, x)) (by rw [hg]; rfl)]
        simp [Dict.get?]
    · cases hg : g a with
      | none =>
        rw [List.filterMap_cons_none (by rw [hg]; rfl)]
        exact ih hn.2 hc
      | some x =>
        rw [List.filterMap_cons_some (b := (a.2, x)) (by rw [hg]; rfl)]
        simp only [Dict.get?]
        rw [if_neg (hne c hc)]
        exact ih hn.2 hc

omit [Field R] in
theorem blocksBySpins_eq85 {m : Nat} (h4 : m ≤ 4) (d : Dict (List Char) (NDArray R)) {c : Nat × List Char}
    (hc : c ∈ fciCombs m) : (blocksBySpins d m).get? c.2 = d.get? (convKey 'c' c.1 c.2) :=
  get?_filterMap85 (fciCombs m) (fciCombs_keys h4) (fun c => d.get? (convKey 'c' c.1 c.2)) hc

theorem mapM_congr85 {α β : Type} {f g : α → Except PyErr β} (l : List α) (h : ∀ x ∈ l, f x = g x) : l.mapM f = l.mapM g := by
  induction l with
  | nil => rfl
  | cons x l ih =>
    rw [List.mapM_cons, List.mapM_cons, h x (List.mem_cons_self ..), ih fun y hy => h y (List.mem_cons_of_mem _ hy)]

theorem fciVectorU_congr85 {norm : NDArray R → R} {A B : CIAddresses} {size : Char → Char → Nat}
    {d d' : Dict (List Char) (NDArray R)} {m : Nat} {normalise : Bool} (h : ∀ c ∈ fciCombs m, d.get? c.2 = d'.get? c.2) :
    fciVectorU norm A B size d m normalise = fciVectorU norm A B size d' m normalise := by
  unfold fciVectorU
  rw [mapM_congr85 (fciCombs m) (g := fun c => do
    let x ← d'.getItem c.2
    fciPack A B size (c.2.take c.1) x) fun c hc => by simp only [Dict.getItem, h c hc]]

variable [CharZero R] [DecidableEq R] {method : ContractMethod}
  {path : List (List Char) → List Char → List (NDArray R) → List Contraction}

omit [CharZero R] [DecidableEq R] in
theorem factorials_ne85 [CharZero R] (s : List Char) : ((((s.count 'a').factorial * (s.count 'b').factorial : Nat) : R)) ≠ 0 := by
  rw [Nat.cast_ne_zero]
  exact Nat.mul_ne_zero (Nat.factorial_ne_zero _) (Nat.factorial_ne_zero _)

omit [DecidableEq R] in
/-- Arrays of amplitudes belong to amplitudes of spin orbitals. -/
theorem exists_amplitudes85 {size : Char → Char → Nat} {m : Nat} (h1 : 1 ≤ m) (h4 : m ≤ 4)
    {amps : Dict (List Char) (NDArray R)}
    (ha : ∀ c ∈ fciCombs m, ∃ x, amps.get? (convKey 't' c.1 c.2) = some x ∧ IsCoefficient size (c.2.take c.1) x) :
    ∃ T, Antisymmetric T ∧ SpinConserving T ∧ HasAmplitudes (fciSizes size) T m amps := by
  have hex : ∀ c : Nat × List Char, ∃ x : NDArray R, c ∈ fciCombs m →
      amps.get? (convKey 't' c.1 c.2) = some x ∧ IsCoefficient size (c.2.take c.1) x := by
    intro c
    by_cases hc : c ∈ fciCombs m
    · obtain ⟨x, hx⟩ := ha c hc
      exact ⟨x, fun _ => hx⟩
    · exact ⟨⟨[], []⟩, fun h => absurd h hc⟩
  choose X hX using hex
  let w : Nat × List Char → R := fun c => ((((c.2.take c.1).count 'a').factorial * ((c.2.take c.1).count 'b').factorial : Nat) : R)
  let Y : Nat × List Char → NDArray R := fun c => (X c).map fun v => v * w c
  have hY := blkOf_ok h4 Y (fun c hc => (hX c hc).2.scale (w c))
  refine ⟨arrFun (fciSizes size) (blkOf m Y), arrFun_antisymmetric (fciSizes_ok size) hY, arrFun_spin _ _, ?_⟩
  intro n a b s hs
  have hc : (n, s) ∈ fciCombs m := fciCombs_mem84.2 ⟨a, b, hs⟩
  rw [(hX (n, s) hc).1, ← ampArr_div84, ampArr_arrFun (fciSizes_ok size) hY (blkOf_self h1 h4 Y hc)]
  congr 1
  simp only [Y, NDArray.map, List.map_map]
  have : ((fun v => v / w (n, s)) ∘ fun v => v * w (n, s)) = id := by
    funext v
    exact mul_div_cancel_right₀ v (factorials_ne85 (s.take n))
  show X (n, s) = ⟨(X (n, s)).shape, ((X (n, s)).data.map ((fun v => v / w (n, s)) ∘ fun v => v * w (n, s)))⟩
  rw [this, List.map_id]

/-- C85, partially, one direction: amplitudes converted to a CI vector and back are unchanged, up to second order for all
sizes, up to fourth order if both spins have the same numbers of occupied and virtual orbitals.  Missing: third and fourth
order for different sizes, where the claim is false (`C85_fails`). -/
theorem C85_amplitudes_partial (hpath : PathOk path) {A B : CIAddresses} {size : Char → Char → Nat}
    (hA : A.Valid (size 'a' 'O') (size 'a' 'V')) (hB : B.Valid (size 'b' 'O') (size 'b' 'V')) {m : Nat} (h1 : 1 ≤ m)
    (h4 : m ≤ 4) (hsz : m ≤ 2 ∨ ∀ k, size 'a' k = size 'b' k) (amps : Dict (List Char) (NDArray R))
    (ha : ∀ c ∈ fciCombs m, ∃ x, amps.get? (convKey 't' c.1 c.2) = some x ∧ IsCoefficient size (c.2.take c.1) x)
    (norm : NDArray R → R) (hnorm : ∀ x : NDArray R, x.get [0, 0] = 1 → norm x ≠ 0) (normalise : Bool) :
    ∃ ci amps', amplitudesToCiU method path norm A B size amps m normalise = .ok ci ∧
      ciToAmplitudesU method path ci A B size m = .ok amps' ∧
      ∀ c ∈ fciCombs m, amps'.get? (convKey 't' c.1 c.2) = amps.get? (convKey 't' c.1 c.2) := by
  obtain ⟨T, hT, hS, hH⟩ := exists_amplitudes85 h1 h4 ha
  obtain ⟨camps, c1, c2⟩ := C84_coefficients (method := method) hpath hT hS h1 h4 hH
  have hbs : ∀ c ∈ fciCombs m, (blocksBySpins camps m).get? c.2
      = some (coefArr (fciSizes size) T (excSpaces (c.2.take c.1))) := by
    intro c hc
    obtain ⟨x1, x2, x3⟩ := fciCombs_mem84.1 hc
    rw [blocksBySpins_eq85 h4 camps hc]
    exact c2 c.1 x1 x2 c.2 x3
  obtain ⟨ci, d, d1, d2, d3, d4⟩ := C59_roundtrip_partial two_ne85 hA hB h1 h4 hsz (blocksBySpins camps m)
    (fun c hc => ⟨_, hbs c hc, isCoefficient_ofFn (fciSizes_ok size) (expCoeff_antisymmetric hT) (fciCombs_spins h4 c hc).2⟩)
    norm hnorm normalise
  have hd : HasCoefficients (fciSizes size) T m (nameBlocks d) := by
    intro n a b s hs
    have hc : (n, s) ∈ fciCombs m := fciCombs_mem84.2 ⟨a, b, hs⟩
    rw [nameBlocks_get85 h1 h4 d hc, d4 s (by rw [d3]; exact List.mem_map_of_mem hc)]
    exact hbs (n, s) hc
  obtain ⟨amps', a1, a2⟩ := C84_amplitudes (method := method) hpath hT hS h1 h4 hd
  refine ⟨ci, amps', ?_, ?_, ?_⟩
  · unfold amplitudesToCiU
    rw [if_neg (by omega), c1]
    exact d1
  · unfold ciToAmplitudesU
    rw [d2]
    exact a1
  · intro c hc
    obtain ⟨x1, x2, x3⟩ := fciCombs_mem84.1 hc
    rw [a2 c.1 x1 x2 c.2 x3, hH c.1 x1 x2 c.2 x3]
where
  two_ne85 : ∀ x : R, x + x = 0 → x = 0 := by
    intro x hx
    have : (2 : R) * x = 0 := by rw [two_mul]; exact hx
    exact (mul_eq_zero.1 this).resolve_left two_ne_zero

/-- C85, partially, the other direction: for every CI vector, the amplitudes obtained from it give the CI vector in
intermediate normalisation, at the addresses of the orders taken, and zero elsewhere. -/
theorem C85_vector_partial (hpath : PathOk path) {A B : CIAddresses} {size : Char → Char → Nat}
    (hA : A.Valid (size 'a' 'O') (size 'a' 'V')) (hB : B.Valid (size 'b' 'O') (size 'b' 'V')) {m : Nat} (h1 : 1 ≤ m)
    (h4 : m ≤ 4) (hsz : m ≤ 2 ∨ ∀ k, size 'a' k = size 'b' k) (ci : NDArray R)
    (hin : ∀ c ∈ fciCombs m, BlockInside A B ((c.2.take c.1).count 'a') ((c.2.take c.1).count 'b') ci)
    (norm : NDArray R → R) :
    ∃ amps ci', ciToAmplitudesU method path ci A B size m = .ok amps ∧
      (∀ c ∈ fciCombs m, ∃ x, amps.get? (convKey 't' c.1 c.2) = some x ∧ IsCoefficient size (c.2.take c.1) x) ∧
      amplitudesToCiU method path norm A B size amps m false = .ok ci' ∧ ci'.get [0, 0] = 1 ∧
      (∀ c ∈ fciCombs m, ∀ p ∈ A.at ((c.2.take c.1).count 'a'), ∀ q ∈ B.at ((c.2.take c.1).count 'b'),
        ci'.get [p, q] = ci.get [p, q] / ci.get [0, 0]) ∧
      ∀ idx, InBox ci'.shape idx → idx ≠ [0, 0] →
        (∀ c ∈ fciCombs m, idx ∉ prodL [A.at ((c.2.take c.1).count 'a'), B.at ((c.2.take c.1).count 'b')]) →
        ci'.get idx = 0 := by
  obtain ⟨d, ci', e1, e2, e3, e4, e5, e6⟩ := C59_inverse_partial hA hB h1 h4 hsz ci hin norm
  have hex : ∀ c : Nat × List Char, ∃ x : NDArray R, c ∈ fciCombs m →
      d.get? c.2 = some x ∧ IsCoefficient size (c.2.take c.1) x := by
    intro c
    by_cases hc : c ∈ fciCombs m
    · obtain ⟨x, hx⟩ := e4 c hc
      exact ⟨x, fun _ => hx⟩
    · exact ⟨⟨[], []⟩, fun h => absurd h hc⟩
  choose X hX using hex
  have hY := blkOf_ok h4 X (fun c hc => (hX c hc).2)
  have hC := arrFun_antisymmetric (fciSizes_ok size) hY
  obtain ⟨T, a, c, hT, hS, a1, a2, c1, c2⟩ := C84_inverse (method := method) (sz := fciSizes size) hpath hC
    (arrFun_spin _ _) h1 h4 (camps := nameBlocks d) (fun x hx => by
      rw [ampArr_arrFun (fciSizes_ok size) hY (blkOf_self h1 h4 X hx)]
      rw [nameBlocks_get85 h1 h4 d hx, (hX x hx).1])
  refine ⟨a, ci', ?_, ?_, ?_, e3, e5, e6⟩
  · unfold ciToAmplitudesU
    rw [e1]
    exact a1
  · intro x hx
    obtain ⟨x1, x2, x3⟩ := fciCombs_mem84.1 hx
    refine ⟨_, a2 x.1 x1 x2 x.2 x3, ?_⟩
    rw [← ampArr_div84]
    have h0 := isCoefficient_ofFn (fciSizes_ok size) hT (fciCombs_spins h4 x hx).2
    have h2 : ampArr (fciSizes size) T 1 (excSpaces (x.2.take x.1)) = NDArray.ofFn ((excSpaces (x.2.take x.1)).map (fciSizes size))
        fun idx => T (splitAxes (excSpaces (x.2.take x.1)) idx).1 (splitAxes (excSpaces (x.2.take x.1)) idx).2 := by
      simp only [ampArr, mul_one]
    rw [h2]
    have h3 := h0.scale (((((x.2.take x.1).count 'a').factorial * ((x.2.take x.1).count 'b').factorial : Nat) : R)⁻¹)
    simpa only [div_eq_mul_inv] using h3
  · unfold amplitudesToCiU
    rw [if_neg (by omega), c1]
    show fciVectorU norm A B size (blocksBySpins c m) m false = _
    rw [← e2]
    apply fciVectorU_congr85
    intro x hx
    rw [blocksBySpins_eq85 h4 c hx, c2 x hx, nameBlocks_get85 h1 h4 d hx]

/-! ### Different sizes -/

omit [CharZero R] [DecidableEq R] in
theorem expCoeff_zero85 (I A : List Orb) (h : I ≠ []) : expCoeff (fun _ _ => (0 : R)) I A = 0 := by
  cases I with
  | nil => exact absurd rfl h
  | cons i I =>
    rw [expCoeff_cons]
    simp only [zero_mul, ite_self, pickSum_zero]

/-- Zero amplitudes. -/
def zeroAmps85 (size : Char → Char → Nat) (m : Nat) : Dict (List Char) (NDArray R) :=
  (fciCombs m).map fun c => (convKey 't' c.1 c.2, NDArray.zeros (excSpaces (c.2.take c.1) |>.map (fciSizes size)))

omit [CharZero R] [DecidableEq R] in
theorem zeroAmps85_has (size : Char → Char → Nat) {m : Nat} (h4 : m ≤ 4) :
    HasAmplitudes (fciSizes size) (fun _ _ => (0 : R)) m (zeroAmps85 size m) := by
  intro n a b s hs
  have e : ampArr (fciSizes size) (fun _ _ => (0 : R))
      (1 / ((((s.take n).count 'a').factorial * ((s.take n).count 'b').factorial : Nat) : R)) (excSpaces (s.take n))
      = NDArray.zeros ((excSpaces (s.take n)).map (fciSizes size)) := by
    refine NDArray.ext_get (NDArray.ofFn_wf _ _) (NDArray.ofFn_wf _ _) rfl fun idx hidx => ?_
    have h : InBox ((excSpaces (s.take n)).map (fciSizes size)) idx := hidx
    rw [ampArr, NDArray.get_ofFn _ _ h, zeros_get, zero_mul]
  rw [e]
  refine get?_map84 (fciCombs m) (fun c => convKey 't' c.1 c.2)
    (fun c => NDArray.zeros ((excSpaces (c.2.take c.1)).map (fciSizes size))) ?_
    (x := (n, s)) (fciCombs_mem84.2 ⟨a, b, hs⟩)
  intro x hx y hy h
  obtain ⟨x1, x2, _⟩ := fciCombs_mem84.1 hx
  obtain ⟨y1, y2, _⟩ := fciCombs_mem84.1 hy
  simp only [convKey, List.cons.injEq, true_and] at h
  exact Prod.ext (orderChar_inj x.1 (mem_orders x1 (by omega)) y.1 (mem_orders y1 (by omega)) h.1) h.2

end

/-- C85 fails at fourth order when the spins have different sizes: the CI vector of zero amplitudes cannot be converted
back. -/
theorem C85_fails {method : ContractMethod} {path : List (List Char) → List Char → List (NDArray Rat) → List Contraction}
    (hpath : PathOk path) : ∃ ci,
    amplitudesToCiU method path (fun _ => 1) (oneElectron 1) (oneElectron 2) size59 (zeroAmps85 size59 4) 4 false = .ok ci ∧
    ciToAmplitudesU method path ci (oneElectron 1) (oneElectron 2) size59 4 = .error .assertionError := by
  obtain ⟨f1, f2⟩ := C59_fails_fourth
  obtain ⟨camps, c1, c2⟩ := C84_coefficients (method := method) (path := path) (sz := fciSizes size59)
    (T := fun _ _ => (0 : Rat)) hpath ⟨fun _ _ _ _ _ => by simp, fun _ _ _ _ _ => by simp⟩ (fun _ _ _ => rfl)
    (by omega) (le_refl 4) (zeroAmps85_has size59 (le_refl 4))
  refine ⟨⟨[2, 3], [1, 0, 0, 0, 0, 0]⟩, ?_, ?_⟩
  · unfold amplitudesToCiU
    rw [if_neg (by omega), c1]
    show fciVectorU _ _ _ size59 (blocksBySpins camps 4) 4 false = _
    rw [fciVectorU_congr85 (d' := zero59 4), f1]
    intro c hc
    obtain ⟨x1, x2, x3⟩ := fciCombs_mem84.1 hc
    have hs := fciCombs_spins (le_refl 4) c hc
    rw [blocksBySpins_eq85 (le_refl 4) camps hc, c2 c.1 x1 x2 c.2 x3, zero59,
      dict_of_list (fciCombs 4) _ (fciCombs_keys (le_refl 4)) c hc]
    refine congrArg some ?_
    refine NDArray.ext_get (NDArray.ofFn_wf _ _) (NDArray.ofFn_wf _ _) ?_ fun idx hidx => ?_
    · show (excSpaces (c.2.take c.1)).map (fciSizes size59)
        = (c.2.take c.1).map (fun s => size59 s 'O') ++ (c.2.take c.1).map (fun s => size59 s 'V')
      generalize c.2.take c.1 = l at hs
      rw [excSpaces, List.map_append, List.map_map, List.map_map]
      refine congrArg₂ _ (List.map_congr_left fun x hx => ?_) (List.map_congr_left fun x hx => ?_) <;>
        rcases hs.2 x hx with rfl | rfl <;> rfl
    · have h : InBox ((excSpaces (c.2.take c.1)).map (fciSizes size59)) idx := hidx
      rw [coefArr, NDArray.get_ofFn _ _ h, zeros_get]
      apply expCoeff_zero85
      have hl : idx.length = (excSpaces (c.2.take c.1)).length := by simpa using h.length_eq
      intro e
      have := (splitAxes_length84 (s := c.2.take c.1) hl).1
      rw [e] at this
      exact hs.1 (List.length_eq_zero_iff.1 this.symm)
  · unfold ciToAmplitudesU
    rw [f2]
    rfl

/-! ### Concrete cases -/

/-- Amplitudes for singles and doubles of one electron of each spin. -/
def exAmps85 : Dict (List Char) (NDArray Rat) :=
  (fciCombs 2).map fun c => (convKey 't' c.1 c.2, ampArr (fciSizes fun _ k => if k = 'O' then 1 else 2) exAmp84
    1 (excSpaces (c.2.take c.1)))

/-- Non-vacuity: the hypotheses hold for these amplitudes, which are not zero. -/
example : (∀ c ∈ fciCombs 2, ∃ x, exAmps85.get? (convKey 't' c.1 c.2) = some x ∧
      IsCoefficient (fun _ k => if k = 'O' then 1 else 2) (c.2.take c.1) x) ∧
    exAmps85.get? (chars! "t2.abab") = some ⟨[1, 1, 2, 2], [144, 156, 132, 144]⟩ ∧
    (oneElectron 2).Valid 1 2 := by
  refine ⟨fun c hc => ?_, by decide +kernel, oneElectron_valid 2⟩
  refine ⟨_, get?_map84 (fciCombs 2) (fun c => convKey 't' c.1 c.2) _ ?_ hc, ?_⟩
  · intro x hx y hy h
    obtain ⟨x1, x2, _⟩ := fciCombs_mem84.1 hx
    obtain ⟨y1, y2, _⟩ := fciCombs_mem84.1 hy
    simp only [convKey, List.cons.injEq, true_and] at h
    exact Prod.ext (orderChar_inj x.1 (mem_orders x1 (by omega)) y.1 (mem_orders y1 (by omega)) h.1) h.2
  · have := isCoefficient_ofFn (fciSizes_ok fun _ k => if k = 'O' then 1 else 2) exAmp84_anti
      (fciCombs_spins (m := 2) (by omega) c hc).2
    simpa only [ampArr, mul_one] using this

end Ebcc
