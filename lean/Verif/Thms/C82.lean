import Verif.Thms.C42
import Mathlib.Tactic.IntervalCases
/-!
C82: a step of the amplitude equations and the conversion from the restricted to the unrestricted class
(`UEBCC.from_rebcc`).  They do not commute: the change of the amplitudes of two equal spins is twice that of the
restricted amplitudes; fixed points are converted to fixed points.
-/

namespace Ebcc

section
variable {K : Type} [Field K]

/-- The residual of the unrestricted function for a spin block of a closed-shell calculation (C73): the restricted
residual, for two equal spins minus the residual with the last two axes exchanged. -/
def closedResidual (x : NDArray K) (key s : List Char) : NDArray K :=
  if (key.zip s).Nodup then x
  else NDArray.ofFn x.shape fun idx =>
    x.get idx - x.get [idx.getD 0 0, idx.getD 1 0, idx.getD 3 0, idx.getD 2 0]

def rankOne82 : Rank := (['t', '1'], ['o', 'v'], 1)
def rankTwo82 : Rank := (['t', '2'], ['o', 'o', 'v', 'v'], 2)

/-- Exchange of the electrons. -/
def PairSymmetric (x : NDArray K) : Prop :=
  ∀ i j a b, ValidIdx x.shape [i, j, a, b] → x.get [j, i, b, a] = x.get [i, j, a, b]

theorem signedSum_closed82 (en : Char → List K) (key s : List Char) (hl : key.length = s.length) (idx : List Nat) :
    signedSum [] (fun p => en p.1) (key.zip s) idx
      = ((key.zip idx).map fun x => indexSign [] x.1 * (en x.1).getD x.2 0).sum := by
  unfold signedSum
  induction key generalizing s idx with
  | nil => simp
  | cons k key ih =>
    cases s with
    | nil => simp at hl
    | cons c s =>
      cases idx with
      | nil => simp
      | cons i idx =>
        simp only [List.zip_cons_cons, List.map_cons, List.sum_cons]
        rw [ih s (by simpa using hl) idx]

theorem combos1_82 : generateSpinCombinations 1 false true = [['b', 'b'], ['a', 'a']] := by decide
theorem combos2_82 : generateSpinCombinations 2 false true
    = [['a', 'a', 'a', 'a'], ['a', 'b', 'a', 'b'], ['b', 'b', 'b', 'b']] := by decide

/-- The cases of a spin block: different classes or spins, or doubles of equal spin. -/
theorem block_cases82 {r : Rank} (hr : r = rankOne82 ∨ r = rankTwo82) {s : List Char}
    (hs : s ∈ generateSpinCombinations r.2.2 false true) :
    r.2.1.length = s.length ∧ ((r.2.1.zip s).Nodup ∨
      ¬ (r.2.1.zip s).Nodup ∧ r = rankTwo82 ∧ ∃ c, (c = 'a' ∨ c = 'b') ∧ s = [c, c, c, c]) := by
  rcases hr with rfl | rfl
  · change s ∈ generateSpinCombinations 1 false true at hs
    rw [combos1_82] at hs
    simp only [List.mem_cons, List.not_mem_nil, or_false] at hs
    rcases hs with rfl | rfl <;> exact ⟨rfl, Or.inl (by decide)⟩
  · change s ∈ generateSpinCombinations 2 false true at hs
    rw [combos2_82] at hs
    simp only [List.mem_cons, List.not_mem_nil, or_false] at hs
    rcases hs with rfl | rfl | rfl
    · exact ⟨rfl, Or.inr ⟨by decide, rfl, 'a', Or.inl rfl, rfl⟩⟩
    · exact ⟨rfl, Or.inl (by decide)⟩
    · exact ⟨rfl, Or.inr ⟨by decide, rfl, 'b', Or.inr rfl, rfl⟩⟩

theorem valid4_82 {a b c d i j k l : Nat} : ValidIdx [a, b, c, d] [i, j, k, l] ↔ i < a ∧ j < b ∧ k < c ∧ l < d := by
  simp [ValidIdx]

theorem valid4_exists82 {a b c d : Nat} {idx : List Nat} (h : ValidIdx [a, b, c, d] idx) :
    ∃ i j k l, idx = [i, j, k, l] := by
  unfold ValidIdx at h
  match idx, h.length_eq with
  | [i, j, k, l], _ => exact ⟨i, j, k, l, rfl⟩

theorem closedResidual_block82 (en : Char → List K) {r : Rank} (hr : r = rankOne82 ∨ r = rankTwo82) {s : List Char}
    (hs : s ∈ generateSpinCombinations r.2.2 false true) (x : NDArray K) (hw : x.WF)
    (hx : x.shape = r.2.1.map fun k => (en k).length) (hp : r = rankTwo82 → PairSymmetric x) :
    SpinBlock (fun p => en p.1) r.2.1 s (closedResidual x r.2.1 s) := by
  obtain ⟨hl, hc⟩ := block_cases82 hr hs
  have hsh : ((r.2.1.zip s).map fun p => (en p.1).length) = r.2.1.map fun k => (en k).length := by
    rw [show (fun p : Char × Char => (en p.1).length) = (fun k => (en k).length) ∘ Prod.fst from rfl, ← List.map_map,
      List.map_fst_zip (le_of_eq hl)]
  unfold SpinBlock closedResidual
  rcases hc with hc | ⟨hc, rfl, c, hcc, rfl⟩
  · rw [if_pos hc]
    refine ⟨hw, hx.trans hsh.symm, ?_⟩
    intro i j p hij hi hj
    have := (List.nodup_iff_getElem?_ne_getElem?.1 hc) i j hij (List.getElem?_eq_some_iff.1 hj).1
    rw [hi, hj] at this
    exact absurd rfl this
  · rw [if_neg hc]
    refine ⟨NDArray.ofFn_wf _ _, by rw [NDArray.ofFn_shape]; exact hx.trans hsh.symm, ?_⟩
    have hx4 : x.shape = [(en 'o').length, (en 'o').length, (en 'v').length, (en 'v').length] := hx
    have hp' := hp rfl
    unfold PairSymmetric at hp'
    rw [hx4] at hp'
    intro i j p hij hi hj idx hidx
    rw [NDArray.ofFn_shape, hx4] at hidx
    obtain ⟨i0, j0, a0, b0, rfl⟩ := valid4_exists82 hidx
    have hv := valid4_82.1 hidx
    have hj4 : j < 4 := by
      have := (List.getElem?_eq_some_iff.1 hj).1
      simpa [rankTwo82] using this
    have get : ∀ i j a b, ValidIdx [(en 'o').length, (en 'o').length, (en 'v').length, (en 'v').length] [i, j, a, b] →
        (NDArray.ofFn x.shape fun idx =>
          x.get idx - x.get [idx.getD 0 0, idx.getD 1 0, idx.getD 3 0, idx.getD 2 0]).get [i, j, a, b]
          = x.get [i, j, a, b] - x.get [i, j, b, a] := by
      intro i j a b h
      rw [NDArray.get_ofFn _ _ (by rw [hx4]; exact h)]
      simp
    have e1 := hp' i0 j0 a0 b0 hidx
    have e2 := hp' i0 j0 b0 a0 (valid4_82.2 ⟨hv.1, hv.2.1, hv.2.2.2, hv.2.2.1⟩)
    have hne : ('o', c) ≠ ('v', c) := by simp
    have hne' : ('v', c) ≠ ('o', c) := by simp
    have hzip : rankTwo82.2.1.zip [c, c, c, c] = [('o', c), ('o', c), ('v', c), ('v', c)] := rfl
    rw [hzip] at hi hj
    have cases : (i = 0 ∧ j = 1) ∨ (i = 2 ∧ j = 3) := by
      interval_cases j <;> interval_cases i <;> simp at hi hj ⊢ <;> (subst hi; simp at hj)
    have cm : (charSign '-' : K) = -1 := by simp [charSign]
    rcases cases with ⟨rfl, rfl⟩ | ⟨rfl, rfl⟩
    · have : swapIdx 0 1 [i0, j0, a0, b0] = [j0, i0, a0, b0] := rfl
      rw [this, get _ _ _ _ hidx, get _ _ _ _ (valid4_82.2 ⟨hv.2.1, hv.1, hv.2.2⟩), cm, e1, e2]
      ring
    · have : swapIdx 2 3 [i0, j0, a0, b0] = [i0, j0, b0, a0] := rfl
      rw [this, get _ _ _ _ hidx, get _ _ _ _ (valid4_82.2 ⟨hv.1, hv.2.1, hv.2.2.2, hv.2.2.1⟩), cm]
      ring

theorem get?_of_mem82 {V : Type} (d : Dict (List Char) V) (hn : (d.map Prod.fst).Nodup) (k : List Char) (v : V)
    (hm : (k, v) ∈ d) : d.get? k = some v := by
  induction d with
  | nil => cases hm
  | cons p d ih =>
    obtain ⟨k', v'⟩ := p
    simp only [List.map_cons, List.nodup_cons] at hn
    rw [Dict.get?]
    rcases List.mem_cons.1 hm with h | h
    · cases h
      rw [if_pos rfl]
    · have : k' ≠ k := by
        rintro rfl
        exact hn.1 (List.mem_map.2 ⟨_, h, rfl⟩)
      rw [if_neg this]
      exact ih hn.2 h

/-- The unrestricted blocks of restricted amplitudes (`from_rebcc`), element by element. -/
structure ClosedBlock82 (x : NDArray K) (key s : List Char) (u : NDArray K) : Prop where
  wf : u.WF
  shape : u.shape = x.shape
  same : (key.zip s).Nodup → u = x
  anti : ¬ (key.zip s).Nodup → ∀ i j a b, ValidIdx x.shape [i, j, a, b] →
    u.get [i, j, a, b] = (x.get [i, j, a, b] - x.get [j, i, a, b]) / 2

theorem closedBlock82 (h2 : (2 : K) ≠ 0) (en : Char → List K) {r : Rank} (hr : r = rankOne82 ∨ r = rankTwo82)
    {s : List Char} (hs : s ∈ generateSpinCombinations r.2.2 false true) (x : NDArray K) (hw : x.WF)
    (hx : x.shape = r.2.1.map fun k => (en k).length) (hp : r = rankTwo82 → PairSymmetric x) (u : NDArray K)
    (hu : convBlock r.2.1 r.2.2 x s = .ok u) : ClosedBlock82 x r.2.1 s u := by
  obtain ⟨hl, hc⟩ := block_cases82 hr hs
  rcases hc with hc | ⟨hc, rfl, c, hcc, rfl⟩
  · have hk : KeySpin r.2.1 s := by
      refine ⟨hl, ?_, ?_, (combos_spin _ s hs).2⟩
      · rcases hr with rfl | rfl <;> simp [rankOne82, rankTwo82]
      · rcases hr with rfl | rfl <;> simp [rankOne82, rankTwo82]
    have h2n : r.2.1.length = 2 * r.2.2 := by rcases hr with rfl | rfl <;> rfl
    rw [C42_unrestricted_identity h2 r.2.1 s hk r.2.2 h2n (fun k => (en k).length) x hw hx hc] at hu
    cases hu
    exact ⟨hw, rfl, fun _ => rfl, fun h => absurd hc h⟩
  · have hx4 : x.shape = [(en 'o').length, (en 'o').length, (en 'v').length, (en 'v').length] := hx
    have hp' := hp rfl
    unfold PairSymmetric at hp'
    rw [hx4] at hp'
    obtain ⟨v, v1, v2, v3, v4⟩ := convBlock_same h2 c hcc _ _ x hx4 hp'
    have : convBlock ['o', 'o', 'v', 'v'] 2 x [c, c, c, c] = .ok u := hu
    rw [v1] at this
    cases this
    exact ⟨v2, v3.trans hx4.symm, fun h => absurd h hc, fun _ i j a b h => v4 i j a b (hx4 ▸ h)⟩

omit [Field K] in
theorem uAmpDict_inj82 {fs bs : List Rank} {F F' : Rank → List Char → NDArray K} {B B' : Rank → NDArray K}
    {C C' : CRank → List Char → NDArray K} : uAmpDict fs bs [] [] F B C = uAmpDict fs bs [] [] F' B' C' ↔
      (∀ r ∈ fs, ∀ s ∈ generateSpinCombinations r.2.2 false true, F r s = F' r s) ∧ ∀ r ∈ bs, B r = B' r := by
  unfold uAmpDict
  simp only [List.map_nil, List.append_nil]
  constructor
  · intro h
    obtain ⟨h1, h2⟩ := List.append_inj h (by simp)
    rw [List.map_inj_left] at h1 h2
    refine ⟨fun r hr s hs => ?_, fun r hr => ?_⟩
    · have := h1 r hr
      simp only [Prod.mk.injEq, true_and, UVal.spins.injEq] at this
      rw [List.map_inj_left] at this
      exact (Prod.mk.inj (this s hs)).2
    · have := h2 r hr
      simpa using this
  · rintro ⟨h1, h2⟩
    congr 1
    · exact List.map_congr_left fun r hr => by
        rw [List.map_congr_left fun s hs => by rw [h1 r hr s hs]]
    · exact List.map_congr_left fun r hr => by rw [h2 r hr]

/-- What is true of the step of the amplitudes: let `T` be restricted amplitudes and `res` the restricted residuals,
let the unrestricted function return the closed-shell residuals (C73) for the converted amplitudes.  Both updates and
both conversions succeed.  Blocks with different spins, and bosonic amplitudes, of the unrestricted step (`F2`) are
those of the converted restricted step (`F1`); the change of blocks with equal spins is twice that of the converted
step.  For equal results the factor 2 would have to be 1; methods with coupled amplitudes are not treated. -/
theorem C82_step_partial (h2 : (2 : K) ≠ 0) (setOrder : List Char → List Char) (ho : IsSetOrder setOrder) {a : Ansatz}
    {fs bs : List Rank} (hR : HasRanks a .R .t fs bs []) (hU : HasRanks a .U .t fs bs []) (h9 : a.bosonCouplingRank ≤ 9)
    (hfs : ∀ r ∈ fs, r = rankOne82 ∨ r = rankTwo82) (hnd : ((entries fs bs []).map fun e => e.1).Nodup)
    (env uenv : EnergyEnv K) (en : Char → List K)
    (he : ∀ e ∈ entries fs bs [], ∀ k ∈ e.2, HasEnergies env (k, '_') (en k))
    (hue : UEnergies uenv (fun p => en p.1) fs bs [])
    (T res : List Char × List Char → NDArray K)
    (hT : ∀ e ∈ entries fs bs [], (T e).WF ∧ (T e).shape = e.2.map fun k => (en k).length)
    (hres : ∀ e ∈ entries fs bs [], (res e).WF ∧ (res e).shape = e.2.map fun k => (en k).length)
    (hTp : PairSymmetric (T (rankTwo82.1, rankTwo82.2.1))) (hrp : PairSymmetric (res (rankTwo82.1, rankTwo82.2.1)))
    (func : Dict (List Char) (NDArray K) → Except PyErr (Dict (List Char) (NDArray K)))
    (ufunc : Dict (List Char) (UVal K) → Except PyErr (Dict (List Char) (UVal K)))
    (hf : func ((entries fs bs []).map fun e => (e.1, T e))
      = .ok ((entries fs bs []).map fun e => (e.1 ++ "new".toList, res e)))
    (hfu : ∀ u, fromRAmps a ((entries fs bs []).map fun e => (e.1, T e)) = .ok u →
      ufunc u = .ok (uAmpDict fs bs [] "new".toList (fun r s => closedResidual (res (r.1, r.2.1)) r.2.1 s)
        (fun r => res (r.1, r.2.1)) (fun r _ => res (r.1, r.2.1)))) :
    ∃ (new : List Char × List Char → NDArray K) (F0 F1 F2 : Rank → List Char → NDArray K),
      updateAmps a .R (fun key => (energySum setOrder env key []).1) func
        ((entries fs bs []).map fun e => (e.1, T e)) = .ok ((entries fs bs []).map fun e => (e.1, new e)) ∧
      fromRAmps a ((entries fs bs []).map fun e => (e.1, T e))
        = .ok (uAmpDict fs bs [] [] F0 (fun r => T (r.1, r.2.1)) (fun r _ => T (r.1, r.2.1))) ∧
      fromRAmps a ((entries fs bs []).map fun e => (e.1, new e))
        = .ok (uAmpDict fs bs [] [] F1 (fun r => new (r.1, r.2.1)) (fun r _ => new (r.1, r.2.1))) ∧
      uUpdateAmps a (fun key spins => (uEnergySum setOrder uenv key spins []).1) ufunc
          (uAmpDict fs bs [] [] F0 (fun r => T (r.1, r.2.1)) (fun r _ => T (r.1, r.2.1)))
        = .ok (uAmpDict fs bs [] [] F2 (fun r => new (r.1, r.2.1)) (fun r _ => new (r.1, r.2.1))) ∧
      ∀ r ∈ fs, ∀ s ∈ generateSpinCombinations r.2.2 false true,
        ((r.2.1.zip s).Nodup → F2 r s = F1 r s ∧ F1 r s = new (r.1, r.2.1) ∧ F0 r s = T (r.1, r.2.1)) ∧
        (¬ (r.2.1.zip s).Nodup → (F2 r s).shape = (F0 r s).shape ∧ (F1 r s).shape = (F0 r s).shape ∧
          (F0 r s).WF ∧ (F2 r s).WF ∧ (F1 r s).WF ∧ ∀ idx, ValidIdx (F0 r s).shape idx →
            (F2 r s).get idx - (F0 r s).get idx = 2 * ((F1 r s).get idx - (F0 r s).get idx)) := by
  have hem : ∀ r ∈ fs, (r.1, r.2.1) ∈ entries fs bs [] := fun r hr => by
    unfold entries; simp only [List.mem_append, List.mem_map]; exact Or.inl ⟨r, hr, rfl⟩
  have hbm : ∀ r ∈ bs, (r.1, r.2.1) ∈ entries fs bs [] := fun r hr => by
    unfold entries; simp only [List.mem_append, List.mem_map]; exact Or.inr (Or.inl ⟨r, hr, rfl⟩)
  obtain ⟨new, n1, n2⟩ := C36_update setOrder ho hR (by simp) h9 hnd env en he func T res hT hres hf
  -- the restricted amplitudes as arguments of the conversion
  have hok : ∀ X : List Char × List Char → NDArray K,
      (∀ e ∈ entries fs bs [], (X e).WF ∧ (X e).shape = e.2.map fun k => (en k).length) →
      RAmpsOK (fun k => (en k).length) fs bs [] (fun r => X (r.1, r.2.1)) (fun r => X (r.1, r.2.1))
        (fun r => X (r.1, r.2.1)) ((entries fs bs []).map fun e => (e.1, X e)) := by
    intro X hX
    have hget : ∀ e ∈ entries fs bs [],
        Dict.getItem ((entries fs bs []).map fun e => (e.1, X e)) e.1 = .ok (X e) := by
      intro e hm
      unfold Dict.getItem
      rw [get?_of_mem82 ((entries fs bs []).map fun e => (e.1, X e)) (by rwa [List.map_map]) e.1 (X e)
        (List.mem_map.2 ⟨e, hm, rfl⟩)]
    exact ⟨fun r hr => ⟨hget _ (hem r hr), (hX _ (hem r hr)).2⟩, fun r hr => hget _ (hbm r hr), by simp⟩
  have h3 : ∀ r ∈ fs, r.2.2 ≤ 3 := fun r hr => by rcases hfs r hr with rfl | rfl <;> decide
  obtain ⟨F0, p1, p2⟩ := C42_unrestricted hU h3 hnd _ _ _ _ _ (hok T hT)
  obtain ⟨F1, q1, q2⟩ := C42_unrestricted hU h3 hnd _ _ _ _ _ (hok new fun e hm => ⟨(n2 e hm).1, (n2 e hm).2.1⟩)
  have hdict : ∀ (F : Rank → List Char → NDArray K) (X : List Char × List Char → NDArray K),
      ampDict fs bs [] (fun r => .spins ((generateSpinCombinations r.2.2 false true).map fun s => (s, F r s)))
        (fun r => .array (X (r.1, r.2.1)))
        (fun r : CRank => .spins ((generateSpinCombinations r.2.2.1 false true).map fun s => (s, X (r.1, r.2.1))))
      = uAmpDict fs bs [] [] F (fun r => X (r.1, r.2.1)) (fun r _ => X (r.1, r.2.1)) := by
    intro F X
    simp [ampDict, uAmpDict]
  rw [hdict F0 T] at p1
  rw [hdict F1 new] at q1
  -- the denominators are symmetric, hence so are the new amplitudes
  have hpair : ∀ r ∈ fs, r = rankTwo82 → PairSymmetric (T (r.1, r.2.1)) ∧ PairSymmetric (res (r.1, r.2.1)) ∧
      PairSymmetric (new (r.1, r.2.1)) := by
    rintro r hr rfl
    refine ⟨hTp, hrp, fun i j a b h => ?_⟩
    obtain ⟨w, sh, g⟩ := n2 _ (hem _ hr)
    have sh4 : (new (rankTwo82.1, rankTwo82.2.1)).shape
      = [(en 'o').length, (en 'o').length, (en 'v').length, (en 'v').length] := sh
    rw [sh4] at h
    have hv := valid4_82.1 h
    have h' : ValidIdx (new (rankTwo82.1, rankTwo82.2.1)).shape [j, i, b, a] := by
      rw [sh4]; exact valid4_82.2 ⟨hv.2.1, hv.1, hv.2.2.2, hv.2.2.1⟩
    rw [g _ h', g _ (by rw [sh4]; exact h), hTp i j a b (by rw [(hT _ (hem _ hr)).2]; exact h),
      hrp i j a b (by rw [(hres _ (hem _ hr)).2]; exact h)]
    congr 2
    simp [rankTwo82]
    ring
  have hb0 : ∀ r ∈ fs, ∀ s ∈ generateSpinCombinations r.2.2 false true,
      ClosedBlock82 (T (r.1, r.2.1)) r.2.1 s (F0 r s) := fun r hr s hs =>
    closedBlock82 h2 en (hfs r hr) hs _ (hT _ (hem r hr)).1 (hT _ (hem r hr)).2 (fun h => (hpair r hr h).1) _
      (p2 r hr s hs).1
  have hb1 : ∀ r ∈ fs, ∀ s ∈ generateSpinCombinations r.2.2 false true,
      ClosedBlock82 (new (r.1, r.2.1)) r.2.1 s (F1 r s) := fun r hr s hs =>
    closedBlock82 h2 en (hfs r hr) hs _ (n2 _ (hem r hr)).1 (n2 _ (hem r hr)).2.1 (fun h => (hpair r hr h).2.2) _
      (q2 r hr s hs).1
  have hkb : ∀ r ∈ bs, r.2.1 = List.replicate r.2.2 'b' := fun r hr => (goodEntry_b hU.b r hr).2
  have hbs : ∀ X : List Char × List Char → NDArray K,
      (∀ e ∈ entries fs bs [], (X e).WF ∧ (X e).shape = e.2.map fun k => (en k).length) →
      ∀ r ∈ bs, (X (r.1, r.2.1)).WF ∧ (X (r.1, r.2.1)).shape = List.replicate r.2.2 (en 'b').length := by
    intro X hX r hr
    refine ⟨(hX _ (hbm r hr)).1, (hX _ (hbm r hr)).2.trans ?_⟩
    show r.2.1.map _ = _
    rw [hkb r hr, List.map_replicate]
  have hsh : ∀ r ∈ fs, ∀ s ∈ generateSpinCombinations r.2.2 false true,
      ((r.2.1.zip s).map fun p => (en p.1).length) = r.2.1.map fun k => (en k).length := by
    intro r hr s hs
    rw [show (fun p : Char × Char => (en p.1).length) = (fun k => (en k).length) ∘ Prod.fst from rfl, ← List.map_map,
      List.map_fst_zip (le_of_eq (block_cases82 (hfs r hr) hs).1)]
  obtain ⟨F2, B2, C2, u1, u2, u3, -⟩ := C36_update_unrestricted h2 setOrder ho hU (by simp) h9 hnd uenv
    (fun p => en p.1) hue ufunc F0 (fun r s => closedResidual (res (r.1, r.2.1)) r.2.1 s)
    (fun r => T (r.1, r.2.1)) (fun r => res (r.1, r.2.1)) (fun r _ => T (r.1, r.2.1)) (fun r _ => res (r.1, r.2.1))
    ⟨fun r hr s hs => ⟨(p2 r hr s hs).2.1, by rw [(p2 r hr s hs).2.2.1, (hT _ (hem r hr)).2, hsh r hr s hs],
      (p2 r hr s hs).2.2.2⟩, hbs T hT, by simp⟩
    ⟨fun r hr s hs => closedResidual_block82 en (hfs r hr) hs _ (hres _ (hem r hr)).1 (hres _ (hem r hr)).2
      (fun h => (hpair r hr h).2.1), hbs res hres, by simp⟩ (hfu _ p1)
  have hB : ∀ r ∈ bs, B2 r = new (r.1, r.2.1) := by
    intro r hr
    obtain ⟨w, sh, g⟩ := u3 r hr
    obtain ⟨w', sh', g'⟩ := n2 _ (hbm r hr)
    refine NDArray.ext_get w w' (sh.trans ((hT _ (hbm r hr)).2.trans sh'.symm)) fun idx hidx => ?_
    have hidx' : ValidIdx (T (r.1, r.2.1)).shape idx := by rw [← sh]; exact hidx
    rw [g idx hidx', g' idx (by rw [sh', ← (hT _ (hbm r hr)).2]; exact hidx'),
      signedSum_closed82 en r.2.1 (List.replicate r.2.2 '_') (by rw [hkb r hr]; simp)]
  have hdict2 : uAmpDict fs bs [] [] F2 B2 C2
      = uAmpDict fs bs [] [] F2 (fun r => new (r.1, r.2.1)) (fun r _ => new (r.1, r.2.1)) := by
    unfold uAmpDict
    congr 2
    exact List.map_congr_left fun r hr => by rw [hB r hr]
  rw [hdict2] at u1
  refine ⟨new, F0, F1, F2, n1, p1, q1, u1, fun r hr s hs => ?_⟩
  obtain ⟨w, sh, g⟩ := u2 r hr s hs
  obtain ⟨w', sh', g'⟩ := n2 _ (hem r hr)
  have c0 := hb0 r hr s hs
  have c1 := hb1 r hr s hs
  have hl := (block_cases82 (hfs r hr) hs).1
  have h22 : r.2.2 ≤ 2 := by rcases hfs r hr with rfl | rfl <;> decide
  have g2 : ∀ idx, ValidIdx (T (r.1, r.2.1)).shape idx → (F2 r s).get idx
      = (closedResidual (res (r.1, r.2.1)) r.2.1 s).get idx
        / ((r.2.1.zip idx).map fun x => indexSign [] x.1 * (en x.1).getD x.2 0).sum + (F0 r s).get idx := by
    intro idx hidx
    rw [g idx (by rw [c0.shape]; exact hidx), spinFactor_one h2 _ (count_le_two hU.f (Or.inl rfl) r hr h22 s hs), one_mul,
      signedSum_closed82 en r.2.1 s hl]
  constructor
  · intro hd
    refine ⟨?_, c1.same hd, c0.same hd⟩
    rw [c1.same hd]
    refine NDArray.ext_get w w' (sh.trans (c0.shape.trans ((hT _ (hem r hr)).2.trans sh'.symm))) fun idx hidx => ?_
    have hidx' : ValidIdx (T (r.1, r.2.1)).shape idx := by rw [← c0.shape, ← sh]; exact hidx
    rw [g2 idx hidx', g' idx (by rw [sh', ← (hT _ (hem r hr)).2]; exact hidx'), c0.same hd]
    unfold closedResidual
    rw [if_pos hd]
  · intro hd
    obtain ⟨-, hc⟩ := block_cases82 (hfs r hr) hs
    rcases hc with hc | ⟨-, rfl, c, hcc, rfl⟩
    · exact absurd hc hd
    refine ⟨sh, c1.shape.trans (sh'.trans ((hT _ (hem _ hr)).2.symm.trans c0.shape.symm)), c0.wf, w, c1.wf,
      fun idx hidx => ?_⟩
    have sT : (T (rankTwo82.1, rankTwo82.2.1)).shape
      = [(en 'o').length, (en 'o').length, (en 'v').length, (en 'v').length] := (hT _ (hem _ hr)).2
    have sr : (res (rankTwo82.1, rankTwo82.2.1)).shape
      = [(en 'o').length, (en 'o').length, (en 'v').length, (en 'v').length] := (hres _ (hem _ hr)).2
    have sn : (new (rankTwo82.1, rankTwo82.2.1)).shape
      = [(en 'o').length, (en 'o').length, (en 'v').length, (en 'v').length] := sh'
    rw [c0.shape, sT] at hidx
    obtain ⟨i, j, a', b', rfl⟩ := valid4_exists82 hidx
    have hv := valid4_82.1 hidx
    have hji := (valid4_82 (i := j) (j := i) (k := a') (l := b')).2 ⟨hv.2.1, hv.1, hv.2.2⟩
    rw [g2 _ (by rw [sT]; exact hidx), c1.anti hd i j a' b' (by rw [sn]; exact hidx),
      c0.anti hd i j a' b' (by rw [sT]; exact hidx), g' _ (by rw [sn]; exact hidx), g' _ (by rw [sn]; exact hji)]
    unfold closedResidual
    rw [if_neg hd, NDArray.get_ofFn _ _ (by rw [sr]; exact hidx)]
    have e1 := hrp i j b' a' (by rw [sr]; exact valid4_82.2 ⟨hv.1, hv.2.1, hv.2.2.2, hv.2.2.1⟩)
    simp only [List.getD_cons_zero, List.getD_cons_succ]
    rw [← e1]
    have e2 : ((rankTwo82.2.1.zip [j, i, a', b']).map fun x => (indexSign [] x.1 : K) * (en x.1).getD x.2 0).sum
        = ((rankTwo82.2.1.zip [i, j, a', b']).map fun x => indexSign [] x.1 * (en x.1).getD x.2 0).sum := by
      simp [rankTwo82]
      ring
    rw [e2]
    field_simp
    ring

/-- Restricted amplitudes are a fixed point of the restricted step exactly when the converted amplitudes are a fixed
point of the unrestricted step. -/
theorem C82_fixed_points (h2 : (2 : K) ≠ 0) (setOrder : List Char → List Char) (ho : IsSetOrder setOrder) {a : Ansatz}
    {fs bs : List Rank} (hR : HasRanks a .R .t fs bs []) (hU : HasRanks a .U .t fs bs []) (h9 : a.bosonCouplingRank ≤ 9)
    (hfs : ∀ r ∈ fs, r = rankOne82 ∨ r = rankTwo82) (hnd : ((entries fs bs []).map fun e => e.1).Nodup)
    (env uenv : EnergyEnv K) (en : Char → List K)
    (he : ∀ e ∈ entries fs bs [], ∀ k ∈ e.2, HasEnergies env (k, '_') (en k))
    (hue : UEnergies uenv (fun p => en p.1) fs bs [])
    (T res : List Char × List Char → NDArray K)
    (hT : ∀ e ∈ entries fs bs [], (T e).WF ∧ (T e).shape = e.2.map fun k => (en k).length)
    (hres : ∀ e ∈ entries fs bs [], (res e).WF ∧ (res e).shape = e.2.map fun k => (en k).length)
    (hTp : PairSymmetric (T (rankTwo82.1, rankTwo82.2.1))) (hrp : PairSymmetric (res (rankTwo82.1, rankTwo82.2.1)))
    (func : Dict (List Char) (NDArray K) → Except PyErr (Dict (List Char) (NDArray K)))
    (ufunc : Dict (List Char) (UVal K) → Except PyErr (Dict (List Char) (UVal K)))
    (hf : func ((entries fs bs []).map fun e => (e.1, T e))
      = .ok ((entries fs bs []).map fun e => (e.1 ++ "new".toList, res e)))
    (hfu : ∀ u, fromRAmps a ((entries fs bs []).map fun e => (e.1, T e)) = .ok u →
      ufunc u = .ok (uAmpDict fs bs [] "new".toList (fun r s => closedResidual (res (r.1, r.2.1)) r.2.1 s)
        (fun r => res (r.1, r.2.1)) (fun r _ => res (r.1, r.2.1)))) :
    ∃ u, fromRAmps a ((entries fs bs []).map fun e => (e.1, T e)) = .ok u ∧
      (updateAmps a .R (fun key => (energySum setOrder env key []).1) func
          ((entries fs bs []).map fun e => (e.1, T e)) = .ok ((entries fs bs []).map fun e => (e.1, T e)) ↔
        uUpdateAmps a (fun key spins => (uEnergySum setOrder uenv key spins []).1) ufunc u = .ok u) := by
  obtain ⟨new, F0, F1, F2, n1, p1, q1, u1, h⟩ := C82_step_partial h2 setOrder ho hR hU h9 hfs hnd env uenv en he hue T res
    hT hres hTp hrp func ufunc hf hfu
  refine ⟨_, p1, ?_⟩
  rw [n1, u1, Except.ok.injEq, Except.ok.injEq, List.map_inj_left]
  simp only [Prod.mk.injEq, true_and]
  rw [uAmpDict_inj82]
  constructor
  · intro heq
    have e : uAmpDict fs bs [] [] F1 (fun r => new (r.1, r.2.1)) (fun r _ => new (r.1, r.2.1))
        = uAmpDict fs bs [] [] F0 (fun r => T (r.1, r.2.1)) (fun r _ => T (r.1, r.2.1)) := by
      have : (entries fs bs []).map (fun e => (e.1, new e)) = (entries fs bs []).map (fun e => (e.1, T e)) :=
        List.map_congr_left fun e hm => by rw [heq e hm]
      rw [this, p1] at q1
      exact (Except.ok.inj q1).symm
    obtain ⟨e1, e2⟩ := uAmpDict_inj82.1 e
    refine ⟨fun r hr s hs => ?_, e2⟩
    obtain ⟨a1, a2⟩ := h r hr s hs
    by_cases hd : (r.2.1.zip s).Nodup
    · rw [(a1 hd).1, e1 r hr s hs]
    · obtain ⟨b1, b2, b3, b4, b5, b6⟩ := a2 hd
      refine NDArray.ext_get b4 b3 b1 fun idx hidx => ?_
      have := b6 idx (by rw [← b1]; exact hidx)
      rw [e1 r hr s hs, sub_self, mul_zero] at this
      exact sub_eq_zero.1 this
  · rintro ⟨e1, e2⟩ e hm
    unfold entries at hm
    simp only [List.mem_append, List.mem_map, List.map_nil, List.not_mem_nil, or_false] at hm
    rcases hm with ⟨r, hr, rfl⟩ | ⟨r, hr, rfl⟩
    · obtain ⟨s, hs, hd⟩ : ∃ s ∈ generateSpinCombinations r.2.2 false true, (r.2.1.zip s).Nodup := by
        rcases hfs r hr with rfl | rfl
        · exact ⟨['a', 'a'], by decide, by decide⟩
        · exact ⟨['a', 'b', 'a', 'b'], by decide, by decide⟩
      obtain ⟨a1, a2, a3⟩ := (h r hr s hs).1 hd
      rw [← a2, ← a1, e1 r hr s hs, a3]
    · exact e2 r hr

end

/-! ### CCSD with two occupied and two virtual orbitals -/

def fs82 : List Rank := [rankOne82, rankTwo82]

theorem ccsd_ranks82 (spin : SpinType) (h : spin = .R ∨ spin = .U) : HasRanks ccsd spin .t fs82 [] [] := by
  rcases h with rfl | rfl <;> exact ⟨by decide, by decide, by decide⟩

def env82 : EnergyEnv Rat := ⟨fun _ k => if k = 'o' then .ok ⟨[2, 2], [-1, 0, 0, -1]⟩ else .ok ⟨[2, 2], [1, 0, 0, 1]⟩, none⟩

def T82 (e : List Char × List Char) : NDArray Rat := NDArray.zeros (e.2.map fun _ => 2)

/-- One residual of two electrons in different orbitals. -/
def res82 (e : List Char × List Char) : NDArray Rat :=
  NDArray.ofFn (e.2.map fun _ => 2) fun idx => if idx = [0, 1, 0, 1] ∨ idx = [1, 0, 1, 0] then 8 else 0

/-- The blocks after the step, `x` for two equal spins. -/
def blocks82 (x : Rat) (r : Rank) (s : List Char) : NDArray Rat :=
  NDArray.ofFn (r.2.1.map fun _ => 2) fun idx =>
    if s = ['a', 'b', 'a', 'b'] then (if idx = [0, 1, 0, 1] ∨ idx = [1, 0, 1, 0] then -2 else 0)
    else if idx = [0, 1, 0, 1] ∨ idx = [1, 0, 1, 0] then x
    else if idx = [0, 1, 1, 0] ∨ idx = [1, 0, 0, 1] then -x else 0

/-- The step does not commute with the conversion: the amplitudes `amps` are zero, the restricted step changes them by
`res / -4`, and the converted result `u1` is not the result `u2` of the unrestricted step. -/
theorem C82_step_false : ∃ (amps new : Dict (List Char) (NDArray Rat)) (u0 u1 u2 : Dict (List Char) (UVal Rat)),
    amps = (entries fs82 [] []).map (fun e => (e.1, T82 e)) ∧
    PairSymmetric (T82 (rankTwo82.1, rankTwo82.2.1)) ∧ PairSymmetric (res82 (rankTwo82.1, rankTwo82.2.1)) ∧
    updateAmps ccsd .R (fun key => (energySum List.dedup env82 key []).1)
      (fun _ => .ok ((entries fs82 [] []).map fun e => (e.1 ++ "new".toList, res82 e))) amps = .ok new ∧
    fromRAmps ccsd amps = .ok u0 ∧ fromRAmps ccsd new = .ok u1 ∧
    uUpdateAmps ccsd (fun key spins => (uEnergySum List.dedup env82 key spins []).1)
      (fun _ => .ok (uAmpDict fs82 [] [] "new".toList (fun r s => closedResidual (res82 (r.1, r.2.1)) r.2.1 s)
        (fun r => res82 (r.1, r.2.1)) (fun r _ => res82 (r.1, r.2.1)))) u0 = .ok u2 ∧
    u1 ≠ u2 := by
  have pT : PairSymmetric (T82 (rankTwo82.1, rankTwo82.2.1)) := by
    intro i j a b _
    rw [T82, zeros_get, zeros_get]
  have pr : PairSymmetric (res82 (rankTwo82.1, rankTwo82.2.1)) := by
    intro i j a b h
    have h' : ValidIdx [2, 2, 2, 2] [i, j, a, b] := h
    have hv := valid4_82.1 h'
    have hsz : ((rankTwo82.1, rankTwo82.2.1).2.map fun _ : Char => 2) = [2, 2, 2, 2] := rfl
    unfold res82
    rw [hsz, NDArray.get_ofFn _ _ (show InBox _ _ from h'), NDArray.get_ofFn _ _
      (show InBox _ _ from valid4_82.2 ⟨hv.2.1, hv.1, hv.2.2.2, hv.2.2.1⟩)]
    simp only [List.cons.injEq, and_true]
    congr 1
    apply propext
    omega
  exact ⟨_, (entries fs82 [] []).map fun e => (e.1, (res82 e).map fun x => x / -4),
    uAmpDict fs82 [] [] [] (fun r s => T82 (r.1, r.2.1)) (fun r => T82 (r.1, r.2.1)) (fun r _ => T82 (r.1, r.2.1)),
    uAmpDict fs82 [] [] [] (blocks82 (-1)) (fun r => T82 (r.1, r.2.1)) (fun r _ => T82 (r.1, r.2.1)),
    uAmpDict fs82 [] [] [] (blocks82 (-2)) (fun r => T82 (r.1, r.2.1)) (fun r _ => T82 (r.1, r.2.1)),
    rfl, pT, pr, by decide +kernel, by decide +kernel, by decide +kernel, by decide +kernel, by decide +kernel⟩

/-- With vanishing residuals the converted amplitudes of `res82` are a fixed point. -/
example : ∃ u, fromRAmps ccsd ((entries fs82 [] []).map fun e => (e.1, res82 e)) = .ok u ∧
    uUpdateAmps ccsd (fun key spins => (uEnergySum List.dedup env82 key spins []).1)
      (fun _ => .ok (uAmpDict fs82 [] [] "new".toList (fun r s => closedResidual (T82 (r.1, r.2.1)) r.2.1 s)
        (fun r => T82 (r.1, r.2.1)) (fun r _ => T82 (r.1, r.2.1)))) u = .ok u :=
  ⟨uAmpDict fs82 [] [] [] (fun r s => if s = ['a', 'b', 'a', 'b'] ∨ r = rankOne82 then res82 (r.1, r.2.1) else blocks82 4 r s)
    (fun r => T82 (r.1, r.2.1)) (fun r _ => T82 (r.1, r.2.1)), by decide +kernel, by decide +kernel⟩

example : HasRanks ccsd .R .t fs82 [] [] ∧ HasRanks ccsd .U .t fs82 [] [] :=
  ⟨ccsd_ranks82 _ (Or.inl rfl), ccsd_ranks82 _ (Or.inr rfl)⟩

end Ebcc
