import Verif.Spec.Active
import Verif.Tensor.Density
import Verif.Thms.C47
/-!
The arguments of `Verif/Spec/Active.lean` as polynomials.  The spaces 4 and 5 are the active ones, the tensor 64
selects the active orbitals, 65 are the amplitudes of fourth order.
-/

namespace Ebcc

def xSym (n : Nat) : List (List Nat × Bool) :=
  bif Nat.blt n 64 then gSym n else bif Nat.beq n 64 then [([0, 1], false)]
  else bif Nat.beq n 65 then [([0, 1, 2, 3, 4, 5, 6, 7], false)] else []

/-- Labels, summed labels and factors for a tensor with the first spaces as an array with the second ones. -/
def inflParts : Nat → List (Nat × Nat) → List Nat × List Nat × List TFac
  | _, [] => ([], [], [])
  | k, (s, u) :: l =>
    let r := inflParts (k + 1) l
    if s = u then ((16 * k + s) :: r.1, r.2.1, r.2.2)
    else ((16 * (32 + k) + s) :: r.1, (16 * (32 + k) + s) :: r.2.1,
      (64, if 4 ≤ u then [16 * (32 + k) + s, 16 * k + u] else [16 * k + u, 16 * (32 + k) + s]) :: r.2.2)

def inflT (t : Nat) (l : List (Nat × Nat)) : TArg :=
  (l.map Prod.snd, [(1, 0, (inflParts 0 l).2.1, (t, (inflParts 0 l).1) :: (inflParts 0 l).2.2)])

def actSpace (c : Char) : Nat := if c = 'o' then 0 else if c = 'v' then 1 else if c = 'O' then 4 else 5

/-- The space of all orbitals, and the one of the letter. -/
def actPair (c : Char) : Nat × Nat := (actSpace c % 4, actSpace c)

def xVals : List Char → Option TArg
  | ['t', '1'] => some (blk 16 [0, 1])
  | ['t', '2'] => some (blk 17 [0, 0, 1, 1])
  | ['t', '3'] => some (blk 18 [4, 4, 4, 5, 5, 5])
  | ['t', '4'] => some (blk 65 [4, 4, 4, 4, 5, 5, 5, 5])
  | ['X', 't', '3'] => some (inflT 18 [(4, 0), (4, 0), (4, 0), (5, 1), (5, 1), (5, 1)])
  | ['X', 't', '4'] => some (inflT 65 [(4, 0), (4, 0), (4, 0), (4, 0), (5, 1), (5, 1), (5, 1), (5, 1)])
  | ['S', '.', 'o', 'O'] => some (blk 64 [0, 4])
  | ['S', '.', 'v', 'V'] => some (blk 64 [1, 5])
  | 'f' :: '.' :: key => if isActiveKey key = true ∧ key.length = 2 then some (inflT 2 (key.map actPair)) else none
  | 'v' :: '.' :: key => if isActiveKey key = true ∧ key.length = 4 then some (inflT 3 (key.map actPair)) else none
  | _ => none

section
variable {R : Type} [Field R]

/-- 1 if the second orbital is the active orbital with this number. -/
def selT (m : ActiveMasks) : List Orb → R
  | [(0, i), (4, k)] => if (maskInds m.occ)[k]? = some i then 1 else 0
  | [(1, i), (5, k)] => if (maskInds m.vir)[k]? = some i then 1 else 0
  | _ => 0

def xTensor (h : GHam R) (t : GAmps R) (t4 : List Nat → R) (m : ActiveMasks) (n : Nat) : List Orb → R :=
  if n < 64 then gTensor h t t t n
  else if n = 64 then selT m
  else fun os => t4 (os.map Prod.snd)

theorem xSym_symOk (h : GHam R) (t : GAmps R) (t4 : List Nat → R) (m : ActiveMasks) :
    SymOk (xTensor h t t4 m) xSym := by
  refine ⟨?_, ?_⟩
  · intro n q hq
    change SymAt (xTensor h t t4 m n) q
    unfold xSym at hq
    by_cases hn : n < 64
    · have : Nat.blt n 64 = true := by rw [Nat.blt_eq]; exact hn
      rw [this] at hq
      simp only [xTensor, if_pos hn]
      exact (gSym_symOk h t t t).sym n q hq
    · have : Nat.blt n 64 = false := by
        rw [Bool.eq_false_iff, ne_eq, Nat.blt_eq]; exact hn
      rw [this] at hq
      simp only [cond_false] at hq
      cases h64 : Nat.beq n 64 with
      | true =>
        rw [h64, cond_true, List.mem_singleton] at hq
        subst hq
        exact ⟨by decide, forall_length2 fun p q => by simp⟩
      | false =>
        rw [h64, cond_false] at hq
        cases h65 : Nat.beq n 65 with
        | true =>
          rw [h65, cond_true, List.mem_singleton] at hq
          subst hq
          refine ⟨by decide, fun l hl => ?_⟩
          have : ([0, 1, 2, 3, 4, 5, 6, 7].map fun k => l.getD k (0, 0)) = l := by
            match l, hl with
            | [_, _, _, _, _, _, _, _], _ => rfl
          simp only at this ⊢
          rw [this]
          simp
        | false => rw [h65] at hq; cases hq
  · exact (gSym_symOk h t t t).delta

/-! ### Sums with selected orbitals -/

theorem sumTo_single (n k : Nat) (hk : k < n) (f : Nat → R) (p : Nat → Prop) [DecidablePred p]
    (hp : ∀ v < n, p v ↔ v = k) : (sumTo n fun v => (if p v then 1 else 0) * f v) = f k := by
  unfold sumTo
  rw [sum_range_eq_finset, Finset.sum_eq_single k]
  · rw [if_pos ((hp k hk).2 rfl), one_mul]
  · intro b hb hne
    rw [if_neg (fun h => hne ((hp b (Finset.mem_range.1 hb)).1 h)), zero_mul]
  · intro h
    exact absurd (Finset.mem_range.2 hk) h

theorem sumTo_none (n : Nat) (f : Nat → R) (p : Nat → Prop) [DecidablePred p]
    (hp : ∀ v < n, ¬ p v) : (sumTo n fun v => (if p v then 1 else 0) * f v) = 0 := by
  unfold sumTo
  rw [sum_range_eq_finset]
  exact Finset.sum_eq_zero fun v hv => by rw [if_neg (hp v (Finset.mem_range.1 hv)), zero_mul]

theorem gather_sum (m : List Bool) (k : Nat) (hk : k < m.count true) (f : Nat → R) :
    (sumTo m.length fun v => (if (maskInds m)[k]? = some v then 1 else 0) * f v) = f ((maskInds m).getD k 0) := by
  rw [← maskInds_length] at hk
  have hm : (maskInds m)[k] ∈ maskInds m := List.getElem_mem hk
  have hlt : (maskInds m)[k] < m.length := by
    unfold maskInds at hm ⊢
    exact List.mem_range.1 (List.mem_filter.1 hm).1
  have e : (maskInds m).getD k 0 = (maskInds m)[k] := by simp [hk]
  rw [e]
  refine sumTo_single _ _ hlt f _ fun v _ => ?_
  rw [List.getElem?_eq_getElem hk, Option.some.injEq]
  exact eq_comm

theorem scatter_sum (m : List Bool) (i : Nat) (f : Nat → R) :
    (sumTo (m.count true) fun v => (if (maskInds m)[v]? = some i then 1 else 0) * f v) =
      if m.getD i false = true then f ((m.take i).count true) else 0 := by
  by_cases hi : m.getD i false = true
  · rw [if_pos hi]
    have h1 := maskInds_at m i hi
    have hlt := (List.getElem?_eq_some_iff.1 h1).1
    refine sumTo_single _ _ (by rw [← maskInds_length m]; exact hlt) f _ fun v hv => ?_
    rw [← maskInds_length] at hv
    constructor
    · intro h2
      exact (List.Nodup.getElem_inj_iff (maskInds_nodup m) (hi := hv) (hj := hlt)).1 (by
        rw [List.getElem?_eq_getElem hv] at h2
        rw [List.getElem?_eq_getElem hlt] at h1
        exact (Option.some.inj h2).trans (Option.some.inj h1).symm)
    · rintro rfl
      exact h1
  · rw [if_neg hi]
    refine sumTo_none _ f _ fun v _ h => hi ?_
    exact mem_maskInds.1 (List.mem_iff_getElem?.2 ⟨v, h⟩)

/-! ### The values of `inflT` -/

/-- The sum over the first spaces, for the indices `idx` of the second ones. -/
def inflVal (sz : Nat → Nat) (S : List Orb → R) : List (Nat × Nat) → List Nat → (List Orb → R) → R
  | [], _, G => G []
  | (s, u) :: l, idx, G =>
    if s = u then inflVal sz S l idx.tail fun os => G ((s, idx.headD 0) :: os)
    else sumTo (sz s) fun v => S (if 4 ≤ u then [(s, v), (u, idx.headD 0)] else [(u, idx.headD 0), (s, v)]) *
      inflVal sz S l idx.tail fun os => G ((s, v) :: os)

theorem inflParts_ds (k : Nat) (l : List (Nat × Nat)) (hl : ∀ p ∈ l, p.1 < 16) :
    ∀ d ∈ (inflParts k l).2.1, 16 * (32 + k) ≤ d := by
  induction l generalizing k with
  | nil => simp [inflParts]
  | cons p l ih =>
    obtain ⟨s, u⟩ := p
    have := ih (k + 1) fun p hp => hl p (by simp [hp])
    intro d hd
    simp only [inflParts] at hd
    split at hd
    · have := this d hd; omega
    · rcases List.mem_cons.1 hd with rfl | hd
      · omega
      · have := this d hd; omega

theorem inflVal_eq (sz : Nat → Nat) (T : Nat → List Orb → R) (k : Nat) (l : List (Nat × Nat)) (hk : k + l.length ≤ 32)
    (hl : ∀ p ∈ l, p.1 < 16 ∧ p.2 < 16) (idx : List Nat) (e : Nat → Nat)
    (he : ∀ j u, u < 16 → k + j < 32 → e (16 * (k + j) + u) = idx.getD j 0) (G : List Orb → R) :
    einSum (fun i => sz (i % 16)) (inflParts k l).2.1
      (fun e => G ((inflParts k l).1.map fun i => (i % 16, e i)) * facsVal T (inflParts k l).2.2 e) e =
      inflVal sz (T 64) l idx G := by
  induction l generalizing k idx e G with
  | nil => simp [inflParts, einSum, inflVal, facsVal]
  | cons p l ih =>
    obtain ⟨s, u⟩ := p
    obtain ⟨hs, hu⟩ := hl (s, u) (by simp)
    simp only at hs hu
    rw [List.length_cons] at hk
    have hl' : ∀ p ∈ l, p.1 < 16 ∧ p.2 < 16 := fun p hp => hl p (by simp [hp])
    have hds := inflParts_ds (k + 1) l fun p hp => (hl' p hp).1
    have hhead : ∀ u < 16, e (16 * k + u) = idx.headD 0 := by
      intro u hu
      have := he 0 u hu (by omega)
      rw [Nat.add_zero] at this
      rw [this]
      cases idx <;> rfl
    have htail : ∀ j u, u < 16 → k + 1 + j < 32 → e (16 * (k + 1 + j) + u) = idx.tail.getD j 0 := by
      intro j u hu hj
      have := he (j + 1) u hu (by omega)
      rw [show k + (j + 1) = k + 1 + j by omega] at this
      rw [this]
      cases idx <;> simp
    have hsmod : (16 * k + s) % 16 = s := by omega
    have humod : (16 * k + u) % 16 = u := by omega
    have hdmod : (16 * (32 + k) + s) % 16 = s := by omega
    simp only [inflParts, inflVal]
    by_cases hsu : s = u
    · rw [if_pos hsu, if_pos hsu]
      simp only [List.map_cons, hsmod]
      rw [← ih (k + 1) (by omega) hl' idx.tail e htail fun os => G ((s, idx.headD 0) :: os)]
      refine einSum_congr _ _ fun e' h1 _ => ?_
      rw [h1 _ (fun hm => by have := hds _ hm; omega), hhead s hs]
    · rw [if_neg hsu, if_neg hsu]
      simp only [List.map_cons, hdmod]
      rw [einSum_cons_sumTo]
      simp only [hdmod]
      refine sumTo_congr fun v _ => ?_
      have hd' : ∀ i < 16 * (32 + k), Function.update e (16 * (32 + k) + s) v i = e i := fun i hi =>
        Function.update_of_ne (by omega) _ _
      rw [← ih (k + 1) (by omega) hl' idx.tail (Function.update e (16 * (32 + k) + s) v)
        (fun j u hu hj => by rw [hd' _ (by omega)]; exact htail j u hu hj) fun os => G ((s, v) :: os),
        ← einSum_const_mul]
      refine einSum_congr _ _ fun e' h1 _ => ?_
      have e1 : e' (16 * (32 + k) + s) = v := by
        rw [h1 _ (fun hm => by have := hds _ hm; omega), Function.update_self]
      have e2 : e' (16 * k + u) = idx.headD 0 := by
        rw [h1 _ (fun hm => by have := hds _ hm; omega), hd' _ (by omega), hhead u hu]
      rw [e1]
      have e3 : facVal T e' (64, if 4 ≤ u then [16 * (32 + k) + s, 16 * k + u] else [16 * k + u, 16 * (32 + k) + s]) =
          T 64 (if 4 ≤ u then [(s, v), (u, idx.headD 0)] else [(u, idx.headD 0), (s, v)]) := by
        unfold facVal
        split <;> simp [hdmod, humod, e1, e2]
      simp only [facsVal, List.map_cons, List.prod_cons, e3]
      ring

theorem inflT_val (sz : Nat → Nat) (T : Nat → List Orb → R) (t : Nat) (l : List (Nat × Nat)) (hk : l.length ≤ 32)
    (hl : ∀ p ∈ l, p.1 < 16 ∧ p.2 < 16) (idx : List Nat) :
    ((inflT t l).2.map fun r => rawVal sz T r (frEnv idx)).sum = inflVal sz (T 64) l idx (T t) := by
  rw [← inflVal_eq sz T 0 l (by omega) hl idx (frEnv idx) fun j u hu hj => by
    unfold frEnv
    rw [show (16 * (0 + j) + u) / 16 = j by omega]]
  simp only [inflT, rawVal, tcoef, List.map_cons, List.map_nil, List.sum_cons, List.sum_nil, add_zero]
  have : facsVal T ((t, (inflParts 0 l).1) :: (inflParts 0 l).2.2) = fun e =>
      T t ((inflParts 0 l).1.map fun i => (i % 16, e i)) * facsVal T (inflParts 0 l).2.2 e := by
    funext e
    simp [facsVal, facVal]
  rw [this]
  simp

theorem isActiveKey_cons {c : Char} {key : List Char} (h : isActiveKey (c :: key) = true) :
    (c = 'o' ∨ c = 'O' ∨ c = 'v' ∨ c = 'V') ∧ isActiveKey key = true := by
  simpa [isActiveKey] using h

theorem maskInds_replicate (n : Nat) : maskInds (List.replicate n true) = List.range n := by
  unfold maskInds
  rw [List.length_replicate, List.filter_eq_self]
  intro i hi
  simp [List.mem_range.1 hi]

/-- Integrals over active orbitals. -/
theorem inflVal_gather (m : ActiveMasks) (key : List Char) (hkey : isActiveKey key = true) (idx : List Nat)
    (hidx : InBox (key.map m.size) idx) (G : List Orb → R) :
    inflVal m.sizes (selT m) (key.map actPair) idx G = G (List.zipWith m.orb key idx) := by
  induction key generalizing idx G with
  | nil => cases hidx; rfl
  | cons c key ih =>
    obtain ⟨hc, hkey⟩ := isActiveKey_cons hkey
    obtain ⟨i, idx, rfl, hi, hidx'⟩ : ∃ i idx', idx = i :: idx' ∧ i < m.size c ∧ InBox (key.map m.size) idx' := by
      rw [List.map_cons] at hidx
      cases hidx with
      | cons h1 h2 => exact ⟨_, _, rfl, h1, h2⟩
    simp only [List.map_cons, List.zipWith_cons_cons]
    rcases hc with rfl | rfl | rfl | rfl
    · have e : actPair 'o' = (0, 0) := rfl
      have e2 : m.orb 'o' i = (0, i) := by
        have hi' : i < m.occ.length := by simpa [ActiveMasks.size, ActiveMasks.cls] using hi
        simp [ActiveMasks.orb, ActiveMasks.cls, maskInds_replicate, hi']
      rw [e, e2]
      simp only [inflVal, if_true, List.tail_cons, List.headD_cons]
      exact ih hkey idx hidx' _
    · have e : actPair 'O' = (0, 4) := rfl
      rw [e]
      simp only [inflVal, List.tail_cons, List.headD_cons]
      rw [if_neg (by decide)]
      simp only [ih hkey idx hidx']
      exact gather_sum m.occ i hi fun v => G ((0, v) :: List.zipWith m.orb key idx)
    · have e : actPair 'v' = (1, 1) := rfl
      have e2 : m.orb 'v' i = (1, i) := by
        have hi' : i < m.vir.length := by simpa [ActiveMasks.size, ActiveMasks.cls] using hi
        simp [ActiveMasks.orb, ActiveMasks.cls, maskInds_replicate, hi']
      rw [e, e2]
      simp only [inflVal, if_true, List.tail_cons, List.headD_cons]
      exact ih hkey idx hidx' _
    · have e : actPair 'V' = (1, 5) := rfl
      rw [e]
      simp only [inflVal, List.tail_cons, List.headD_cons]
      rw [if_neg (by decide)]
      simp only [ih hkey idx hidx']
      exact gather_sum m.vir i hi fun v => G ((1, v) :: List.zipWith m.orb key idx)

/-- Amplitudes of the active space in arrays over all orbitals. -/
theorem inflVal_scatter (m : ActiveMasks) (key : List Char) (hkey : ∀ c ∈ key, c = 'O' ∨ c = 'V') (idx : List Nat)
    (hlen : idx.length = key.length) (G : List Orb → R) :
    inflVal m.sizes (selT m) (key.map fun c => (actSpace c, actSpace c % 4)) idx G =
      if inBlock (key.map m.cls) idx = true then G ((key.map actSpace).zip (blockIdx (key.map m.cls) idx)) else 0 := by
  induction key generalizing idx G with
  | nil =>
    cases idx with
    | nil => rfl
    | cons _ _ => cases hlen
  | cons c key ih =>
    cases idx with
    | nil => cases hlen
    | cons i idx =>
      have ih := ih (fun c hc => hkey c (by simp [hc])) idx (by simpa using hlen)
      have hb : inBlock ((c :: key).map m.cls) (i :: idx) = ((m.cls c).getD i false && inBlock (key.map m.cls) idx) := by
        simp [inBlock]
      have hi : blockIdx ((c :: key).map m.cls) (i :: idx) =
          ((m.cls c).take i).count true :: blockIdx (key.map m.cls) idx := by
        simp [blockIdx]
      rw [hb, hi]
      have step : ∀ (l : List Bool) (F : Nat → List Orb → R),
          (sumTo (l.count true) fun v => (if (maskInds l)[v]? = some i then 1 else 0) *
            (if inBlock (key.map m.cls) idx = true then
              F v ((key.map actSpace).zip (blockIdx (key.map m.cls) idx)) else 0)) =
          if (l.getD i false && inBlock (key.map m.cls) idx) = true then
            F ((l.take i).count true) ((key.map actSpace).zip (blockIdx (key.map m.cls) idx)) else 0 := by
        intro l F
        rw [scatter_sum l i]
        cases l.getD i false <;> cases inBlock (key.map m.cls) idx <;> rfl
      rcases hkey c (by simp) with rfl | rfl
      · have e : (actSpace 'O', actSpace 'O' % 4) = (4, 0) := rfl
        simp only [List.map_cons, e]
        simp only [inflVal, List.tail_cons, List.headD_cons]
        rw [if_neg (by decide)]
        simp only [ih]
        exact step m.occ fun v os => G ((4, v) :: os)
      · have e : (actSpace 'V', actSpace 'V' % 4) = (5, 1) := rfl
        simp only [List.map_cons, e]
        simp only [inflVal, List.tail_cons, List.headD_cons]
        rw [if_neg (by decide)]
        simp only [ih]
        exact step m.vir fun v os => G ((5, v) :: os)

end
end Ebcc
