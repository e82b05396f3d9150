import Verif.Lemmas.Vectors
import Verif.Thms.C04
import Verif.Thms.C05
import Verif.Thms.C06
import Verif.Thms.C07
import Verif.Thms.C11
import Verif.Thms.C12

/-!
One spin block of an unrestricted amplitude: packing, unpacking and its size.
-/

namespace Ebcc

open Dict

/-- The size of an axis: its orbital class and its spin. -/
def sz2 (sa sb : Space) (p : Char × Char) : Nat := if p.2 = 'a' then szOf sa p.1 else szOf sb p.1

/-- The number of packed elements: combinations without repetition for each class and spin. -/
def blockSize (sa sb : Space) (key spin : List Char) : Nat :=
  ((firstOccurrences (key.zip spin)).map fun p => (sz2 sa sb p).choose ((key.zip spin).count p)).prod

/-- A spin block: the right shape, antisymmetric in axes of the same class and spin. -/
def GoodBlock {R : Type} [Ring R] (sa sb : Space) (key spin : List Char) (a : NDArray R) : Prop :=
  a.WF ∧ a.shape = (key.zip spin).map (sz2 sa sb) ∧ GroupSymmetric (key.zip spin) (fun _ => '-') a

/-! ### Combined subscripts do not depend on the sizes -/

theorem step_sizes {sizes : Dict (List Char) Nat} {st st' st0 : CombineState} {key : List Char}
    (h : st.step sizes key = .ok st') (h0 : st0.charMap = st.charMap ∧ st0.newSub = st.newSub ∧ st0.j = st.j) :
    ∃ st0', st0.step [] key = .ok st0' ∧ st0'.charMap = st'.charMap ∧ st0'.newSub = st'.newSub ∧
      st0'.j = st'.j := by
  obtain ⟨cm, ns, nz, j⟩ := st
  obtain ⟨cm0, ns0, nz0, j0⟩ := st0
  obtain ⟨h1, h2, h3⟩ := h0
  simp only at h1 h2 h3
  subst h1 h2 h3
  have hadd : ∀ s1, CombineState.addKey ⟨cm0, ns0, nz, j0⟩ key = .ok s1 →
      CombineState.addKey ⟨cm0, ns0, nz0, j0⟩ key = .ok ⟨s1.charMap, s1.newSub, nz0, s1.j⟩ := by
    intro s1 hs
    unfold CombineState.addKey at hs ⊢
    simp only at hs ⊢
    split at hs
    · rename_i hc; rw [if_pos hc]; cases hs; rfl
    · rename_i hc
      rw [if_neg hc]
      split at hs
      · cases hs
      · rename_i hj; rw [if_neg hj]; cases hs; rfl
  unfold CombineState.step at h ⊢
  cases ha : CombineState.addKey ⟨cm0, ns0, nz, j0⟩ key with
  | error e => simp [ha, bind, Except.bind] at h
  | ok s1 =>
    rw [hadd _ ha]
    simp only [ha, bind, Except.bind] at h ⊢
    cases hg : s1.charMap.getItem key with
    | error e => simp [hg] at h
    | ok c =>
      simp only [hg] at h ⊢
      simp only [List.isEmpty_nil, if_true, pure, Except.pure, Except.ok.injEq]
      refine ⟨_, rfl, ?_⟩
      split at h
      · simp only [pure, Except.pure, Except.ok.injEq] at h; subst h; exact ⟨rfl, rfl, rfl⟩
      · cases hs : sizes.getItem key with
        | error e => simp [hs] at h
        | ok n => simp only [hs, pure, Except.pure, Except.ok.injEq] at h; subst h; exact ⟨rfl, rfl, rfl⟩

theorem loop_sizes {sizes : Dict (List Char) Nat} (keys : List (List Char)) {st st' st0 : CombineState}
    (h : keys.foldlM (fun st k => st.step sizes k) st = .ok st')
    (h0 : st0.charMap = st.charMap ∧ st0.newSub = st.newSub ∧ st0.j = st.j) :
    ∃ st0', keys.foldlM (fun st k => st.step [] k) st0 = .ok st0' ∧ st0'.newSub = st'.newSub := by
  induction keys generalizing st st0 with
  | nil =>
    simp only [List.foldlM_nil, pure, Except.pure, Except.ok.injEq] at h
    subst h
    exact ⟨st0, rfl, h0.2.1⟩
  | cons k keys ih =>
    rw [List.foldlM_cons] at h
    simp only [bind, Except.bind] at h
    cases hs : st.step sizes k with
    | error e => simp [hs] at h
    | ok s1 =>
      simp only [hs] at h
      obtain ⟨s0, e1, e2⟩ := step_sizes hs h0
      obtain ⟨s0', e3, e4⟩ := ih h e2
      refine ⟨s0', ?_, e4⟩
      rw [List.foldlM_cons, e1]
      exact e3

/-- The combined subscript is the same without sizes; it is the list of classes and spins under a renaming. -/
theorem combine_two (key spin : List Char) (sizes : Dict (List Char) Nat) (sz : Char × Char → Nat)
    (hl : key.length = spin.length) (hkey : key ≠ [])
    (hc : (key.zip spin).toFinset.card ≤ 91)
    (hs : ∀ p ∈ key.zip spin, sizes.get? [p.1, p.2] = some (sz p)) :
    ∃ sub osizes, combineSubscripts [key, spin] sizes = .ok (sub, osizes) ∧
      combineSubscripts [key, spin] [] = .ok (sub, []) ∧
      (∃ g, sub = (key.zip spin).map g ∧
        (∀ p ∈ key.zip spin, ∀ q ∈ key.zip spin, g p = g q → p = q) ∧
        ∀ p ∈ key.zip spin, osizes.get? (g p) = some (sz p)) := by
  have hne : sizes ≠ [] := by
    rintro rfl
    cases key with
    | nil => exact hkey rfl
    | cons k key =>
      cases spin with
      | nil => simp at hl
      | cons s spin => simpa [Dict.get?] using hs (k, s) (by simp)
  have hkat : ∀ i, i < key.length → keyAt [key, spin] i = [key[i]?, spin[i]?] := fun i _ => rfl
  have hz : ∀ i (hi : i < key.length), (key.zip spin)[i]? = some (key[i], spin[i]'(hl ▸ hi)) := by
    intro i hi
    rw [List.getElem?_eq_getElem (by rw [List.length_zip]; omega), List.getElem_zip]
  have hok : ∃ r, combineSubscripts [key, spin] sizes = .ok r := by
    rw [C12_ok_iff]
    refine ⟨key.length, by simp, by simp [hl], ?_, fun _ i hi => ?_⟩
    · refine le_trans ?_ hc
      have : ((List.range key.length).map (keyAt [key, spin])).toFinset
          = (key.zip spin).toFinset.image fun p => [some p.1, some p.2] := by
        ext q
        simp only [List.mem_toFinset, List.mem_map, List.mem_range, Finset.mem_image]
        constructor
        · rintro ⟨i, hi, rfl⟩
          refine ⟨(key[i], spin[i]'(hl ▸ hi)), List.mem_of_getElem? (hz i hi), ?_⟩
          simp [keyAt, hi, hl ▸ hi]
        · rintro ⟨p, hp, rfl⟩
          obtain ⟨i, hi, he⟩ := List.mem_iff_getElem.1 hp
          have hi' : i < key.length := by rw [List.length_zip] at hi; omega
          refine ⟨i, hi', ?_⟩
          rw [List.getElem_zip] at he
          subst he
          simp [keyAt, hi', hl ▸ hi']
      rw [this]
      exact Finset.card_image_le
    · refine ⟨[key[i], spin[i]'(hl ▸ hi)], ?_, by simp [keyAt, hi, hl ▸ hi]⟩
      have := hs _ (List.mem_of_getElem? (hz i hi))
      by_contra hn
      rw [← Dict.get?_eq_none_iff] at hn
      simp only [hn] at this
      cases this
  obtain ⟨⟨sub, osizes⟩, hr⟩ := hok
  obtain ⟨c1, c2, c3, -, -⟩ := C12_spec _ _ _ _ hr
  have hlen : sub.length = key.length := (c1 key (by simp)).symm
  have hnil : combineSubscripts [key, spin] [] = .ok (sub, []) := by
    have hll : ∀ t ∈ [spin], t.length = key.length := by simp [hl]
    have hr' := hr
    rw [combine_cons hll] at hr' ⊢
    simp only [bind, Except.bind] at hr' ⊢
    cases hf : (subscriptKeys [key, spin] key.length).foldlM (fun st k => st.step sizes k)
        (⟨[], [], [], 0⟩ : CombineState) with
    | error e => simp [hf] at hr'
    | ok st =>
      simp only [hf, pure, Except.pure, Except.ok.injEq, Prod.mk.injEq] at hr'
      obtain ⟨st0, e1, e2⟩ := loop_sizes _ hf (st0 := ⟨[], [], [], 0⟩) ⟨rfl, rfl, rfl⟩
      have hspec : combineSubscripts [key, spin] [] = .ok (st0.newSub, st0.newSizes) := by
        rw [combine_cons hll, e1]; rfl
      have h5 := (C12_spec _ _ _ _ hspec).2.2.2.2 rfl
      rw [e1]
      simp only [pure, Except.pure, h5, e2, hr'.1]
  have hpair : ∀ i k, i < key.length → k < key.length →
      (sub[i]? = sub[k]? ↔ (key.zip spin)[i]? = (key.zip spin)[k]?) := by
    intro i k hi hk
    rw [c2 i k (by omega) (by omega), hz i hi, hz k hk]
    simp [keyAt, hi, hk, hl ▸ hi, hl ▸ hk]
  let g : Char × Char → Char := fun p => sub.getD ((key.zip spin).idxOf p) ' '
  have hzl : (key.zip spin).length = key.length := by rw [List.length_zip]; omega
  have hg : ∀ i (hi : i < key.length) p, (key.zip spin)[i]? = some p → sub[i]? = some (g p) := by
    intro i hi p hp
    have hm : p ∈ key.zip spin := List.mem_of_getElem? hp
    have hidx : (key.zip spin).idxOf p < key.length := hzl ▸ List.idxOf_lt_length_iff.2 hm
    have hp' : (key.zip spin)[(key.zip spin).idxOf p]? = some p := by
      rw [List.getElem?_eq_getElem (by omega), List.getElem_idxOf]
    rw [(hpair i _ hi hidx).2 (hp.trans hp'.symm)]
    simp only [g]
    rw [List.getElem?_eq_getElem (by omega), List.getD_eq_getElem?_getD, List.getElem?_eq_getElem (by omega)]
    rfl
  refine ⟨sub, osizes, hr, hnil, g, ?_, ?_, ?_⟩
  · apply List.ext_getElem?
    intro i
    by_cases hi : i < key.length
    · rw [List.getElem?_map, hz i hi, hg i hi _ (hz i hi)]
      rfl
    · rw [List.getElem?_eq_none (by omega), List.getElem?_eq_none (by rw [List.length_map]; omega)]
  · intro p hp q hq he
    obtain ⟨i, hi, rfl⟩ := List.mem_iff_getElem.1 hp
    obtain ⟨k, hk, rfl⟩ := List.mem_iff_getElem.1 hq
    have h1 := hg i (by omega) _ (List.getElem?_eq_getElem hi)
    have h2 := hg k (by omega) _ (List.getElem?_eq_getElem hk)
    have := (hpair i k (by omega) (by omega)).1 (by rw [h1, h2, he])
    rw [List.getElem?_eq_getElem hi, List.getElem?_eq_getElem hk] at this
    exact Option.some.inj this
  · intro p hp
    obtain ⟨i, hi, rfl⟩ := List.mem_iff_getElem.1 hp
    have h1 := hg i (by omega) _ (List.getElem?_eq_getElem hi)
    obtain ⟨m, e1, e2⟩ := c3 hne i _ [(key.zip spin)[i].1, (key.zip spin)[i].2] h1 (by
      rw [List.getElem_zip]
      have hi' : i < key.length := by omega
      simp [keyAt, hi', hl ▸ hi'])
    rw [hs _ hp] at e1
    cases e1
    exact e2

/-! ### Renaming of symbols -/

section rename
variable {κ μ : Type} [DecidableEq κ] [DecidableEq μ]

theorem firstOccurrences_mem (l : List κ) : ∀ x ∈ firstOccurrences l, x ∈ l := by
  induction l with
  | nil => simp [firstOccurrences]
  | cons c l ih =>
    intro x hx
    rw [firstOccurrences, List.mem_cons, List.mem_filter] at hx
    rcases hx with rfl | hx
    · simp
    · exact List.mem_cons_of_mem _ (ih x hx.1)

theorem firstOccurrences_map (l : List κ) (g : κ → μ) (hg : ∀ p ∈ l, ∀ q ∈ l, g p = g q → p = q) :
    firstOccurrences (l.map g) = (firstOccurrences l).map g := by
  induction l with
  | nil => rfl
  | cons c l ih =>
    rw [List.map_cons, firstOccurrences, firstOccurrences, List.map_cons,
      ih fun p hp q hq => hg p (List.mem_cons_of_mem _ hp) q (List.mem_cons_of_mem _ hq), List.filter_map]
    congr 1
    congr 1
    apply List.filter_congr
    intro x hx
    have hx' := firstOccurrences_mem l x hx
    simp only [Function.comp, decide_eq_decide]
    constructor
    · intro h he; exact h (by rw [he])
    · intro h he; exact h (hg x (List.mem_cons_of_mem _ hx') c List.mem_cons_self he)

omit [DecidableEq κ] in
theorem count_map_inj [BEq κ] [LawfulBEq κ] (l : List κ) (g : κ → μ) (hg : ∀ p ∈ l, ∀ q ∈ l, g p = g q → p = q) (c : κ) (hc : c ∈ l) :
    (l.map g).count (g c) = l.count c := by
  rw [List.count, List.countP_map, List.count]
  apply List.countP_congr
  intro x hx
  simp only [Function.comp, beq_iff_eq]
  exact ⟨fun h => hg x hx c hc h, fun h => by rw [h]⟩

omit [DecidableEq κ] [DecidableEq μ] in
theorem groupSymmetric_map {R : Type} [Ring R] (l : List κ) (g : κ → μ)
    (hg : ∀ p ∈ l, ∀ q ∈ l, g p = g q → p = q) (s : Char) (a : NDArray R) :
    GroupSymmetric (l.map g) (fun _ => s) a ↔ GroupSymmetric l (fun _ => s) a := by
  constructor
  · intro h i j c hij hi hj idx hidx
    exact h i j (g c) hij (by rw [List.getElem?_map, hi]; rfl) (by rw [List.getElem?_map, hj]; rfl) idx hidx
  · intro h i j c hij hi hj idx hidx
    rw [List.getElem?_map] at hi hj
    cases h1 : l[i]? with
    | none => simp [h1] at hi
    | some p =>
      cases h2 : l[j]? with
      | none => simp [h2] at hj
      | some q =>
        rw [h1] at hi; rw [h2] at hj
        simp only [Option.map_some, Option.some.injEq] at hi hj
        have : p = q := hg p (List.mem_of_getElem? h1) q (List.mem_of_getElem? h2) (hi.trans hj.symm)
        subst this
        exact h i j p hij h1 h2 idx hidx

end rename

theorem transpose_wf {R : Type} [Zero R] {a b : NDArray R} {axes : List Nat} (h : a.transpose axes = .ok b) :
    b.WF := by
  unfold NDArray.transpose at h
  split at h
  · cases h; exact NDArray.ofFn_wf _ _
  · cases h

theorem decompressAxes_wf {κ R : Type} [DecidableEq κ] [Ring R] {sub : List κ} {flat : List R}
    {shape : List Nat} {diag : Bool} {symm : Option (List Char)} {out : NDArray R}
    (h : decompressAxes sub flat shape diag symm = .ok out) : out.WF := by
  unfold decompressAxes at h
  simp only [bind, Except.bind] at h
  repeat' split at h
  all_goals first | cases h | exact transpose_wf h

/-! ### The item of a spin block -/

/-- How a spin block is packed (uebcc.py:651-655) and read (686-693). -/
def spinItem (R : Type) [Ring R] (sa sb : Space) (sizes : Dict (List Char) Nat) (key spin : List Char) :
    Item R (NDArray R) where
  name := spin
  pack tn := do
    let (subscript, _) ← combineSubscripts [key, spin] []
    let c ← compressAxes subscript tn false
    pure c.ravel
  un vec i := do
    let (subscript, csizes) ← combineSubscripts [key, spin] sizes
    let size ← getCompressedSize subscript csizes
    let shape ← uShape sa sb spin key
    let tn ← decompressAxes subscript (vecSlice vec i size) shape false none
    pure (tn, i + size)
  size := blockSize sa sb key spin
  P := GoodBlock sa sb key spin
  E := Eq

/-- A key of orbital classes and a spin string of the same length. -/
structure KeySpin (key spin : List Char) : Prop where
  len : key.length = spin.length
  ne : key ≠ []
  key : ∀ c ∈ key, c = 'o' ∨ c = 'O' ∨ c = 'v' ∨ c = 'V'
  spin : ∀ c ∈ spin, c = 'a' ∨ c = 'b'

theorem KeySpin.card {key spin : List Char} (h : KeySpin key spin) : (key.zip spin).toFinset.card ≤ 91 := by
  have : (key.zip spin).toFinset ⊆ (['o', 'O', 'v', 'V'].toFinset ×ˢ ['a', 'b'].toFinset) := by
    intro p hp
    rw [List.mem_toFinset] at hp
    have h1 := h.key p.1 (List.of_mem_zip hp).1
    have h2 := h.spin p.2 (List.of_mem_zip hp).2
    rw [Finset.mem_product]
    simp only [List.mem_toFinset, List.mem_cons, List.not_mem_nil, or_false]
    exact ⟨h1, h2⟩
  refine le_trans (Finset.card_le_card this) ?_
  decide

theorem uSizes_ok (sa sb : Space) : ∃ sizes, uSizes sa sb = .ok sizes ∧
    ∀ c s, (c = 'o' ∨ c = 'O' ∨ c = 'v' ∨ c = 'V') → (s = 'a' ∨ s = 'b') →
      sizes.get? [c, s] = some (sz2 sa sb (c, s)) := by
  refine ⟨_, rfl, ?_⟩
  intro c s hc hs
  rcases hc with rfl | rfl | rfl | rfl <;> rcases hs with rfl | rfl <;> rfl

theorem uShape_ok {sa sb : Space} {key spin : List Char} (h : KeySpin key spin) :
    uShape sa sb spin key = .ok ((key.zip spin).map (sz2 sa sb)) := by
  have e : key.zip spin = (spin.zip key).map Prod.swap := by
    rw [List.zip_swap]
  rw [e, List.map_map]
  unfold uShape
  refine mapM_ok _ _ _ fun p hp => ?_
  have h1 := h.spin p.1 (List.of_mem_zip hp).1
  have h2 := h.key p.2 (List.of_mem_zip hp).2
  obtain ⟨s, k⟩ := p
  simp only [Function.comp, Prod.swap, sz2] at h1 h2 ⊢
  rcases h1 with rfl | rfl
  · rw [if_pos rfl, if_pos rfl]; exact size_ok sa k h2
  · exact size_ok sb k h2

theorem spinItem_ok {R : Type} [Ring R] (h2 : ∀ x : R, x + x = 0 → x = 0) {sa sb : Space}
    {sizes : Dict (List Char) Nat} {key spin : List Char} (h : KeySpin key spin)
    (hs : ∀ c s, (c = 'o' ∨ c = 'O' ∨ c = 'v' ∨ c = 'V') → (s = 'a' ∨ s = 'b') →
      sizes.get? [c, s] = some (sz2 sa sb (c, s))) :
    (spinItem R sa sb sizes key spin).OK := by
  obtain ⟨sub, osizes, c1, c2, g, g1, g2, g3⟩ := combine_two key spin sizes (sz2 sa sb) h.len h.ne h.card
    fun p hp => hs p.1 p.2 (h.key _ (List.of_mem_zip hp).1) (h.spin _ (List.of_mem_zip hp).2)
  let sz : Char → Nat := fun c => (osizes.get? c).getD 0
  have hszg : ∀ p ∈ key.zip spin, sz (g p) = sz2 sa sb p := fun p hp => by simp only [sz, g3 p hp]; rfl
  have hshape : sub.map sz = (key.zip spin).map (sz2 sa sb) := by
    rw [g1, List.map_map]
    exact List.map_congr_left fun p hp => hszg p hp
  have hsub : sub ≠ [] := by
    rw [g1]
    intro he
    have h0 : (key.zip spin).length = 0 := by rw [List.map_eq_nil_iff.1 he]; rfl
    rw [List.length_zip] at h0
    have h1 := h.len
    exact h.ne (List.length_eq_zero_iff.1 (by omega))
  have hget : ∀ c ∈ sub, osizes.get? c = some (sz c) := by
    intro c hc
    rw [g1] at hc
    obtain ⟨p, hp, rfl⟩ := List.mem_map.1 hc
    rw [hszg p hp]; exact g3 p hp
  have hprod : ((firstOccurrences sub).map fun c => (sz c).choose (sub.count c)).prod
      = blockSize sa sb key spin := by
    unfold blockSize
    rw [g1, firstOccurrences_map _ _ g2, List.map_map]
    congr 1
    refine List.map_congr_left fun p hp => ?_
    have hp' := firstOccurrences_mem _ p hp
    simp only [Function.comp]
    rw [hszg p hp', count_map_inj _ _ g2 p hp']
  have hcs : getCompressedSize sub osizes = .ok (blockSize sa sb key spin) := by
    obtain ⟨out, _, _, e1, e2⟩ := C04_size sub sz osizes hget (NDArray.zeros (R := Int) (sub.map sz)) rfl
    rw [e1, e2, hprod]
  have hntril : ((firstOccurrences sub).map fun c => ntrilNdim (sz c) (sub.count c) false).prod
      = blockSize sa sb key spin := by
    rw [← hprod]
    congr 1
    exact List.map_congr_left fun c _ => (C03_binomial _ _).1
  have hun : ∀ vec i, (spinItem R sa sb sizes key spin).un vec i = (decompressAxes sub
      (vecSlice vec i (blockSize sa sb key spin)) (sub.map sz) false none).map
        fun tn => (tn, i + blockSize sa sb key spin) := by
    intro vec i
    simp only [spinItem, c1, bind, Except.bind, hcs, uShape_ok h, hshape, Except.map, pure, Except.pure]
  have hpack : ∀ a, (spinItem R sa sb sizes key spin).pack a = (compressAxes sub a false).map
      fun c => c.ravel := by
    intro a
    simp only [spinItem, c2, bind, Except.bind, Except.map, pure, Except.pure]
  have hblock : (none : Option (List Char)).getD (List.replicate sub.length '-')
      = blockString sub (fun _ => '-') := (blockString_const sub '-').symm
  refine ⟨?_, ?_, ?_⟩
  · rintro a ⟨a1, a2, a3⟩
    rw [← hshape] at a2
    rw [← groupSymmetric_map _ g g2, ← g1] at a3
    obtain ⟨packed, p1, p2⟩ := C06_antisymmetric h2 sub hsub sz a a1 a2 a3
    obtain ⟨out, q1, q2, q3, q4⟩ := C04_size sub sz osizes hget a a2
    rw [p1] at q1
    cases q1
    have hlen : packed.data.length = blockSize sa sb key spin := by rw [q4, hprod]
    refine ⟨packed.data, a, by rw [hpack, p1]; rfl, hlen, rfl, fun pre post => ?_⟩
    rw [hun, vecSlice_mid _ _ _ _ hlen, ← a2, p2]
    rfl
  · intro v hv
    have hv' : v.length = blockSize sa sb key spin := hv
    obtain ⟨out, packed, r1, r2, r3⟩ := C05_roundtrip sub hsub sz false none (fun _ => '-') hblock (Or.inl rfl) v
      (by rw [hv', hntril])
    obtain ⟨out', s1, s2, s3, _⟩ := C07_symmetry sub hsub sz false none (fun _ => '-') hblock (Or.inl rfl) v
      (by rw [hv', hntril])
    rw [r1] at s1
    cases s1
    have hwf : out.WF := decompressAxes_wf r1
    refine ⟨out, ⟨hwf, by rw [s2, hshape], ?_⟩, ?_, fun pre post => ?_⟩
    · rw [← groupSymmetric_map _ g g2, ← g1]; exact s3
    · rw [hpack, r2, ← r3]; rfl
    · rw [hun, vecSlice_mid _ _ _ _ hv', r1]; rfl
  · intro vec i x j hu
    rw [hun] at hu
    simp only [Except.map] at hu
    split at hu
    · cases hu
    · cases hu; rfl

end Ebcc
