import Verif.Lemmas.Amps
import Verif.Thms.C09
import Verif.Thms.C34
import Mathlib.Data.Nat.Cast.Order.Basic
import Mathlib.Algebra.CharZero.Defs

/-!
C36: the fixed points of the amplitude update.
-/

namespace Ebcc

open Dict

instance {R : Type} : Inhabited (NDArray R) := ⟨⟨[], []⟩⟩

section
variable {K : Type} [Field K]

/-- All elements vanish. -/
def IsZero {R : Type} [Zero R] (a : NDArray R) : Prop := ∀ idx, ValidIdx a.shape idx → a.get idx = 0

/-! ### Restricted and generalised -/

theorem updateItem_mid (energy : Except PyErr (NDArray K)) (old pre post : Dict (List Char) (NDArray K))
    (name : List Char) (x e q t y : NDArray K) (hn : name ∉ pre.keys) (he : energy = .ok e) (hq : x.div e = .ok q)
    (ht : old.get? name = some t) (hy : q.add t = .ok y) :
    updateItem energy old true (pre ++ (name, x) :: post) name = .ok (pre ++ (name, y) :: post) := by
  unfold updateItem Dict.getItem
  rw [get?_mid _ _ _ _ hn, he, ht]
  simp only [bind, Except.bind, hq, hy, pure, Except.pure, if_true]
  rw [set_mid _ _ _ _ _ hn]

theorem updateFold_ok {α : Type} (f : α → List Char) (energy : α → Except PyErr (NDArray K))
    (old : Dict (List Char) (NDArray K))
    (x e q t y : α → NDArray K) (L : List α) (hn : (L.map f).Nodup) (he : ∀ a ∈ L, energy a = .ok (e a))
    (hq : ∀ a ∈ L, (x a).div (e a) = .ok (q a)) (ht : ∀ a ∈ L, old.get? (f a) = some (t a))
    (hy : ∀ a ∈ L, (q a).add (t a) = .ok (y a)) (pre post : Dict (List Char) (NDArray K))
    (hp : ∀ a ∈ L, f a ∉ pre.keys) :
    L.foldlM (fun res a => updateItem (energy a) old true res (f a)) (pre ++ ((L.map fun a => (f a, x a)) ++ post))
      = .ok (pre ++ ((L.map fun a => (f a, y a)) ++ post)) := by
  induction L generalizing pre with
  | nil => rfl
  | cons a L ih =>
    rw [List.map_cons, List.nodup_cons] at hn
    rw [List.foldlM_cons, List.map_cons, List.cons_append,
      updateItem_mid _ _ _ _ _ _ (e a) (q a) (t a) (y a) (hp a (by simp)) (he a (by simp)) (hq a (by simp))
        (ht a (by simp)) (hy a (by simp))]
    have e1 : pre ++ (f a, y a) :: ((L.map fun a => (f a, x a)) ++ post)
        = (pre ++ [(f a, y a)]) ++ ((L.map fun a => (f a, x a)) ++ post) := by simp
    simp only [bind, Except.bind]
    rw [e1, ih hn.2 (fun b hb => he b (by simp [hb])) (fun b hb => hq b (by simp [hb]))
      (fun b hb => ht b (by simp [hb])) (fun b hb => hy b (by simp [hb]))]
    · simp
    · intro b hb
      simp only [Dict.keys, List.map_append, List.map_cons, List.map_nil, List.mem_append, List.mem_singleton, not_or]
      refine ⟨hp b (by simp [hb]), ?_⟩
      intro h
      exact hn.1 (h ▸ List.mem_map_of_mem hb)

/-- The three loops as one. -/
theorem updateLoops_eq (energy : List Char → Except PyErr (NDArray K)) (fs bs : List Rank) (cs : List CRank)
    (h1 : ∀ r ∈ cs, r.2.2.1 = 1) (old res : Dict (List Char) (NDArray K)) (b : Bool) :
    updateLoops energy fs bs cs old b res
      = (entries fs bs cs).foldlM (fun res e => updateItem (energy e.2) old b res e.1) res := by
  unfold updateLoops entries
  rw [List.foldlM_append, List.foldlM_map]
  congr 1
  funext r1
  rw [List.foldlM_append, List.foldlM_map]
  congr 1
  funext r2
  rw [List.foldlM_map]
  refine foldlM_congr_mem _ _ _ _ ?_
  intro r hr st
  rw [if_neg (by simp [h1 r hr])]

/-- The division and addition of the update, for amplitudes and lambda amplitudes. -/
theorem updateLoops_ok36 (setOrder : List Char → List Char) (ho : IsSetOrder setOrder) {a : Ansatz} {spin : SpinType} {which : Which}
    {fs bs : List Rank} {cs : List CRank} (h : HasRanks a spin which fs bs cs) (hw : which = .t ∨ which = .l) (h1 : ∀ r ∈ cs, r.2.2.1 = 1)
    (h9 : a.bosonCouplingRank ≤ 9) (hnd : ((entries fs bs cs).map fun e => e.1).Nodup)
    (env : EnergyEnv K) (en : Char → List K)
    (he : ∀ e ∈ entries fs bs cs, ∀ k ∈ e.2, HasEnergies env (k, '_') (en k))
    (T r : List Char × List Char → NDArray K)
    (hT : ∀ e ∈ entries fs bs cs, (T e).WF ∧ (T e).shape = e.2.map fun k => (en k).length)
    (hr : ∀ e ∈ entries fs bs cs, (r e).WF ∧ (r e).shape = e.2.map fun k => (en k).length) :
    ∃ new : List Char × List Char → NDArray K,
      updateLoops (fun key => (energySum setOrder env key []).1) fs bs cs ((entries fs bs cs).map fun e => (e.1, T e)) true
        (renameNew ((entries fs bs cs).map fun e => (e.1 ++ "new".toList, r e))) = .ok ((entries fs bs cs).map fun e => (e.1, new e)) ∧
      ∀ e ∈ entries fs bs cs, (new e).WF ∧ (new e).shape = (e.2.map fun k => (en k).length) ∧
        ∀ idx, ValidIdx (new e).shape idx → (new e).get idx
          = (r e).get idx / ((e.2.zip idx).map fun x => indexSign [] x.1 * (en x.1).getD x.2 0).sum
            + (T e).get idx := by
  have hg := good_entries h hw h9 h1
  have key : ∀ e : List Char × List Char, e ∈ entries fs bs cs → ∃ E q y : NDArray K,
      (energySum setOrder env e.2 []).1 = .ok E ∧ (r e).div E = .ok q ∧ q.add (T e) = .ok y ∧ y.WF ∧
      y.shape = (e.2.map fun k => (en k).length) ∧ ∀ idx, ValidIdx y.shape idx → y.get idx
          = (r e).get idx / ((e.2.zip idx).map fun x => indexSign [] x.1 * (en x.1).getD x.2 0).sum
            + (T e).get idx := by
    intro e hm
    obtain ⟨E, e1, e2, e3, e4⟩ := C39_elements setOrder ho env e.2 [] en (hg e hm).ne (hg e hm).short
      (hg e hm).chars (he e hm)
    obtain ⟨q, q1, q2, q3, q4⟩ := div_ok (r e) E (hr e hm).1 e3 ((hr e hm).2.trans e2.symm)
    obtain ⟨y, y1, y2, y3, y4⟩ := add_ok q (T e) q3 (hT e hm).1 (q2.trans ((hr e hm).2.trans (hT e hm).2.symm))
    refine ⟨E, q, y, e1, q1, y1, y3, y2.trans (q2.trans (hr e hm).2), fun idx hidx => ?_⟩
    rw [y4, q4, e4 idx]
    rw [e2]
    rwa [y2, q2, (hr e hm).2] at hidx
  choose! E q new k1 k2 k3 k4 k5 k6 using key
  refine ⟨new, ?_, fun e hm => ⟨k4 e hm, k5 e hm, k6 e hm⟩⟩
  rw [renameNew_names _ (fun e => e.1) _ hnd fun e hm => (hg e hm).plain, updateLoops_eq _ _ _ _ h1]
  have := updateFold_ok (fun e : List Char × List Char => e.1) (fun e => (energySum setOrder env e.2 []).1)
    ((entries fs bs cs).map fun e => (e.1, T e)) r E q T new (entries fs bs cs) hnd k1 k2
    (fun e hm => get?_map_mem _ (fun e : List Char × List Char => e.1) T hnd e hm) k3 [] [] (by simp [Dict.keys])
  simpa using this

/-- The update, element by element: residual over energy denominator plus old amplitude, for every amplitude of
the ansatz.  `T e` and `r e` are the old amplitude and the residual of the entry `e` (name and key). -/
theorem C36_update (setOrder : List Char → List Char) (ho : IsSetOrder setOrder) {a : Ansatz} {spin : SpinType}
    {fs bs : List Rank} {cs : List CRank} (h : HasRanks a spin .t fs bs cs) (h1 : ∀ r ∈ cs, r.2.2.1 = 1)
    (h9 : a.bosonCouplingRank ≤ 9) (hnd : ((entries fs bs cs).map fun e => e.1).Nodup)
    (env : EnergyEnv K) (en : Char → List K)
    (he : ∀ e ∈ entries fs bs cs, ∀ k ∈ e.2, HasEnergies env (k, '_') (en k))
    (func : Dict (List Char) (NDArray K) → Except PyErr (Dict (List Char) (NDArray K)))
    (T r : List Char × List Char → NDArray K)
    (hT : ∀ e ∈ entries fs bs cs, (T e).WF ∧ (T e).shape = e.2.map fun k => (en k).length)
    (hr : ∀ e ∈ entries fs bs cs, (r e).WF ∧ (r e).shape = e.2.map fun k => (en k).length)
    (hf : func ((entries fs bs cs).map fun e => (e.1, T e))
      = .ok ((entries fs bs cs).map fun e => (e.1 ++ "new".toList, r e))) :
    ∃ new : List Char × List Char → NDArray K,
      updateAmps a spin (fun key => (energySum setOrder env key []).1) func
        ((entries fs bs cs).map fun e => (e.1, T e)) = .ok ((entries fs bs cs).map fun e => (e.1, new e)) ∧
      ∀ e ∈ entries fs bs cs, (new e).WF ∧ (new e).shape = (e.2.map fun k => (en k).length) ∧
        ∀ idx, ValidIdx (new e).shape idx → (new e).get idx
          = (r e).get idx / ((e.2.zip idx).map fun x => indexSign [] x.1 * (en x.1).getD x.2 0).sum
            + (T e).get idx := by
  obtain ⟨new, n1, n2⟩ := updateLoops_ok36 setOrder ho h (Or.inl rfl) h1 h9 hnd env en he T r hT hr
  refine ⟨new, ?_, n2⟩
  unfold updateAmps
  rw [hf, h.f, h.b, h.c]
  exact n1

/-- The update leaves the amplitudes unchanged exactly when all residuals vanish. -/
theorem C36_fixed_point (setOrder : List Char → List Char) (ho : IsSetOrder setOrder) {a : Ansatz} {spin : SpinType}
    {fs bs : List Rank} {cs : List CRank} (h : HasRanks a spin .t fs bs cs) (h1 : ∀ r ∈ cs, r.2.2.1 = 1)
    (h9 : a.bosonCouplingRank ≤ 9) (hnd : ((entries fs bs cs).map fun e => e.1).Nodup)
    (env : EnergyEnv K) (en : Char → List K)
    (he : ∀ e ∈ entries fs bs cs, ∀ k ∈ e.2, HasEnergies env (k, '_') (en k))
    (hden : ∀ e ∈ entries fs bs cs, ∀ idx, ValidIdx (e.2.map fun k => (en k).length) idx →
      ((e.2.zip idx).map fun x => (indexSign [] x.1 : K) * (en x.1).getD x.2 0).sum ≠ 0)
    (func : Dict (List Char) (NDArray K) → Except PyErr (Dict (List Char) (NDArray K)))
    (T r : List Char × List Char → NDArray K)
    (hT : ∀ e ∈ entries fs bs cs, (T e).WF ∧ (T e).shape = e.2.map fun k => (en k).length)
    (hr : ∀ e ∈ entries fs bs cs, (r e).WF ∧ (r e).shape = e.2.map fun k => (en k).length)
    (hf : func ((entries fs bs cs).map fun e => (e.1, T e))
      = .ok ((entries fs bs cs).map fun e => (e.1 ++ "new".toList, r e))) :
    updateAmps a spin (fun key => (energySum setOrder env key []).1) func
        ((entries fs bs cs).map fun e => (e.1, T e)) = .ok ((entries fs bs cs).map fun e => (e.1, T e)) ↔
      ∀ e ∈ entries fs bs cs, IsZero (r e) := by
  obtain ⟨new, n1, n2⟩ := C36_update setOrder ho h h1 h9 hnd env en he func T r hT hr hf
  rw [n1, Except.ok.injEq, List.map_inj_left]
  simp only [Prod.mk.injEq, true_and]
  refine forall₂_congr fun e hm => ?_
  obtain ⟨w, s, g⟩ := n2 e hm
  constructor
  · intro heq idx hidx
    have hidx' : ValidIdx (new e).shape idx := by rw [s, ← (hr e hm).2]; exact hidx
    have := g idx hidx'
    rw [heq] at this
    have hd := hden e hm idx (by rw [← s]; exact hidx')
    have h0 := (right_eq_add.1 this)
    rw [div_eq_zero_iff] at h0
    exact h0.resolve_right hd
  · intro hz
    refine NDArray.ext_get w (hT e hm).1 (s.trans (hT e hm).2.symm) fun idx hidx => ?_
    rw [g idx hidx, hz idx (by rw [(hr e hm).2, ← s]; exact hidx), zero_div, zero_add]

/-! ### Unrestricted -/

theorem get?_of_mem {κ ν : Type} [DecidableEq κ] (d : Dict κ ν) (hn : d.keys.Nodup) (k : κ) (v : ν) (h : (k, v) ∈ d) :
    d.get? k = some v := by
  induction d with
  | nil => simp at h
  | cons p d ih =>
    obtain ⟨a, b⟩ := p
    simp only [Dict.keys, List.map_cons, List.nodup_cons] at hn
    rw [Dict.get?]
    rcases List.mem_cons.1 h with h | h
    · cases h; simp
    · rw [if_neg, ih hn.2 h]
      rintro rfl
      exact hn.1 (List.mem_map.2 ⟨_, h, rfl⟩)

/-- A loop that replaces the entries of a dictionary one by one. -/
theorem fold_mid {α ν : Type} (f : α → List Char) (x y : α → ν)
    (step : Dict (List Char) ν → α → Except PyErr (Dict (List Char) ν)) (L : List α)
    (hs : ∀ a ∈ L, ∀ pre post, f a ∉ Dict.keys pre →
      step (pre ++ (f a, x a) :: post) a = .ok (pre ++ (f a, y a) :: post))
    (hn : (L.map f).Nodup) (pre post : Dict (List Char) ν) (hp : ∀ a ∈ L, f a ∉ pre.keys) :
    L.foldlM step (pre ++ ((L.map fun a => (f a, x a)) ++ post))
      = .ok (pre ++ ((L.map fun a => (f a, y a)) ++ post)) := by
  induction L generalizing pre with
  | nil => rfl
  | cons a L ih =>
    rw [List.map_cons, List.nodup_cons] at hn
    rw [List.foldlM_cons, List.map_cons, List.cons_append, hs a (by simp) _ _ (hp a (by simp))]
    have e1 : pre ++ (f a, y a) :: ((L.map fun a => (f a, x a)) ++ post)
        = (pre ++ [(f a, y a)]) ++ ((L.map fun a => (f a, x a)) ++ post) := by simp
    simp only [bind, Except.bind]
    rw [e1, ih (fun b hb => hs b (by simp [hb])) hn.2]
    · simp
    · intro b hb
      simp only [Dict.keys, List.map_append, List.map_cons, List.map_nil, List.mem_append, List.mem_singleton, not_or]
      refine ⟨hp b (by simp [hb]), ?_⟩
      intro h
      exact hn.1 (h ▸ List.mem_map_of_mem hb)

/-- Energy sums do not change when indices of the same class and spin are exchanged. -/
theorem signedSum_swap (signs : Dict Char (List Char)) (en : Char × Char → List K) (pairs : List (Char × Char))
    (idx : List Nat) (hl : idx.length = pairs.length) (i j : Nat) (c : Char × Char) (hij : i < j)
    (hi : pairs[i]? = some c) (hj : pairs[j]? = some c) :
    signedSum signs en pairs (swapIdx i j idx) = signedSum signs en pairs idx := by
  obtain ⟨hi', hi''⟩ := List.getElem?_eq_some_iff.1 hi
  obtain ⟨hj', hj''⟩ := List.getElem?_eq_some_iff.1 hj
  have hz : ∀ m : List Nat, m.length = pairs.length →
      pairs.zip m = (List.range pairs.length).map fun p => (pairs.getD p c, m.getD p 0) := by
    intro m hm
    apply List.ext_getElem
    · simp [hm]
    · intro p p1 p2
      have h1 : p < pairs.length := by simpa using p2
      simp [List.getElem?_eq_getElem h1, List.getElem?_eq_getElem (by omega : p < m.length)]
  unfold signedSum
  rw [hz _ (by rw [swapIdx_length, hl]), hz _ hl]
  have e : ((List.range pairs.length).map fun p => (pairs.getD p c, (swapIdx i j idx).getD p 0))
      = ((List.range pairs.length).map (swapNat i j)).map fun p => (pairs.getD p c, idx.getD p 0) := by
    rw [List.map_map]
    apply List.map_congr_left
    intro p hp
    rw [List.mem_range] at hp
    rw [swapIdx_getD _ _ _ _ (by omega)]
    simp only [Function.comp]
    congr 1
    unfold swapNat
    split
    · rename_i h; subst h; simp [hi'', hj'', List.getElem?_eq_getElem hi', List.getElem?_eq_getElem hj']
    · split
      · rename_i h; subst h; simp [hi'', hj'', List.getElem?_eq_getElem hi', List.getElem?_eq_getElem hj']
      · rfl
  rw [e]
  have hp : ((List.range pairs.length).map (swapNat i j)).Perm (List.range pairs.length) := by
    have := swapIdx_perm (i := i) (j := j) (l := List.range pairs.length) (by simpa using hi') (by simpa using hj')
    unfold swapIdx at this
    rw [List.length_range] at this
    refine List.Perm.trans (List.Perm.of_eq ?_) this
    apply List.map_congr_left
    intro p hp
    rw [List.mem_range] at hp
    have : swapNat i j p < pairs.length := swapNat_lt hi' hj' hp
    simp [this]
  exact ((hp.map _).map _).sum_eq

/-- A spin block in the basis of given energies: the right shape, antisymmetric in axes of the same class and
spin. -/
def SpinBlock (en : Char × Char → List K) (key spin : List Char) (a : NDArray K) : Prop :=
  a.WF ∧ a.shape = ((key.zip spin).map fun p => (en p).length) ∧ GroupSymmetric (key.zip spin) (fun _ => '-') a

/-- The factor by which `symmetrise` scales an antisymmetric block: the product of `k! / 2 ^ (k - 1)` over the
groups of `k` indices of the same class and spin. -/
def spinFactor (pairs : List (Char × Char)) : K :=
  ((((firstOccurrences pairs).map fun c => Nat.factorial (pairs.count c)).prod : Nat) : K)
    / 2 ^ ((firstOccurrences pairs).map fun c => pairs.count c - 1).sum

theorem sizes_get? (l : List (Char × Char)) (g : Char × Char → Nat) (p : Char × Char) (hp : p ∈ l) :
    Dict.get? (l.map fun p => ([p.1, p.2], g p)) [p.1, p.2] = some (g p) := by
  induction l with
  | nil => simp at hp
  | cons q l ih =>
    rw [List.map_cons, Dict.get?]
    by_cases h : q = p
    · subst h; simp
    · have hne : [q.1, q.2] ≠ [p.1, p.2] := by
        intro he
        simp only [List.cons.injEq, and_true] at he
        exact h (Prod.ext he.1 he.2)
      rw [if_neg hne]
      exact ih ((List.mem_cons.1 hp).resolve_left fun h' => h h'.symm)

theorem combine_block (en : Char × Char → List K) {key spin : List Char} (hk : KeySpin key spin) :
    ∃ sub, combineSubscripts [key, spin] [] = .ok (sub, []) ∧ sub.length = key.length ∧ sub ≠ [] ∧
      (∃ sz : Char → Nat, sub.map sz = (key.zip spin).map fun p => (en p).length) ∧
      (∀ a : NDArray K, GroupSymmetric sub (fun _ => '-') a ↔ GroupSymmetric (key.zip spin) (fun _ => '-') a) ∧
      ((firstOccurrences sub).map fun c => sub.count c)
        = (firstOccurrences (key.zip spin)).map fun c => (key.zip spin).count c := by
  obtain ⟨sub, osizes, _, c2, g, g1, g2, g3⟩ := combine_two key spin
    ((key.zip spin).map fun p => ([p.1, p.2], (en p).length)) (fun p => (en p).length) hk.len hk.ne hk.card
    (sizes_get? _ _)
  refine ⟨sub, c2, by rw [g1]; simp [hk.len], ?_, ⟨fun c => (osizes.get? c).getD 0, ?_⟩, ?_, ?_⟩
  · rw [g1]
    intro h
    have hl := congrArg List.length h
    simp only [List.length_map, List.length_zip, List.length_nil] at hl
    have := hk.len
    have : key.length ≠ 0 := by simpa using hk.ne
    omega
  · rw [g1, List.map_map]
    apply List.map_congr_left
    intro p hp
    simp [g3 p hp]
  · intro a
    rw [g1]
    exact groupSymmetric_map _ g g2 '-' a
  · rw [g1, firstOccurrences_map _ g g2, List.map_map]
    apply List.map_congr_left
    intro p hp
    exact count_map_inj _ g g2 p (firstOccurrences_mem _ p hp)

/-- One spin block of the update. -/
theorem uUpdateBlock_ok (h2 : (2 : K) ≠ 0) (setOrder : List Char → List Char) (ho : IsSetOrder setOrder)
    (env : EnergyEnv K) (en : Char × Char → List K) {key spin : List Char} (hk : KeySpin key spin)
    (h26 : key.length ≤ 26) (n : Nat) (hn : key.length = 2 * n)
    (he : ∀ p ∈ key.zip spin, HasEnergies env p (en p)) (v old : UVal K) (x t : NDArray K)
    (hv : v.block spin = .ok x) (ho' : old.block spin = .ok t) (hx : SpinBlock en key spin x)
    (ht : SpinBlock en key spin t) :
    ∃ z : NDArray K, (∀ d, uUpdateBlock (fun key spins => (uEnergySum setOrder env key spins []).1) key n v old d spin
        = .ok (d.set spin z)) ∧ z.WF ∧ z.shape = ((key.zip spin).map fun p => (en p).length) ∧
      ∀ idx, ValidIdx z.shape idx → z.get idx
        = spinFactor (key.zip spin) * (x.get idx / signedSum [] en (key.zip spin) idx + t.get idx) := by
  obtain ⟨sub, s1, s2, s3, ⟨sz, s4⟩, s5, s6⟩ := combine_block en hk
  have hkc : ∀ k ∈ key, k ∈ "vVaoOib".toList := by
    intro k hk'
    rcases hk.key k hk' with rfl | rfl | rfl | rfl <;> decide
  obtain ⟨E, e1, e2, e3, e4⟩ := C39_elements_unrestricted setOrder ho env key spin [] en hk.len hk.ne h26 hkc he
  obtain ⟨q, q1, q2, q3, q4⟩ := div_ok x E hx.1 e3 (hx.2.1.trans e2.symm)
  obtain ⟨y, y1, y2, y3, y4⟩ := add_ok q t q3 ht.1 (q2.trans (hx.2.1.trans ht.2.1.symm))
  have ysh : y.shape = (key.zip spin).map fun p => (en p).length := y2.trans (q2.trans hx.2.1)
  have hlen : ∀ idx, ValidIdx y.shape idx → idx.length = (key.zip spin).length := by
    intro idx h
    have := List.Forall₂.length_eq h
    rw [ysh] at this
    simpa using this
  have hE : ∀ idx, ValidIdx y.shape idx → E.get idx = signedSum [] en (key.zip spin) idx := by
    intro idx h
    exact e4 idx (by rw [e2, ← ysh]; exact h)
  have hysym : GroupSymmetric (key.zip spin) (fun _ => '-') y := by
    intro i j c hij hi hj idx hidx
    obtain ⟨hi', hi''⟩ := List.getElem?_eq_some_iff.1 hi
    obtain ⟨hj', hj''⟩ := List.getElem?_eq_some_iff.1 hj
    have hidx' : ValidIdx y.shape (swapIdx i j idx) :=
      swapIdx_inBox (sub := key.zip spin) ⟨fun p => (en p).length, ysh⟩ hi' hj' (hi''.trans hj''.symm) hidx
    have hx' := hx.2.2 i j c hij hi hj idx (by rw [hx.2.1, ← ysh]; exact hidx)
    have ht' := ht.2.2 i j c hij hi hj idx (by rw [ht.2.1, ← ysh]; exact hidx)
    rw [y4, y4, q4, q4, hx', ht', hE _ hidx, hE _ hidx',
      signedSum_swap [] en _ idx (hlen idx hidx) i j c hij hi hj]
    ring
  obtain ⟨z, z1, z2, z3, z4⟩ := C09_scaling h2 sub s3 sz y (ysh.trans s4.symm) '-'
    (some (List.replicate (2 * n) '-')) (by simp [s2, hn]) ((s5 y).2 hysym)
  refine ⟨z, fun d => ?_, z3, z2.trans ysh, fun idx hidx => ?_⟩
  · unfold uUpdateBlock
    rw [s1]
    simp only [bind, Except.bind, hv, e1, q1, ho', y1, z1, pure, Except.pure]
  · have hidx' : ValidIdx y.shape idx := by rw [← z2]; exact hidx
    have := z4 idx hidx'
    have hexp : ((firstOccurrences sub).map fun c => sub.count c - 1)
        = ((firstOccurrences (key.zip spin)).map fun c => (key.zip spin).count c - 1) := by
      have := congrArg (List.map fun k => k - 1) s6
      simpa [List.map_map, Function.comp_def] using this
    have hfac : ((firstOccurrences sub).map fun c => Nat.factorial (sub.count c))
        = ((firstOccurrences (key.zip spin)).map fun c => Nat.factorial ((key.zip spin).count c)) := by
      have := congrArg (List.map Nat.factorial) s6
      simpa [List.map_map, Function.comp_def] using this
    rw [hexp, hfac] at this
    rw [← hE idx hidx', ← q4, ← y4, spinFactor, div_mul_eq_mul_div, eq_div_iff (pow_ne_zero _ h2)]
    exact this

/-- The amplitudes of an unrestricted calculation, from their blocks. -/
def uAmpDict (fs bs : List Rank) (cs : List CRank) (suffix : List Char) (F : Rank → List Char → NDArray K)
    (B : Rank → NDArray K) (C : CRank → List Char → NDArray K) : Dict (List Char) (UVal K) :=
  (fs.map fun r => (r.1 ++ suffix, UVal.spins ((generateSpinCombinations r.2.2 false true).map fun s => (s, F r s)))) ++
  ((bs.map fun r => (r.1 ++ suffix, UVal.array (B r))) ++
  cs.map fun r => (r.1 ++ suffix, UVal.spins [(['a', 'a'], C r ['a', 'a']), (['b', 'b'], C r ['b', 'b'])]))

/-- The hypotheses on the blocks: shapes as given by the energies; spin blocks antisymmetric. -/
structure UBlocks (en : Char × Char → List K) (fs bs : List Rank) (cs : List CRank) (F : Rank → List Char → NDArray K)
    (B : Rank → NDArray K) (C : CRank → List Char → NDArray K) : Prop where
  f : ∀ r ∈ fs, ∀ s ∈ generateSpinCombinations r.2.2 false true, SpinBlock en r.2.1 s (F r s)
  b : ∀ r ∈ bs, (B r).WF ∧ (B r).shape = List.replicate r.2.2 (en ('b', '_')).length
  c : ∀ r ∈ cs, ∀ s ∈ [['a', 'a'], ['b', 'b']], (C r s).WF ∧
    (C r s).shape = ((r.2.1.zip (List.replicate r.2.2.2 '_' ++ s)).map fun p => (en p).length)

/-- All energies that occur. -/
structure UEnergies (env : EnergyEnv K) (en : Char × Char → List K) (fs bs : List Rank) (cs : List CRank) : Prop where
  f : ∀ r ∈ fs, ∀ s ∈ generateSpinCombinations r.2.2 false true, ∀ p ∈ r.2.1.zip s, HasEnergies env p (en p)
  b : (bs ≠ [] ∨ cs ≠ []) → HasEnergies env ('b', '_') (en ('b', '_'))
  c : ∀ r ∈ cs, ∀ s ∈ [['a', 'a'], ['b', 'b']], ∀ p ∈ r.2.1.zip (List.replicate r.2.2.2 '_' ++ s),
    HasEnergies env p (en p)

/-- The unrestricted update, for amplitudes and lambda amplitudes. -/
theorem uUpdate_ok36 (h2 : (2 : K) ≠ 0) (setOrder : List Char → List Char) (ho : IsSetOrder setOrder)
    {a : Ansatz} {which : Which} {fs bs : List Rank} {cs : List CRank} (h : HasRanks a .U which fs bs cs) (hw : which = .t ∨ which = .l)
    (h1 : ∀ r ∈ cs, r.2.2.1 = 1) (h9 : a.bosonCouplingRank ≤ 9)
    (hnd : ((entries fs bs cs).map fun e => e.1).Nodup) (env : EnergyEnv K) (en : Char × Char → List K)
    (he : UEnergies env en fs bs cs)
    (func : Dict (List Char) (UVal K) → Except PyErr (Dict (List Char) (UVal K)))
    (F F' : Rank → List Char → NDArray K) (B B' : Rank → NDArray K) (C C' : CRank → List Char → NDArray K)
    (hT : UBlocks en fs bs cs F B C) (hr : UBlocks en fs bs cs F' B' C')
    (hf : func (uAmpDict fs bs cs [] F B C) = .ok (uAmpDict fs bs cs "new".toList F' B' C')) :
    ∃ F'' B'' C'',
      uUpdate a which (fun key spins => (uEnergySum setOrder env key spins []).1) func (uAmpDict fs bs cs [] F B C)
        = .ok (uAmpDict fs bs cs [] F'' B'' C'') ∧
      (∀ r ∈ fs, ∀ s ∈ generateSpinCombinations r.2.2 false true, (F'' r s).WF ∧
        (F'' r s).shape = (F r s).shape ∧ ∀ idx, ValidIdx (F r s).shape idx → (F'' r s).get idx
          = spinFactor (r.2.1.zip s)
            * ((F' r s).get idx / signedSum [] en (r.2.1.zip s) idx + (F r s).get idx)) ∧
      (∀ r ∈ bs, (B'' r).WF ∧ (B'' r).shape = (B r).shape ∧ ∀ idx, ValidIdx (B r).shape idx → (B'' r).get idx
        = (B' r).get idx / signedSum [] en (r.2.1.zip (List.replicate r.2.2 '_')) idx + (B r).get idx) ∧
      (∀ r ∈ cs, ∀ s ∈ [['a', 'a'], ['b', 'b']], (C'' r s).WF ∧ (C'' r s).shape = (C r s).shape ∧
        ∀ idx, ValidIdx (C r s).shape idx → (C'' r s).get idx
          = (C' r s).get idx / signedSum [] en (r.2.1.zip (List.replicate r.2.2.2 '_' ++ s)) idx
            + (C r s).get idx) := by
  have hg := good_entries h hw h9 h1
  have hkeys : ∀ (F : Rank → List Char → NDArray K) B C,
      (uAmpDict fs bs cs [] F B C).keys = (entries fs bs cs).map fun e => e.1 := by
    intro F B C
    simp [uAmpDict, entries, Dict.keys, List.map_append, List.map_map, Function.comp_def]
  have hold : ∀ (k : List Char) (v : UVal K), (k, v) ∈ uAmpDict fs bs cs [] F B C →
      (uAmpDict fs bs cs [] F B C).getItem k = .ok v := by
    intro k v hm
    unfold Dict.getItem
    rw [get?_of_mem _ (by rw [hkeys]; exact hnd) k v hm]
  -- the spin blocks
  have kf : ∀ (r : Rank) (s : List Char), (r ∈ fs ∧ s ∈ generateSpinCombinations r.2.2 false true) →
      ∃ z : NDArray K, (∀ v old : UVal K, v.block s = .ok (F' r s) → old.block s = .ok (F r s) → ∀ d,
        uUpdateBlock (fun key spins => (uEnergySum setOrder env key spins []).1) r.2.1 r.2.2 v old d s
          = .ok (d.set s z)) ∧ z.WF ∧ z.shape = (F r s).shape ∧
      ∀ idx, ValidIdx (F r s).shape idx → z.get idx
        = spinFactor (r.2.1.zip s) * ((F' r s).get idx / signedSum [] en (r.2.1.zip s) idx + (F r s).get idx) := by
    rintro r s ⟨hr', hs⟩
    have hl := key_length h.f hw r hr'
    have hc := combos_spin r.2.2 s hs
    have hk : KeySpin r.2.1 s := ⟨by rw [hl.1, hc.1], hl.2, key_chars h.f r hr', hc.2⟩
    have h26 := (goodEntry_f h.f hw r hr').short
    have mk := fun v old hv ho' => uUpdateBlock_ok h2 setOrder ho env en hk h26 r.2.2 (by rw [hl.1]; omega)
      (he.f r hr' s hs) v old (F' r s) (F r s) hv ho' (hr.f r hr' s hs) (hT.f r hr' s hs)
    have hb : ∀ x : NDArray K, (UVal.spins [(s, x)]).block s = .ok x := by
      intro x
      simp [UVal.block, Dict.getItem, Dict.get?]
    obtain ⟨z, z1, z2, z3, z4⟩ := mk (.spins [(s, F' r s)]) (.spins [(s, F r s)]) (hb _) (hb _)
    refine ⟨z, fun v old hv ho' d => ?_, z2, z3.trans (hT.f r hr' s hs).2.1.symm, fun idx hidx => z4 idx ?_⟩
    · rw [← z1 d]
      unfold uUpdateBlock
      rw [hv, ho', hb, hb]
    · rw [z3, ← (hT.f r hr' s hs).2.1]; exact hidx
  -- bosons
  have kb : ∀ r : Rank, r ∈ bs → ∃ z : NDArray K, (∀ res : Dict (List Char) (UVal K),
      res.getItem r.1 = .ok (.array (B' r)) →
      uUpdateBoson (fun key spins => (uEnergySum setOrder env key spins []).1) (uAmpDict fs bs cs [] F B C) res r
        = .ok (res.set r.1 (.array z))) ∧ z.WF ∧ z.shape = (B r).shape ∧
      ∀ idx, ValidIdx (B r).shape idx → z.get idx
        = (B' r).get idx / signedSum [] en (r.2.1.zip (List.replicate r.2.2 '_')) idx + (B r).get idx := by
    intro r hm
    obtain ⟨hge, hkey⟩ := goodEntry_b h.b r hm
    have hz : r.2.1.zip (List.replicate r.2.2 '_') = List.replicate r.2.2 ('b', '_') := by
      rw [hkey]
      simp
    obtain ⟨E, e1, e2, e3, e4⟩ := C39_elements_unrestricted setOrder ho env r.2.1 (List.replicate r.2.2 '_') [] en
      (by rw [hkey]; simp) hge.ne hge.short hge.chars (by
        intro p hp
        rw [hz, List.mem_replicate] at hp
        rw [hp.2]
        exact he.b (Or.inl (List.ne_nil_of_mem hm)))
    rw [hz, List.map_replicate] at e2
    obtain ⟨q, q1, q2, q3, q4⟩ := div_ok (B' r) E (hr.b r hm).1 e3 ((hr.b r hm).2.trans e2.symm)
    obtain ⟨y, y1, y2, y3, y4⟩ := add_ok q (B r) q3 (hT.b r hm).1 (q2.trans ((hr.b r hm).2.trans (hT.b r hm).2.symm))
    refine ⟨y, fun res hres => ?_, y3, y2.trans (q2.trans ((hr.b r hm).2.trans (hT.b r hm).2.symm)), fun idx hidx => ?_⟩
    · unfold uUpdateBoson
      rw [hres, hold r.1 (.array (B r)) (by
        unfold uAmpDict
        simp only [List.mem_append, List.mem_map, List.append_nil]
        exact Or.inr (Or.inl ⟨r, hm, rfl⟩))]
      simp only [bind, Except.bind, UVal.asArray, e1, q1, y1, pure, Except.pure]
    · rw [y4, q4]
      have := e4 idx (by rw [e2, ← (hT.b r hm).2]; exact hidx)
      rw [this]
      rfl
  -- coupling
  have kc : ∀ (r : CRank) (s : List Char), (r ∈ cs ∧ s ∈ [['a', 'a'], ['b', 'b']]) →
      ∃ z : NDArray K, (∀ v old : UVal K, v.attr s = .ok (C' r s) → old.attr s = .ok (C r s) →
        uUpdateSpin (fun key spins => (uEnergySum setOrder env key spins []).1) r.2.1 r.2.2.2 v old s = .ok z) ∧
      z.WF ∧ z.shape = (C r s).shape ∧ ∀ idx, ValidIdx (C r s).shape idx → z.get idx
        = (C' r s).get idx / signedSum [] en (r.2.1.zip (List.replicate r.2.2.2 '_' ++ s)) idx + (C r s).get idx := by
    rintro r s ⟨hm, hs⟩
    obtain ⟨hge, hkey⟩ := goodEntry_c h.c hw h9 r hm (h1 r hm)
    have hs2 : s.length = 2 := by
      simp only [List.mem_cons, List.not_mem_nil, or_false] at hs
      rcases hs with rfl | rfl <;> rfl
    have hlen : r.2.1.length = (List.replicate r.2.2.2 '_' ++ s).length := by
      rcases hkey with hkey | hkey <;> rw [hkey] <;> simp [hs2]
    obtain ⟨E, e1, e2, e3, e4⟩ := C39_elements_unrestricted setOrder ho env r.2.1 (List.replicate r.2.2.2 '_' ++ s) []
      en hlen hge.ne hge.short hge.chars (he.c r hm s hs)
    obtain ⟨q, q1, q2, q3, q4⟩ := div_ok (C' r s) E (hr.c r hm s hs).1 e3 ((hr.c r hm s hs).2.trans e2.symm)
    obtain ⟨y, y1, y2, y3, y4⟩ := add_ok q (C r s) q3 (hT.c r hm s hs).1
      (q2.trans ((hr.c r hm s hs).2.trans (hT.c r hm s hs).2.symm))
    refine ⟨y, fun v old hv ho' => ?_, y3,
      y2.trans (q2.trans ((hr.c r hm s hs).2.trans (hT.c r hm s hs).2.symm)), fun idx hidx => ?_⟩
    · unfold uUpdateSpin
      simp only [bind, Except.bind, hv, e1, q1, ho', y1]
    · rw [y4, q4]
      have := e4 idx (by rw [e2, ← (hT.c r hm s hs).2]; exact hidx)
      rw [this]
      rfl
  choose! F'' f1 f2 using kf
  choose! B'' b1 b2 using kb
  choose! C'' c1 c2 using kc
  refine ⟨F'', B'', C'', ?_, fun r hr' s hs => f2 r s ⟨hr', hs⟩, b2, fun r hr' s hs => c2 r s ⟨hr', hs⟩⟩
  have hren : renameNew (uAmpDict fs bs cs "new".toList F' B' C') = uAmpDict fs bs cs [] F' B' C' := by
    have e0 : ∀ suffix, uAmpDict fs bs cs suffix F' B' C'
        = (uAmpDict fs bs cs [] F' B' C').map fun e => (e.1 ++ suffix, e.2) := by
      intro suffix
      simp [uAmpDict, List.map_append, List.map_map, Function.comp_def]
    have e1 : ∀ d : Dict (List Char) (UVal K), (d.map fun e => ((fun e : List Char × UVal K => e.1) e,
        (fun e : List Char × UVal K => e.2) e)) = d := by intro d; simp
    rw [e0 "new".toList]
    refine Eq.trans (renameNew_names _ (fun e : List Char × UVal K => e.1) (fun e => e.2) ?_ ?_) (e1 _)
    · have := hkeys F' B' C'
      unfold Dict.keys at this
      rw [this]; exact hnd
    · intro e hm
      have : e.1 ∈ (entries fs bs cs).map fun e => e.1 := by
        rw [← hkeys F' B' C']
        exact List.mem_map_of_mem hm
      obtain ⟨x, hx, hxe⟩ := List.mem_map.1 this
      rw [← hxe]
      exact (hg x hx).plain
  have hnames : ((entries fs bs cs).map fun e => e.1)
      = (fs.map fun r => r.1) ++ ((bs.map fun r => r.1) ++ cs.map fun r => r.1) := by
    simp [entries, List.map_append, List.map_map, Function.comp_def]
  rw [hnames] at hnd
  have n1 := (List.nodup_append.1 hnd).1
  have n23 := (List.nodup_append.1 hnd).2.1
  have d1 := (List.nodup_append.1 hnd).2.2
  have n2 := (List.nodup_append.1 n23).1
  have n3 := (List.nodup_append.1 n23).2.1
  have d2 := (List.nodup_append.1 n23).2.2
  -- the loops
  have l1 := fold_mid (fun r : Rank => r.1)
    (fun r => UVal.spins ((generateSpinCombinations r.2.2 false true).map fun s => (s, F' r s)))
    (fun r => UVal.spins ((generateSpinCombinations r.2.2 false true).map fun s => (s, F'' r s)))
    (uUpdateFermion (fun key spins => (uEnergySum setOrder env key spins []).1) (uAmpDict fs bs cs [] F B C)) fs (by
      intro r hm pre post hpre
      unfold uUpdateFermion Dict.getItem
      rw [get?_mid _ _ _ _ hpre]
      have hold' := hold r.1 (.spins ((generateSpinCombinations r.2.2 false true).map fun s => (s, F r s))) (by
        unfold uAmpDict
        simp only [List.mem_append, List.mem_map, List.append_nil]
        exact Or.inl ⟨r, hm, rfl⟩)
      unfold Dict.getItem at hold'
      rw [hold']
      simp only [bind, Except.bind, UVal.blocks]
      have hblk : ∀ (G : Rank → List Char → NDArray K) s, s ∈ generateSpinCombinations r.2.2 false true →
          (UVal.spins ((generateSpinCombinations r.2.2 false true).map fun s => (s, G r s))).block s = .ok (G r s) := by
        intro G s hs
        unfold UVal.block Dict.getItem
        simp only
        rw [get?_map_mem _ (fun s => s) (fun s => G r s) (by simpa using combos_nodup r.2.2) s hs]
      have := fold_mid (fun s : List Char => s) (F' r) (F'' r)
        (uUpdateBlock (fun key spins => (uEnergySum setOrder env key spins []).1) r.2.1 r.2.2
          (.spins ((generateSpinCombinations r.2.2 false true).map fun s => (s, F' r s)))
          (.spins ((generateSpinCombinations r.2.2 false true).map fun s => (s, F r s))))
        (generateSpinCombinations r.2.2 false true) (by
          intro s hs pre post hp
          rw [f1 r s ⟨hm, hs⟩ _ _ (hblk F' s hs) (hblk F s hs), set_mid _ _ _ _ _ hp])
        (by simpa using combos_nodup r.2.2) [] [] (by simp [Dict.keys])
      simp only [List.nil_append, List.append_nil] at this
      rw [this]
      simp only [pure, Except.pure]
      rw [set_mid _ _ _ _ _ hpre]) n1 []
    ((bs.map fun r => (r.1, UVal.array (B' r))) ++
      cs.map fun r => (r.1, UVal.spins [(['a', 'a'], C' r ['a', 'a']), (['b', 'b'], C' r ['b', 'b'])])) (by simp [Dict.keys])
  have l2 := fold_mid (fun r : Rank => r.1) (fun r => UVal.array (B' r)) (fun r => UVal.array (B'' r))
    (uUpdateBoson (fun key spins => (uEnergySum setOrder env key spins []).1) (uAmpDict fs bs cs [] F B C)) bs (by
      intro r hm pre post hpre
      rw [b1 r hm _ (by unfold Dict.getItem; rw [get?_mid _ _ _ _ hpre]), set_mid _ _ _ _ _ hpre]) n2
    (fs.map fun r => (r.1, UVal.spins ((generateSpinCombinations r.2.2 false true).map fun s => (s, F'' r s))))
    (cs.map fun r => (r.1, UVal.spins [(['a', 'a'], C' r ['a', 'a']), (['b', 'b'], C' r ['b', 'b'])])) (by
      intro r hm hmem
      simp only [Dict.keys, List.map_map, Function.comp_def] at hmem
      exact d1 _ hmem _ (List.mem_append_left _ (List.mem_map_of_mem hm)) rfl)
  have l3 := fold_mid (fun r : CRank => r.1)
    (fun r => UVal.spins [(['a', 'a'], C' r ['a', 'a']), (['b', 'b'], C' r ['b', 'b'])])
    (fun r => UVal.spins [(['a', 'a'], C'' r ['a', 'a']), (['b', 'b'], C'' r ['b', 'b'])])
    (uUpdateCoupling (fun key spins => (uEnergySum setOrder env key spins []).1) (uAmpDict fs bs cs [] F B C)) cs (by
      intro r hm pre post hpre
      unfold uUpdateCoupling
      rw [if_neg (by simp [h1 r hm])]
      have hres : Dict.getItem (pre ++ (r.1, UVal.spins [(['a', 'a'], C' r ['a', 'a']), (['b', 'b'], C' r ['b', 'b'])])
          :: post) r.1 = .ok (UVal.spins [(['a', 'a'], C' r ['a', 'a']), (['b', 'b'], C' r ['b', 'b'])]) := by
        unfold Dict.getItem; rw [get?_mid _ _ _ _ hpre]
      rw [hres, hold r.1 (UVal.spins [(['a', 'a'], C r ['a', 'a']), (['b', 'b'], C r ['b', 'b'])]) (by
        unfold uAmpDict
        simp only [List.mem_append, List.mem_map, List.append_nil]
        exact Or.inr (Or.inr ⟨r, hm, rfl⟩))]
      simp only [bind, Except.bind, pure, Except.pure]
      rw [c1 r ['a', 'a'] ⟨hm, by simp⟩ _ _ rfl rfl, c1 r ['b', 'b'] ⟨hm, by simp⟩ _ _ rfl rfl]
      simp only
      rw [set_mid _ _ _ _ _ hpre]
      rfl) n3
    ((fs.map fun r => (r.1, UVal.spins ((generateSpinCombinations r.2.2 false true).map fun s => (s, F'' r s)))) ++
      bs.map fun r => (r.1, UVal.array (B'' r))) [] (by
      intro r hm hmem
      simp only [Dict.keys, List.map_append, List.map_map, Function.comp_def, List.mem_append] at hmem
      rcases hmem with hmem | hmem
      · exact d1 _ hmem _ (List.mem_append_right _ (List.mem_map_of_mem hm)) rfl
      · exact d2 _ hmem _ (List.mem_map_of_mem hm) rfl)
  unfold uUpdate
  rw [hf, h.f, h.b, h.c]
  simp only [bind, Except.bind]
  rw [hren]
  simp only [List.nil_append, List.append_nil, List.append_assoc] at l1 l2 l3
  have hD : ∀ (F : Rank → List Char → NDArray K) B C, uAmpDict fs bs cs [] F B C
      = (fs.map fun r => (r.1, UVal.spins ((generateSpinCombinations r.2.2 false true).map fun s => (s, F r s)))) ++
        ((bs.map fun r => (r.1, UVal.array (B r))) ++
        cs.map fun r => (r.1, UVal.spins [(['a', 'a'], C r ['a', 'a']), (['b', 'b'], C r ['b', 'b'])])) := by
    intro F B C
    simp [uAmpDict]
  rw [hD F' B' C', l1]
  simp only
  rw [l2]
  simp only
  rw [l3, hD F'' B'' C'']

/-- The unrestricted update, element by element.  Spin blocks are scaled by `spinFactor`. -/
theorem C36_update_unrestricted (h2 : (2 : K) ≠ 0) (setOrder : List Char → List Char) (ho : IsSetOrder setOrder)
    {a : Ansatz} {fs bs : List Rank} {cs : List CRank} (h : HasRanks a .U .t fs bs cs)
    (h1 : ∀ r ∈ cs, r.2.2.1 = 1) (h9 : a.bosonCouplingRank ≤ 9)
    (hnd : ((entries fs bs cs).map fun e => e.1).Nodup) (env : EnergyEnv K) (en : Char × Char → List K)
    (he : UEnergies env en fs bs cs)
    (func : Dict (List Char) (UVal K) → Except PyErr (Dict (List Char) (UVal K)))
    (F F' : Rank → List Char → NDArray K) (B B' : Rank → NDArray K) (C C' : CRank → List Char → NDArray K)
    (hT : UBlocks en fs bs cs F B C) (hr : UBlocks en fs bs cs F' B' C')
    (hf : func (uAmpDict fs bs cs [] F B C) = .ok (uAmpDict fs bs cs "new".toList F' B' C')) :
    ∃ F'' B'' C'',
      uUpdateAmps a (fun key spins => (uEnergySum setOrder env key spins []).1) func (uAmpDict fs bs cs [] F B C)
        = .ok (uAmpDict fs bs cs [] F'' B'' C'') ∧
      (∀ r ∈ fs, ∀ s ∈ generateSpinCombinations r.2.2 false true, (F'' r s).WF ∧
        (F'' r s).shape = (F r s).shape ∧ ∀ idx, ValidIdx (F r s).shape idx → (F'' r s).get idx
          = spinFactor (r.2.1.zip s)
            * ((F' r s).get idx / signedSum [] en (r.2.1.zip s) idx + (F r s).get idx)) ∧
      (∀ r ∈ bs, (B'' r).WF ∧ (B'' r).shape = (B r).shape ∧ ∀ idx, ValidIdx (B r).shape idx → (B'' r).get idx
        = (B' r).get idx / signedSum [] en (r.2.1.zip (List.replicate r.2.2 '_')) idx + (B r).get idx) ∧
      (∀ r ∈ cs, ∀ s ∈ [['a', 'a'], ['b', 'b']], (C'' r s).WF ∧ (C'' r s).shape = (C r s).shape ∧
        ∀ idx, ValidIdx (C r s).shape idx → (C'' r s).get idx
          = (C' r s).get idx / signedSum [] en (r.2.1.zip (List.replicate r.2.2.2 '_' ++ s)) idx
            + (C r s).get idx) :=
  uUpdate_ok36 h2 setOrder ho h (Or.inl rfl) h1 h9 hnd env en he func F F' B B' C C' hT hr hf

/-- The ranks up to doubles have no group of more than two indices of the same class and spin. -/
theorem count_le_two {ansatz : List Char} {which : Which} {fs : List Rank}
    (h : fermionicClusterRanks ansatz .U which = .ok fs) (hw : which = .t ∨ which = .l)
    (r : Rank) (hr : r ∈ fs) (hn : r.2.2 ≤ 2) (s : List Char)
    (hs : s ∈ generateSpinCombinations r.2.2 false true) (p : Char × Char) : (r.2.1.zip s).count p ≤ 2 := by
  obtain ⟨k, rfl⟩ := (C24_well_formed ansatz .U which fs h).2.2 r hr
  have hz : ∀ (key s : List Char), (key.zip s).count p ≤ key.count p.1 := by
    intro key
    induction key with
    | nil => simp
    | cons c key ih =>
      intro s
      cases s with
      | nil => simp
      | cons d s =>
        have := ih s
        simp only [List.zip_cons_cons, List.count_cons]
        by_cases h : ((c, d) == p) = true
        · obtain rfl := beq_iff_eq.1 h
          simp only [beq_self_eq_true, if_true] at this ⊢
          omega
        · rw [if_neg h]
          exact le_trans this (Nat.le_add_right _ _)
  refine le_trans (hz _ s) ?_
  have hall : ∀ c ∈ (Cls.entry which k).2.1, (Cls.entry which k).2.1.count c ≤ 2 := by
    revert hn
    rcases hw with rfl | rfl <;> cases k <;> decide
  by_cases hm : p.1 ∈ (Cls.entry which k).2.1
  · exact hall _ hm
  · rw [List.count_eq_zero_of_not_mem hm]; omega

theorem spinFactor_one (h2 : (2 : K) ≠ 0) (pairs : List (Char × Char)) (h : ∀ p, pairs.count p ≤ 2) :
    (spinFactor pairs : K) = 1 := by
  unfold spinFactor
  have key : ∀ l : List (Char × Char), (∀ p ∈ l, 1 ≤ pairs.count p) →
      (((l.map fun c => Nat.factorial (pairs.count c)).prod : Nat) : K)
        = 2 ^ (l.map fun c => pairs.count c - 1).sum := by
    intro l hl
    induction l with
    | nil => simp
    | cons c l ih =>
      simp only [List.map_cons, List.prod_cons, List.sum_cons, Nat.cast_mul, pow_add]
      rw [ih fun p hp => hl p (by simp [hp])]
      congr 1
      have h1 := hl c (by simp)
      have h2 := h c
      have : pairs.count c = 1 ∨ pairs.count c = 2 := by omega
      rcases this with e | e <;> simp [e]
  rw [key _ fun p hp => List.count_pos_iff.2 (firstOccurrences_mem _ p hp)]
  exact div_self (pow_ne_zero _ h2)

omit [Field K] in
theorem uAmpDict_inj (fs bs : List Rank) (cs : List CRank) (F F' : Rank → List Char → NDArray K)
    (B B' : Rank → NDArray K) (C C' : CRank → List Char → NDArray K) :
    uAmpDict fs bs cs [] F B C = uAmpDict fs bs cs [] F' B' C' ↔
      (∀ r ∈ fs, ∀ s ∈ generateSpinCombinations r.2.2 false true, F r s = F' r s) ∧ (∀ r ∈ bs, B r = B' r) ∧
      ∀ r ∈ cs, ∀ s ∈ [['a', 'a'], ['b', 'b']], C r s = C' r s := by
  unfold uAmpDict
  constructor
  · intro h
    obtain ⟨h1, h2⟩ := List.append_inj h (by simp)
    obtain ⟨h2, h3⟩ := List.append_inj h2 (by simp)
    refine ⟨fun r hr s hs => ?_, fun r hr => ?_, fun r hr s hs => ?_⟩
    · have := List.map_inj_left.1 h1 r hr
      simp only [Prod.mk.injEq, UVal.spins.injEq, true_and] at this
      have := List.map_inj_left.1 this s hs
      simpa using this
    · have := List.map_inj_left.1 h2 r hr
      simpa using this
    · have := List.map_inj_left.1 h3 r hr
      simp only [Prod.mk.injEq, UVal.spins.injEq, true_and, List.cons.injEq, and_true] at this
      simp only [List.mem_cons, List.not_mem_nil, or_false] at hs
      rcases hs with rfl | rfl
      · exact this.1
      · exact this.2
  · rintro ⟨h1, h2, h3⟩
    congr 1
    · apply List.map_congr_left
      intro r hr
      have : ((generateSpinCombinations r.2.2 false true).map fun s => (s, F r s))
          = (generateSpinCombinations r.2.2 false true).map fun s => (s, F' r s) :=
        List.map_congr_left fun s hs => by rw [h1 r hr s hs]
      rw [this]
    · congr 1
      · exact List.map_congr_left fun r hr => by rw [h2 r hr]
      · exact List.map_congr_left fun r hr => by
          rw [h3 r hr ['a', 'a'] (by simp), h3 r hr ['b', 'b'] (by simp)]

/-- Where a scaled update `f * (x / d + t)` with `f = 1` equals `t`. -/
theorem fixed_iff {z t x : NDArray K} {d : List Nat → K} (hz : z.WF) (ht : t.WF) (hzs : z.shape = t.shape)
    (hxs : x.shape = t.shape) (hd : ∀ idx, ValidIdx t.shape idx → d idx ≠ 0)
    (hg : ∀ idx, ValidIdx t.shape idx → z.get idx = x.get idx / d idx + t.get idx) : z = t ↔ IsZero x := by
  constructor
  · intro h idx hidx
    rw [hxs] at hidx
    have := hg idx hidx
    rw [h] at this
    have h0 := right_eq_add.1 this
    rw [div_eq_zero_iff] at h0
    exact h0.resolve_right (hd idx hidx)
  · intro h
    refine NDArray.ext_get hz ht hzs fun idx hidx => ?_
    rw [hzs] at hidx
    rw [hg idx hidx, h idx (by rw [hxs]; exact hidx), zero_div, zero_add]

/-- As above, for amplitudes and lambda amplitudes. -/
theorem uUpdate_fixed36 (h2 : (2 : K) ≠ 0) (setOrder : List Char → List Char)
    (ho : IsSetOrder setOrder) {a : Ansatz} {which : Which} {fs bs : List Rank} {cs : List CRank} (h : HasRanks a .U which fs bs cs) (hw : which = .t ∨ which = .l)
    (h1 : ∀ r ∈ cs, r.2.2.1 = 1) (h9 : a.bosonCouplingRank ≤ 9) (hrank : ∀ r ∈ fs, r.2.2 ≤ 2)
    (hnd : ((entries fs bs cs).map fun e => e.1).Nodup) (env : EnergyEnv K) (en : Char × Char → List K)
    (he : UEnergies env en fs bs cs)
    (hdf : ∀ r ∈ fs, ∀ s ∈ generateSpinCombinations r.2.2 false true, ∀ idx,
      ValidIdx ((r.2.1.zip s).map fun p => (en p).length) idx → signedSum [] en (r.2.1.zip s) idx ≠ 0)
    (hdb : ∀ r ∈ bs, ∀ idx, ValidIdx (List.replicate r.2.2 (en ('b', '_')).length) idx →
      signedSum [] en (r.2.1.zip (List.replicate r.2.2 '_')) idx ≠ 0)
    (hdc : ∀ r ∈ cs, ∀ s ∈ [['a', 'a'], ['b', 'b']], ∀ idx,
      ValidIdx ((r.2.1.zip (List.replicate r.2.2.2 '_' ++ s)).map fun p => (en p).length) idx →
      signedSum [] en (r.2.1.zip (List.replicate r.2.2.2 '_' ++ s)) idx ≠ 0)
    (func : Dict (List Char) (UVal K) → Except PyErr (Dict (List Char) (UVal K)))
    (F F' : Rank → List Char → NDArray K) (B B' : Rank → NDArray K) (C C' : CRank → List Char → NDArray K)
    (hT : UBlocks en fs bs cs F B C) (hr : UBlocks en fs bs cs F' B' C')
    (hf : func (uAmpDict fs bs cs [] F B C) = .ok (uAmpDict fs bs cs "new".toList F' B' C')) :
    uUpdate a which (fun key spins => (uEnergySum setOrder env key spins []).1) func (uAmpDict fs bs cs [] F B C)
        = .ok (uAmpDict fs bs cs [] F B C) ↔
      (∀ r ∈ fs, ∀ s ∈ generateSpinCombinations r.2.2 false true, IsZero (F' r s)) ∧ (∀ r ∈ bs, IsZero (B' r)) ∧
      ∀ r ∈ cs, ∀ s ∈ [['a', 'a'], ['b', 'b']], IsZero (C' r s) := by
  obtain ⟨F'', B'', C'', u1, u2, u3, u4⟩ := uUpdate_ok36 h2 setOrder ho h hw h1 h9 hnd env en he func
    F F' B B' C C' hT hr hf
  rw [u1, Except.ok.injEq, uAmpDict_inj]
  refine and_congr (forall₄_congr fun r hm s hs => ?_) (and_congr (forall₂_congr fun r hm => ?_)
    (forall₄_congr fun r hm s hs => ?_))
  · obtain ⟨w, sh, g⟩ := u2 r hm s hs
    refine fixed_iff (d := signedSum [] en (r.2.1.zip s)) w (hT.f r hm s hs).1 sh
      ((hr.f r hm s hs).2.1.trans (hT.f r hm s hs).2.1.symm) ?_ ?_
    · intro idx hidx
      exact hdf r hm s hs idx (by rw [← (hT.f r hm s hs).2.1]; exact hidx)
    · intro idx hidx
      rw [g idx hidx, spinFactor_one h2 _ (count_le_two h.f hw r hm (hrank r hm) s hs), one_mul]
  · obtain ⟨w, sh, g⟩ := u3 r hm
    refine fixed_iff w (hT.b r hm).1 sh ((hr.b r hm).2.trans (hT.b r hm).2.symm) ?_ g
    intro idx hidx
    exact hdb r hm idx (by rw [← (hT.b r hm).2]; exact hidx)
  · obtain ⟨w, sh, g⟩ := u4 r hm s hs
    refine fixed_iff w (hT.c r hm s hs).1 sh ((hr.c r hm s hs).2.trans (hT.c r hm s hs).2.symm) ?_ g
    intro idx hidx
    exact hdc r hm s hs idx (by rw [← (hT.c r hm s hs).2]; exact hidx)

/-- Unrestricted, amplitudes up to doubles: the update leaves the amplitudes unchanged exactly when all residuals
vanish.  Missing: ranks from three on, where this is false (`C36_unrestricted_triples_not_fixed`). -/
theorem C36_fixed_point_unrestricted_partial (h2 : (2 : K) ≠ 0) (setOrder : List Char → List Char)
    (ho : IsSetOrder setOrder) {a : Ansatz} {fs bs : List Rank} {cs : List CRank} (h : HasRanks a .U .t fs bs cs)
    (h1 : ∀ r ∈ cs, r.2.2.1 = 1) (h9 : a.bosonCouplingRank ≤ 9) (hrank : ∀ r ∈ fs, r.2.2 ≤ 2)
    (hnd : ((entries fs bs cs).map fun e => e.1).Nodup) (env : EnergyEnv K) (en : Char × Char → List K)
    (he : UEnergies env en fs bs cs)
    (hdf : ∀ r ∈ fs, ∀ s ∈ generateSpinCombinations r.2.2 false true, ∀ idx,
      ValidIdx ((r.2.1.zip s).map fun p => (en p).length) idx → signedSum [] en (r.2.1.zip s) idx ≠ 0)
    (hdb : ∀ r ∈ bs, ∀ idx, ValidIdx (List.replicate r.2.2 (en ('b', '_')).length) idx →
      signedSum [] en (r.2.1.zip (List.replicate r.2.2 '_')) idx ≠ 0)
    (hdc : ∀ r ∈ cs, ∀ s ∈ [['a', 'a'], ['b', 'b']], ∀ idx,
      ValidIdx ((r.2.1.zip (List.replicate r.2.2.2 '_' ++ s)).map fun p => (en p).length) idx →
      signedSum [] en (r.2.1.zip (List.replicate r.2.2.2 '_' ++ s)) idx ≠ 0)
    (func : Dict (List Char) (UVal K) → Except PyErr (Dict (List Char) (UVal K)))
    (F F' : Rank → List Char → NDArray K) (B B' : Rank → NDArray K) (C C' : CRank → List Char → NDArray K)
    (hT : UBlocks en fs bs cs F B C) (hr : UBlocks en fs bs cs F' B' C')
    (hf : func (uAmpDict fs bs cs [] F B C) = .ok (uAmpDict fs bs cs "new".toList F' B' C')) :
    uUpdateAmps a (fun key spins => (uEnergySum setOrder env key spins []).1) func (uAmpDict fs bs cs [] F B C)
        = .ok (uAmpDict fs bs cs [] F B C) ↔
      (∀ r ∈ fs, ∀ s ∈ generateSpinCombinations r.2.2 false true, IsZero (F' r s)) ∧ (∀ r ∈ bs, IsZero (B' r)) ∧
      ∀ r ∈ cs, ∀ s ∈ [['a', 'a'], ['b', 'b']], IsZero (C' r s) :=
  uUpdate_fixed36 h2 setOrder ho h (Or.inl rfl) h1 h9 hrank hnd env en he hdf hdb hdc func F F' B B' C C' hT hr hf

theorem pow_le_prod (l : List Nat) (h : ∀ k ∈ l, 1 ≤ k) :
    2 ^ (l.map fun k => k - 1).sum ≤ (l.map Nat.factorial).prod ∧
    ((∃ k ∈ l, 3 ≤ k) → 2 ^ (l.map fun k => k - 1).sum < (l.map Nat.factorial).prod) := by
  have hle : ∀ k, 1 ≤ k → 2 ^ (k - 1) ≤ Nat.factorial k := by
    intro k hk
    induction k with
    | zero => omega
    | succ k ih =>
      rcases Nat.eq_zero_or_pos k with rfl | hk'
      · decide
      · have := ih hk'
        rw [Nat.factorial_succ, Nat.add_sub_cancel]
        calc 2 ^ k = 2 * 2 ^ (k - 1) := by
              rw [← pow_succ', Nat.sub_add_cancel hk']
          _ ≤ (k + 1) * Nat.factorial k := Nat.mul_le_mul (by omega) this
  have hlt : ∀ k, 3 ≤ k → 2 ^ (k - 1) < Nat.factorial k := by
    intro k hk
    obtain ⟨m, rfl⟩ : ∃ m, k = m + 1 := ⟨k - 1, by omega⟩
    have h1 := hle m (by omega)
    rw [Nat.factorial_succ, Nat.add_sub_cancel]
    have hp : 0 < Nat.factorial m := Nat.factorial_pos m
    calc 2 ^ m = 2 * 2 ^ (m - 1) := by rw [← pow_succ', Nat.sub_add_cancel (by omega)]
      _ ≤ 2 * Nat.factorial m := Nat.mul_le_mul le_rfl h1
      _ < (m + 1) * Nat.factorial m := Nat.mul_lt_mul_of_pos_right (by omega) hp
  induction l with
  | nil => simp
  | cons k l ih =>
    obtain ⟨i1, i2⟩ := ih fun k hk => h k (by simp [hk])
    have hk := hle k (h k (by simp))
    simp only [List.map_cons, List.sum_cons, List.prod_cons, pow_add]
    refine ⟨Nat.mul_le_mul hk i1, ?_⟩
    rintro ⟨m, hm, h3⟩
    rcases List.mem_cons.1 hm with rfl | hm
    · exact Nat.mul_lt_mul_of_lt_of_le (hlt m h3) i1 (lt_of_lt_of_le (Nat.pow_pos Nat.two_pos) i1)
    · exact Nat.mul_lt_mul_of_le_of_lt hk (i2 ⟨m, hm, h3⟩) (Nat.factorial_pos k)

theorem spinFactor_ne_one [CharZero K] (pairs : List (Char × Char)) (p : Char × Char) (hp : 3 ≤ pairs.count p) :
    (spinFactor pairs : K) ≠ 1 := by
  unfold spinFactor
  have hmem : p ∈ firstOccurrences pairs := by
    have hm : p ∈ pairs := List.count_pos_iff.1 (by omega)
    clear hp
    induction pairs with
    | nil => simp at hm
    | cons c l ih =>
      rw [firstOccurrences, List.mem_cons, List.mem_filter]
      by_cases hc : p = c
      · exact Or.inl hc
      · exact Or.inr ⟨ih ((List.mem_cons.1 hm).resolve_left hc), by simpa using hc⟩
  have hlt := (pow_le_prod ((firstOccurrences pairs).map fun c => pairs.count c) (by
    intro k hk
    obtain ⟨c, hc, rfl⟩ := List.mem_map.1 hk
    exact List.count_pos_iff.2 (firstOccurrences_mem _ c hc))).2 ⟨_, List.mem_map.2 ⟨p, hmem, rfl⟩, hp⟩
  rw [List.map_map, List.map_map] at hlt
  simp only [Function.comp_def] at hlt
  rw [Ne, div_eq_one_iff_eq (pow_ne_zero _ (OfNat.ofNat_ne_zero 2))]
  intro he
  have : (((2 : Nat) ^ ((firstOccurrences pairs).map fun c => pairs.count c - 1).sum : Nat) : K)
      = (((firstOccurrences pairs).map fun c => Nat.factorial (pairs.count c)).prod : Nat) := by
    rw [he]; push_cast; rfl
  exact (ne_of_lt hlt) (Nat.cast_injective this)

/-- As below, for amplitudes and lambda amplitudes. -/
theorem uUpdate_triples36 [CharZero K] (setOrder : List Char → List Char) (ho : IsSetOrder setOrder)
    {a : Ansatz} {which : Which} {fs bs : List Rank} {cs : List CRank} (h : HasRanks a .U which fs bs cs) (hw : which = .t ∨ which = .l)
    (h1 : ∀ r ∈ cs, r.2.2.1 = 1) (h9 : a.bosonCouplingRank ≤ 9)
    (hnd : ((entries fs bs cs).map fun e => e.1).Nodup) (env : EnergyEnv K) (en : Char × Char → List K)
    (he : UEnergies env en fs bs cs)
    (func : Dict (List Char) (UVal K) → Except PyErr (Dict (List Char) (UVal K)))
    (F F' : Rank → List Char → NDArray K) (B B' : Rank → NDArray K) (C C' : CRank → List Char → NDArray K)
    (hT : UBlocks en fs bs cs F B C) (hr : UBlocks en fs bs cs F' B' C')
    (hf : func (uAmpDict fs bs cs [] F B C) = .ok (uAmpDict fs bs cs "new".toList F' B' C'))
    (r : Rank) (hm : r ∈ fs) (s : List Char) (hs : s ∈ generateSpinCombinations r.2.2 false true) (p : Char × Char)
    (hp : 3 ≤ (r.2.1.zip s).count p) (hz : IsZero (F' r s)) (idx : List Nat) (hidx : ValidIdx (F r s).shape idx)
    (hne : (F r s).get idx ≠ 0) :
    uUpdate a which (fun key spins => (uEnergySum setOrder env key spins []).1) func (uAmpDict fs bs cs [] F B C)
        ≠ .ok (uAmpDict fs bs cs [] F B C) := by
  obtain ⟨F'', B'', C'', u1, u2, -, -⟩ := uUpdate_ok36 (OfNat.ofNat_ne_zero 2) setOrder ho h hw h1 h9 hnd env en he func
    F F' B B' C C' hT hr hf
  rw [u1, Ne, Except.ok.injEq, uAmpDict_inj]
  rintro ⟨hF, -, -⟩
  obtain ⟨w, sh, g⟩ := u2 r hm s hs
  have := g idx hidx
  rw [hF r hm s hs, hz idx (by rw [(hr.f r hm s hs).2.1, ← (hT.f r hm s hs).2.1]; exact hidx), zero_div, zero_add] at this
  have h1 : spinFactor (r.2.1.zip s) = (1 : K) := by
    have e : (spinFactor (r.2.1.zip s) : K) * (F r s).get idx = 1 * (F r s).get idx := by rw [one_mul]; exact this.symm
    exact mul_right_cancel₀ hne e
  exact spinFactor_ne_one _ p hp h1

/-- Unrestricted, from triples on: a solution of the equations (vanishing residuals) is not a fixed point.  As soon
as one block with three or more indices of the same class and spin has a vanishing residual and a non-zero
amplitude, the update changes the amplitudes. -/
theorem C36_unrestricted_triples_not_fixed [CharZero K] (setOrder : List Char → List Char) (ho : IsSetOrder setOrder)
    {a : Ansatz} {fs bs : List Rank} {cs : List CRank} (h : HasRanks a .U .t fs bs cs)
    (h1 : ∀ r ∈ cs, r.2.2.1 = 1) (h9 : a.bosonCouplingRank ≤ 9)
    (hnd : ((entries fs bs cs).map fun e => e.1).Nodup) (env : EnergyEnv K) (en : Char × Char → List K)
    (he : UEnergies env en fs bs cs)
    (func : Dict (List Char) (UVal K) → Except PyErr (Dict (List Char) (UVal K)))
    (F F' : Rank → List Char → NDArray K) (B B' : Rank → NDArray K) (C C' : CRank → List Char → NDArray K)
    (hT : UBlocks en fs bs cs F B C) (hr : UBlocks en fs bs cs F' B' C')
    (hf : func (uAmpDict fs bs cs [] F B C) = .ok (uAmpDict fs bs cs "new".toList F' B' C'))
    (r : Rank) (hm : r ∈ fs) (s : List Char) (hs : s ∈ generateSpinCombinations r.2.2 false true) (p : Char × Char)
    (hp : 3 ≤ (r.2.1.zip s).count p) (hz : IsZero (F' r s)) (idx : List Nat) (hidx : ValidIdx (F r s).shape idx)
    (hne : (F r s).get idx ≠ 0) :
    uUpdateAmps a (fun key spins => (uEnergySum setOrder env key spins []).1) func (uAmpDict fs bs cs [] F B C)
        ≠ .ok (uAmpDict fs bs cs [] F B C) :=
  uUpdate_triples36 setOrder ho h (Or.inl rfl) h1 h9 hnd env en he func F F' B B' C C' hT hr hf r hm s hs p hp hz idx hidx hne

/-- The factor for three occupied and three virtual indices of one spin is 9/4. -/
example : (spinFactor ("ooovvv".toList.zip "aaaaaa".toList) : Rat) = 9 / 4 := by
  decide +kernel

end

/-! ### Concrete cases -/

/-- Restricted CCSD with one occupied and one virtual orbital. -/
def ccsd : Ansatz := ⟨"CCSD".toList, [], 0, 0, false, none⟩

def env11 : EnergyEnv Rat := ⟨fun _ k => if k = 'o' then .ok ⟨[1, 1], [-1]⟩ else .ok ⟨[1, 1], [1]⟩, none⟩

def amps11 (x y : Rat) : Dict (List Char) (NDArray Rat) :=
  [("t1".toList, ⟨[1, 1], [x]⟩), ("t2".toList, ⟨[1, 1, 1, 1], [y]⟩)]

def res11 (x y : Rat) : Dict (List Char) (NDArray Rat) :=
  [("t1new".toList, ⟨[1, 1], [x]⟩), ("t2new".toList, ⟨[1, 1, 1, 1], [y]⟩)]

example : updateAmps ccsd .R (fun key => (energySum List.dedup env11 key []).1) (fun _ => .ok (res11 4 8))
    (amps11 1 2) = .ok (amps11 (-1) 0) := by
  decide +kernel

example : updateAmps ccsd .R (fun key => (energySum List.dedup env11 key []).1) (fun _ => .ok (res11 0 0))
    (amps11 1 2) = .ok (amps11 1 2) := by
  decide +kernel

end Ebcc
