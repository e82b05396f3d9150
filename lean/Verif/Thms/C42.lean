import Verif.Lemmas.GenAmps
import Verif.Thms.C36
import Verif.Thms.C37
import Mathlib.Tactic.FieldSimp
import Mathlib.Tactic.LinearCombination

/-!
C42: conversion between spin types.
-/

namespace Ebcc

section
variable {K : Type} [Field K]

/-! ### The space -/

theorem orbitalsOf_length (m : List Bool) : (orbitalsOf m).length = countTrue m := by
  induction m using List.reverseRecOn with
  | nil => rfl
  | append_singleton m b ih =>
    rw [orbitalsOf_append, List.length_append, ih]
    cases b <;> simp [countTrue]

/-- C42, the space: for every assignment of spins to the general orbitals the converted space exists, and for every class of
orbitals the general orbitals of the class with spin `s`, in order, are the orbitals of the class in the unrestricted
space of spin `s`: `sig k` lists the spins of the class, and the orbital at place `p` of the class is the orbital at
place `spinPos (sig k) p` of the class of its spin. -/
theorem C42_space (orbspin : List Char) (hab : ∀ c ∈ orbspin, c = 'a' ∨ c = 'b') (sp0 sp1 : Space)
    (h0 : sp0.Sized (orbspin.count 'a')) (h1 : sp1.Sized (orbspin.count 'b'))
    (hd0 : (maskAnd sp0.frozen sp0.active).any id = false) (hd1 : (maskAnd sp1.frozen sp1.active).any id = false) :
    ∃ gs sig, generalSpace orbspin sp0 sp1 = .ok gs ∧
      SpinLayout (spinSlice orbspin gs) gs.size sig ['o', 'O', 'i', 'v', 'V', 'a'] ∧
      ∀ k ∈ ['o', 'O', 'i', 'v', 'V', 'a'], ∃ m m0 m1, gs.mask k = .ok m ∧ sp0.mask k = .ok m0 ∧ sp1.mask k = .ok m1 ∧
        sp0.size k = .ok ((sig k).count 'a') ∧ sp1.size k = .ok ((sig k).count 'b') ∧
        sig k = (orbitalsOf m).map (fun i => orbspin.getD i ' ') ∧
        ∀ p < (sig k).length, ∀ s, (sig k).getD p ' ' = s →
          (orbitalsOf (if s = 'a' then m0 else m1)).getD (spinPos (sig k) p) 0
            = spinPos orbspin ((orbitalsOf m).getD p 0) := by
  refine ⟨interleaved orbspin sp0 sp1, fun k =>
    match (interleaved orbspin sp0 sp1).mask k with
    | .ok m => selectMask m orbspin
    | .error _ => [], generalSpace_ok orbspin hab sp0 sp1 h0 h1 hd0 hd1, ?_⟩
  have hmask : ∀ k ∈ ['o', 'O', 'i', 'v', 'V', 'a'], ∃ m0 m1, sp0.mask k = .ok m0 ∧ sp1.mask k = .ok m1 ∧
      sp0.size k = .ok (countTrue m0) ∧ sp1.size k = .ok (countTrue m1) ∧
      (∀ m, (interleaved orbspin sp0 sp1).mask k = .ok m →
        (interleaved orbspin sp0 sp1).size k = .ok (countTrue m)) := by
    intro k hk
    simp only [List.mem_cons, List.not_mem_nil, or_false] at hk
    rcases hk with rfl | rfl | rfl | rfl | rfl | rfl <;>
      exact ⟨_, _, rfl, rfl, rfl, rfl, fun m hm => by cases hm; rfl⟩
  have hlen : ∀ x y, (interleave orbspin x y).length = orbspin.length := fun x y => by simp [interleave]
  have hfull : ∀ k ∈ ['o', 'O', 'i', 'v', 'V', 'a'], ∃ m m0 m1, (interleaved orbspin sp0 sp1).mask k = .ok m ∧
      m.length = orbspin.length ∧ sp0.mask k = .ok m0 ∧ sp1.mask k = .ok m1 ∧
      sp0.size k = .ok (countTrue m0) ∧ sp1.size k = .ok (countTrue m1) ∧
      (interleaved orbspin sp0 sp1).size k = .ok (countTrue m) ∧
      ∀ s, s = 'a' ∨ s = 'b' →
        (whereSpin orbspin s).map (fun i => m.getD i false) = if s = 'a' then m0 else m1 := by
    intro k hk
    obtain ⟨m0, m1, a1, a2, a3, a4, a5⟩ := hmask k hk
    obtain ⟨b1, b2, b3⟩ := mask_interleave orbspin hab sp0 sp1 h0 h1 k hk m0 m1 a1 a2
    refine ⟨_, m0, m1, b1, hlen _ _, a1, a2, a3, a4, a5 _ b1, fun s hs => interleave_spin orbspin m0 m1 s hs ?_⟩
    rcases hs with rfl | rfl
    · exact b2.symm
    · exact b3.symm
  have hsl : ∀ k ∈ ['o', 'O', 'i', 'v', 'V', 'a'], ∀ s, s = 'a' ∨ s = 'b' →
      spinSlice orbspin (interleaved orbspin sp0 sp1) s k = (do
        let m ← (interleaved orbspin sp0 sp1).mask k
        pure (whereSpin (selectMask m orbspin) s)) := by
    intro k hk s hs
    unfold spinSlice
    rw [if_pos ⟨hk, hs⟩]
  refine ⟨⟨fun k hk s hs => ?_, fun k hk => ?_, fun k hk c hc => ?_⟩, fun k hk => ?_⟩ <;>
    obtain ⟨m, m0, m1, c1, c2, c3, c4, c5, c6, c7, c8⟩ := hfull k hk
  · rw [hsl k hk s hs, c1]
    rfl
  · rw [c7, c1]
    simp only
    rw [selectMask_eq _ _ c2, List.length_map, orbitalsOf_length]
  · rw [c1] at hc
    simp only at hc
    rw [selectMask_eq _ _ c2, List.mem_map] at hc
    obtain ⟨i, hi, rfl⟩ := hc
    unfold orbitalsOf at hi
    rw [List.mem_filter, List.mem_range, c2] at hi
    exact getD_spin hab hi.1
  · refine ⟨m, m0, m1, c1, c3, c4, ?_⟩
    simp only [c1]
    rw [count_select _ _ c2, count_select _ _ c2, c8 'a' (Or.inl rfl), c8 'b' (Or.inr rfl)]
    refine ⟨c5, c6, selectMask_eq _ _ c2, ?_⟩
    rw [selectMask_eq _ _ c2]
    intro p hp s hs
    rw [List.length_map] at hp
    have hs2 : orbspin.getD ((orbitalsOf m).getD p 0) ' ' = s := by
      rw [← hs]
      simp [List.getD_eq_getElem?_getD, hp]
    have hi : (orbitalsOf m).getD p 0 < orbspin.length := by
      have : (orbitalsOf m).getD p 0 ∈ orbitalsOf m := by
        rw [List.getD_eq_getElem?_getD, List.getElem?_eq_getElem hp, Option.getD_some]
        exact List.getElem_mem hp
      generalize (orbitalsOf m).getD p 0 = i at this ⊢
      unfold orbitalsOf at this
      rw [List.mem_filter, List.mem_range, c2] at this
      exact this.1
    have hs3 : s = 'a' ∨ s = 'b' := by rw [← hs2]; exact getD_spin hab hi
    rw [← c8 s hs3, orbitals_spin _ _ c2]
    have hn := filter_nth (fun i => orbspin.getD i ' ') s (orbitalsOf m) 0 p hp hs2
    have hpos : spinPos ((orbitalsOf m).map fun i => orbspin.getD i ' ') p
        = ((((orbitalsOf m).map fun i => orbspin.getD i ' ').take p).count s) := by
      unfold spinPos
      rw [hs]
    have hlt : spinPos ((orbitalsOf m).map fun i => orbspin.getD i ' ') p
        < ((orbitalsOf m).filter fun i => decide (orbspin.getD i ' ' = s)).length := by
      have h := spinPos_lt ((orbitalsOf m).map fun i => orbspin.getD i ' ') p (by rw [List.length_map]; exact hp)
      rw [hs] at h
      refine lt_of_lt_of_eq h ?_
      rw [List.count, List.countP_map, List.countP_eq_length_filter]
      congr 1
    rw [← hpos] at hn
    rw [← hn]
    generalize spinPos ((orbitalsOf m).map fun i => orbspin.getD i ' ') p = q at hlt ⊢
    rw [List.getD_eq_getElem?_getD, List.getElem?_map, List.getElem?_eq_getElem hlt, Option.map_some,
      Option.getD_some, List.getD_eq_getElem?_getD, List.getElem?_eq_getElem hlt, Option.getD_some]

/-! ### Unrestricted to general amplitudes -/

/-- C42, antisymmetry: if the same-spin blocks are antisymmetric in the occupied and in the virtual indices, the general
array is antisymmetric. -/
theorem C42_antisymmetric (so sv : List Char) (hso : ∀ c ∈ so, c = 'a' ∨ c = 'b') (hsv : ∀ c ∈ sv, c = 'a' ∨ c = 'b')
    (Uaa Uab Ubb G : NDArray K) (hG : IsDoubles so sv Uaa Uab Ubb G)
    (haa : ∀ i j a b, Uaa.get [i, j, b, a] = -Uaa.get [i, j, a, b])
    (hbb : ∀ i j a b, Ubb.get [i, j, b, a] = -Ubb.get [i, j, a, b]) (p q r t : Nat) (h : InRange4 so sv p q r t) :
    G.get [q, p, r, t] = -G.get [p, q, r, t] ∧ G.get [p, q, t, r] = -G.get [p, q, r, t] := by
  obtain ⟨-, -, hG⟩ := hG
  obtain ⟨hp, hq, hr, ht⟩ := h
  rw [hG p q r t ⟨hp, hq, hr, ht⟩, hG q p r t ⟨hq, hp, hr, ht⟩, hG p q t r ⟨hp, hq, ht, hr⟩]
  have sp := getD_spin hso hp
  have sq := getD_spin hso hq
  have sr := getD_spin hsv hr
  have st := getD_spin hsv ht
  unfold doublesElem spins4 pos4
  generalize so.getD p ' ' = cp at *
  generalize so.getD q ' ' = cq at *
  generalize sv.getD r ' ' = cr at *
  generalize sv.getD t ' ' = ct at *
  rcases sp with rfl | rfl <;> rcases sq with rfl | rfl <;> rcases sr with rfl | rfl <;> rcases st with rfl | rfl <;>
    refine ⟨?_, ?_⟩ <;> simp [haa _ _ (spinPos sv r) (spinPos sv t), hbb _ _ (spinPos sv r) (spinPos sv t)] <;> ring

/-- C42, spin blocks: for same-spin blocks that are antisymmetric in the occupied indices, the general array restricted to
one spin is twice the unrestricted block (the unrestricted code keeps half the antisymmetrised amplitude), restricted to
`abab` it is the unrestricted block, and it vanishes between orbitals of different spin. -/
theorem C42_blocks (so sv : List Char) (Uaa Uab Ubb G : NDArray K) (hG : IsDoubles so sv Uaa Uab Ubb G)
    (haa : ∀ i j a b, Uaa.get [j, i, a, b] = -Uaa.get [i, j, a, b])
    (hbb : ∀ i j a b, Ubb.get [j, i, a, b] = -Ubb.get [i, j, a, b]) (p q r t : Nat) (h : InRange4 so sv p q r t) :
    (spins4 so sv p q r t = ['a', 'a', 'a', 'a'] → G.get [p, q, r, t] = 2 * Uaa.get (pos4 so sv p q r t)) ∧
    (spins4 so sv p q r t = ['b', 'b', 'b', 'b'] → G.get [p, q, r, t] = 2 * Ubb.get (pos4 so sv p q r t)) ∧
    (spins4 so sv p q r t = ['a', 'b', 'a', 'b'] → G.get [p, q, r, t] = Uab.get (pos4 so sv p q r t)) ∧
    ((spins4 so sv p q r t).take 2 ≠ (spins4 so sv p q r t).drop 2 →
      (spins4 so sv p q r t).take 2 ≠ ((spins4 so sv p q r t).drop 2).reverse → G.get [p, q, r, t] = 0) := by
  obtain ⟨-, -, hG⟩ := hG
  rw [hG p q r t h]
  unfold doublesElem
  generalize hsp : spins4 so sv p q r t = sp
  refine ⟨?_, ?_, ?_, ?_⟩
  · rintro rfl
    simp only [if_true, pos4, haa (spinPos so p) (spinPos so q)]
    ring
  · rintro rfl
    simp only [pos4, hbb (spinPos so p) (spinPos so q)]
    simp
    ring
  · rintro rfl
    simp
  · intro h1 h2
    repeat' rw [if_neg (by rintro rfl; first | exact h1 rfl | exact h2 rfl)]

/-- The entry of a fermionic rank of the converted amplitudes. -/
def ConvertsF (sig : Char → List Char) (v : UVal K) (n : Nat) (G : NDArray K) : Prop :=
  (n = 1 → ∀ U, HasSingles v.attr [] (sig 'o') (sig 'v') U → IsSingles [] (sig 'o') (sig 'v') U G) ∧
  (n = 2 → ∀ Uaa Uab Ubb, HasDoubles v.attr (sig 'o') (sig 'v') Uaa Uab Ubb →
    IsDoubles (sig 'o') (sig 'v') Uaa Uab Ubb G)

/-- The unrestricted amplitudes: for every rank the spin blocks, of the right shapes. -/
structure UAmpsOK (sig : Char → List Char) (nbos : Nat) (fs bs : List Rank) (cs : List CRank)
    (amps : Dict (List Char) (UVal K)) : Prop where
  f1 : ∀ r ∈ fs, r.2.2 = 1 → ∃ v U, amps.getItem r.1 = .ok v ∧ HasSingles v.attr [] (sig 'o') (sig 'v') U
  f2 : ∀ r ∈ fs, r.2.2 = 2 → ∃ v Uaa Uab Ubb, amps.getItem r.1 = .ok v ∧
    HasDoubles v.attr (sig 'o') (sig 'v') Uaa Uab Ubb
  b : ∀ r ∈ bs, ∃ a, amps.getItem r.1 = .ok (.array a)
  c : ∀ r ∈ cs, ∃ v U, amps.getItem r.1 = .ok v ∧
    HasSingles v.attr (List.replicate r.2.2.2 nbos) (sig 'o') (sig 'v') U

theorem keys_upto2 {ansatz : List Char} {spin : SpinType} {fs : List Rank}
    (h : fermionicClusterRanks ansatz spin .t = .ok fs) (r : Rank) (hr : r ∈ fs) (h2 : r.2.2 ≤ 2) :
    r.2.2 = 1 ∧ r.2.1 = ['o', 'v'] ∨ r.2.2 = 2 ∧ r.2.1 = ['o', 'o', 'v', 'v'] := by
  obtain ⟨k, rfl⟩ := (C24_well_formed ansatz spin .t fs h).2.2 r hr
  cases k <;> revert h2 <;> decide

theorem coupling_key1 {nf nb : Nat} {cs : List CRank} (h : couplingClusterRanks nf nb .t = .ok cs) (r : CRank)
    (hr : r ∈ cs) (h1 : r.2.2.1 = 1) : r.2.1.drop r.2.2.2 = ['o', 'v'] := by
  rw [(C24_coupling nf nb).1] at h
  cases h
  rw [List.mem_flatMap] at hr
  obtain ⟨i, -, hr⟩ := hr
  rw [List.mem_map] at hr
  obtain ⟨j, -, rfl⟩ := hr
  obtain rfl : i = 0 := by simpa using h1
  simp only [List.drop_left', List.length_replicate]
  rfl

/-- C42, unrestricted to general (ranks up to two; coupled amplitudes with one fermionic excitation): the conversion
succeeds with one entry for each rank; bosonic amplitudes are unchanged, one-particle amplitudes are the spin blocks and
zero between different spins, two-particle amplitudes are given by `IsDoubles` (see `C42_antisymmetric` and `C42_blocks`
for what this means).  Missing: triples, where the statement is false (`C42_triples_fails`), and quadruples. -/
theorem C42_general_partial {a : Ansatz} {slices : Char → Char → Except PyErr (List Nat)}
    {size : Char → Except PyErr Nat} {sig : Char → List Char}
    (hL : SpinLayout slices size sig ['o', 'O', 'i', 'v', 'V', 'a']) (nbos : Nat)
    {fs bs : List Rank} {cs : List CRank} (h : HasRanks a .U .t fs bs cs) (hf : ∀ r ∈ fs, r.2.2 ≤ 2)
    (h1 : ∀ r ∈ cs, r.2.2.1 = 1) (hnd : ((entries fs bs cs).map fun e => e.1).Nodup)
    (amps : Dict (List Char) (UVal K)) (ha : UAmpsOK sig nbos fs bs cs amps) :
    ∃ F B C, fromUAmps a slices size nbos amps = .ok (ampDict fs bs cs F B C) ∧
      (∀ r ∈ fs, ∃ v, amps.getItem r.1 = .ok v ∧ ConvertsF sig v r.2.2 (F r)) ∧
      (∀ r ∈ bs, amps.getItem r.1 = .ok (.array (B r))) ∧
      ∀ r ∈ cs, ∃ v U, amps.getItem r.1 = .ok v ∧
        HasSingles v.attr (List.replicate r.2.2.2 nbos) (sig 'o') (sig 'v') U ∧
        IsSingles (List.replicate r.2.2.2 nbos) (sig 'o') (sig 'v') U (C r) := by
  have hL' : SpinLayout slices size sig ['o', 'v'] := by
    constructor
    · intro k hk; exact hL.slices k (by simp at hk ⊢; tauto)
    · intro k hk; exact hL.size k (by simp at hk ⊢; tauto)
    · intro k hk; exact hL.spins k (by simp at hk ⊢; tauto)
  have k1 : ∀ r ∈ fs, ∃ G, (spreadSpins slices size nbos 0 r.2.2 true r.2.1 fun comb => do
      let v ← amps.getItem r.1
      v.attr comb) = .ok G ∧ ∃ v, amps.getItem r.1 = .ok v ∧ ConvertsF sig v r.2.2 G := by
    intro r hr
    rcases keys_upto2 h.f r hr (hf r hr) with ⟨e1, e2⟩ | ⟨e1, e2⟩
    · obtain ⟨v, U, v1, v2⟩ := ha.f1 r hr e1
      rw [e1, e2, v1]
      obtain ⟨G, g1, g2⟩ := spreadSpins_one hL' nbos 0 true v.attr U v2
      refine ⟨G, g1, v, rfl, fun _ U' hU' => ?_, fun h => absurd h (by decide)⟩
      obtain ⟨G', g1', g2'⟩ := spreadSpins_one hL' nbos 0 true v.attr U' hU'
      rw [g1] at g1'
      cases g1'
      exact g2'
    · obtain ⟨v, x, y, z, v1, v2⟩ := ha.f2 r hr e1
      rw [e1, e2, v1]
      obtain ⟨G, g1, g2⟩ := spreadSpins_two hL' nbos v.attr x y z v2
      refine ⟨G, g1, v, rfl, fun h => absurd h (by decide), fun _ x' y' z' hU' => ?_⟩
      obtain ⟨G', g1', g2'⟩ := spreadSpins_two hL' nbos v.attr x' y' z' hU'
      rw [g1] at g1'
      cases g1'
      exact g2'
  have k2 : ∀ r ∈ bs, ∃ b, (do
      let v ← amps.getItem r.1
      v.asArray) = .ok b ∧ amps.getItem r.1 = .ok (.array b) := by
    intro r hr
    obtain ⟨b, hb⟩ := ha.b r hr
    exact ⟨b, by rw [hb]; rfl, hb⟩
  have k3 : ∀ r ∈ cs, ∃ G, (spreadSpins slices size nbos r.2.2.2 r.2.2.1 false (r.2.1.drop r.2.2.2) fun comb => do
      let v ← amps.getItem r.1
      v.attr comb) = .ok G ∧ ∃ v U, amps.getItem r.1 = .ok v ∧
        HasSingles v.attr (List.replicate r.2.2.2 nbos) (sig 'o') (sig 'v') U ∧
        IsSingles (List.replicate r.2.2.2 nbos) (sig 'o') (sig 'v') U G := by
    intro r hr
    obtain ⟨v, U, v1, v2⟩ := ha.c r hr
    rw [h1 r hr, coupling_key1 h.c r hr (h1 r hr), v1]
    obtain ⟨G, g1, g2⟩ := spreadSpins_one hL' nbos r.2.2.2 false v.attr U v2
    exact ⟨G, g1, v, U, rfl, v2, g2⟩
  choose! F f1 f2 using k1
  choose! B b1 b2 using k2
  choose! C c1 c2 using k3
  refine ⟨F, B, C, ?_, f2, b2, c2⟩
  unfold fromUAmps
  rw [h.f, h.b, h.c]
  refine three_loops _ _ _ _ _ _ fs bs cs F B C f1 b1 c1 ?_
  have : (entries fs bs cs).map (fun e => e.1) = fs.map (fun r => r.1) ++ (bs.map (fun r => r.1) ++ cs.map fun r => r.1) := by
    simp [entries, Function.comp_def]
  rw [← this]
  exact hnd

/-! ### Restricted to unrestricted amplitudes -/

theorem combine_plain (key comb : List Char) (h : KeySpin key comb) (sz : Char → Nat) :
    ∃ sub, combineSubscripts [key, comb] [] = .ok (sub, []) ∧ ∃ g, sub = (key.zip comb).map g ∧
      (∀ p ∈ key.zip comb, ∀ q ∈ key.zip comb, g p = g q → p = q) ∧
      ∃ z : Char → Nat, ∀ p ∈ key.zip comb, z (g p) = sz p.1 := by
  obtain ⟨sub, osz, c1, c2, g, g1, g2, g3⟩ := combine_two key comb
    [(['o', 'a'], sz 'o'), (['O', 'a'], sz 'O'), (['v', 'a'], sz 'v'), (['V', 'a'], sz 'V'),
     (['o', 'b'], sz 'o'), (['O', 'b'], sz 'O'), (['v', 'b'], sz 'v'), (['V', 'b'], sz 'V')]
    (fun p => sz p.1) h.len h.ne h.card (by
      intro p hp
      have e1 := h.key _ (List.of_mem_zip hp).1
      have e2 := h.spin _ (List.of_mem_zip hp).2
      obtain ⟨c, s⟩ := p
      simp only at e1 e2 ⊢
      rcases e1 with rfl | rfl | rfl | rfl <;> rcases e2 with rfl | rfl <;> rfl)
  exact ⟨sub, c2, g, g1, g2, fun c => (osz.get? c).getD 0, fun p hp => by simp only [g3 p hp]; rfl⟩

/-- C42, restricted to unrestricted: a spin block of any rank exists, has the shape of the restricted amplitude and
is antisymmetric in axes of the same class and spin. -/
theorem C42_unrestricted_symmetry (key comb : List Char) (h : KeySpin key comb) (n : Nat) (hn : key.length = 2 * n)
    (sz : Char → Nat) (t : NDArray K) (ht : t.shape = key.map sz) :
    ∃ u, convBlock key n t comb = .ok u ∧ u.WF ∧ u.shape = t.shape ∧
      GroupSymmetric (key.zip comb) (fun _ => '-') u := by
  obtain ⟨sub, c2, g, g1, g2, z, z1⟩ := combine_plain key comb h sz
  have hz : t.shape = sub.map z := by
    rw [g1, List.map_map, ht]
    have : (key.zip comb).map (fun p => sz p.1) = key.map sz := by
      rw [show (fun p : Char × Char => sz p.1) = sz ∘ Prod.fst from rfl, ← List.map_map, List.map_fst_zip (le_of_eq h.len)]
    rw [← this]
    exact List.map_congr_left fun p hp => (z1 p hp).symm
  have hlen : sub.length = 2 * n := by
    rw [g1, List.length_map, List.length_zip, ← h.len, Nat.min_self, hn]
  have hsub : sub ≠ [] := by
    intro he
    rw [he] at hlen
    have := List.length_pos_iff.2 h.ne
    simp at hlen
    omega
  obtain ⟨u, u1, u2, u3, u4⟩ := C08_uniform sub hsub z t hz '-' (some (List.replicate (2 * n) '-'))
    (by rw [hlen]; rfl) true
  refine ⟨u, ?_, u3, u2, ?_⟩
  · unfold convBlock
    rw [c2]
    exact u1
  · rw [g1, groupSymmetric_map _ g g2] at u4
    exact u4

/-- C42, restricted to unrestricted: blocks without two axes of the same class and spin are the restricted amplitude. -/
theorem C42_unrestricted_identity (h2 : (2 : K) ≠ 0) (key comb : List Char) (h : KeySpin key comb) (n : Nat)
    (hn : key.length = 2 * n) (sz : Char → Nat) (t : NDArray K) (hw : t.WF) (ht : t.shape = key.map sz)
    (hd : (key.zip comb).Nodup) : convBlock key n t comb = .ok t := by
  obtain ⟨sub, c2, g, g1, g2, z, z1⟩ := combine_plain key comb h sz
  have hz : t.shape = sub.map z := by
    rw [g1, List.map_map, ht]
    have : (key.zip comb).map (fun p => sz p.1) = key.map sz := by
      rw [show (fun p : Char × Char => sz p.1) = sz ∘ Prod.fst from rfl, ← List.map_map, List.map_fst_zip (le_of_eq h.len)]
    rw [← this]
    exact List.map_congr_left fun p hp => (z1 p hp).symm
  have hlen : sub.length = 2 * n := by
    rw [g1, List.length_map, List.length_zip, ← h.len, Nat.min_self, hn]
  have hsub : sub ≠ [] := by
    intro he
    rw [he] at hlen
    have := List.length_pos_iff.2 h.ne
    simp at hlen
    omega
  have hnd : sub.Nodup := by
    rw [g1]
    exact List.Nodup.map_on (fun p hp q hq e => g2 p hp q hq e) hd
  unfold convBlock
  rw [c2]
  refine C09_identity_partial h2 sub hsub z t hw hz '-' _ (by rw [hlen]; rfl) ?_ ?_
  · intro i j c hij hi hj
    have := (List.nodup_iff_getElem?_ne_getElem?.1 hnd) i j hij (by
      have := (List.getElem?_eq_some_iff.1 hj).1
      omega)
    rw [hi, hj] at this
    exact absurd rfl this
  · intro c hc
    have := List.nodup_iff_count_le_one.1 hnd c
    omega

/-- The restricted amplitudes. -/
structure RAmpsOK (sz : Char → Nat) (fs bs : List Rank) (cs : List CRank)
    (F : Rank → NDArray K) (B : Rank → NDArray K) (C : CRank → NDArray K)
    (amps : Dict (List Char) (NDArray K)) : Prop where
  f : ∀ r ∈ fs, amps.getItem r.1 = .ok (F r) ∧ (F r).shape = r.2.1.map sz
  b : ∀ r ∈ bs, amps.getItem r.1 = .ok (B r)
  c : ∀ r ∈ cs, amps.getItem r.1 = .ok (C r)

/-- C42, restricted to unrestricted (ranks up to three, as in the code): the conversion succeeds with one entry for each
rank.  A fermionic entry holds one block for each unique spin combination, of the shape of the restricted amplitude and
antisymmetric in axes of the same class and spin; bosonic amplitudes are unchanged and coupled amplitudes are the same
for each spin. -/
theorem C42_unrestricted {a : Ansatz} {fs bs : List Rank} {cs : List CRank} (h : HasRanks a .U .t fs bs cs)
    (h3 : ∀ r ∈ fs, r.2.2 ≤ 3) (hnd : ((entries fs bs cs).map fun e => e.1).Nodup)
    (sz : Char → Nat) (F : Rank → NDArray K) (B : Rank → NDArray K) (C : CRank → NDArray K)
    (amps : Dict (List Char) (NDArray K)) (ha : RAmpsOK sz fs bs cs F B C amps) :
    ∃ U : Rank → List Char → NDArray K, fromRAmps a amps = .ok (ampDict fs bs cs
        (fun r => .spins ((generateSpinCombinations r.2.2 false true).map fun s => (s, U r s)))
        (fun r => .array (B r))
        (fun r => .spins ((generateSpinCombinations r.2.2.1 false true).map fun s => (s, C r)))) ∧
      ∀ r ∈ fs, ∀ s ∈ generateSpinCombinations r.2.2 false true, convBlock r.2.1 r.2.2 (F r) s = .ok (U r s) ∧
        (U r s).WF ∧ (U r s).shape = (F r).shape ∧ GroupSymmetric (r.2.1.zip s) (fun _ => '-') (U r s) := by
  have k : ∀ r ∈ fs, ∀ s ∈ generateSpinCombinations r.2.2 false true, ∃ u, convBlock r.2.1 r.2.2 (F r) s = .ok u ∧
      u.WF ∧ u.shape = (F r).shape ∧ GroupSymmetric (r.2.1.zip s) (fun _ => '-') u := by
    intro r hr s hs
    obtain ⟨l1, l2⟩ := key_length h.f (Or.inl rfl) r hr
    obtain ⟨s1, s2⟩ := combos_spin _ s hs
    exact C42_unrestricted_symmetry r.2.1 s ⟨by rw [l1, s1], l2, key_chars h.f r hr, s2⟩ r.2.2 (by omega) sz (F r)
      (ha.f r hr).2
  choose! U u1 using k
  refine ⟨U, ?_, u1⟩
  unfold fromRAmps
  rw [h.f, h.b, h.c]
  refine three_loops _ _ _ _ _ _ fs bs cs _ _ _ ?_ ?_ ?_ ?_
  · intro r hr
    unfold convFermion
    have hlt : ¬ (True ∧ 3 < r.2.2) := by have := h3 r hr; omega
    simp only [bind, Except.bind, pure, Except.pure]
    rw [initLoop_ok id _ (U r) _ (by
      intro s hs
      rw [(ha.f r hr).1]
      exact (u1 r hr s hs).1) (by rw [List.map_id]; exact combos_nodup _) [] (by simp [Dict.keys]), if_neg hlt]
    rfl
  · intro r hr
    rw [ha.b r hr]
    rfl
  · intro r hr
    unfold convCoupling
    rw [initLoop_ok id _ (fun _ => C r) _ (fun s _ => ha.c r hr) (by rw [List.map_id]; exact combos_nodup _) []
      (by simp [Dict.keys])]
    rfl
  · have : (entries fs bs cs).map (fun e => e.1)
        = fs.map (fun r => r.1) ++ (bs.map (fun r => r.1) ++ cs.map fun r => r.1) := by
      simp [entries, Function.comp_def]
    rw [← this]
    exact hnd

/-- The same-spin block of a doubles amplitude: half of the antisymmetrised amplitude, for an amplitude with
`t[i, j, a, b] = t[j, i, b, a]`. -/
theorem convBlock_same (h2 : (2 : K) ≠ 0) (s : Char) (hs : s = 'a' ∨ s = 'b') (no nv : Nat) (t : NDArray K)
    (ht : t.shape = [no, no, nv, nv])
    (hsym : ∀ i j a b, ValidIdx [no, no, nv, nv] [i, j, a, b] → t.get [j, i, b, a] = t.get [i, j, a, b]) :
    ∃ u, convBlock ['o', 'o', 'v', 'v'] 2 t [s, s, s, s] = .ok u ∧ u.WF ∧ u.shape = [no, no, nv, nv] ∧
      ∀ i j a b, ValidIdx [no, no, nv, nv] [i, j, a, b] →
        u.get [i, j, a, b] = (t.get [i, j, a, b] - t.get [j, i, a, b]) / 2 := by
  have hc : combineSubscripts [['o', 'o', 'v', 'v'], [s, s, s, s]] [] = .ok (['a', 'a', 'b', 'b'], []) := by
    rcases hs with rfl | rfl <;> rfl
  obtain ⟨t1, a1, a2, a3, a4⟩ := transpose4 t [0, 1, 3, 2] (by decide) (by rw [ht]; rfl)
  obtain ⟨t2, b1, b2, b3, b4⟩ := transpose4 t [1, 0, 2, 3] (by decide) (by rw [ht]; rfl)
  obtain ⟨t3, c1, c2, c3, c4⟩ := transpose4 t [1, 0, 3, 2] (by decide) (by rw [ht]; rfl)
  obtain ⟨t0, d1, d2, d3, d4⟩ := transpose4 t [0, 1, 2, 3] (by decide) (by rw [ht]; rfl)
  have e0 : t0.shape = [no, no, nv, nv] := by rw [d3, ht]; rfl
  have e1 : t1.shape = [no, no, nv, nv] := by rw [a3, ht]; rfl
  have e2 : t2.shape = [no, no, nv, nv] := by rw [b3, ht]; rfl
  have e3 : t3.shape = [no, no, nv, nv] := by rw [c3, ht]; rfl
  obtain ⟨x0, f1, f2, f3, f4⟩ := add_ok (NDArray.zeros t.shape) (t0.map fun x => x * ((1 : Int) : K))
    (NDArray.ofFn_wf _ _) (map_wf _ _ d2) (ht.trans e0.symm)
  obtain ⟨x1, g1, g2, g3, g4⟩ := add_ok x0 (t1.map fun x => x * ((-1 : Int) : K)) f3 (map_wf _ _ a2)
    (f2.trans (ht.trans e1.symm))
  obtain ⟨x2, h1, h2', h3, h4⟩ := add_ok x1 (t2.map fun x => x * ((-1 : Int) : K)) g3 (map_wf _ _ b2)
    (g2.trans (f2.trans (ht.trans e2.symm)))
  obtain ⟨x3, k1, k2, k3, k4⟩ := add_ok x2 (t3.map fun x => x * ((1 : Int) : K)) h3 (map_wf _ _ c2)
    (h2'.trans (g2.trans (f2.trans (ht.trans e3.symm))))
  have hterms : prodL (((List.range (unique ['a', 'a', 'b', 'b']).length).map fun c =>
      (List.range ['a', 'a', 'b', 'b'].length).filter fun p => decide ((canon ['a', 'a', 'b', 'b']).getD p 0 = c)).map
        permutationsWithSigns)
      = [[([0, 1], 1), ([2, 3], 1)], [([0, 1], 1), ([3, 2], -1)], [([1, 0], -1), ([2, 3], 1)],
        [([1, 0], -1), ([3, 2], -1)]] := by decide
  have hfac : getSymmetryFactor (K := K) ((List.range (unique ['a', 'a', 'b', 'b']).length).map
      (canon ['a', 'a', 'b', 'b']).count) = 1 / 2 ^ 2 := rfl
  have hloop : symmetryLoop (List.replicate (2 * 2) '-') ((List.range (unique ['a', 'a', 'b', 'b']).length).map
      (canon ['a', 'a', 'b', 'b']).count) 0 = .ok _ := rfl
  refine ⟨x3.map fun x => x * (1 / 2 ^ 2), ?_, map_wf _ _ k3, k2.trans (h2'.trans (g2.trans (f2.trans ht))), ?_⟩
  · unfold convBlock
    rw [hc]
    simp only [bind, Except.bind]
    unfold symmetrise
    simp only [Option.getD_some, bind, Except.bind, hloop, hterms]
    have hne : ¬ (List.range (unique ['a', 'a', 'b', 'b']).length).isEmpty = true := by decide
    rw [if_neg hne]
    simp only [List.foldlM_cons, List.foldlM_nil, bind, Except.bind]
    have p0 : assemblePerm ['a', 'a', 'b', 'b'].length ((List.range (unique ['a', 'a', 'b', 'b']).length).map fun c =>
        (List.range ['a', 'a', 'b', 'b'].length).filter fun p => decide ((canon ['a', 'a', 'b', 'b']).getD p 0 = c))
        [[0, 1], [2, 3]] = [0, 1, 2, 3] := by decide
    have p1 : assemblePerm ['a', 'a', 'b', 'b'].length ((List.range (unique ['a', 'a', 'b', 'b']).length).map fun c =>
        (List.range ['a', 'a', 'b', 'b'].length).filter fun p => decide ((canon ['a', 'a', 'b', 'b']).getD p 0 = c))
        [[0, 1], [3, 2]] = [0, 1, 3, 2] := by decide
    have p2 : assemblePerm ['a', 'a', 'b', 'b'].length ((List.range (unique ['a', 'a', 'b', 'b']).length).map fun c =>
        (List.range ['a', 'a', 'b', 'b'].length).filter fun p => decide ((canon ['a', 'a', 'b', 'b']).getD p 0 = c))
        [[1, 0], [2, 3]] = [1, 0, 2, 3] := by decide
    have p3 : assemblePerm ['a', 'a', 'b', 'b'].length ((List.range (unique ['a', 'a', 'b', 'b']).length).map fun c =>
        (List.range ['a', 'a', 'b', 'b'].length).filter fun p => decide ((canon ['a', 'a', 'b', 'b']).getD p 0 = c))
        [[1, 0], [3, 2]] = [1, 0, 3, 2] := by decide
    simp only [List.map_cons, List.map_nil, p0, p1, p2, p3]
    have s0 : (List.replicate (2 * 2) '-')[([0, 1, 2, 3] : List Nat).getD 0 0]? = some '-' := rfl
    have s1 : (List.replicate (2 * 2) '-')[([0, 1, 3, 2] : List Nat).getD 0 0]? = some '-' := rfl
    have s2 : (List.replicate (2 * 2) '-')[([1, 0, 2, 3] : List Nat).getD 0 0]? = some '-' := rfl
    have s3 : (List.replicate (2 * 2) '-')[([1, 0, 3, 2] : List Nat).getD 0 0]? = some '-' := rfl
    have z0 : prodZ [1, 1] = 1 := rfl
    have z1 : prodZ [1, -1] = -1 := rfl
    have z2 : prodZ [-1, 1] = -1 := rfl
    have z3 : prodZ [-1, -1] = 1 := rfl
    simp only [s0, s1, s2, s3, pure, Except.pure, if_true, z0, z1, z2, z3, d1, a1, b1, c1, f1, g1, h1, k1, hfac]
  · intro i j a b hv
    have hv1 : ValidIdx [no, no, nv, nv] [j, i, a, b] := by
      unfold ValidIdx at hv ⊢
      simp only [List.forall₂_cons, List.forall₂_nil_left_iff] at hv ⊢
      tauto
    have mg : ∀ (x : NDArray K) (c : K) (idx : List Nat), (x.map fun y => y * c).get idx = x.get idx * c :=
      fun x c idx => map_get x (fun y => y * c) (zero_mul _) idx
    rw [mg, k4, h4, g4, f4, zeros_get, mg, mg, mg, mg, a4 _ (by rw [e1]; exact hv), b4 _ (by rw [e2]; exact hv),
      c4 _ (by rw [e3]; exact hv), d4 _ (by rw [e0]; exact hv)]
    have u0 : unpermute [0, 1, 2, 3] [i, j, a, b] = [i, j, a, b] := rfl
    have u1 : unpermute [0, 1, 3, 2] [i, j, a, b] = [i, j, b, a] := rfl
    have u2 : unpermute [1, 0, 2, 3] [i, j, a, b] = [j, i, a, b] := rfl
    have u3 : unpermute [1, 0, 3, 2] [i, j, a, b] = [j, i, b, a] := rfl
    rw [u0, u1, u2, u3, hsym i j a b hv, ← hsym j i a b hv1]
    have h4 : (2 : K) ^ 2 ≠ 0 := pow_ne_zero _ h2
    push_cast
    field_simp
    ring

/-- C42, restricted to general by way of unrestricted, doubles: for a restricted amplitude with
`t[i, j, a, b] = t[j, i, b, a]`, and classes that hold the same number of orbitals of both spins, the general amplitude
is the spin-orbital amplitude `t[p, q, r, s] - t[q, p, r, s]` with each term zero unless the spins match. -/
theorem C42_restricted_to_general (h2 : (2 : K) ≠ 0) {slices : Char → Char → Except PyErr (List Nat)}
    {size : Char → Except PyErr Nat} {sig : Char → List Char}
    (hL : SpinLayout slices size sig ['o', 'v']) (nbos no nv : Nat)
    (ho : ∀ s, s = 'a' ∨ s = 'b' → (sig 'o').count s = no) (hv : ∀ s, s = 'a' ∨ s = 'b' → (sig 'v').count s = nv)
    (t : NDArray K) (hw : t.WF) (ht : t.shape = [no, no, nv, nv])
    (hsym : ∀ i j a b, ValidIdx [no, no, nv, nv] [i, j, a, b] → t.get [j, i, b, a] = t.get [i, j, a, b]) :
    ∃ G, spreadSpins slices size nbos 0 2 true ['o', 'o', 'v', 'v'] (convBlock ['o', 'o', 'v', 'v'] 2 t) = .ok G ∧
      G.shape = [(sig 'o').length, (sig 'o').length, (sig 'v').length, (sig 'v').length] ∧
      ∀ p q r s, InRange4 (sig 'o') (sig 'v') p q r s → G.get [p, q, r, s]
        = (if (sig 'o').getD p ' ' = (sig 'v').getD r ' ' ∧ (sig 'o').getD q ' ' = (sig 'v').getD s ' '
            then t.get (pos4 (sig 'o') (sig 'v') p q r s) else 0)
          - (if (sig 'o').getD q ' ' = (sig 'v').getD r ' ' ∧ (sig 'o').getD p ' ' = (sig 'v').getD s ' '
            then t.get (pos4 (sig 'o') (sig 'v') q p r s) else 0) := by
  obtain ⟨ua, a1, a2, a3, a4⟩ := convBlock_same h2 'a' (Or.inl rfl) no nv t ht hsym
  obtain ⟨ub, b1, b2, b3, b4⟩ := convBlock_same h2 'b' (Or.inr rfl) no nv t ht hsym
  have c1 : convBlock ['o', 'o', 'v', 'v'] 2 t ['a', 'b', 'a', 'b'] = .ok t :=
    C42_unrestricted_identity h2 ['o', 'o', 'v', 'v'] ['a', 'b', 'a', 'b'] ⟨rfl, by decide, by decide, by decide⟩ 2 rfl
      (fun c => if c = 'o' then no else nv) t hw ht (by decide)
  have ha := ho 'a' (Or.inl rfl); have hb := ho 'b' (Or.inr rfl)
  have hva := hv 'a' (Or.inl rfl); have hvb := hv 'b' (Or.inr rfl)
  obtain ⟨G, g1, g2, g3, g4⟩ := spreadSpins_two hL nbos (convBlock ['o', 'o', 'v', 'v'] 2 t) ua t ub
    ⟨⟨a1, a2, by rw [a3, ha, hva]⟩, ⟨c1, hw, by rw [ht, ha, hb, hva, hvb]⟩, b1, b2, by rw [b3, hb, hvb]⟩
  refine ⟨G, g1, g3, fun p q r s h => ?_⟩
  rw [g4 p q r s h]
  obtain ⟨hp, hq, hr, hs⟩ := h
  have sp := getD_spin (hL.spins 'o' (by simp)) hp
  have sq := getD_spin (hL.spins 'o' (by simp)) hq
  have sr := getD_spin (hL.spins 'v' (by simp)) hr
  have ss := getD_spin (hL.spins 'v' (by simp)) hs
  have hvalid : ∀ p q r s, InRange4 (sig 'o') (sig 'v') p q r s →
      ValidIdx [no, no, nv, nv] (pos4 (sig 'o') (sig 'v') p q r s) := by
    rintro p q r s ⟨hp, hq, hr, hs⟩
    have h0 := spinPos_lt _ p hp
    have h1 := spinPos_lt _ q hq
    have h2 := spinPos_lt _ r hr
    have h3 := spinPos_lt _ s hs
    rw [ho _ (getD_spin (hL.spins 'o' (by simp)) hp)] at h0
    rw [ho _ (getD_spin (hL.spins 'o' (by simp)) hq)] at h1
    rw [hv _ (getD_spin (hL.spins 'v' (by simp)) hr)] at h2
    rw [hv _ (getD_spin (hL.spins 'v' (by simp)) hs)] at h3
    exact List.Forall₂.cons h0 (List.Forall₂.cons h1 (List.Forall₂.cons h2 (List.Forall₂.cons h3 List.Forall₂.nil)))
  have v1 := hvalid p q r s ⟨hp, hq, hr, hs⟩
  have v2 := hvalid q p r s ⟨hq, hp, hr, hs⟩
  have v3 := hvalid p q s r ⟨hp, hq, hs, hr⟩
  have v4 := hvalid q p s r ⟨hq, hp, hs, hr⟩
  unfold doublesElem spins4
  unfold pos4 at *
  have A1 := a4 _ _ _ _ v1
  have A2 := a4 _ _ _ _ v2
  have B1 := b4 _ _ _ _ v1
  have B2 := b4 _ _ _ _ v2
  have S1 := hsym _ _ _ _ v1
  have S2 := hsym _ _ _ _ v2
  generalize (sig 'o').getD p ' ' = cp at *
  generalize (sig 'o').getD q ' ' = cq at *
  generalize (sig 'v').getD r ' ' = cr at *
  generalize (sig 'v').getD s ' ' = cs at *
  clear hvalid v1 v2 v3 v4 a4 b4 hsym g1 g4
  generalize spinPos (sig 'o') p = np at *
  generalize spinPos (sig 'o') q = nq at *
  generalize spinPos (sig 'v') r = nr at *
  generalize spinPos (sig 'v') s = ns at *
  generalize ua.get [np, nq, nr, ns] = x1 at *
  generalize ua.get [nq, np, nr, ns] = x2 at *
  generalize ub.get [np, nq, nr, ns] = x3 at *
  generalize ub.get [nq, np, nr, ns] = x4 at *
  generalize t.get [np, nq, nr, ns] = y1 at *
  generalize t.get [nq, np, nr, ns] = y2 at *
  generalize t.get [np, nq, ns, nr] = y3 at *
  generalize t.get [nq, np, ns, nr] = y4 at *
  subst A1 A2 B1 B2 S1 S2
  rcases sp with rfl | rfl <;> rcases sq with rfl | rfl <;> rcases sr with rfl | rfl <;> rcases ss with rfl | rfl <;>
    simp <;> field_simp <;> ring

end

/-! ### Instances -/

/-- Non-vacuity: interleaved orbitals with different numbers of both spins, and one frozen orbital. -/
example : ∃ gs, generalSpace "abaabb".toList
    ⟨[true, true, false], [true, false, false], [false, false, false]⟩
    ⟨[true, false, false], [false, false, false], [false, true, false]⟩ = .ok gs ∧
    gs.frozen = [true, false, false, false, false, false] ∧ gs.occupied = [true, true, true, false, false, false] ∧
    gs.active = [false, false, false, false, true, false] := ⟨_, rfl, rfl, rfl, rfl⟩

/-- Non-vacuity of `C42_restricted_to_general`: two orbitals of each class with alternating spins. -/
example : ∃ G : NDArray Rat, spreadSpins
    (fun s _ => .ok (whereSpin "ab".toList s)) (fun _ => .ok 2) 0 0 2 true ['o', 'o', 'v', 'v']
      (convBlock ['o', 'o', 'v', 'v'] 2 ⟨[1, 1, 1, 1], [5]⟩) = .ok G ∧
    G.get [0, 1, 0, 1] = 5 ∧ G.get [1, 0, 0, 1] = -5 ∧ G.get [0, 0, 0, 0] = 0 := by
  obtain ⟨G, g1, -, g3⟩ := C42_restricted_to_general (K := Rat) (by decide +kernel)
    (slices := fun s _ => .ok (whereSpin "ab".toList s)) (size := fun _ => .ok 2) (sig := fun _ => "ab".toList)
    ⟨fun _ _ _ _ => rfl, fun _ _ => rfl, by decide⟩ 0 1 1 (by rintro s (rfl | rfl) <;> rfl)
    (by rintro s (rfl | rfl) <;> rfl) ⟨[1, 1, 1, 1], [5]⟩ rfl rfl (by
      intro i j a b hv
      unfold ValidIdx at hv
      simp only [List.forall₂_cons, Nat.lt_one_iff] at hv
      obtain ⟨rfl, rfl, rfl, rfl, -⟩ := hv
      rfl)
  refine ⟨G, g1, ?_, ?_, ?_⟩
  · rw [g3 0 1 0 1 ⟨by decide, by decide, by decide, by decide⟩]; decide +kernel
  · rw [g3 1 0 0 1 ⟨by decide, by decide, by decide, by decide⟩]; decide +kernel
  · rw [g3 0 0 0 0 ⟨by decide, by decide, by decide, by decide⟩]; decide +kernel

/-! ### Findings -/

/-- C42, finding: the conversion of triples raises `ValueError` when the numbers of `a` and `b` orbitals differ (here for
zero amplitudes of the right shapes: two occupied and two virtual `a` orbitals, one of each for `b`).  The code
transposes the permuted block with permutations that leave the *unpermuted* spins unchanged. -/
theorem C42_triples_fails :
    ∃ (orbspin : List Char) (sp0 sp1 gs : Space) (size : Char → Nat),
      generalSpace orbspin sp0 sp1 = .ok gs ∧
      (∀ k ∈ ['o', 'v'], sp0.size k = .ok (size 'a') ∧ sp1.size k = .ok (size 'b')) ∧
      spreadSpins (R := Int) (spinSlice orbspin gs) gs.size 0 0 3 true "ooovvv".toList
        (fun comb => .ok (NDArray.zeros (comb.map size))) = .error .valueError := by
  refine ⟨"aababa".toList, ⟨[true, true, false, false], [false, false, false, false], [false, false, false, false]⟩,
    ⟨[true, false], [false, false], [false, false]⟩,
    ⟨[true, true, true, false, false, false], List.replicate 6 false, List.replicate 6 false⟩,
    fun s => if s = 'a' then 2 else 1, by decide +kernel, by decide +kernel, by decide +kernel⟩

end Ebcc
