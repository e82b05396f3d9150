import Verif.Thms.C42

/-!
C42 for the lambda amplitudes: the conversions of `from_rebcc` and `from_uebcc` read and write the lambda amplitudes under
their own names, with the classes of the axes exchanged.
-/

namespace Ebcc

section
variable {K : Type} [Field K]

/-- The class on the other side of an excitation: occupied for virtual. -/
def flipCls42 (c : Char) : Char :=
  if c = 'o' then 'v' else if c = 'v' then 'o' else if c = 'O' then 'V' else if c = 'V' then 'O' else c

/-- The key of a lambda amplitude. -/
def lamKey42 (r : Rank) : List Char := r.2.1.drop r.2.2 ++ r.2.1.take r.2.2

theorem lamKey_flip42 {ansatz : List Char} {spin : SpinType} {fs : List Rank}
    (h : fermionicClusterRanks ansatz spin .t = .ok fs) (r : Rank) (hr : r ∈ fs) :
    lamKey42 r = r.2.1.map flipCls42 := by
  obtain ⟨k, rfl⟩ := (C24_well_formed ansatz spin .t fs h).2.2 r hr
  cases k <;> decide

theorem flip_inj42 (a b : Char) (h : flipCls42 a = flipCls42 b)
    (ha : a = 'o' ∨ a = 'O' ∨ a = 'v' ∨ a = 'V') (hb : b = 'o' ∨ b = 'O' ∨ b = 'v' ∨ b = 'V') : a = b := by
  rcases ha with rfl | rfl | rfl | rfl <;> rcases hb with rfl | rfl | rfl | rfl <;> revert h <;> decide

/-- C42, restricted to unrestricted, lambda amplitudes (any rank): the conversion succeeds with one entry for each rank,
under the name of the lambda amplitude.  A fermionic entry holds one block for each unique spin combination, of the shape
of the restricted lambda amplitude and antisymmetric in axes of the same class and spin; bosonic lambda amplitudes are
unchanged and coupled ones are the same for each spin. -/
theorem C42_unrestricted_lambdas {a : Ansatz} {fs bs : List Rank} {cs : List CRank} (h : HasRanks a .U .t fs bs cs)
    (hnd : ((fs.map fun r => lname r.1) ++ ((bs.map fun r => 'l' :: r.1) ++ cs.map fun r => 'l' :: r.1)).Nodup)
    (sz : Char → Nat) (F : Rank → NDArray K) (B : Rank → NDArray K) (C : CRank → NDArray K)
    (lams : Dict (List Char) (NDArray K))
    (hF : ∀ r ∈ fs, lams.getItem (lname r.1) = .ok (F r) ∧ (F r).shape = (lamKey42 r).map sz)
    (hB : ∀ r ∈ bs, lams.getItem ('l' :: r.1) = .ok (B r))
    (hC : ∀ r ∈ cs, lams.getItem ('l' :: r.1) = .ok (C r)) :
    ∃ U : Rank → List Char → NDArray K, fromRLams a lams = .ok (
        (fs.map fun r => (lname r.1, UVal.spins ((generateSpinCombinations r.2.2 false true).map fun s => (s, U r s)))) ++
        ((bs.map fun r => ('l' :: r.1, UVal.array (B r))) ++
        cs.map fun r => ('l' :: r.1,
          UVal.spins ((generateSpinCombinations r.2.2.1 false true).map fun s => (s, C r))))) ∧
      ∀ r ∈ fs, ∀ s ∈ generateSpinCombinations r.2.2 false true, convBlock r.2.1 r.2.2 (F r) s = .ok (U r s) ∧
        (U r s).WF ∧ (U r s).shape = (F r).shape ∧ GroupSymmetric ((lamKey42 r).zip s) (fun _ => '-') (U r s) := by
  have k : ∀ r ∈ fs, ∀ s ∈ generateSpinCombinations r.2.2 false true, ∃ u, convBlock r.2.1 r.2.2 (F r) s = .ok u ∧
      u.WF ∧ u.shape = (F r).shape ∧ GroupSymmetric ((lamKey42 r).zip s) (fun _ => '-') u := by
    intro r hr s hs
    obtain ⟨l1, l2⟩ := key_length h.f (Or.inl rfl) r hr
    obtain ⟨s1, s2⟩ := combos_spin _ s hs
    have hk := lamKey_flip42 h.f r hr
    have hks : KeySpin r.2.1 s := ⟨by rw [l1, s1], l2, key_chars h.f r hr, s2⟩
    obtain ⟨u, u1, u2, u3, u4⟩ := C42_unrestricted_symmetry r.2.1 s hks r.2.2 (by omega) (fun c => sz (flipCls42 c)) (F r)
      (by rw [(hF r hr).2, hk, List.map_map]; rfl)
    refine ⟨u, u1, u2, u3, ?_⟩
    have : (lamKey42 r).zip s = (r.2.1.zip s).map fun p => (flipCls42 p.1, p.2) := by
      rw [hk, List.zip_map_left]
      rfl
    rw [this, groupSymmetric_map]
    · exact u4
    · intro p hp q hq e
      simp only [Prod.mk.injEq] at e
      exact Prod.ext (flip_inj42 _ _ e.1 (hks.key _ (List.of_mem_zip hp).1) (hks.key _ (List.of_mem_zip hq).1)) e.2
  choose! U u1 using k
  refine ⟨U, ?_, u1⟩
  unfold fromRLams
  rw [h.f, h.b, h.c]
  refine three_loops _ _ _ _ _ _ fs bs cs _ _ _ ?_ ?_ ?_ hnd
  · intro r hr
    unfold convFermion
    simp only [bind, Except.bind, pure, Except.pure]
    rw [initLoop_ok id _ (U r) _ (by
      intro s hs
      rw [(hF r hr).1]
      exact (u1 r hr s hs).1) (by rw [List.map_id]; exact combos_nodup _) [] (by simp [Dict.keys])]
    rfl
  · intro r hr
    rw [hB r hr]
    rfl
  · intro r hr
    unfold convCoupling
    rw [initLoop_ok id _ (fun _ => C r) _ (fun s _ => hC r hr) (by rw [List.map_id]; exact combos_nodup _) []
      (by simp [Dict.keys])]
    rfl

/-- A loop of assignments into a dictionary that may have the names already. -/
theorem initLoop_get42 {α V : Type} (name : α → List Char) (item : α → Except PyErr V) (x : α → V) (l : List α)
    (hi : ∀ a ∈ l, item a = .ok (x a)) (hn : (l.map name).Nodup) (d : Dict (List Char) V) :
    ∃ d', initLoop name item l d = .ok d' ∧ (∀ a ∈ l, d'.get? (name a) = some (x a)) ∧
      ∀ k, k ∉ l.map name → d'.get? k = d.get? k := by
  unfold initLoop
  induction l generalizing d with
  | nil => exact ⟨d, rfl, by simp, fun _ _ => rfl⟩
  | cons a l ih =>
    rw [List.map_cons, List.nodup_cons] at hn
    obtain ⟨d', e1, e2, e3⟩ := ih (fun b hb => hi b (by simp [hb])) hn.2 (d.set (name a) (x a))
    refine ⟨d', ?_, ?_, ?_⟩
    · rw [List.foldlM_cons, hi a (by simp)]
      exact e1
    · intro b hb
      rcases List.mem_cons.1 hb with rfl | hb
      · rw [e3 _ hn.1, Dict.get?_set, if_pos rfl]
      · exact e2 b hb
    · intro k hk
      rw [List.map_cons, List.mem_cons, not_or] at hk
      rw [e3 k hk.2, Dict.get?_set, if_neg (Ne.symm hk.1)]

/-- The unrestricted lambda amplitudes: for every rank the spin blocks, of the right shapes. -/
structure ULamsOK42 (sig : Char → List Char) (nbos : Nat) (fs bs : List Rank) (cs : List CRank)
    (lams : Dict (List Char) (UVal K)) : Prop where
  f1 : ∀ r ∈ fs, r.2.2 = 1 → ∃ v U, lams.getItem (lname r.1) = .ok v ∧ HasSingles v.attr [] (sig 'v') (sig 'o') U
  f2 : ∀ r ∈ fs, r.2.2 = 2 → ∃ v Uaa Uab Ubb, lams.getItem (lname r.1) = .ok v ∧
    HasDoubles v.attr (sig 'v') (sig 'o') Uaa Uab Ubb
  b : ∀ r ∈ bs, ∃ a, lams.getItem ('l' :: r.1) = .ok (.array a)
  c : ∀ r ∈ cs, ∃ v U, lams.getItem ('l' :: r.1) = .ok v ∧
    HasSingles v.attr (List.replicate r.2.2.2 nbos) (sig 'v') (sig 'o') U

/-- C42, unrestricted to general, lambda amplitudes (ranks up to two; coupled amplitudes with one fermionic excitation),
whatever `init_lams` returned: every lambda amplitude of the ansatz is replaced by the converted one (axes: virtual, then
occupied), all other entries of what `init_lams` returned stay.  Missing: triples, as for the amplitudes
(`C42_triples_fails`), and quadruples. -/
theorem C42_general_lambdas_partial {a : Ansatz} {slices : Char → Char → Except PyErr (List Nat)}
    {size : Char → Except PyErr Nat} {sig : Char → List Char}
    (hL : SpinLayout slices size sig ['o', 'O', 'i', 'v', 'V', 'a']) (nbos : Nat)
    {fs bs : List Rank} {cs : List CRank} (h : HasRanks a .U .t fs bs cs) (hf : ∀ r ∈ fs, r.2.2 ≤ 2)
    (h1 : ∀ r ∈ cs, r.2.2.1 = 1)
    (hnd : ((fs.map fun r => lname r.1) ++ ((bs.map fun r => 'l' :: r.1) ++ cs.map fun r => 'l' :: r.1)).Nodup)
    (lams : Dict (List Char) (UVal K)) (ha : ULamsOK42 sig nbos fs bs cs lams) (init : Dict (List Char) (NDArray K)) :
    ∃ out, fromULams a slices size nbos lams init = .ok out ∧
      (∀ r ∈ fs, r.2.2 = 1 → ∃ v U G, lams.getItem (lname r.1) = .ok v ∧ out.get? (lname r.1) = some G ∧
        HasSingles v.attr [] (sig 'v') (sig 'o') U ∧ IsSingles [] (sig 'v') (sig 'o') U G) ∧
      (∀ r ∈ fs, r.2.2 = 2 → ∃ v Uaa Uab Ubb G, lams.getItem (lname r.1) = .ok v ∧ out.get? (lname r.1) = some G ∧
        HasDoubles v.attr (sig 'v') (sig 'o') Uaa Uab Ubb ∧ IsDoubles (sig 'v') (sig 'o') Uaa Uab Ubb G) ∧
      (∀ r ∈ bs, ∃ b, lams.getItem ('l' :: r.1) = .ok (.array b) ∧ out.get? ('l' :: r.1) = some b) ∧
      (∀ r ∈ cs, ∃ v U G, lams.getItem ('l' :: r.1) = .ok v ∧ out.get? ('l' :: r.1) = some G ∧
        HasSingles v.attr (List.replicate r.2.2.2 nbos) (sig 'v') (sig 'o') U ∧
        IsSingles (List.replicate r.2.2.2 nbos) (sig 'v') (sig 'o') U G) ∧
      ∀ k, k ∉ ((fs.map fun r => lname r.1) ++ ((bs.map fun r => 'l' :: r.1) ++ cs.map fun r => 'l' :: r.1)) →
        out.get? k = init.get? k := by
  have hL' : SpinLayout slices size sig ['v', 'o'] := by
    constructor
    · intro k hk; exact hL.slices k (by simp at hk ⊢; tauto)
    · intro k hk; exact hL.size k (by simp at hk ⊢; tauto)
    · intro k hk; exact hL.spins k (by simp at hk ⊢; tauto)
  have k1 : ∀ r ∈ fs, ∃ G, (spreadSpins slices size nbos 0 r.2.2 true (r.2.1.drop r.2.2 ++ r.2.1.take r.2.2) fun comb => do
      let v ← lams.getItem (lname r.1)
      v.attr comb) = .ok G ∧
      (r.2.2 = 1 → ∃ v U, lams.getItem (lname r.1) = .ok v ∧
        HasSingles v.attr [] (sig 'v') (sig 'o') U ∧ IsSingles [] (sig 'v') (sig 'o') U G) ∧
      (r.2.2 = 2 → ∃ v Uaa Uab Ubb, lams.getItem (lname r.1) = .ok v ∧
        HasDoubles v.attr (sig 'v') (sig 'o') Uaa Uab Ubb ∧ IsDoubles (sig 'v') (sig 'o') Uaa Uab Ubb G) := by
    intro r hr
    rcases keys_upto2 h.f r hr (hf r hr) with ⟨e1, e2⟩ | ⟨e1, e2⟩
    · obtain ⟨v, U, v1, v2⟩ := ha.f1 r hr e1
      rw [e1, e2, v1]
      obtain ⟨G, g1, g2⟩ := spreadSpins_one hL' nbos 0 true v.attr U v2
      exact ⟨G, g1, fun _ => ⟨v, U, rfl, v2, g2⟩, fun h => absurd h (by decide)⟩
    · obtain ⟨v, x, y, z, v1, v2⟩ := ha.f2 r hr e1
      rw [e1, e2, v1]
      obtain ⟨G, g1, g2⟩ := spreadSpins_two hL' nbos v.attr x y z v2
      exact ⟨G, g1, fun h => absurd h (by decide), fun _ => ⟨v, x, y, z, rfl, v2, g2⟩⟩
  have k2 : ∀ r ∈ bs, ∃ b, (do
      let v ← lams.getItem ('l' :: r.1)
      v.asArray) = .ok b ∧ lams.getItem ('l' :: r.1) = .ok (.array b) := by
    intro r hr
    obtain ⟨b, hb⟩ := ha.b r hr
    exact ⟨b, by rw [hb]; rfl, hb⟩
  have k3 : ∀ r ∈ cs, ∃ G, (spreadSpins slices size nbos r.2.2.2 r.2.2.1 true
      (r.2.1.drop (r.2.2.2 + r.2.2.1) ++ (r.2.1.drop r.2.2.2).take r.2.2.1) fun comb => do
      let v ← lams.getItem ('l' :: r.1)
      v.attr comb) = .ok G ∧ ∃ v U, lams.getItem ('l' :: r.1) = .ok v ∧
        HasSingles v.attr (List.replicate r.2.2.2 nbos) (sig 'v') (sig 'o') U ∧
        IsSingles (List.replicate r.2.2.2 nbos) (sig 'v') (sig 'o') U G := by
    intro r hr
    obtain ⟨v, U, v1, v2⟩ := ha.c r hr
    have e := coupling_key1 h.c r hr (h1 r hr)
    rw [← List.drop_drop, e, h1 r hr, v1]
    obtain ⟨G, g1, g2⟩ := spreadSpins_one hL' nbos r.2.2.2 true v.attr U v2
    exact ⟨G, g1, v, U, rfl, v2, g2⟩
  choose! F f1 f2 f3 using k1
  choose! B b1 b2 using k2
  choose! C c1 c2 using k3
  obtain ⟨a1, a2, a3⟩ := List.nodup_append.1 hnd
  obtain ⟨b3, b4, b5⟩ := List.nodup_append.1 a2
  obtain ⟨d1, p1, p2, p3⟩ := initLoop_get42 (fun r : Rank => lname r.1) _ F fs f1 a1 init
  obtain ⟨d2, q1, q2, q3⟩ := initLoop_get42 (fun r : Rank => 'l' :: r.1) _ B bs b1 b3 d1
  obtain ⟨d3, s1, s2, s3⟩ := initLoop_get42 (fun r : CRank => 'l' :: r.1) _ C cs c1 b4 d2
  have hfs : ∀ r ∈ fs, d3.get? (lname r.1) = some (F r) := by
    intro r hr
    have hm : lname r.1 ∈ fs.map fun r => lname r.1 := List.mem_map_of_mem (f := fun r : Rank => lname r.1) hr
    rw [s3 _ fun hc => a3 _ hm _ (List.mem_append_right _ hc) rfl,
      q3 _ fun hc => a3 _ hm _ (List.mem_append_left _ hc) rfl]
    exact p2 r hr
  refine ⟨d3, ?_, ?_, ?_, ?_, ?_, ?_⟩
  · unfold fromULams
    rw [h.f, h.b, h.c]
    simp only [bind, Except.bind] at p1 q1 s1 ⊢
    rw [p1]
    simp only
    rw [q1]
    exact s1
  · intro r hr hn
    obtain ⟨v, U, x, y, z⟩ := f2 r hr hn
    exact ⟨v, U, F r, x, hfs r hr, y, z⟩
  · intro r hr hn
    obtain ⟨v, U, V, W, x, y, z⟩ := f3 r hr hn
    exact ⟨v, U, V, W, F r, x, hfs r hr, y, z⟩
  · intro r hr
    refine ⟨B r, b2 r hr, ?_⟩
    have hm : 'l' :: r.1 ∈ bs.map fun r => 'l' :: r.1 := List.mem_map_of_mem (f := fun r : Rank => 'l' :: r.1) hr
    rw [s3 _ fun hc => b5 _ hm _ hc rfl]
    exact q2 r hr
  · intro r hr
    obtain ⟨v, U, x, y, z⟩ := c2 r hr
    exact ⟨v, U, C r, x, s2 r hr, y, z⟩
  · intro k hk
    simp only [List.mem_append, not_or] at hk
    rw [s3 k hk.2.2, q3 k hk.2.1, p3 k hk.1]

/-- Non-vacuity: the lambda amplitudes of CCSD, one occupied and one virtual orbital of each spin. -/
example : ∃ out : Dict (List Char) (UVal Rat), fromRLams ⟨"CCSD".toList, [], 0, 0, false, none⟩
    [("l1".toList, ⟨[2, 1], [3, 4]⟩), ("l2".toList, ⟨[2, 2, 1, 1], [1, 2, 2, 3]⟩)] = .ok out ∧
    out.keys = ["l1".toList, "l2".toList] := ⟨_, rfl, by decide +kernel⟩

example : ∃ out : Dict (List Char) (NDArray Rat), fromULams ⟨"CCD".toList, [], 0, 0, false, none⟩
    (fun s _ => .ok (whereSpin "ab".toList s)) (fun _ => .ok 2) 0
    [("l2".toList, .spins [("aaaa".toList, ⟨[1, 1, 1, 1], [0]⟩), ("abab".toList, ⟨[1, 1, 1, 1], [7]⟩),
      ("bbbb".toList, ⟨[1, 1, 1, 1], [0]⟩)])] [] = .ok out ∧
    (out.get? "l2".toList).map (fun G => (G.get [0, 1, 0, 1], G.get [1, 0, 0, 1])) = some (7, -7) :=
  ⟨_, rfl, by decide +kernel⟩

end

end Ebcc
