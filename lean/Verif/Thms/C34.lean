import Verif.Lemmas.USpin
import Verif.Thms.C32

/-!
C34: the packed vector of unrestricted amplitudes.
-/

namespace Ebcc

open Dict

section
variable {R : Type} [Ring R]

/-- The spin blocks of one rank. -/
def spinItems (R : Type) [Ring R] (sa sb : Space) (sizes : Dict (List Char) Nat) (key : List Char) (n : Nat) :
    List (Item R (NDArray R)) :=
  (generateSpinCombinations n false true).map fun spin => spinItem R sa sb sizes key spin

/-- The shape of one spin block of a coupled amplitude. -/
def coupShape (s : Space) (nbos : Nat) (r : CRank) : List Nat :=
  List.replicate r.2.2.2 nbos ++ (r.2.1.drop r.2.2.2).map (szOf s)

/-- One fermionic amplitude. -/
def fItem (R : Type) [Ring R] (sa sb : Space) (sizes : Dict (List Char) Nat) (r : Rank) : Item R (UVal R) where
  name := r.1
  pack v := (packSpins v r.2.1 r.2.2).map List.flatten
  un vec i := (cutSpins sa sb sizes vec i r.2.1 r.2.2).map fun p => (.spins p.1, p.2)
  size := totalSize (spinItems R sa sb sizes r.2.1 r.2.2)
  P v := ∃ d, v = .spins d ∧ GoodDict (spinItems R sa sb sizes r.2.1 r.2.2) d
  E v' v := ∃ d' d, v' = .spins d' ∧ v = .spins d ∧ SameDict (spinItems R sa sb sizes r.2.1 r.2.2) d' d

/-- One bosonic amplitude. -/
def bItem (R : Type) (nbos : Nat) (r : Rank) : Item R (UVal R) where
  name := r.1
  pack v := v.ravel
  un vec i := (NDArray.reshape (vecSlice vec i (nbos ^ r.2.2)) (List.replicate r.2.2 nbos)).map
    fun x => (.array x, i + nbos ^ r.2.2)
  size := nbos ^ r.2.2
  P v := ∃ a, v = .array a ∧ a.WF ∧ a.shape = List.replicate r.2.2 nbos
  E := Eq

/-- The two spin blocks of a coupled amplitude. -/
def packCoupling {R : Type} (v : UVal R) (r : CRank) : Except PyErr (List (List R)) := do
  if r.2.2.1 ≠ 1 then throw PyErr.modelNotImplemented
  let aa ← v.attr ['a', 'a']
  let bb ← v.attr ['b', 'b']
  pure [aa.ravel, bb.ravel]

/-- One coupled amplitude. -/
def cItem (R : Type) (sa sb : Space) (nbos : Nat) (r : CRank) : Item R (UVal R) where
  name := r.1
  pack v := (packCoupling v r).map List.flatten
  un vec i := do
    if r.2.2.1 ≠ 1 then throw PyErr.modelNotImplemented
    let shape ← couplingShape sa.size nbos r.2.2.2 r.2.1
    let size := prodN shape
    let aa ← NDArray.reshape (vecSlice vec i size) shape
    let i0 := i + size
    let shape ← couplingShape sb.size nbos r.2.2.2 r.2.1
    let size := prodN shape
    let bb ← NDArray.reshape (vecSlice vec i0 size) shape
    pure (.spins (Dict.set (Dict.set [] ['a', 'a'] aa) ['b', 'b'] bb), i0 + size)
  size := prodN (coupShape sa nbos r) + prodN (coupShape sb nbos r)
  P v := ∃ d aa bb, v = .spins d ∧ d.get? ['a', 'a'] = some aa ∧ d.get? ['b', 'b'] = some bb ∧
    aa.WF ∧ aa.shape = coupShape sa nbos r ∧ bb.WF ∧ bb.shape = coupShape sb nbos r
  E v' v := ∃ d' d, v' = .spins d' ∧ v = .spins d ∧ d'.keys = [['a', 'a'], ['b', 'b']] ∧
    d'.get? ['a', 'a'] = d.get? ['a', 'a'] ∧ d'.get? ['b', 'b'] = d.get? ['b', 'b']

/-- All amplitudes. -/
def uItems (R : Type) [Ring R] (sa sb : Space) (sizes : Dict (List Char) Nat) (nbos : Nat) (fs bs : List Rank)
    (cs : List CRank) : List (Item R (UVal R)) :=
  fs.map (fItem R sa sb sizes) ++ (bs.map (bItem R nbos) ++ cs.map (cItem R sa sb nbos))

/-! ### The items -/

theorem packSpins_eq (d : Dict (List Char) (NDArray R)) (sa sb : Space) (sizes : Dict (List Char) Nat)
    (key : List Char) (n : Nat) :
    packSpins (.spins d) key n = packItems (spinItems R sa sb sizes key n) d := by
  unfold packSpins packItems spinItems
  rw [mapM_map']
  rfl

theorem cutSpins_eq (sa sb : Space) (sizes : Dict (List Char) Nat) (vec : List R) (i : Nat) (key : List Char)
    (n : Nat) : cutSpins sa sb sizes vec i key n = unItems (spinItems R sa sb sizes key n) vec ([], i) := by
  unfold cutSpins unItems spinItems
  rw [List.foldlM_map]
  apply foldlM_congr_mem
  intro spin _ st
  simp only [spinItem, bind, Except.bind, pure, Except.pure]
  cases combineSubscripts [key, spin] sizes with
  | error e => rfl
  | ok p =>
    simp only
    cases getCompressedSize p.1 p.2 with
    | error e => rfl
    | ok m =>
      simp only
      cases uShape sa sb spin key with
      | error e => rfl
      | ok sh =>
        simp only
        cases decompressAxes p.1 (vecSlice vec st.2 m) sh false none <;> rfl

theorem combos_spin (n : Nat) (spin : List Char) (h : spin ∈ generateSpinCombinations n false true) :
    spin.length = n + n ∧ ∀ c ∈ spin, c = 'a' ∨ c = 'b' := by
  obtain ⟨t, h1, h2, rfl⟩ := (C11_all n spin).1 ((C11_unique n false).1 spin h)
  refine ⟨by simp [h1], ?_⟩
  intro c hc
  rcases List.mem_append.1 hc with h | h <;> exact h2 c h

theorem combos_nodup (n : Nat) : (generateSpinCombinations n false true).Nodup :=
  (C11_unique n false).2.1.of_map _

/-- The keys of ground state amplitudes have two indices for each rank. -/
theorem key_length {ansatz : List Char} {spin : SpinType} {which : Which} {fs : List Rank}
    (h : fermionicClusterRanks ansatz spin which = .ok fs) (hw : which = .t ∨ which = .l) (r : Rank) (hr : r ∈ fs) :
    r.2.1.length = r.2.2 + r.2.2 ∧ r.2.1 ≠ [] := by
  obtain ⟨k, rfl⟩ := (C24_well_formed ansatz spin which fs h).2.2 r hr
  rcases hw with rfl | rfl <;> cases k <;> decide

theorem fItem_ok (h2 : ∀ x : R, x + x = 0 → x = 0) {sa sb : Space} {sizes : Dict (List Char) Nat} {r : Rank}
    (hr : ∀ spin ∈ generateSpinCombinations r.2.2 false true, KeySpin r.2.1 spin)
    (hs : ∀ c s, (c = 'o' ∨ c = 'O' ∨ c = 'v' ∨ c = 'V') → (s = 'a' ∨ s = 'b') →
      sizes.get? [c, s] = some (sz2 sa sb (c, s))) : (fItem R sa sb sizes r).OK := by
  have hok : ∀ it ∈ spinItems R sa sb sizes r.2.1 r.2.2, it.OK := by
    intro it hit
    obtain ⟨spin, hsp, rfl⟩ := List.mem_map.1 hit
    exact spinItem_ok h2 (hr spin hsp) hs
  have hnd : ((spinItems R sa sb sizes r.2.1 r.2.2).map (·.name)).Nodup := by
    simp only [spinItems, List.map_map, Function.comp_def, spinItem, List.map_id']
    exact combos_nodup r.2.2
  refine ⟨?_, ?_, ?_⟩
  · rintro v ⟨d, rfl, hd⟩
    obtain ⟨vs, d', p1, p2, _, p3, p4⟩ := items_pack _ hok hnd d hd
    refine ⟨vs.flatten, .spins d', ?_, p2, ⟨d', d, rfl, rfl, p3⟩, fun pre post => ?_⟩
    · simp only [fItem]
      rw [packSpins_eq d sa sb sizes, p1]
      rfl
    · simp only [fItem]
      rw [cutSpins_eq, p4 pre post [] (by simp [Dict.keys])]
      rfl
  · intro v hv
    obtain ⟨vs, d, p1, p2, p3, p4, p5⟩ := items_un _ hok hnd v hv
    refine ⟨.spins d, ⟨d, rfl, p1⟩, ?_, fun pre post => ?_⟩
    · simp only [fItem]
      rw [packSpins_eq d sa sb sizes, p3]
      exact congrArg Except.ok p4
    · simp only [fItem]
      rw [cutSpins_eq, p5 pre post [] (by simp [Dict.keys])]
      rfl
  · intro vec i x j h
    simp only [fItem] at h ⊢
    rw [cutSpins_eq] at h
    cases hu : unItems (spinItems R sa sb sizes r.2.1 r.2.2) vec ([], i) with
    | error e => rw [hu] at h; cases h
    | ok st =>
      rw [hu] at h
      cases h
      exact items_pos _ hok _ _ _ hu

omit [Ring R] in
theorem bItem_ok (nbos : Nat) (r : Rank) : (bItem R nbos r).OK := by
  have hsz : prodN (List.replicate r.2.2 nbos) = nbos ^ r.2.2 := prodN_replicate _ _
  refine ⟨?_, ?_, ?_⟩
  · rintro v ⟨⟨s, data⟩, rfl, hwf, hs⟩
    simp only at hs
    subst hs
    have hl : data.length = nbos ^ r.2.2 := by rw [← hsz]; exact hwf
    refine ⟨data, _, rfl, hl, rfl, fun pre post => ?_⟩
    simp only [bItem]
    rw [vecSlice_mid _ _ _ _ hl, NDArray.reshape, if_pos (hl.trans hsz.symm)]
    rfl
  · intro v hv
    simp only [bItem] at hv
    refine ⟨.array ⟨List.replicate r.2.2 nbos, v⟩, ⟨_, rfl, hv.trans hsz.symm, rfl⟩, rfl, fun pre post => ?_⟩
    simp only [bItem]
    rw [vecSlice_mid _ _ _ _ hv, NDArray.reshape, if_pos (hv.trans hsz.symm)]
    rfl
  · intro vec i x j h
    simp only [bItem, Except.map] at h ⊢
    split at h
    · cases h
    · cases h; rfl

omit [Ring R] in
theorem cItem_ok (sa sb : Space) (nbos : Nat) (r : CRank) (h1 : r.2.2.1 = 1)
    (hk : ∀ c ∈ r.2.1.drop r.2.2.2, c = 'o' ∨ c = 'O' ∨ c = 'v' ∨ c = 'V') : (cItem R sa sb nbos r).OK := by
  have hsh : ∀ s : Space, couplingShape s.size nbos r.2.2.2 r.2.1 = .ok (coupShape s nbos r) := by
    intro s
    rw [couplingShape, mapM_size s _ hk]
    rfl
  have hun : ∀ vec i, (cItem R sa sb nbos r).un vec i =
      (NDArray.reshape (vecSlice vec i (prodN (coupShape sa nbos r))) (coupShape sa nbos r)).bind fun aa =>
      (NDArray.reshape (vecSlice vec (i + prodN (coupShape sa nbos r)) (prodN (coupShape sb nbos r)))
        (coupShape sb nbos r)).bind fun bb =>
      .ok (.spins (Dict.set (Dict.set [] ['a', 'a'] aa) ['b', 'b'] bb),
        i + prodN (coupShape sa nbos r) + prodN (coupShape sb nbos r)) := by
    intro vec i
    simp only [cItem, h1, hsh, ne_eq, not_true_eq_false, if_false, bind, Except.bind, pure, Except.pure]
  have hread : ∀ (va vb : List R), va.length = prodN (coupShape sa nbos r) → vb.length = prodN (coupShape sb nbos r) →
      ∀ pre post, (cItem R sa sb nbos r).un (pre ++ ((va ++ vb) ++ post)) pre.length =
        .ok (.spins [(['a', 'a'], ⟨coupShape sa nbos r, va⟩), (['b', 'b'], ⟨coupShape sb nbos r, vb⟩)],
          pre.length + (prodN (coupShape sa nbos r) + prodN (coupShape sb nbos r))) := by
    intro va vb ha hb pre post
    rw [hun, List.append_assoc, vecSlice_mid _ _ _ _ ha, NDArray.reshape, if_pos ha]
    have e : vecSlice (pre ++ (va ++ (vb ++ post))) (pre.length + prodN (coupShape sa nbos r))
        (prodN (coupShape sb nbos r)) = vb := by
      rw [← List.append_assoc pre, ← ha, ← List.length_append]
      exact vecSlice_mid _ _ _ _ hb
    simp only [Except.bind]
    rw [e, NDArray.reshape, if_pos hb]
    simp only [Except.bind, Nat.add_assoc]
    rfl
  refine ⟨?_, ?_, ?_⟩
  · rintro v ⟨d, ⟨s1, aa⟩, ⟨s2, bb⟩, rfl, ga, gb, wa, ea, wb, eb⟩
    simp only at ea eb
    subst ea eb
    refine ⟨aa ++ bb, .spins [(['a', 'a'], ⟨coupShape sa nbos r, aa⟩), (['b', 'b'], ⟨coupShape sb nbos r, bb⟩)],
      ?_, ?_, ?_, hread aa bb wa wb⟩
    · simp only [cItem, packCoupling, h1, UVal.attr, ga, gb, NDArray.ravel, bind, Except.bind, pure, Except.pure,
        Except.map, ne_eq, not_true_eq_false, if_false]
      simp
    · rw [List.length_append]
      exact congrArg₂ _ wa wb
    · refine ⟨_, d, rfl, rfl, rfl, ?_, ?_⟩
      · rw [ga]; rfl
      · rw [gb]; rfl
  · intro v hv
    simp only [cItem] at hv
    have ha : (v.take (prodN (coupShape sa nbos r))).length = prodN (coupShape sa nbos r) := by
      rw [List.length_take]; omega
    have hb : (v.drop (prodN (coupShape sa nbos r))).length = prodN (coupShape sb nbos r) := by
      rw [List.length_drop]; omega
    have hr := hread _ _ ha hb
    rw [List.take_append_drop] at hr
    refine ⟨.spins [(['a', 'a'], ⟨coupShape sa nbos r, v.take (prodN (coupShape sa nbos r))⟩),
      (['b', 'b'], ⟨coupShape sb nbos r, v.drop (prodN (coupShape sa nbos r))⟩)],
      ⟨_, ⟨coupShape sa nbos r, v.take (prodN (coupShape sa nbos r))⟩,
        ⟨coupShape sb nbos r, v.drop (prodN (coupShape sa nbos r))⟩, rfl, rfl, rfl, ha, rfl, hb, rfl⟩, ?_, hr⟩
    simp only [cItem, packCoupling, h1, bind, Except.bind, pure, Except.pure, UVal.attr,
        Except.map, ne_eq, not_true_eq_false, if_false]
    have e1 : Dict.get? [(['a', 'a'], (⟨coupShape sa nbos r, v.take (prodN (coupShape sa nbos r))⟩ : NDArray R)),
      (['b', 'b'], ⟨coupShape sb nbos r, v.drop (prodN (coupShape sa nbos r))⟩)] ['a', 'a']
        = some ⟨coupShape sa nbos r, v.take (prodN (coupShape sa nbos r))⟩ := rfl
    have e2 : Dict.get? [(['a', 'a'], (⟨coupShape sa nbos r, v.take (prodN (coupShape sa nbos r))⟩ : NDArray R)),
      (['b', 'b'], ⟨coupShape sb nbos r, v.drop (prodN (coupShape sa nbos r))⟩)] ['b', 'b']
        = some ⟨coupShape sb nbos r, v.drop (prodN (coupShape sa nbos r))⟩ := rfl
    rw [e1, e2]
    simp [NDArray.ravel, List.take_append_drop]
  · intro vec i x j h
    rw [hun] at h
    simp only [Except.bind] at h
    split at h
    · cases h
    · split at h
      · cases h
      · cases h
        simp only [cItem, Nat.add_assoc]

/-! ### The methods -/

theorem mapM_map_result {α β γ : Type} (f : α → Except PyErr β) (g : β → γ) (l : List α) :
    (l.mapM fun x => (f x).map g) = (l.mapM f).map (List.map g) := by
  induction l with
  | nil => rfl
  | cons x l ih =>
    rw [List.mapM_cons, List.mapM_cons, ih]
    cases f x with
    | error e => rfl
    | ok y =>
      cases l.mapM f with
      | error e => rfl
      | ok ys => rfl

theorem flatten_map_flatten {α : Type} (l : List (List (List α))) : (l.map List.flatten).flatten = l.flatten.flatten := by
  induction l with
  | nil => rfl
  | cons x l ih => simp [ih]

theorem mapM_mem {α β : Type} {f : α → Except PyErr β} {l : List α} {r : List β} (h : l.mapM f = .ok r) :
    ∀ y ∈ r, ∃ x ∈ l, f x = .ok y := by
  induction l generalizing r with
  | nil => cases h; simp
  | cons x l ih =>
    rw [List.mapM_cons] at h
    simp only [bind, Except.bind, pure, Except.pure] at h
    cases hx : f x with
    | error e => simp [hx] at h
    | ok y =>
      simp only [hx] at h
      cases hl : l.mapM f with
      | error e => simp [hl] at h
      | ok ys =>
        simp only [hl, Except.ok.injEq] at h
        subst h
        intro z hz
        rcases List.mem_cons.1 hz with rfl | hz
        · exact ⟨x, List.mem_cons_self, hx⟩
        · obtain ⟨w, hw, he⟩ := ih hl z hz
          exact ⟨w, List.mem_cons_of_mem _ hw, he⟩

/-- Packing is packing of the items. -/
theorem uToVector_eq {a : Ansatz} {which : Which} {fs bs : List Rank}
    {cs : List CRank} (h : HasRanks a .U which fs bs cs) (hne : ¬ (fs = [] ∧ bs = [] ∧ cs = []))
    (h1 : ∀ r ∈ cs, r.2.2.1 = 1)
    (sa sb : Space) (sizes : Dict (List Char) Nat) (nbos : Nat) (amps : Dict (List Char) (UVal R)) :
    uAmplitudesToVector a which amps = (packItems (uItems R sa sb sizes nbos fs bs cs) amps).map List.flatten := by
  unfold uAmplitudesToVector uItems
  rw [h.f, h.b, h.c]
  let F : Rank → Except PyErr (List (List R)) := fun r => do
      let v ← amps.getItem r.1
      packSpins v r.2.1 r.2.2
  let B : Rank → Except PyErr (List R) := fun r => do
      let v ← amps.getItem r.1
      v.ravel
  let C : CRank → Except PyErr (List (List R)) := fun r => do
      let v ← amps.getItem r.1
      packCoupling v r
  have e1 : packItems (fs.map (fItem R sa sb sizes)) amps = (fs.mapM F).map (List.map List.flatten) := by
    unfold packItems
    rw [mapM_map', ← mapM_map_result]
    apply mapM_congr_mem
    intro r _
    simp only [F, fItem, bind, Except.bind]
    cases amps.getItem r.1 <;> rfl
  have e2 : packItems (bs.map (bItem R nbos)) amps = bs.mapM B := by
    unfold packItems
    rw [mapM_map']
    rfl
  have e3 : packItems (cs.map (cItem R sa sb nbos)) amps = (cs.mapM C).map (List.map List.flatten) := by
    unfold packItems
    rw [mapM_map', ← mapM_map_result]
    apply mapM_congr_mem
    intro r _
    simp only [C, cItem, bind, Except.bind]
    cases amps.getItem r.1 <;> rfl
  have e4 : (cs.mapM fun r => (do
      if r.2.2.1 ≠ 1 then throw PyErr.modelNotImplemented
      let v ← amps.getItem r.1
      let aa ← v.attr ['a', 'a']
      let bb ← v.attr ['b', 'b']
      pure [aa.ravel, bb.ravel] : Except PyErr (List (List R)))) = cs.mapM C := by
    apply mapM_congr_mem
    intro r hr
    simp only [C, packCoupling, h1 r hr, ne_eq, not_true_eq_false, if_false, bind, Except.bind, pure, Except.pure]
  simp only [ne_eq] at e4
  rw [packItems_append, packItems_append, e1, e2, e3]
  simp only [bind, Except.bind] at e4 ⊢
  have hF : ∀ v1, fs.mapM F = .ok v1 → ∀ y ∈ v1, y ≠ [] := by
    intro v1 hv y hy
    obtain ⟨r, _, he⟩ := mapM_mem hv y hy
    simp only [F, bind, Except.bind] at he
    cases hg : amps.getItem r.1 with
    | error e => simp [hg] at he
    | ok v =>
      simp only [hg] at he
      have := mapM_length he
      rw [C11_unique_count] at this
      rintro rfl
      simp at this
  have hC : ∀ v3, cs.mapM C = .ok v3 → ∀ y ∈ v3, y ≠ [] := by
    intro v1 hv y hy
    obtain ⟨r, _, he⟩ := mapM_mem hv y hy
    simp only [C, packCoupling, bind, Except.bind, pure, Except.pure] at he
    rintro rfl
    repeat' split at he
    all_goals cases he
  change (fs.mapM F).bind _ = _
  cases hf : fs.mapM F with
  | error e => rfl
  | ok v1 =>
    simp only [Except.bind, Except.map]
    change (bs.mapM B).bind _ = _
    cases hb : bs.mapM B with
    | error e => rfl
    | ok v2 =>
      simp only [Except.bind]
      rw [e4]
      cases hc : cs.mapM C with
      | error e => rfl
      | ok v3 =>
        simp only [Except.ok.injEq]
        rw [concatenate, if_neg]
        · simp [flatten_map_flatten]
        · intro h0
          simp only [List.append_eq_nil_iff, List.flatten_eq_nil_iff] at h0
          have l1 : v1 = [] := by
            cases v1 with
            | nil => rfl
            | cons y _ => exact absurd (h0.1.1 y List.mem_cons_self) (hF _ hf y List.mem_cons_self)
          have l3 : v3 = [] := by
            cases v3 with
            | nil => rfl
            | cons y _ => exact absurd (h0.2 y List.mem_cons_self) (hC _ hc y List.mem_cons_self)
          have m1 := mapM_length hf
          have m2 := mapM_length hb
          have m3 := mapM_length hc
          rw [l1] at m1
          rw [h0.1.2] at m2
          rw [l3] at m3
          exact hne ⟨List.length_eq_zero_iff.1 m1.symm, List.length_eq_zero_iff.1 m2.symm,
            List.length_eq_zero_iff.1 m3.symm⟩

/-- Reading is reading of the items, and the check of the length. -/
theorem uOfVector_eq {a : Ansatz} {which : Which} {fs bs : List Rank}
    {cs : List CRank} (h : HasRanks a .U which fs bs cs)
    (sa sb : Space) (sizes : Dict (List Char) Nat) (hsz : uSizes sa sb = .ok sizes) (nbos : Nat) (vector : List R) :
    uVectorToAmplitudes a which sa sb nbos vector =
      (unItems (uItems R sa sb sizes nbos fs bs cs) vector ([], 0)).bind fun st =>
        if st.2 = vector.length then .ok st.1 else .error .assertionError := by
  have e1 : ∀ st, fs.foldlM (fun (st : Dict (List Char) (UVal R) × Nat) r => do
      let (d, i0) ← cutSpins sa sb sizes vector st.2 r.2.1 r.2.2
      pure (st.1.set r.1 (.spins d), i0)) st = unItems (fs.map (fItem R sa sb sizes)) vector st := by
    intro st
    unfold unItems
    rw [List.foldlM_map]
    apply foldlM_congr_mem
    intro r _ st
    simp only [fItem, bind, Except.bind, pure, Except.pure]
    cases cutSpins sa sb sizes vector st.2 r.2.1 r.2.2 <;> rfl
  have e2 : ∀ st, bs.foldlM (fun (st : Dict (List Char) (UVal R) × Nat) r => do
      let shape := List.replicate r.2.2 nbos
      let size := nbos ^ r.2.2
      let x ← NDArray.reshape (vecSlice vector st.2 size) shape
      pure (st.1.set r.1 (.array x), st.2 + size)) st = unItems (bs.map (bItem R nbos)) vector st := by
    intro st
    unfold unItems
    rw [List.foldlM_map]
    apply foldlM_congr_mem
    intro r _ st
    simp only [bItem, bind, Except.bind, pure, Except.pure]
    cases NDArray.reshape (vecSlice vector st.2 (nbos ^ r.2.2)) (List.replicate r.2.2 nbos) <;> rfl
  have e3 : ∀ st, cs.foldlM (fun (st : Dict (List Char) (UVal R) × Nat) r => do
      if r.2.2.1 ≠ 1 then throw PyErr.modelNotImplemented
      let shape ← couplingShape sa.size nbos r.2.2.2 r.2.1
      let size := prodN shape
      let aa ← NDArray.reshape (vecSlice vector st.2 size) shape
      let i0 := st.2 + size
      let shape ← couplingShape sb.size nbos r.2.2.2 r.2.1
      let size := prodN shape
      let bb ← NDArray.reshape (vecSlice vector i0 size) shape
      pure (st.1.set r.1 (.spins (Dict.set (Dict.set [] ['a', 'a'] aa) ['b', 'b'] bb)), i0 + size)) st
      = unItems (cs.map (cItem R sa sb nbos)) vector st := by
    intro st
    unfold unItems
    rw [List.foldlM_map]
    apply foldlM_congr_mem
    intro r _ st
    simp only [cItem, bind, Except.bind, pure, Except.pure]
    split
    · rfl
    · cases couplingShape sa.size nbos r.2.2.2 r.2.1 with
      | error e => rfl
      | ok s1 =>
        simp only
        cases NDArray.reshape (vecSlice vector st.2 (prodN s1)) s1 with
        | error e => rfl
        | ok x1 =>
          simp only
          cases couplingShape sb.size nbos r.2.2.2 r.2.1 with
          | error e => rfl
          | ok s2 =>
            simp only
            cases NDArray.reshape (vecSlice vector (st.2 + prodN s1) (prodN s2)) s2 <;> rfl
  unfold uVectorToAmplitudes uItems
  rw [h.f, h.b, h.c, hsz]
  simp only [unItems_append, bind, Except.bind] at e1 e2 e3 ⊢
  rw [e1]
  cases unItems (fs.map (fItem R sa sb sizes)) vector ([], 0) with
  | error e => rfl
  | ok st =>
    simp only
    rw [e2]
    cases unItems (bs.map (bItem R nbos)) vector st with
    | error e => rfl
    | ok st' =>
      simp only
      rw [e3]
      rfl

/-! ### The property -/

/-- Amplitudes of an unrestricted calculation: for every rank and every spin combination a block of the right
shape, antisymmetric in axes of equal class and spin; arrays for bosons; two spin blocks for couplings. -/
structure UAmps (sa sb : Space) (nbos : Nat) (fs bs : List Rank) (cs : List CRank)
    (T : Dict (List Char) (UVal R)) : Prop where
  f : ∀ r ∈ fs, ∃ d, T.get? r.1 = some (.spins d) ∧ ∀ spin ∈ generateSpinCombinations r.2.2 false true,
    ∃ a, d.get? spin = some a ∧ GoodBlock sa sb r.2.1 spin a
  b : ∀ r ∈ bs, ∃ a, T.get? r.1 = some (.array a) ∧ a.WF ∧ a.shape = List.replicate r.2.2 nbos
  c : ∀ r ∈ cs, ∃ d aa bb, T.get? r.1 = some (.spins d) ∧ d.get? ['a', 'a'] = some aa ∧
    d.get? ['b', 'b'] = some bb ∧ aa.WF ∧ aa.shape = coupShape sa nbos r ∧ bb.WF ∧ bb.shape = coupShape sb nbos r

/-- The same amplitudes: the same names and every block the same. -/
structure USame (fs bs : List Rank) (cs : List CRank) (T' T : Dict (List Char) (UVal R)) : Prop where
  names : T'.keys = (fs.map fun r => r.1) ++ ((bs.map fun r => r.1) ++ cs.map fun r => r.1)
  f : ∀ r ∈ fs, ∃ d' d, T'.get? r.1 = some (.spins d') ∧ T.get? r.1 = some (.spins d) ∧
    d'.keys = generateSpinCombinations r.2.2 false true ∧
    ∀ spin ∈ generateSpinCombinations r.2.2 false true, d'.get? spin = d.get? spin
  b : ∀ r ∈ bs, T'.get? r.1 = T.get? r.1
  c : ∀ r ∈ cs, ∃ d' d, T'.get? r.1 = some (.spins d') ∧ T.get? r.1 = some (.spins d) ∧
    d'.keys = [['a', 'a'], ['b', 'b']] ∧
    d'.get? ['a', 'a'] = d.get? ['a', 'a'] ∧ d'.get? ['b', 'b'] = d.get? ['b', 'b']

/-- The number of packed elements. -/
def uLength (sa sb : Space) (nbos : Nat) (fs bs : List Rank) (cs : List CRank) : Nat :=
  (fs.map fun r => ((generateSpinCombinations r.2.2 false true).map fun spin => blockSize sa sb r.2.1 spin).sum).sum
  + ((bs.map fun r => nbos ^ r.2.2).sum
  + (cs.map fun r => (coupShape sa nbos r).prod + (coupShape sb nbos r).prod).sum)

theorem uItems_size (sa sb : Space) (sizes : Dict (List Char) Nat) (nbos : Nat) (fs bs : List Rank)
    (cs : List CRank) : totalSize (uItems R sa sb sizes nbos fs bs cs) = uLength sa sb nbos fs bs cs := by
  simp [totalSize, uItems, uLength, fItem, bItem, cItem, spinItems, spinItem, Function.comp_def, prodN_eq_prod]

theorem uItems_names (sa sb : Space) (sizes : Dict (List Char) Nat) (nbos : Nat) (fs bs : List Rank)
    (cs : List CRank) : (uItems R sa sb sizes nbos fs bs cs).map (·.name)
      = (fs.map fun r => r.1) ++ ((bs.map fun r => r.1) ++ cs.map fun r => r.1) := by
  simp [uItems, fItem, bItem, cItem, Function.comp_def]

theorem uItems_ok (h2 : ∀ x : R, x + x = 0 → x = 0) {a : Ansatz} {which : Which} {fs bs : List Rank}
    {cs : List CRank} (h : HasRanks a .U which fs bs cs) (hw : which = .t ∨ which = .l)
    (h1 : ∀ r ∈ cs, r.2.2.1 = 1) {sa sb : Space} {sizes : Dict (List Char) Nat}
    (hs : ∀ c s, (c = 'o' ∨ c = 'O' ∨ c = 'v' ∨ c = 'V') → (s = 'a' ∨ s = 'b') →
      sizes.get? [c, s] = some (sz2 sa sb (c, s))) (nbos : Nat) :
    ∀ it ∈ uItems R sa sb sizes nbos fs bs cs, it.OK := by
  intro it hit
  unfold uItems at hit
  rw [List.mem_append, List.mem_append, List.mem_map, List.mem_map, List.mem_map] at hit
  rcases hit with ⟨r, hr, rfl⟩ | ⟨r, hr, rfl⟩ | ⟨r, hr, rfl⟩
  · refine fItem_ok h2 (fun spin hsp => ?_) hs
    obtain ⟨l1, l2⟩ := key_length h.f hw r hr
    obtain ⟨s1, s2⟩ := combos_spin _ spin hsp
    exact ⟨by rw [l1, s1], l2, key_chars h.f r hr, s2⟩
  · exact bItem_ok nbos r
  · exact cItem_ok sa sb nbos r (h1 r hr) (coupling_key h.c r hr).1

theorem good_iff (sa sb : Space) (sizes : Dict (List Char) Nat) (nbos : Nat) (fs bs : List Rank)
    (cs : List CRank) (T : Dict (List Char) (UVal R)) :
    GoodDict (uItems R sa sb sizes nbos fs bs cs) T ↔ UAmps sa sb nbos fs bs cs T := by
  constructor
  · intro h
    refine ⟨fun r hr => ?_, fun r hr => ?_, fun r hr => ?_⟩
    · obtain ⟨x, h1, d, rfl, h2⟩ := h (fItem R sa sb sizes r) (by simp only [uItems, List.mem_append, List.mem_map]; exact Or.inl ⟨r, hr, rfl⟩)
      refine ⟨d, h1, fun spin hsp => ?_⟩
      exact h2 (spinItem R sa sb sizes r.2.1 spin) (List.mem_map_of_mem hsp)
    · obtain ⟨x, h1, a, rfl, h2⟩ := h (bItem R nbos r) (by simp only [uItems, List.mem_append, List.mem_map]; exact Or.inr (Or.inl ⟨r, hr, rfl⟩))
      exact ⟨a, h1, h2⟩
    · obtain ⟨x, h1, d, aa, bb, rfl, h2⟩ := h (cItem R sa sb nbos r) (by simp only [uItems, List.mem_append, List.mem_map]; exact Or.inr (Or.inr ⟨r, hr, rfl⟩))
      exact ⟨d, aa, bb, h1, h2⟩
  · intro h it hit
    unfold uItems at hit
    rw [List.mem_append, List.mem_append, List.mem_map, List.mem_map, List.mem_map] at hit
    rcases hit with ⟨r, hr, rfl⟩ | ⟨r, hr, rfl⟩ | ⟨r, hr, rfl⟩
    · obtain ⟨d, h1, h2⟩ := h.f r hr
      refine ⟨.spins d, h1, d, rfl, ?_⟩
      intro it' hit'
      obtain ⟨spin, hsp, rfl⟩ := List.mem_map.1 hit'
      exact h2 spin hsp
    · obtain ⟨a, h1, h2⟩ := h.b r hr
      exact ⟨.array a, h1, a, rfl, h2⟩
    · obtain ⟨d, aa, bb, h1, h2⟩ := h.c r hr
      exact ⟨.spins d, h1, d, aa, bb, rfl, h2⟩

theorem same_of (sa sb : Space) (sizes : Dict (List Char) Nat) (nbos : Nat) (fs bs : List Rank)
    (cs : List CRank) (T' T : Dict (List Char) (UVal R)) (h : SameDict (uItems R sa sb sizes nbos fs bs cs) T' T) :
    USame fs bs cs T' T := by
  obtain ⟨h1, h2⟩ := h
  refine ⟨by rw [h1, uItems_names], fun r hr => ?_, fun r hr => ?_, fun r hr => ?_⟩
  · obtain ⟨x', x, e1, e2, d', d, rfl, rfl, k1, k2⟩ := h2 (fItem R sa sb sizes r) (by simp only [uItems, List.mem_append, List.mem_map]; exact Or.inl ⟨r, hr, rfl⟩)
    refine ⟨d', d, e1, e2, ?_, fun spin hsp => ?_⟩
    · rw [k1]; simp [spinItems, spinItem, Function.comp_def]
    · obtain ⟨y', y, f1, f2, f3⟩ := k2 (spinItem R sa sb sizes r.2.1 spin) (List.mem_map_of_mem hsp)
      have f3 : y' = y := f3
      subst f3
      exact f1.trans f2.symm
  · obtain ⟨x', x, e1, e2, e3⟩ := h2 (bItem R nbos r) (by simp only [uItems, List.mem_append, List.mem_map]; exact Or.inr (Or.inl ⟨r, hr, rfl⟩))
    have e3 : x' = x := e3
    subst e3
    exact e1.trans e2.symm
  · obtain ⟨x', x, e1, e2, d', d, rfl, rfl, k⟩ := h2 (cItem R sa sb nbos r) (by simp only [uItems, List.mem_append, List.mem_map]; exact Or.inr (Or.inr ⟨r, hr, rfl⟩))
    exact ⟨d', d, e1, e2, k⟩

/-- Unrestricted amplitudes (and lambda amplitudes): unpacking the packed amplitudes gives back every block.
Missing: an ansatz with two blocks of one name (two kinds of triples), for which it is false (`C32_two_triples`). -/
theorem C34_amplitudes_partial (h2 : ∀ x : R, x + x = 0 → x = 0) {a : Ansatz} {which : Which} {fs bs : List Rank}
    {cs : List CRank} (h : HasRanks a .U which fs bs cs) (hw : which = .t ∨ which = .l)
    (h1 : ∀ r ∈ cs, r.2.2.1 = 1) (hne : ¬ (fs = [] ∧ bs = [] ∧ cs = []))
    (hnd : ((fs.map fun r => r.1) ++ ((bs.map fun r => r.1) ++ cs.map fun r => r.1)).Nodup)
    (sa sb : Space) (nbos : Nat) (T : Dict (List Char) (UVal R)) (hT : UAmps sa sb nbos fs bs cs T) :
    ∃ x T', uAmplitudesToVector a which T = .ok x ∧ x.length = uLength sa sb nbos fs bs cs ∧
      uVectorToAmplitudes a which sa sb nbos x = .ok T' ∧ USame fs bs cs T' T := by
  obtain ⟨sizes, hsz, hs⟩ := uSizes_ok sa sb
  obtain ⟨vs, T', p1, p2, _, p3, p4⟩ := items_pack _ (uItems_ok h2 h hw h1 hs nbos)
    (by rw [uItems_names]; exact hnd) T ((good_iff sa sb sizes nbos fs bs cs T).2 hT)
  have hl : vs.flatten.length = uLength sa sb nbos fs bs cs := by rw [p2, uItems_size]
  refine ⟨vs.flatten, T', ?_, hl, ?_, same_of _ _ _ _ _ _ _ _ _ p3⟩
  · rw [uToVector_eq h hne h1 sa sb sizes nbos, p1]; rfl
  · rw [uOfVector_eq h sa sb sizes hsz]
    have := p4 [] [] [] (by simp [Dict.keys])
    rw [List.append_nil, List.nil_append, List.length_nil] at this
    rw [this]
    simp only [Except.bind]
    rw [if_pos (by rw [p2, Nat.zero_add])]
    rfl

/-- Every vector of the right length unpacks to antisymmetric blocks, which pack to the same vector.
Missing: an ansatz with two blocks of one name (two kinds of triples), for which it is false (`C32_two_triples`). -/
theorem C34_vectors_partial (h2 : ∀ x : R, x + x = 0 → x = 0) {a : Ansatz} {which : Which} {fs bs : List Rank}
    {cs : List CRank} (h : HasRanks a .U which fs bs cs) (hw : which = .t ∨ which = .l)
    (h1 : ∀ r ∈ cs, r.2.2.1 = 1) (hne : ¬ (fs = [] ∧ bs = [] ∧ cs = []))
    (hnd : ((fs.map fun r => r.1) ++ ((bs.map fun r => r.1) ++ cs.map fun r => r.1)).Nodup)
    (sa sb : Space) (nbos : Nat) (x : List R) (hx : x.length = uLength sa sb nbos fs bs cs) :
    ∃ T, uVectorToAmplitudes a which sa sb nbos x = .ok T ∧ UAmps sa sb nbos fs bs cs T ∧
      T.keys = (fs.map fun r => r.1) ++ ((bs.map fun r => r.1) ++ cs.map fun r => r.1) ∧
      uAmplitudesToVector a which T = .ok x := by
  obtain ⟨sizes, hsz, hs⟩ := uSizes_ok sa sb
  obtain ⟨vs, T, p1, p2, p3, p4, p5⟩ := items_un _ (uItems_ok h2 h hw h1 hs nbos)
    (by rw [uItems_names]; exact hnd) x (by rw [hx, uItems_size])
  refine ⟨T, ?_, (good_iff sa sb sizes nbos fs bs cs T).1 p1, by rw [p2, uItems_names], ?_⟩
  · rw [uOfVector_eq h sa sb sizes hsz]
    have := p5 [] [] [] (by simp [Dict.keys])
    rw [List.append_nil, List.nil_append, List.length_nil] at this
    rw [this]
    simp only [Except.bind]
    rw [if_pos (by rw [hx, uItems_size, Nat.zero_add])]
    rfl
  · rw [uToVector_eq h hne h1 sa sb sizes nbos, p3]
    exact congrArg Except.ok p4

/-- Vectors of any other length are rejected. -/
theorem C34_wrong_length (h2 : ∀ x : R, x + x = 0 → x = 0) {a : Ansatz} {which : Which} {fs bs : List Rank}
    {cs : List CRank} (h : HasRanks a .U which fs bs cs) (hw : which = .t ∨ which = .l)
    (h1 : ∀ r ∈ cs, r.2.2.1 = 1) (sa sb : Space) (nbos : Nat) (x : List R)
    (hx : x.length ≠ uLength sa sb nbos fs bs cs) :
    ∃ e, uVectorToAmplitudes a which sa sb nbos x = .error e := by
  obtain ⟨sizes, hsz, hs⟩ := uSizes_ok sa sb
  rw [uOfVector_eq h sa sb sizes hsz]
  cases hu : unItems (uItems R sa sb sizes nbos fs bs cs) x ([], 0) with
  | error e => exact ⟨e, rfl⟩
  | ok st =>
    have := items_pos _ (uItems_ok h2 h hw h1 hs nbos) _ _ _ hu
    rw [uItems_size] at this
    simp only [Nat.zero_add] at this
    refine ⟨.assertionError, ?_⟩
    simp only [Except.bind]
    rw [if_neg (by rw [this]; exact fun he => hx he.symm)]

/-- The hypotheses hold for every named ansatz. -/
theorem C34_named (s : List Char) (df : Bool) (a : Ansatz) (ha : Ansatz.fromString s df = .ok a)
    (which : Which) (hw : which = .t ∨ which = .l) :
    ∃ fs bs cs, HasRanks a .U which fs bs cs ∧ ¬ (fs = [] ∧ bs = [] ∧ cs = []) ∧ (∀ r ∈ cs, r.2.2.1 = 1) ∧
      ((fs.map fun r => r.1) ++ ((bs.map fun r => r.1) ++ cs.map fun r => r.1)).Nodup := by
  obtain ⟨fs, bs, cs, h, hs⟩ := named_ranks s df a ha .U which hw
  have hsp : Space := ⟨[], [], []⟩
  obtain ⟨n1, n2⟩ := hs hsp 0
  refine ⟨fs, bs, cs, h, ?_, ?_, ?_⟩
  · rintro ⟨rfl, rfl, rfl⟩; exact n1 rfl
  · intro r hr
    have h1 : a.fermionCouplingRank ≤ 1 := by
      have hfin : ∀ x ∈ namedAnsatzes, x.2.2.2.1 ≤ 1 := by decide +kernel
      unfold Ansatz.fromString at ha
      cases hl : namedAnsatzes.lookup s with
      | none => rw [hl] at ha; cases ha
      | some v => rw [hl] at ha; cases ha; exact hfin _ (mem_of_lookup hl)
    have := coupling_key h.c r hr
    omega
  · simpa [layout, Function.comp_def] using n2

end

/-- Two spins: one and two occupied orbitals, two virtual orbitals each. -/
def spaceA : Space := ⟨[true, false, false], [false, false, false], [false, false, false]⟩
def spaceB : Space := ⟨[true, true, false, false], [false, false, false, false], [false, false, false, false]⟩

/-- Singles of both spins (2 and 4), doubles aaaa (0), abab (8), bbbb (1). -/
example : uLength spaceA spaceB 0 [("t1".toList, "ov".toList, 1), ("t2".toList, "oovv".toList, 2)] [] [] = 15 := by
  decide +kernel

example : (uVectorToAmplitudes ⟨"CCSD".toList, [], 0, 0, false, none⟩ .t spaceA spaceB 0 (List.replicate 16 (1 : Int)))
    = .error .assertionError := by decide +kernel

example : ((uVectorToAmplitudes ⟨"CCD".toList, [], 0, 0, false, none⟩ .t spaceA spaceB 0
    [(1 : Int), 2, 3, 4, 5, 6, 7, 8, 9]).toOption.bind fun T => T.get? "t2".toList).bind
      (fun v => (v.block "bbbb".toList).toOption.map fun a => a.data)
    = some [0, 0, 0, 0, 0, 9, -9, 0, 0, -9, 9, 0, 0, 0, 0, 0] := by decide +kernel

end Ebcc
