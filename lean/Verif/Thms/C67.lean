import Verif.Thms.C36

/-!
C67: the update of the lambda amplitudes.  Residuals are divided by the energy denominators of the key of the lambda
amplitude and the old amplitude is added; fixed points are exactly the solutions.  The perturbative update adds nothing
and returns its amplitudes under names with `pert`.
-/

namespace Ebcc

section
variable {K : Type} [Field K]

/-- C67, restricted and general: the updated lambda amplitudes, element by element. -/
theorem C67_update (setOrder : List Char → List Char) (ho : IsSetOrder setOrder) {a : Ansatz} {spin : SpinType}
    {fs bs : List Rank} {cs : List CRank} (h : HasRanks a spin .l fs bs cs) (h1 : ∀ r ∈ cs, r.2.2.1 = 1)
    (h9 : a.bosonCouplingRank ≤ 9) (hnd : ((entries fs bs cs).map fun e => e.1).Nodup)
    (env : EnergyEnv K) (en : Char → List K)
    (he : ∀ e ∈ entries fs bs cs, ∀ k ∈ e.2, HasEnergies env (k, '_') (en k))
    (func : Bool → Dict (List Char) (NDArray K) → Except PyErr (Dict (List Char) (NDArray K)))
    (L r : List Char × List Char → NDArray K)
    (hL : ∀ e ∈ entries fs bs cs, (L e).WF ∧ (L e).shape = e.2.map fun k => (en k).length)
    (hr : ∀ e ∈ entries fs bs cs, (r e).WF ∧ (r e).shape = e.2.map fun k => (en k).length)
    (hf : func false ((entries fs bs cs).map fun e => (e.1, L e))
      = .ok ((entries fs bs cs).map fun e => (e.1 ++ "new".toList, r e))) :
    ∃ new : List Char × List Char → NDArray K,
      updateLams a spin (fun key => (energySum setOrder env key []).1) func
        ((entries fs bs cs).map fun e => (e.1, L e)) false = .ok ((entries fs bs cs).map fun e => (e.1, new e)) ∧
      ∀ e ∈ entries fs bs cs, (new e).WF ∧ (new e).shape = (e.2.map fun k => (en k).length) ∧
        ∀ idx, ValidIdx (new e).shape idx → (new e).get idx
          = (r e).get idx / ((e.2.zip idx).map fun x => indexSign [] x.1 * (en x.1).getD x.2 0).sum
            + (L e).get idx := by
  obtain ⟨new, n1, n2⟩ := updateLoops_ok36 setOrder ho h (Or.inr rfl) h1 h9 hnd env en he L r hL hr
  refine ⟨new, ?_, n2⟩
  unfold updateLams
  rw [hf, h.f, h.b, h.c]
  simp only [bind, Except.bind]
  rw [show (!false) = true from rfl, n1]
  rfl

/-- C67, restricted and general: the update leaves the lambda amplitudes unchanged exactly when all residuals vanish. -/
theorem C67_fixed_point (setOrder : List Char → List Char) (ho : IsSetOrder setOrder) {a : Ansatz} {spin : SpinType}
    {fs bs : List Rank} {cs : List CRank} (h : HasRanks a spin .l fs bs cs) (h1 : ∀ r ∈ cs, r.2.2.1 = 1)
    (h9 : a.bosonCouplingRank ≤ 9) (hnd : ((entries fs bs cs).map fun e => e.1).Nodup)
    (env : EnergyEnv K) (en : Char → List K)
    (he : ∀ e ∈ entries fs bs cs, ∀ k ∈ e.2, HasEnergies env (k, '_') (en k))
    (hden : ∀ e ∈ entries fs bs cs, ∀ idx, ValidIdx (e.2.map fun k => (en k).length) idx →
      ((e.2.zip idx).map fun x => (indexSign [] x.1 : K) * (en x.1).getD x.2 0).sum ≠ 0)
    (func : Bool → Dict (List Char) (NDArray K) → Except PyErr (Dict (List Char) (NDArray K)))
    (L r : List Char × List Char → NDArray K)
    (hL : ∀ e ∈ entries fs bs cs, (L e).WF ∧ (L e).shape = e.2.map fun k => (en k).length)
    (hr : ∀ e ∈ entries fs bs cs, (r e).WF ∧ (r e).shape = e.2.map fun k => (en k).length)
    (hf : func false ((entries fs bs cs).map fun e => (e.1, L e))
      = .ok ((entries fs bs cs).map fun e => (e.1 ++ "new".toList, r e))) :
    updateLams a spin (fun key => (energySum setOrder env key []).1) func
        ((entries fs bs cs).map fun e => (e.1, L e)) false = .ok ((entries fs bs cs).map fun e => (e.1, L e)) ↔
      ∀ e ∈ entries fs bs cs, IsZero (r e) := by
  obtain ⟨new, n1, n2⟩ := C67_update setOrder ho h h1 h9 hnd env en he func L r hL hr hf
  rw [n1, Except.ok.injEq, List.map_inj_left]
  simp only [Prod.mk.injEq, true_and]
  refine forall₂_congr fun e hm => ?_
  obtain ⟨w, s, g⟩ := n2 e hm
  constructor
  · intro heq idx hidx
    have hidx' : ValidIdx (new e).shape idx := by rw [s, ← (hr e hm).2]; exact hidx
    have := g idx hidx'
    rw [heq] at this
    have h0 := (right_eq_add.1 this)
    rw [div_eq_zero_iff] at h0
    exact h0.resolve_right (hden e hm idx (by rw [← s]; exact hidx'))
  · intro hz
    refine NDArray.ext_get w (hL e hm).1 (s.trans (hL e hm).2.symm) fun idx hidx => ?_
    rw [g idx hidx, hz idx (by rw [(hr e hm).2, ← s]; exact hidx), zero_div, zero_add]

theorem updateFold_ok67 {α : Type} (f : α → List Char) (energy : α → Except PyErr (NDArray K))
    (old : Dict (List Char) (NDArray K)) (x e q : α → NDArray K) (L : List α) (hn : (L.map f).Nodup)
    (he : ∀ a ∈ L, energy a = .ok (e a)) (hq : ∀ a ∈ L, (x a).div (e a) = .ok (q a))
    (pre : Dict (List Char) (NDArray K)) (hp : ∀ a ∈ L, f a ∉ pre.keys) :
    L.foldlM (fun res a => updateItem (energy a) old false res (f a)) (pre ++ L.map fun a => (f a, x a))
      = .ok (pre ++ L.map fun a => (f a, q a)) := by
  induction L generalizing pre with
  | nil => rfl
  | cons a L ih =>
    rw [List.map_cons, List.nodup_cons] at hn
    rw [List.foldlM_cons, List.map_cons]
    have e0 : updateItem (energy a) old false (pre ++ (f a, x a) :: L.map fun a => (f a, x a)) (f a)
        = .ok (pre ++ (f a, q a) :: L.map fun a => (f a, x a)) := by
      unfold updateItem Dict.getItem
      rw [get?_mid _ _ _ _ (hp a (by simp)), he a (by simp)]
      simp only [bind, Except.bind, hq a (by simp), pure, Except.pure]
      rw [set_mid _ _ _ _ _ (hp a (by simp))]
      rfl
    rw [e0]
    have e1 : ∀ l : Dict (List Char) (NDArray K), pre ++ (f a, q a) :: l = (pre ++ [(f a, q a)]) ++ l := by simp
    simp only [bind, Except.bind]
    rw [e1, ih hn.2 (fun b hb => he b (by simp [hb])) (fun b hb => hq b (by simp [hb]))]
    · simp
    · intro b hb
      simp only [Dict.keys, List.map_append, List.map_cons, List.map_nil, List.mem_append, List.mem_singleton, not_or]
      refine ⟨hp b (by simp [hb]), ?_⟩
      intro h
      exact hn.1 (h ▸ List.mem_map_of_mem hb)

theorem setFold_ok67 {V α : Type} (f : α → List Char) (x : α → V) (L : List α) (hn : (L.map f).Nodup)
    (pre : Dict (List Char) V) (hp : ∀ a ∈ L, f a ∉ pre.keys) :
    (L.map fun a => (f a, x a)).foldl (fun (d : Dict (List Char) V) p => d.set p.1 p.2) pre
      = pre ++ L.map fun a => (f a, x a) := by
  induction L generalizing pre with
  | nil => simp
  | cons a L ih =>
    rw [List.map_cons, List.nodup_cons] at hn
    rw [List.map_cons, List.foldl_cons, set_new _ _ _ (hp a (by simp)), ih hn.2]
    · simp
    · intro b hb
      simp only [Dict.keys, List.map_append, List.map_cons, List.map_nil, List.mem_append, List.mem_singleton, not_or]
      refine ⟨hp b (by simp [hb]), ?_⟩
      intro h
      exact hn.1 (h ▸ List.mem_map_of_mem hb)

/-- C67, restricted, perturbative: the amplitudes are the residuals over the energy denominators, without the old
amplitudes, and each has `pert` behind its name.  Missing: the general class, which raises NameError
(`C67_general_perturbative_fails`), and the unrestricted class, which ignores the flag
(`C67_unrestricted_perturbative_ignored`). -/
theorem C67_perturbative_partial (setOrder : List Char → List Char) (ho : IsSetOrder setOrder) {a : Ansatz}
    {fs bs : List Rank} {cs : List CRank} (h : HasRanks a .R .l fs bs cs) (h1 : ∀ r ∈ cs, r.2.2.1 = 1)
    (h9 : a.bosonCouplingRank ≤ 9) (hnd : ((entries fs bs cs).map fun e => e.1).Nodup)
    (env : EnergyEnv K) (en : Char → List K)
    (he : ∀ e ∈ entries fs bs cs, ∀ k ∈ e.2, HasEnergies env (k, '_') (en k))
    (func : Bool → Dict (List Char) (NDArray K) → Except PyErr (Dict (List Char) (NDArray K)))
    (lams : Dict (List Char) (NDArray K)) (r : List Char × List Char → NDArray K)
    (hr : ∀ e ∈ entries fs bs cs, (r e).WF ∧ (r e).shape = e.2.map fun k => (en k).length)
    (hf : func true lams = .ok ((entries fs bs cs).map fun e => (e.1 ++ "new".toList, r e))) :
    ∃ new : List Char × List Char → NDArray K,
      updateLams a .R (fun key => (energySum setOrder env key []).1) func lams true
        = .ok ((entries fs bs cs).map fun e => (e.1 ++ "pert".toList, new e)) ∧
      ∀ e ∈ entries fs bs cs, (new e).WF ∧ (new e).shape = (e.2.map fun k => (en k).length) ∧
        ∀ idx, ValidIdx (new e).shape idx → (new e).get idx
          = (r e).get idx / ((e.2.zip idx).map fun x => indexSign [] x.1 * (en x.1).getD x.2 0).sum := by
  have hg := good_entries h (Or.inr rfl) h9 h1
  have key : ∀ e : List Char × List Char, e ∈ entries fs bs cs → ∃ E q : NDArray K,
      (energySum setOrder env e.2 []).1 = .ok E ∧ (r e).div E = .ok q ∧ q.WF ∧
      q.shape = (e.2.map fun k => (en k).length) ∧ ∀ idx, ValidIdx q.shape idx → q.get idx
          = (r e).get idx / ((e.2.zip idx).map fun x => indexSign [] x.1 * (en x.1).getD x.2 0).sum := by
    intro e hm
    obtain ⟨E, e1, e2, e3, e4⟩ := C39_elements setOrder ho env e.2 [] en (hg e hm).ne (hg e hm).short
      (hg e hm).chars (he e hm)
    obtain ⟨q, q1, q2, q3, q4⟩ := div_ok (r e) E (hr e hm).1 e3 ((hr e hm).2.trans e2.symm)
    refine ⟨E, q, e1, q1, q3, q2.trans (hr e hm).2, fun idx hidx => ?_⟩
    rw [q4, e4 idx]
    rw [e2]
    rwa [q2, (hr e hm).2] at hidx
  choose! E new k1 k2 k3 k4 k5 using key
  refine ⟨new, ?_, fun e hm => ⟨k3 e hm, k4 e hm, k5 e hm⟩⟩
  unfold updateLams
  rw [hf, h.f, h.b, h.c]
  simp only [bind, Except.bind]
  rw [renameNew_names _ (fun e => e.1) _ hnd fun e hm => (hg e hm).plain, updateLoops_eq _ _ _ _ h1]
  have := updateFold_ok67 (fun e : List Char × List Char => e.1) (fun e => (energySum setOrder env e.2 []).1)
    lams r E new (entries fs bs cs) hnd k1 k2 [] (by simp [Dict.keys])
  simp only [List.nil_append] at this
  rw [show (!true) = false from rfl, this]
  simp only [if_true, pure, Except.pure]
  rw [if_neg (by decide), List.foldl_map]
  have hs := setFold_ok67 (fun e : List Char × List Char => e.1 ++ "pert".toList) new (entries fs bs cs) (by
    have : (fun e : List Char × List Char => e.1 ++ "pert".toList) = (fun l : List Char => l ++ "pert".toList) ∘ Prod.fst :=
      rfl
    rw [this, ← List.map_map]
    exact List.Nodup.map (List.append_left_injective _) hnd) [] (by simp [Dict.keys])
  rw [List.foldl_map, List.nil_append] at hs
  exact congrArg Except.ok hs

/-- C67 (negative): in the general class the perturbative update always ends in NameError, whatever the residuals. -/
theorem C67_general_perturbative_fails (a : Ansatz) (energy : List Char → Except PyErr (NDArray K))
    (func : Bool → Dict (List Char) (NDArray K) → Except PyErr (Dict (List Char) (NDArray K)))
    (lams : Dict (List Char) (NDArray K)) :
    (∀ out, updateLams a .G energy func lams true ≠ .ok out) ∧
    ∃ (env : EnergyEnv Rat) (res : Dict (List Char) (NDArray Rat)),
      updateLams ccsd .G (fun key => (energySum List.dedup env key []).1) (fun _ _ => .ok res) [] true
        = .error .nameError := by
  constructor
  · intro out h
    unfold updateLams at h
    simp only [bind, Except.bind] at h
    revert h
    cases func true lams with
    | error => intro h; cases h
    | ok res =>
    cases fermionicClusterRanks a.fermionAnsatz .G .l with
    | error => intro h; cases h
    | ok fs =>
    cases bosonicClusterRanks a.bosonAnsatz .l with
    | error => intro h; cases h
    | ok bs =>
    cases couplingClusterRanks a.fermionCouplingRank a.bosonCouplingRank .l with
    | error => intro h; cases h
    | ok cs =>
    simp only
    cases updateLoops energy fs bs cs lams (!true) (renameNew res) with
    | error => intro h; cases h
    | ok => intro h; cases h
  · exact ⟨env11, [("l1new".toList, ⟨[1, 1], [1]⟩), ("l2new".toList, ⟨[1, 1, 1, 1], [1]⟩)], by decide +kernel⟩

/-- C67, unrestricted: the updated lambda amplitudes, element by element; spin blocks are scaled by `spinFactor`, which is
one up to doubles.  `lambdas_pert` only enters through the residual function. -/
theorem C67_update_unrestricted (h2 : (2 : K) ≠ 0) (setOrder : List Char → List Char) (ho : IsSetOrder setOrder)
    {a : Ansatz} {fs bs : List Rank} {cs : List CRank} (h : HasRanks a .U .l fs bs cs)
    (h1 : ∀ r ∈ cs, r.2.2.1 = 1) (h9 : a.bosonCouplingRank ≤ 9)
    (hnd : ((entries fs bs cs).map fun e => e.1).Nodup) (env : EnergyEnv K) (en : Char × Char → List K)
    (he : UEnergies env en fs bs cs)
    (func : Option (Dict (List Char) (UVal K)) → Dict (List Char) (UVal K) → Except PyErr (Dict (List Char) (UVal K)))
    (pert : Option (Dict (List Char) (UVal K))) (perturbative : Bool)
    (F F' : Rank → List Char → NDArray K) (B B' : Rank → NDArray K) (C C' : CRank → List Char → NDArray K)
    (hT : UBlocks en fs bs cs F B C) (hr : UBlocks en fs bs cs F' B' C')
    (hf : func pert (uAmpDict fs bs cs [] F B C) = .ok (uAmpDict fs bs cs "new".toList F' B' C')) :
    ∃ F'' B'' C'',
      uUpdateLams a (fun key spins => (uEnergySum setOrder env key spins []).1) func (uAmpDict fs bs cs [] F B C) pert
        perturbative = .ok (uAmpDict fs bs cs [] F'' B'' C'') ∧
      (∀ r ∈ fs, ∀ s ∈ generateSpinCombinations r.2.2 false true, (F'' r s).WF ∧
        (F'' r s).shape = (F r s).shape ∧ ∀ idx, ValidIdx (F r s).shape idx → (F'' r s).get idx
          = spinFactor (r.2.1.zip s)
            * ((F' r s).get idx / signedSum [] en (r.2.1.zip s) idx + (F r s).get idx)) ∧
      (∀ r ∈ bs, (B'' r).WF ∧ (B'' r).shape = (B r).shape ∧ ∀ idx, ValidIdx (B r).shape idx → (B'' r).get idx
        = (B' r).get idx / signedSum [] en (r.2.1.zip (List.replicate r.2.2 '_')) idx + (B r).get idx) ∧
      (∀ r ∈ cs, ∀ s ∈ [['a', 'a'], ['b', 'b']], (C'' r s).WF ∧ (C'' r s).shape = (C r s).shape ∧
        ∀ idx, ValidIdx (C r s).shape idx → (C'' r s).get idx
          = (C' r s).get idx / signedSum [] en (r.2.1.zip (List.replicate r.2.2.2 '_' ++ s)) idx
            + (C r s).get idx) :=
  uUpdate_ok36 h2 setOrder ho h (Or.inr rfl) h1 h9 hnd env en he (func pert) F F' B B' C C' hT hr hf

/-- C67, unrestricted, up to doubles: the update leaves the lambda amplitudes unchanged exactly when all residuals vanish.
Missing: ranks from three on, where this is false (`C67_unrestricted_triples_not_fixed`). -/
theorem C67_fixed_point_unrestricted_partial (h2 : (2 : K) ≠ 0) (setOrder : List Char → List Char)
    (ho : IsSetOrder setOrder) {a : Ansatz} {fs bs : List Rank} {cs : List CRank} (h : HasRanks a .U .l fs bs cs)
    (h1 : ∀ r ∈ cs, r.2.2.1 = 1) (h9 : a.bosonCouplingRank ≤ 9) (hrank : ∀ r ∈ fs, r.2.2 ≤ 2)
    (hnd : ((entries fs bs cs).map fun e => e.1).Nodup) (env : EnergyEnv K) (en : Char × Char → List K)
    (he : UEnergies env en fs bs cs)
    (hdf : ∀ r ∈ fs, ∀ s ∈ generateSpinCombinations r.2.2 false true, ∀ idx,
      ValidIdx ((r.2.1.zip s).map fun p => (en p).length) idx → signedSum [] en (r.2.1.zip s) idx ≠ 0)
    (hdb : ∀ r ∈ bs, ∀ idx, ValidIdx (List.replicate r.2.2 (en ('b', '_')).length) idx →
      signedSum [] en (r.2.1.zip (List.replicate r.2.2 '_')) idx ≠ 0)
    (hdc : ∀ r ∈ cs, ∀ s ∈ [['a', 'a'], ['b', 'b']], ∀ idx,
      ValidIdx ((r.2.1.zip (List.replicate r.2.2.2 '_' ++ s)).map fun p => (en p).length) idx →
      signedSum [] en (r.2.1.zip (List.replicate r.2.2.2 '_' ++ s)) idx ≠ 0)
    (func : Option (Dict (List Char) (UVal K)) → Dict (List Char) (UVal K) → Except PyErr (Dict (List Char) (UVal K)))
    (pert : Option (Dict (List Char) (UVal K)))
    (F F' : Rank → List Char → NDArray K) (B B' : Rank → NDArray K) (C C' : CRank → List Char → NDArray K)
    (hT : UBlocks en fs bs cs F B C) (hr : UBlocks en fs bs cs F' B' C')
    (hf : func pert (uAmpDict fs bs cs [] F B C) = .ok (uAmpDict fs bs cs "new".toList F' B' C')) :
    uUpdateLams a (fun key spins => (uEnergySum setOrder env key spins []).1) func (uAmpDict fs bs cs [] F B C) pert
        false = .ok (uAmpDict fs bs cs [] F B C) ↔
      (∀ r ∈ fs, ∀ s ∈ generateSpinCombinations r.2.2 false true, IsZero (F' r s)) ∧ (∀ r ∈ bs, IsZero (B' r)) ∧
      ∀ r ∈ cs, ∀ s ∈ [['a', 'a'], ['b', 'b']], IsZero (C' r s) :=
  uUpdate_fixed36 h2 setOrder ho h (Or.inr rfl) h1 h9 hrank hnd env en he hdf hdb hdc (func pert) F F' B B' C C' hT hr hf

/-- C67 (negative), unrestricted, from triples on: a solution is not a fixed point. -/
theorem C67_unrestricted_triples_not_fixed [CharZero K] (setOrder : List Char → List Char) (ho : IsSetOrder setOrder)
    {a : Ansatz} {fs bs : List Rank} {cs : List CRank} (h : HasRanks a .U .l fs bs cs)
    (h1 : ∀ r ∈ cs, r.2.2.1 = 1) (h9 : a.bosonCouplingRank ≤ 9)
    (hnd : ((entries fs bs cs).map fun e => e.1).Nodup) (env : EnergyEnv K) (en : Char × Char → List K)
    (he : UEnergies env en fs bs cs)
    (func : Option (Dict (List Char) (UVal K)) → Dict (List Char) (UVal K) → Except PyErr (Dict (List Char) (UVal K)))
    (pert : Option (Dict (List Char) (UVal K)))
    (F F' : Rank → List Char → NDArray K) (B B' : Rank → NDArray K) (C C' : CRank → List Char → NDArray K)
    (hT : UBlocks en fs bs cs F B C) (hr : UBlocks en fs bs cs F' B' C')
    (hf : func pert (uAmpDict fs bs cs [] F B C) = .ok (uAmpDict fs bs cs "new".toList F' B' C'))
    (r : Rank) (hm : r ∈ fs) (s : List Char) (hs : s ∈ generateSpinCombinations r.2.2 false true) (p : Char × Char)
    (hp : 3 ≤ (r.2.1.zip s).count p) (hz : IsZero (F' r s)) (idx : List Nat) (hidx : ValidIdx (F r s).shape idx)
    (hne : (F r s).get idx ≠ 0) :
    uUpdateLams a (fun key spins => (uEnergySum setOrder env key spins []).1) func (uAmpDict fs bs cs [] F B C) pert
        false ≠ .ok (uAmpDict fs bs cs [] F B C) :=
  uUpdate_triples36 setOrder ho h (Or.inr rfl) h1 h9 hnd env en he (func pert) F F' B B' C C' hT hr hf r hm s hs p hp hz
    idx hidx hne

/-- C67 (negative): in the unrestricted class the flag `perturbative` changes nothing: the ordinary update is returned,
under the ordinary names. -/
theorem C67_unrestricted_perturbative_ignored (a : Ansatz) (energy : List Char → List Char → Except PyErr (NDArray K))
    (func : Option (Dict (List Char) (UVal K)) → Dict (List Char) (UVal K) → Except PyErr (Dict (List Char) (UVal K)))
    (lams : Dict (List Char) (UVal K)) (pert : Option (Dict (List Char) (UVal K))) (b : Bool) :
    uUpdateLams a energy func lams pert b = uUpdateLams a energy func lams pert false := rfl

end

/-- Non-vacuity: restricted lambda amplitudes, ordinary and perturbative. -/
example : updateLams ccsd .R (fun key => (energySum List.dedup env11 key []).1)
    (fun p _ => .ok [("l1new".toList, ⟨[1, 1], [if p then 6 else 4]⟩), ("l2new".toList, ⟨[1, 1, 1, 1], [8]⟩)])
    [("l1".toList, ⟨[1, 1], [1]⟩), ("l2".toList, ⟨[1, 1, 1, 1], [2]⟩)] false
    = .ok [("l1".toList, ⟨[1, 1], [-1]⟩), ("l2".toList, ⟨[1, 1, 1, 1], [0]⟩)] ∧
  updateLams ccsd .R (fun key => (energySum List.dedup env11 key []).1)
    (fun p _ => .ok [("l1new".toList, ⟨[1, 1], [if p then 6 else 4]⟩), ("l2new".toList, ⟨[1, 1, 1, 1], [8]⟩)])
    [("l1".toList, ⟨[1, 1], [1]⟩), ("l2".toList, ⟨[1, 1, 1, 1], [2]⟩)] true
    = .ok [("l1pert".toList, ⟨[1, 1], [-3]⟩), ("l2pert".toList, ⟨[1, 1, 1, 1], [-2]⟩)] := by
  decide +kernel

end Ebcc
