import Verif.Thms.C77
import Verif.Tensor.Value
/-!
C77, the energy: the one- and two-particle density matrices give the Lagrangian `E + l . Omega` as the energy.
-/

set_option maxRecDepth 1000000

namespace Ebcc

/-- For all data: the energy of the density matrices, relative to the reference, is the Lagrangian of the energy
and amplitude functions. -/
def DensityEnergy77 (E A D1 D2 : GenFun) (n1 n2 : List Char) (sorts : List GSort) : Prop :=
  ∀ (R : Type) [Field R] [CharZero R] [DecidableEq R] (h : GHam R) (t l : GAmps R) (no nv nb : Nat)
    (method : ContractMethod) (path : List (List Char) → List Char → List (NDArray R) → List Contraction),
    PathOk path →
    ∃ e w r1 r2 : Dict (List Char) (NDArray R),
      E.call method path (spaceSizes no nv nb 0) (h.args t l (spaceSizes no nv nb 0)) = .ok e ∧
      A.call method path (spaceSizes no nv nb 0) (h.args t l (spaceSizes no nv nb 0)) = .ok w ∧
      D1.call method path (spaceSizes no nv nb 0) (h.args t l (spaceSizes no nv nb 0)) = .ok r1 ∧
      D2.call method path (spaceSizes no nv nb 0) (h.args t l (spaceSizes no nv nb 0)) = .ok r2 ∧
      h.eDM no nv (dm1 r1 n1) (dm2 r2 n2) =
        h.eRef no + elemOf e (chars! "e_cc") [] + (sorts.map (l.dot no nv nb (resVals w))).sum

/-- The same with bosons. -/
def DensityEnergyB77 (E A D1 D2 B1 B2 EB : GenFun) (n1 n2 : List Char) (sorts : List GSort) : Prop :=
  ∀ (R : Type) [Field R] [CharZero R] [DecidableEq R] (h : GHam R) (t l : GAmps R) (no nv nb : Nat)
    (method : ContractMethod) (path : List (List Char) → List Char → List (NDArray R) → List Contraction),
    PathOk path →
    ∃ e w r1 r2 b1 b2 eb : Dict (List Char) (NDArray R),
      E.call method path (spaceSizes no nv nb 0) (h.args t l (spaceSizes no nv nb 0)) = .ok e ∧
      A.call method path (spaceSizes no nv nb 0) (h.args t l (spaceSizes no nv nb 0)) = .ok w ∧
      D1.call method path (spaceSizes no nv nb 0) (h.args t l (spaceSizes no nv nb 0)) = .ok r1 ∧
      D2.call method path (spaceSizes no nv nb 0) (h.args t l (spaceSizes no nv nb 0)) = .ok r2 ∧
      B1.call method path (spaceSizes no nv nb 0) (h.args t l (spaceSizes no nv nb 0)) = .ok b1 ∧
      B2.call method path (spaceSizes no nv nb 0) (h.args t l (spaceSizes no nv nb 0)) = .ok b2 ∧
      EB.call method path (spaceSizes no nv nb 0) (h.args t l (spaceSizes no nv nb 0)) = .ok eb ∧
      h.eDM no nv (dm1 r1 n1) (dm2 r2 n2) +
        h.eDMB no nv nb (fun m => elemOf b1 (chars! "dm_b.0") [m]) (fun m => elemOf b1 (chars! "dm_b.1") [m])
        (fun m n => elemOf b2 (chars! "rdm1_b") [m, n]) (dmEB eb (chars! "rdm_eb.0")) (dmEB eb (chars! "rdm_eb.1")) =
        h.eRef no + elemOf e (chars! "e_cc") [] + (sorts.map (l.dot no nv nb (resVals w))).sum

def densCalls77 (E A D1 D2 : GenFun) : List TCall :=
  [⟨E, 'E', argBut densTags⟩, ⟨A, 'A', argBut densTags⟩, ⟨D1, 'P', argBut densTags⟩, ⟨D2, 'Q', argBut densTags⟩]

/-- The energy of the density matrices differs from the Lagrangian by the further terms. -/
theorem energy_sound77 {E A D1 D2 : GenFun} {n1 n2 : List Char} {sorts : List GSort} {hints : List Nat}
    {dm : Nat → Option Nat} {dev : List ITerm}
    (hc : checkClaim gSym hints (· % 4) gVals (densCalls77 E A D1 D2) dm
      [⟨gLabels, 0, [], densTerms sorts n1 n2 ++ dev⟩] = true)
    (hdev : (dev.all fun c => c.ops.all fun o => match o.1 with
      | [] => true
      | c :: _ => !densTags.contains c) = true)
    {R : Type} [Field R] [CharZero R] [DecidableEq R] (h : GHam R) (t l : GAmps R) (no nv nb : Nat)
    (method : ContractMethod) (path : List (List Char) → List Char → List (NDArray R) → List Contraction)
    (hpath : PathOk path) :
    ∃ e w r1 r2 : Dict (List Char) (NDArray R),
      E.call method path (spaceSizes no nv nb 0) (h.args t l (spaceSizes no nv nb 0)) = .ok e ∧
      A.call method path (spaceSizes no nv nb 0) (h.args t l (spaceSizes no nv nb 0)) = .ok w ∧
      D1.call method path (spaceSizes no nv nb 0) (h.args t l (spaceSizes no nv nb 0)) = .ok r1 ∧
      D2.call method path (spaceSizes no nv nb 0) (h.args t l (spaceSizes no nv nb 0)) = .ok r2 ∧
      h.eDM no nv (dm1 r1 n1) (dm2 r2 n2) =
        h.eRef no + elemOf e (chars! "e_cc") [] + (sorts.map (l.dot no nv nb (resVals w))).sum -
          devVal h t l t (spaceSizes no nv nb 0) dev := by
  have := checkClaim_sound (ι := Unit) (spaceSizes no nv nb 0) (fun _ => gTensor h t l t) gSym
    (fun _ => gSym_symOk h t l t) method path hpath (spaceSizes no nv nb 0) _ (spaceSizes_mod no nv nb 0)
    gVals (fun _ => h.argsD t l t (spaceSizes no nv nb 0))
    (fun _ => gVals_rep (spaceSizes no nv nb 0) h t l t) _ dm _ hints hc
  simp only [densCalls77, CallsOk] at this
  obtain ⟨e, h1, w, h2, r1, h3, r2, h4, key⟩ := this
  simp only [argBut_addResA (tags := densTags) 'E' rfl, argBut_addResA (tags := densTags) 'A' rfl,
    argBut_addResA (tags := densTags) 'P' rfl, argBut_args] at h1 h2 h3 h4
  refine ⟨e (), w (), r1 (), r2 (), h1 (), h2 (), h3 (), h4 (), ?_⟩
  obtain ⟨-, k2⟩ := key () _ (List.mem_singleton.2 rfl) rfl
  have k3 := k2 [] .nil
  have D : DensVals h t l (spaceSizes no nv nb 0) (e ()) (w ()) (r1 ()) (r2 ()) (addResA 'Q' (r2 ())
      (addResA 'P' (r1 ()) (addResA 'A' (w ()) (addResA 'E' (e ()) (h.argsD t l t (spaceSizes no nv nb 0)))))) :=
    ⟨fun _ => rfl, fun _ => rfl, fun _ => rfl, fun _ => rfl, fun _ => rfl, fun _ => rfl, fun _ => rfl⟩
  simp only at k3
  rw [List.map_append, List.sum_append, densTerms_val D sorts n1 n2] at k3
  have e1 : (dev.map fun c => c.val (spaceSizes no nv nb 0) gLabels 0 (addResA 'Q' (r2 ()) (addResA 'P' (r1 ())
      (addResA 'A' (w ()) (addResA 'E' (e ()) (h.argsD t l t (spaceSizes no nv nb 0)))))) []).sum =
      -devVal h t l t (spaceSizes no nv nb 0) dev := by
    unfold devVal
    rw [neg_neg]
    congr 1
    apply List.map_congr_left
    intro c hc
    apply ITerm.val_congr
    intro o ho
    have ho := List.all_eq_true.1 (List.all_eq_true.1 hdev c hc) o ho
    obtain ⟨n, ls⟩ := o
    cases n with
    | nil => rfl
    | cons a n =>
      simp only [Bool.not_eq_true'] at ho
      have hn : argBut densTags (a :: n) = a :: n := by simp only [argBut, ho, cond_false]
      simp only
      rw [← hn, argBut_addResA (tags := densTags) 'Q' rfl, argBut_addResA (tags := densTags) 'P' rfl,
        argBut_addResA (tags := densTags) 'A' rfl, argBut_addResA (tags := densTags) 'E' rfl]
  rw [e1] at k3
  linear_combination -k3

theorem energy_of_check77 {E A D1 D2 : GenFun} {n1 n2 : List Char} {sorts : List GSort} {hints : List Nat}
    {dm : Nat → Option Nat}
    (hc : checkClaim gSym hints (· % 4) gVals (densCalls77 E A D1 D2) dm
      [⟨gLabels, 0, [], densTerms sorts n1 n2 ++ []⟩] = true) : DensityEnergy77 E A D1 D2 n1 n2 sorts := by
  intro R _ _ _ h t l no nv nb method path hpath
  obtain ⟨e, w, r1, r2, h1, h2, h3, h4, h5⟩ := energy_sound77 hc rfl h t l no nv nb method path hpath
  refine ⟨e, w, r1, r2, h1, h2, h3, h4, ?_⟩
  rw [h5]
  simp [devVal]

theorem energyB_of_check77 {E A D1 D2 B1 B2 EB : GenFun} {n1 n2 : List Char} {sorts : List GSort} {hints : List Nat}
    {dm : Nat → Option Nat}
    (hc : checkClaim gSym hints (· % 4) gVals (densCalls77 E A D1 D2 ++ [⟨B1, 'X', argBut densTags⟩,
      ⟨B2, 'Y', argBut densTags⟩, ⟨EB, 'Z', argBut densTags⟩]) dm
      [⟨gLabels, 0, [], densTerms sorts n1 n2 ++ bosTerms⟩] = true) :
    DensityEnergyB77 E A D1 D2 B1 B2 EB n1 n2 sorts := by
  intro R _ _ _ h t l no nv nb method path hpath
  have := checkClaim_sound (ι := Unit) (spaceSizes no nv nb 0) (fun _ => gTensor h t l t) gSym
    (fun _ => gSym_symOk h t l t) method path hpath (spaceSizes no nv nb 0) _ (spaceSizes_mod no nv nb 0)
    gVals (fun _ => h.argsD t l t (spaceSizes no nv nb 0))
    (fun _ => gVals_rep (spaceSizes no nv nb 0) h t l t) _ dm _ hints hc
  simp only [densCalls77, List.cons_append, List.nil_append, CallsOk] at this
  obtain ⟨e, h1, w, h2, r1, h3, r2, h4, b1, h5, b2, h6, eb, h7, key⟩ := this
  simp only [argBut_addResA (tags := densTags) 'E' rfl, argBut_addResA (tags := densTags) 'A' rfl,
    argBut_addResA (tags := densTags) 'P' rfl, argBut_addResA (tags := densTags) 'Q' rfl,
    argBut_addResA (tags := densTags) 'X' rfl, argBut_addResA (tags := densTags) 'Y' rfl,
    argBut_args] at h1 h2 h3 h4 h5 h6 h7
  refine ⟨e (), w (), r1 (), r2 (), b1 (), b2 (), eb (), h1 (), h2 (), h3 (), h4 (), h5 (), h6 (), h7 (), ?_⟩
  obtain ⟨-, k2⟩ := key () _ (List.mem_singleton.2 rfl) rfl
  have k3 := k2 [] .nil
  have D : DensVals h t l (spaceSizes no nv nb 0) (e ()) (w ()) (r1 ()) (r2 ()) (addResA 'Z' (eb ())
      (addResA 'Y' (b2 ()) (addResA 'X' (b1 ()) (addResA 'Q' (r2 ()) (addResA 'P' (r1 ()) (addResA 'A' (w ())
      (addResA 'E' (e ()) (h.argsD t l t (spaceSizes no nv nb 0))))))))) :=
    ⟨fun _ => rfl, fun _ => rfl, fun _ => rfl, fun _ => rfl, fun _ => rfl, fun _ => rfl, fun _ => rfl⟩
  have B : BosVals h t l (spaceSizes no nv nb 0) (b1 ()) (b2 ()) (eb ()) (addResA 'Z' (eb ())
      (addResA 'Y' (b2 ()) (addResA 'X' (b1 ()) (addResA 'Q' (r2 ()) (addResA 'P' (r1 ()) (addResA 'A' (w ())
      (addResA 'E' (e ()) (h.argsD t l t (spaceSizes no nv nb 0))))))))) :=
    ⟨fun _ => rfl, fun _ => rfl, fun _ => rfl, fun _ => rfl, fun _ => rfl, fun _ => rfl⟩
  simp only at k3
  rw [List.map_append, List.sum_append, densTerms_val D sorts n1 n2,
    bosTerms_val B] at k3
  linear_combination -k3

theorem C77_CCD_energy : DensityEnergy77 Gen.GCCD.energy Gen.GCCD.update_amps Gen.GCCD.make_rdm1_f
    Gen.GCCD.make_rdm2_f (chars! "rdm1") (chars! "rdm2") [.t2] :=
  energy_of_check77 (hints := Hints.dene_CCD) (dm := gDm) (by decide +kernel)

theorem C77_CCSD_energy : DensityEnergy77 Gen.GCCSD.energy Gen.GCCSD.update_amps Gen.GCCSD.make_rdm1_f
    Gen.GCCSD.make_rdm2_f (chars! "rdm1") (chars! "rdm2") [.t1, .t2] :=
  energy_of_check77 (hints := Hints.dene_CCSD) (dm := gDm) (by decide +kernel)

theorem C77_CCSD_S_1_1_energy : DensityEnergyB77 Gen.GCCSD_S_1_1.energy Gen.GCCSD_S_1_1.update_amps
    Gen.GCCSD_S_1_1.make_rdm1_f Gen.GCCSD_S_1_1.make_rdm2_f Gen.GCCSD_S_1_1.make_sing_b_dm
    Gen.GCCSD_S_1_1.make_rdm1_b Gen.GCCSD_S_1_1.make_eb_coup_rdm (chars! "rdm1_f") (chars! "rdm2_f")
    [.t1, .t2, .s1, .u11] :=
  energyB_of_check77 (hints := Hints.dene_CCSD_S_1_1) (dm := gDm) (by decide +kernel)

theorem C77_CCSD_SD_1_1_energy : DensityEnergyB77 Gen.GCCSD_SD_1_1.energy Gen.GCCSD_SD_1_1.update_amps
    Gen.GCCSD_SD_1_1.make_rdm1_f Gen.GCCSD_SD_1_1.make_rdm2_f Gen.GCCSD_SD_1_1.make_sing_b_dm
    Gen.GCCSD_SD_1_1.make_rdm1_b Gen.GCCSD_SD_1_1.make_eb_coup_rdm (chars! "rdm1_f") (chars! "rdm2_f")
    [.t1, .t2, .s1, .s2, .u11] :=
  energyB_of_check77 (hints := Hints.dene_CCSD_SD_1_1) (dm := gDm) (by decide +kernel)

/-- The density matrices of CC2 give the Lagrangian with the amplitude equations of CCSD ... -/
theorem C77_CC2_energy_partial : DensityEnergy77 Gen.GCC2.energy Gen.GCCSD.update_amps Gen.GCC2.make_rdm1_f
    Gen.GCC2.make_rdm2_f (chars! "rdm1") (chars! "rdm2") [.t1, .t2] :=
  energy_of_check77 (hints := Hints.dene_CC2) (dm := gDm) (by decide +kernel)

/-- Only integrals of four virtual orbitals. -/
def vvvvHam77 : GHam ℚ where
  f _ _ := 0
  v p q r s := if p.1 = 1 ∧ q.1 = 1 ∧ r.1 = 1 ∧ s.1 = 1 then ((p.2 : ℚ) - q.2) * ((r.2 : ℚ) - s.2) else 0
  g _ _ _ := 0
  G _ := 0
  w _ _ := 0
  f_symm _ _ := rfl
  v_anti p q r s := by
    by_cases h : p.1 = 1 ∧ q.1 = 1 ∧ r.1 = 1 ∧ s.1 = 1
    · have h' : q.1 = 1 ∧ p.1 = 1 ∧ r.1 = 1 ∧ s.1 = 1 := ⟨h.2.1, h.1, h.2.2⟩
      rw [if_pos h, if_pos h']; ring
    · have h' : ¬(q.1 = 1 ∧ p.1 = 1 ∧ r.1 = 1 ∧ s.1 = 1) := fun h' => h ⟨h'.2.1, h'.1, h'.2.2⟩
      rw [if_neg h, if_neg h']; ring
  v_pair p q r s := by
    by_cases h : p.1 = 1 ∧ q.1 = 1 ∧ r.1 = 1 ∧ s.1 = 1
    · have h' : r.1 = 1 ∧ s.1 = 1 ∧ p.1 = 1 ∧ q.1 = 1 := ⟨h.2.2.1, h.2.2.2, h.1, h.2.1⟩
      rw [if_pos h, if_pos h']; ring
    · have h' : ¬(r.1 = 1 ∧ s.1 = 1 ∧ p.1 = 1 ∧ q.1 = 1) := fun h' => h ⟨h'.2.2.1, h'.2.2.2, h'.1, h'.2.1⟩
      rw [if_neg h, if_neg h']
  w_symm _ _ := rfl

/-- Antisymmetric doubles. -/
def dblAmps77 : GAmps ℚ where
  a1 _ _ := 0
  a2 i j a b := ((i : ℚ) - j) * ((a : ℚ) - b)
  a3 _ _ _ _ _ _ := 0
  s1 _ := 0
  s2 _ _ := 0
  u11 _ _ _ := 0
  u12 _ _ _ _ := 0
  a2_occ _ _ _ _ := by ring
  a2_vir _ _ _ _ := by ring
  a3_occ1 _ _ _ _ _ _ := by simp
  a3_occ2 _ _ _ _ _ _ := by simp
  a3_vir1 _ _ _ _ _ _ := by simp
  a3_vir2 _ _ _ _ _ _ := by simp
  s2_symm _ _ := rfl
  u12_symm _ _ _ _ := rfl

/-- ... and not with those of CC2. -/
theorem C77_CC2_energy_false : ¬DensityEnergy77 Gen.GCC2.energy Gen.GCC2.update_amps Gen.GCC2.make_rdm1_f
    Gen.GCC2.make_rdm2_f (chars! "rdm1") (chars! "rdm2") [.t1, .t2] := by
  intro H
  obtain ⟨e, w, r1, r2, h1, h2, h3, h4, h5⟩ := H ℚ vvvvHam77 dblAmps77 dblAmps77 2 2 0 .backend onePath onePath_ok
  obtain ⟨e', w', r1', r2', h1', h2', h3', h4', h5'⟩ := energy_sound77 (E := Gen.GCC2.energy)
    (A := Gen.GCC2.update_amps) (D1 := Gen.GCC2.make_rdm1_f) (D2 := Gen.GCC2.make_rdm2_f) (n1 := chars! "rdm1")
    (n2 := chars! "rdm2") (sorts := [.t1, .t2]) (hints := Hints.denx_CC2) (dm := gDm) (dev := Hints.dev_denx_CC2)
    (by decide +kernel) (by decide +kernel) vvvvHam77 dblAmps77 dblAmps77 2 2 0 .backend onePath onePath_ok
  have he : e = e' := Except.ok.inj (h1.symm.trans h1')
  have hw : w = w' := Except.ok.inj (h2.symm.trans h2')
  have hr1 : r1 = r1' := Except.ok.inj (h3.symm.trans h3')
  have hr2 : r2 = r2' := Except.ok.inj (h4.symm.trans h4')
  subst he hw hr1 hr2
  rw [h5] at h5'
  have hd : devVal vvvvHam77 dblAmps77 dblAmps77 dblAmps77 (spaceSizes 2 2 0 0) Hints.dev_denx_CC2 ≠ 0 := by
    decide +kernel
  exact hd (by linear_combination h5')

/-! The claims are not about nothing: residuals and traces which are not zero. -/

example : ∃ r a, Gen.GCCSD.update_amps.call .backend onePath (spaceSizes 2 2 0 0)
      (fun n => vvvvHam77.argsD dblAmps77 dblAmps77 dblAmps77 (spaceSizes 2 2 0 0) n) = .ok r ∧
      r.get? (chars! "t2new") = some a ∧ a.get [0, 1, 0, 1] = 1 :=
  symElem_sound (hints := Hints.gamps_CCSD) (vals := gVals) (by decide +kernel)
    (gSym_symOk vvvvHam77 _ _ _) (spaceSizes_mod 2 2 0 0) _ (gVals_rep _ vvvvHam77 _ _ _) _ _ onePath_ok

example : ∃ r1 : Dict (List Char) (NDArray ℚ), Gen.GCCSD.make_rdm1_f.call .backend onePath (spaceSizes 2 2 0 0)
      (vvvvHam77.args dblAmps77 dblAmps77 (spaceSizes 2 2 0 0)) = .ok r1 ∧
      (sumOrb 2 2 fun p => dm1 r1 (chars! "rdm1") p p) = 2 := by
  obtain ⟨r1, r2, h1, -, -, -, h3, -⟩ := C77_CCSD_traces ℚ vvvvHam77 dblAmps77 dblAmps77 2 2 0 .backend onePath onePath_ok
  exact ⟨r1, h1, h3⟩

end Ebcc
