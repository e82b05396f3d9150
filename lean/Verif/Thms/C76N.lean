import Verif.Thms.C76
/-!
C76, the part which is false: with all directions, `update_lams` is not the gradient of the Lagrangian for CC2
and the functions with bosons, even at solutions of the amplitude equations.
-/

set_option maxRecDepth 1000000

namespace Ebcc

theorem not_gradient76 {E A L : GenFun} {sorts : List GSort} {ext dev : List ITerm} {hints : List Nat}
    (hc : checkClaim gSym hints (· % 4) gVals (gradCalls E A L) gDm [gradIdent sorts ext dev] = true)
    (hext : (ext.all fun c => c.ops.any fun o => sorts.any fun k => o.1 == 'A' :: k.res.1) = true)
    (hdev : (dev.all fun c => c.ops.all fun o => isArg o.1) = true) (h : GHam ℚ) (t l s : GAmps ℚ) (no nv nb : Nat)
    {hints' : List Nat}
    (hz : symZero gSym hints' A (fun n => gVals (argOnly n)) (spaceSizes no nv nb 0) (gTensor h t l s) (sorts.map GSort.res) = true)
    (hd : devVal h t l s (spaceSizes no nv nb 0) dev ≠ 0) : ¬GradientAtSolution76 E A L sorts [] := by
  intro H
  obtain ⟨e, w, m, h1, h2, h3, -, -, -, h7⟩ := H ℚ h t l s no nv nb .backend onePath onePath_ok (by simp)
  obtain ⟨e', w', m', h1', h2', h3', -, -, -, h7'⟩ :=
    gradient_sound hc hext hdev h t l s no nv nb .backend onePath onePath_ok
  have he : e = e' := funext fun x => Except.ok.inj ((h1 x).symm.trans (h1' x))
  have hw : w = w' := funext fun x => Except.ok.inj ((h2 x).symm.trans (h2' x))
  have hm : m = m' := Except.ok.inj (h3.symm.trans h3')
  subst he hw hm
  have hres : ResZero (w 0) (spaceSizes no nv nb 0) sorts := by
    obtain ⟨r, r1, r2⟩ := symZero_sound hz (gSym_symOk h t l s) (spaceSizes_mod no nv nb 0)
      (fun n => h.argsD t l s (spaceSizes no nv nb 0) (argOnly n))
      (fun n => gVals_rep (spaceSizes no nv nb 0) h t l s (argOnly n)) .backend onePath onePath_ok
    rw [argOnly_argsD] at r1
    have h20 := h2 0
    rw [GAmps.move_zero] at h20
    have : w 0 = r := Except.ok.inj (h20.symm.trans r1)
    intro k hk idx hidx
    obtain ⟨a, a1, a2⟩ := r2 _ (List.mem_map.2 ⟨k, hk, rfl⟩)
    rw [this, resVals, elemOf, a1]
    exact a2 idx hidx
  have := (h7 hres).unique (h7' (.inr hres))
  exact hd (by simpa using this)

/-! The witness for the functions with bosons has one occupied and one virtual orbital and one boson mode. -/

/-- `1` between the occupied orbital and itself for `-f` and `g`, `-1` for `g` from occupied to virtual, and `G = 1`. -/
def exHam76 : GHam ℚ where
  f p q := if p.1 = 0 ∧ q.1 = 0 then -1 else 0
  v _ _ _ _ := 0
  g _ p q := if p.1 = 0 then (if q.1 = 0 then 1 else -1) else 0
  G _ := 1
  w _ _ := 0
  f_symm p q := by simp only [and_comm]
  v_anti _ _ _ _ := by simp
  v_pair _ _ _ _ := rfl
  w_symm _ _ := rfl

/-- Amplitudes which are constant for `t1`, `s1`, `u11` and zero for the other sorts. -/
def constAmps76 (c1 cs cu : ℚ) : GAmps ℚ where
  a1 _ _ := c1
  a2 _ _ _ _ := 0
  a3 _ _ _ _ _ _ := 0
  s1 _ := cs
  s2 _ _ := 0
  u11 _ _ _ := cu
  u12 _ _ _ _ := 0
  a2_occ _ _ _ _ := by simp
  a2_vir _ _ _ _ := by simp
  a3_occ1 _ _ _ _ _ _ := by simp
  a3_occ2 _ _ _ _ _ _ := by simp
  a3_vir1 _ _ _ _ _ _ := by simp
  a3_vir2 _ _ _ _ _ _ := by simp
  s2_symm _ _ := rfl
  u12_symm _ _ _ _ := rfl

theorem C76_S_1_1_false : ¬GradientAtSolution76 Gen.GCCSD_S_1_1.energy Gen.GCCSD_S_1_1.update_amps
    Gen.GCCSD_S_1_1.update_lams sorts_S_1_1 [] :=
  not_gradient76 check_S_1_1_76 (by decide +kernel) (by decide +kernel) exHam76 (constAmps76 0 1 1)
    (constAmps76 1 0 0) (constAmps76 0 0 1) 1 1 1 (hints' := Hints.gamps_CCSD_S_1_1) (by decide +kernel)
    (by decide +kernel)

theorem C76_SD_1_1_false : ¬GradientAtSolution76 Gen.GCCSD_SD_1_1.energy Gen.GCCSD_SD_1_1.update_amps
    Gen.GCCSD_SD_1_1.update_lams sorts_SD_1_1 [] :=
  not_gradient76 check_SD_1_1_76 (by decide +kernel) (by decide +kernel) exHam76 (constAmps76 0 1 1)
    (constAmps76 1 0 0) (constAmps76 0 0 1) 1 1 1 (hints' := Hints.gamps_CCSD_SD_1_1) (by decide +kernel)
    (by decide +kernel)

theorem C76_SD_1_2_false : ¬GradientAtSolution76 Gen.GCCSD_SD_1_2.energy Gen.GCCSD_SD_1_2.update_amps
    Gen.GCCSD_SD_1_2.update_lams sorts_SD_1_2 [] :=
  not_gradient76 check_SD_1_2_76 (by decide +kernel) (by decide +kernel) exHam76 (constAmps76 0 1 1)
    (constAmps76 1 0 0) (constAmps76 0 0 1) 1 1 1 (hints' := Hints.gamps_CCSD_SD_1_2) (by decide +kernel)
    (by decide +kernel)

/-! The witness for CC2 has two occupied and two virtual orbitals; all amplitudes are zero and the only integrals
are those of four virtual orbitals. -/

/-- Integrals of four virtual orbitals only. -/
def vvvvHam76 : GHam ℚ where
  f _ _ := 0
  v p q r s := if p.1 = 1 ∧ q.1 = 1 ∧ r.1 = 1 ∧ s.1 = 1 then ((p.2 : ℚ) - q.2) * ((r.2 : ℚ) - s.2) else 0
  g _ _ _ := 0
  G _ := 0
  w _ _ := 0
  f_symm _ _ := rfl
  v_anti p q r s := by
    by_cases h : p.1 = 1 ∧ q.1 = 1 ∧ r.1 = 1 ∧ s.1 = 1
    · have h' : q.1 = 1 ∧ p.1 = 1 ∧ r.1 = 1 ∧ s.1 = 1 := ⟨h.2.1, h.1, h.2.2⟩
      rw [if_pos h, if_pos h']; ring
    · have h' : ¬(q.1 = 1 ∧ p.1 = 1 ∧ r.1 = 1 ∧ s.1 = 1) := fun h' => h ⟨h'.2.1, h'.1, h'.2.2⟩
      rw [if_neg h, if_neg h']; ring
  v_pair p q r s := by
    by_cases h : p.1 = 1 ∧ q.1 = 1 ∧ r.1 = 1 ∧ s.1 = 1
    · have h' : r.1 = 1 ∧ s.1 = 1 ∧ p.1 = 1 ∧ q.1 = 1 := ⟨h.2.2.1, h.2.2.2, h.1, h.2.1⟩
      rw [if_pos h, if_pos h']; ring
    · have h' : ¬(r.1 = 1 ∧ s.1 = 1 ∧ p.1 = 1 ∧ q.1 = 1) := fun h' => h ⟨h'.2.2.1, h'.2.2.2, h'.1, h'.2.1⟩
      rw [if_neg h, if_neg h']
  w_symm _ _ := rfl

/-- Antisymmetric doubles. -/
def dblAmps76 (c : ℚ) : GAmps ℚ where
  a1 _ _ := 0
  a2 i j a b := c * (((i : ℚ) - j) * ((a : ℚ) - b))
  a3 _ _ _ _ _ _ := 0
  s1 _ := 0
  s2 _ _ := 0
  u11 _ _ _ := 0
  u12 _ _ _ _ := 0
  a2_occ _ _ _ _ := by ring
  a2_vir _ _ _ _ := by ring
  a3_occ1 _ _ _ _ _ _ := by simp
  a3_occ2 _ _ _ _ _ _ := by simp
  a3_vir1 _ _ _ _ _ _ := by simp
  a3_vir2 _ _ _ _ _ _ := by simp
  s2_symm _ _ := rfl
  u12_symm _ _ _ _ := rfl

theorem C76_CC2_false : ¬GradientAtSolution76 Gen.GCC2.energy Gen.GCC2.update_amps
    Gen.GCC2.update_lams [.t1, .t2] [] :=
  not_gradient76 check_CC2_76 (by decide +kernel) (by decide +kernel) vvvvHam76 (dblAmps76 0)
    (dblAmps76 1) (dblAmps76 1) 2 2 0 (hints' := Hints.gamps_CC2) (by decide +kernel)
    (by decide +kernel)

/-! The claims are not about nothing: there are data with energy and residuals which are not zero. -/

example : ∃ r a, Gen.GCCSD_S_1_1.update_amps.call .backend onePath (spaceSizes 1 1 1 0)
      (fun n => exHam76.argsD (constAmps76 1 1 1) (constAmps76 0 0 0) (constAmps76 0 0 0) (spaceSizes 1 1 1 0) n) = .ok r ∧
      r.get? (chars! "t1new") = some a ∧ a.get [0, 0] = 2 :=
  symElem_sound (hints := Hints.gamps_CCSD_S_1_1) (vals := gVals) (by decide +kernel)
    (gSym_symOk exHam76 _ _ _) (spaceSizes_mod 1 1 1 0) _ (gVals_rep _ exHam76 _ _ _) _ _ onePath_ok

end Ebcc
