import Verif.Thms.C78J
/-!
C78, the part which is false: for CC2 the functions for the left are not the adjoints of those for the right, and
`hbar_matvec_ee` of MP2 is not symmetric.
-/

set_option maxRecDepth 1000000

namespace Ebcc

theorem not_adjoint78 {k : EomSort} {I M J N : GenFun} {dev : List ITerm} {hints : List Nat}
    (hc : checkClaim (eSym k) hints (· % 4) (eVals k) (eomCalls I M J N) gDm [adjIdent k dev] = true)
    (hdev : (dev.all fun c => c.ops.all fun o => isEomArg o.1) = true) (h : GHam ℚ) (t : GAmps ℚ) (x y : EomVec ℚ k)
    (no nv : Nat) (hd : eDevVal h t (spaceSizes no nv 0 0) x y dev ≠ 0) : ¬IsAdjoint78 k I M J N := by
  intro H
  obtain ⟨i, m, j, n, h1, h2, h3, h4, -, -, -, -, h5⟩ := H ℚ h t x y no nv 0 .backend onePath onePath_ok
  obtain ⟨i', m', j', n', h1', h2', h3', h4', -, -, -, -, h5'⟩ :=
    adjoint_sound hc hdev h t x y no nv 0 .backend onePath onePath_ok
  have hi : i = i' := Except.ok.inj (h1.symm.trans h1')
  have hj : j = j' := Except.ok.inj (h3.symm.trans h3')
  subst hi hj
  have hm : m = m' := Except.ok.inj (h2.symm.trans h2')
  have hn : n = n' := Except.ok.inj (h4.symm.trans h4')
  subst hm hn
  exact hd (by rw [h5] at h5'; simpa using h5')

/-! The witnesses have one to three occupied and virtual orbitals. -/

/-- The number of an orbital. -/
def orb78 (p : Orb) : ℚ := 2 * p.1 + p.2

/-- `f = 1`, `v[pqrs] = (p - q) * (r - s)`. -/
def exHam78 : GHam ℚ where
  f _ _ := 1
  v p q r s := (orb78 p - orb78 q) * (orb78 r - orb78 s)
  g _ _ _ := 0
  G _ := 0
  w _ _ := 0
  f_symm _ _ := rfl
  v_anti _ _ _ _ := by ring
  v_pair _ _ _ _ := by ring
  w_symm _ _ := rfl

/-- `t1[ia] = c + i ^ 2`, `t2[ijab] = d * (i - j) * (a ^ 2 - b ^ 2)`. -/
def exAmps78 (c d : ℚ) : GAmps ℚ where
  a1 i _ := c + i * i
  a2 i j a b := d * (((i : ℚ) - j) * ((a : ℚ) * a - b * b))
  a3 _ _ _ _ _ _ := 0
  s1 _ := 0
  s2 _ _ := 0
  u11 _ _ _ := 0
  u12 _ _ _ _ := 0
  a2_occ _ _ _ _ := by ring
  a2_vir _ _ _ _ := by ring
  a3_occ1 _ _ _ _ _ _ := by simp
  a3_occ2 _ _ _ _ _ _ := by simp
  a3_vir1 _ _ _ _ _ _ := by simp
  a3_vir2 _ _ _ _ _ _ := by simp
  s2_symm _ _ := rfl
  u12_symm _ _ _ _ := rfl

/-- `r1` depends on the first index, `r2` is antisymmetric. -/
def exVec78 (k : EomSort) (c d : ℚ) : EomVec ℚ k where
  x1 l := c * (1 + (l.headD 0 : Nat))
  x2 | [i, j, a, b] => d * (((i : ℚ) - j) * ((a : ℚ) - b))
     | i :: j :: l => d * (((i : ℚ) - j) * (1 + (l.headD 0 : Nat)))
     | _ => 0
  anti1 i j l := by
    rcases l with _ | ⟨a, _ | ⟨b, _ | ⟨c, l⟩⟩⟩ <;> simp only <;> ring
  anti2 _ _ _ _ _ := by simp only; ring

/-- A single excitation. -/
def unitVec78 (i a : Nat) : EomVec ℚ .ee where
  x1 l := if l = [i, a] then 1 else 0
  x2 _ := 0
  anti1 _ _ _ := by simp
  anti2 _ _ _ _ _ := by simp

open Gen in
theorem C78_CC2_ip_false : ¬IsAdjoint78 .ip GCC2Eom.hbar_matvec_ip_intermediates GCC2Eom.hbar_matvec_ip
    GCC2Eom.hbar_lmatvec_ip_intermediates GCC2Eom.hbar_lmatvec_ip :=
  not_adjoint78 (dev := Hints.dev_ip_CC2) (hints := Hints.ip_CC2) (by decide +kernel) (by decide +kernel)
    exHam78 (exAmps78 0 1) (exVec78 _ 1 0) (exVec78 _ 1 1) 2 1 (by decide +kernel)

open Gen in
theorem C78_CC2_ea_false : ¬IsAdjoint78 .ea GCC2Eom.hbar_matvec_ea_intermediates GCC2Eom.hbar_matvec_ea
    GCC2Eom.hbar_lmatvec_ea_intermediates GCC2Eom.hbar_lmatvec_ea :=
  not_adjoint78 (dev := Hints.dev_ea_CC2) (hints := Hints.ea_CC2) (by decide +kernel) (by decide +kernel)
    exHam78 (exAmps78 1 0) (exVec78 _ 1 0) (exVec78 _ 1 1) 1 2 (by decide +kernel)

open Gen in
theorem C78_MP2_ee_false : ¬IsAdjoint78 .ee GMP2Eom.hbar_matvec_ee_intermediates GMP2Eom.hbar_matvec_ee
    GMP2Eom.hbar_matvec_ee_intermediates GMP2Eom.hbar_matvec_ee :=
  not_adjoint78 (dev := Hints.dev_ee_MP2) (hints := Hints.ee_MP2) (by decide +kernel) (by decide +kernel)
    exHam78 (exAmps78 1 1) (unitVec78 0 0) (unitVec78 0 1) 3 3 (by decide +kernel)

/-! The claims are not about nothing: there are vectors with results which are not zero. -/

example : ∃ i m, Gen.GCCDEom.hbar_matvec_ip_intermediates.call .backend onePath (spaceSizes 2 2 0 0)
      (exHam78.args0 (exAmps78 0 1) (spaceSizes 2 2 0 0)) = .ok i ∧
    Gen.GCCDEom.hbar_matvec_ip.call .backend onePath (spaceSizes 2 2 0 0)
      (exHam78.eomArgs (exAmps78 0 1) (spaceSizes 2 2 0 0) i ((exVec78 .ip 1 0).arr1 (spaceSizes 2 2 0 0)) ((exVec78 .ip 1 0).arr2 (spaceSizes 2 2 0 0))) = .ok m :=
  let ⟨i, m, _, _, h1, h2, _⟩ := C78_CCD_ip ℚ exHam78 (exAmps78 0 1) (exVec78 .ip 1 0) (exVec78 .ip 1 0) 2 2 0 .backend
    onePath onePath_ok
  ⟨i, m, h1, h2⟩

end Ebcc
