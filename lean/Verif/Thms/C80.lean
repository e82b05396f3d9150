import Mathlib.Tactic.Ring
import Verif.Tensor.SplitsInto
import Verif.Tensor.Value
import Verif.Gen.Hints.Split
import Verif.Gen.GMP2
import Verif.Gen.UMP2
import Verif.Gen.GMP3
import Verif.Gen.UMP3
import Verif.Gen.GLCCD
import Verif.Gen.ULCCD
import Verif.Gen.GLCCSD
import Verif.Gen.ULCCSD
import Verif.Gen.GCCD
import Verif.Gen.UCCD
import Verif.Gen.GCC2
import Verif.Gen.UCC2
import Verif.Gen.GCCSD
import Verif.Gen.UCCSD
import Verif.Gen.GQCISD
import Verif.Gen.UQCISD
import Verif.Thms.C77E
/-!
C80: the generated functions of the general (spin-orbital) classes and of the unrestricted classes agree: with
integrals and amplitudes that conserve the spin, the results of the general function are made of the spin blocks
that the unrestricted function returns.
-/

set_option maxRecDepth 1000000

namespace Ebcc

/-- The results of `update_amps`. -/
def ampsRes80 (singles : Bool) : List (List Char × List Nat) :=
  (if singles then [(chars! "t1new", [0, 1])] else []) ++ [(chars! "t2new", [0, 0, 1, 1])]

/-- The results of `update_lams`. -/
def lamsRes80 (singles : Bool) : List (List Char × List Nat) :=
  (if singles then [(chars! "l1new", [1, 0])] else []) ++ [(chars! "l2new", [1, 1, 0, 0])]

theorem C80_MP2_energy : GeneralAgrees Gen.GMP2.energy Gen.UMP2.energy [(chars! "e_mp", [])] :=
  generalAgrees_of_check (hG := Hints.split_energy_MP2_G) (hU := Hints.split_energy_MP2_U) rfl (by decide +kernel)

theorem C80_MP3_energy : GeneralAgrees Gen.GMP3.energy Gen.UMP3.energy [(chars! "e_mp", [])] :=
  generalAgrees_of_check (hG := Hints.split_energy_MP3_G) (hU := Hints.split_energy_MP3_U) rfl (by decide +kernel)

theorem C80_LCCD_energy : GeneralAgrees Gen.GLCCD.energy Gen.ULCCD.energy [(chars! "e_cc", [])] :=
  generalAgrees_of_check (hG := Hints.split_energy_LCCD_G) (hU := Hints.split_energy_LCCD_U) rfl (by decide +kernel)

theorem C80_LCCSD_energy : GeneralAgrees Gen.GLCCSD.energy Gen.ULCCSD.energy [(chars! "e_cc", [])] :=
  generalAgrees_of_check (hG := Hints.split_energy_LCCSD_G) (hU := Hints.split_energy_LCCSD_U) rfl (by decide +kernel)

theorem C80_CCD_energy : GeneralAgrees Gen.GCCD.energy Gen.UCCD.energy [(chars! "e_cc", [])] :=
  generalAgrees_of_check (hG := Hints.split_energy_CCD_G) (hU := Hints.split_energy_CCD_U) rfl (by decide +kernel)

theorem C80_CC2_energy : GeneralAgrees Gen.GCC2.energy Gen.UCC2.energy [(chars! "e_cc", [])] :=
  generalAgrees_of_check (hG := Hints.split_energy_CC2_G) (hU := Hints.split_energy_CC2_U) rfl (by decide +kernel)

theorem C80_CCSD_energy : GeneralAgrees Gen.GCCSD.energy Gen.UCCSD.energy [(chars! "e_cc", [])] :=
  generalAgrees_of_check (hG := Hints.split_energy_CCSD_G) (hU := Hints.split_energy_CCSD_U) rfl (by decide +kernel)

theorem C80_QCISD_energy : GeneralAgrees Gen.GQCISD.energy Gen.UQCISD.energy [(chars! "e_cc", [])] :=
  generalAgrees_of_check (hG := Hints.split_energy_QCISD_G) (hU := Hints.split_energy_QCISD_U) rfl (by decide +kernel)

theorem C80_LCCD_amps : GeneralAgrees Gen.GLCCD.update_amps Gen.ULCCD.update_amps (ampsRes80 false) :=
  generalAgrees_of_check (hG := Hints.split_amps_LCCD_G) (hU := Hints.split_amps_LCCD_U) rfl (by decide +kernel)

theorem C80_LCCSD_amps : GeneralAgrees Gen.GLCCSD.update_amps Gen.ULCCSD.update_amps (ampsRes80 true) :=
  generalAgrees_of_check (hG := Hints.split_amps_LCCSD_G) (hU := Hints.split_amps_LCCSD_U) rfl (by decide +kernel)

theorem C80_CCD_amps : GeneralAgrees Gen.GCCD.update_amps Gen.UCCD.update_amps (ampsRes80 false) :=
  generalAgrees_of_check (hG := Hints.split_amps_CCD_G) (hU := Hints.split_amps_CCD_U) rfl (by decide +kernel)

theorem C80_CC2_amps : GeneralAgrees Gen.GCC2.update_amps Gen.UCC2.update_amps (ampsRes80 true) :=
  generalAgrees_of_check (hG := Hints.split_amps_CC2_G) (hU := Hints.split_amps_CC2_U) rfl (by decide +kernel)

theorem C80_CCSD_amps : GeneralAgrees Gen.GCCSD.update_amps Gen.UCCSD.update_amps (ampsRes80 true) :=
  generalAgrees_of_check (hG := Hints.split_amps_CCSD_G) (hU := Hints.split_amps_CCSD_U) rfl (by decide +kernel)

theorem C80_QCISD_amps : GeneralAgrees Gen.GQCISD.update_amps Gen.UQCISD.update_amps (ampsRes80 true) :=
  generalAgrees_of_check (hG := Hints.split_amps_QCISD_G) (hU := Hints.split_amps_QCISD_U) rfl (by decide +kernel)

theorem C80_CCD_lams : GeneralAgrees Gen.GCCD.update_lams Gen.UCCD.update_lams (lamsRes80 false) :=
  generalAgrees_of_check (hG := Hints.split_lams_CCD_G) (hU := Hints.split_lams_CCD_U) rfl (by decide +kernel)

theorem C80_CC2_lams : GeneralAgrees Gen.GCC2.update_lams Gen.UCC2.update_lams (lamsRes80 true) :=
  generalAgrees_of_check (hG := Hints.split_lams_CC2_G) (hU := Hints.split_lams_CC2_U) rfl (by decide +kernel)

theorem C80_CCSD_lams : GeneralAgrees Gen.GCCSD.update_lams Gen.UCCSD.update_lams (lamsRes80 true) :=
  generalAgrees_of_check (hG := Hints.split_lams_CCSD_G) (hU := Hints.split_lams_CCSD_U) rfl (by decide +kernel)

/-! The claims are not about nothing. -/

def exHam80 : SHam ℚ where
  f _ _ := 1
  v _ _ _ _ := 1
  g _ _ _ := 0
  G _ := 0
  w _ _ := 0
  f_symm _ _ := rfl
  v_swap _ _ _ _ := rfl
  v_pair _ _ _ _ := rfl
  w_symm _ _ := rfl

def exAmps80 : SAmps ℚ where
  a1 _ _ := 1
  a2 i j a b := ((i.1 : ℚ) - j.1) * ((a.1 : ℚ) - b.1)
  a3 _ _ _ _ _ _ := 0
  s1 _ := 0
  s2 _ _ := 0
  u11 _ _ _ := 0
  u12 _ _ _ _ := 0
  a2_occ _ _ _ _ := by ring
  a2_vir _ _ _ _ := by ring
  a3_occ1 _ _ _ _ _ _ := by simp
  a3_occ2 _ _ _ _ _ _ := by simp
  a3_vir1 _ _ _ _ _ _ := by simp
  a3_vir2 _ _ _ _ _ _ := by simp
  s2_symm _ _ := rfl
  u12_symm _ _ _ _ := rfl

/-- The occupied spin orbitals alternate in spin, beginning with the first spin. -/
def exOcc80 (x : Nat) : Orb := (if x % 2 = 0 then 0 else 4, x / 2)

/-- The virtual spin orbitals alternate in spin, beginning with the second spin. -/
def exVir80 (x : Nat) : Orb := (if x % 2 = 0 then 5 else 1, x / 2)

example : SpinOrbitals exOcc80 exVir80 2 4 1 2 1 2 := ⟨by decide, by decide⟩

/-- An energy. -/
example : ∃ r a, Gen.GCCSD.energy.call .backend onePath (spaceSizes 2 2 0 0)
      ((exHam80.toG (spinOrb exOcc80 exVir80)).args (exAmps80.toG exOcc80 exVir80) (exAmps80.toG exOcc80 exVir80)
        (spaceSizes 2 2 0 0)) = .ok r ∧ r.get? (chars! "e_cc") = some a ∧ a.get [] = 19 :=
  symElem_sound (hints := Hints.split_energy_CCSD_G) (vals := gValsT 16) (by decide +kernel)
    (gSym_symOk _ _ _ (exAmps80.toG exOcc80 exVir80)) (spaceSizes_mod 2 2 0 0) _
    (gArgs_rep _ _ _ _ (exAmps80.toG exOcc80 exVir80)) _ _ onePath_ok

/-- A residual. -/
example : ∃ r a, Gen.GCCSD.update_amps.call .backend onePath (spaceSizes 2 2 0 0)
      ((exHam80.toG (spinOrb exOcc80 exVir80)).args (exAmps80.toG exOcc80 exVir80) (exAmps80.toG exOcc80 exVir80)
        (spaceSizes 2 2 0 0)) = .ok r ∧ r.get? (chars! "t2new") = some a ∧ a.get [0, 1, 0, 1] = 320 :=
  symElem_sound (hints := Hints.split_amps_CCSD_G) (vals := gValsT 16) (by decide +kernel)
    (gSym_symOk _ _ _ (exAmps80.toG exOcc80 exVir80)) (spaceSizes_mod 2 2 0 0) _
    (gArgs_rep _ _ _ _ (exAmps80.toG exOcc80 exVir80)) _ _ onePath_ok

end Ebcc
