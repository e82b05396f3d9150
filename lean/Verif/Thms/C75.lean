import Verif.Thms.C74
import Verif.Tensor.SetupDF
import Verif.Tensor.Value
import Verif.Gen.Hints.DF
import Verif.Gen.RLCCD
import Verif.Gen.RDFLCCD
import Verif.Gen.RLCCSD
import Verif.Gen.RDFLCCSD
import Verif.Gen.RCCD
import Verif.Gen.RDFCCD
import Verif.Gen.RCC2
import Verif.Gen.RDFCC2
import Verif.Gen.RCCSD
import Verif.Gen.RDFCCSD
import Verif.Gen.RQCISD
import Verif.Gen.RDFQCISD
import Verif.Gen.RDCD
import Verif.Gen.RDFDCD
import Verif.Gen.RDCSD
import Verif.Gen.RDFDCSD
/-!
C75: the generated functions with density fitting compute what the functions without compute for the
integrals made from the three-centre integrals.
-/

set_option maxRecDepth 1000000

namespace Ebcc

/-- The functions return equal arrays with the given names and shapes, for all amplitudes and three-centre
integrals of a closed-shell calculation. -/
def DFAgree (f df : GenFun) (results : List (List Char × List Nat)) : Prop :=
  ∀ (R : Type) [Field R] [CharZero R] [DecidableEq R] (d : DFData R) (no nv nx : Nat) (method : ContractMethod)
    (path : List (List Char) → List Char → List (NDArray R) → List Contraction), PathOk path →
    ∃ r u, f.call method path (spaceSizes no nv 0 nx) ((d.toCC nx).rArgs no nv) = .ok r ∧
      df.call method path (spaceSizes no nv 0 nx) (d.dfArgs no nv nx) = .ok u ∧
      ∀ x ∈ results, ∃ a, r.get? x.1 = some a ∧ u.get? x.1 = some a ∧ a.shape = x.2.map (spaceSizes no nv 0 nx)

theorem dfAgree_of_check {f df : GenFun} {results : List (List Char × List Nat)} {hints : List Nat}
    (h : checkPair (canonByHints ccSym) hints f (· % 4) rbVals df (· % 4) dfVals
      (results.map fun x => relSame x.1 x.1 x.2) = true) : DFAgree f df results := by
  intro R _ _ _ d no nv nx method path hpath
  obtain ⟨r, u, h1, h2, h3⟩ := checkPair_sound (spaceSizes no nv 0 nx) (d.tensor nx) ccSym (d.symOk nx) method path
    hpath _ _ _ _ (spaceSizes_mod no nv 0 nx) (spaceSizes_mod no nv 0 nx) rbVals dfVals _ _ (d.rbVals_rep no nv nx)
    (d.dfVals_rep no nv nx) f df hints _ h
  refine ⟨r, u, h1, h2, fun x hx => ?_⟩
  obtain ⟨a, a1, a2, _, a4⟩ := relSame_holds (h3 _ (List.mem_map.2 ⟨x, hx, rfl⟩))
  exact ⟨a, a1, a2, a4⟩

/-- The results of the functions: names, and spaces of the axes. -/
def energyRes : List (List Char × List Nat) := [(chars! "e_cc", [])]

def ampsRes (singles : Bool) : List (List Char × List Nat) :=
  (bif singles then [(chars! "t1new", [0, 1])] else []) ++ [(chars! "t2new", [0, 0, 1, 1])]

def lamsRes (singles : Bool) : List (List Char × List Nat) :=
  (bif singles then [(chars! "l1new", [1, 0])] else []) ++ [(chars! "l2new", [1, 1, 0, 0])]

theorem C75_LCCD_energy : DFAgree Gen.RLCCD.energy Gen.RDFLCCD.energy energyRes :=
  dfAgree_of_check (hints := Hints.dfenergy_LCCD) (by decide +kernel)

theorem C75_LCCD_amps : DFAgree Gen.RLCCD.update_amps Gen.RDFLCCD.update_amps (ampsRes false) :=
  dfAgree_of_check (hints := Hints.dfamps_LCCD) (by decide +kernel)

theorem C75_LCCSD_energy : DFAgree Gen.RLCCSD.energy Gen.RDFLCCSD.energy energyRes :=
  dfAgree_of_check (hints := Hints.dfenergy_LCCSD) (by decide +kernel)

theorem C75_LCCSD_amps : DFAgree Gen.RLCCSD.update_amps Gen.RDFLCCSD.update_amps (ampsRes true) :=
  dfAgree_of_check (hints := Hints.dfamps_LCCSD) (by decide +kernel)

theorem C75_CCD_energy : DFAgree Gen.RCCD.energy Gen.RDFCCD.energy energyRes :=
  dfAgree_of_check (hints := Hints.dfenergy_CCD) (by decide +kernel)

theorem C75_CCD_amps : DFAgree Gen.RCCD.update_amps Gen.RDFCCD.update_amps (ampsRes false) :=
  dfAgree_of_check (hints := Hints.dfamps_CCD) (by decide +kernel)

theorem C75_CCD_lams : DFAgree Gen.RCCD.update_lams Gen.RDFCCD.update_lams (lamsRes false) :=
  dfAgree_of_check (hints := Hints.dflams_CCD) (by decide +kernel)

theorem C75_CC2_energy : DFAgree Gen.RCC2.energy Gen.RDFCC2.energy energyRes :=
  dfAgree_of_check (hints := Hints.dfenergy_CC2) (by decide +kernel)

theorem C75_CC2_amps : DFAgree Gen.RCC2.update_amps Gen.RDFCC2.update_amps (ampsRes true) :=
  dfAgree_of_check (hints := Hints.dfamps_CC2) (by decide +kernel)

theorem C75_CC2_lams : DFAgree Gen.RCC2.update_lams Gen.RDFCC2.update_lams (lamsRes true) :=
  dfAgree_of_check (hints := Hints.dflams_CC2) (by decide +kernel)

theorem C75_CCSD_energy : DFAgree Gen.RCCSD.energy Gen.RDFCCSD.energy energyRes :=
  dfAgree_of_check (hints := Hints.dfenergy_CCSD) (by decide +kernel)

theorem C75_CCSD_amps : DFAgree Gen.RCCSD.update_amps Gen.RDFCCSD.update_amps (ampsRes true) :=
  dfAgree_of_check (hints := Hints.dfamps_CCSD) (by decide +kernel)

theorem C75_CCSD_lams : DFAgree Gen.RCCSD.update_lams Gen.RDFCCSD.update_lams (lamsRes true) :=
  dfAgree_of_check (hints := Hints.dflams_CCSD) (by decide +kernel)

theorem C75_QCISD_energy : DFAgree Gen.RQCISD.energy Gen.RDFQCISD.energy energyRes :=
  dfAgree_of_check (hints := Hints.dfenergy_QCISD) (by decide +kernel)

theorem C75_QCISD_amps : DFAgree Gen.RQCISD.update_amps Gen.RDFQCISD.update_amps (ampsRes true) :=
  dfAgree_of_check (hints := Hints.dfamps_QCISD) (by decide +kernel)

theorem C75_DCD_energy : DFAgree Gen.RDCD.energy Gen.RDFDCD.energy energyRes :=
  dfAgree_of_check (hints := Hints.dfenergy_DCD) (by decide +kernel)

theorem C75_DCD_amps : DFAgree Gen.RDCD.update_amps Gen.RDFDCD.update_amps (ampsRes false) :=
  dfAgree_of_check (hints := Hints.dfamps_DCD) (by decide +kernel)

theorem C75_DCSD_energy : DFAgree Gen.RDCSD.energy Gen.RDFDCSD.energy energyRes :=
  dfAgree_of_check (hints := Hints.dfenergy_DCSD) (by decide +kernel)

theorem C75_DCSD_amps : DFAgree Gen.RDCSD.update_amps Gen.RDFDCSD.update_amps (ampsRes true) :=
  dfAgree_of_check (hints := Hints.dfamps_DCSD) (by decide +kernel)

/-- Data with density fitting: two auxiliary functions. -/
def exData75 : DFData ℚ where
  f p q := if p.1 = q.1 then 1 else 1/2
  b x p q := p.1 + q.1 + x + 1
  t1 i a := i + a + 1
  t2 i j a b := (i + a + 1) * (j + b + 2) + (i + a + 2) * (j + b + 1)
  l1 a i := a + 2 * i + 1
  l2 a b i j := (i + a + 1) * (j + b + 1)
  f_symm p q := by simp only [eq_comm]
  b_symm x p q := by ring
  t2_symm i j a b := by ring
  l2_symm a b i j := by ring

/-- The energy of the data, by the function with density fitting; the function without density fitting comes
first so that the same hints serve. -/
example : ∃ r u e, Gen.RCCSD.energy.call .backend onePath (spaceSizes 2 1 0 2) ((exData75.toCC 2).rArgs 2 1) = .ok r ∧
    Gen.RDFCCSD.energy.call .backend onePath (spaceSizes 2 1 0 2) (exData75.dfArgs 2 1 2) = .ok u ∧
    u.get? (chars! "e_cc") = some e ∧ e.get [] = 510 := by
  obtain ⟨r, u, h1, h2, h3⟩ := C75_CCSD_energy ℚ exData75 2 1 2 .backend onePath onePath_ok
  obtain ⟨e, e1, e2, _⟩ := h3 _ (List.mem_cons_self ..)
  obtain ⟨r', a, g1, g2, g3⟩ := symElem_sound (sy := ccSym) (hints := Hints.dfenergy_CCSD) (f := Gen.RCCSD.energy)
    (vals := rbVals) (sz := spaceSizes 2 1 0 2) (T := exData75.tensor 2) (name := chars! "e_cc") (idx := [])
    (x := 510) (by decide +kernel) (exData75.symOk 2) (spaceSizes_mod _ _ _ _) _ (exData75.rbVals_rep 2 1 2) .backend
    onePath onePath_ok
  rw [h1] at g1
  cases g1
  rw [e1] at g2
  cases g2
  exact ⟨r, u, e, h1, h2, e2, g3⟩

end Ebcc
