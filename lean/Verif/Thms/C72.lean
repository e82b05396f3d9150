import Verif.Tensor.Value
import Verif.Gen.Hints.Energy
import Verif.Gen.RMP2
import Verif.Gen.UMP2
import Verif.Gen.RLCCD
import Verif.Gen.ULCCD
import Verif.Gen.RLCCSD
import Verif.Gen.ULCCSD
import Verif.Gen.RCCD
import Verif.Gen.UCCD
import Verif.Gen.RCC2
import Verif.Gen.UCC2
import Verif.Gen.RCCSD
import Verif.Gen.UCCSD
import Verif.Gen.RQCISD
import Verif.Gen.UQCISD
import Verif.Gen.RDCD
import Verif.Gen.UDCD
import Verif.Gen.RDCSD
import Verif.Gen.UDCSD
/-!
C72: the generated energy of the unrestricted class is that of the restricted class, for amplitudes and
integrals of a closed-shell calculation.
-/

set_option maxRecDepth 1000000

namespace Ebcc

/-- The restricted and the unrestricted function return the same number for all closed-shell data: any
numbers of orbitals, any amplitudes and integrals with the symmetries of `CCData`, any contraction
method and contraction paths. -/
def EnergyAgree (rf uf : GenFun) (name : List Char) : Prop :=
  ∀ (R : Type) [Field R] [CharZero R] [DecidableEq R] (d : CCData R) (no nv : Nat) (method : ContractMethod)
    (path : List (List Char) → List Char → List (NDArray R) → List Contraction), PathOk path →
    ∃ r u e, rf.call method path (spaceSizes no nv 0 0) (d.rArgs no nv) = .ok r ∧
      uf.call method path (spaceSizes no nv 0 0) (d.uArgs no nv) = .ok u ∧
      r.get? name = some e ∧ u.get? name = some e ∧ e.shape = []

theorem energyAgree_of_check {rf uf : GenFun} {name : List Char} {hints : List Nat}
    (h : checkPair (canonByHints ccSym) hints rf (· % 4) rVals uf (· % 4) uVals [relSame name name []] = true) :
    EnergyAgree rf uf name := by
  intro R _ _ _ d no nv method path hpath
  have hs : ∀ s, spaceSizes no nv 0 0 s = spaceSizes no nv 0 0 (s % 4) := by
    intro s
    simp [spaceSizes]
  obtain ⟨r, u, h1, h2, h3⟩ := checkPair_sound (spaceSizes no nv 0 0) d.tensor ccSym d.symOk method path hpath
    _ _ _ _ hs hs rVals uVals (d.rArgs no nv) (d.uArgs no nv) (d.rVals_rep no nv) (d.uVals_rep no nv) rf uf hints _ h
  obtain ⟨a, a1, a2, _, a4⟩ := relSame_holds (h3 _ (List.mem_cons_self ..))
  exact ⟨r, u, a, h1, h2, a1, a2, a4⟩

theorem C72_MP2 : EnergyAgree Gen.RMP2.energy Gen.UMP2.energy (chars! "e_mp") :=
  energyAgree_of_check (hints := Hints.energy_MP2) (by decide +kernel)

theorem C72_LCCD : EnergyAgree Gen.RLCCD.energy Gen.ULCCD.energy (chars! "e_cc") :=
  energyAgree_of_check (hints := Hints.energy_LCCD) (by decide +kernel)

theorem C72_LCCSD : EnergyAgree Gen.RLCCSD.energy Gen.ULCCSD.energy (chars! "e_cc") :=
  energyAgree_of_check (hints := Hints.energy_LCCSD) (by decide +kernel)

theorem C72_CCD : EnergyAgree Gen.RCCD.energy Gen.UCCD.energy (chars! "e_cc") :=
  energyAgree_of_check (hints := Hints.energy_CCD) (by decide +kernel)

theorem C72_CC2 : EnergyAgree Gen.RCC2.energy Gen.UCC2.energy (chars! "e_cc") :=
  energyAgree_of_check (hints := Hints.energy_CC2) (by decide +kernel)

theorem C72_CCSD : EnergyAgree Gen.RCCSD.energy Gen.UCCSD.energy (chars! "e_cc") :=
  energyAgree_of_check (hints := Hints.energy_CCSD) (by decide +kernel)

theorem C72_QCISD : EnergyAgree Gen.RQCISD.energy Gen.UQCISD.energy (chars! "e_cc") :=
  energyAgree_of_check (hints := Hints.energy_QCISD) (by decide +kernel)

theorem C72_DCD : EnergyAgree Gen.RDCD.energy Gen.UDCD.energy (chars! "e_cc") :=
  energyAgree_of_check (hints := Hints.energy_DCD) (by decide +kernel)

theorem C72_DCSD : EnergyAgree Gen.RDCSD.energy Gen.UDCSD.energy (chars! "e_cc") :=
  energyAgree_of_check (hints := Hints.energy_DCSD) (by decide +kernel)

/-- The energies of `exData72` for two occupied and two virtual orbitals, and for two occupied orbitals
and one virtual orbital. -/
example : ∃ r a, Gen.RMP2.energy.call .backend onePath (spaceSizes 2 2 0 0) (exData72.rArgs 2 2) = .ok r ∧
    r.get? (chars! "e_mp") = some a ∧ a.get [] = 576 :=
  exData72_value (hints := Hints.energy_MP2) (by decide +kernel)

example : ∃ r a, Gen.RCCSD.energy.call .backend onePath (spaceSizes 2 1 0 0) (exData72.rArgs 2 1) = .ok r ∧
    r.get? (chars! "e_cc") = some a ∧ a.get [] = 120 :=
  exData72_value (hints := Hints.energy_CCSD) (by decide +kernel)

end Ebcc
