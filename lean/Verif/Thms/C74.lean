import Verif.Thms.C73
import Verif.Gen.Hints.Lams
/-!
C74: the generated lambda residuals of the unrestricted class are those of the restricted class, for
amplitudes and integrals of a closed-shell calculation.
-/

set_option maxRecDepth 1000000

namespace Ebcc

/-- The restricted and the unrestricted `update_lams` agree for all closed-shell data. -/
def LamsAgree (rf uf : GenFun) (singles : Bool) : Prop :=
  ∀ (R : Type) [Field R] [CharZero R] [DecidableEq R] (d : CCData R) (no nv : Nat) (method : ContractMethod)
    (path : List (List Char) → List Char → List (NDArray R) → List Contraction), PathOk path →
    ∃ r u, rf.call method path (spaceSizes no nv 0 0) (d.rArgs no nv) = .ok r ∧
      uf.call method path (spaceSizes no nv 0 0) (d.uArgs no nv) = .ok u ∧
      (singles = true → SinglesAgree (chars! "l1new") nv no r u) ∧
      DoublesAgree (chars! "l2new") nv no r u

theorem lamsAgree_of_check {rf uf : GenFun} {singles : Bool} {hints : List Nat}
    (h : checkPair (canonByHints ccSym) hints rf (· % 4) rVals uf (· % 4) uVals
      (relsSD singles (chars! "l1new") (chars! "l2new") 1 0) = true) :
    LamsAgree rf uf singles := by
  intro R _ _ _ d no nv method path hpath
  have hs : ∀ s, spaceSizes no nv 0 0 s = spaceSizes no nv 0 0 (s % 4) := by
    intro s
    simp [spaceSizes]
  obtain ⟨r, u, h1, h2, h3⟩ := checkPair_sound (spaceSizes no nv 0 0) d.tensor ccSym d.symOk method path hpath
    _ _ _ _ hs hs rVals uVals (d.rArgs no nv) (d.uArgs no nv) (d.rVals_rep no nv) (d.uVals_rep no nv) rf uf hints _ h
  obtain ⟨g1, g2⟩ := agree_of_relsSD h3
  exact ⟨r, u, h1, h2, g1, g2⟩

theorem C74_CCD : LamsAgree Gen.RCCD.update_lams Gen.UCCD.update_lams false :=
  lamsAgree_of_check (hints := Hints.lams_CCD) (by decide +kernel)

theorem C74_CC2 : LamsAgree Gen.RCC2.update_lams Gen.UCC2.update_lams true :=
  lamsAgree_of_check (hints := Hints.lams_CC2) (by decide +kernel)

theorem C74_CCSD : LamsAgree Gen.RCCSD.update_lams Gen.UCCSD.update_lams true :=
  lamsAgree_of_check (hints := Hints.lams_CCSD) (by decide +kernel)

/-- Elements of the residuals of `exData72` for two occupied orbitals and one virtual orbital. -/
example : ∃ r a, Gen.RCCSD.update_lams.call .backend onePath (spaceSizes 2 1 0 0) (exData72.rArgs 2 1) = .ok r ∧
    r.get? (chars! "l1new") = some a ∧ a.get [0, 1] = -123 / 2 :=
  exData72_value (hints := Hints.lams_CCSD) (by decide +kernel)

end Ebcc
