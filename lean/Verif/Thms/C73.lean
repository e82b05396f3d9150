import Verif.Tensor.Value
import Verif.Gen.Hints.Amps
import Verif.Gen.RLCCD
import Verif.Gen.ULCCD
import Verif.Gen.RLCCSD
import Verif.Gen.ULCCSD
import Verif.Gen.RCCD
import Verif.Gen.UCCD
import Verif.Gen.RCC2
import Verif.Gen.UCC2
import Verif.Gen.RCCSD
import Verif.Gen.UCCSD
import Verif.Gen.RQCISD
import Verif.Gen.UQCISD
import Verif.Gen.RDCD
import Verif.Gen.UDCD
import Verif.Gen.RDCSD
import Verif.Gen.UDCSD
/-!
C73: the generated residuals of the unrestricted class are those of the restricted class, for amplitudes
and integrals of a closed-shell calculation.
-/

set_option maxRecDepth 1000000

namespace Ebcc

/-- The residuals for doubles: `ab` is the restricted array, `aa` and `bb` are the array minus the array
with the last two axes exchanged, and the restricted array is symmetric under exchange of the electrons. -/
def DoublesAgree {R : Type} [Field R] (name : List Char) (n m : Nat) (r u : Dict (List Char) (NDArray R)) : Prop :=
  ∃ ab aa bb, r.get? name = some ab ∧ ab.shape = [n, n, m, m] ∧
    u.get? (name ++ chars! ".abab") = some ab ∧
    u.get? (name ++ chars! ".aaaa") = some aa ∧ aa.shape = [n, n, m, m] ∧
    u.get? (name ++ chars! ".bbbb") = some bb ∧ bb.shape = [n, n, m, m] ∧
    ∀ i j a b, i < n → j < n → a < m → b < m →
      ab.get [j, i, b, a] = ab.get [i, j, a, b] ∧
      aa.get [i, j, a, b] = ab.get [i, j, a, b] - ab.get [i, j, b, a] ∧
      bb.get [i, j, a, b] = ab.get [i, j, a, b] - ab.get [i, j, b, a]

/-- The residuals for singles: all the same. -/
def SinglesAgree {R : Type} (name : List Char) (n m : Nat) (r u : Dict (List Char) (NDArray R)) : Prop :=
  ∃ a, r.get? name = some a ∧ a.shape = [n, m] ∧ u.get? (name ++ chars! ".aa") = some a ∧
    u.get? (name ++ chars! ".bb") = some a

/-- The restricted and the unrestricted `update_amps` agree for all closed-shell data. -/
def AmpsAgree (rf uf : GenFun) (singles : Bool) : Prop :=
  ∀ (R : Type) [Field R] [CharZero R] [DecidableEq R] (d : CCData R) (no nv : Nat) (method : ContractMethod)
    (path : List (List Char) → List Char → List (NDArray R) → List Contraction), PathOk path →
    ∃ r u, rf.call method path (spaceSizes no nv 0 0) (d.rArgs no nv) = .ok r ∧
      uf.call method path (spaceSizes no nv 0 0) (d.uArgs no nv) = .ok u ∧
      (singles = true → SinglesAgree (chars! "t1new") no nv r u) ∧
      DoublesAgree (chars! "t2new") no nv r u

/-- The relations of singles and doubles. -/
def relsSD (singles : Bool) (n1 n2 : List Char) (s s' : Nat) : List TRel :=
  (bif singles then [relSame n1 (n1 ++ chars! ".aa") [s, s'], relSame n1 (n1 ++ chars! ".bb") [s, s']] else []) ++
    [relSame n2 (n2 ++ chars! ".abab") [s, s, s', s'], relAnti n2 (n2 ++ chars! ".aaaa") [s, s, s', s'],
      relAnti n2 (n2 ++ chars! ".bbbb") [s, s, s', s'], relPerm n2 [s, s, s', s'] [1, 0, 3, 2]]

theorem agree_of_relsSD {R : Type} [Field R] {singles : Bool} {n1 n2 : List Char} {s s' : Nat} {sz : Nat → Nat}
    {r u : Dict (List Char) (NDArray R)} (h : ∀ rel ∈ relsSD singles n1 n2 s s', TRel.Holds sz rel r u) :
    (singles = true → SinglesAgree n1 (sz s) (sz s') r u) ∧ DoublesAgree n2 (sz s) (sz s') r u := by
  constructor
  · rintro rfl
    obtain ⟨a, a1, a2, _, a4⟩ := relSame_holds (h (relSame n1 (n1 ++ chars! ".aa") [s, s']) (by simp [relsSD]))
    obtain ⟨b, b1, b2, _, _⟩ := relSame_holds (h (relSame n1 (n1 ++ chars! ".bb") [s, s']) (by simp [relsSD]))
    rw [a1] at b1
    cases b1
    exact ⟨a, a1, by simpa using a4, a2, b2⟩
  · obtain ⟨ab, a1, a2, _, a4⟩ := relSame_holds (h (relSame n2 (n2 ++ chars! ".abab") [s, s, s', s'])
      (by simp [relsSD]))
    obtain ⟨x, aa, b1, b2, _, b4, b5⟩ := relAnti_holds (h (relAnti n2 (n2 ++ chars! ".aaaa") [s, s, s', s'])
      (by simp [relsSD]))
    obtain ⟨y, bb, c1, c2, _, c4, c5⟩ := relAnti_holds (h (relAnti n2 (n2 ++ chars! ".bbbb") [s, s, s', s'])
      (by simp [relsSD]))
    obtain ⟨z, d1, d2⟩ := relPerm_holds (h (relPerm n2 [s, s, s', s'] [1, 0, 3, 2]) (by simp [relsSD]))
    rw [a1] at b1 c1 d1
    cases b1
    cases c1
    cases d1
    exact ⟨ab, aa, bb, a1, by simpa using a4, a2, b2, b4, c2, c4, fun i j a b hi hj ha hb =>
      ⟨d2 i j a b hi hj ha hb, b5 i j a b hi hj ha hb, c5 i j a b hi hj ha hb⟩⟩

theorem ampsAgree_of_check {rf uf : GenFun} {singles : Bool} {hints : List Nat}
    (h : checkPair (canonByHints ccSym) hints rf (· % 4) rVals uf (· % 4) uVals
      (relsSD singles (chars! "t1new") (chars! "t2new") 0 1) = true) :
    AmpsAgree rf uf singles := by
  intro R _ _ _ d no nv method path hpath
  have hs : ∀ s, spaceSizes no nv 0 0 s = spaceSizes no nv 0 0 (s % 4) := by
    intro s
    simp [spaceSizes]
  obtain ⟨r, u, h1, h2, h3⟩ := checkPair_sound (spaceSizes no nv 0 0) d.tensor ccSym d.symOk method path hpath
    _ _ _ _ hs hs rVals uVals (d.rArgs no nv) (d.uArgs no nv) (d.rVals_rep no nv) (d.uVals_rep no nv) rf uf hints _ h
  obtain ⟨g1, g2⟩ := agree_of_relsSD h3
  exact ⟨r, u, h1, h2, g1, g2⟩

theorem C73_LCCD : AmpsAgree Gen.RLCCD.update_amps Gen.ULCCD.update_amps false :=
  ampsAgree_of_check (hints := Hints.amps_LCCD) (by decide +kernel)

theorem C73_LCCSD : AmpsAgree Gen.RLCCSD.update_amps Gen.ULCCSD.update_amps true :=
  ampsAgree_of_check (hints := Hints.amps_LCCSD) (by decide +kernel)

theorem C73_CCD : AmpsAgree Gen.RCCD.update_amps Gen.UCCD.update_amps false :=
  ampsAgree_of_check (hints := Hints.amps_CCD) (by decide +kernel)

theorem C73_CC2 : AmpsAgree Gen.RCC2.update_amps Gen.UCC2.update_amps true :=
  ampsAgree_of_check (hints := Hints.amps_CC2) (by decide +kernel)

theorem C73_CCSD : AmpsAgree Gen.RCCSD.update_amps Gen.UCCSD.update_amps true :=
  ampsAgree_of_check (hints := Hints.amps_CCSD) (by decide +kernel)

theorem C73_QCISD : AmpsAgree Gen.RQCISD.update_amps Gen.UQCISD.update_amps true :=
  ampsAgree_of_check (hints := Hints.amps_QCISD) (by decide +kernel)

theorem C73_DCD : AmpsAgree Gen.RDCD.update_amps Gen.UDCD.update_amps false :=
  ampsAgree_of_check (hints := Hints.amps_DCD) (by decide +kernel)

theorem C73_DCSD : AmpsAgree Gen.RDCSD.update_amps Gen.UDCSD.update_amps true :=
  ampsAgree_of_check (hints := Hints.amps_DCSD) (by decide +kernel)

/-- Elements of the residuals of `exData72` for two occupied orbitals and one virtual orbital. -/
example : ∃ r a, Gen.RCCSD.update_amps.call .backend onePath (spaceSizes 2 1 0 0) (exData72.rArgs 2 1) = .ok r ∧
    r.get? (chars! "t1new") = some a ∧ a.get [1, 0] = -197 :=
  exData72_value (hints := Hints.amps_CCSD) (by decide +kernel)

example : ∃ r a, Gen.RCCSD.update_amps.call .backend onePath (spaceSizes 2 1 0 0) (exData72.rArgs 2 1) = .ok r ∧
    r.get? (chars! "t2new") = some a ∧ a.get [0, 1, 0, 0] = -1355 / 2 :=
  exData72_value (hints := Hints.amps_CCSD) (by decide +kernel)

end Ebcc
