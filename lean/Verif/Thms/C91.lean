import Verif.Tensor.Reduce
import Verif.Gen.Hints.Reduce
import Verif.Gen.GMP2
import Verif.Gen.GMP3
import Verif.Gen.GLCCD
import Verif.Gen.GLCCSD
import Verif.Gen.GQCISD
import Verif.Gen.GCCD
import Verif.Gen.GCC2
import Verif.Gen.GCCSD
import Verif.Gen.GCCSDT
import Verif.Gen.GCCSD_S_1_1
import Verif.Gen.GCCSD_SD_1_1
import Verif.Gen.GCCSD_SD_1_2
import Verif.Tensor.Value
/-!
C91: the functions of a method whose additional amplitudes are zero are those of the method without them.
-/

set_option maxRecDepth 1000000

namespace Ebcc

theorem reduces_of_check91 {F G : GenFun} {off : List GSort} {uncoupled : Bool} {rs : List SameRes} {hints : List Nat}
    (hc : (rs.all SameRes.ok && checkClaim gSym hints (· % 4) (zVals off uncoupled false)
      [⟨F, 'P', argBut densTags⟩, ⟨G, 'Q', argBut densTags⟩] gDm (rs.map (SameRes.ident 'P' 'Q'))) = true) :
    Reduces91 F G off uncoupled rs := by
  intro R _ _ _ h t l no nv nb method path hpath ht hl hg
  obtain ⟨hok, hc⟩ := Bool.and_eq_true_iff.1 hc
  have := checkClaim_sound (ι := Unit) (spaceSizes no nv nb 0) (fun _ => gTensor h t l t) gSym
    (fun _ => gSym_symOk h t l t) method path hpath (spaceSizes no nv nb 0) _ (spaceSizes_mod no nv nb 0)
    (zVals off uncoupled false) (fun _ => h.argsD t l t (spaceSizes no nv nb 0))
    (fun _ => zVals_rep off uncoupled false h t l t (spaceSizes no nv nb 0) ht hl hg (by simp)) _ gDm _ hints hc
  simp only [CallsOk] at this
  obtain ⟨a, h1, b, h2, key⟩ := this
  have key := key ()
  simp only [argBut_addResA (tags := densTags) 'P' rfl, argBut_args] at h1 h2
  refine ⟨a (), b (), h1 (), h2 (), fun s hs => ?_⟩
  obtain ⟨k1, k2⟩ := key _ (List.mem_map.2 ⟨s, hs, rfl⟩) rfl
  exact s.holds_of_ident (List.all_eq_true.1 hok s hs) _ _ _ _ _ _ (fun _ => rfl) (fun _ => rfl) k1 k2

/-- The energies. -/
def energy91 : List SameRes := [SameRes.plain (chars! "e_cc", [])]

/-- The residuals of the sorts. -/
def amps91 (sorts : List GSort) : List SameRes := sorts.map fun s => .plain s.res

/-- The results for the lambda amplitudes of the sorts. -/
def lams91 (sorts : List GSort) : List SameRes := sorts.map fun s => .plain s.lamRes

/-- The blocks of one-particle density matrices; transposed if `tr`. -/
def rdm91 (n n' : List Char) (tr : Bool) : List SameRes := ov2.map fun x =>
  bif tr then ⟨n ++ ['.', spaceLetter x.1, spaceLetter x.2], n' ++ ['.', spaceLetter x.2, spaceLetter x.1], [x.1, x.2], [1, 0]⟩
  else ⟨n ++ ['.', spaceLetter x.1, spaceLetter x.2], n' ++ ['.', spaceLetter x.1, spaceLetter x.2], [x.1, x.2], [0, 1]⟩

/-- The blocks of two-particle density matrices; with both pairs transposed if `tr`. -/
def rdm2_91 (n n' : List Char) (tr : Bool) : List SameRes := ov4.map fun x =>
  bif tr then ⟨n ++ ['.', spaceLetter x.1.1, spaceLetter x.1.2, spaceLetter x.2.1, spaceLetter x.2.2],
    n' ++ ['.', spaceLetter x.1.2, spaceLetter x.1.1, spaceLetter x.2.2, spaceLetter x.2.1],
    [x.1.1, x.1.2, x.2.1, x.2.2], [1, 0, 3, 2]⟩
  else ⟨n ++ ['.', spaceLetter x.1.1, spaceLetter x.1.2, spaceLetter x.2.1, spaceLetter x.2.2],
    n' ++ ['.', spaceLetter x.1.1, spaceLetter x.1.2, spaceLetter x.2.1, spaceLetter x.2.2],
    [x.1.1, x.1.2, x.2.1, x.2.2], [0, 1, 2, 3]⟩

/-- The blocks of the coupling density matrices. -/
def coup91 : List SameRes := ['0', '1'].flatMap fun j => ov2.map fun x =>
  .plain (chars! "rdm_eb." ++ [j, '.', spaceLetter x.1, spaceLetter x.2], [2, x.1, x.2])

open Gen

/-! ### Energies -/

theorem C91_energy_CCSD : Reduces91 GCCSD.energy GCCD.energy [.t1] false energy91 :=
  reduces_of_check91 (hints := Hints.energy_CCSD_CCD) (by decide +kernel)

theorem C91_energy_QCISD : Reduces91 GQCISD.energy GCCD.energy [.t1] false energy91 :=
  reduces_of_check91 (hints := Hints.energy_QCISD_CCD) (by decide +kernel)

theorem C91_energy_LCCSD : Reduces91 GLCCSD.energy GLCCD.energy [.t1] false energy91 :=
  reduces_of_check91 (hints := Hints.energy_LCCSD_LCCD) (by decide +kernel)

theorem C91_energy_CC2 : Reduces91 GCC2.energy GMP2.energy [.t1] false [⟨chars! "e_cc", chars! "e_mp", [], []⟩] :=
  reduces_of_check91 (hints := Hints.energy_CC2_MP2) (by decide +kernel)

theorem C91_energy_CCD : Reduces91 GCCD.energy GMP2.energy [] false [⟨chars! "e_cc", chars! "e_mp", [], []⟩] :=
  reduces_of_check91 (hints := Hints.energy_CCD_MP2) (by decide +kernel)

theorem C91_energy_CCSDT : Reduces91 GCCSDT.energy GCCSD.energy [.t3] false energy91 :=
  reduces_of_check91 (hints := Hints.energy_CCSDT_CCSD) (by decide +kernel)

theorem C91_energy_S_1_1 : Reduces91 GCCSD_S_1_1.energy GCCSD.energy [.s1, .u11] true energy91 :=
  reduces_of_check91 (hints := Hints.energy_CCSD_S_1_1_CCSD) (by decide +kernel)

theorem C91_energy_SD_1_1 : Reduces91 GCCSD_SD_1_1.energy GCCSD_S_1_1.energy [.s2] false energy91 :=
  reduces_of_check91 (hints := Hints.energy_CCSD_SD_1_1_CCSD_S_1_1) (by decide +kernel)

theorem C91_energy_SD_1_2 : Reduces91 GCCSD_SD_1_2.energy GCCSD_SD_1_1.energy [.u12] false energy91 :=
  reduces_of_check91 (hints := Hints.energy_CCSD_SD_1_2_CCSD_SD_1_1) (by decide +kernel)

/-! ### Amplitude equations -/

theorem C91_amps_CCSD : Reduces91 GCCSD.update_amps GCCD.update_amps [.t1] false (amps91 [.t2]) :=
  reduces_of_check91 (hints := Hints.amps_CCSD_CCD) (by decide +kernel)

theorem C91_amps_QCISD : Reduces91 GQCISD.update_amps GCCD.update_amps [.t1] false (amps91 [.t2]) :=
  reduces_of_check91 (hints := Hints.amps_QCISD_CCD) (by decide +kernel)

theorem C91_amps_LCCSD : Reduces91 GLCCSD.update_amps GLCCD.update_amps [.t1] false (amps91 [.t2]) :=
  reduces_of_check91 (hints := Hints.amps_LCCSD_LCCD) (by decide +kernel)

theorem C91_amps_S_1_1 : Reduces91 GCCSD_S_1_1.update_amps GCCSD.update_amps [.s1, .u11] true (amps91 [.t1, .t2]) :=
  reduces_of_check91 (hints := Hints.amps_CCSD_S_1_1_CCSD) (by decide +kernel)

/-! ### Lambda equations -/

theorem C91_lams_CCSD : Reduces91 GCCSD.update_lams GCCD.update_lams [.t1] false (lams91 [.t2]) :=
  reduces_of_check91 (hints := Hints.lams_CCSD_CCD) (by decide +kernel)

/-! ### Density matrices -/

theorem C91_rdm1_CCSD : Reduces91 GCCSD.make_rdm1_f GCCD.make_rdm1_f [.t1] false
    (rdm91 (chars! "rdm1") (chars! "rdm1") false) :=
  reduces_of_check91 (hints := Hints.rdm1_CCSD_CCD) (by decide +kernel)

theorem C91_rdm1_CCSDT : Reduces91 GCCSDT.make_rdm1_f GCCSD.make_rdm1_f [.t3] false
    (rdm91 (chars! "rdm1_f") (chars! "rdm1") false) :=
  reduces_of_check91 (hints := Hints.rdm1_CCSDT_CCSD) (by decide +kernel)

/-- The functions with bosons return the transposed matrices. -/
theorem C91_rdm1_S_1_1 : Reduces91 GCCSD_S_1_1.make_rdm1_f GCCSD.make_rdm1_f [.s1, .u11] true
    (rdm91 (chars! "rdm1_f") (chars! "rdm1") true) :=
  reduces_of_check91 (hints := Hints.rdm1_CCSD_S_1_1_CCSD) (by decide +kernel)

theorem C91_rdm1_SD_1_1 : Reduces91 GCCSD_SD_1_1.make_rdm1_f GCCSD_S_1_1.make_rdm1_f [.s2] false
    (rdm91 (chars! "rdm1_f") (chars! "rdm1_f") false) :=
  reduces_of_check91 (hints := Hints.rdm1_CCSD_SD_1_1_CCSD_S_1_1) (by decide +kernel)

theorem C91_rdm1_SD_1_2 : Reduces91 GCCSD_SD_1_2.make_rdm1_f GCCSD_SD_1_1.make_rdm1_f [.u12] false
    (rdm91 (chars! "rdm1_f") (chars! "rdm1_f") false) :=
  reduces_of_check91 (hints := Hints.rdm1_CCSD_SD_1_2_CCSD_SD_1_1) (by decide +kernel)

theorem C91_sing_b_SD_1_1 : Reduces91 GCCSD_SD_1_1.make_sing_b_dm GCCSD_S_1_1.make_sing_b_dm [.s2] false
    [.plain (chars! "dm_b.0", [2]), .plain (chars! "dm_b.1", [2])] :=
  reduces_of_check91 (hints := Hints.singb_CCSD_SD_1_1_CCSD_S_1_1) (by decide +kernel)

theorem C91_sing_b_SD_1_2 : Reduces91 GCCSD_SD_1_2.make_sing_b_dm GCCSD_SD_1_1.make_sing_b_dm [.u12] false
    [.plain (chars! "dm_b.0", [2]), .plain (chars! "dm_b.1", [2])] :=
  reduces_of_check91 (hints := Hints.singb_CCSD_SD_1_2_CCSD_SD_1_1) (by decide +kernel)

theorem C91_rdm1_b_SD_1_1 : Reduces91 GCCSD_SD_1_1.make_rdm1_b GCCSD_S_1_1.make_rdm1_b [.s2] false
    [.plain (chars! "rdm1_b", [2, 2])] :=
  reduces_of_check91 (hints := Hints.rdm1b_CCSD_SD_1_1_CCSD_S_1_1) (by decide +kernel)

theorem C91_rdm1_b_SD_1_2 : Reduces91 GCCSD_SD_1_2.make_rdm1_b GCCSD_SD_1_1.make_rdm1_b [.u12] false
    [.plain (chars! "rdm1_b", [2, 2])] :=
  reduces_of_check91 (hints := Hints.rdm1b_CCSD_SD_1_2_CCSD_SD_1_1) (by decide +kernel)

theorem C91_coupling_SD_1_1 : Reduces91 GCCSD_SD_1_1.make_eb_coup_rdm GCCSD_S_1_1.make_eb_coup_rdm [.s2] false coup91 :=
  reduces_of_check91 (hints := Hints.coup_CCSD_SD_1_1_CCSD_S_1_1) (by decide +kernel)

theorem C91_coupling_SD_1_2 : Reduces91 GCCSD_SD_1_2.make_eb_coup_rdm GCCSD_SD_1_1.make_eb_coup_rdm [.u12] false coup91 :=
  reduces_of_check91 (hints := Hints.coup_CCSD_SD_1_2_CCSD_SD_1_1) (by decide +kernel)

end Ebcc
