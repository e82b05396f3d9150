import Verif.Thms.C76N
import Verif.Tensor.Eom
import Verif.Gen.Hints.Eom
import Verif.Gen.GMP2Eom
import Verif.Gen.GCCDEom
import Verif.Gen.GCC2Eom
import Verif.Gen.GCCSDEom
/-!
C78: the generated functions which apply the similarity-transformed Hamiltonian from the left are the adjoints of
those which apply it from the right.
-/

set_option maxRecDepth 1000000

namespace Ebcc

/-- For all integrals, amplitudes and excitation vectors: with the intermediates of `I` and `J`, the product of `y`
with the result of `M` for `x` is the product of the result of `N` for `y` with `x`. -/
def IsAdjoint78 (k : EomSort) (I M J N : GenFun) : Prop :=
  ∀ (R : Type) [Field R] [CharZero R] [DecidableEq R] (h : GHam R) (t : GAmps R) (x y : EomVec R k) (no nv nb : Nat)
    (method : ContractMethod) (path : List (List Char) → List Char → List (NDArray R) → List Contraction),
    PathOk path →
    ∃ i m j n : Dict (List Char) (NDArray R),
      I.call method path (spaceSizes no nv nb 0) (h.args0 t (spaceSizes no nv nb 0)) = .ok i ∧
      M.call method path (spaceSizes no nv nb 0) (h.eomArgs t (spaceSizes no nv nb 0) i
        (x.arr1 (spaceSizes no nv nb 0)) (x.arr2 (spaceSizes no nv nb 0))) = .ok m ∧
      J.call method path (spaceSizes no nv nb 0) (h.args0 t (spaceSizes no nv nb 0)) = .ok j ∧
      N.call method path (spaceSizes no nv nb 0) (h.eomArgs t (spaceSizes no nv nb 0) j
        (y.arr1 (spaceSizes no nv nb 0)) (y.arr2 (spaceSizes no nv nb 0))) = .ok n ∧
      HasResult m (spaceSizes no nv nb 0) (chars! "r1new", k.sp1) ∧
      HasResult m (spaceSizes no nv nb 0) (chars! "r2new", k.sp2) ∧
      HasResult n (spaceSizes no nv nb 0) (chars! "r1new", k.sp1) ∧
      HasResult n (spaceSizes no nv nb 0) (chars! "r2new", k.sp2) ∧
      y.dot (spaceSizes no nv nb 0) m = x.dot (spaceSizes no nv nb 0) n

theorem adjoint_of_check78 {k : EomSort} {I M J N : GenFun} {hints : List Nat}
    (hc : checkClaim (eSym k) hints (· % 4) (eVals k) (eomCalls I M J N) gDm [adjIdent k []] = true) :
    IsAdjoint78 k I M J N := by
  intro R _ _ _ h t x y no nv nb method path hpath
  have := adjoint_sound hc rfl h t x y no nv nb method path hpath
  simpa only [eDevVal, List.map_nil, List.sum_nil, neg_zero, add_zero] using this

open Gen in
theorem C78_CCD_ip : IsAdjoint78 .ip GCCDEom.hbar_matvec_ip_intermediates GCCDEom.hbar_matvec_ip
    GCCDEom.hbar_lmatvec_ip_intermediates GCCDEom.hbar_lmatvec_ip :=
  adjoint_of_check78 (hints := Hints.ip_CCD) (by decide +kernel)

open Gen in
theorem C78_CCD_ea : IsAdjoint78 .ea GCCDEom.hbar_matvec_ea_intermediates GCCDEom.hbar_matvec_ea
    GCCDEom.hbar_lmatvec_ea_intermediates GCCDEom.hbar_lmatvec_ea :=
  adjoint_of_check78 (hints := Hints.ea_CCD) (by decide +kernel)

open Gen in
theorem C78_CCD_ee : IsAdjoint78 .ee GCCDEom.hbar_matvec_ee_intermediates GCCDEom.hbar_matvec_ee
    GCCDEom.hbar_lmatvec_ee_intermediates GCCDEom.hbar_lmatvec_ee :=
  adjoint_of_check78 (hints := Hints.ee_CCD) (by decide +kernel)

open Gen in
theorem C78_CCSD_ip : IsAdjoint78 .ip GCCSDEom.hbar_matvec_ip_intermediates GCCSDEom.hbar_matvec_ip
    GCCSDEom.hbar_lmatvec_ip_intermediates GCCSDEom.hbar_lmatvec_ip :=
  adjoint_of_check78 (hints := Hints.ip_CCSD) (by decide +kernel)

open Gen in
theorem C78_CCSD_ea : IsAdjoint78 .ea GCCSDEom.hbar_matvec_ea_intermediates GCCSDEom.hbar_matvec_ea
    GCCSDEom.hbar_lmatvec_ea_intermediates GCCSDEom.hbar_lmatvec_ea :=
  adjoint_of_check78 (hints := Hints.ea_CCSD) (by decide +kernel)

open Gen in
theorem C78_CCSD_ee : IsAdjoint78 .ee GCCSDEom.hbar_matvec_ee_intermediates GCCSDEom.hbar_matvec_ee
    GCCSDEom.hbar_lmatvec_ee_intermediates GCCSDEom.hbar_lmatvec_ee :=
  adjoint_of_check78 (hints := Hints.ee_CCSD) (by decide +kernel)

/-! For MP2 there are no functions for the left; those for ionisation and attachment are symmetric. -/

open Gen in
theorem C78_MP2_ip : IsAdjoint78 .ip GMP2Eom.hbar_matvec_ip_intermediates GMP2Eom.hbar_matvec_ip
    GMP2Eom.hbar_matvec_ip_intermediates GMP2Eom.hbar_matvec_ip :=
  adjoint_of_check78 (hints := Hints.ip_MP2) (by decide +kernel)

open Gen in
theorem C78_MP2_ea : IsAdjoint78 .ea GMP2Eom.hbar_matvec_ea_intermediates GMP2Eom.hbar_matvec_ea
    GMP2Eom.hbar_matvec_ea_intermediates GMP2Eom.hbar_matvec_ea :=
  adjoint_of_check78 (hints := Hints.ea_MP2) (by decide +kernel)

end Ebcc
