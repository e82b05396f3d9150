import Verif.Model.Ham
import Verif.Model.Rdm

/-!
Model of `const` and `e_tot` of `ebcc/cc/base.py`.
-/

namespace Ebcc

/-- base.py:1003-1013 `const`: `einsum("I,I->", omega, xi**2)` with a shift, zero without; `omega` and `xi` are vectors
of one length, others raise `ValueError`. -/
def constOf {R : Type} [CommSemiring R] (shift : Bool) (omega : Option (NDArray R)) (xi : NDArray R) :
    Except PyErr R :=
  if shift then
    match omega with
    | none => .error .assertionError
    | some w =>
      if w.shape = xi.shape ∧ w.shape.length = 1 then
        .ok ((List.range (w.shape.getD 0 0)).map fun n => w.get [n] * xi.get [n] ^ 2).sum
      else .error .valueError
  else .ok 0

/-- base.py:1078-1086 `e_tot`: the energy of the mean field plus the correlation energy. -/
def eTot {R : Type} [Add R] (eMf eCorr : R) : R := eMf + eCorr

end Ebcc
