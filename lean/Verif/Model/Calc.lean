import Verif.Model.MeanField
/-!
Model of a calculation as an object: what `BaseEBCC.__init__` keeps of its arguments, and what `UEBCC.from_rebcc` and
`GEBCC.from_uebcc` pass on.  (Amplitudes and spaces are the subject of C42.)
-/

namespace Ebcc

variable {R O F : Type}

/-- `self.mf`, `self._mo_coeff`, `self.fock`, `self.e_corr`, the flags, and the address of `self.options`. -/
structure CalcObj (R O F : Type) where
  mf : Nat
  moCoeff : Option O
  fock : F
  eCorr : R
  converged : Bool
  convergedLambda : Bool
  options : Nat

/-- cc/base.py:1015-1024 `mo_coeff`. -/
def CalcObj.orbitals (c : CalcObj R O F) (h : MfHeap R O) : O := c.moCoeff.getD (h.get c.mf).orbitals

/-- cc/base.py:1078-1086 `e_tot`. -/
def CalcObj.eTot [Add R] (c : CalcObj R O F) (h : MfHeap R O) : R := (h.get c.mf).eTot + c.eCorr

/-- cc/base.py:91-194 `__init__`, with the arguments `mf`, `mo_coeff`, `fock` and `options`; `getFock` is the matrix of a
mean-field object in orbitals (lines 926-939). -/
def calcInit [Zero R] (env : MfEnv R O) (getFock : MfObj R O → O → F) (spin : MfKind) (h : MfHeap R O) (mf : Nat)
    (moCoeff : Option O) (fock : Option F) (options : Nat) : MfHeap R O × CalcObj R O F :=
  let r := env.convertMf spin h mf
  let m := r.1.get r.2
  (r.1, ⟨r.2, moCoeff, fock.getD (getFock m (moCoeff.getD m.orbitals)), 0, false, false, options⟩)

/-- uebcc.py:117-130 (`spin` unrestricted) and gebcc.py:153-166 (`spin` general): the calculation is made without
`mo_coeff`, `mo_occ` and `fock`, the energy and the flags are copied. -/
def calcFrom [Zero R] (env : MfEnv R O) (getFock : MfObj R O → O → F) (spin : MfKind) (h : MfHeap R O)
    (c : CalcObj R O F) : MfHeap R O × CalcObj R O F :=
  let r := calcInit env getFock spin h c.mf none none c.options
  (r.1, { r.2 with eCorr := c.eCorr, converged := c.converged, convergedLambda := c.convergedLambda })

end Ebcc
