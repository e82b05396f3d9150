import Verif.Model.Py
import Mathlib.Algebra.Order.Group.Abs
/-!
Model of `ebcc/opt/base.py` lines 65-218: the control flow of `BaseBruecknerEBCC.kernel`.  The state of the coupled
cluster calculation, the mean field and the rotation is a type `σ`; what happens in one iteration before the
convergence test (lines 157-185: rotation, new orbitals, new coupled cluster calculation) is a function on it.
-/

namespace Ebcc

section
variable {R σ : Type}

/-- The thresholds and the numbers compared with them. -/
structure BruecknerEnv (R σ : Type) where
  /-- opt/base.py:157-185: one iteration -/
  iterate : σ → σ
  /-- `self.cc.e_tot` -/
  eTot : σ → R
  /-- opt/base.py:168 `e_prev`: `self.cc.e_tot` in the iteration that begins in a state, read after the mean field has
  been changed (lines 163-164); it need not be `eTot` of the state, see `Model/MeanField.lean` -/
  ePrev : σ → R
  /-- `self.cc.e_corr` -/
  eCorr : σ → R
  /-- `self.get_t1_norm()` -/
  t1Norm : σ → R
  eTol : R
  tTol : R

/-- The attributes of the Brueckner object: `converged` and the state of everything it refers to. -/
structure BruecknerObj (σ : Type) where
  converged : Bool
  state : σ

/-- opt/base.py:92: the object after `__init__`. -/
def bruecknerInit (s : σ) : BruecknerObj σ := ⟨false, s⟩

/-- opt/base.py:154-211: the loop with `fuel` iterations left; returns the local variable `converged` after the loop
(which decides between the messages "Converged" and "Failed to converge"), the number of iterations and the state. -/
def bruecknerLoop [AddCommGroup R] [LinearOrder R] (env : BruecknerEnv R σ) : Nat → σ → Bool × Nat × σ
  | 0, s => (false, 0, s)
  | fuel + 1, s =>
    let s' := env.iterate s
    let de := |env.ePrev s - env.eTot s'|
    let dt := env.t1Norm s'
    let convergedE := decide (de < env.eTol)
    let convergedT := decide (dt < env.tTol)
    if convergedE && convergedT then (true, 1, s')
    else
      let r := bruecknerLoop env fuel s'
      (r.1, r.2.1 + 1, r.2.2)

/-- What a call of `kernel` shows: the returned energy, the message logged and the number of iterations. -/
structure BruecknerResult (R : Type) where
  energy : R
  messageConverged : Bool
  iterations : Nat

/-- opt/base.py:118-218 `kernel`.  `prepare` is `self.cc.kernel()` if the coupled cluster calculation is not
converged, otherwise the identity (lines 127-129).  The attribute `converged` is not assigned. -/
def bruecknerKernel [AddCommGroup R] [LinearOrder R] (env : BruecknerEnv R σ) (prepare : σ → σ) (maxIter : Nat)
    (o : BruecknerObj σ) : BruecknerObj σ × BruecknerResult R :=
  let r := bruecknerLoop env maxIter (prepare o.state)
  ({ o with state := r.2.2 }, ⟨env.eCorr r.2.2, r.1, r.2.1⟩)

end

end Ebcc
