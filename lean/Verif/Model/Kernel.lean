import Verif.Model.Py
import Mathlib.Algebra.Order.Group.Unbundled.Abs
import Mathlib.Algebra.Group.Defs

/-!
Model of the iteration in `ebcc/cc/base.py`: `BaseEBCC.kernel` (229-326) and `BaseEBCC.solve_lambda`
(328-401).

The equations themselves (`update_amps`, `energy`, …) enter as arbitrary functions that may raise: `A` is
the type of amplitudes, `Λ` of lambda amplitudes, `V` of vectors, `D` the state of the damping object.
Simplifications: exact real arithmetic (no NaN); logging and timing are left out; the integrals are fixed.
The number of updates made is recorded beside the result; it is not visible in the code.
-/

namespace Ebcc

/-- `for _ in range(n): state, converged = step(state); if converged: break`, counting the iterations. -/
def iterate {S : Type} (step : S → Except PyErr (S × Bool)) : Nat → S → Except PyErr (S × Bool × Nat)
  | 0, s => .ok (s, false, 0)
  | n + 1, s => do
    let (s', c) ← step s
    if c then pure (s', true, 1)
    else do
      let (s'', c', k) ← iterate step n s'
      pure (s'', c', k + 1)

/-- `x = self.x; if not x: x = y()`. -/
def ifEmpty {A : Type} (x : Option A) (y : Except PyErr A) : Except PyErr A :=
  match x with
  | some a => .ok a
  | none => y

/-- What `kernel` takes from the rest of the class. -/
structure KernelEnv (A V D R : Type) where
  /-- `init_amps` -/
  initAmps : Except PyErr A
  /-- `update_amps` -/
  updateAmps : A → Except PyErr A
  /-- `amplitudes_to_vector` -/
  toVector : A → Except PyErr V
  /-- `vector_to_amplitudes` -/
  ofVector : V → Except PyErr A
  /-- `energy` -/
  energy : A → Except PyErr R
  /-- `energy_perturbative` -/
  energyPert : A → Except PyErr R
  /-- `self.Damping(options=self.options)` -/
  damping : D
  /-- `damping(vector)` -/
  damp : D → V → Except PyErr (V × D)
  /-- `np.linalg.norm(np.abs(v), ord=np.inf)` -/
  normInf : V → Except PyErr R
  /-- `ansatz.is_one_shot` -/
  oneShot : Bool
  /-- `ansatz.has_perturbative_correction` -/
  perturbative : Bool
  eTol : R
  tTol : R
  maxIter : Nat

/-- The attributes of the object that `kernel` reads and writes; `amplitudes` is `none` when empty. -/
structure CCState (A R : Type) where
  amplitudes : Option A
  eCorr : Option R
  converged : Bool
deriving DecidableEq, Repr

/-- The local variables of the loop. -/
structure KernelVars (A D R : Type) where
  amps : A
  eCC : R
  damping : D

section
variable {A V D R : Type} [AddGroup R] [LinearOrder R] [Sub V]

/-- base.py:265-301, one pass of the loop; the flag is `converged`. -/
def kernelStep (env : KernelEnv A V D R) (s : KernelVars A D R) :
    Except PyErr (KernelVars A D R × Bool) := do
  let amplitudesPrev := s.amps
  let amplitudes ← env.updateAmps s.amps
  let vector ← env.toVector amplitudes
  let (vector, damping) ← env.damp s.damping vector
  let amplitudes ← env.ofVector vector
  let vectorPrev ← env.toVector amplitudesPrev
  let dt ← env.normInf (vector - vectorPrev)
  let eCC ← env.energy amplitudes
  let de := |s.eCC - eCC|
  let convergedE := decide (de < env.eTol)
  let convergedT := decide (dt < env.tTol)
  pure (⟨amplitudes, eCC, damping⟩, convergedE && convergedT)

/-- base.py:229-326 `kernel`.  Returns the energy, the new state of the object, and the number of updates
made. -/
def kernel (env : KernelEnv A V D R) (st : CCState A R) : Except PyErr (R × CCState A R × Nat) := do
  let amplitudes ← ifEmpty st.amplitudes env.initAmps
  let eCC ← env.energy amplitudes
  if !env.oneShot then do
    let (s, converged, n) ← iterate (kernelStep env) env.maxIter ⟨amplitudes, eCC, env.damping⟩
    let eCC ← if env.perturbative then do
        let ePert ← env.energyPert s.amps
        pure (s.eCC + ePert)
      else pure s.eCC
    pure (eCC, ⟨some s.amps, some eCC, converged⟩, n)
  else
    pure (eCC, ⟨some amplitudes, some eCC, true⟩, 0)

end

/-- What `solve_lambda` takes from the rest of the class. -/
structure LambdaEnv (A L V D R : Type) where
  initAmps : Except PyErr A
  /-- `init_lams(amplitudes)` -/
  initLams : A → Except PyErr L
  /-- `update_lams(amplitudes, lambdas, lambdas_pert)` -/
  updateLams : A → L → Option L → Except PyErr L
  /-- `update_lams(amplitudes, perturbative=True)` -/
  updateLamsPert : A → Except PyErr L
  toVector : L → Except PyErr V
  ofVector : V → Except PyErr L
  damping : D
  damp : D → V → Except PyErr (V × D)
  normInf : V → Except PyErr R
  perturbative : Bool
  tTol : R
  maxIter : Nat

/-- The attributes `solve_lambda` reads and writes. -/
structure LamState (A L : Type) where
  amplitudes : Option A
  lambdas : Option L
  convergedLambda : Bool
deriving DecidableEq, Repr

section
variable {A L V D R : Type} [LinearOrder R] [Sub V]

/-- base.py:367-389, one pass of the loop. -/
def lambdaStep (env : LambdaEnv A L V D R) (amps : A) (pert : Option L) (s : L × D) :
    Except PyErr ((L × D) × Bool) := do
  let lambdasPrev := s.1
  let lambdas ← env.updateLams amps s.1 pert
  let vector ← env.toVector lambdas
  let (vector, damping) ← env.damp s.2 vector
  let lambdas ← env.ofVector vector
  let vectorPrev ← env.toVector lambdasPrev
  let dl ← env.normInf (vector - vectorPrev)
  pure ((lambdas, damping), decide (dl < env.tTol))

/-- base.py:328-401 `solve_lambda`.  The first argument, the amplitudes passed by the caller, is
overwritten at once (line 345). -/
def solveLambda (env : LambdaEnv A L V D R) (_amplitudes : Option A) (st : LamState A L) :
    Except PyErr (LamState A L × Nat) := do
  let amplitudes ← ifEmpty st.amplitudes env.initAmps
  let pert ← if env.perturbative then do
      let p ← env.updateLamsPert amplitudes
      pure (some p)
    else pure none
  let lambdas ← ifEmpty st.lambdas (env.initLams amplitudes)
  let (s, converged, n) ← iterate (lambdaStep env amplitudes pert) env.maxIter (lambdas, env.damping)
  pure (⟨st.amplitudes, some s.1, converged⟩, n)

end

end Ebcc
