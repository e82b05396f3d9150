import Verif.Model.Brueckner
import Verif.Model.Damping
import Mathlib.Analysis.Normed.Algebra.MatrixExponential
import Mathlib.Analysis.Complex.Basic
/-!
Model of `get_rotation_matrix` (opt/rbrueckner.py:34-73, opt/gbrueckner.py:34-73, opt/ubrueckner.py:34-92) and of the
part of `BaseBruecknerEBCC.kernel` that updates the orbital coefficients.

Matrices are over the real numbers.  `scipy.linalg.expm` is the exponential of Mathlib; `scipy.linalg.logm` is a
parameter, a function of complex matrices.
-/

namespace Ebcc

open Matrix

/-- Square matrices over the correlated orbitals, `o` occupied and `v` virtual. -/
abbrev RotMat (o v : Nat) := Matrix (Fin (o + v)) (Fin (o + v)) ℝ

/-- rbrueckner.py:58-60 `np.block([[zocc, -t1], [np.transpose(t1), zvir]])`. -/
def t1Block {o v : Nat} (t1 : Matrix (Fin o) (Fin v) ℝ) : RotMat o v :=
  Matrix.reindex finSumFinEquiv finSumFinEquiv (Matrix.fromBlocks 0 (-t1) t1ᵀ 0)

/-- rbrueckner.py:65-66: the first column with the opposite sign, if the determinant is negative. -/
noncomputable def fixSign {n : Nat} (m : Matrix (Fin n) (Fin n) ℝ) : Matrix (Fin n) (Fin n) ℝ :=
  if m.det < 0 then Matrix.of fun i j => if j.val = 0 then -m i j else m i j else m

/-- rbrueckner.py:68 `np.real(scipy.linalg.logm(u_tot))`. -/
noncomputable def realLog {n : Nat} (logm : Matrix (Fin n) (Fin n) ℂ → Matrix (Fin n) (Fin n) ℂ)
    (m : Matrix (Fin n) (Fin n) ℝ) : Matrix (Fin n) (Fin n) ℝ :=
  (logm (m.map Complex.ofReal)).map Complex.re

/-- A damping object: its call with an array and an error. -/
abbrev Damper (δ A E : Type) := δ → A → E → Except PyErr (A × δ)

/-- damping.py:84-128 `NoDamping`. -/
def noDamping {A E : Type} : Damper Unit A E := fun _ a _ => .ok (a, ())

/-- `DIIS` with arrays and errors of different shapes: `DIIS.call` stores both in separate dictionaries, here as pairs
of which the other component is zero; inner products are those of the errors. -/
noncomputable def diisDamper {A E : Type} [AddCommGroup A] [Module ℝ A] [AddCommGroup E] [Module ℝ E] (dot : E → E → ℝ)
    (solve : List (List ℝ) → List ℝ → List ℝ) (cfg : DIISConfig ℝ) : Damper (DIIS (A × E) ℝ) A E :=
  fun st a e => do
    let (x, st) ← st.call (fun x y => dot x.2 y.2) solve cfg (a, 0) (some (0, e))
    pure (x.1, st)

section
variable {δ : Type} {o v : Nat}

/-- rbrueckner.py:34-73 `get_rotation_matrix`, gbrueckner.py:34-73: the rotation of the step, the total rotation and the
new state of the damping object. -/
noncomputable def getRotationMatrix (logm : Matrix (Fin (o + v)) (Fin (o + v)) ℂ → Matrix (Fin (o + v)) (Fin (o + v)) ℂ)
    (damp : Damper δ (RotMat o v) (Matrix (Fin o) (Fin v) ℝ)) (uTot : Option (RotMat o v)) (st : δ)
    (t1 : Matrix (Fin o) (Fin v) ℝ) : Except PyErr (RotMat o v × RotMat o v × δ) := do
  let u := NormedSpace.exp (t1Block t1)
  let uTot := fixSign (uTot.getD 1 * u)
  let (a, st) ← damp st (realLog logm uTot) t1
  pure (u, NormedSpace.exp a, st)

/-- The elements of a matrix as an array. -/
def matArr {n m : Nat} (x : Matrix (Fin n) (Fin m) ℝ) : NDArray ℝ :=
  NDArray.ofFn [n, m] fun idx =>
    if h : idx.getD 0 0 < n ∧ idx.getD 1 0 < m then x ⟨idx.getD 0 0, h.1⟩ ⟨idx.getD 1 0, h.2⟩ else 0

/-- opt/base.py:147-155: the orbital coefficients of each iteration; `t1s` has the amplitudes that the coupled cluster
calculations return. -/
noncomputable def bruecknerOrbitals (method : ContractMethod) (path : PathFn ℝ) (space : Space)
    (logm : Matrix (Fin (o + v)) (Fin (o + v)) ℂ → Matrix (Fin (o + v)) (Fin (o + v)) ℂ)
    (damp : Damper δ (RotMat o v) (Matrix (Fin o) (Fin v) ℝ)) (ref : NDArray ℝ) :
    NDArray ℝ → Option (RotMat o v) → δ → List (Matrix (Fin o) (Fin v) ℝ) → Except PyErr (List (NDArray ℝ))
  | _, _, _, [] => .ok []
  | mo, uTot, st, t1 :: t1s => do
    let (_, uTot, st) ← getRotationMatrix logm damp uTot st t1
    let mo ← updateCoefficients method path space (matArr uTot) mo ref
    let rest ← bruecknerOrbitals method path space logm damp ref mo (some uTot) st t1s
    pure (mo :: rest)

/-- ubrueckner.py:34-92 `get_rotation_matrix`: the arrays of the two spins are damped as one vector.  Line 76 uses the
number of rows of the other spin for the column with the opposite sign; this column is not reached (`C83_sign`), and
the model has the right number. -/
noncomputable def uGetRotationMatrix {oa va ob vb : Nat}
    (logm : (n : Nat) → Matrix (Fin n) (Fin n) ℂ → Matrix (Fin n) (Fin n) ℂ)
    (damp : Damper δ (RotMat oa va × RotMat ob vb) (Matrix (Fin oa) (Fin va) ℝ × Matrix (Fin ob) (Fin vb) ℝ))
    (uTot : Option (RotMat oa va × RotMat ob vb)) (st : δ)
    (t1 : Matrix (Fin oa) (Fin va) ℝ × Matrix (Fin ob) (Fin vb) ℝ) :
    Except PyErr ((RotMat oa va × RotMat ob vb) × (RotMat oa va × RotMat ob vb) × δ) := do
  let ua := NormedSpace.exp (t1Block t1.1)
  let ub := NormedSpace.exp (t1Block t1.2)
  let xa := fixSign ((uTot.getD 1).1 * ua)
  let xb := fixSign ((uTot.getD 1).2 * ub)
  let (a, st) ← damp st (realLog (logm _) xa, realLog (logm _) xb) t1
  pure ((ua, ub), (NormedSpace.exp a.1, NormedSpace.exp a.2), st)

/-- opt/base.py:147-155, unrestricted. -/
noncomputable def uBruecknerOrbitals {oa va ob vb : Nat} (method : ContractMethod) (path : PathFn ℝ) (sa sb : Space)
    (logm : (n : Nat) → Matrix (Fin n) (Fin n) ℂ → Matrix (Fin n) (Fin n) ℂ)
    (damp : Damper δ (RotMat oa va × RotMat ob vb) (Matrix (Fin oa) (Fin va) ℝ × Matrix (Fin ob) (Fin vb) ℝ))
    (ref : NDArray ℝ × NDArray ℝ) :
    NDArray ℝ × NDArray ℝ → Option (RotMat oa va × RotMat ob vb) → δ →
      List (Matrix (Fin oa) (Fin va) ℝ × Matrix (Fin ob) (Fin vb) ℝ) → Except PyErr (List (NDArray ℝ × NDArray ℝ))
  | _, _, _, [] => .ok []
  | mo, uTot, st, t1 :: t1s => do
    let (_, uTot, st) ← uGetRotationMatrix logm damp uTot st t1
    let mo ← uUpdateCoefficients method path sa sb (matArr uTot.1) (matArr uTot.2) mo ref
    let rest ← uBruecknerOrbitals method path sa sb logm damp ref mo (some uTot) st t1s
    pure (mo :: rest)

end

end Ebcc
