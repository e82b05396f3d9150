import Mathlib.Analysis.Real.Sqrt
/-!
Model of `get_t1_norm` of the Brueckner classes, over the real numbers; an array is the list of its elements.
-/

namespace Ebcc

/-- rbrueckner.py:117-129, gbrueckner.py:117-129: `np.linalg.norm` of the single amplitudes. -/
noncomputable def t1Norm (t1 : List ℝ) : ℝ := Real.sqrt (t1.map (· ^ 2)).sum

/-- ubrueckner.py:134-148. -/
noncomputable def t1NormU (aa bb : List ℝ) : ℝ := Real.sqrt (t1Norm aa ^ 2 + t1Norm bb ^ 2)

end Ebcc
