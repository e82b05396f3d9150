import Verif.Lemmas.AntisymArray
import Verif.Spec.Symmetry
import Mathlib.Data.Nat.Factorial.Basic

/-!
C10: `antisymmetrise_array` gives an antisymmetric array and multiplies antisymmetric input by `k!`.
-/

namespace Ebcc

/-- Exchange of any two of the listed axes changes the sign. -/
def AntisymmetricIn {R : Type} [Ring R] (axes : List Nat) (a : NDArray R) : Prop :=
  ∀ i ∈ axes, ∀ j ∈ axes, i ≠ j → ∀ idx, ValidIdx a.shape idx →
    a.get (swapIdx i j idx) = -a.get idx

/-- C10: for distinct axes of equal sizes the call succeeds, keeps the shape, and the result is
antisymmetric in the listed axes. -/
theorem C10_antisymmetric {R : Type} [Ring R] (v : NDArray R) (axes : List Nat) (hnd : axes.Nodup)
    (hlt : ∀ x ∈ axes, x < v.shape.length)
    (hs : ∀ x ∈ axes, ∀ y ∈ axes, v.shape[x]? = v.shape[y]?) :
    ∃ out, antisymmetriseArray v (some axes) = .ok out ∧ out.shape = v.shape ∧
      AntisymmetricIn axes out := by
  have hs' : ∀ x ∈ axes, ∀ y ∈ axes, v.shape.getD x 0 = v.shape.getD y 0 := by
    intro x hx y hy
    rw [List.getD_eq_getElem?_getD, hs x hx y hy, ← List.getD_eq_getElem?_getD]
  refine ⟨_, antisymmetriseArray_ok v axes hnd hlt hs', rfl, ?_⟩
  intro i hi j hj hij idx hidx
  have hidx' : InBox v.shape idx := hidx
  rw [NDArray.get_ofFn _ _ (inBox_swap (hlt i hi) (hlt j hj) (hs' i hi j hj) hidx'),
    NDArray.get_ofFn _ _ hidx',
    permSum_swap (n := v.shape.length) _ v (-1) (by rfl) (nodup_asTerms hnd hlt)
      (fun ps h => perm_asTerms hnd hlt h) (hlt i hi) (hlt j hj)
      (fun ps h => asTerms_swap hnd hlt hi hj hij h) hidx'.length_eq]
  simp

/-- C10: input that is already antisymmetric in the `k` listed axes is multiplied by `k!`. -/
theorem C10_scaling {R : Type} [Ring R] (v : NDArray R) (axes : List Nat) (hnd : axes.Nodup)
    (hlt : ∀ x ∈ axes, x < v.shape.length)
    (hs : ∀ x ∈ axes, ∀ y ∈ axes, v.shape[x]? = v.shape[y]?) (hv : AntisymmetricIn axes v) :
    ∃ out, antisymmetriseArray v (some axes) = .ok out ∧
      ∀ idx, ValidIdx v.shape idx → out.get idx = (Nat.factorial axes.length : R) * v.get idx := by
  have hs' : ∀ x ∈ axes, ∀ y ∈ axes, v.shape.getD x 0 = v.shape.getD y 0 := by
    intro x hx y hy
    rw [List.getD_eq_getElem?_getD, hs x hx y hy, ← List.getD_eq_getElem?_getD]
  refine ⟨_, antisymmetriseArray_ok v axes hnd hlt hs', ?_⟩
  intro idx hidx
  have hidx' : InBox v.shape idx := hidx
  rw [NDArray.get_ofFn _ _ hidx']
  have hterms := permSum_term (asTerms v.shape.length axes) v (n := v.shape.length) (-1) (by rfl)
    (fun i j => i < j ∧ i ∈ axes ∧ j ∈ axes) rfl
    (fun i j h => ⟨h.1, hlt j h.2.2, hs' i h.2.1 j h.2.2⟩)
    (fun ps h => perm_asTerms hnd hlt h)
    (fun i j h ps hps => asTerms_swap hnd hlt h.2.1 h.2.2 (Nat.ne_of_lt h.1) hps)
    (fun ps h => asTerms_red hnd hlt h)
    (fun i j h idx hidx => by
      rw [hv i h.2.1 j h.2.2 (Nat.ne_of_lt h.1) idx hidx]; simp)
  rw [permSum_scale _ v fun ps hps => ⟨(hterms ps hps).1, (hterms ps hps).2 idx hidx'⟩]
  simp [asTerms, C01_count]

/-- C10: without axes all axes are antisymmetrised. -/
theorem C10_default {R : Type} [Ring R] (v : NDArray R) :
    antisymmetriseArray v none = antisymmetriseArray v (some (List.range v.shape.length)) := rfl

/-- Non-vacuity: two of three axes, not in increasing order. -/
example : ∃ out, antisymmetriseArray (NDArray.ofFn [2, 3, 2] fun i => ((ravelIdx [2, 3, 2] i : Nat) : Int))
    (some [2, 0]) = .ok out ∧ out.get [1, 1, 0] = 5 ∧ out.get [0, 1, 1] = -5 := by
  refine ⟨_, antisymmetriseArray_ok _ _ (by decide) (by decide) (by decide), ?_⟩
  decide

end Ebcc
