import Verif.Tensor.Check
import Verif.Tensor.Setup
import Verif.Lemmas.Rotate
/-!
Elements of the results of generated functions for given data; used for the examples.
-/

namespace Ebcc

section
variable {R : Type} [Field R]

theorem onePath_ok : PathOk (onePath (R := R)) := by
  intro subs outs arrs hl
  refine .last subs _ ?_ (popAll_zeros subs) rfl
  intro h
  simp only at h
  subst h
  simp at hl

/-- An element of a result, from the polynomials. -/
noncomputable def symElem (sy : TSym) (hints : List Nat) (f : GenFun) (vals : List Char → Option TArg)
    (sz : Nat → Nat) (T : Nat → List (Nat × Nat) → R) (name : List Char) (idx : List Nat) : Option R :=
  match f.sym (canonByHints sy) (· % 4) (baseVals (canonByHints sy) vals) hints with
  | none => none
  | some (d, _) => match d.get? name with
    | none => none
    | some v => if idx ∈ box (v.1.map sz) then some (polyVal sz T v.2 (frEnv idx)) else none

theorem symElem_sound [CharZero R] [DecidableEq R] {sy : TSym} {hints : List Nat} {f : GenFun}
    {vals : List Char → Option TArg} {sz : Nat → Nat} {T : Nat → List (Nat × Nat) → R} {name : List Char}
    {idx : List Nat} {x : R} (h : symElem sy hints f vals sz T name idx = some x) (hsy : SymOk T sy)
    (hsz : ∀ s, sz s = sz (s % 4)) (avals : List Char → Option (NDArray R))
    (hv : ∀ name v, vals name = some v → ∃ a, avals name = some a ∧ ArgRep sz T v a)
    (method : ContractMethod) (path : List (List Char) → List Char → List (NDArray R) → List Contraction)
    (hpath : PathOk path) :
    ∃ r a, f.call method path sz avals = .ok r ∧ r.get? name = some a ∧ a.get idx = x := by
  have hcn := canonByHints_sound sz T sy hsy
  unfold symElem at h
  cases h1 : f.sym (canonByHints sy) (· % 4) (baseVals (canonByHints sy) vals) hints with
  | none => rw [h1] at h; cases h
  | some y =>
    obtain ⟨d, st⟩ := y
    rw [h1] at h
    simp only at h
    obtain ⟨r, r1, r2⟩ := GenFun.sym_sound sz T _ hcn method path hpath sz (· % 4) hsz _ avals
      (baseVals_rep sz T _ hcn vals avals hv) f hints d st h1
    cases h2 : d.get? name with
    | none => rw [h2] at h; cases h
    | some v =>
      rw [h2] at h
      simp only at h
      split at h
      · rename_i hbox
        cases h
        obtain ⟨a, a1, a2⟩ := DictRep.get r2 h2
        exact ⟨r, a, r1, a1, a2.val idx (a2.shape ▸ mem_box.1 hbox)⟩
      · cases h

/-- All elements of the given results are zero, from the polynomials. -/
noncomputable def symZero [DecidableEq R] (sy : TSym) (hints : List Nat) (f : GenFun) (vals : List Char → Option TArg)
    (sz : Nat → Nat) (T : Nat → List (Nat × Nat) → R) (results : List (List Char × List Nat)) : Bool :=
  match f.sym (canonByHints sy) (· % 4) (baseVals (canonByHints sy) vals) hints with
  | none => false
  | some (d, _) => results.all fun x => match d.get? x.1 with
    | none => false
    | some v => v.1 == x.2 && (box (x.2.map sz)).all fun idx => decide (polyVal sz T v.2 (frEnv idx) = 0)

theorem symZero_sound [CharZero R] [DecidableEq R] {sy : TSym} {hints : List Nat} {f : GenFun}
    {vals : List Char → Option TArg} {sz : Nat → Nat} {T : Nat → List (Nat × Nat) → R}
    {results : List (List Char × List Nat)} (h : symZero sy hints f vals sz T results = true) (hsy : SymOk T sy)
    (hsz : ∀ s, sz s = sz (s % 4)) (avals : List Char → Option (NDArray R))
    (hv : ∀ name v, vals name = some v → ∃ a, avals name = some a ∧ ArgRep sz T v a)
    (method : ContractMethod) (path : List (List Char) → List Char → List (NDArray R) → List Contraction)
    (hpath : PathOk path) :
    ∃ r, f.call method path sz avals = .ok r ∧ ∀ x ∈ results, ∃ a, r.get? x.1 = some a ∧
      ∀ idx ∈ box (x.2.map sz), a.get idx = 0 := by
  have hcn := canonByHints_sound sz T sy hsy
  unfold symZero at h
  cases h1 : f.sym (canonByHints sy) (· % 4) (baseVals (canonByHints sy) vals) hints with
  | none => rw [h1] at h; cases h
  | some y =>
    obtain ⟨d, st⟩ := y
    rw [h1] at h
    simp only at h
    obtain ⟨r, r1, r2⟩ := GenFun.sym_sound sz T _ hcn method path hpath sz (· % 4) hsz _ avals
      (baseVals_rep sz T _ hcn vals avals hv) f hints d st h1
    refine ⟨r, r1, fun x hx => ?_⟩
    have hx := List.all_eq_true.1 h x hx
    cases h2 : d.get? x.1 with
    | none => rw [h2] at hx; cases hx
    | some v =>
      rw [h2] at hx
      simp only [Bool.and_eq_true, beq_iff_eq, List.all_eq_true, decide_eq_true_eq] at hx
      obtain ⟨a, a1, a2⟩ := DictRep.get r2 h2
      refine ⟨a, a1, fun idx hidx => ?_⟩
      rw [a2.val idx (by rw [a2.shape, hx.1]; exact mem_box.1 hidx)]
      exact hx.2 idx hidx

end

theorem spaceSizes_mod (no nv nb nx s : Nat) : spaceSizes no nv nb nx s = spaceSizes no nv nb nx (s % 4) := by
  simp [spaceSizes]

/-- Data for the examples. -/
def exData72 : CCData ℚ where
  f p q := if p.1 = q.1 then 1 else 1/2
  v p q r s := p.1 + q.1 + r.1 + s.1 + 1
  t1 i a := i + a + 1
  t2 i j a b := (i + a + 1) * (j + b + 2) + (i + a + 2) * (j + b + 1)
  l1 a i := a + 2 * i + 1
  l2 a b i j := (i + a + 1) * (j + b + 1)
  f_symm p q := by simp only [eq_comm]
  v_swap p q r s := by ring
  v_pair p q r s := by ring
  t2_symm i j a b := by ring
  l2_symm a b i j := by ring

theorem exData72_value {hints : List Nat} {f : GenFun} {no nv : Nat} {name : List Char} {idx : List Nat} {x : ℚ}
    (h : symElem ccSym hints f rVals (spaceSizes no nv 0 0) exData72.tensor name idx = some x) :
    ∃ r a, f.call .backend onePath (spaceSizes no nv 0 0) (exData72.rArgs no nv) = .ok r ∧
      r.get? name = some a ∧ a.get idx = x :=
  symElem_sound h exData72.symOk (spaceSizes_mod _ _ _ _) _ (exData72.rVals_rep no nv) _ _ onePath_ok

end Ebcc
