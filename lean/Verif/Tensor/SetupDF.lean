import Verif.Tensor.Setup
/-!
The arguments of functions with density fitting as polynomials.
-/

namespace Ebcc

section
variable {R : Type} [Field R]

/-- The tensors: those of the calculation without density fitting, and 4 the three-centre integrals. -/
def DFData.tensor (d : DFData R) (nx : Nat) (t : Nat) : List Orb → R :=
  if t = 4 then tens3 fun x => d.b x.2 else (d.toCC nx).tensor t

theorem DFData.symOk (d : DFData R) (nx : Nat) : SymOk (d.tensor nx) ccSym := by
  refine ⟨?_, rfl⟩
  intro t q hq
  by_cases ht : t = 4
  · subst ht
    simp only [ccSym, List.mem_cons, List.not_mem_nil, or_false] at hq
    rcases hq with rfl | rfl <;> refine ⟨by decide, forall_length3 fun x p q => ?_⟩
    · simp [DFData.tensor, tens3]
    · simp [DFData.tensor, tens3, d.b_symm x.2 p q]
  · have := (d.toCC nx).symOk.sym t q hq
    simp only [DFData.tensor, if_neg ht]
    exact this

/-- Two-electron integrals from three-centre integrals. -/
def dfBlk : List Nat → Option TArg
  | [p, q, r, s] => some ([p, q, r, s], [(1, 0, [515], [(4, [515, p, 16 + q]), (4, [515, 32 + r, 48 + s])])])
  | _ => none

/-- The spaces of a key of occupied and virtual orbitals. -/
def ovSpaces (key : List Char) : Option (List Nat) :=
  match spacesOf key with
  | some sp => bif sp.all (Nat.blt · 2) then some sp else none
  | none => none

/-- The arguments of a restricted function, with integrals from three-centre integrals. -/
def rbVals : List Char → Option TArg
  | ['t', '1'] => some (blk 0 [0, 1])
  | ['t', '2'] => some (blk 1 [0, 0, 1, 1])
  | ['l', '1'] => some (blk 5 [1, 0])
  | ['l', '2'] => some (blk 6 [1, 1, 0, 0])
  | 'f' :: '.' :: key => (ovSpaces key).map (blk 2)
  | 'v' :: '.' :: key => match ovSpaces key with
    | some sp => dfBlk sp
    | none => none
  | _ => none

/-- The arguments of a restricted function with density fitting. -/
def dfVals : List Char → Option TArg
  | ['t', '1'] => some (blk 0 [0, 1])
  | ['t', '2'] => some (blk 1 [0, 0, 1, 1])
  | ['l', '1'] => some (blk 5 [1, 0])
  | ['l', '2'] => some (blk 6 [1, 1, 0, 0])
  | 'f' :: '.' :: key => (spacesOf key).map (blk 2)
  | 'v' :: '.' :: 'x' :: key => (spacesOf key).map fun sp => blk 4 (3 :: sp)
  | _ => none

theorem ovSpaces_spec {key : List Char} {sp : List Nat} (h : ovSpaces key = some sp) :
    spacesOf key = some sp ∧ ∀ s ∈ sp, s < 2 := by
  unfold ovSpaces at h
  cases h1 : spacesOf key with
  | none => rw [h1] at h; cases h
  | some sp' =>
    rw [h1] at h
    simp only at h
    cases h2 : sp'.all (Nat.blt · 2) with
    | false => rw [h2] at h; cases h
    | true =>
      rw [h2] at h
      cases h
      refine ⟨rfl, fun s hs => ?_⟩
      have := List.all_eq_true.1 h2 s hs
      simpa [Nat.blt_eq] using this

omit [Field R] in
theorem blockArr_sz [Zero R] (sz sz' : Nat → Nat) (f : List Orb → R) (sp : List Nat) (h : ∀ s ∈ sp, sz s = sz' s) :
    blockArr sz f sp = blockArr sz' f sp := by
  unfold blockArr
  rw [List.map_congr_left h]

theorem DFData.rbVals_rep (d : DFData R) (no nv nx : Nat) (name : List Char) (v : TArg) (h : rbVals name = some v) :
    ∃ a, (d.toCC nx).rArgs no nv name = some a ∧ ArgRep (spaceSizes no nv 0 nx) (d.tensor nx) v a := by
  have hsz : ∀ sp : List Nat, (∀ s ∈ sp, s < 2) → ∀ s ∈ sp, spaceSizes no nv 0 0 s = spaceSizes no nv 0 nx s := by
    intro sp hsp s hs
    have := hsp s hs
    match s with
    | 0 => rfl
    | 1 => rfl
  unfold rbVals at h
  unfold CCData.rArgs
  split at h
  · cases h
    exact ⟨_, rfl, arr2_rep _ _ _ _ _ _ _ _ rfl rfl (by decide) (by decide) rfl⟩
  · cases h
    exact ⟨_, rfl, arr4_rep _ _ _ _ _ _ _ _ _ _ _ _ rfl rfl rfl rfl (by decide) (by decide) (by decide)
      (by decide) rfl⟩
  · cases h
    exact ⟨_, rfl, arr2_rep _ _ _ _ _ _ _ _ rfl rfl (by decide) (by decide) rfl⟩
  · cases h
    exact ⟨_, rfl, arr4_rep _ _ _ _ _ _ _ _ _ _ _ _ rfl rfl rfl rfl (by decide) (by decide) (by decide)
      (by decide) rfl⟩
  · rename_i key
    cases hk : ovSpaces key with
    | none => rw [hk] at h; cases h
    | some sp =>
      rw [hk] at h
      cases h
      obtain ⟨k1, k2⟩ := ovSpaces_spec hk
      refine ⟨_, by simp only [k1]; rfl, ?_⟩
      rw [blockArr_sz _ _ _ _ (hsz sp k2)]
      exact blk_rep _ (d.tensor nx) 2 sp (spacesOf_lt k1)
  · rename_i key
    cases hk : ovSpaces key with
    | none => rw [hk] at h; cases h
    | some sp =>
      rw [hk] at h
      simp only at h
      obtain ⟨k1, k2⟩ := ovSpaces_spec hk
      refine ⟨_, by simp only [k1]; rfl, ?_⟩
      rw [blockArr_sz _ _ _ _ (hsz sp k2)]
      unfold dfBlk at h
      split at h
      · cases h
        rename_i p q r s
        have hp : p < 2 := k2 p (by simp)
        have hq : q < 2 := k2 q (by simp)
        have hr : r < 2 := k2 r (by simp)
        have hs : s < 2 := k2 s (by simp)
        refine ⟨NDArray.ofFn_shape _ _, NDArray.ofFn_wf _ _, fun idx hidx => ?_⟩
        rw [blockArr, NDArray.ofFn_shape] at hidx
        rw [blockArr, NDArray.get_ofFn _ _ hidx]
        match idx, InBox.length_eq hidx with
        | [i, j, k, l], _ =>
          have e0 : p / 16 = 0 := by omega
          have e1 : (16 + q) / 16 = 1 := by omega
          have e2 : (32 + r) / 16 = 2 := by omega
          have e3 : (48 + s) / 16 = 3 := by omega
          have m0 : p % 16 = p := by omega
          have m1 : q % 16 = q := by omega
          have m2 : r % 16 = r := by omega
          have m3 : s % 16 = s := by omega
          have g1 : (48 + s) % 16 = s := by omega
          have g2 : (32 + r) % 16 = r := by omega
          have n0 : p ≠ 515 := by omega
          have n1 : 16 + q ≠ 515 := by omega
          have n2 : 32 + r ≠ 515 := by omega
          have n3 : 48 + s ≠ 515 := by omega
          simp [rawVal, einSum, facsVal, facVal, DFData.tensor, tens3, tens4, frEnv, e0, e1, e2, e3, m0, m1, m2, m3,
            g1, g2, n0, n1, n2, n3, tcoef, DFData.toCC, spaceSizes]
      · cases h
  · cases h

theorem DFData.dfVals_rep (d : DFData R) (no nv nx : Nat) (name : List Char) (v : TArg) (h : dfVals name = some v) :
    ∃ a, d.dfArgs no nv nx name = some a ∧ ArgRep (spaceSizes no nv 0 nx) (d.tensor nx) v a := by
  unfold dfVals at h
  unfold DFData.dfArgs
  split at h
  · cases h
    exact ⟨_, rfl, arr2_rep _ _ _ _ _ _ _ _ rfl rfl (by decide) (by decide) rfl⟩
  · cases h
    exact ⟨_, rfl, arr4_rep _ _ _ _ _ _ _ _ _ _ _ _ rfl rfl rfl rfl (by decide) (by decide) (by decide)
      (by decide) rfl⟩
  · cases h
    exact ⟨_, rfl, arr2_rep _ _ _ _ _ _ _ _ rfl rfl (by decide) (by decide) rfl⟩
  · cases h
    exact ⟨_, rfl, arr4_rep _ _ _ _ _ _ _ _ _ _ _ _ rfl rfl rfl rfl (by decide) (by decide) (by decide)
      (by decide) rfl⟩
  · rename_i key
    cases hk : spacesOf key with
    | none => rw [hk] at h; cases h
    | some sp =>
      rw [hk] at h
      cases h
      exact ⟨_, by simp only [hk]; rfl, blk_rep _ (d.tensor nx) 2 sp (spacesOf_lt hk)⟩
  · rename_i key
    cases hk : spacesOf key with
    | none => rw [hk] at h; cases h
    | some sp =>
      rw [hk] at h
      cases h
      refine ⟨_, by simp only [hk]; rfl, blk_rep _ (d.tensor nx) 4 (3 :: sp) ?_⟩
      intro s hs
      rcases List.mem_cons.1 hs with rfl | hs
      · decide
      · exact spacesOf_lt hk s hs
  · cases h

end
end Ebcc
