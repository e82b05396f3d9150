import Verif.Tensor.Check
/-!
The arguments of `Verif/Spec/GenArgs.lean` as polynomials.
-/

namespace Ebcc

section
variable {R : Type} [Field R]

theorem ofFn_congr_setup (sh : List Nat) (f g : List Nat → R)
    (h : ∀ idx, InBox sh idx → f idx = g idx) : NDArray.ofFn sh f = NDArray.ofFn sh g := by
  unfold NDArray.ofFn
  congr 1
  apply List.map_congr_left
  intro idx hidx
  exact h idx (mem_box.1 hidx)

theorem spaceOf_lt {c : Char} {s : Nat} (h : spaceOf c = some s) : s < 4 := by
  unfold spaceOf at h
  split at h <;> simp at h <;> omega

theorem spacesOf_lt {l : List Char} {sp : List Nat} (h : spacesOf l = some sp) : ∀ s ∈ sp, s < 16 := by
  induction l generalizing sp with
  | nil => cases h; simp
  | cons c l ih =>
    simp only [spacesOf] at h
    cases h1 : spaceOf c with
    | none => rw [h1] at h; cases h
    | some s =>
    cases h2 : spacesOf l with
    | none => rw [h1, h2] at h; cases h
    | some r =>
      rw [h1, h2] at h
      cases h
      intro x hx
      rcases List.mem_cons.1 hx with rfl | hx
      · have := spaceOf_lt h1
        omega
      · exact ih h2 x hx

/-! ### Tensors -/

/-- The tensors of a calculation: 0 `t1`, 1 `t2`, 2 `f`, 3 `v`, 5 `l1`, 6 `l2`. -/
def CCData.tensor (d : CCData R) : Nat → List Orb → R
  | 0 => tens2 fun i a => d.t1 i.2 a.2
  | 1 => tens4 fun i j a b => d.t2 i.2 j.2 a.2 b.2
  | 2 => tens2 d.f
  | 3 => tens4 d.v
  | 5 => tens2 fun a i => d.l1 a.2 i.2
  | 6 => tens4 fun a b i j => d.l2 a.2 b.2 i.2 j.2
  | 15 => deltaT
  | _ => fun _ => 0

/-- The symmetries of the tensors of closed-shell calculations. -/
def ccSym : TSym
  | 0 => [([0, 1], false)]
  | 1 => [([0, 1, 2, 3], false), ([1, 0, 3, 2], false)]
  | 2 => [([0, 1], false), ([1, 0], false)]
  | 3 => [([0, 1, 2, 3], false), ([1, 0, 2, 3], false), ([0, 1, 3, 2], false), ([1, 0, 3, 2], false),
      ([2, 3, 0, 1], false), ([3, 2, 0, 1], false), ([2, 3, 1, 0], false), ([3, 2, 1, 0], false)]
  | 4 => [([0, 1, 2], false), ([0, 2, 1], false)]
  | 5 => [([0, 1], false)]
  | 6 => [([0, 1, 2, 3], false), ([1, 0, 3, 2], false)]
  | _ => []

theorem forall_length2 {P : List Orb → Prop} (h : ∀ p q, P [p, q]) (l : List Orb) (hl : l.length = 2) : P l := by
  match l, hl with
  | [p, q], _ => exact h p q

theorem forall_length3 {P : List Orb → Prop} (h : ∀ p q r, P [p, q, r]) (l : List Orb) (hl : l.length = 3) :
    P l := by
  match l, hl with
  | [p, q, r], _ => exact h p q r

theorem forall_length4 {P : List Orb → Prop} (h : ∀ p q r s, P [p, q, r, s]) (l : List Orb) (hl : l.length = 4) :
    P l := by
  match l, hl with
  | [p, q, r, s], _ => exact h p q r s

omit [Field R] in
theorem CCData.v_swap' (d : CCData R) (p q r s : Orb) : d.v p q s r = d.v p q r s := by
  rw [d.v_pair, d.v_swap, d.v_pair]

theorem CCData.symOk (d : CCData R) : SymOk d.tensor ccSym := by
  refine ⟨?_, rfl⟩
  intro t q hq
  match t, hq with
  | 0, hq =>
    simp only [ccSym, List.mem_cons, List.not_mem_nil, or_false] at hq
    subst hq
    refine ⟨by decide, forall_length2 fun p q => ?_⟩
    simp [CCData.tensor, tens2]
  | 1, hq =>
    simp only [ccSym, List.mem_cons, List.not_mem_nil, or_false] at hq
    rcases hq with rfl | rfl <;> refine ⟨by decide, forall_length4 fun p q r s => ?_⟩
    · simp [CCData.tensor, tens4]
    · simp [CCData.tensor, tens4, d.t2_symm]
  | 2, hq =>
    simp only [ccSym, List.mem_cons, List.not_mem_nil, or_false] at hq
    rcases hq with rfl | rfl <;> refine ⟨by decide, forall_length2 fun p q => ?_⟩
    · simp [CCData.tensor, tens2]
    · simp [CCData.tensor, tens2, d.f_symm p q]
  | 3, hq =>
    simp only [ccSym, List.mem_cons, List.not_mem_nil, or_false] at hq
    rcases hq with rfl | rfl | rfl | rfl | rfl | rfl | rfl | rfl <;>
      refine ⟨by decide, forall_length4 fun p q r s => ?_⟩ <;>
      simp only [CCData.tensor, tens4, List.map_cons, List.map_nil, List.getD_cons_zero, List.getD_cons_succ,
        Bool.false_eq_true, if_false, one_mul]
    · rw [d.v_swap]
    · rw [d.v_swap']
    · rw [d.v_swap, d.v_swap']
    · rw [d.v_pair]
    · rw [d.v_pair, d.v_swap']
    · rw [d.v_pair, d.v_swap]
    · rw [d.v_pair, d.v_swap, d.v_swap']
  | 5, hq =>
    simp only [ccSym, List.mem_cons, List.not_mem_nil, or_false] at hq
    subst hq
    refine ⟨by decide, forall_length2 fun p q => ?_⟩
    simp [CCData.tensor, tens2]
  | 6, hq =>
    simp only [ccSym, List.mem_cons, List.not_mem_nil, or_false] at hq
    rcases hq with rfl | rfl <;> refine ⟨by decide, forall_length4 fun p q r s => ?_⟩
    · simp [CCData.tensor, tens4]
    · simp [CCData.tensor, tens4, d.l2_symm]
  | 4, hq =>
    simp only [ccSym, List.mem_cons, List.not_mem_nil, or_false] at hq
    rcases hq with rfl | rfl <;> refine ⟨by decide, fun l _ => ?_⟩ <;> simp [CCData.tensor]
  | t + 7, hq => cases hq

/-! ### Arguments -/

/-- `(t - t with the last two axes exchanged) / 2`. -/
def antiArg (t : Nat) (s s' : Nat) : TArg :=
  ([s, s, s', s'], [(12, 1, [], [(t, [s, 16 + s, 32 + s', 48 + s'])]),
    (-12, 1, [], [(t, [s, 16 + s, 48 + s', 32 + s'])])])

/-- The arguments of a restricted function. -/
def rVals : List Char → Option TArg
  | ['t', '1'] => some (blk 0 [0, 1])
  | ['t', '2'] => some (blk 1 [0, 0, 1, 1])
  | ['l', '1'] => some (blk 5 [1, 0])
  | ['l', '2'] => some (blk 6 [1, 1, 0, 0])
  | 'f' :: '.' :: key => (spacesOf key).map (blk 2)
  | 'v' :: '.' :: key => (spacesOf key).map (blk 3)
  | _ => none

/-- The arguments of an unrestricted function. -/
def uVals : List Char → Option TArg
  | ['t', '1', '.', _, _] => some (blk 0 [0, 1])
  | ['t', '2', '.', 'a', 'b', 'a', 'b'] => some (blk 1 [0, 0, 1, 1])
  | ['t', '2', '.', _, _, _, _] => some (antiArg 1 0 1)
  | ['l', '1', '.', _, _] => some (blk 5 [1, 0])
  | ['l', '2', '.', 'a', 'b', 'a', 'b'] => some (blk 6 [1, 1, 0, 0])
  | ['l', '2', '.', _, _, _, _] => some (antiArg 6 1 0)
  | 'f' :: '.' :: _ :: _ :: '.' :: key => (spacesOf key).map (blk 2)
  | 'v' :: '.' :: _ :: _ :: _ :: _ :: '.' :: key => (spacesOf key).map (blk 3)
  | _ => none

theorem arr2_rep (sz : Nat → Nat) (T : Nat → List Orb → R) (t s s' : Nat) (f : Nat → Nat → R) (m n : Nat)
    (hm : sz s = m) (hn : sz s' = n) (hs : s < 16) (hs' : s' < 16)
    (hT : T t = tens2 fun p q => f p.2 q.2) : ArgRep sz T (blk t [s, s']) (arr2 m n f) := by
  have : arr2 m n f = blockArr sz (T t) [s, s'] := by
    unfold arr2 blockArr
    subst hm hn
    apply ofFn_congr_setup
    intro idx hidx
    match idx, InBox.length_eq hidx with
    | [i, j], _ => simp [hT, tens2]
  rw [this]
  exact blk_rep sz T t [s, s'] (by simp [hs, hs'])

theorem arr4_rep (sz : Nat → Nat) (T : Nat → List Orb → R) (t s1 s2 s3 s4 : Nat)
    (f : Nat → Nat → Nat → Nat → R) (n1 n2 n3 n4 : Nat)
    (h1 : sz s1 = n1) (h2 : sz s2 = n2) (h3 : sz s3 = n3) (h4 : sz s4 = n4)
    (g1 : s1 < 16) (g2 : s2 < 16) (g3 : s3 < 16) (g4 : s4 < 16)
    (hT : T t = tens4 fun p q r s => f p.2 q.2 r.2 s.2) :
    ArgRep sz T (blk t [s1, s2, s3, s4]) (arr4 n1 n2 n3 n4 f) := by
  have : arr4 n1 n2 n3 n4 f = blockArr sz (T t) [s1, s2, s3, s4] := by
    unfold arr4 blockArr
    subst h1 h2 h3 h4
    apply ofFn_congr_setup
    intro idx hidx
    match idx, InBox.length_eq hidx with
    | [i, j, k, l], _ => simp [hT, tens4]
  rw [this]
  exact blk_rep sz T t [s1, s2, s3, s4] (by simp [g1, g2, g3, g4])

theorem antiArg_rep [CharZero R] (sz : Nat → Nat) (T : Nat → List Orb → R) (t s s' : Nat)
    (f : Nat → Nat → Nat → Nat → R) (m n : Nat) (hm : sz s = m) (hn : sz s' = n) (hs : s < 16) (hs' : s' < 16)
    (hT : T t = tens4 fun p q r s => f p.2 q.2 r.2 s.2) :
    ArgRep sz T (antiArg t s s') (arr4 m m n n fun i j a b => (f i j a b - f i j b a) / 2) := by
  subst hm hn
  refine ⟨rfl, NDArray.ofFn_wf _ _, fun idx hidx => ?_⟩
  unfold arr4 at hidx ⊢
  rw [NDArray.ofFn_shape] at hidx
  rw [NDArray.get_ofFn _ _ hidx]
  match idx, InBox.length_eq hidx with
  | [i, j, k, l], _ =>
    have e0 : s / 16 = 0 := by omega
    have e1 : (16 + s) / 16 = 1 := by omega
    have e2 : (32 + s') / 16 = 2 := by omega
    have e3 : (48 + s') / 16 = 3 := by omega
    simp [antiArg, rawVal, einSum, facsVal, facVal, hT, tens4, frEnv, e0, e1, e2, e3, tcoef]
    ring

theorem CCData.rVals_rep (d : CCData R) (no nv : Nat) (name : List Char) (v : TArg) (h : rVals name = some v) :
    ∃ a, d.rArgs no nv name = some a ∧ ArgRep (spaceSizes no nv 0 0) d.tensor v a := by
  unfold rVals at h
  unfold CCData.rArgs
  split at h
  · cases h
    exact ⟨_, rfl, arr2_rep _ _ _ _ _ _ _ _ rfl rfl (by decide) (by decide) rfl⟩
  · cases h
    exact ⟨_, rfl, arr4_rep _ _ _ _ _ _ _ _ _ _ _ _ rfl rfl rfl rfl (by decide) (by decide) (by decide)
      (by decide) rfl⟩
  · cases h
    exact ⟨_, rfl, arr2_rep _ _ _ _ _ _ _ _ rfl rfl (by decide) (by decide) rfl⟩
  · cases h
    exact ⟨_, rfl, arr4_rep _ _ _ _ _ _ _ _ _ _ _ _ rfl rfl rfl rfl (by decide) (by decide) (by decide)
      (by decide) rfl⟩
  · rename_i key
    cases hk : spacesOf key with
    | none => rw [hk] at h; cases h
    | some sp =>
      rw [hk] at h
      cases h
      exact ⟨_, by simp only [hk]; rfl, blk_rep _ d.tensor 2 sp (spacesOf_lt hk)⟩
  · rename_i key
    cases hk : spacesOf key with
    | none => rw [hk] at h; cases h
    | some sp =>
      rw [hk] at h
      cases h
      exact ⟨_, by simp only [hk]; rfl, blk_rep _ d.tensor 3 sp (spacesOf_lt hk)⟩
  · cases h

theorem CCData.uVals_rep [CharZero R] (d : CCData R) (no nv : Nat) (name : List Char) (v : TArg)
    (h : uVals name = some v) :
    ∃ a, d.uArgs no nv name = some a ∧ ArgRep (spaceSizes no nv 0 0) d.tensor v a := by
  unfold uVals at h
  unfold CCData.uArgs
  split at h
  · cases h
    exact ⟨_, rfl, arr2_rep _ _ _ _ _ _ _ _ rfl rfl (by decide) (by decide) rfl⟩
  · cases h
    exact ⟨_, rfl, arr4_rep _ _ _ _ _ _ _ _ _ _ _ _ rfl rfl rfl rfl (by decide) (by decide) (by decide)
      (by decide) rfl⟩
  · cases h
    rename_i hne
    refine ⟨_, ?_, antiArg_rep (spaceSizes no nv 0 0) d.tensor 1 0 1 d.t2 no nv rfl rfl (by decide) (by decide) rfl⟩
    split <;> simp_all
    rename_i hx
    exact hx _ _ _ _ rfl rfl rfl rfl
  · cases h
    exact ⟨_, rfl, arr2_rep _ _ _ _ _ _ _ _ rfl rfl (by decide) (by decide) rfl⟩
  · cases h
    exact ⟨_, rfl, arr4_rep _ _ _ _ _ _ _ _ _ _ _ _ rfl rfl rfl rfl (by decide) (by decide) (by decide)
      (by decide) rfl⟩
  · cases h
    rename_i hne
    refine ⟨_, ?_, antiArg_rep (spaceSizes no nv 0 0) d.tensor 6 1 0 d.l2 nv no rfl rfl (by decide) (by decide) rfl⟩
    split <;> simp_all
    rename_i hx
    exact hx _ _ _ _ rfl rfl rfl rfl
  · rename_i key
    cases hk : spacesOf key with
    | none => rw [hk] at h; cases h
    | some sp =>
      rw [hk] at h
      cases h
      exact ⟨_, by simp only [hk]; rfl, blk_rep _ d.tensor 2 sp (spacesOf_lt hk)⟩
  · rename_i key
    cases hk : spacesOf key with
    | none => rw [hk] at h; cases h
    | some sp =>
      rw [hk] at h
      cases h
      exact ⟨_, by simp only [hk]; rfl, blk_rep _ d.tensor 3 sp (spacesOf_lt hk)⟩
  · cases h

/-! ### Relations -/

/-- Equal results. -/
def relSame (n1 n2 : List Char) (sp : List Nat) : TRel :=
  (sp, [⟨1, 1, false, n1, List.range sp.length⟩, ⟨-1, 1, true, n2, List.range sp.length⟩])

/-- The second result is the first minus the first with the last two axes exchanged. -/
def relAnti (n1 n2 : List Char) (sp : List Nat) : TRel :=
  (sp, [⟨1, 1, false, n1, [0, 1, 2, 3]⟩, ⟨-1, 1, false, n1, [0, 1, 3, 2]⟩, ⟨-1, 1, true, n2, [0, 1, 2, 3]⟩])

/-- A permutation of the axes leaves the first result as it is. -/
def relPerm (n : List Char) (sp perm : List Nat) : TRel :=
  (sp, [⟨1, 1, false, n, List.range sp.length⟩, ⟨-1, 1, false, n, perm⟩])

variable {sz : Nat → Nat} {r u : Dict (List Char) (NDArray R)}

theorem range_map_getD_sz (sp : List Nat) :
    ((List.range sp.length).map fun k => (sp.map sz).getD k 0) = sp.map sz := by
  have := range_map_getD (sp.map sz)
  rwa [List.length_map] at this

theorem relSame_holds {n1 n2 : List Char} {sp : List Nat} (h : TRel.Holds sz (relSame n1 n2 sp) r u) :
    ∃ a, r.get? n1 = some a ∧ u.get? n2 = some a ∧ a.WF ∧ a.shape = sp.map sz := by
  obtain ⟨h1, h2⟩ := h
  obtain ⟨a, a1, a2, a3⟩ := h1 _ (List.mem_cons_self ..)
  obtain ⟨b, b1, b2, b3⟩ := h1 _ (List.mem_cons_of_mem _ (List.mem_cons_self ..))
  simp only [relSame, range_map_getD_sz, cond_true, cond_false] at a1 a3 b1 b3 h2
  have : a = b := by
    apply NDArray.ext_get a2 b2 (by rw [a3, b3])
    intro idx hidx
    rw [a3] at hidx
    have hl : idx.length = sp.length := by simpa using InBox.length_eq hidx
    have hm : ((List.range sp.length).map fun k => idx.getD k 0) = idx := by
      rw [← hl]; exact range_map_getD idx
    have := h2 idx hidx
    simp only [TTerm.val, List.map_cons, List.map_nil, cond_true, cond_false, a1, b1, hm, List.sum_cons,
      List.sum_nil] at this
    have h3 : a.get idx - b.get idx = 0 := by
      rw [← this]; push_cast; ring
    exact sub_eq_zero.1 h3
  subst this
  exact ⟨a, a1, b1, a2, a3⟩

theorem relAnti_holds {n1 n2 : List Char} {s1 s2 s3 s4 : Nat} (h : TRel.Holds sz (relAnti n1 n2 [s1, s2, s3, s4]) r u) :
    ∃ a b, r.get? n1 = some a ∧ u.get? n2 = some b ∧ b.WF ∧ b.shape = [sz s1, sz s2, sz s3, sz s4] ∧
      ∀ i j k l, i < sz s1 → j < sz s2 → k < sz s3 → l < sz s4 →
        b.get [i, j, k, l] = a.get [i, j, k, l] - a.get [i, j, l, k] := by
  obtain ⟨h1, h2⟩ := h
  obtain ⟨a, a1, a2, a3⟩ := h1 _ (List.mem_cons_self ..)
  obtain ⟨b, b1, b2, b3⟩ := h1 _ (List.mem_cons_of_mem _ (List.mem_cons_of_mem _ (List.mem_cons_self ..)))
  simp only [relAnti, cond_true, cond_false] at a1 a3 b1 b3 h2
  refine ⟨a, b, a1, b1, b2, by simpa using b3, fun i j k l hi hj hk hl => ?_⟩
  have := h2 [i, j, k, l] (.cons hi (.cons hj (.cons hk (.cons hl .nil))))
  simp only [TTerm.val, List.map_cons, List.map_nil, cond_true, cond_false, a1, b1, List.sum_cons,
      List.sum_nil, List.getD_cons_zero, List.getD_cons_succ] at this
  push_cast at this
  linear_combination -this

theorem relPerm_holds {n : List Char} {s1 s2 s3 s4 : Nat}
    (h : TRel.Holds sz (relPerm n [s1, s2, s3, s4] [1, 0, 3, 2]) r u) :
    ∃ a, r.get? n = some a ∧
      ∀ i j k l, i < sz s1 → j < sz s2 → k < sz s3 → l < sz s4 → a.get [j, i, l, k] = a.get [i, j, k, l] := by
  obtain ⟨h1, h2⟩ := h
  obtain ⟨a, a1, a2, a3⟩ := h1 _ (List.mem_cons_self ..)
  simp only [relPerm, cond_false] at a1 a3 h2
  refine ⟨a, a1, fun i j k l hi hj hk hl => ?_⟩
  have := h2 [i, j, k, l] (.cons hi (.cons hj (.cons hk (.cons hl .nil))))
  have e : List.range [s1, s2, s3, s4].length = [0, 1, 2, 3] := rfl
  simp only [TTerm.val, List.map_cons, List.map_nil, cond_false, a1, List.sum_cons, e,
      List.sum_nil, List.getD_cons_zero, List.getD_cons_succ] at this
  push_cast at this
  linear_combination -this

end
end Ebcc
