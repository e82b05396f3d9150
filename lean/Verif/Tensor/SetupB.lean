import Verif.Tensor.SetupG
import Verif.Spec.GenArgsB
/-!
The arguments of `Verif/Spec/GenArgsB.lean` as polynomials.
-/

namespace Ebcc

/-- The symmetries of the tensors of closed-shell calculations with bosons; beside those of `ccSym`: 7 `g`, 8 `G`,
9 `w`, 10 `s1`, 11 `s2`, 12 `u11`, 13 `u12`, 14 `ls1`, 16 `ls2`, 17 `lu11`, 18 `lu12`. -/
def bSym : TSym
  | 4 => []
  | 7 => [([0, 1, 2], false)]
  | 8 => [([0], false)]
  | 9 => [([0, 1], false), ([1, 0], false)]
  | 10 => [([0], false)]
  | 11 => [([0, 1], false), ([1, 0], false)]
  | 12 => [([0, 1, 2], false)]
  | 13 => [([0, 1, 2, 3], false), ([1, 0, 2, 3], false)]
  | 14 => [([0], false)]
  | 16 => [([0, 1], false), ([1, 0], false)]
  | 17 => [([0, 1, 2], false)]
  | 18 => [([0, 1, 2, 3], false), ([1, 0, 2, 3], false)]
  | t => ccSym t

section
variable {R : Type} [Field R]

def BData.tensor (d : BData R) : Nat → List Orb → R
  | 7 => tens3 fun x => d.g x.2
  | 8 => tens1 fun x => d.G x.2
  | 9 => tens2 fun x y => d.w x.2 y.2
  | 10 => tens1 fun x => d.s1 x.2
  | 11 => tens2 fun x y => d.s2 x.2 y.2
  | 12 => tens3 fun x i a => d.u11 x.2 i.2 a.2
  | 13 => tens4 fun x y i a => d.u12 x.2 y.2 i.2 a.2
  | 14 => tens1 fun x => d.ls1 x.2
  | 16 => tens2 fun x y => d.ls2 x.2 y.2
  | 17 => tens3 fun x a i => d.lu11 x.2 a.2 i.2
  | 18 => tens4 fun x y a i => d.lu12 x.2 y.2 a.2 i.2
  | t => d.toCCData.tensor t

theorem BData.symOk (d : BData R) : SymOk d.tensor bSym := by
  refine ⟨?_, rfl⟩
  intro t q hq
  have one : ∀ f : Orb → R, ∀ q ∈ [([0], false)], SymAt (tens1 f) q := by
    intro f q hq
    cases List.mem_singleton.1 hq
    refine ⟨by decide, forall_length1 fun p => ?_⟩
    simp [tens1]
  have three : ∀ f : Orb → Orb → Orb → R, ∀ q ∈ [([0, 1, 2], false)], SymAt (tens3 f) q := by
    intro f q hq
    cases List.mem_singleton.1 hq
    refine ⟨by decide, forall_length3 fun p q r => ?_⟩
    simp [tens3]
  have two : ∀ f : Nat → Nat → R, (∀ x y, f y x = f x y) → ∀ q ∈ [([0, 1], false), ([1, 0], false)],
      SymAt (tens2 fun x y => f x.2 y.2) q := by
    intro f hf q hq
    simp only [List.mem_cons, List.not_mem_nil, or_false] at hq
    rcases hq with rfl | rfl <;> refine ⟨by decide, forall_length2 fun p q => ?_⟩
    · simp [tens2]
    · simp [tens2, hf p.2 q.2]
  have four : ∀ f : Nat → Nat → Nat → Nat → R, (∀ x y i a, f y x i a = f x y i a) →
      ∀ q ∈ [([0, 1, 2, 3], false), ([1, 0, 2, 3], false)],
      SymAt (tens4 fun x y i a => f x.2 y.2 i.2 a.2) q := by
    intro f hf q hq
    simp only [List.mem_cons, List.not_mem_nil, or_false] at hq
    rcases hq with rfl | rfl <;> refine ⟨by decide, forall_length4 fun p q r s => ?_⟩
    · simp [tens4]
    · simp [tens4, hf p.2 q.2]
  unfold bSym at hq
  split at hq
  · cases hq
  · exact three _ q hq
  · exact one _ q hq
  · exact two _ d.w_symm q hq
  · exact one _ q hq
  · exact two _ d.s2_symm q hq
  · exact three _ q hq
  · exact four _ d.u12_symm q hq
  · exact one _ q hq
  · exact two _ d.ls2_symm q hq
  · exact three _ q hq
  · exact four _ d.lu12_symm q hq
  · have e : d.tensor t = d.toCCData.tensor t := by
      unfold BData.tensor
      split <;> first | rfl | simp_all
    rw [e]
    exact d.toCCData.symOk.1 t q hq

/-! ### Arguments -/

def bosVals : List Char → Option TArg
  | ['s', '1'] => some (blk 10 [2])
  | ['s', '2'] => some (blk 11 [2, 2])
  | ['l', 's', '1'] => some (blk 14 [2])
  | ['l', 's', '2'] => some (blk 16 [2, 2])
  | ['G'] => some (blk 8 [2])
  | ['w'] => some (blk 9 [2, 2])
  | _ => none

/-- The arguments of a restricted function. -/
def rbosVals : List Char → Option TArg
  | ['t', '1'] => some (blk 0 [0, 1])
  | ['t', '2'] => some (blk 1 [0, 0, 1, 1])
  | ['l', '1'] => some (blk 5 [1, 0])
  | ['l', '2'] => some (blk 6 [1, 1, 0, 0])
  | ['u', '1', '1'] => some (blk 12 [2, 0, 1])
  | ['u', '1', '2'] => some (blk 13 [2, 2, 0, 1])
  | ['l', 'u', '1', '1'] => some (blk 17 [2, 1, 0])
  | ['l', 'u', '1', '2'] => some (blk 18 [2, 2, 1, 0])
  | 'f' :: '.' :: key => (spacesOf key).map (blk 2)
  | 'v' :: '.' :: key => (spacesOf key).map (blk 3)
  | 'g' :: '.' :: key => (spacesOf key).map (blk 7)
  | name => bosVals name

/-- The arguments of an unrestricted function. -/
def ubVals : List Char → Option TArg
  | ['t', '1', '.', _, _] => some (blk 0 [0, 1])
  | ['t', '2', '.', 'a', 'b', 'a', 'b'] => some (blk 1 [0, 0, 1, 1])
  | ['t', '2', '.', _, _, _, _] => some (antiArg 1 0 1)
  | ['l', '1', '.', _, _] => some (blk 5 [1, 0])
  | ['l', '2', '.', 'a', 'b', 'a', 'b'] => some (blk 6 [1, 1, 0, 0])
  | ['l', '2', '.', _, _, _, _] => some (antiArg 6 1 0)
  | ['u', '1', '1', '.', _, _] => some (blk 12 [2, 0, 1])
  | ['u', '1', '2', '.', _, _] => some (blk 13 [2, 2, 0, 1])
  | ['l', 'u', '1', '1', '.', _, _] => some (blk 17 [2, 1, 0])
  | ['l', 'u', '1', '2', '.', _, _] => some (blk 18 [2, 2, 1, 0])
  | 'f' :: '.' :: _ :: _ :: '.' :: key => (spacesOf key).map (blk 2)
  | 'v' :: '.' :: _ :: _ :: _ :: _ :: '.' :: key => (spacesOf key).map (blk 3)
  | 'g' :: '.' :: _ :: _ :: '.' :: key => (spacesOf key).map (blk 7)
  | name => bosVals name

theorem BData.blk_rep (d : BData R) (sz : Nat → Nat) (n : Nat) (sp : List Nat) (hsp : ∀ s ∈ sp, s < 16)
    (F : List Orb → R) (hF : d.tensor n = F) : ArgRep sz d.tensor (blk n sp) (blockArr sz F sp) := by
  rw [← hF]
  exact Ebcc.blk_rep sz _ n sp hsp

theorem BData.key_rep (d : BData R) (sz : Nat → Nat) (n : Nat) (key : List Char) (F : List Orb → R)
    (hF : d.tensor n = F) (v : TArg) (h : (spacesOf key).map (blk n) = some v) :
    ∃ a, (spacesOf key).map (blockArr sz F) = some a ∧ ArgRep sz d.tensor v a := by
  cases hk : spacesOf key with
  | none => rw [hk] at h; cases h
  | some sp =>
    rw [hk] at h
    cases h
    exact ⟨_, rfl, d.blk_rep sz n sp (spacesOf_lt hk) F hF⟩

theorem BData.bosVals_rep (d : BData R) (sz : Nat → Nat) (name : List Char) (v : TArg) (h : bosVals name = some v) :
    ∃ a, d.bArgs sz name = some a ∧ ArgRep sz d.tensor v a := by
  unfold bosVals at h
  unfold BData.bArgs
  split at h
  · cases h; exact ⟨_, rfl, d.blk_rep sz _ _ (by decide) _ rfl⟩
  · cases h; exact ⟨_, rfl, d.blk_rep sz _ _ (by decide) _ rfl⟩
  · cases h; exact ⟨_, rfl, d.blk_rep sz _ _ (by decide) _ rfl⟩
  · cases h; exact ⟨_, rfl, d.blk_rep sz _ _ (by decide) _ rfl⟩
  · cases h; exact ⟨_, rfl, d.blk_rep sz _ _ (by decide) _ rfl⟩
  · cases h; exact ⟨_, rfl, d.blk_rep sz _ _ (by decide) _ rfl⟩
  · cases h

theorem BData.rArgs_bos (d : BData R) (sz : Nat → Nat) (name : List Char) (v : TArg) (h : bosVals name = some v) :
    d.rArgs sz name = d.bArgs sz name := by
  unfold bosVals at h
  split at h
  iterate 6 · rfl
  · cases h

theorem BData.rbVals_rep (d : BData R) (sz : Nat → Nat) (name : List Char) (v : TArg) (h : rbosVals name = some v) :
    ∃ a, d.rArgs sz name = some a ∧ ArgRep sz d.tensor v a := by
  unfold rbosVals at h
  unfold BData.rArgs
  split at h
  · cases h; exact ⟨_, rfl, d.blk_rep sz _ _ (by decide) _ rfl⟩
  · cases h; exact ⟨_, rfl, d.blk_rep sz _ _ (by decide) _ rfl⟩
  · cases h; exact ⟨_, rfl, d.blk_rep sz _ _ (by decide) _ rfl⟩
  · cases h; exact ⟨_, rfl, d.blk_rep sz _ _ (by decide) _ rfl⟩
  · cases h; exact ⟨_, rfl, d.blk_rep sz _ _ (by decide) _ rfl⟩
  · cases h; exact ⟨_, rfl, d.blk_rep sz _ _ (by decide) _ rfl⟩
  · cases h; exact ⟨_, rfl, d.blk_rep sz _ _ (by decide) _ rfl⟩
  · cases h; exact ⟨_, rfl, d.blk_rep sz _ _ (by decide) _ rfl⟩
  · exact d.key_rep sz _ _ _ rfl v h
  · exact d.key_rep sz _ _ _ rfl v h
  · exact d.key_rep sz _ _ _ rfl v h
  · obtain ⟨a, a1, a2⟩ := d.bosVals_rep sz name v h
    exact ⟨a, (d.rArgs_bos sz name v h).trans a1, a2⟩

theorem antiBlk_rep [CharZero R] (sz : Nat → Nat) (T : Nat → List Orb → R) (t s s' : Nat)
    (f : Nat → Nat → Nat → Nat → R) (hs : s < 16) (hs' : s' < 16)
    (hT : T t = tens4 fun p q r s => f p.2 q.2 r.2 s.2) :
    ArgRep sz T (antiArg t s s')
      (blockArr sz (tens4 fun i j a b => (f i.2 j.2 a.2 b.2 - f i.2 j.2 b.2 a.2) / 2) [s, s, s', s']) := by
  refine ⟨rfl, NDArray.ofFn_wf _ _, fun idx hidx => ?_⟩
  rw [blockArr, NDArray.ofFn_shape] at hidx
  rw [blockArr, NDArray.get_ofFn _ _ hidx]
  match idx, InBox.length_eq hidx with
  | [i, j, k, l], _ =>
    have e0 : s / 16 = 0 := by omega
    have e1 : (16 + s) / 16 = 1 := by omega
    have e2 : (32 + s') / 16 = 2 := by omega
    have e3 : (48 + s') / 16 = 3 := by omega
    simp [antiArg, rawVal, einSum, facsVal, facVal, hT, tens4, frEnv, e0, e1, e2, e3, tcoef]
    ring

theorem BData.uArgs_bos (d : BData R) (sz : Nat → Nat) (name : List Char) (v : TArg) (h : bosVals name = some v) :
    d.uArgs sz name = d.bArgs sz name := by
  unfold bosVals at h
  split at h
  iterate 6 · rfl
  · cases h

set_option maxHeartbeats 1000000 in
theorem BData.ubVals_rep [CharZero R] (d : BData R) (sz : Nat → Nat) (name : List Char) (v : TArg)
    (h : ubVals name = some v) : ∃ a, d.uArgs sz name = some a ∧ ArgRep sz d.tensor v a := by
  unfold ubVals at h
  unfold BData.uArgs
  split at h
  · cases h; exact ⟨_, rfl, d.blk_rep sz _ _ (by decide) _ rfl⟩
  · cases h; exact ⟨_, rfl, d.blk_rep sz _ _ (by decide) _ rfl⟩
  · cases h
    rename_i hne
    refine ⟨_, ?_, antiBlk_rep sz d.tensor 1 0 1 d.t2 (by decide) (by decide) rfl⟩
    split <;> simp_all
    rename_i hx
    exact (hx _ _ _ _ rfl rfl rfl rfl).elim
  · cases h; exact ⟨_, rfl, d.blk_rep sz _ _ (by decide) _ rfl⟩
  · cases h; exact ⟨_, rfl, d.blk_rep sz _ _ (by decide) _ rfl⟩
  · cases h
    rename_i hne
    refine ⟨_, ?_, antiBlk_rep sz d.tensor 6 1 0 d.l2 (by decide) (by decide) rfl⟩
    split <;> simp_all
    rename_i hx
    exact (hx _ _ _ _ rfl rfl rfl rfl).elim
  · cases h; exact ⟨_, rfl, d.blk_rep sz _ _ (by decide) _ rfl⟩
  · cases h; exact ⟨_, rfl, d.blk_rep sz _ _ (by decide) _ rfl⟩
  · cases h; exact ⟨_, rfl, d.blk_rep sz _ _ (by decide) _ rfl⟩
  · cases h; exact ⟨_, rfl, d.blk_rep sz _ _ (by decide) _ rfl⟩
  · exact d.key_rep sz _ _ _ rfl v h
  · exact d.key_rep sz _ _ _ rfl v h
  · exact d.key_rep sz _ _ _ rfl v h
  · obtain ⟨a, a1, a2⟩ := d.bosVals_rep sz name v h
    exact ⟨a, (d.uArgs_bos sz name v h).trans a1, a2⟩

end

end Ebcc
