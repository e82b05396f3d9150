import Verif.Tensor.External
import Verif.Tensor.Gradient
import Verif.Spec.External
/-!
The identities of external corrections, and their values.
-/

namespace Ebcc

def extTags : List Char := ['A', 'C', 'E', 'M', 'X', 'S']

/-- Amplitudes of higher order over the full space. -/
def extArg : List Char → List Char
  | ['t', '3'] => ['X', 't', '3']
  | ['t', '4'] => ['X', 't', '4']
  | name => argBut extTags name

def extCalls (A C E M : GenFun) : List TCall :=
  [⟨A, 'A', extArg⟩, ⟨C, 'C', argBut extTags⟩, ⟨E, 'E', argBut extTags⟩, ⟨M, 'M', argBut extTags⟩]

/-- The labels of a block: the active ones have the label of the axis plus 4. -/
def scatLabels (key : List Char) : List Nat :=
  match key with
  | ['O', 'O', 'V', 'V'] => [4, 5, 6, 7]
  | ['O', 'o', 'V', 'V'] => [4, 1, 6, 7]
  | ['o', 'O', 'V', 'V'] => [0, 5, 6, 7]
  | ['O', 'O', 'v', 'V'] => [4, 5, 2, 7]
  | ['O', 'O', 'V', 'v'] => [4, 5, 6, 3]
  | _ => []

def scatOps (key : List Char) : List (List Char × List Nat) :=
  match key with
  | ['O', 'O', 'V', 'V'] => [(chars! "S.oO", [0, 4]), (chars! "S.oO", [1, 5]), (chars! "S.vV", [2, 6]), (chars! "S.vV", [3, 7])]
  | ['O', 'o', 'V', 'V'] => [(chars! "S.oO", [0, 4]), (chars! "S.vV", [2, 6]), (chars! "S.vV", [3, 7])]
  | ['o', 'O', 'V', 'V'] => [(chars! "S.oO", [1, 5]), (chars! "S.vV", [2, 6]), (chars! "S.vV", [3, 7])]
  | ['O', 'O', 'v', 'V'] => [(chars! "S.oO", [0, 4]), (chars! "S.oO", [1, 5]), (chars! "S.vV", [3, 7])]
  | ['O', 'O', 'V', 'v'] => [(chars! "S.oO", [0, 4]), (chars! "S.oO", [1, 5]), (chars! "S.vV", [2, 6])]
  | _ => []

/-- A block of corrections at its place in the full array. -/
def scatTerm (tag : Char) (key : List Char) : ITerm :=
  ⟨-1, 1, (tag :: (chars! "t2new." ++ key), scatLabels key) :: scatOps key⟩

def extIdent1 : Ident :=
  ⟨[0, 1, 4, 5], 2, [], [⟨1, 1, [(chars! "At1new", [0, 1])]⟩, ⟨-1, 1, [(chars! "Ct1new", [0, 1])]⟩,
    ⟨-1, 1, [(chars! "Et1new.OV", [2, 3]), (chars! "S.oO", [0, 2]), (chars! "S.vV", [1, 3])]⟩]⟩

def extIdent2 : Ident :=
  ⟨[0, 0, 1, 1, 4, 4, 5, 5], 4, [], ⟨1, 1, [(chars! "At2new", [0, 1, 2, 3])]⟩ ::
    ⟨-1, 1, [(chars! "Ct2new", [0, 1, 2, 3])]⟩ :: (extKeys2.map (scatTerm 'E') ++ extKeys2.map (scatTerm 'M'))⟩

section
variable {R : Type} [Field R]

/-! ### Arguments -/

def xArgs (h : GHam R) (t : GAmps R) (t4 : List Nat → R) (m : ActiveMasks) : List Char → Option (NDArray R)
  | ['X', 't', '3'] => some (m.inflated t.list3 ['O', 'O', 'O', 'V', 'V', 'V'])
  | ['X', 't', '4'] => some (m.inflated t4 ['O', 'O', 'O', 'O', 'V', 'V', 'V', 'V'])
  | ['S', '.', 'o', 'O'] => some (blockArr m.sizes (selT m) [0, 4])
  | ['S', '.', 'v', 'V'] => some (blockArr m.sizes (selT m) [1, 5])
  | name => h.activeArgs t t4 m name

theorem sizes_act (m : ActiveMasks) {key : List Char} (hkey : isActiveKey key = true) :
    (key.map actSpace).map m.sizes = key.map m.size := by
  rw [List.map_map]
  refine List.map_congr_left fun c hc => ?_
  have : c = 'o' ∨ c = 'O' ∨ c = 'v' ∨ c = 'V' := by
    simpa using List.all_eq_true.1 hkey c hc
  rcases this with rfl | rfl | rfl | rfl <;> simp [actSpace, ActiveMasks.sizes, ActiveMasks.size, ActiveMasks.cls]

theorem actPair_lt (c : Char) : (actPair c).1 < 16 ∧ (actPair c).2 < 16 := by
  unfold actPair actSpace
  split
  · decide
  · split
    · decide
    · split <;> decide

theorem block_rep (m : ActiveMasks) (T : Nat → List Orb → R) (hT : T 64 = selT m) (n : Nat) {key : List Char}
    (hkey : isActiveKey key = true) (hlen : key.length ≤ 32) :
    ArgRep m.sizes T (inflT n (key.map actPair)) (m.block (T n) key) := by
  refine ⟨?_, NDArray.ofFn_wf _ _, fun idx hidx => ?_⟩
  · rw [ActiveMasks.block, NDArray.ofFn_shape, ← sizes_act m hkey]
    simp [inflT, actPair, Function.comp_def]
  · rw [ActiveMasks.block, NDArray.ofFn_shape] at hidx
    rw [ActiveMasks.block, NDArray.get_ofFn _ _ hidx, inflT_val _ _ _ _ (by simpa using hlen) (by
      intro p hp
      obtain ⟨c, _, rfl⟩ := List.mem_map.1 hp
      exact actPair_lt c), hT, inflVal_gather m key hkey idx hidx]

theorem amp_rep (m : ActiveMasks) (T : Nat → List Orb → R) (F : List Nat → R) (n : Nat)
    (hF : ∀ os, T n os = F (os.map Prod.snd)) {key : List Char} (hkey : isActiveKey key = true) :
    ArgRep m.sizes T (blk n (key.map actSpace)) (m.amp F key) := by
  have := blk_rep m.sizes T n (key.map actSpace) (by
    intro s hs
    obtain ⟨c, _, rfl⟩ := List.mem_map.1 hs
    exact (actPair_lt c).2)
  have e : blockArr m.sizes (T n) (key.map actSpace) = m.amp F key := by
    unfold blockArr ActiveMasks.amp
    rw [sizes_act m hkey]
    unfold NDArray.ofFn
    congr 1
    refine List.map_congr_left fun idx hidx => ?_
    have := InBox.length_eq (mem_box.1 hidx)
    rw [hF, List.map_snd_zip]
    simp only [List.length_map] at this ⊢
    omega
  rwa [e] at this

theorem inflated_rep (m : ActiveMasks) (T : Nat → List Orb → R) (hT : T 64 = selT m) (F : List Nat → R) (n : Nat)
    (hF : ∀ os, T n os = F (os.map Prod.snd)) {key : List Char} (hkey : ∀ c ∈ key, c = 'O' ∨ c = 'V')
    (hlen : key.length ≤ 32) :
    ArgRep m.sizes T (inflT n (key.map fun c => (actSpace c, actSpace c % 4))) (m.inflated F key) := by
  refine ⟨?_, NDArray.ofFn_wf _ _, fun idx hidx => ?_⟩
  · rw [ActiveMasks.inflated, NDArray.ofFn_shape]
    simp only [inflT, List.map_map]
    refine List.map_congr_left fun c hc => ?_
    rcases hkey c hc with rfl | rfl <;> simp [actSpace, ActiveMasks.sizes, ActiveMasks.cls]
  · rw [ActiveMasks.inflated, NDArray.ofFn_shape] at hidx
    have hl := InBox.length_eq hidx
    simp only [List.length_map] at hl
    rw [ActiveMasks.inflated, NDArray.get_ofFn _ _ hidx, inflT_val _ _ _ _ (by simpa using hlen) (by
      intro p hp
      obtain ⟨c, _, rfl⟩ := List.mem_map.1 hp
      have := (actPair_lt c).2
      simp only [actPair] at this
      exact ⟨this, by simp only; omega⟩), hT, inflVal_scatter m key hkey idx (by omega), hF, List.map_snd_zip]
    · rfl
    · simp [blockIdx, hl]

theorem xVals_rep (h : GHam R) (t : GAmps R) (t4 : List Nat → R) (m : ActiveMasks) (name : List Char) (v : TArg)
    (hv : xVals name = some v) : ∃ a, xArgs h t t4 m name = some a ∧ ArgRep m.sizes (xTensor h t t4 m) v a := by
  have h64 : xTensor h t t4 m 64 = selT m := rfl
  have h3 : ∀ os, xTensor h t t4 m 18 os = t.list3 (os.map Prod.snd) := by
    intro os
    change tens6 (fun i j k a b c => t.a3 i.2 j.2 k.2 a.2 b.2 c.2) os = _
    unfold tens6
    split
    · rfl
    · rename_i hne
      unfold GAmps.list3
      split
      · rename_i heq
        match os, heq with
        | [_, _, _, _, _, _], _ => exact absurd rfl (hne _ _ _ _ _ _)
      · rfl
  unfold xVals at hv
  split at hv
  · cases hv; exact ⟨_, rfl, block_rep m _ h64 16 (key := ['o', 'v']) rfl (by decide)⟩
  · cases hv; exact ⟨_, rfl, block_rep m _ h64 17 (key := ['o', 'o', 'v', 'v']) rfl (by decide)⟩
  · cases hv; exact ⟨_, rfl, amp_rep m _ t.list3 18 h3 (key := ['O', 'O', 'O', 'V', 'V', 'V']) rfl⟩
  · cases hv; exact ⟨_, rfl, amp_rep m _ t4 65 (fun _ => rfl) (key := ['O', 'O', 'O', 'O', 'V', 'V', 'V', 'V']) rfl⟩
  · cases hv; exact ⟨_, rfl, inflated_rep m _ h64 t.list3 18 h3 (key := ['O', 'O', 'O', 'V', 'V', 'V']) (by decide) (by decide)⟩
  · cases hv
    exact ⟨_, rfl, inflated_rep m _ h64 t4 65 (fun _ => rfl) (key := ['O', 'O', 'O', 'O', 'V', 'V', 'V', 'V']) (by decide)
      (by decide)⟩
  · cases hv; exact ⟨_, rfl, blk_rep _ _ 64 [0, 4] (by decide)⟩
  · cases hv; exact ⟨_, rfl, blk_rep _ _ 64 [1, 5] (by decide)⟩
  · split at hv
    · rename_i key hc
      cases hv
      refine ⟨m.block (tens2 h.f) key, ?_, block_rep m _ h64 2 hc.1 (by omega)⟩
      simp [xArgs, GHam.activeArgs, hc.1]
    · cases hv
  · split at hv
    · rename_i key hc
      cases hv
      refine ⟨m.block (tens4 h.v) key, ?_, block_rep m _ h64 3 hc.1 (by omega)⟩
      simp [xArgs, GHam.activeArgs, hc.1]
    · cases hv
  · cases hv

theorem xArgs_but (h : GHam R) (t : GAmps R) (t4 : List Nat → R) (m : ActiveMasks) (name : List Char) :
    xArgs h t t4 m (argBut extTags name) = h.activeArgs t t4 m name := by
  cases name with
  | nil => rfl
  | cons c name =>
    cases hc : extTags.contains c with
    | true =>
      simp only [argBut, hc, cond_true]
      simp only [extTags, List.contains_cons, List.contains_nil, Bool.or_false, Bool.or_eq_true, beq_iff_eq] at hc
      rcases hc with rfl | rfl | rfl | rfl | rfl | rfl <;> rfl
    | false =>
      simp only [argBut, hc, cond_false]
      unfold xArgs
      split
      · rename_i heq; cases heq; cases hc
      · rename_i heq; cases heq; cases hc
      · rename_i heq; cases heq; cases hc
      · rename_i heq; cases heq; cases hc
      · rfl

theorem xArgs_ext (h : GHam R) (t : GAmps R) (t4 : List Nat → R) (m : ActiveMasks) (name : List Char) :
    xArgs h t t4 m (extArg name) = h.inflatedArgs t t4 m name := by
  unfold extArg GHam.inflatedArgs
  split
  · rfl
  · rfl
  · rename_i h3 h4
    rw [xArgs_but]
    split
    · exact absurd rfl h3
    · exact absurd rfl h4
    · rfl

/-! ### Values -/

/-- 1 if the orbital is the active one with this number. -/
def isSel (R : Type) [Field R] (l : List Bool) (i v : Nat) : R := if (maskInds l)[v]? = some i then 1 else 0

theorem scat2 (m1 m2 : List Bool) (i1 i2 : Nat) (f : Nat → Nat → R) :
    (sumTo (m1.count true) fun x => sumTo (m2.count true) fun y => f x y * (isSel R m1 i1 x * isSel R m2 i2 y)) =
      if m1.getD i1 false = true ∧ m2.getD i2 false = true then f ((m1.take i1).count true) ((m2.take i2).count true)
      else 0 := by
  have e : ∀ x, (sumTo (m2.count true) fun y => f x y * (isSel R m1 i1 x * isSel R m2 i2 y)) =
      isSel R m1 i1 x * (if m2.getD i2 false = true then f x ((m2.take i2).count true) else 0) := by
    intro x
    rw [← scatter_sum m2 i2, ← sumTo_mul_left]
    refine sumTo_congr fun y _ => ?_
    unfold isSel
    ring
  simp only [e]
  unfold isSel
  rw [scatter_sum m1 i1 fun x => if m2.getD i2 false = true then f x ((m2.take i2).count true) else 0]
  split <;> split <;> simp_all

theorem scat3 (m1 m2 m3 : List Bool) (i1 i2 i3 : Nat) (f : Nat → Nat → Nat → R) :
    (sumTo (m1.count true) fun x => sumTo (m2.count true) fun y => sumTo (m3.count true) fun z =>
      f x y z * (isSel R m1 i1 x * (isSel R m2 i2 y * isSel R m3 i3 z))) =
      if m1.getD i1 false = true ∧ m2.getD i2 false = true ∧ m3.getD i3 false = true then
        f ((m1.take i1).count true) ((m2.take i2).count true) ((m3.take i3).count true) else 0 := by
  have e : ∀ x, (sumTo (m2.count true) fun y => sumTo (m3.count true) fun z =>
      f x y z * (isSel R m1 i1 x * (isSel R m2 i2 y * isSel R m3 i3 z))) =
      isSel R m1 i1 x * (if m2.getD i2 false = true ∧ m3.getD i3 false = true then
        f x ((m2.take i2).count true) ((m3.take i3).count true) else 0) := by
    intro x
    rw [← scat2 m2 m3 i2 i3, ← sumTo_mul_left]
    refine sumTo_congr fun y _ => ?_
    rw [← sumTo_mul_left]
    refine sumTo_congr fun z _ => ?_
    ring
  simp only [e]
  unfold isSel
  rw [scatter_sum m1 i1 fun x => if m2.getD i2 false = true ∧ m3.getD i3 false = true then
        f x ((m2.take i2).count true) ((m3.take i3).count true) else 0]
  split <;> split <;> simp_all

theorem scat4 (m1 m2 m3 m4 : List Bool) (i1 i2 i3 i4 : Nat) (f : Nat → Nat → Nat → Nat → R) :
    (sumTo (m1.count true) fun x => sumTo (m2.count true) fun y => sumTo (m3.count true) fun z =>
      sumTo (m4.count true) fun w =>
      f x y z w * (isSel R m1 i1 x * (isSel R m2 i2 y * (isSel R m3 i3 z * isSel R m4 i4 w)))) =
      if m1.getD i1 false = true ∧ m2.getD i2 false = true ∧ m3.getD i3 false = true ∧ m4.getD i4 false = true then
        f ((m1.take i1).count true) ((m2.take i2).count true) ((m3.take i3).count true) ((m4.take i4).count true)
      else 0 := by
  have e : ∀ x, (sumTo (m2.count true) fun y => sumTo (m3.count true) fun z => sumTo (m4.count true) fun w =>
      f x y z w * (isSel R m1 i1 x * (isSel R m2 i2 y * (isSel R m3 i3 z * isSel R m4 i4 w)))) =
      isSel R m1 i1 x * (if m2.getD i2 false = true ∧ m3.getD i3 false = true ∧ m4.getD i4 false = true then
        f x ((m2.take i2).count true) ((m3.take i3).count true) ((m4.take i4).count true) else 0) := by
    intro x
    rw [← scat3 m2 m3 m4 i2 i3 i4, ← sumTo_mul_left]
    refine sumTo_congr fun y _ => ?_
    rw [← sumTo_mul_left]
    refine sumTo_congr fun z _ => ?_
    rw [← sumTo_mul_left]
    refine sumTo_congr fun w _ => ?_
    ring
  simp only [e]
  unfold isSel
  rw [scatter_sum m1 i1 fun x => if m2.getD i2 false = true ∧ m3.getD i3 false = true ∧ m4.getD i4 false = true then
        f x ((m2.take i2).count true) ((m3.take i3).count true) ((m4.take i4).count true) else 0]
  split <;> split <;> simp_all

theorem selO_get (m : ActiveMasks) {i k : Nat} (hi : i < m.occ.length) (hk : k < m.occ.count true) :
    (blockArr m.sizes (selT m : List Orb → R) [0, 4]).get [i, k] = isSel R m.occ i k :=
  blockArr_get _ _ _ _ (.cons hi (.cons hk .nil))

theorem selV_get (m : ActiveMasks) {i k : Nat} (hi : i < m.vir.length) (hk : k < m.vir.count true) :
    (blockArr m.sizes (selT m : List Orb → R) [1, 5]).get [i, k] = isSel R m.vir i k :=
  blockArr_get _ _ _ _ (.cons hi (.cons hk .nil))

theorem all_getD {n i : Nat} (h : i < n) : (List.replicate n true).getD i false = true := by
  simp [h]

theorem all_take {n i : Nat} (h : i < n) : ((List.replicate n true).take i).count true = i := by
  simp [List.take_replicate]; omega

theorem scatTerm1_val (m : ActiveMasks) (av : List Char → Option (NDArray R)) (x : NDArray R)
    (hx : av (chars! "Et1new.OV") = some x) (ho : av (chars! "S.oO") = some (blockArr m.sizes (selT m) [0, 4]))
    (hv : av (chars! "S.vV") = some (blockArr m.sizes (selT m) [1, 5])) {i a : Nat} (hi : i < m.occ.length)
    (ha : a < m.vir.length) :
    (⟨-1, 1, [(chars! "Et1new.OV", [2, 3]), (chars! "S.oO", [0, 2]), (chars! "S.vV", [1, 3])]⟩ : ITerm).val m.sizes
      [0, 1, 4, 5] 2 av [i, a] = -blockElem (['O', 'V'].map m.cls) x [i, a] := by
  simp only [ITerm.val, einValue, List.map_cons, List.map_nil, hx, ho, hv, Option.getD_some]
  rw [show einDummies [[2, 3], [0, 2], [1, 3]] (List.range 2) = [2, 3] from by decide]
  rw [show ((-1 : Int) : R) / ((1 : Nat) : R) = -1 by simp, neg_one_mul]
  apply congrArg
  simp only [einSum_cons_sumTo, einSum_nil, einProd, List.map_cons, List.map_nil, List.prod_cons, List.prod_nil, mul_one]
  refine Eq.trans (sumTo_congr fun x2 h2 => sumTo_congr fun x3 h3 => ?_) ((scat2 m.occ m.vir i a
    fun p q => x.get [p, q]).trans ?_)
  · exact congrArg₂ (· * ·) rfl (congrArg₂ (· * ·) (selO_get m hi h2) (selV_get m ha h3))
  · simp [blockElem, inBlock, blockIdx, ActiveMasks.cls]

theorem scatTerm_val (m : ActiveMasks) (tag : Char) (av : List Char → Option (NDArray R)) {key : List Char}
    (hkey : key ∈ extKeys2) (x : NDArray R)
    (hx : av (tag :: (chars! "t2new." ++ key)) = some x)
    (ho : av (chars! "S.oO") = some (blockArr m.sizes (selT m) [0, 4]))
    (hv : av (chars! "S.vV") = some (blockArr m.sizes (selT m) [1, 5])) {i j a b : Nat} (hi : i < m.occ.length)
    (hj : j < m.occ.length) (ha : a < m.vir.length) (hb : b < m.vir.length) :
    (scatTerm tag key).val m.sizes [0, 0, 1, 1, 4, 4, 5, 5] 4 av [i, j, a, b] =
      -blockElem (key.map m.cls) x [i, j, a, b] := by
  simp only [extKeys2, List.mem_cons, List.not_mem_nil, or_false] at hkey
  rcases hkey with rfl | rfl | rfl | rfl | rfl <;>
    simp only [scatTerm, scatLabels, scatOps, ITerm.val, einValue, List.map_cons, List.map_nil, hx, ho, hv,
      Option.getD_some] <;>
    rw [show ((-1 : Int) : R) / ((1 : Nat) : R) = -1 by simp, neg_one_mul] <;>
    apply congrArg
  · rw [show einDummies [[4, 5, 6, 7], [0, 4], [1, 5], [2, 6], [3, 7]] (List.range 4) = [4, 5, 6, 7] from by decide]
    simp only [einSum_cons_sumTo, einSum_nil, einProd, List.map_cons, List.map_nil, List.prod_cons, List.prod_nil, mul_one]
    refine Eq.trans (sumTo_congr fun x4 h4 => sumTo_congr fun x5 h5 => sumTo_congr fun x6 h6 => sumTo_congr fun x7 h7 => ?_)
      ((scat4 m.occ m.occ m.vir m.vir i j a b fun p q r s => x.get [p, q, r, s]).trans ?_)
    · exact congrArg₂ (· * ·) rfl (congrArg₂ (· * ·) (selO_get m hi h4) (congrArg₂ (· * ·) (selO_get m hj h5)
        (congrArg₂ (· * ·) (selV_get m ha h6) (selV_get m hb h7))))
    · simp [blockElem, inBlock, blockIdx, ActiveMasks.cls]
  · rw [show einDummies [[4, 1, 6, 7], [0, 4], [2, 6], [3, 7]] (List.range 4) = [4, 6, 7] from by decide]
    simp only [einSum_cons_sumTo, einSum_nil, einProd, List.map_cons, List.map_nil, List.prod_cons, List.prod_nil, mul_one]
    refine Eq.trans (sumTo_congr fun x4 h4 => sumTo_congr fun x6 h6 => sumTo_congr fun x7 h7 => ?_)
      ((scat3 m.occ m.vir m.vir i a b fun p r s => x.get [p, j, r, s]).trans ?_)
    · exact congrArg₂ (· * ·) rfl (congrArg₂ (· * ·) (selO_get m hi h4)
        (congrArg₂ (· * ·) (selV_get m ha h6) (selV_get m hb h7)))
    · simp [blockElem, inBlock, blockIdx, ActiveMasks.cls, hj, Nat.min_eq_left hj.le, List.take_replicate]
  · rw [show einDummies [[0, 5, 6, 7], [1, 5], [2, 6], [3, 7]] (List.range 4) = [5, 6, 7] from by decide]
    simp only [einSum_cons_sumTo, einSum_nil, einProd, List.map_cons, List.map_nil, List.prod_cons, List.prod_nil, mul_one]
    refine Eq.trans (sumTo_congr fun x4 h4 => sumTo_congr fun x6 h6 => sumTo_congr fun x7 h7 => ?_)
      ((scat3 m.occ m.vir m.vir j a b fun p r s => x.get [i, p, r, s]).trans ?_)
    · exact congrArg₂ (· * ·) rfl (congrArg₂ (· * ·) (selO_get m hj h4)
        (congrArg₂ (· * ·) (selV_get m ha h6) (selV_get m hb h7)))
    · simp [blockElem, inBlock, blockIdx, ActiveMasks.cls, hi, Nat.min_eq_left hi.le, List.take_replicate]
  · rw [show einDummies [[4, 5, 2, 7], [0, 4], [1, 5], [3, 7]] (List.range 4) = [4, 5, 7] from by decide]
    simp only [einSum_cons_sumTo, einSum_nil, einProd, List.map_cons, List.map_nil, List.prod_cons, List.prod_nil, mul_one]
    refine Eq.trans (sumTo_congr fun x4 h4 => sumTo_congr fun x6 h6 => sumTo_congr fun x7 h7 => ?_)
      ((scat3 m.occ m.occ m.vir i j b fun p q s => x.get [p, q, a, s]).trans ?_)
    · exact congrArg₂ (· * ·) rfl (congrArg₂ (· * ·) (selO_get m hi h4)
        (congrArg₂ (· * ·) (selO_get m hj h6) (selV_get m hb h7)))
    · simp [blockElem, inBlock, blockIdx, ActiveMasks.cls, ha, Nat.min_eq_left ha.le, List.take_replicate]
  · rw [show einDummies [[4, 5, 6, 3], [0, 4], [1, 5], [2, 6]] (List.range 4) = [4, 5, 6] from by decide]
    simp only [einSum_cons_sumTo, einSum_nil, einProd, List.map_cons, List.map_nil, List.prod_cons, List.prod_nil, mul_one]
    refine Eq.trans (sumTo_congr fun x4 h4 => sumTo_congr fun x6 h6 => sumTo_congr fun x7 h7 => ?_)
      ((scat3 m.occ m.occ m.vir i j a fun p q r => x.get [p, q, r, b]).trans ?_)
    · exact congrArg₂ (· * ·) rfl (congrArg₂ (· * ·) (selO_get m hi h4)
        (congrArg₂ (· * ·) (selO_get m hj h6) (selV_get m ha h7)))
    · simp [blockElem, inBlock, blockIdx, ActiveMasks.cls, hb, Nat.min_eq_left hb.le, List.take_replicate]

end
end Ebcc
