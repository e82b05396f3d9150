import Verif.Tensor.Density
import Verif.Spec.Vanish
/-!
Identities between generated functions when some of their arguments are zero.
-/

namespace Ebcc

/-- The names of the amplitudes of a sort. -/
def GSort.argNames : GSort → List (List Char)
  | .t1 => [['t', '1'], ['l', '1']]
  | .t2 => [['t', '2'], ['l', '2']]
  | .t3 => [['t', '3'], ['l', '3']]
  | .s1 => [['s', '1'], ['l', 's', '1']]
  | .s2 => [['s', '2'], ['l', 's', '2']]
  | .u11 => [['u', '1', '1'], ['l', 'u', '1', '1']]
  | .u12 => [['u', '1', '2'], ['l', 'u', '1', '2']]

/-- The arguments that are zero: amplitudes of the given sorts, the coupling if `g`, the Fock matrix if `f`. -/
def zeroName (off : List GSort) (g f : Bool) : List Char → Bool
  | 'g' :: '.' :: _ => g
  | 'f' :: '.' :: _ => f
  | name => off.any fun s => s.argNames.contains name

/-- The arguments, some of which are zero. -/
def zVals (off : List GSort) (g f : Bool) (name : List Char) : Option TArg :=
  (gVals name).map fun v => bif zeroName off g f name then (v.1, []) else v

section
variable {R : Type} [Field R]

theorem blockArr_zero (sz : Nat → Nat) (F : List Orb → R) (hF : ∀ l, F l = 0) (sp : List Nat) (idx : List Nat)
    (hidx : InBox (blockArr sz F sp).shape idx) : (blockArr sz F sp).get idx = 0 := by
  rw [blockArr, NDArray.ofFn_shape] at hidx
  rw [blockArr, NDArray.get_ofFn _ _ hidx, hF]

theorem tens1_zero {f : Orb → R} (hf : ∀ p, f p = 0) (l : List Orb) : tens1 f l = 0 := by
  unfold tens1; split
  · exact hf _
  · rfl

theorem tens2_zero {f : Orb → Orb → R} (hf : ∀ p q, f p q = 0) (l : List Orb) : tens2 f l = 0 := by
  unfold tens2; split
  · exact hf _ _
  · rfl

theorem tens3_zero {f : Orb → Orb → Orb → R} (hf : ∀ p q r, f p q r = 0) (l : List Orb) : tens3 f l = 0 := by
  unfold tens3; split
  · exact hf _ _ _
  · rfl

theorem tens4_zero {f : Orb → Orb → Orb → Orb → R} (hf : ∀ p q r s, f p q r s = 0) (l : List Orb) : tens4 f l = 0 := by
  unfold tens4; split
  · exact hf _ _ _ _
  · rfl

theorem tens6_zero {f : Orb → Orb → Orb → Orb → Orb → Orb → R} (hf : ∀ p q r s t u, f p q r s t u = 0) (l : List Orb) :
    tens6 f l = 0 := by
  unfold tens6; split
  · exact hf _ _ _ _ _ _
  · rfl

theorem args_zero (off : List GSort) (g f : Bool) (h : GHam R) (t l s : GAmps R) (sz : Nat → Nat)
    (ht : ∀ x ∈ off, t.Vanish x) (hl : ∀ x ∈ off, l.Vanish x) (hg : g = true → ∀ x p q, h.g x p q = 0)
    (hf : f = true → ∀ p q, h.f p q = 0) (name : List Char) (hz : zeroName off g f name = true) (a : NDArray R)
    (ha : h.argsD t l s sz name = some a) (idx : List Nat) (hidx : InBox a.shape idx) : a.get idx = 0 := by
  unfold zeroName at hz
  split at hz
  · rename_i key
    change h.args t l sz ('g' :: '.' :: key) = some a at ha
    unfold GHam.args at ha
    split at ha
    all_goals first | (rename_i heq; cases heq; done) | skip
    · rename_i key' heq
      cases hk : spacesOf key' with
      | none => rw [hk] at ha; cases ha
      | some sp =>
        rw [hk] at ha
        cases ha
        exact blockArr_zero _ _ (tens3_zero fun x p q => hg hz _ _ _) _ _ hidx
    · cases ha
  · rename_i key
    change h.args t l sz ('f' :: '.' :: key) = some a at ha
    unfold GHam.args at ha
    split at ha
    all_goals first | (rename_i heq; cases heq; done) | skip
    · rename_i key' heq
      cases hk : spacesOf key' with
      | none => rw [hk] at ha; cases ha
      | some sp =>
        rw [hk] at ha
        cases ha
        exact blockArr_zero _ _ (tens2_zero fun p q => hf hz _ _) _ _ hidx
    · cases ha
  · rw [List.any_eq_true] at hz
    obtain ⟨x, hx, hc⟩ := hz
    have h1 := ht x hx
    have h2 := hl x hx
    cases x <;>
      simp only [GSort.argNames, List.contains_cons, List.contains_nil, Bool.or_false, Bool.or_eq_true, beq_iff_eq] at hc <;>
      rcases hc with rfl | rfl <;> cases ha <;> refine blockArr_zero _ _ ?_ _ _ hidx <;>
      first
        | exact tens1_zero fun _ => h1 _
        | exact tens1_zero fun _ => h2 _
        | exact tens2_zero fun _ _ => h1 _ _
        | exact tens2_zero fun _ _ => h2 _ _
        | exact tens3_zero fun _ _ _ => h1 _ _ _
        | exact tens3_zero fun _ _ _ => h2 _ _ _
        | exact tens4_zero fun _ _ _ _ => h1 _ _ _ _
        | exact tens4_zero fun _ _ _ _ => h2 _ _ _ _
        | exact tens6_zero fun _ _ _ _ _ _ => h1 _ _ _ _ _ _
        | exact tens6_zero fun _ _ _ _ _ _ => h2 _ _ _ _ _ _

theorem zVals_rep (off : List GSort) (g f : Bool) (h : GHam R) (t l s : GAmps R) (sz : Nat → Nat)
    (ht : ∀ x ∈ off, t.Vanish x) (hl : ∀ x ∈ off, l.Vanish x) (hg : g = true → ∀ x p q, h.g x p q = 0)
    (hf : f = true → ∀ p q, h.f p q = 0) (name : List Char) (v : TArg) (hv : zVals off g f name = some v) :
    ∃ a, h.argsD t l s sz name = some a ∧ ArgRep sz (gTensor h t l s) v a := by
  unfold zVals at hv
  cases hw : gVals name with
  | none => rw [hw] at hv; cases hv
  | some w =>
    rw [hw, Option.map_some] at hv
    obtain ⟨a, a1, a2⟩ := gVals_rep sz h t l s name w hw
    cases hz : zeroName off g f name with
    | false =>
      rw [hz] at hv
      cases hv
      exact ⟨a, a1, a2⟩
    | true =>
      rw [hz] at hv
      cases hv
      exact ⟨a, a1, a2.shape, a2.wf, fun idx hidx => args_zero off g f h t l s sz ht hl hg hf name hz a a1 idx hidx⟩

/-- The value of a term with one operand and no sums. -/
theorem perm_val (sz : Nat → Nat) (sps : List Nat) (av : List Char → Option (NDArray R)) (num : Int) (name : List Char)
    (x : NDArray R) (hx : av name = some x) (nf : Nat) (idx : List Nat) (perm : List Nat) (hp : ∀ k ∈ perm, k < nf) :
    (⟨num, 1, [(name, perm)]⟩ : ITerm).val sz sps nf av idx = (num : R) * x.get (perm.map fun k => idx.getD k 0) := by
  simp only [ITerm.val, einValue, List.map_cons, List.map_nil, hx, Option.getD_some]
  have e : einDummies [perm] (List.range nf) = [] := by
    simp only [einDummies, List.filter_eq_nil_iff]
    intro k hk
    have : k ∈ perm := by simpa using hk
    simpa using hp k this
  rw [e, einSum_nil]
  simp only [einProd, List.map_cons, List.map_nil, List.prod_cons, List.prod_nil, mul_one, Nat.cast_one, div_one]

/-- Equal results as an identity; the calls have the tags `p` and `q`. -/
def SameRes.ident (p q : Char) (s : SameRes) : Ident :=
  ⟨s.sp, s.sp.length, [], [⟨1, 1, [(p :: s.name, List.range s.sp.length)]⟩, ⟨-1, 1, [(q :: s.name', s.perm)]⟩]⟩

/-- The axes exist. -/
def SameRes.ok (s : SameRes) : Bool := s.perm.all (Nat.blt · s.sp.length)

theorem map_range_getD (l : List Nat) : (List.range l.length).map (fun k => l.getD k 0) = l := by
  apply List.ext_getElem
  · simp
  · intro n h1 h2
    simp [h2]

theorem SameRes.holds_of_ident (s : SameRes) (hok : s.ok = true) (p q : Char) (sz : Nat → Nat) (r r' : Dict (List Char) (NDArray R))
    (av : List Char → Option (NDArray R)) (hP : ∀ name, av (p :: name) = r.get? name)
    (hQ : ∀ name, av (q :: name) = r'.get? name)
    (h1 : ∀ t ∈ (s.ident p q).terms, t.Ok sz (s.ident p q).sps av)
    (h2 : ∀ idx, InBox (((s.ident p q).sps.take (s.ident p q).nf).map sz) idx →
      ((s.ident p q).terms.map fun t => t.val sz (s.ident p q).sps (s.ident p q).nf av idx).sum = 0) : s.Holds sz r r' := by
  have hlt : ∀ k ∈ s.perm, k < s.sp.length := by
    intro k hk
    have := List.all_eq_true.1 hok k hk
    rwa [Nat.blt_eq] at this
  obtain ⟨x, x1, -, x3⟩ := h1 _ (List.mem_cons_self ..) _ (List.mem_singleton.2 rfl)
  obtain ⟨y, y1, -, y3⟩ := h1 _ (List.mem_cons_of_mem _ (List.mem_singleton.2 rfl)) _ (List.mem_singleton.2 rfl)
  have hget : ∀ k < s.sp.length, s.sp.getD k 16 = s.sp.getD k 0 := by
    intro k hk
    simp [hk]
  have xr := (hP _).symm.trans x1
  have yr := (hQ _).symm.trans y1
  refine ⟨⟨x, xr, ?_⟩, ⟨y, yr, ?_⟩, fun idx hidx => ?_⟩
  · rw [x3]
    change (List.range s.sp.length).map (fun k => sz (s.sp.getD k 16)) = s.sp.map sz
    rw [← map_range_getD s.sp, List.map_map, map_range_getD s.sp]
    exact List.map_congr_left fun k hk => by
      rw [hget k (List.mem_range.1 hk)]; rfl
  · rw [y3, List.map_map]
    change s.perm.map (fun k => sz (s.sp.getD k 16)) = _
    exact List.map_congr_left fun k hk => by
      rw [hget k (hlt k hk)]; rfl
  · have hl : idx.length = s.sp.length := by simpa using hidx.length_eq
    have := h2 idx (by simpa [SameRes.ident] using hidx)
    simp only [SameRes.ident, List.map_cons, List.map_nil, List.sum_cons, List.sum_nil, add_zero] at this
    rw [perm_val sz s.sp av 1 _ x x1 _ idx _ (by simp), perm_val sz s.sp av (-1) _ y y1 _ idx _ hlt, ← hl,
      map_range_getD] at this
    have e1 : elemOf r s.name idx = x.get idx := by
      have xr' : r.get? s.name = some x := xr
      rw [elemOf, xr']; rfl
    have e2 : elemOf r' s.name' (s.perm.map fun k => idx.getD k 0) = y.get (s.perm.map fun k => idx.getD k 0) := by
      have yr' : r'.get? s.name' = some y := yr
      rw [elemOf, yr']; rfl
    rw [e1, e2]
    push_cast at this
    linear_combination this

end
end Ebcc
