import Verif.Model.GenInts
/-!
Which intermediates a generated function deletes.
-/

namespace Ebcc

/-- The statement assigns the variable. -/
def GenStmt.assigns (k : Nat) : GenStmt → Bool
  | .set x _ _ _ | .add x _ _ _ | .zeros x _ | .eye x _ => Nat.beq x k
  | .del _ => false

/-- The statement deletes the variable. -/
def GenStmt.dels (k : Nat) : GenStmt → Bool
  | .del x => Nat.beq x k
  | _ => false

section
variable {R : Type} [Field R] [DecidableEq R] {method : ContractMethod}
  {path : List (List Char) → List Char → List (NDArray R) → List Contraction} {sizes : Nat → Nat}

theorem GenStmt.exec_unassigned {s : GenStmt} {st st' : GenStore R} {k : Nat} (ha : s.assigns k = false)
    (h : s.exec method path sizes st = .ok st') : st' k = if s.dels k then none else st k := by
  have ne : ∀ {x}, Nat.beq x k = false → k ≠ x := fun {x} hx e => by
    rw [e, Nat.beq_refl] at hx; cases hx
  cases s with
  | set x e num den =>
    simp only [GenStmt.exec, bind, Except.bind, pure, Except.pure] at h
    split at h
    · cases h
    · cases h
      simp [GenStmt.dels, Function.update_of_ne (ne ha)]
  | add x e num den =>
    simp only [GenStmt.exec, bind, Except.bind, pure, Except.pure] at h
    split at h
    · cases h
    · split at h
      · cases h
      · split at h
        · cases h
        · cases h
          simp [GenStmt.dels, Function.update_of_ne (ne ha)]
  | zeros x sp => cases h; simp [GenStmt.dels, Function.update_of_ne (ne ha)]
  | eye x sp => cases h; simp [GenStmt.dels, Function.update_of_ne (ne ha)]
  | del x =>
    simp only [GenStmt.exec] at h
    split at h
    · cases h
      cases hx : Nat.beq x k with
      | true =>
        have := Nat.eq_of_beq_eq_true hx
        subst this
        simp [GenStmt.dels]
      | false => simp [GenStmt.dels, hx, Function.update_of_ne (ne hx)]
    · cases h

theorem execAll_unassigned {k : Nat} : ∀ {l : List GenStmt} {st st' : GenStore R},
    (l.any (GenStmt.assigns k)) = false → execAll method path sizes l st = .ok st' →
      st' k = if l.any (GenStmt.dels k) then none else st k
  | [], st, st', _, h => by cases h; simp
  | s :: l, st, st', ha, h => by
    simp only [execAll, bind, Except.bind] at h
    split at h
    · cases h
    · rename_i st1 h1
      simp only [List.any_cons, Bool.or_eq_false_iff] at ha
      have e1 := GenStmt.exec_unassigned ha.1 h1
      have e2 := execAll_unassigned ha.2 h
      rw [e2, e1]
      simp only [List.any_cons]
      by_cases h1 : s.dels k = true <;> by_cases h2 : l.any (GenStmt.dels k) = true <;> simp only [h1, h2] <;> simp

omit [Field R] [DecidableEq R] in
theorem bindPositional_lt {vals : List Char → Option (NDArray R)} : ∀ {l : List (List Char)} {k : Nat}
    {st st' : GenStore R}, bindPositional vals l k st = .ok st' →
      (∀ j, j < k → st' j = st j) ∧ ∀ j, k ≤ j → j < k + l.length → (st' j).isSome = true
  | [], k, st, st', h => by
    cases h
    exact ⟨fun _ _ => rfl, fun j h1 h2 => absurd h2 (by simpa using h1)⟩
  | name :: l, k, st, st', h => by
    simp only [bindPositional] at h
    split at h
    · rename_i a ha
      obtain ⟨h1, h2⟩ := bindPositional_lt h
      refine ⟨fun j hj => ?_, fun j hj hj' => ?_⟩
      · rw [h1 j (by omega), Function.update_of_ne (by omega)]
      · by_cases e : j = k
        · subst e
          rw [h1 j (by omega)]
          simp
        · exact h2 j (by omega) (by simp only [List.length_cons] at hj'; omega)
    · cases h

theorem GenFun.run_fst (g : GenFun) (vals : List Char → Option (NDArray R)) :
    (g.run method path sizes vals).map Prod.fst = g.call method path sizes vals := by
  unfold GenFun.run GenFun.call
  simp only [bind, Except.bind, pure, Except.pure]
  split
  · rfl
  · split
    · rfl
    · split
      · rename_i h; rw [h]; rfl
      · rename_i h; rw [h]; rfl

/-- An argument that is not assigned is left after the call if and only if there is no `del`. -/
theorem GenFun.run_arg {g : GenFun} {vals : List Char → Option (NDArray R)} {r : Dict (List Char) (NDArray R) × GenStore R}
    (h : g.run method path sizes vals = .ok r) {k : Nat} (hk : k < g.args.length)
    (ha : g.body.any (GenStmt.assigns k) = false) : (r.2 k).isSome = !g.body.any (GenStmt.dels k) := by
  unfold GenFun.run at h
  simp only [bind, Except.bind, pure, Except.pure] at h
  split at h
  · cases h
  · rename_i st0 h0
    split at h
    · cases h
    · rename_i st1 h1
      split at h
      · cases h
      · cases h
        simp only
        rw [execAll_unassigned ha h1]
        have := (bindPositional_lt h0).2 k (Nat.zero_le _) (by omega)
        cases g.body.any (GenStmt.dels k) <;> simp [this]

/-- No statement assigns an argument. -/
def argsConst (M : GenFun) : Bool :=
  M.body.all fun s => match s with
    | .set x _ _ _ | .add x _ _ _ | .zeros x _ | .eye x _ => Nat.ble M.args.length x
    | .del _ => true

/-- No argument is assigned or deleted. -/
def keepsInts (M : GenFun) : Bool :=
  argsConst M && M.body.all fun s => match s with
    | .del x => Nat.ble M.args.length x
    | _ => true

/-- The deleted variables as the bits of a number. -/
def delMask : List GenStmt → Nat
  | [] => 0
  | .del x :: l => Nat.lor (Nat.shiftLeft 1 x) (delMask l)
  | _ :: l => delMask l

/-- No argument is assigned, and all entries returned by `I` are arguments of `M` that are deleted, with the given
positions. -/
def dropsInts (pos : List Nat) (I M : GenFun) : Bool :=
  argsConst M && pos.map (fun k => M.args[k]?) == I.ret.map (fun p => some (intsName p.1)) &&
    pos.all fun k => Nat.testBit (delMask M.body) k

theorem delMask_testBit (k : Nat) : ∀ l : List GenStmt, Nat.testBit (delMask l) k = l.any (GenStmt.dels k)
  | [] => by simp [delMask]
  | s :: l => by
    have ih := delMask_testBit k l
    cases s with
    | del x =>
      have : Nat.testBit (1 <<< x ||| delMask l) k = ((Nat.beq x k) || l.any (GenStmt.dels k)) := by
        rw [Nat.testBit_or, ih, Nat.one_shiftLeft, Nat.testBit_two_pow]
        congr 1
        exact (Bool.eq_iff_iff.2 (by rw [decide_eq_true_iff, Nat.beq_eq]))
      exact this
    | _ => exact ih

theorem argsConst_any {M : GenFun} (h : argsConst M = true) {k : Nat} (hk : k < M.args.length) :
    M.body.any (GenStmt.assigns k) = false := by
  rw [List.any_eq_false]
  intro s hs
  have := List.all_eq_true.1 h s hs
  cases s <;> simp only [GenStmt.assigns, Nat.ble_eq, Nat.beq_eq, Bool.false_eq_true, not_false_eq_true] at this ⊢ <;>
    omega

theorem keepsInts_any {M : GenFun} (h : keepsInts M = true) {k : Nat} (hk : k < M.args.length) :
    M.body.any (GenStmt.dels k) = false := by
  unfold keepsInts at h
  rw [Bool.and_eq_true] at h
  rw [List.any_eq_false]
  intro s hs
  have := List.all_eq_true.1 h.2 s hs
  cases s <;> simp only [GenStmt.dels, Nat.ble_eq, Nat.beq_eq, Bool.false_eq_true, not_false_eq_true] at this ⊢
  omega

omit [Field R] [DecidableEq R] in
theorem collect_keys {st : GenStore R} : ∀ {l : List (List Char × Nat)} {d : Dict (List Char) (NDArray R)},
    collect st l = .ok d → d.map Prod.fst = l.map Prod.fst
  | [], d, h => by cases h; rfl
  | (name, x) :: l, d, h => by
    simp only [collect, bind, Except.bind, pure, Except.pure] at h
    split at h
    · cases h
    · split at h
      · cases h
      · rename_i h2
        cases h
        simp [collect_keys h2]

theorem GenFun.call_keys {g : GenFun} {vals : List Char → Option (NDArray R)} {d : Dict (List Char) (NDArray R)}
    (h : g.call method path sizes vals = .ok d) : d.map Prod.fst = g.ret.map Prod.fst := by
  unfold GenFun.call at h
  simp only [bind, Except.bind] at h
  split at h
  · cases h
  · split at h
    · cases h
    · exact collect_keys h

theorem intsLeft_of_keeps {M : GenFun} (hc : keepsInts M = true) {vals' : List Char → Option (NDArray R)}
    (ints : Dict (List Char) (NDArray R))
    {r : Dict (List Char) (NDArray R) × GenStore R} (hr : M.run method path sizes vals' = .ok r) :
    M.intsLeft r.2 ints = ints := by
  unfold GenFun.intsLeft
  rw [List.filter_eq_self]
  intro p hp
  rw [List.all_eq_true]
  intro k hk
  have hk := List.mem_range.1 hk
  rw [GenFun.run_arg hr hk (argsConst_any (Bool.and_eq_true _ _ ▸ hc : _ ∧ _).1 hk), keepsInts_any hc hk]
  simp

theorem intsLeft_of_drops {pos : List Nat} {I M : GenFun} (hc : dropsInts pos I M = true)
    {vals vals' : List Char → Option (NDArray R)}
    {ints : Dict (List Char) (NDArray R)} (hi : I.call method path sizes vals = .ok ints)
    {r : Dict (List Char) (NDArray R) × GenStore R} (hr : M.run method path sizes vals' = .ok r) :
    M.intsLeft r.2 ints = [] := by
  unfold dropsInts at hc
  rw [Bool.and_eq_true, Bool.and_eq_true] at hc
  obtain ⟨⟨h1, h2⟩, h3⟩ := hc
  unfold GenFun.intsLeft
  rw [List.filter_eq_nil_iff]
  intro p hp
  have : p.1 ∈ I.ret.map Prod.fst := by
    rw [← GenFun.call_keys hi]; exact List.mem_map.2 ⟨p, hp, rfl⟩
  obtain ⟨q, hq, e⟩ := List.mem_map.1 this
  have : some (intsName p.1) ∈ pos.map fun k => M.args[k]? := by
    rw [eq_of_beq h2]
    exact List.mem_map.2 ⟨q, hq, by rw [e]⟩
  obtain ⟨k, hk, ek⟩ := List.mem_map.1 this
  have hlt : k < M.args.length := (List.getElem?_eq_some_iff.1 ek).1
  have hd := List.all_eq_true.1 h3 k hk
  rw [delMask_testBit] at hd
  intro hall
  have := List.all_eq_true.1 hall k (List.mem_range.2 hlt)
  rw [GenFun.run_arg hr hlt (argsConst_any h1 hlt), hd, ek] at this
  simp at this

end

end Ebcc
