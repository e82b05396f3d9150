import Verif.Model.Utilities
import Verif.Lemmas.Groups
import Mathlib.Data.Nat.Factorial.Basic
import Mathlib.Algebra.BigOperators.Group.List.Basic
import Mathlib.Algebra.Order.Group.Int

/-!
C61: the small utilities.  `regularise_tuple` accepts one tuple (or list) or its items and rejects everything
else, `is_mixed_spin` asks whether the spins differ, `factorial` and `prod` are the factorial and the product.
-/

namespace Ebcc

/-- C61: `func(t)` and `func(*t)` give the items of `t`, for a tuple `t` whose first item is not itself a tuple. -/
theorem C61_regularise_forms {α : Type} (a : α) (rest : List α) :
    regulariseTuple [.seq (a :: rest)] = .ok ((a :: rest).map .item) ∧
    regulariseTuple ((a :: rest).map .item) = .ok ((a :: rest).map .item) := by
  simp [regulariseTuple]

/-- C61: when `regularise_tuple` raises, and with which exception: a tuple followed by anything is a `ValueError`, no
argument at all an `IndexError`, all other calls are accepted. -/
theorem C61_regularise_raises {α : Type} (args : List (TupleArg α)) :
    (regulariseTuple args = .error .valueError ↔ 2 ≤ args.length ∧ ∃ t, args.head? = some (.seq t)) ∧
    (regulariseTuple args = .error .indexError ↔ args = []) ∧
    (∀ e, regulariseTuple args = .error e → e = .valueError ∨ e = .indexError) := by
  match args with
  | [] => simp [regulariseTuple]
  | .item a :: rest => simp [regulariseTuple]
  | .seq t :: [] => simp [regulariseTuple]
  | .seq t :: b :: rest => simp [regulariseTuple]

/-- C61: a call without a tuple in front returns its arguments, a call with one tuple its items. -/
theorem C61_regularise_result {α : Type} (args out : List (TupleArg α)) (h : regulariseTuple args = .ok out) :
    (∃ t, args = [.seq t] ∧ out = t.map .item) ∨ ((∃ a, args.head? = some (.item a)) ∧ out = args) := by
  match args, h with
  | .item a :: rest, h =>
    simp only [regulariseTuple, Except.ok.injEq] at h
    exact Or.inr ⟨⟨a, rfl⟩, h.symm⟩
  | .seq t :: [], h =>
    simp only [regulariseTuple, List.length_nil, zero_add, gt_iff_lt, lt_self_iff_false, if_false,
      Except.ok.injEq] at h
    exact Or.inl ⟨t, rfl, h.symm⟩
  | .seq t :: b :: rest, h => simp [regulariseTuple] at h

example : regulariseTuple [TupleArg.seq [1, 2, 3]] = .ok [.item 1, .item 2, .item 3] ∧
    regulariseTuple [TupleArg.item 1, .item 2, .item 3] = .ok [.item 1, .item 2, .item 3] ∧
    regulariseTuple [TupleArg.seq [1], .item 2] = .error .valueError := by decide

/-- C61: a spin string is mixed iff it is not the repetition of one spin; the empty string counts as mixed. -/
theorem C61_mixed_spin {α : Type} [DecidableEq α] (s : List α) :
    isMixedSpin s = true ↔ s = [] ∨ ∃ x ∈ s, ∃ y ∈ s, x ≠ y := by
  unfold isMixedSpin
  rw [decide_eq_true_iff]
  have hmem : ∀ x, x ∈ unique s ↔ x ∈ s := fun x => mem_unique
  have hnd := unique_nodup s
  rcases hu : unique s with _ | ⟨a, _ | ⟨b, l⟩⟩
  · have : s = [] := List.eq_nil_iff_forall_not_mem.2 fun x hx => by
      have := (hmem x).2 hx; rw [hu] at this; cases this
    simp [this]
  · simp only [List.length_singleton, ne_eq, not_true_eq_false, false_iff, not_or, not_exists, not_and,
      Decidable.not_not]
    constructor
    · rintro rfl; simp [unique, uniqueLoop] at hu
    · intro x hx y hy
      have h1 := (hmem x).2 hx; have h2 := (hmem y).2 hy
      rw [hu, List.mem_singleton] at h1 h2
      rw [h1, h2]
  · rw [hu] at hnd
    simp only [List.length_cons, ne_eq]
    refine ⟨fun _ => Or.inr ⟨a, (hmem a).1 (by rw [hu]; simp), b, (hmem b).1 (by rw [hu]; simp), ?_⟩,
      fun _ => by omega⟩
    rintro rfl
    simp at hnd

example : isMixedSpin "aba".toList = true ∧ isMixedSpin "bb".toList = false ∧
    isMixedSpin "".toList = true := by decide

/-- C61: `unique` lists the elements in the order of their first occurrences. -/
theorem C61_unique_order {α : Type} [DecidableEq α] (l : List α) :
    (unique l).Pairwise fun x y => l.idxOf x < l.idxOf y := by
  have aux : ∀ (l done : List α), (uniqueLoop done l).Pairwise fun x y => l.idxOf x < l.idxOf y := by
    intro l
    induction l with
    | nil => intro done; simp [uniqueLoop]
    | cons a l ih =>
      have hmem : ∀ (l done : List α) (x : α), x ∈ uniqueLoop done l → x ∉ done := by
        intro l
        induction l with
        | nil => simp [uniqueLoop]
        | cons b l ih =>
          intro done x hx
          simp only [uniqueLoop] at hx
          split at hx
          · exact ih done x hx
          · rename_i hb
            rcases List.mem_cons.1 hx with rfl | hx
            · exact hb
            · exact fun hd => ih (b :: done) x hx (List.mem_cons_of_mem _ hd)
      have hstep : ∀ (done : List α), (∀ x, x ∈ done → True) → a ∈ done →
          ∀ x y, x ∈ uniqueLoop done l → y ∈ uniqueLoop done l → l.idxOf x < l.idxOf y →
          (a :: l).idxOf x < (a :: l).idxOf y := by
        intro done _ ha x y hx hy h
        have hxa : a ≠ x := fun e => hmem l done x hx (e ▸ ha)
        have hya : a ≠ y := fun e => hmem l done y hy (e ▸ ha)
        rw [List.idxOf_cons_ne _ hxa, List.idxOf_cons_ne _ hya]
        omega
      intro done
      simp only [uniqueLoop]
      split
      · rename_i ha
        exact (List.Pairwise.and_mem.1 (ih done)).imp fun ⟨hx, hy, h⟩ =>
          hstep done (fun _ _ => trivial) ha _ _ hx hy h
      · rw [List.pairwise_cons]
        constructor
        · intro y hy
          have hya : a ≠ y := fun e => hmem l (a :: done) y hy (e ▸ List.mem_cons_self)
          rw [List.idxOf_cons_self, List.idxOf_cons_ne _ hya]
          omega
        · exact (List.Pairwise.and_mem.1 (ih (a :: done))).imp fun ⟨hx, hy, h⟩ =>
            hstep (a :: done) (fun _ _ => trivial) List.mem_cons_self _ _ hx hy h
  exact aux l []

example : unique "cabcb".toList = "cab".toList := by decide

/-- C61: `factorial(n)` is `n!` for every natural `n`, given enough stack. -/
theorem C61_factorial (n fuel : Nat) (h : n < fuel) : factorialRec fuel n = .ok (Nat.factorial n : Int) := by
  induction n generalizing fuel with
  | zero =>
    obtain ⟨f, rfl⟩ : ∃ f, fuel = f + 1 := ⟨fuel - 1, by omega⟩
    simp [factorialRec]
  | succ n ih =>
    obtain ⟨f, rfl⟩ : ∃ f, fuel = f + 1 := ⟨fuel - 1, by omega⟩
    by_cases h1 : n = 0
    · subst h1; simp [factorialRec]
    · have h2 : ¬ (((n + 1 : Nat) : Int) = 0 ∨ ((n + 1 : Nat) : Int) = 1) := by omega
      simp only [factorialRec, if_neg h2]
      have h3 : ((n + 1 : Nat) : Int) - 1 = (n : Int) := by omega
      rw [h3, ih f (by omega)]
      simp only [bind, Except.bind, Nat.factorial_succ]
      push_cast
      rfl

/-- C61: for a negative number the recursion never ends: `RecursionError` for every stack. -/
theorem C61_factorial_negative (n : Int) (fuel : Nat) (h : n < 0) :
    factorialRec fuel n = .error .recursionError := by
  induction fuel generalizing n with
  | zero => rfl
  | succ f ih =>
    have h2 : ¬ (n = 0 ∨ n = 1) := by omega
    simp only [factorialRec, if_neg h2]
    rw [ih (n - 1) (by omega)]
    rfl

example : factorialRec 1000 5 = .ok 120 := by decide

/-- C61: `prod` is the product, one for no values. -/
theorem C61_prod (values : List Int) : prodLoop values = values.prod := by
  unfold prodLoop
  have aux : ∀ (l : List Int) (x : Int), l.foldl (fun out value => out * value) x = x * l.prod := by
    intro l
    induction l with
    | nil => simp
    | cons a l ih => intro x; rw [List.foldl_cons, ih, List.prod_cons, mul_assoc]
  rw [aux, one_mul]

example : prodLoop [2, 3, 4] = 24 := by decide

end Ebcc
