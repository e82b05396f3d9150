import Verif.Model.Backends
import Verif.Lemmas.Array
/-!
C92: the functions which the backends CTF and TensorFlow define are those of NumPy.
-/

namespace Ebcc

section
variable {R : Type} [Zero R]

/-! ### `concatenate` -/

theorem addShape_ok92 (k : Nat) (s s' : List Nat) (i : Nat) (hl : s'.length = s.length)
    (h : ∀ j, i + j ≠ k → s'.getD j 0 = s.getD j 0) :
    ctfAddShape k i s s' = .ok (if i ≤ k then s.set (k - i) (s.getD (k - i) 0 + s'.getD (k - i) 0) else s) := by
  induction s generalizing s' i with
  | nil => simp [ctfAddShape]
  | cons a s ih =>
    cases s' with
    | nil => simp at hl
    | cons b s' =>
      have hl' : s'.length = s.length := by simpa using hl
      have h' : ∀ j, i + 1 + j ≠ k → s'.getD j 0 = s.getD j 0 := fun j hj => by
        simpa using h (j + 1) (by omega)
      rw [ctfAddShape, ih s' (i + 1) hl' h']
      by_cases hik : i = k
      · subst hik
        simp [pure, Except.pure, bind, Except.bind]
      · have hab : b = a := by simpa using h 0 (by omega)
        rw [if_neg hik, if_neg (by simp [hab])]
        by_cases hlt : i ≤ k
        · have e : k - i = (k - (i + 1)) + 1 := by omega
          rw [if_pos (by omega), if_pos hlt, e]
          simp [pure, Except.pure, bind, Except.bind]
        · rw [if_neg (by omega), if_neg hlt]
          simp [pure, Except.pure, bind, Except.bind]

theorem inBox_set92 {s idx : List Nat} (h : InBox s idx) (k n v : Nat) (hv : v < n) : InBox (s.set k n) (idx.set k v) := by
  unfold InBox at *
  induction h generalizing k with
  | nil => exact .nil
  | cons h1 h2 ih =>
    cases k with
    | zero => exact .cons hv h2
    | succ k => exact .cons h1 (ih k)

theorem inBox_getD92 {s idx : List Nat} (h : InBox s idx) (k : Nat) (hk : k < s.length) : idx.getD k 0 < s.getD k 0 := by
  unfold InBox at h
  induction h generalizing k with
  | nil => simp at hk
  | cons h1 h2 ih =>
    cases k with
    | zero => simpa using h1
    | succ k => simpa using ih k (by simpa using hk)

theorem set_getD92 (s : List Nat) (k : Nat) : s.set k (s.getD k 0) = s := by
  induction s generalizing k with
  | nil => rfl
  | cons a s ih =>
    cases k with
    | zero => rfl
    | succ k => simpa using ih k

theorem getD_set92 (s : List Nat) (k v : Nat) (hk : k < s.length) : (s.set k v).getD k 0 = v := by
  simp [hk]

theorem getD_set_ne92 (s : List Nat) (k j v : Nat) (hk : k ≠ j) : (s.set k v).getD j 0 = s.getD j 0 := by
  simp [List.getElem?_set_ne hk]

/-- The size of the axis. -/
def width92 (k : Nat) (a : NDArray R) : Nat := a.shape.getD k 0

theorem fill92 (k : Nat) (S : List Nat) (hk : k < S.length) (l : List (NDArray R)) (x : NDArray R) (start : Nat)
    (hx : x.shape = S) (hw : x.WF) (hs : start + (l.map (width92 k)).sum ≤ S.getD k 0)
    (hb : ∀ b ∈ l, b.shape = S.set k (width92 k b)) :
    ∃ y, ctfFill k x start l = .ok y ∧ y.shape = S ∧ y.WF ∧
      (∀ idx, InBox S idx → idx.getD k 0 < start → y.get idx = x.get idx) ∧
      ∀ n b, l[n]? = some b → ∀ idx, InBox b.shape idx →
        y.get (idx.set k (start + ((l.take n).map (width92 k)).sum + idx.getD k 0)) = b.get idx := by
  induction l generalizing x start with
  | nil => exact ⟨x, rfl, hx, hw, fun _ _ _ => rfl, by simp⟩
  | cons b l ih =>
    simp only [List.map_cons, List.sum_cons] at hs
    have hbs := hb b (by simp)
    have hkb : k < b.shape.length := by rw [hbs]; simpa using hk
    have hset : ctfSetSlice x k start b = .ok (.ofFn S fun idx =>
        if start ≤ idx.getD k 0 ∧ idx.getD k 0 < start + b.shape.getD k 0 then b.get (idx.set k (idx.getD k 0 - start))
        else x.get idx) := by
      rw [ctfSetSlice, hx, if_pos]
      have : min (start + b.shape.getD k 0) (S.getD k 0) - start = width92 k b := by
        unfold width92 at *; omega
      simp only [this]
      exact hbs
    obtain ⟨y, y1, y2, y3, y4, y5⟩ := ih _ (start + width92 k b) (NDArray.ofFn_shape S _) (NDArray.ofFn_wf S _)
      (by omega) (fun c hc => hb c (by simp [hc]))
    refine ⟨y, ?_, y2, y3, fun idx hi hlt => ?_, fun n c hn idx hi => ?_⟩
    · rw [ctfFill, if_pos hkb, hset]
      exact y1
    · rw [y4 idx hi (by omega), NDArray.get_ofFn _ _ hi, if_neg (by omega)]
    · cases n with
      | zero =>
        obtain rfl : b = c := by simpa using hn
        have hkl : k < idx.length := by rw [hi.length_eq]; exact hkb
        have hlt : idx.getD k 0 < width92 k b := inBox_getD92 hi k hkb
        simp only [List.take_zero, List.map_nil, List.sum_nil, Nat.add_zero]
        have hbox : InBox S (idx.set k (start + idx.getD k 0)) := by
          have := inBox_set92 hi k (S.getD k 0) (start + idx.getD k 0) (by omega)
          rwa [hbs, List.set_set, set_getD92] at this
        rw [y4 _ hbox (by rw [getD_set92 _ _ _ hkl]; omega), NDArray.get_ofFn _ _ hbox, getD_set92 _ _ _ hkl,
          if_pos ⟨by omega, by unfold width92 at hlt; omega⟩, List.set_set, Nat.add_sub_cancel_left, set_getD92]
      | succ n =>
        have := y5 n c (by simpa using hn) idx hi
        simp only [List.take_succ_cons, List.map_cons, List.sum_cons]
        rw [← this]
        congr 2
        omega

omit [Zero R] in
theorem foldShape92 (k : Nat) (S : List Nat) (hk : k < S.length) (l : List (NDArray R)) (n : Nat)
    (hb : ∀ b ∈ l, b.shape = S.set k (width92 k b)) :
    l.foldlM (fun s b => ctfAddShape k 0 s b.shape) (S.set k n) =
      (Except.ok (S.set k (n + (l.map (width92 k)).sum)) : Except PyErr _) := by
  induction l generalizing n with
  | nil => rfl
  | cons b l ih =>
    have hbs := hb b (by simp)
    rw [List.foldlM_cons, addShape_ok92 k _ _ 0 (by rw [hbs]; simp) (fun j hj => by
      rw [hbs, getD_set_ne92 _ _ _ _ (by omega), getD_set_ne92 _ _ _ _ (by omega)])]
    simp only [Nat.zero_le, if_true, Nat.sub_zero, List.set_set, getD_set92 _ _ _ hk]
    change l.foldlM _ (S.set k (n + width92 k b)) = _
    rw [ih _ fun c hc => hb c (by simp [hc])]
    simp only [List.map_cons, List.sum_cons, Nat.add_assoc]

/-- The shapes differ at the axis only. -/
def SameBut92 (k : Nat) (s s' : List Nat) : Prop := s'.length = s.length ∧ ∀ j, j ≠ k → s'.getD j 0 = s.getD j 0

theorem SameBut92.eq_set {k : Nat} {s s' : List Nat} (h : SameBut92 k s s') : s' = s.set k (s'.getD k 0) := by
  obtain ⟨hl, h⟩ := h
  apply List.ext_getElem
  · simp [hl]
  · intro j h1 h2
    by_cases hj : j = k
    · subst hj
      simp [h1]
    · have := h j hj
      rw [List.getElem_set_ne (Ne.symm hj)]
      simpa [h1, hl ▸ h1] using this

/-- The axis `k`, or counted from the end. -/
def IsAxis92 (axis : Int) (ndim k : Nat) : Prop := k < ndim ∧ (axis = k ∨ axis = (k : Int) - ndim)

theorem concat_eq92 (a : NDArray R) (as : List (NDArray R)) (axis : Int) (k : Nat) (hk : IsAxis92 axis a.shape.length k) :
    ctfConcatenate (a :: as) (some axis) =
      (as.foldlM (fun s b => ctfAddShape k 0 s b.shape) a.shape).bind fun shape => ctfFill k (.zeros shape) 0 (a :: as) := by
  obtain ⟨h1, h2⟩ := hk
  have : (if axis < 0 then axis + a.shape.length else axis) = k := by
    rcases h2 with rfl | rfl
    · rw [if_neg (by omega)]
    · rw [if_pos (by omega)]; omega
  simp only [ctfConcatenate, Option.getD_some, this, Int.toNat_natCast]
  rw [if_neg (by omega)]
  rfl

/-- `concatenate` returns an array in which each array is found behind the preceding ones. -/
theorem C92_concatenate (a : NDArray R) (as : List (NDArray R)) (axis : Int) (k : Nat)
    (hk : IsAxis92 axis a.shape.length k) (has : ∀ b ∈ as, SameBut92 k a.shape b.shape) :
    ∃ r, ctfConcatenate (a :: as) (some axis) = .ok r ∧ r.WF ∧
      r.shape = a.shape.set k ((a :: as).map fun b => b.shape.getD k 0).sum ∧
      ∀ n b, (a :: as)[n]? = some b → ∀ idx, InBox b.shape idx →
        r.get (idx.set k ((((a :: as).take n).map fun b => b.shape.getD k 0).sum + idx.getD k 0)) = b.get idx := by
  have hkl := hk.1
  have hset : ∀ b ∈ as, b.shape = a.shape.set k (width92 k b) := fun b hb => (has b hb).eq_set
  have hf := foldShape92 k a.shape hkl as (a.shape.getD k 0) hset
  rw [set_getD92] at hf
  rw [concat_eq92 a as axis k hk, hf]
  obtain ⟨y, y1, y2, y3, -, y5⟩ := fill92 k (a.shape.set k (a.shape.getD k 0 + (as.map (width92 k)).sum)) (by simpa using hkl)
    (a :: as) (.zeros _) 0 rfl (NDArray.ofFn_wf _ _) (by rw [getD_set92 _ _ _ hkl]; simp [width92])
    (by
      intro b hb
      rw [List.set_set]
      rcases List.mem_cons.1 hb with rfl | hb
      · exact (set_getD92 _ _).symm
      · exact hset b hb)
  refine ⟨y, y1, y3, y2, fun n b hn idx hi => ?_⟩
  have := y5 n b hn idx hi
  rw [Nat.zero_add] at this
  exact this

theorem fill_shape92 (k : Nat) (l : List (NDArray R)) (x y : NDArray R) (start : Nat) (h : ctfFill k x start l = .ok y) :
    ∀ b ∈ l, SameBut92 k x.shape b.shape := by
  induction l generalizing x start with
  | nil => simp
  | cons b l ih =>
    rw [ctfFill] at h
    split at h
    · cases hx : ctfSetSlice x k start b with
      | error e => rw [hx] at h; cases h
      | ok z =>
        rw [hx] at h
        have hz : z.shape = x.shape ∧ SameBut92 k x.shape b.shape := by
          unfold ctfSetSlice at hx
          simp only at hx
          split at hx
          · rename_i hs
            cases hx
            refine ⟨rfl, ?_, fun j hj => ?_⟩
            · rw [hs]; simp
            · rw [hs, getD_set_ne92 _ _ _ _ (Ne.symm hj)]
          · cases hx
        intro c hc
        rcases List.mem_cons.1 hc with rfl | hc
        · exact hz.2
        · rw [← hz.1]
          exact ih z _ h c hc
    · cases h

/-- Arrays whose shapes differ elsewhere are rejected. -/
theorem C92_concatenate_rejects (a : NDArray R) (as : List (NDArray R)) (axis : Int) (k : Nat)
    (hk : IsAxis92 axis a.shape.length k) (b : NDArray R) (hb : b ∈ as) (hne : ¬SameBut92 k a.shape b.shape) (r : NDArray R) :
    ctfConcatenate (a :: as) (some axis) ≠ .ok r := by
  rw [concat_eq92 a as axis k hk]
  intro h
  cases hs : as.foldlM (fun s b => ctfAddShape k 0 s b.shape) a.shape with
  | error e => rw [hs] at h; cases h
  | ok shape =>
    rw [hs] at h
    have := fill_shape92 k (a :: as) _ _ 0 h
    have h1 := this a (by simp)
    have h2 := this b (by simp [hb])
    exact hne ⟨h2.1.trans h1.1.symm, fun j hj => (h2.2 j hj).trans (h1.2 j hj).symm⟩

/-- The axis `None` of NumPy joins the raveled arrays; here it is the axis `0`. -/
theorem C92_concatenate_none_false : ¬∀ (arrays : List (NDArray Int)) (r : NDArray Int), ctfConcatenate arrays none = .ok r →
    r.shape = [(arrays.map fun a => prodN a.shape).sum] := by
  intro h
  have := h [⟨[1, 2], [1, 2]⟩, ⟨[1, 2], [3, 4]⟩] ⟨[2, 2], [1, 2, 3, 4]⟩ (by decide)
  revert this
  decide

example : ctfConcatenate [⟨[2, 1], [1, 2]⟩, ⟨[2, 2], [3, 4, 5, 6]⟩] (some (-1)) =
    (.ok ⟨[2, 3], [1, 3, 4, 2, 5, 6]⟩ : Except PyErr (NDArray Int)) := by decide

/-! ### `stack` and `block` -/

theorem prodN_insert92 (s : List Nat) (k : Nat) : prodN (s.take k ++ 1 :: s.drop k) = prodN s := by
  rw [prodN_append, prodN, Nat.one_mul, ← prodN_append, List.take_append_drop]

theorem ravel_insert92 (s idx : List Nat) (k : Nat) (hk : k ≤ s.length) (hl : idx.length = s.length) :
    ravelIdx (s.take k ++ 1 :: s.drop k) (idx.take k ++ 0 :: idx.drop k) = ravelIdx s idx := by
  induction s generalizing idx k with
  | nil =>
    obtain rfl : idx = [] := by simpa using hl
    obtain rfl : k = 0 := by simpa using hk
    rfl
  | cons n s ih =>
    cases idx with
    | nil => simp at hl
    | cons i idx =>
      cases k with
      | zero => simp [ravelIdx]
      | succ k =>
        simp only [List.take_succ_cons, List.drop_succ_cons, List.cons_append, ravelIdx]
        rw [ih idx k (by simpa using hk) (by simpa using hl), prodN_insert92]

theorem inBox_insert92 {s idx : List Nat} (h : InBox s idx) (k : Nat) :
    InBox (s.take k ++ 1 :: s.drop k) (idx.take k ++ 0 :: idx.drop k) := by
  unfold InBox at *
  induction h generalizing k with
  | nil => cases k <;> exact .cons (by decide) .nil
  | cons h1 h2 ih =>
    cases k with
    | zero => exact .cons (by decide) (.cons h1 h2)
    | succ k => exact .cons h1 (ih k)

theorem insert_getD92 (s : List Nat) (k v : Nat) (hk : k ≤ s.length) : (s.take k ++ v :: s.drop k).getD k 0 = v := by
  have : (s.take k).length = k := by simp [hk]
  simp [hk]

theorem insert_set92 (s : List Nat) (k v w : Nat) (hk : k ≤ s.length) :
    (s.take k ++ v :: s.drop k).set k w = s.take k ++ w :: s.drop k := by
  have : (s.take k).length = k := by simp [hk]
  rw [List.set_append_right _ _ (by omega)]
  simp [hk]

/-- `stack` joins arrays of one shape along a new axis. -/
theorem C92_stack (a : NDArray R) (as : List (NDArray R)) (k : Nat) (hk : k ≤ a.shape.length)
    (has : ∀ b ∈ as, b.shape = a.shape) (hw : ∀ b ∈ a :: as, b.WF) :
    ∃ r, ctfStack (a :: as) k = .ok r ∧ r.WF ∧
      r.shape = a.shape.take k ++ (a :: as).length :: a.shape.drop k ∧
      ∀ n b, (a :: as)[n]? = some b → ∀ idx, InBox a.shape idx → r.get (idx.take k ++ n :: idx.drop k) = b.get idx := by
  have hsh : ∀ b ∈ a :: as, b.shape = a.shape := by
    intro b hb
    rcases List.mem_cons.1 hb with rfl | hb
    exacts [rfl, has b hb]
  have hexp : ∀ l : List (NDArray R), (∀ b ∈ l, b ∈ a :: as) →
      l.mapM (fun a => NDArray.reshape a.data (pyInsert a.shape k 1)) =
        (Except.ok (l.map fun b => ⟨a.shape.take k ++ 1 :: a.shape.drop k, b.data⟩) : Except PyErr _) := by
    intro l hl
    induction l with
    | nil => rfl
    | cons b l ih =>
      have hb := hl b (by simp)
      have e : pyInsert b.shape k 1 = a.shape.take k ++ 1 :: a.shape.drop k := by
        simp only [pyInsert, hsh b hb]
        rw [if_neg (by omega)]
        simp [Nat.min_eq_left hk]
      rw [List.mapM_cons, ih fun c hc => hl c (by simp [hc]), e, NDArray.reshape, if_pos]
      · rfl
      · rw [prodN_insert92, ← hsh b hb]
        exact hw b hb
  have hlen : k < (a.shape.take k ++ 1 :: a.shape.drop k).length := by simp; omega
  rw [ctfStack, hexp _ fun _ h => h]
  obtain ⟨r, r1, r2, r3, r4⟩ := C92_concatenate (⟨a.shape.take k ++ 1 :: a.shape.drop k, a.data⟩ : NDArray R)
    (as.map fun b => ⟨a.shape.take k ++ 1 :: a.shape.drop k, b.data⟩) (k : Int) k ⟨hlen, .inl rfl⟩
    (by
      intro b hb
      obtain ⟨c, -, rfl⟩ := List.mem_map.1 hb
      exact ⟨rfl, fun _ _ => rfl⟩)
  rw [← List.map_cons (f := fun b : NDArray R => (⟨a.shape.take k ++ 1 :: a.shape.drop k, b.data⟩ : NDArray R))] at r1 r3 r4
  have hone : ∀ l : List (NDArray R), l.map ((fun b : NDArray R => b.shape.getD k 0) ∘ fun b : NDArray R =>
      (⟨a.shape.take k ++ 1 :: a.shape.drop k, b.data⟩ : NDArray R)) = l.map fun _ => 1 :=
    fun l => List.map_congr_left fun b _ => insert_getD92 _ _ _ hk
  refine ⟨r, r1, r2, ?_, fun n b hn idx hi => ?_⟩
  · rw [r3, insert_set92 _ _ _ _ hk, List.map_map]
    congr 2
    rw [hone]
    simp [Nat.add_comm]
  · have hb := List.mem_of_getElem? hn
    have hki : k ≤ idx.length := by rw [hi.length_eq]; exact hk
    have hn' : n < (a :: as).length := (List.getElem?_eq_some_iff.1 hn).1
    have := r4 n ⟨a.shape.take k ++ 1 :: a.shape.drop k, b.data⟩ (by rw [List.getElem?_map, hn]; rfl)
      (idx.take k ++ 0 :: idx.drop k) (inBox_insert92 hi k)
    rw [insert_set92 _ _ _ _ hki, insert_getD92 _ _ _ hki, Nat.add_zero, ← List.map_take, List.map_map, hone] at this
    have e : (((a :: as).take n).map fun _ => 1).sum = n := by
      rw [List.map_const', List.sum_replicate_nat, List.length_take]
      omega
    rw [e] at this
    rw [this]
    show b.data.getD _ _ = b.data.getD _ _
    rw [hsh b hb]
    exact congrArg (b.data.getD · 0) (ravel_insert92 _ _ _ hk hi.length_eq)

/-- A negative axis is not that of NumPy: `list.insert` takes it relative to the shape without the new axis. -/
theorem C92_stack_negative_false : ¬∀ (a b r : NDArray Int), a.WF → b.WF → a.shape = b.shape →
    ctfStack [a, b] (-1) = .ok r → r.shape = a.shape ++ [2] := by
  intro h
  have := h ⟨[2], [1, 2]⟩ ⟨[2], [3, 4]⟩ ⟨[1, 4], [1, 2, 3, 4]⟩ rfl rfl rfl (by decide)
  revert this
  decide

example : ctfStack [⟨[2], [1, 2]⟩, ⟨[2], [3, 4]⟩] 1 = (.ok ⟨[2, 2], [1, 3, 2, 4]⟩ : Except PyErr (NDArray Int)) := by decide

theorem row92 (row : List (NDArray R)) (hne : row ≠ []) (h : Nat) (hh : ∀ b ∈ row, ∃ w, b.shape = [h, w]) :
    ∃ r, ctfConcatenate row (some (-1)) = .ok r ∧ r.WF ∧ r.shape = [h, (row.map fun b => b.shape.getD 1 0).sum] ∧
      ∀ n b, row[n]? = some b → ∀ p q, p < h → q < b.shape.getD 1 0 →
        r.get [p, ((row.take n).map fun b => b.shape.getD 1 0).sum + q] = b.get [p, q] := by
  cases row with
  | nil => exact absurd rfl hne
  | cons a as =>
    obtain ⟨w, hw⟩ := hh a (by simp)
    obtain ⟨r, r1, r2, r3, r4⟩ := C92_concatenate a as (-1) 1 (by rw [hw]; exact ⟨by simp, .inr rfl⟩) (fun b hb => by
      obtain ⟨v, hv⟩ := hh b (by simp [hb])
      refine ⟨by rw [hv, hw]; rfl, fun j hj => ?_⟩
      rw [hv, hw]
      match j with
      | 0 => rfl
      | 1 => exact absurd rfl hj
      | j + 2 => rfl)
    refine ⟨r, r1, r2, ?_, fun n b hn p q hp hq => ?_⟩
    · rw [r3, hw]; rfl
    · obtain ⟨v, hv⟩ := hh b (List.mem_of_getElem? hn)
      rw [hv] at hq
      exact r4 n b hn [p, q] (by rw [hv]; exact .cons hp (.cons hq .nil))

/-- `block` of rows of matrices: each matrix is found below the preceding rows and behind the preceding matrices of
its row. -/
theorem C92_block (rows : List (List (NDArray R))) (hne : rows ≠ []) (height : List (NDArray R) → Nat) (W : Nat)
    (hrow : ∀ row ∈ rows, row ≠ [] ∧ (∀ b ∈ row, ∃ w, b.shape = [height row, w]) ∧
      (row.map fun b => b.shape.getD 1 0).sum = W) :
    ∃ r, ctfBlock rows = .ok r ∧ r.WF ∧ r.shape = [(rows.map height).sum, W] ∧
      ∀ m row, rows[m]? = some row → ∀ n b, row[n]? = some b → ∀ p q, p < height row → q < b.shape.getD 1 0 →
        r.get [((rows.take m).map height).sum + p, ((row.take n).map fun b => b.shape.getD 1 0).sum + q] = b.get [p, q] := by
  have hmap : ∀ l : List (List (NDArray R)), (∀ row ∈ l, row ∈ rows) →
      ∃ rs : List (NDArray R), l.mapM (fun row => ctfConcatenate row (some (-1))) = .ok rs ∧
        List.Forall₂ (fun row r => r.shape = [height row, W] ∧ ∀ n b, row[n]? = some b → ∀ p q, p < height row →
          q < b.shape.getD 1 0 → r.get [p, ((row.take n).map fun b => b.shape.getD 1 0).sum + q] = b.get [p, q]) l rs := by
    intro l hl
    induction l with
    | nil => exact ⟨[], rfl, .nil⟩
    | cons row l ih =>
      obtain ⟨rs, h1, h2⟩ := ih fun c hc => hl c (by simp [hc])
      obtain ⟨g1, g2, g3⟩ := hrow row (hl row (by simp))
      obtain ⟨r, r1, -, r3, r4⟩ := row92 row g1 _ g2
      exact ⟨r :: rs, by rw [List.mapM_cons, r1, h1]; rfl, .cons ⟨by rw [r3, g3], r4⟩ h2⟩
  obtain ⟨rs, h1, h2⟩ := hmap rows fun _ h => h
  rw [ctfBlock, h1]
  cases rs with
  | nil =>
    cases h2
    exact absurd rfl hne
  | cons a as =>
    have hs : ∀ b ∈ a :: as, ∃ h, b.shape = [h, W] := by
      intro b hb
      obtain ⟨n, hn⟩ := List.mem_iff_getElem?.1 hb
      obtain ⟨hn', e⟩ := List.getElem?_eq_some_iff.1 hn
      have := (List.forall₂_iff_get.1 h2).2 n (by rw [h2.length_eq]; exact hn') hn'
      rw [← e]
      exact ⟨_, this.1⟩
    obtain ⟨ha, hae⟩ := hs a (by simp)
    obtain ⟨r, r1, r2, r3, r4⟩ := C92_concatenate a as (-2) 0 (by rw [hae]; exact ⟨by simp, .inr rfl⟩) (fun b hb => by
      obtain ⟨v, hv⟩ := hs b (by simp [hb])
      refine ⟨by rw [hv, hae]; rfl, fun j hj => ?_⟩
      rw [hv, hae]
      match j with
      | 0 => exact absurd rfl hj
      | j + 1 => rfl)
    have hheight : ∀ m, ((a :: as).take m).map (fun b => b.shape.getD 0 0) = (rows.take m).map height := by
      intro m
      have : List.Forall₂ (fun row (r : NDArray R) => r.shape.getD 0 0 = height row) (rows.take m) ((a :: as).take m) :=
        (List.forall₂_take m h2).imp fun row r h => by rw [h.1]; rfl
      generalize rows.take m = l at this
      generalize (a :: as).take m = l' at this
      clear * - this
      induction this with
      | nil => rfl
      | cons h1 h2 ih => simp only [List.map_cons, ih, h1]
    refine ⟨r, r1, r2, ?_, fun m row hm n b hn p q hp hq => ?_⟩
    · rw [r3, hae]
      have := hheight (a :: as).length
      rw [List.take_length, ← h2.length_eq, List.take_length] at this
      rw [this]
      rfl
    · obtain ⟨hm', e⟩ := List.getElem?_eq_some_iff.1 hm
      have hmr : m < (a :: as).length := by rw [← h2.length_eq]; exact hm'
      obtain ⟨s1, s2⟩ := (List.forall₂_iff_get.1 h2).2 m hm' hmr
      simp only [List.get_eq_getElem, e] at s1 s2
      obtain ⟨g1, g2, g3⟩ := hrow row (List.mem_of_getElem? hm)
      rw [← s2 n b hn p q hp hq]
      have hle : ((row.take n).map fun b => b.shape.getD 1 0).sum + q < W := by
        rw [← g3]
        obtain ⟨hn', e'⟩ := List.getElem?_eq_some_iff.1 hn
        conv_rhs => rw [← List.take_append_drop n row, List.drop_eq_getElem_cons hn', e']
        simp only [List.map_append, List.sum_append, List.map_cons, List.sum_cons]
        omega
      have := r4 m ((a :: as)[m]) (List.getElem?_eq_getElem hmr) [p, ((row.take n).map fun b => b.shape.getD 1 0).sum + q]
        (by rw [s1]; exact .cons hp (.cons hle .nil))
      rw [hheight] at this
      exact this

example : ctfBlock [[⟨[1, 1], [1]⟩, ⟨[1, 2], [2, 3]⟩], [⟨[2, 2], [4, 5, 6, 7]⟩, ⟨[2, 1], [8, 9]⟩]] =
    (.ok ⟨[3, 3], [1, 2, 3, 4, 5, 8, 6, 7, 9]⟩ : Except PyErr (NDArray Int)) := by decide

end

/-! ### Masks -/

theorem C92_bitwise_and (a b : List Bool) :
    ctfAnd (a.map Bool.toNat) (b.map Bool.toNat) = (List.zipWith (· && ·) a b).map Bool.toNat := by
  rw [ctfAnd, List.zipWith_map, List.map_zipWith]
  congr 1
  funext x y
  cases x <;> cases y <;> rfl

theorem C92_bitwise_not (a : List Bool) : ctfNot (a.map Bool.toNat) = (a.map (!·)).map Bool.toNat := by
  induction a with
  | nil => rfl
  | cons x a ih =>
    change (1 - x.toNat) :: ctfNot (a.map Bool.toNat) = (!x).toNat :: _
    rw [ih]
    cases x <;> rfl

theorem C92_count_nonzero (a : List Bool) : ctfCount (a.map Bool.toNat) = a.count true := by
  induction a with
  | nil => rfl
  | cons x a ih =>
    change (if x.toNat ≠ 0 then 1 else 0) + ctfCount (a.map Bool.toNat) = _
    rw [ih, List.count_cons]
    cases x <;> simp [Nat.add_comm]

/-! ### TensorFlow -/

/-- For axes of one size `ravel_multi_index` is that of NumPy. -/
theorem C92_ravel_multi_index_partial (n d : Nat) (idx : List Nat) (h : idx.length = d) :
    tfRavel (List.replicate d n) idx = ravelIdx (List.replicate d n) idx := by
  induction d generalizing idx with
  | zero =>
    obtain rfl : idx = [] := by simpa using h
    rfl
  | succ d ih =>
    cases idx with
    | nil => simp at h
    | cons i idx =>
      rw [List.replicate_succ, ravelIdx, ← ih idx (by simpa using h)]
      cases d with
      | zero =>
        obtain rfl : idx = [] := by simpa using h
        simp [tfRavel, tfCumprod, prodN]
      | succ d => simp [tfRavel, List.replicate_succ, tfCumprod]

/-- For matrices it is that of NumPy for square ones only (and if there is one row or none, or no column). -/
theorem C92_ravel_multi_index_matrix (a b : Nat) :
    (∀ idx, InBox [a, b] idx → tfRavel [a, b] idx = ravelIdx [a, b] idx) ↔ a = b ∨ a ≤ 1 ∨ b = 0 := by
  constructor
  · intro h
    by_cases ha : a ≤ 1
    · exact .inr (.inl ha)
    · by_cases hb : b = 0
      · exact .inr (.inr hb)
      · have := h [1, 0] (.cons (by omega) (.cons (by omega) .nil))
        simp [tfRavel, tfCumprod, prodN, ravelIdx] at this
        exact .inl this
  · intro h idx hi
    unfold InBox at hi
    obtain ⟨i, t, h1, h2, rfl⟩ := List.forall₂_cons_right_iff.1 hi
    obtain ⟨j, t, h3, h4, rfl⟩ := List.forall₂_cons_right_iff.1 h2
    cases h4
    simp only [tfRavel, tfCumprod, List.dropLast, prodN, ravelIdx, List.zipWith, List.sum_cons, List.sum_nil]
    rcases h with rfl | h | h
    · simp
    · obtain rfl : i = 0 := by omega
      simp
    · omega

theorem C92_ravel_multi_index_false : ¬∀ dims idx, InBox dims idx → tfRavel dims idx = ravelIdx dims idx := by
  intro h
  have := (C92_ravel_multi_index_matrix 2 3).1 (h [2, 3])
  omega

theorem C92_indices (dims idx : List Nat) (h : InBox dims idx) (k : Nat) (hk : k < dims.length) :
    (tfIndices dims).get (k :: idx) = idx.getD k 0 := by
  rw [tfIndices, NDArray.get_ofFn _ _ (.cons hk h)]
  have := inBox_getD92 h k hk
  simp only
  generalize idx.getD k 0 = i at *
  generalize dims.getD k 0 = n at *
  simp [this]

section
variable {R : Type} [Zero R]

theorem putFlat_zip92 (data : List R) (pos : List Nat) (vals : List R) (h : vals.length = pos.length) :
    putFlat data pos vals = (pos.zip vals).foldl (fun d p => d.set p.1 p.2) data := by
  unfold putFlat
  split
  · rename_i he
    obtain rfl : vals = [] := by simpa using he
    obtain rfl : pos = [] := by simpa using h.symm
    rfl
  · have : pos.zip vals = pos.zipIdx.map fun p => (p.1, vals.getD (p.2 % vals.length) 0) := by
      apply List.ext_getElem
      · simp [h]
      · intro n h1 h2
        have hn : n < vals.length := by simp at h1; omega
        simp [Nat.mod_eq_of_lt hn, hn]
    rw [this, List.foldl_map]

/-- For grids of indices, and as many values, `_put` of TensorFlow is that of NumPy. -/
theorem C92_put (x : NDArray R) (lists : List (List Nat)) (v : NDArray R) (hv : v.data.length = (prodL lists).length) :
    tfPut x lists v = putIx x lists v := by
  unfold tfPut putIx
  simp only [hv, and_true]
  split
  · rw [putFlat_zip92 _ _ _ (by simpa using hv), List.zip_map_left, List.foldl_map]
    rfl
  · rfl

/-- Lists of indices that are not a grid are one for TensorFlow. -/
theorem C92_put_false : ¬∀ (x : NDArray Int) (lists : List (List Nat)) (v y : NDArray Int),
    numpyPutPairs x lists v = .ok y → tfPut x lists v = .ok y := by
  intro h
  have := h ⟨[2, 2], [0, 0, 0, 0]⟩ [[0, 1], [1, 0]] ⟨[2], [5, 7]⟩ ⟨[2, 2], [0, 5, 7, 0]⟩ (by decide)
  revert this
  decide

/-- With the backend CTF, `_put` with a tuple of indices raises `NameError` where that of NumPy succeeds. -/
theorem C92_put_ctf_false : ¬∀ (x : NDArray Int) (lists : List (List Nat)) (v y : NDArray Int),
    putIx x lists v = .ok y → ctfPut x true ((prodL lists).map (ravelIdx x.shape)) v = .ok y := by
  intro h
  have := h ⟨[2, 2], [0, 0, 0, 0]⟩ [[0], [0, 1]] ⟨[2], [5, 7]⟩ ⟨[2, 2], [5, 7, 0, 0]⟩ (by decide)
  revert this
  decide

end
end Ebcc
