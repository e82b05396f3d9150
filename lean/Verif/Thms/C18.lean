import Verif.Model.Dirsum
import Verif.Thms.C17

/-!
C18: the elements of `dirsum`.
-/

namespace Ebcc

section
variable {R : Type}

/-- The separators that `dirsum` accepts between operands. -/
inductive Sep | comma | plus | minus
  deriving DecidableEq

def Sep.char : Sep → Char
  | .comma => ','
  | .plus => '+'
  | .minus => '-'

/-- The sign that a separator gives to the operand behind it. -/
def Sep.sign [CommRing R] : Sep → R
  | .comma => 1
  | .plus => 1
  | .minus => -1

/-- A term of a direct sum: separator, label and array. -/
abbrev Term (R : Type) := Sep × List Char × NDArray R

/-- The subscript `s0 ± s1 ± ...`. -/
def termText (s : List Char) (ts : List (Term R)) : List Char :=
  s ++ ts.flatMap fun t => t.1.char :: t.2.1

/-- The array with its sign. -/
def signed [CommRing R] (t : Term R) : NDArray R :=
  match t.1 with
  | .minus => t.2.2.neg
  | _ => t.2.2

theorem get_neg [CommRing R] (a : NDArray R) (idx : List Nat) : a.neg.get idx = -a.get idx := by
  simp only [NDArray.neg, NDArray.get, List.getD_eq_getElem?_getD, List.getElem?_map]
  cases a.data[ravelIdx a.shape idx]? <;> simp

theorem get_signed [CommRing R] (t : Term R) (idx : List Nat) :
    (signed t).get idx = t.1.sign * t.2.2.get idx := by
  obtain ⟨s, l, a⟩ := t
  cases s <;> simp [signed, Sep.sign, get_neg]

theorem shape_signed [CommRing R] (t : Term R) : (signed t).shape = t.2.2.shape := by
  obtain ⟨s, l, a⟩ := t
  cases s <;> rfl

theorem signLoop_symbols [Neg R] : ∀ (s tail : List Char) (j : Nat) (ops : List (NDArray R)),
    (∀ c ∈ s, c ∈ einsumSymbols) → signLoop (s ++ tail) j ops = (do
      let r ← signLoop tail j ops
      pure (s ++ r.1, r.2))
  | [], tail, j, ops, _ => by
    rw [List.nil_append]
    cases signLoop tail j ops <;> rfl
  | c :: s, tail, j, ops, h => by
    have hc := symbol_ne (h c (by simp))
    rw [List.cons_append]
    conv_lhs => unfold signLoop
    rw [if_neg hc.2.1, if_neg hc.2.2.1, if_neg hc.2.2.2.2.2,
      signLoop_symbols s tail j ops fun c hc => h c (by simp [hc])]
    cases signLoop tail j ops <;> rfl

theorem signLoop_terms [CommRing R] (tail : List Char) (htail : ∀ j (ops : List (NDArray R)),
      signLoop tail j ops = .ok (tail, ops)) (hgt : tail.head? ≠ some '>') :
    ∀ (ts : List (Term R)) (pre : List (NDArray R)),
    (∀ t ∈ ts, ∀ c ∈ t.2.1, c ∈ einsumSymbols) → (tail = [] → ∀ t ∈ ts, t.2.1 ≠ []) →
    signLoop (ts.flatMap (fun t => t.1.char :: t.2.1) ++ tail) pre.length (pre ++ ts.map fun t => t.2.2)
      = .ok (ts.flatMap (fun t => ',' :: t.2.1) ++ tail, pre ++ ts.map signed)
  | [], pre, _, _ => by simp [htail]
  | t :: ts, pre, hs, hne => by
    obtain ⟨sep, l, a⟩ := t
    have hl : ∀ c ∈ l, c ∈ einsumSymbols := hs (sep, l, a) (by simp)
    have ih := fun a' : NDArray R => signLoop_terms tail htail hgt ts (pre ++ [a'])
      (fun t ht => hs t (by simp [ht])) (fun h t ht => hne h t (by simp [ht]))
    have rest : ∀ a' : NDArray R, signLoop (l ++ (ts.flatMap (fun t => t.1.char :: t.2.1) ++ tail))
        (pre.length + 1) (pre ++ a' :: ts.map fun t => t.2.2)
        = .ok (l ++ (ts.flatMap (fun t => ',' :: t.2.1) ++ tail), pre ++ a' :: ts.map signed) := by
      intro a'
      have h1 := ih a'
      simp only [List.length_append, List.length_singleton, List.append_assoc, List.singleton_append] at h1
      rw [signLoop_symbols _ _ _ _ hl, h1]
      rfl
    simp only [List.flatMap_cons, List.cons_append, List.map_cons, List.append_assoc]
    cases sep with
    | comma =>
      rw [show Sep.comma.char = ',' from rfl]
      unfold signLoop
      rw [if_neg (by decide), if_neg (by decide), if_pos rfl, rest a]
      rfl
    | plus =>
      rw [show Sep.plus.char = '+' from rfl]
      unfold signLoop
      rw [if_pos rfl, rest a]
      rfl
    | minus =>
      rw [show Sep.minus.char = '-' from rfl]
      have hneg : negAt (pre ++ a :: ts.map fun t => t.2.2) pre.length
          = .ok (pre ++ a.neg :: ts.map fun t => t.2.2) := by
        simp [negAt]
      obtain ⟨t, r, htr, htgt⟩ : ∃ t r, l ++ (ts.flatMap (fun t => t.1.char :: t.2.1) ++ tail) = t :: r ∧
          t ≠ '>' := by
        cases l with
        | cons c l => exact ⟨c, _, rfl, (symbol_ne (hl c (by simp))).2.2.2.1⟩
        | nil =>
          cases ts with
          | cons u us =>
            obtain ⟨s', l', a'⟩ := u
            refine ⟨s'.char, _, rfl, ?_⟩
            cases s' <;> decide
          | nil =>
            cases tail with
            | nil => exact absurd rfl (hne rfl (.minus, [], a) (by simp))
            | cons c tl => exact ⟨c, tl, rfl, fun h => hgt (by rw [h]; rfl)⟩
      unfold signLoop
      rw [if_neg (by decide), if_pos rfl]
      simp only [htr]
      rw [if_pos htgt, hneg]
      simp only [bind, Except.bind]
      rw [← htr, rest a.neg]
      rfl

/-- The labels with commas. -/
theorem commaJoin_terms (s : List Char) (ts : List (Term R)) :
    s ++ ts.flatMap (fun t => ',' :: t.2.1) = commaJoin (s :: ts.map fun t => t.2.1) := by
  induction ts generalizing s with
  | nil => simp [commaJoin]
  | cons t ts ih =>
    rw [List.map_cons, commaJoin]
    · simp [← ih]
    · simp

theorem mem_of_symComma_joined {l : List (List Char)} (h : ∀ s ∈ l, ∀ c ∈ s, c ∈ einsumSymbols)
    {c : Char} (hc : c ∈ commaJoin l) : decide (c ∈ ".,->".toList ∨ c ∈ einsumSymbols) = true := by
  rcases symComma_join h c hc with rfl | h
  · decide
  · simp [h]

/-- Parsing of a direct sum with explicit output. -/
theorem parse_terms [CommRing R] (s : List Char) (a : NDArray R) (ts : List (Term R)) (outs : List Char)
    (hs : ∀ c ∈ s, c ∈ einsumSymbols) (hts : ∀ t ∈ ts, ∀ c ∈ t.2.1, c ∈ einsumSymbols)
    (hno : outs.Nodup) (hsub : ∀ c ∈ outs, c ∈ s ∨ ∃ t ∈ ts, c ∈ t.2.1) :
    s ++ ts.flatMap (fun t => t.1.char :: t.2.1) ≠ [] →
    (∀ c d, (s ++ ts.flatMap (fun t => t.1.char :: t.2.1)) = c :: d → c ≠ '+' ∧ c ≠ '-') →
    parseEinsumInput (.str (termText s ts ++ "->".toList ++ outs) :: (a :: ts.map fun t => t.2.2).map .arr)
      = .ok (commaJoin (s :: ts.map fun t => t.2.1), outs, a :: ts.map signed) := by
  intro hne hlead
  have hlab : ∀ x ∈ s :: ts.map fun t => t.2.1, ∀ c ∈ x, c ∈ einsumSymbols := by
    intro x hx
    rcases List.mem_cons.1 hx with rfl | hx
    · exact hs
    · obtain ⟨t, ht, rfl⟩ := List.mem_map.1 hx
      exact hts t ht
  have hsub' : ∀ c ∈ outs, ∃ x ∈ s :: ts.map fun t => t.2.1, c ∈ x := by
    intro c hc
    rcases hsub c hc with h | ⟨t, ht, h⟩
    · exact ⟨s, by simp, h⟩
    · exact ⟨t.2.1, by simp only [List.mem_cons, List.mem_map]; exact Or.inr ⟨t, ht, rfl⟩, h⟩
  have houts : ∀ c ∈ outs, c ∈ einsumSymbols := fun c hc => by
    obtain ⟨x, hx, h⟩ := hsub' c hc
    exact hlab x hx c h
  have hsc : SymComma outs := fun c hc => Or.inr (houts c hc)
  have hu := symComma_join hlab
  have htail : ∀ j (ops : List (NDArray R)), signLoop ('-' :: '>' :: outs) j ops
      = .ok ('-' :: '>' :: outs, ops) := by
    intro j ops
    have := signLoop_arrow [] outs j ops (by simp) fun c hc =>
      ⟨(symbol_ne (houts c hc)).2.1, (symbol_ne (houts c hc)).2.2.1⟩
    simpa using this
  have e : termText s ts ++ "->".toList ++ outs
      = s ++ (ts.flatMap (fun t => t.1.char :: t.2.1) ++ '-' :: '>' :: outs) := by simp [termText]
  have hloop := signLoop_terms ('-' :: '>' :: outs) htail (by simp) ts [a] hts (by simp)
  have hfilter : ((s ++ (ts.flatMap (fun t => t.1.char :: t.2.1) ++ '-' :: '>' :: outs)).filter
      fun c => decide (c ≠ ' ')) = s ++ (ts.flatMap (fun t => t.1.char :: t.2.1) ++ '-' :: '>' :: outs) := by
    refine List.filter_eq_self.2 fun c hc => ?_
    simp only [List.mem_append, List.mem_cons, List.mem_flatMap] at hc
    rcases hc with hc | ⟨t, ht, hc | hc⟩ | rfl | rfl | hc
    · simpa using (symbol_ne (hs c hc)).1
    · rw [hc]; generalize t.1 = s'; cases s' <;> decide
    · simpa using (symbol_ne (hts t ht c hc)).1
    · decide
    · decide
    · simpa using (symbol_ne (houts c hc)).1
  have hstr : parseStr (s ++ (ts.flatMap (fun t => t.1.char :: t.2.1) ++ '-' :: '>' :: outs))
      (a :: ts.map fun t => t.2.2)
      = .ok (commaJoin (s :: ts.map fun t => t.2.1) ++ '-' :: '>' :: outs, a :: ts.map signed) := by
    unfold parseStr
    simp only [hfilter]
    cases htxt : s ++ (ts.flatMap (fun t => t.1.char :: t.2.1) ++ '-' :: '>' :: outs) with
    | nil => simp at htxt
    | cons c d =>
      have hc : c ≠ '+' ∧ c ≠ '-' := by
        cases hx : s ++ ts.flatMap (fun t => t.1.char :: t.2.1) with
        | nil => exact absurd hx hne
        | cons c' d' =>
          have := hlead c' d' hx
          rw [← List.append_assoc, hx] at htxt
          cases htxt
          exact this
      simp only [hc.1, hc.2, or_self, if_false]
      rw [← htxt, signLoop_symbols _ _ _ _ hs]
      simp only [List.singleton_append, List.length_singleton] at hloop
      rw [hloop]
      simp only [bind, Except.bind, pure, Except.pure]
      rw [← List.append_assoc, commaJoin_terms, if_pos]
      rw [List.all_eq_true]
      intro x hx
      simp only [List.mem_append, List.mem_cons] at hx
      rcases hx with hx | rfl | rfl | hx
      · exact mem_of_symComma_joined hlab hx
      · decide
      · decide
      · simp [houts x hx]
  rw [e, parseEinsumInput]
  simp only [mapM_asArr, bind, Except.bind]
  rw [hstr]
  simp only
  rw [parseCommon_explicit hu hsc, if_pos]
  refine ⟨hno, fun c hc => ?_⟩
  obtain ⟨x, hx, h⟩ := hsub' c hc
  exact commaJoin_mem hx h

/-! ### The loop -/

/-- `setOrder chars` enumerates the distinct symbols of `chars`. -/
def IsSetOrder (setOrder : List Char → List Char) : Prop :=
  ∀ s, (setOrder s).Nodup ∧ ∀ c, c ∈ setOrder s ↔ c ∈ s

theorem dirsumOperand_ok [CommRing R] (setOrder : List Char → List Char) (ho : IsSetOrder setOrder)
    (sz : Char → Nat) (chars : List Char) (a : NDArray R) (ha : a.shape = chars.map sz) (hw : a.WF) :
    ∃ c' a', dirsumOperand setOrder chars a = .ok (c', a') ∧ a'.shape = c'.map sz ∧ a'.WF ∧
      (∀ x, x ∈ c' ↔ x ∈ chars) ∧ ∀ e : Char → Nat, (∀ c ∈ chars, e c < sz c) →
        a'.get (c'.map e) = a.get (chars.map e) := by
  unfold dirsumOperand
  rw [if_neg (by simp [ha])]
  split
  · obtain ⟨x, x1, x2, x3, x4⟩ := numpyEinsum_ok sz [(chars, a)] (setOrder chars) (by simp [Sized, ha])
      (by simp [(ho chars).2])
    obtain ⟨r, r1, r2, r3, r4⟩ := scaleAdd_ok x x3 (1 : R) 0 none (by simp)
    refine ⟨setOrder chars, r, ?_, r2.trans x2, r3, (ho chars).2, fun e he => ?_⟩
    · simp only [transposeBackend, x1, bind, Except.bind, r1]; rfl
    · have he' : ∀ c ∈ setOrder chars, e c < sz c := fun c hc => he c (((ho chars).2 c).1 hc)
      rw [r4 _ (by rw [x2]; exact inBox_map sz e _ he'), x4 e he']
      have : einDummies [chars] (setOrder chars) = [] := by
        apply List.eq_nil_iff_forall_not_mem.2
        intro c hc
        rw [mem_einDummies] at hc
        obtain ⟨⟨s, hs, hcs⟩, hn⟩ := hc
        rw [List.mem_singleton] at hs
        subst hs
        exact hn (((ho s).2 c).2 hcs)
      simp [einValue, this, einSum, einProd, outTerm]
  · exact ⟨chars, a, rfl, ha, hw, fun _ => Iff.rfl, fun _ _ => rfl⟩

theorem outerAdd_ok [CommRing R] (sz : Char → Nat) (u v : List Char) (a b : NDArray R)
    (ha : a.shape = u.map sz) (hb : b.shape = v.map sz) :
    (outerAdd a b).shape = (u ++ v).map sz ∧ (outerAdd a b).WF ∧
      ∀ e : Char → Nat, (∀ c ∈ u ++ v, e c < sz c) →
        (outerAdd a b).get ((u ++ v).map e) = a.get (u.map e) + b.get (v.map e) := by
  refine ⟨by simp [outerAdd, ha, hb, NDArray.ofFn], NDArray.ofFn_wf _ _, fun e he => ?_⟩
  unfold outerAdd
  rw [NDArray.get_ofFn]
  · simp [ha]
  · rw [ha, hb, ← List.map_append]; exact inBox_map sz e _ he

theorem dirsumLoop_ok [CommRing R] (setOrder : List Char → List Char) (ho : IsSetOrder setOrder)
    (sz : Char → Nat) : ∀ (L : List (List Char × NDArray R)) (u : List Char) (res : NDArray R),
    (∀ x ∈ L, x.2.shape = x.1.map sz ∧ x.2.WF) → res.shape = u.map sz → res.WF →
    ∃ l r, dirsumLoop setOrder (L.map Prod.fst) (L.map Prod.snd) (some res) = .ok (l, some r) ∧
      r.shape = (u ++ l).map sz ∧ r.WF ∧ (∀ x, x ∈ l ↔ ∃ y ∈ L, x ∈ y.1) ∧
      ∀ e : Char → Nat, (∀ c ∈ u ++ l, e c < sz c) → r.get ((u ++ l).map e)
        = res.get (u.map e) + (L.map fun x => x.2.get (x.1.map e)).sum
  | [], u, res, _, hr, hw => ⟨[], res, rfl, by simpa using hr, hw, by simp, by simp⟩
  | x :: L, u, res, hL, hr, hw => by
    obtain ⟨c', a', h1, h2, h3, h4, h5⟩ := dirsumOperand_ok setOrder ho sz x.1 x.2
      (hL x (by simp)).1 (hL x (by simp)).2
    obtain ⟨o1, o2, o3⟩ := outerAdd_ok sz u c' res a' hr h2
    obtain ⟨l, r, l1, l2, l3, l4, l5⟩ := dirsumLoop_ok setOrder ho sz L (u ++ c') (outerAdd res a')
      (fun y hy => hL y (by simp [hy])) o1 o2
    refine ⟨c' ++ l, r, ?_, by rw [← List.append_assoc]; exact l2, l3, ?_, ?_⟩
    · simp only [List.map_cons]
      unfold dirsumLoop
      rw [h1]
      simp only [bind, Except.bind]
      rw [l1]
      rfl
    · intro y
      rw [List.mem_append, h4, l4]
      simp
    · intro e he
      rw [← List.append_assoc] at he ⊢
      rw [l5 e he, o3 e fun c hc => he c (List.mem_append.2 (Or.inl hc)), h5 e, List.map_cons, List.sum_cons,
        add_assoc]
      intro c hc
      exact he c (by simp [(h4 c).2 hc])

/-- For every number of terms, all ranks, sizes and separators, `dirsum` returns the array with the
axes of the requested output whose elements are the signed sums of the elements of the operands,
summed over the symbols that are not in the output. -/
theorem C18_dirsum_partial [CommRing R] (setOrder : List Char → List Char) (ho : IsSetOrder setOrder)
    (sz : Char → Nat) (s : List Char) (a : NDArray R) (ts : List (Term R)) (outs : List Char)
    (hs : ∀ c ∈ s, c ∈ einsumSymbols) (hts : ∀ t ∈ ts, ∀ c ∈ t.2.1, c ∈ einsumSymbols)
    (hlead : s ≠ []) (ha : a.shape = s.map sz ∧ a.WF)
    (ht : ∀ t ∈ ts, t.2.2.shape = t.2.1.map sz ∧ t.2.2.WF) (hno : outs.Nodup)
    (hsub : ∀ c ∈ outs, c ∈ s ∨ ∃ t ∈ ts, c ∈ t.2.1) :
    ∃ r, dirsum setOrder
        (.str (termText s ts ++ "->".toList ++ outs) :: (a :: ts.map fun t => t.2.2).map .arr) = .ok r ∧
      r.shape = outs.map sz ∧ r.WF ∧ ∀ e : Char → Nat, (∀ c ∈ outs, e c < sz c) →
        r.get (outs.map e) = einSum sz (einDummies (s :: ts.map fun t => t.2.1) outs)
          (fun e' => a.get (s.map e') + (ts.map fun t => t.1.sign * t.2.2.get (t.2.1.map e')).sum) e := by
  have hparse := parse_terms s a ts outs hs hts hno hsub (by simp [hlead]) (by
    intro c d h
    cases s with
    | nil => exact absurd rfl hlead
    | cons x s =>
      simp only [List.cons_append, List.cons.injEq] at h
      rw [← h.1]
      exact ⟨(symbol_ne (hs x (by simp))).2.1, (symbol_ne (hs x (by simp))).2.2.1⟩)
  have hlab : ∀ x ∈ s :: ts.map fun t => t.2.1, ∀ c ∈ x, c ∈ einsumSymbols := by
    intro x hx
    rcases List.mem_cons.1 hx with rfl | hx
    · exact hs
    · obtain ⟨t, ht, rfl⟩ := List.mem_map.1 hx
      exact hts t ht
  have hsplit : splitComma (commaJoin (s :: ts.map fun t => t.2.1)) = s :: ts.map fun t => t.2.1 :=
    splitComma_join (by simp) fun x hx h => (symbol_ne (hlab x hx _ h)).2.2.2.2.2 rfl
  obtain ⟨c', a', h1, h2, h3, h4, h5⟩ := dirsumOperand_ok setOrder ho sz s a ha.1 ha.2
  obtain ⟨l, r, l1, l2, l3, l4, l5⟩ := dirsumLoop_ok setOrder ho sz
    (ts.map fun t => (t.2.1, signed t)) c' a' (by
      intro x hx
      obtain ⟨t, ht', rfl⟩ := List.mem_map.1 hx
      refine ⟨by rw [shape_signed]; exact (ht t ht').1, ?_⟩
      obtain ⟨sep, lab, arr⟩ := t
      have := (ht _ ht').2
      cases sep
      · exact this
      · exact this
      · simpa [signed, NDArray.neg, NDArray.WF] using this) h2 h3
  have hmem : ∀ c, c ∈ c' ++ l ↔ c ∈ s ∨ ∃ t ∈ ts, c ∈ t.2.1 := by
    intro c
    rw [List.mem_append, h4, l4]
    constructor
    · rintro (h | ⟨y, hy, h⟩)
      · exact Or.inl h
      · obtain ⟨t, ht, rfl⟩ := List.mem_map.1 hy
        exact Or.inr ⟨t, ht, h⟩
    · rintro (h | ⟨t, ht, h⟩)
      · exact Or.inl h
      · exact Or.inr ⟨_, List.mem_map.2 ⟨t, ht, rfl⟩, h⟩
  have hp2 := parse_subscript [c' ++ l] outs [r] (by
    intro x hx c hc
    rw [List.mem_singleton] at hx
    subst hx
    rcases (hmem c).1 hc with h | ⟨t, ht, h⟩
    · exact hs c h
    · exact hts t ht c h) hno (by
    intro c hc
    exact ⟨_, by simp, (hmem c).2 (hsub c hc)⟩)
  obtain ⟨x, x1, x2, x3, x4⟩ := numpyEinsum_ok sz [(c' ++ l, r)] outs (by simpa [Sized] using l2) (by
    intro c hc
    exact ⟨(c' ++ l, r), by simp, (hmem c).2 (hsub c hc)⟩)
  obtain ⟨q, q1, q2, q3, q4⟩ := scaleAdd_ok x x3 (1 : R) 0 none (by simp)
  refine ⟨q, ?_, q2.trans x2, q3, fun e he => ?_⟩
  · unfold dirsum
    rw [hparse]
    simp only [bind, Except.bind, hsplit]
    have hl1 : (ts.map fun t => (t.2.1, signed t)).map Prod.fst = ts.map fun t => t.2.1 := by simp
    have hl2 : (ts.map fun t => (t.2.1, signed t)).map Prod.snd = ts.map signed := by simp
    rw [hl1, hl2] at l1
    unfold dirsumLoop
    rw [h1]
    simp only [bind, Except.bind]
    rw [l1]
    simp only [subscriptText, commaJoin, List.map_cons, List.map_nil] at hp2
    simp only [pure, Except.pure]
    rw [hp2]
    simp only [transposeBackend, x1, bind, Except.bind]
    exact q1
  · rw [q4 _ (by rw [x2]; exact inBox_map sz e outs he), x4 e he]
    simp only [outTerm, one_mul, add_zero]
    have hd : (einDummies [c' ++ l] outs).Perm (einDummies (s :: ts.map fun t => t.2.1) outs) := by
      rw [List.perm_ext_iff_of_nodup (nodup_einDummies _ _) (nodup_einDummies _ _)]
      intro c
      rw [mem_einDummies, mem_einDummies]
      simp only [List.mem_singleton, exists_eq_left, hmem]
      refine and_congr_left fun _ => ?_
      constructor
      · rintro (h | ⟨t, ht, h⟩)
        · exact ⟨s, by simp, h⟩
        · exact ⟨t.2.1, List.mem_cons.2 (Or.inr (List.mem_map.2 ⟨t, ht, rfl⟩)), h⟩
      · rintro ⟨x, hx, h⟩
        rcases List.mem_cons.1 hx with rfl | hx
        · exact Or.inl h
        · obtain ⟨t, ht, rfl⟩ := List.mem_map.1 hx
          exact Or.inr ⟨t, ht, h⟩
    rw [einValue, List.map_cons, List.map_nil, einSum_perm sz hd]
    apply einSum_congr
    intro e' g1 g2
    have hb : ∀ c ∈ c' ++ l, e' c < sz c := by
      intro c hc
      by_cases hco : c ∈ outs
      · rw [g1 c (fun h => (mem_einDummies.1 h).2 hco)]; exact he c hco
      · refine g2 c (mem_einDummies.2 ⟨?_, hco⟩)
        rcases (hmem c).1 hc with h | ⟨t, ht, h⟩
        · exact ⟨s, by simp, h⟩
        · exact ⟨t.2.1, by simp only [List.mem_cons, List.mem_map]; exact Or.inr ⟨t, ht, rfl⟩, h⟩
    have : einProd [(c' ++ l, r)] e' = r.get ((c' ++ l).map e') := by simp [einProd]
    rw [this, l5 e' hb, h5 e' fun c hc => hb c (by simp [(h4 c).2 hc]), List.map_map]
    congr 2
    apply List.map_congr_left
    intro t _
    simp [get_signed]

/-- The formula when every symbol is in the output: the plain signed sum. -/
theorem C18_dirsum_element_partial [CommRing R] (setOrder : List Char → List Char)
    (ho : IsSetOrder setOrder) (sz : Char → Nat) (s : List Char) (a : NDArray R) (ts : List (Term R))
    (outs : List Char) (hs : ∀ c ∈ s, c ∈ einsumSymbols)
    (hts : ∀ t ∈ ts, ∀ c ∈ t.2.1, c ∈ einsumSymbols) (hlead : s ≠ [])
    (ha : a.shape = s.map sz ∧ a.WF) (ht : ∀ t ∈ ts, t.2.2.shape = t.2.1.map sz ∧ t.2.2.WF)
    (hno : outs.Nodup) (hsub : ∀ c, c ∈ outs ↔ c ∈ s ∨ ∃ t ∈ ts, c ∈ t.2.1) :
    ∃ r, dirsum setOrder
        (.str (termText s ts ++ "->".toList ++ outs) :: (a :: ts.map fun t => t.2.2).map .arr) = .ok r ∧
      r.shape = outs.map sz ∧ ∀ e : Char → Nat, (∀ c ∈ outs, e c < sz c) →
        r.get (outs.map e)
          = a.get (s.map e) + (ts.map fun t => t.1.sign * t.2.2.get (t.2.1.map e)).sum := by
  obtain ⟨r, r1, r2, _, r4⟩ := C18_dirsum_partial setOrder ho sz s a ts outs hs hts hlead ha ht hno
    fun c hc => (hsub c).1 hc
  refine ⟨r, r1, r2, fun e he => ?_⟩
  rw [r4 e he]
  have : einDummies (s :: ts.map fun t => t.2.1) outs = [] := by
    apply List.eq_nil_iff_forall_not_mem.2
    intro c hc
    rw [mem_einDummies] at hc
    obtain ⟨⟨x, hx, hcx⟩, hn⟩ := hc
    apply hn
    rw [hsub]
    rcases List.mem_cons.1 hx with rfl | hx
    · exact Or.inl hcx
    · obtain ⟨t, ht, rfl⟩ := List.mem_map.1 hx
      exact Or.inr ⟨t, ht, hcx⟩
  rw [this, einSum]

/-- The symbols that occur once among the labels, in alphabetical order: the output when none is written. -/
def IsImplicitOutput (labels : List (List Char)) (outs : List Char) : Prop :=
  outs.Pairwise (· < ·) ∧ ∀ c, c ∈ outs ↔ labels.flatten.count c = 1

theorem count_commaJoin {c : Char} (hc : c ≠ ',') : ∀ l : List (List Char),
    (commaJoin l).count c = l.flatten.count c
  | [] => rfl
  | [s] => by simp [commaJoin]
  | s :: t :: l => by
    rw [commaJoin]
    · simp only [List.count_append, List.count_cons, List.flatten_cons, count_commaJoin hc (t :: l)]
      simp [Ne.symm hc]
    · simp

/-- Parsing of a direct sum without an output. -/
theorem parse_terms_implicit [CommRing R] (s : List Char) (a : NDArray R) (ts : List (Term R))
    (hs : ∀ c ∈ s, c ∈ einsumSymbols) (hts : ∀ t ∈ ts, ∀ c ∈ t.2.1, c ∈ einsumSymbols)
    (hlead : s ≠ []) (hne : ∀ t ∈ ts, t.2.1 ≠ []) :
    ∃ outs, IsImplicitOutput (s :: ts.map fun t => t.2.1) outs ∧
      parseEinsumInput (.str (termText s ts) :: (a :: ts.map fun t => t.2.2).map .arr)
        = .ok (commaJoin (s :: ts.map fun t => t.2.1), outs, a :: ts.map signed) := by
  have hlab : ∀ x ∈ s :: ts.map fun t => t.2.1, ∀ c ∈ x, c ∈ einsumSymbols := by
    intro x hx
    rcases List.mem_cons.1 hx with rfl | hx
    · exact hs
    · obtain ⟨t, ht, rfl⟩ := List.mem_map.1 hx
      exact hts t ht
  have hu := symComma_join hlab
  obtain ⟨outs, h1, h2, h3⟩ := parseCommon_implicit hu true (a :: ts.map signed)
  refine ⟨outs, ⟨h2, fun c => ?_⟩, ?_⟩
  · rw [h3]
    constructor
    · rintro ⟨hc, h⟩
      rwa [count_commaJoin hc] at h
    · intro h
      have hc : c ≠ ',' := by
        rintro rfl
        have : ',' ∈ (s :: ts.map fun t => t.2.1).flatten := List.count_pos_iff.1 (by omega)
        obtain ⟨x, hx, hcx⟩ := List.mem_flatten.1 this
        exact (symbol_ne (hlab x hx _ hcx)).2.2.2.2.2 rfl
      exact ⟨hc, by rwa [count_commaJoin hc]⟩
  · have hloop := signLoop_terms ([] : List Char) (fun j ops => rfl) (by simp) ts [a] hts fun _ => hne
    have hfilter : ((termText s ts).filter fun c => decide (c ≠ ' ')) = termText s ts := by
      refine List.filter_eq_self.2 fun c hc => ?_
      simp only [termText, List.mem_append, List.mem_cons, List.mem_flatMap] at hc
      rcases hc with hc | ⟨t, ht, hc | hc⟩
      · simpa using (symbol_ne (hs c hc)).1
      · rw [hc]; generalize t.1 = s'; cases s' <;> decide
      · simpa using (symbol_ne (hts t ht c hc)).1
    rw [parseEinsumInput]
    simp only [mapM_asArr, bind, Except.bind]
    have hstr : parseStr (termText s ts) (a :: ts.map fun t => t.2.2)
        = .ok (commaJoin (s :: ts.map fun t => t.2.1), a :: ts.map signed) := by
      unfold parseStr
      simp only [hfilter]
      cases htxt : termText s ts with
      | nil => simp [termText, hlead] at htxt
      | cons c d =>
        have hc : c ∈ einsumSymbols := by
          cases s with
          | nil => exact absurd rfl hlead
          | cons x s =>
            simp only [termText, List.cons_append, List.cons.injEq] at htxt
            rw [← htxt.1]
            exact hs x (by simp)
        simp only [(symbol_ne hc).2.1, (symbol_ne hc).2.2.1, or_self, if_false]
        rw [← htxt, termText, signLoop_symbols _ _ _ _ hs]
        simp only [List.singleton_append, List.length_singleton, List.append_nil] at hloop
        rw [hloop]
        simp only [bind, Except.bind, pure, Except.pure]
        rw [commaJoin_terms, if_pos]
        rw [List.all_eq_true]
        exact fun x hx => mem_of_symComma_joined hlab hx
    rw [hstr]
    exact h1

/-- `dirsum` depends on its arguments through the parsed form only. -/
theorem dirsum_congr [CommRing R] (setOrder : List Char → List Char) {x y : List (EinArg R)}
    (h : parseEinsumInput x = parseEinsumInput y) : dirsum setOrder x = dirsum setOrder y := by
  unfold dirsum
  rw [h]

/-- Without an output `dirsum` behaves as if the symbols occurring once had been written as output, in
alphabetical order; its elements are given by `C18_dirsum_partial`. -/
theorem C18_implicit_partial [CommRing R] (setOrder : List Char → List Char) (s : List Char)
    (a : NDArray R) (ts : List (Term R))
    (hs : ∀ c ∈ s, c ∈ einsumSymbols) (hts : ∀ t ∈ ts, ∀ c ∈ t.2.1, c ∈ einsumSymbols)
    (hlead : s ≠ []) (hne : ∀ t ∈ ts, t.2.1 ≠ []) :
    ∃ outs, IsImplicitOutput (s :: ts.map fun t => t.2.1) outs ∧
      dirsum setOrder (.str (termText s ts) :: (a :: ts.map fun t => t.2.2).map .arr)
        = dirsum setOrder
            (.str (termText s ts ++ "->".toList ++ outs) :: (a :: ts.map fun t => t.2.2).map .arr) := by
  obtain ⟨outs, h1, h2⟩ := parse_terms_implicit s a ts hs hts hlead hne
  refine ⟨outs, h1, dirsum_congr setOrder ?_⟩
  rw [h2, parse_terms s a ts outs hs hts (h1.1.imp fun h => ne_of_lt h) ?_ (by simp [hlead]) ?_]
  · intro c hc
    have : c ∈ (s :: ts.map fun t => t.2.1).flatten := List.count_pos_iff.1 (by have := (h1.2 c).1 hc; omega)
    obtain ⟨x, hx, hcx⟩ := List.mem_flatten.1 this
    rcases List.mem_cons.1 hx with rfl | hx
    · exact Or.inl hcx
    · obtain ⟨t, ht, rfl⟩ := List.mem_map.1 hx
      exact Or.inr ⟨t, ht, hcx⟩
  · intro c d h
    cases s with
    | nil => exact absurd rfl hlead
    | cons x s =>
      simp only [List.cons_append, List.cons.injEq] at h
      rw [← h.1]
      exact ⟨(symbol_ne (hs x (by simp))).2.1, (symbol_ne (hs x (by simp))).2.2.1⟩

end

/-- The order of first occurrence is an admissible enumeration of a set. -/
theorem isSetOrder_dedup : IsSetOrder List.dedup :=
  fun s => ⟨List.nodup_dedup s, fun _ => List.mem_dedup⟩

/-- A sign in front of the first operand is not supported: `dirsum("-a+b->ab", A, B)` raises
`ValueError`, because the sign becomes a comma and the first operand is paired with an empty label. -/
theorem C18_leading_sign_fails :
    dirsum List.dedup [.str "-a+b->ab".toList, .arr (⟨[1], [2]⟩ : NDArray Int), .arr ⟨[1], [3]⟩]
      = .error .valueError := by
  decide +kernel

/-- Surplus operands are ignored without an error (`zip`). -/
theorem C18_surplus_operand_ignored (c : NDArray Int) :
    dirsum List.dedup [.str "a,b->ab".toList, .arr (⟨[1], [2]⟩ : NDArray Int), .arr ⟨[1], [3]⟩, .arr c]
      = .ok ⟨[1, 1], [5]⟩ := by
  rfl

example : dirsum List.dedup [.str "i-a".toList, .arr (⟨[2], [10, 20]⟩ : NDArray Int), .arr ⟨[2], [1, 2]⟩]
      = .ok ⟨[2, 2], [9, 19, 8, 18]⟩ := by
  decide +kernel

example : dirsum List.dedup [.str "i-a+bb->bia".toList, .arr (⟨[2], [10, 20]⟩ : NDArray Int),
    .arr ⟨[2], [1, 2]⟩, .arr ⟨[2, 2], [100, 0, 0, 300]⟩]
      = .ok ⟨[2, 2, 2], [109, 108, 119, 118, 309, 308, 319, 318]⟩ := by
  decide +kernel

end Ebcc
