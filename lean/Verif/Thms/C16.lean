import Verif.Lemmas.EinsumParse

/-!
C16: parsing of the arguments of `einsum`: implicit and explicit outputs, rejection of malformed input
and the integer list form.
-/

namespace Ebcc

section
variable {R : Type}

/-- The text without spaces. -/
def noSpaces (s : List Char) : List Char := s.filter fun c => decide (c ≠ ' ')

theorem parseStr_noSpaces [Neg R] (s : List Char) (ops : List (NDArray R)) :
    parseStr s ops = parseStr (noSpaces s) ops := by
  unfold parseStr noSpaces
  rw [List.filter_filter]
  simp

theorem parse_str [Neg R] (s : List Char) (arrs : List (NDArray R)) :
    parseEinsumInput (.str s :: arrs.map .arr) = (do
      let r ← parseStr (noSpaces s) arrs
      parseCommon true r.1 r.2) := by
  unfold parseEinsumInput
  simp only [mapM_asArr, bind, Except.bind]
  rw [parseStr_noSpaces]

/-- Implicit mode: for every non-empty text of symbols, commas and spaces the output has exactly the
symbols that occur once, in strictly increasing order. -/
theorem C16_implicit_output [Neg R] (s : List Char) (arrs : List (NDArray R))
    (hs : ∀ c ∈ s, c = ' ' ∨ c = ',' ∨ c ∈ einsumSymbols) (hne : ∃ c ∈ s, c ≠ ' ') :
    ∃ out, parseEinsumInput (.str s :: arrs.map .arr) = .ok (noSpaces s, out, arrs) ∧
      out.Pairwise (· < ·) ∧ ∀ c, c ∈ out ↔ c ∈ einsumSymbols ∧ s.count c = 1 := by
  have h1 : SymComma (noSpaces s) := by
    intro c hc
    rw [noSpaces, List.mem_filter] at hc
    rcases hs c hc.1 with rfl | h
    · simp at hc
    · exact h
  have h2 : noSpaces s ≠ [] := by
    obtain ⟨c, hc, hcs⟩ := hne
    exact List.ne_nil_of_mem (List.mem_filter.2 ⟨hc, by simpa using hcs⟩)
  obtain ⟨out, o1, o2, o3⟩ := parseCommon_implicit h1 true arrs
  refine ⟨out, ?_, o2, fun c => ?_⟩
  · rw [parse_str, parseStr_plain h1 h2]; exact o1
  · rw [o3]
    by_cases hsp : c = ' '
    · subst hsp
      have h3 : ' ' ∉ einsumSymbols := by decide
      have h4 : (noSpaces s).count ' ' = 0 := List.count_eq_zero.2 (by simp [noSpaces])
      simp [h3, h4]
    · have hcount : (noSpaces s).count c = s.count c := by
        rw [noSpaces, List.count_filter (by simpa using hsp)]
      rw [hcount]
      constructor
      · rintro ⟨a, b⟩
        rcases hs c (List.count_pos_iff.1 (by omega)) with h | h | h
        · exact absurd h hsp
        · exact absurd h a
        · exact ⟨h, b⟩
      · rintro ⟨a, b⟩
        exact ⟨(symbol_ne a).2.2.2.2.2, b⟩

/-- Explicit mode: the output is kept as written if it has no repeated symbol and only symbols of the
input; otherwise `ValueError` is raised. -/
theorem C16_explicit_output [Neg R] (s u v : List Char) (arrs : List (NDArray R))
    (hs : noSpaces s = u ++ "->".toList ++ v) (hu : ∀ c ∈ u, c = ',' ∨ c ∈ einsumSymbols)
    (hv : ∀ c ∈ v, c ∈ einsumSymbols) :
    parseEinsumInput (.str s :: arrs.map .arr)
      = if v.Nodup ∧ ∀ c ∈ v, c ∈ u then .ok (u, v, arrs) else .error .valueError := by
  have hv' : SymComma v := fun c hc => Or.inr (hv c hc)
  have e : u ++ "->".toList ++ v = u ++ '-' :: '>' :: v := by simp
  rw [parse_str, hs, e, parseStr_arrow hu hv']
  simp only [bind, Except.bind]
  rw [parseCommon_explicit hu hv']
  simp

/-- Whatever the arguments, an accepted output has no repeated symbol and only symbols of the input. -/
theorem C16_output_checked [Neg R] (operands : List (EinArg R)) (inp out : List Char)
    (arrs : List (NDArray R)) (h : parseEinsumInput operands = .ok (inp, out, arrs)) :
    out.Nodup ∧ ∀ c ∈ out, c ∈ inp := by
  have key : ∀ b sub ops, parseCommon b sub ops = .ok (inp, out, arrs) →
      out.Nodup ∧ ∀ c ∈ out, c ∈ inp := by
    intro b sub ops h
    unfold parseCommon parseTail at h
    split at h
    · cases h
    split at h
    · cases h
    have fin : ∀ i o : List Char, (if (o.all fun c => decide (o.count c = 1) && decide (c ∈ i)) = true
          then pure (i, o, ops)
          else if b = true then .error .valueError else .error .nameError : Except PyErr (EinInput R))
        = .ok (inp, out, arrs) → out.Nodup ∧ ∀ c ∈ out, c ∈ inp := by
      intro i o h
      split at h
      · rename_i hall
        cases h
        rw [List.all_eq_true] at hall
        simp only [Bool.and_eq_true, decide_eq_true_eq] at hall
        exact ⟨List.nodup_iff_count_eq_one.2 fun c hc => (hall c hc).1, fun c hc => (hall c hc).2⟩
      · split at h <;> cases h
    simp only [bind, Except.bind, pure, Except.pure] at h
    split at h
    · exact fin _ _ h
    · cases hi : implicitOutput sub with
      | error x => rw [hi] at h; cases h
      | ok o => rw [hi] at h; exact fin _ _ h
  unfold parseEinsumInput at h
  split at h
  · cases h
  · rename_i s rest
    cases h1 : rest.mapM EinArg.asArr with
    | error x => simp only [h1, bind, Except.bind] at h; cases h
    | ok ops =>
      cases h2 : parseStr s ops with
      | error x => simp only [h1, h2, bind, Except.bind] at h; cases h
      | ok r => simp only [h1, h2, bind, Except.bind] at h; exact key _ _ _ h
  · rename_i ops _ 
    cases h1 : parseList operands with
    | error x => simp only [h1, bind, Except.bind] at h; cases h
    | ok r => simp only [h1, bind, Except.bind] at h; exact key _ _ _ h

theorem signLoop_rel [Neg R] : ∀ (s : List Char) (j : Nat) (ops : List (NDArray R)) (r : List Char)
    (ops' : List (NDArray R)), signLoop s j ops = .ok (r, ops') →
    List.Forall₂ (fun x y => y = x ∨ (y = ',' ∧ (x = '+' ∨ x = '-'))) s r
  | [], j, ops, r, ops', h => by cases h; exact .nil
  | c :: s, j, ops, r, ops', h => by
    have step : ∀ (j' : Nat) (ops1 : List (NDArray R)) (y : Char),
        (do let r ← signLoop s j' ops1; pure (y :: r.1, r.2) : Except PyErr _) = .ok (r, ops') →
        ∃ r', r = y :: r' ∧ List.Forall₂ (fun x y => y = x ∨ (y = ',' ∧ (x = '+' ∨ x = '-'))) s r' := by
      intro j' ops1 y hh
      cases h1 : signLoop s j' ops1 with
      | error x => simp only [h1, bind, Except.bind] at hh; cases hh
      | ok q =>
        simp only [h1, bind, Except.bind, pure, Except.pure, Except.ok.injEq, Prod.mk.injEq] at hh
        exact ⟨q.1, hh.1.symm, signLoop_rel s _ _ _ _ h1⟩
    unfold signLoop at h
    split at h
    · rename_i hc
      obtain ⟨r', rfl, hr⟩ := step _ _ _ h
      exact .cons (Or.inr ⟨rfl, Or.inl hc⟩) hr
    · split at h
      · rename_i hc
        split at h
        · cases h
        · split at h
          · cases hn : negAt ops j with
            | error x => simp only [hn, bind, Except.bind] at h; cases h
            | ok o =>
              rw [hn] at h
              obtain ⟨r', rfl, hr⟩ := step _ _ _ h
              exact .cons (Or.inr ⟨rfl, Or.inr hc⟩) hr
          · obtain ⟨r', rfl, hr⟩ := step _ _ _ h
            exact .cons (Or.inl rfl) hr
      · obtain ⟨r', rfl, hr⟩ := step _ _ _ h
        exact .cons (Or.inl rfl) hr

theorem rel_mem_gt {s r : List Char}
    (h : List.Forall₂ (fun x y => y = x ∨ (y = ',' ∧ (x = '+' ∨ x = '-'))) s r) :
    s.count '>' = r.count '>' := by
  induction h with
  | nil => rfl
  | cons hxy _ ih =>
    rw [List.count_cons, List.count_cons, ih]
    rcases hxy with rfl | ⟨rfl, rfl | rfl⟩ <;> simp

theorem rel_split {p q : List Char} : ∀ {s : List Char},
    List.Forall₂ (fun x y => y = x ∨ (y = ',' ∧ (x = '+' ∨ x = '-'))) s (p ++ '-' :: '>' :: q) →
    ∃ u v, s = u ++ '-' :: '>' :: v := by
  induction p with
  | nil =>
    intro s h
    cases h with
    | cons h1 h =>
      cases h with
      | cons h2 h =>
        rename_i y l
        refine ⟨[], l, ?_⟩
        rcases h1 with h1 | ⟨h1, _⟩
        · rcases h2 with h2 | ⟨h2, _⟩
          · rw [← h1, ← h2]; rfl
          · exact absurd h2 (by decide)
        · exact absurd h1 (by decide)
  | cons a p ih =>
    intro s h
    cases h with
    | cons h1 h =>
      obtain ⟨u, v, rfl⟩ := ih h
      exact ⟨_ :: u, v, rfl⟩

/-- A string is accepted only if it contains no `>`, or exactly one, preceded by `-`: malformed arrows
are rejected for every string and all operands. -/
theorem C16_malformed_arrow [Neg R] (s : List Char) (rest : List (EinArg R)) (r : EinInput R)
    (h : parseEinsumInput (.str s :: rest) = .ok r) :
    '>' ∉ noSpaces s ∨
      ∃ u v, noSpaces s = u ++ "->".toList ++ v ∧ '>' ∉ u ∧ '>' ∉ v := by
  unfold parseEinsumInput at h
  simp only at h
  cases h1 : rest.mapM EinArg.asArr with
  | error x => simp only [h1, bind, Except.bind] at h; cases h
  | ok ops =>
    simp only [h1, bind, Except.bind] at h
    rw [parseStr_noSpaces] at h
    cases h2 : parseStr (noSpaces s) ops with
    | error x => simp only [h2] at h; cases h
    | ok q =>
      simp only [h2] at h
      -- the text after the replacement of the signs
      have hrel : List.Forall₂ (fun x y => y = x ∨ (y = ',' ∧ (x = '+' ∨ x = '-'))) (noSpaces s) q.1 := by
        have hf : ((noSpaces s).filter fun c => decide (c ≠ ' ')) = noSpaces s := by
          rw [noSpaces, List.filter_filter]; simp
        unfold parseStr at h2
        simp only [hf] at h2
        cases hs : noSpaces s with
        | nil => rw [hs] at h2; cases h2
        | cons c t =>
          rw [hs] at h2
          simp only at h2
          cases h3 : signLoop (c :: t) (if c = '+' ∨ c = '-' then 0 else 1) ops with
          | error x => simp only [h3, bind, Except.bind] at h2; cases h2
          | ok p =>
            simp only [h3, bind, Except.bind] at h2
            split at h2
            · cases h2; exact signLoop_rel _ _ _ _ _ h3
            · cases h2
      by_cases hgt : '>' ∈ noSpaces s
      · right
        have hq : '>' ∈ q.1 := by
          rw [← List.count_pos_iff, ← rel_mem_gt hrel, List.count_pos_iff]; exact hgt
        unfold parseCommon parseTail at h
        split at h
        · cases h
        · rename_i hbad
          simp only [not_and_or, not_or, not_lt, Decidable.not_not] at hbad
          rcases hbad with hbad | ⟨_, h5, h6⟩
          · exact absurd hq hbad.2
          · have h7 := splitArrow_spec (s := q.1) (by omega)
            rw [h7] at hrel
            obtain ⟨u, v, hs⟩ := rel_split hrel
            have hc : (noSpaces s).count '>' ≤ 1 := by rw [rel_mem_gt hrel, ← h7]; exact h5
            rw [hs] at hc
            simp only [List.count_append, List.count_cons] at hc
            refine ⟨u, v, by simpa using hs, ?_, ?_⟩
            · rw [← List.count_eq_zero]; simp at hc; omega
            · rw [← List.count_eq_zero]; simp at hc; omega
      · exact Or.inl hgt

/-! ### The integer list form -/

/-- The letters with the given numbers. -/
def letters (l : List Nat) : List Char := l.map fun i => einsumSymbols.getD i 'a'

/-- The arguments in list form. -/
def listArgs (pairs : List (NDArray R × List Nat)) (out : Option (List Nat)) : List (EinArg R) :=
  pairs.flatMap (fun p => [.arr p.1, .idx p.2]) ++
    match out with
    | none => []
    | some o => [.idx o]

/-- The text of the corresponding string form. -/
def listText (pairs : List (NDArray R × List Nat)) (out : Option (List Nat)) : List Char :=
  commaJoin (pairs.map fun p => letters p.2) ++
    match out with
    | none => []
    | some o => "->".toList ++ letters o

theorem letters_mem {l : List Nat} (h : ∀ i ∈ l, i < 52) {c : Char} (hc : c ∈ letters l) :
    c ∈ einsumSymbols := by
  obtain ⟨i, hi, rfl⟩ := List.mem_map.1 hc
  have : i < einsumSymbols.length := h i hi
  simp only [List.getD_eq_getElem?_getD, List.getElem?_eq_getElem this, Option.getD_some]
  exact List.getElem_mem _

theorem symbolsOf_ok {l : List Nat} (h : ∀ i ∈ l, i < 52) : symbolsOf l = .ok (letters l) := by
  unfold symbolsOf letters
  induction l with
  | nil => rfl
  | cons i l ih =>
    have : i < einsumSymbols.length := h i (by simp)
    rw [List.mapM_cons, ih fun j hj => h j (by simp [hj])]
    simp [List.getElem?_eq_getElem this, bind, Except.bind, pure, Except.pure]

theorem everySecond_cons {α : Type} (a : α) (l : List α) :
    everySecond (a :: l) = a :: everySecond l.tail := by
  cases l <;> rfl

theorem mapM_asIdx (l : List (List Nat)) : (l.map (EinArg.idx (R := R))).mapM EinArg.asIdx = .ok l := by
  induction l with
  | nil => rfl
  | cons a l ih => rw [List.map_cons, List.mapM_cons, ih]; rfl

theorem everySecond_tail (pairs : List (NDArray R × List Nat)) (x : List (EinArg R)) (hx : x.length ≤ 1) :
    everySecond (pairs.flatMap (fun p => [EinArg.arr p.1, .idx p.2]) ++ x).tail
      = pairs.map fun p => .idx p.2 := by
  induction pairs with
  | nil =>
    match x, hx with
    | [], _ => rfl
    | [_], _ => rfl
  | cons p ps ih =>
    simp only [List.flatMap_cons, List.cons_append, List.tail_cons, List.nil_append]
    rw [everySecond_cons, ih]; rfl

theorem everySecond_flat (pairs : List (NDArray R × List Nat)) :
    everySecond (pairs.flatMap (fun p => [EinArg.arr p.1, .idx p.2])) = pairs.map fun p => .arr p.1 := by
  induction pairs with
  | nil => rfl
  | cons p ps ih => simp [List.flatMap_cons, everySecond, ih]

theorem everySecond_flat_dropLast (pairs : List (NDArray R × List Nat)) :
    everySecond (pairs.flatMap (fun p => [EinArg.arr p.1, .idx p.2])).dropLast
      = pairs.map fun p => .arr p.1 := by
  induction pairs with
  | nil => rfl
  | cons p ps ih =>
    simp only [List.flatMap_cons, List.cons_append, List.nil_append]
    cases hps : ps.flatMap (fun p => [EinArg.arr p.1, .idx p.2]) with
    | nil =>
      cases ps with
      | nil => rfl
      | cons q qs => simp at hps
    | cons y ys =>
      rw [List.dropLast_cons_of_ne_nil (by simp), List.dropLast_cons_of_ne_nil (by simp), everySecond,
        ← hps, ih]
      rfl

theorem strs_ok (pairs : List (NDArray R × List Nat)) (hlt : ∀ p ∈ pairs, ∀ i ∈ p.2, i < 52) :
    (pairs.map fun p => p.2).mapM symbolsOf = .ok (pairs.map fun p => letters p.2) := by
  induction pairs with
  | nil => rfl
  | cons p ps ih =>
    rw [List.map_cons, List.mapM_cons, symbolsOf_ok (hlt p (by simp)), ih fun q hq => hlt q (by simp [hq])]
    rfl

theorem length_flat (pairs : List (NDArray R × List Nat)) :
    (pairs.flatMap (fun p => [EinArg.arr p.1, .idx p.2])).length = 2 * pairs.length := by
  induction pairs with
  | nil => rfl
  | cons p ps ih => simp [List.flatMap_cons, ih]; omega

theorem parseList_ok (pairs : List (NDArray R × List Nat)) (out : Option (List Nat))
    (hlt : ∀ p ∈ pairs, ∀ i ∈ p.2, i < 52) (hlo : ∀ o ∈ out, ∀ i ∈ o, i < 52) :
    parseList (listArgs pairs out) = .ok (listText pairs out, pairs.map Prod.fst) := by
  have harr : (pairs.map fun p => (EinArg.arr p.1 : EinArg R)) = (pairs.map Prod.fst).map .arr := by simp
  have hidx : (pairs.map fun p => (EinArg.idx p.2 : EinArg R)) = (pairs.map fun p => p.2).map .idx := by
    simp
  cases out with
  | none =>
    unfold parseList listArgs
    simp only
    rw [everySecond_tail pairs [] (by simp), List.append_nil, everySecond_flat_dropLast, harr, mapM_asArr,
      hidx, mapM_asIdx]
    simp only [bind, Except.bind]
    rw [strs_ok pairs hlt]
    simp only
    rw [if_neg (by rw [length_flat]; omega)]
    simp [listText, pure, Except.pure]
  | some o =>
    unfold parseList listArgs
    simp only
    rw [everySecond_tail pairs [.idx o] (by simp), List.dropLast_concat, everySecond_flat, harr, mapM_asArr,
      hidx, mapM_asIdx]
    simp only [bind, Except.bind]
    rw [strs_ok pairs hlt]
    simp only
    rw [if_pos (by rw [List.length_append, length_flat]; simp [Nat.add_mod])]
    simp only [List.getLast?_append, List.getLast?_singleton, Option.some_or, EinArg.asIdx]
    rw [symbolsOf_ok (hlo o rfl)]
    simp [listText, pure, Except.pure]

theorem parse_list [Neg R] (pairs : List (NDArray R × List Nat)) (out : Option (List Nat))
    (hne : pairs ≠ []) : parseEinsumInput (listArgs pairs out) = (do
      let r ← parseList (listArgs pairs out)
      parseCommon (decide ((listArgs pairs out).length % 2 = 0 ∧ r.1 ≠ [])) r.1 r.2) := by
  cases pairs with
  | nil => exact absurd rfl hne
  | cons p ps =>
    have : listArgs (p :: ps) out = .arr p.1 :: .idx p.2 :: listArgs ps out := by
      simp [listArgs, List.flatMap_cons]
    rw [this]
    rfl

/-- The integer list form accepts the same calls with the same result as the string form with the
corresponding letters, provided the text is not empty. -/
theorem C16_list_form [Neg R] (pairs : List (NDArray R × List Nat)) (out : Option (List Nat))
    (hne : pairs ≠ []) (hlt : ∀ p ∈ pairs, ∀ i ∈ p.2, i < 52) (hlo : ∀ o ∈ out, ∀ i ∈ o, i < 52)
    (htext : listText pairs out ≠ []) (r : EinInput R) :
    parseEinsumInput (listArgs pairs out) = .ok r ↔
      parseEinsumInput (.str (listText pairs out) :: (pairs.map Prod.fst).map .arr) = .ok r := by
  rw [parse_list _ _ hne, parseList_ok _ _ hlt hlo, parse_str]
  have hsub : SymComma (commaJoin (pairs.map fun p => letters p.2)) := by
    apply symComma_join
    intro s hs c hc
    obtain ⟨p, hp, rfl⟩ := List.mem_map.1 hs
    exact letters_mem (hlt p hp) hc
  cases out with
  | none =>
    have ht : listText pairs none = commaJoin (pairs.map fun p => letters p.2) := by simp [listText]
    rw [ht] at htext ⊢
    have hns : noSpaces (commaJoin (pairs.map fun p => letters p.2))
        = commaJoin (pairs.map fun p => letters p.2) :=
      List.filter_eq_self.2 fun c hc => by simpa using (hsub.ne hc).1
    rw [hns, parseStr_plain hsub htext]
    simp only [bind, Except.bind]
    obtain ⟨o1, h1, _⟩ := parseCommon_implicit hsub true (pairs.map Prod.fst)
    have : ∀ b, parseCommon b (commaJoin (pairs.map fun p => letters p.2)) (pairs.map Prod.fst)
        = .ok (commaJoin (pairs.map fun p => letters p.2), o1, pairs.map Prod.fst) := by
      intro b
      obtain ⟨o2, g1, g2, g3⟩ := parseCommon_implicit hsub b (pairs.map Prod.fst)
      obtain ⟨o3, g4, g5, g6⟩ := parseCommon_implicit hsub true (pairs.map Prod.fst)
      rw [h1] at g4
      cases g4
      have : o2 = o1 := by
        refine (List.perm_ext_iff_of_nodup ?_ ?_).2 (fun c => (g3 c).trans (g6 c).symm) |>.eq_of_pairwise
          (fun a b _ _ hab hba => absurd (lt_trans hab hba) (lt_irrefl _)) g2 g5
        · exact g2.imp fun h => ne_of_lt h
        · exact g5.imp fun h => ne_of_lt h
      rw [g1, this]
    rw [this, this]
  | some o =>
    have hv : SymComma (letters o) := fun c hc => Or.inr (letters_mem (hlo o rfl) hc)
    have ht : listText pairs (some o)
        = commaJoin (pairs.map fun p => letters p.2) ++ '-' :: '>' :: letters o := by simp [listText]
    rw [ht]
    have hns : noSpaces (commaJoin (pairs.map fun p => letters p.2) ++ '-' :: '>' :: letters o)
        = commaJoin (pairs.map fun p => letters p.2) ++ '-' :: '>' :: letters o := by
      refine List.filter_eq_self.2 fun c hc => ?_
      simp only [List.mem_append, List.mem_cons] at hc
      rcases hc with hc | rfl | rfl | hc
      · simpa using (hsub.ne hc).1
      · decide
      · decide
      · simpa using (hv.ne hc).1
    rw [hns, parseStr_arrow hsub hv]
    simp only [bind, Except.bind]
    rw [parseCommon_explicit hsub hv, parseCommon_explicit hsub hv]
    split
    · rfl
    · constructor
      · intro h; split at h <;> cases h
      · intro h; simp at h

/-- The hypothesis on the text is needed: a scalar operand is accepted in list form with an empty
index list, but the empty string raises `IndexError` (einsumfunc.py:72 reads `subscripts[0]`). -/
theorem C16_empty_text_differs (a : NDArray Int) :
    parseEinsumInput (listArgs [(a, [])] none) = .ok ([], [], [a]) ∧
      parseEinsumInput [.str [], .arr a] = .error .indexError := by
  constructor
  · rw [parse_list _ _ (by simp), parseList_ok _ _ (by simp) (by simp)]; rfl
  · rfl

/-- In list form a bad output raises `UnboundLocalError` instead of `ValueError`, as the message refers
to a variable that is not bound (einsumfunc.py:193, 195). -/
theorem C16_list_form_error_kind (a : NDArray Int) :
    parseEinsumInput (listArgs [(a, [0])] (some [1])) = .error .nameError ∧
      parseEinsumInput [.str "a->b".toList, .arr a] = .error .valueError := by
  constructor
  · rw [parse_list _ _ (by simp), parseList_ok _ _ (by simp) (by simp)]
    have h : (listArgs [(a, [0])] (some [1])).length = 3 := rfl
    simp only [h]; rfl
  · rfl

/-- An output may contain a comma if the input does: `einsum("a,b->a,", ...)` is not rejected by the
parser. -/
theorem C16_comma_in_output (a b : NDArray Int) :
    parseEinsumInput [.str "a,b->a,".toList, .arr a, .arr b] = .ok ("a,b".toList, "a,".toList, [a, b]) := by
  rfl

example (a b : NDArray Int) : parseEinsumInput [.str "kj, ik".toList, .arr a, .arr b]
    = .ok ("kj,ik".toList, "ij".toList, [a, b]) := rfl
example (a b : NDArray Int) : parseEinsumInput [.str "kj,ik->ji".toList, .arr a, .arr b]
    = .ok ("kj,ik".toList, "ji".toList, [a, b]) := rfl
example (a b : NDArray Int) : parseEinsumInput [.str "kj,ik->jj".toList, .arr a, .arr b]
    = .error .valueError := rfl
example (a b : NDArray Int) : parseEinsumInput [.str "kj,ik->ja".toList, .arr a, .arr b]
    = .error .valueError := rfl
example (a b : NDArray Int) : parseEinsumInput [.str "kj,ik>ji".toList, .arr a, .arr b]
    = .error .valueError := rfl
example (a b : NDArray Int) : parseEinsumInput [.str "kj->ik->ji".toList, .arr a, .arr b]
    = .error .valueError := rfl
example (a b : NDArray Int) : parseEinsumInput (listArgs [(a, [10, 9]), (b, [8, 10])] (some [9, 8]))
    = .ok ("kj,ik".toList, "ji".toList, [a, b]) := by
  rw [parse_list _ _ (by simp), parseList_ok _ _ (by simp) (by simp)]; rfl

end

end Ebcc
