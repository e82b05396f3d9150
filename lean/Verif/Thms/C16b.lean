import Verif.Model.Ellipsis
import Verif.Thms.C16
import Verif.Thms.C18

/-!
C16, ellipses: a subscript with `...` is read as the subscript in which the ellipsis is replaced by
unused letters, aligned at the right.
-/

namespace Ebcc

section
variable {R : Type}

/-- A subscript `p` or `p...q`. -/
abbrev EllPiece := List Char × Option (List Char)

/-- The subscript with `x` in place of the ellipsis. -/
def EllPiece.fill (x : List Char) (p : EllPiece) : List Char :=
  match p.2 with
  | none => p.1
  | some q => p.1 ++ x ++ q

/-- Three dots. -/
def dots16 : List Char := ['.', '.', '.']

/-- All letters of the subscript are symbols. -/
def EllPiece.Sym (p : EllPiece) : Prop :=
  (∀ c ∈ p.1, c ∈ einsumSymbols) ∧ ∀ q, p.2 = some q → ∀ c ∈ q, c ∈ einsumSymbols

/-- The number of axes of an array with `n` axes that belong to the ellipsis. -/
def EllPiece.width (p : EllPiece) (n : Nat) : Nat :=
  match p.2 with
  | none => 0
  | some q => n - (p.1.length + q.length)

/-- The array has axes for all letters of the subscript, or it is a scalar. -/
def EllPiece.Fits (p : EllPiece) (n : Nat) : Prop :=
  match p.2 with
  | none => True
  | some q => n = 0 ∨ p.1.length + q.length ≤ n

/-- The longest ellipsis. -/
def longest16 (L : List (EllPiece × NDArray R)) : Nat :=
  (L.map fun x => x.1.width x.2.shape.length).foldr max 0

/-! ### Replacement of the dots -/

theorem replaceDots_none (w : List Char) : ∀ {s : List Char}, '.' ∉ s → replaceDots w s = s
  | [], _ => rfl
  | [_], _ => rfl
  | [_, _], _ => rfl
  | a :: b :: c :: l, h => by
    have ha : a ≠ '.' := by rintro rfl; simp at h
    rw [replaceDots, if_neg (fun x => ha x.1), replaceDots_none w (fun x => h (by simp [x]))]

theorem replaceDots_some (w : List Char) : ∀ {p q : List Char}, '.' ∉ p → '.' ∉ q →
    replaceDots w (p ++ '.' :: '.' :: '.' :: q) = p ++ (w ++ q)
  | [], q, _, hq => by
    rw [List.nil_append, replaceDots, if_pos ⟨rfl, rfl, rfl⟩, replaceDots_none w hq]; rfl
  | a :: p, q, hp, hq => by
    have ha : a ≠ '.' := by rintro rfl; simp at hp
    have ih := replaceDots_some w (p := p) (q := q) (fun x => hp (by simp [x])) hq
    match p, ih with
    | [], ih =>
      rw [List.cons_append, List.nil_append, replaceDots, if_neg (fun x => ha x.1)]
      rw [List.nil_append] at ih
      rw [ih]; rfl
    | [b], ih =>
      simp only [List.cons_append, List.nil_append] at ih ⊢
      rw [replaceDots, if_neg (fun x => ha x.1), ih]
    | b :: c :: p, ih =>
      simp only [List.cons_append] at ih ⊢
      rw [replaceDots, if_neg (fun x => ha x.1), ih]

theorem countDots_none : ∀ {s : List Char}, '.' ∉ s → countDots s = 0
  | [], _ => rfl
  | [_], _ => rfl
  | [_, _], _ => rfl
  | a :: b :: c :: l, h => by
    have ha : a ≠ '.' := by rintro rfl; simp at h
    rw [countDots, if_neg (fun x => ha x.1), countDots_none (fun x => h (by simp [x]))]

theorem countDots_some : ∀ {p q : List Char}, '.' ∉ p → '.' ∉ q →
    countDots (p ++ '.' :: '.' :: '.' :: q) = 1
  | [], q, _, hq => by
    rw [List.nil_append, countDots, if_pos ⟨rfl, rfl, rfl⟩, countDots_none hq]
  | a :: p, q, hp, hq => by
    have ha : a ≠ '.' := by rintro rfl; simp at hp
    have ih := countDots_some (p := p) (q := q) (fun x => hp (by simp [x])) hq
    match p, ih with
    | [], ih => rw [List.cons_append, List.nil_append, countDots, if_neg (fun x => ha x.1)]; exact ih
    | [b], ih =>
      simp only [List.cons_append, List.nil_append] at ih ⊢
      rw [countDots, if_neg (fun x => ha x.1), ih]
    | b :: c :: p, ih =>
      simp only [List.cons_append] at ih ⊢
      rw [countDots, if_neg (fun x => ha x.1), ih]

theorem countDots_spec : ∀ {s : List Char}, countDots s ≠ 0 → ∃ p q, s = p ++ dots16 ++ q
  | [], h => absurd rfl h
  | [_], h => absurd rfl h
  | [_, _], h => absurd rfl h
  | a :: b :: c :: l, h => by
    rw [countDots] at h
    split at h
    · rename_i hh
      exact ⟨[], l, by rw [hh.1, hh.2.1, hh.2.2]; rfl⟩
    · obtain ⟨p, q, e⟩ := countDots_spec h
      exact ⟨a :: p, q, by rw [e]; simp⟩

theorem lastChars_lastChars (s : List Char) {n k : Nat} (h : k ≤ n) (hn : n ≤ s.length) :
    lastChars (lastChars s n) k = lastChars s k := by
  unfold lastChars
  rw [List.drop_drop, List.length_drop]
  congr 1
  omega

theorem lastChars_length (s : List Char) {n : Nat} (h : n ≤ s.length) : (lastChars s n).length = n := by
  unfold lastChars; rw [List.length_drop]; omega

theorem lastChars_mem {s : List Char} {n : Nat} {c : Char} (h : c ∈ lastChars s n) : c ∈ s :=
  List.mem_of_mem_drop h

theorem EllPiece.Sym.nodot1 {p : EllPiece} (h : p.Sym) : '.' ∉ p.1 :=
  fun x => (symbol_ne (h.1 _ x)).2.2.2.2.1 rfl

theorem EllPiece.Sym.nodot2 {p : EllPiece} (h : p.Sym) {q : List Char} (hq : p.2 = some q) : '.' ∉ q :=
  fun x => (symbol_ne (h.2 q hq _ x)).2.2.2.2.1 rfl

theorem replaceDots_fill {p : EllPiece} (h : p.Sym) (w : List Char) :
    replaceDots w (p.fill dots16) = p.fill w := by
  unfold EllPiece.fill
  cases hq : p.2 with
  | none => exact replaceDots_none w h.nodot1
  | some q =>
    have := replaceDots_some w h.nodot1 (h.nodot2 hq)
    simpa [dots16] using this

theorem expandPiece_fill {p : EllPiece} (h : p.Sym) (inds : List Char) (a : NDArray R)
    (hf : p.Fits a.shape.length) : expandPiece inds (some a) (p.fill dots16)
      = .ok (p.fill (lastChars inds (p.width a.shape.length)), p.width a.shape.length) := by
  have hr := replaceDots_fill h
  unfold EllPiece.fill at hr ⊢
  unfold EllPiece.Fits at hf
  unfold EllPiece.width expandPiece
  cases hq : p.2 with
  | none =>
    simp only
    rw [if_neg h.nodot1]
  | some q =>
    simp only [hq] at hr hf ⊢
    have h1 := h.nodot1
    have h2 := h.nodot2 hq
    have e : p.1 ++ dots16 ++ q = p.1 ++ '.' :: '.' :: '.' :: q := by simp [dots16]
    have hc : (p.1 ++ dots16 ++ q).count '.' = 3 := by
      rw [List.count_append, List.count_append, List.count_eq_zero.2 h1, List.count_eq_zero.2 h2]; rfl
    have hl : (p.1 ++ dots16 ++ q).length = p.1.length + 3 + q.length := by simp [dots16]; omega
    rw [if_pos (by simp [dots16]), if_neg (by rw [hc, e, countDots_some h1 h2]; simp)]
    have hk : (if a.shape = [] then (0 : Int)
        else max (a.shape.length : Int) 1 - (((p.1 ++ dots16 ++ q).length : Int) - 3))
        = ((a.shape.length - (p.1.length + q.length) : Nat) : Int) := by
      rw [hl]
      split
      · rename_i h0; rw [h0]; simp
      · rename_i h0
        have : a.shape.length ≠ 0 := by simpa using h0
        rcases hf with hf | hf
        · exact absurd hf this
        · omega
    rw [hk, if_neg (by omega), Int.toNat_natCast, hr]

theorem expandPieces_fill (inds : List Char) : ∀ (L : List (EllPiece × NDArray R)) (rest : List (NDArray R)),
    (∀ x ∈ L, x.1.Sym) → (∀ x ∈ L, x.1.Fits x.2.shape.length) →
    expandPieces inds (L.map fun x => x.1.fill dots16) (L.map Prod.snd ++ rest)
      = .ok (L.map fun x => x.1.fill (lastChars inds (x.1.width x.2.shape.length)), longest16 L)
  | [], _, _, _ => rfl
  | x :: L, rest, hs, hf => by
    rw [List.map_cons, List.map_cons, List.cons_append]
    unfold expandPieces
    rw [List.head?_cons, List.tail_cons, expandPiece_fill (hs x (by simp)) inds x.2 (hf x (by simp)),
      expandPieces_fill inds L rest (fun y hy => hs y (by simp [hy])) fun y hy => hf y (by simp [hy])]
    rfl

theorem width_le_longest {L : List (EllPiece × NDArray R)} {x : EllPiece × NDArray R} (h : x ∈ L) :
    x.1.width x.2.shape.length ≤ longest16 L := by
  unfold longest16
  induction L with
  | nil => simp at h
  | cons y L ih =>
    rw [List.map_cons, List.foldr_cons]
    rcases List.mem_cons.1 h with rfl | h
    · exact le_max_left _ _
    · exact le_trans (ih h) (le_max_right _ _)

theorem longest_attained {L : List (EllPiece × NDArray R)} (h : longest16 L ≠ 0) :
    ∃ x ∈ L, x.1.width x.2.shape.length = longest16 L := by
  unfold longest16 at h ⊢
  induction L with
  | nil => exact absurd rfl h
  | cons y L ih =>
    rw [List.map_cons, List.foldr_cons] at h ⊢
    rcases le_total ((L.map fun x => x.1.width x.2.shape.length).foldr max 0) (y.1.width y.2.shape.length)
      with hle | hle
    · exact ⟨y, by simp, (max_eq_left hle).symm⟩
    · rw [max_eq_right hle] at h ⊢
      obtain ⟨x, hx, e⟩ := ih h
      exact ⟨x, by simp [hx], e⟩

/-! ### The string form with dots -/

/-- Symbols, commas and dots only. -/
def SymDot (s : List Char) : Prop := ∀ c ∈ s, c = ',' ∨ c = '.' ∨ c ∈ einsumSymbols

theorem SymDot.ne {s : List Char} (h : SymDot s) {c : Char} (hc : c ∈ s) :
    c ≠ ' ' ∧ c ≠ '+' ∧ c ≠ '-' ∧ c ≠ '>' := by
  rcases h c hc with rfl | rfl | h
  · decide
  · decide
  · exact ⟨(symbol_ne h).1, (symbol_ne h).2.1, (symbol_ne h).2.2.1, (symbol_ne h).2.2.2.1⟩

theorem SymDot.allowed {s : List Char} (h : SymDot s) {c : Char} (hc : c ∈ s) :
    c ∈ ".,->".toList ∨ c ∈ einsumSymbols := by
  rcases h c hc with rfl | rfl | h
  · exact Or.inl (by decide)
  · exact Or.inl (by decide)
  · exact Or.inr h

theorem parseStr_dots [Neg R] {s : List Char} (hs : SymDot s) (hne : s ≠ [])
    (ops : List (NDArray R)) : parseStr s ops = .ok (s, ops) := by
  have hf : (s.filter fun c => decide (c ≠ ' ')) = s :=
    List.filter_eq_self.2 fun c hc => by simpa using (hs.ne hc).1
  unfold parseStr
  simp only [hf]
  cases s with
  | nil => exact absurd rfl hne
  | cons c s =>
    simp only
    rw [signLoop_plain _ _ _ fun c hc => ⟨(hs.ne hc).2.1, (hs.ne hc).2.2.1⟩]
    simp only [bind, Except.bind]
    rw [if_pos]
    · rfl
    · rw [List.all_eq_true]
      intro x hx
      simpa using hs.allowed hx

theorem parseStr_dots_arrow [Neg R] {u v : List Char} (hu : SymDot u) (hv : SymDot v)
    (ops : List (NDArray R)) :
    parseStr (u ++ '-' :: '>' :: v) ops = .ok (u ++ '-' :: '>' :: v, ops) := by
  have hf : ((u ++ '-' :: '>' :: v).filter fun c => decide (c ≠ ' ')) = u ++ '-' :: '>' :: v := by
    refine List.filter_eq_self.2 fun c hc => ?_
    simp only [List.mem_append, List.mem_cons] at hc
    rcases hc with hc | rfl | rfl | hc
    · simpa using (hu.ne hc).1
    · decide
    · decide
    · simpa using (hv.ne hc).1
  unfold parseStr
  simp only [hf]
  cases h : u ++ '-' :: '>' :: v with
  | nil => simp at h
  | cons c s =>
    simp only
    rw [← h, signLoop_arrow _ _ _ _ (fun c hc => ⟨(hu.ne hc).2.1, (hu.ne hc).2.2.1⟩)
      fun c hc => ⟨(hv.ne hc).2.1, (hv.ne hc).2.2.1⟩]
    simp only [bind, Except.bind]
    rw [if_pos]
    · rfl
    · rw [List.all_eq_true]
      intro x hx
      simp only [List.mem_append, List.mem_cons] at hx
      rcases hx with hc | rfl | rfl | hc
      · simpa using hu.allowed hc
      · decide
      · decide
      · simpa using hv.allowed hc

theorem parse_dots [Neg R] (so : List Char → List Char) (s : List Char) (arrs : List (NDArray R)) :
    parseEinsumDots so (.str s :: arrs.map .arr) = (do
      let r ← parseStr (noSpaces s) arrs
      parseDots so true r.1 r.2) := by
  unfold parseEinsumDots
  simp only [mapM_asArr, bind, Except.bind]
  rw [parseStr_noSpaces]

/-- Without a dot the parser behaves as described before. -/
theorem parseDots_plain (so : List Char → List Char) (b : Bool) {sub : List Char} (h : '.' ∉ sub)
    (ops : List (NDArray R)) : parseDots so b sub ops = parseCommon b sub ops := by
  unfold parseDots parseCommon
  split
  · rfl
  · simp only [if_neg h]

theorem fill_symDot {p : EllPiece} (h : p.Sym) {c : Char} (hc : c ∈ p.fill dots16) :
    c = '.' ∨ c ∈ einsumSymbols := by
  unfold EllPiece.fill at hc
  cases hq : p.2 with
  | none => rw [hq] at hc; exact Or.inr (h.1 c hc)
  | some q =>
    rw [hq] at hc
    simp only [List.mem_append] at hc
    rcases hc with (hc | hc) | hc
    · exact Or.inr (h.1 c hc)
    · left; simpa [dots16] using hc
    · exact Or.inr (h.2 q hq c hc)

theorem fill_sym {p : EllPiece} (h : p.Sym) {w : List Char} (hw : ∀ c ∈ w, c ∈ einsumSymbols) {c : Char}
    (hc : c ∈ p.fill w) : c ∈ einsumSymbols := by
  unfold EllPiece.fill at hc
  cases hq : p.2 with
  | none => rw [hq] at hc; exact h.1 c hc
  | some q =>
    rw [hq] at hc
    simp only [List.mem_append] at hc
    rcases hc with (hc | hc) | hc
    · exact h.1 c hc
    · exact hw c hc
    · exact h.2 q hq c hc

theorem join_symDot {l : List (List Char)} (h : ∀ s ∈ l, ∀ c ∈ s, c = '.' ∨ c ∈ einsumSymbols) :
    SymDot (commaJoin l) := by
  intro c hc
  rcases mem_commaJoin hc with h' | ⟨s, hs, hcs⟩
  · exact Or.inl h'
  · exact Or.inr (h s hs c hcs)

theorem nocomma_dot {c : Char} (h : c = '.' ∨ c ∈ einsumSymbols) : c ≠ ',' := by
  rcases h with rfl | h
  · decide
  · exact (symbol_ne h).2.2.2.2.2

/-- The letters from which ellipses are filled. -/
theorem inds_spec (so : List Char → List Char) (ho : IsSetOrder so) (sub : List Char) :
    let inds := so (einsumSymbols.filter fun c => decide (c ∉ sub.filter fun c => decide (c ∉ ".,->".toList)))
    inds.Nodup ∧ (∀ c, c ∈ inds ↔ c ∈ einsumSymbols ∧ c ∉ sub) ∧
      inds.length = (einsumSymbols.filter fun c => decide (c ∉ sub)).length := by
  intro inds
  have hn := (ho (einsumSymbols.filter fun c => decide (c ∉ sub.filter fun c => decide (c ∉ ".,->".toList)))).1
  have hm : ∀ c, c ∈ inds ↔ c ∈ einsumSymbols ∧ c ∉ sub := by
    intro c
    rw [(ho _).2 c, List.mem_filter]
    simp only [decide_eq_true_eq, List.mem_filter, not_and, Decidable.not_not]
    refine and_congr_right fun hc => ?_
    constructor
    · intro h hs
      have := h hs
      have e := symbol_ne hc
      have hl : ".,->".toList = ['.', ',', '-', '>'] := rfl
      rw [hl] at this
      simp [e.2.2.1, e.2.2.2.1, e.2.2.2.2.1, e.2.2.2.2.2] at this
    · intro h hs; exact absurd hs h
  refine ⟨hn, hm, ?_⟩
  have hS : einsumSymbols.Nodup := by decide
  apply List.Perm.length_eq
  rw [List.perm_ext_iff_of_nodup hn (hS.filter _)]
  intro c
  rw [hm, List.mem_filter]; simp

/-! ### The expanded text -/

/-- The input subscripts of `L` with the ellipses written as dots. -/
def dotted16 (L : List (EllPiece × NDArray R)) : List Char := commaJoin (L.map fun x => x.1.fill dots16)

/-- The input subscripts of `L` with the ellipses replaced by the last letters of `w`, as many as the
array has axes left. -/
def filled16 (L : List (EllPiece × NDArray R)) (w : List Char) : List Char :=
  commaJoin (L.map fun x => x.1.fill (w.drop (w.length - x.1.width x.2.shape.length)))

theorem filled_inds (L : List (EllPiece × NDArray R)) (inds : List Char) (h : longest16 L ≤ inds.length) :
    (L.map fun x => x.1.fill (lastChars inds (x.1.width x.2.shape.length)))
      = L.map fun x => x.1.fill ((lastChars inds (longest16 L)).drop
          ((lastChars inds (longest16 L)).length - x.1.width x.2.shape.length)) := by
  refine List.map_congr_left fun x hx => ?_
  have := lastChars_lastChars inds (width_le_longest hx) h
  rw [← this]; rfl

theorem filled_symComma {L : List (EllPiece × NDArray R)} (hs : ∀ x ∈ L, x.1.Sym) {w : List Char}
    (hw : ∀ c ∈ w, c ∈ einsumSymbols) : SymComma (filled16 L w) := by
  apply symComma_join
  intro s hs' c hc
  obtain ⟨x, hx, rfl⟩ := List.mem_map.1 hs'
  exact fill_sym (hs x hx) (fun c hc => hw c (List.mem_of_mem_drop hc)) hc

theorem dotted_symDot {L : List (EllPiece × NDArray R)} (hs : ∀ x ∈ L, x.1.Sym) : SymDot (dotted16 L) := by
  apply join_symDot
  intro s hs' c hc
  obtain ⟨x, hx, rfl⟩ := List.mem_map.1 hs'
  exact fill_symDot (hs x hx) hc

theorem splitComma_dotted {L : List (EllPiece × NDArray R)} (hs : ∀ x ∈ L, x.1.Sym) (hne : L ≠ []) :
    splitComma (dotted16 L) = L.map fun x => x.1.fill dots16 := by
  refine splitComma_join (by simpa using hne) fun s hs' hc => ?_
  obtain ⟨x, hx, rfl⟩ := List.mem_map.1 hs'
  exact nocomma_dot (fill_symDot (hs x hx) hc) rfl

theorem parseCommon_tail {u v : List Char} (hu : SymComma u) (hv : SymComma v) (b : Bool)
    (ops : List (NDArray R)) :
    parseTail b (u ++ '-' :: '>' :: v) ops = parseCommon b (u ++ '-' :: '>' :: v) ops := by
  have hum : '-' ∉ u := fun h => (hu.ne h).2.2.1 rfl
  have hug : '>' ∉ u := fun h => (hu.ne h).2.2.2.1 rfl
  have hud : '.' ∉ u := fun h => (hu.ne h).2.2.2.2 rfl
  have hvm : '-' ∉ v := fun h => (hv.ne h).2.2.1 rfl
  have hvg : '>' ∉ v := fun h => (hv.ne h).2.2.2.1 rfl
  have hvd : '.' ∉ v := fun h => (hv.ne h).2.2.2.2 rfl
  obtain ⟨ca, sa⟩ := split_arrow u v hum hvg
  unfold parseCommon
  rw [if_neg, if_neg]
  · simp [hud, hvd]
  · simp [ca, List.count_append, List.count_eq_zero.2 hum, List.count_eq_zero.2 hug,
      List.count_eq_zero.2 hvm, List.count_eq_zero.2 hvg]

theorem parseDots_arrow (so : List Char → List Char) {u v : List Char} (hu : SymDot u) (hv : SymDot v)
    (hd : '.' ∈ u ++ v) (b : Bool) (ops : List (NDArray R)) :
    parseDots so b (u ++ '-' :: '>' :: v) ops = (do
      let sub ← expandEllipses so (u ++ '-' :: '>' :: v) ops
      parseTail b sub ops) := by
  have hum : '-' ∉ u := fun h => (hu.ne h).2.2.1 rfl
  have hug : '>' ∉ u := fun h => (hu.ne h).2.2.2 rfl
  have hvm : '-' ∉ v := fun h => (hv.ne h).2.2.1 rfl
  have hvg : '>' ∉ v := fun h => (hv.ne h).2.2.2 rfl
  obtain ⟨ca, sa⟩ := split_arrow u v hum hvg
  unfold parseDots
  rw [if_neg, if_pos]
  · rw [List.mem_append] at hd
    rw [List.mem_append]
    exact hd.imp id fun h => by simp [h]
  · simp [ca, List.count_append, List.count_eq_zero.2 hum, List.count_eq_zero.2 hug,
      List.count_eq_zero.2 hvm, List.count_eq_zero.2 hvg]

theorem parseDots_noarrow (so : List Char → List Char) {u : List Char} (hu : SymDot u)
    (hd : '.' ∈ u) (b : Bool) (ops : List (NDArray R)) :
    parseDots so b u ops = (do
      let sub ← expandEllipses so u ops
      parseTail b sub ops) := by
  have hum : '-' ∉ u := fun h => (hu.ne h).2.2.1 rfl
  have hug : '>' ∉ u := fun h => (hu.ne h).2.2.2 rfl
  unfold parseDots
  rw [if_neg (by simp [hum, hug]), if_pos hd]

theorem dot_mem_dotted {L : List (EllPiece × NDArray R)} (h : ∃ x ∈ L, x.1.2 ≠ none) :
    '.' ∈ dotted16 L := by
  obtain ⟨x, hx, hq⟩ := h
  refine commaJoin_mem (List.mem_map.2 ⟨x, hx, rfl⟩) ?_
  unfold EllPiece.fill
  cases h : x.1.2 with
  | none => exact absurd h hq
  | some q => simp [dots16]

theorem noSpaces_symDot {s : List Char} (h : SymDot s) : noSpaces s = s :=
  List.filter_eq_self.2 fun c hc => by simpa using (h.ne hc).1

/-- Explicit output: a text with ellipses, in which every array has axes for its letters and there are
enough unused letters, is read as the text in which the ellipses are replaced by the last letters of one
string `w` of unused symbols, as many as the array has axes left, and in the output by `w`. -/
theorem C16_ellipsis_explicit [Neg R] (so : List Char → List Char) (ho : IsSetOrder so)
    (L : List (EllPiece × NDArray R)) (o : EllPiece) (s : List Char)
    (hL : ∃ x ∈ L, x.1.2 ≠ none) (hs : ∀ x ∈ L, x.1.Sym) (hso : o.Sym)
    (hf : ∀ x ∈ L, x.1.Fits x.2.shape.length)
    (htext : noSpaces s = dotted16 L ++ "->".toList ++ o.fill dots16)
    (hen : longest16 L ≤ (einsumSymbols.filter fun c => decide (c ∉ noSpaces s)).length) :
    ∃ w : List Char, w.Nodup ∧ w.length = longest16 L ∧ (∀ c ∈ w, c ∈ einsumSymbols ∧ c ∉ noSpaces s) ∧
      parseEinsumDots so (.str s :: (L.map Prod.snd).map .arr)
        = parseEinsumInput (.str (filled16 L w ++ "->".toList ++ o.fill w) :: (L.map Prod.snd).map .arr) := by
  have hne : L ≠ [] := by obtain ⟨x, hx, _⟩ := hL; exact List.ne_nil_of_mem hx
  have hu := dotted_symDot hs
  have hv : SymDot (o.fill dots16) := fun c hc => Or.inr (fill_symDot hso hc)
  have e : ∀ u v : List Char, u ++ "->".toList ++ v = u ++ '-' :: '>' :: v := by intro u v; simp
  rw [e] at htext
  obtain ⟨i1, i2, i3⟩ := inds_spec so ho (noSpaces s)
  generalize hinds : so (einsumSymbols.filter fun c =>
    decide (c ∉ (noSpaces s).filter fun c => decide (c ∉ ".,->".toList))) = inds at i1 i2 i3
  have hen' : longest16 L ≤ inds.length := by rw [i3]; exact hen
  have hw : ∀ c ∈ lastChars inds (longest16 L), c ∈ einsumSymbols ∧ c ∉ noSpaces s :=
    fun c hc => (i2 c).1 (lastChars_mem hc)
  refine ⟨lastChars inds (longest16 L), i1.sublist (List.drop_sublist _ _), lastChars_length _ hen', hw, ?_⟩
  have hu' := filled_symComma hs (w := lastChars inds (longest16 L)) fun c hc => (hw c hc).1
  have hv' : SymComma (o.fill (lastChars inds (longest16 L))) :=
    fun c hc => Or.inr (fill_sym hso (fun c hc => (hw c hc).1) hc)
  have hns : noSpaces (filled16 L (lastChars inds (longest16 L)) ++ '-' :: '>' ::
      o.fill (lastChars inds (longest16 L))) = filled16 L (lastChars inds (longest16 L)) ++ '-' :: '>' ::
      o.fill (lastChars inds (longest16 L)) := by
    refine List.filter_eq_self.2 fun c hc => ?_
    simp only [List.mem_append, List.mem_cons] at hc
    rcases hc with hc | rfl | rfl | hc
    · simpa using (hu'.ne hc).1
    · decide
    · decide
    · simpa using (hv'.ne hc).1
  rw [e, parse_str, hns, parseStr_arrow hu' hv', parse_dots, htext, parseStr_dots_arrow hu hv]
  simp only [bind, Except.bind]
  rw [parseDots_arrow so hu hv (List.mem_append_left _ (dot_mem_dotted hL)), ← parseCommon_tail hu' hv']
  have hum : '-' ∉ dotted16 L := fun h => (hu.ne h).2.2.1 rfl
  have hvg : '>' ∉ o.fill dots16 := fun h => (hv.ne h).2.2.2 rfl
  obtain ⟨ca, sa⟩ := split_arrow _ _ hum hvg
  unfold expandEllipses
  simp only
  rw [if_pos ca, sa, ← htext, hinds]
  simp only
  have := expandPieces_fill inds L [] hs hf
  rw [List.append_nil] at this
  rw [splitComma_dotted hs hne, this]
  simp only [bind, Except.bind, pure, Except.pure]
  rw [replaceDots_fill hso, filled_inds L inds hen']
  rfl

theorem count_join_congr {α : Type} (f g : α → List Char) {c : Char} :
    ∀ L : List α, (∀ x ∈ L, (f x).count c = (g x).count c) →
    (commaJoin (L.map f)).count c = (commaJoin (L.map g)).count c
  | [], _ => rfl
  | [x], h => h x (by simp)
  | x :: y :: L, h => by
    have ih := count_join_congr f g (y :: L) fun z hz => h z (by simp [hz])
    simp only [List.map_cons] at ih ⊢
    have hf : commaJoin (f x :: f y :: L.map f) = f x ++ ',' :: commaJoin (f y :: L.map f) := by
      rw [commaJoin]; simp
    have hg : commaJoin (g x :: g y :: L.map g) = g x ++ ',' :: commaJoin (g y :: L.map g) := by
      rw [commaJoin]; simp
    rw [hf, hg, List.count_append, List.count_append, List.count_cons, List.count_cons, ih, h x (by simp)]

theorem count_fill (p : EllPiece) (x y : List Char) (c : Char) (h : x.count c = y.count c) :
    (p.fill x).count c = (p.fill y).count c := by
  unfold EllPiece.fill
  cases p.2 with
  | none => rfl
  | some q => simp only [List.count_append, h]

/-- Implicit output: the output is the string `w` of letters of the ellipses followed by the symbols
that occur once in the text, in increasing order. -/
theorem C16_ellipsis_implicit [Neg R] (so : List Char → List Char) (ho : IsSetOrder so)
    (L : List (EllPiece × NDArray R)) (s : List Char)
    (hL : ∃ x ∈ L, x.1.2 ≠ none) (hs : ∀ x ∈ L, x.1.Sym)
    (hf : ∀ x ∈ L, x.1.Fits x.2.shape.length) (htext : noSpaces s = dotted16 L)
    (hen : longest16 L ≤ (einsumSymbols.filter fun c => decide (c ∉ noSpaces s)).length) :
    ∃ w out : List Char, w.Nodup ∧ w.length = longest16 L ∧
      (∀ c ∈ w, c ∈ einsumSymbols ∧ c ∉ noSpaces s) ∧ out.Pairwise (· < ·) ∧
      (∀ c, c ∈ out ↔ c ∈ einsumSymbols ∧ (noSpaces s).count c = 1) ∧
      parseEinsumDots so (.str s :: (L.map Prod.snd).map .arr)
        = .ok (filled16 L w, w ++ out, L.map Prod.snd) := by
  have hne : L ≠ [] := by obtain ⟨x, hx, _⟩ := hL; exact List.ne_nil_of_mem hx
  have hu := dotted_symDot hs
  obtain ⟨i1, i2, i3⟩ := inds_spec so ho (noSpaces s)
  generalize hinds : so (einsumSymbols.filter fun c =>
    decide (c ∉ (noSpaces s).filter fun c => decide (c ∉ ".,->".toList))) = inds at i1 i2 i3
  have hen' : longest16 L ≤ inds.length := by rw [i3]; exact hen
  have hw : ∀ c ∈ lastChars inds (longest16 L), c ∈ einsumSymbols ∧ c ∉ noSpaces s :=
    fun c hc => (i2 c).1 (lastChars_mem hc)
  have hwn : (lastChars inds (longest16 L)).Nodup := i1.sublist (List.drop_sublist _ _)
  have hu' := filled_symComma hs (w := lastChars inds (longest16 L)) fun c hc => (hw c hc).1
  have hcount : ∀ c, c ∈ einsumSymbols → c ∉ lastChars inds (longest16 L) →
      (filled16 L (lastChars inds (longest16 L))).count c = (noSpaces s).count c := by
    intro c hc hcw
    rw [htext]
    refine count_join_congr _ _ L fun x hx => count_fill _ _ _ _ ?_
    rw [List.count_eq_zero.2 fun h => hcw (List.mem_of_mem_drop h), List.count_eq_zero.2]
    intro h
    have : c = '.' := by simpa [dots16] using h
    exact (symbol_ne hc).2.2.2.2.1 this
  obtain ⟨out, o1, o2, o3⟩ := implicitOutput_ok hu'
  refine ⟨lastChars inds (longest16 L), sortChars (unique (out.filter fun c =>
    decide (c ∉ lastChars inds (longest16 L)))), hwn, lastChars_length _ hen', hw,
    sortChars_strict (unique_nodup _), ?_, ?_⟩
  · intro c
    rw [sortChars_mem, mem_unique, List.mem_filter, o3, decide_eq_true_eq]
    constructor
    · rintro ⟨⟨h1, h2⟩, h3⟩
      have hc : c ∈ einsumSymbols := by
        rcases hu' c (List.count_pos_iff.1 (by omega)) with h | h
        · exact absurd h h1
        · exact h
      exact ⟨hc, by rw [← hcount c hc h3]; exact h2⟩
    · rintro ⟨h1, h2⟩
      have h3 : c ∉ lastChars inds (longest16 L) := fun h =>
        (hw c h).2 (List.count_pos_iff.1 (by omega))
      exact ⟨⟨(symbol_ne h1).2.2.2.2.2, by rw [hcount c h1 h3]; exact h2⟩, h3⟩
  have hnr : noSpaces s ≠ [] := by
    rw [htext]; exact List.ne_nil_of_mem (dot_mem_dotted hL)
  rw [parse_dots, htext, parseStr_dots hu (by rw [← htext]; exact hnr)]
  simp only [bind, Except.bind]
  rw [parseDots_noarrow so hu (dot_mem_dotted hL)]
  have hug : '>' ∉ dotted16 L := fun h => (hu.ne h).2.2.2 rfl
  unfold expandEllipses
  simp only
  rw [if_neg (by rw [countArrow_eq_zero hug]; decide), ← htext, hinds]
  have hx := expandPieces_fill inds L [] hs hf
  rw [List.append_nil] at hx
  rw [htext, splitComma_dotted hs hne, hx, filled_inds L inds hen']
  simp only [bind, Except.bind, pure, Except.pure]
  have hd : dotsImplicit (filled16 L (lastChars inds (longest16 L))) (lastChars inds (longest16 L))
      = .ok (lastChars inds (longest16 L) ++ sortChars (unique (out.filter fun c =>
          decide (c ∉ lastChars inds (longest16 L))))) := by
    unfold dotsImplicit
    rw [o1]; rfl
  unfold filled16 at hd
  rw [hd]
  simp only
  have hmem : ∀ c, c ∈ sortChars (unique (out.filter fun c => decide (c ∉ lastChars inds (longest16 L))))
      ↔ c ∈ out ∧ c ∉ lastChars inds (longest16 L) := by
    intro c; rw [sortChars_mem, mem_unique, List.mem_filter, decide_eq_true_eq]
  have hvs : SymComma (lastChars inds (longest16 L) ++ sortChars (unique (out.filter fun c =>
      decide (c ∉ lastChars inds (longest16 L))))) := by
    intro c hc
    rcases List.mem_append.1 hc with hc | hc
    · exact Or.inr (hw c hc).1
    · exact hu' c (List.count_pos_iff.1 (by have := ((o3 c).1 ((hmem c).1 hc).1).2; omega))
  have hfil : commaJoin (L.map fun x => x.1.fill ((lastChars inds (longest16 L)).drop
      ((lastChars inds (longest16 L)).length - x.1.width x.2.shape.length)))
      = filled16 L (lastChars inds (longest16 L)) := rfl
  rw [hfil, parseCommon_tail hu' hvs, parseCommon_explicit hu' hvs, if_pos]
  refine ⟨List.nodup_append.2 ⟨hwn, (sortChars_strict (unique_nodup _)).imp fun h => ne_of_lt h, ?_⟩, ?_⟩
  · rintro a ha b hb rfl
    exact ((hmem a).1 hb).2 ha
  · intro c hc
    rcases List.mem_append.1 hc with hc | hc
    · -- the longest ellipsis contains all letters
      have h0 : longest16 L ≠ 0 := by
        intro h0
        have := lastChars_length inds hen'
        rw [h0] at hc this
        rw [List.length_eq_zero_iff] at this
        rw [this] at hc; simp at hc
      obtain ⟨x, hx, he⟩ := longest_attained h0
      refine commaJoin_mem (List.mem_map.2 ⟨x, hx, rfl⟩) ?_
      rw [he, lastChars_length inds hen', Nat.sub_self, List.drop_zero]
      unfold EllPiece.fill
      cases hq : x.1.2 with
      | none => unfold EllPiece.width at he; rw [hq] at he; exact absurd he.symm h0
      | some q => simp [hc]
    · exact List.count_pos_iff.1 (by have := ((o3 c).1 ((hmem c).1 hc).1).2; omega)

/-- A text without dots is read as before. -/
theorem C16_no_ellipsis [Neg R] (so : List Char → List Char) (s : List Char) (arrs : List (NDArray R))
    (h : '.' ∉ s) :
    parseEinsumDots so (.str s :: arrs.map .arr) = parseEinsumInput (.str s :: arrs.map .arr) := by
  rw [parse_dots, parse_str]
  cases hp : parseStr (noSpaces s) arrs with
  | error x => rfl
  | ok r =>
    simp only [bind, Except.bind]
    refine parseDots_plain so true ?_ _
    have hn : '.' ∉ noSpaces s := fun x => h (List.mem_filter.1 x).1
    have hf : ((noSpaces s).filter fun c => decide (c ≠ ' ')) = noSpaces s := by
      rw [noSpaces, List.filter_filter]; simp
    unfold parseStr at hp
    simp only [hf] at hp
    cases hs : noSpaces s with
    | nil => rw [hs] at hp; cases hp
    | cons c t =>
      rw [hs] at hp hn
      simp only at hp
      cases h3 : signLoop (c :: t) (if c = '+' ∨ c = '-' then 0 else 1) arrs with
      | error x => simp only [h3, bind, Except.bind] at hp; cases hp
      | ok p =>
        simp only [h3, bind, Except.bind] at hp
        have hr : p = r := by
          split at hp
          · cases hp; rfl
          · cases hp
        subst hr
        have hrel := signLoop_rel _ _ _ _ _ h3
        intro hd
        obtain ⟨i, hi, he⟩ := List.getElem_of_mem hd
        have hi' : i < (c :: t).length := by rw [hrel.length_eq]; exact hi
        have := hrel.get hi' hi
        simp only [List.get_eq_getElem, he] at this
        rcases this with h | ⟨h, _⟩
        · exact hn (h ▸ List.getElem_mem _)
        · exact absurd h (by decide)

theorem expandPiece_bad (inds : List Char) (a : NDArray R) (p : List Char) (hd : '.' ∈ p)
    (hbad : (¬ ∃ u v : List Char, '.' ∉ u ∧ '.' ∉ v ∧ p = u ++ dots16 ++ v) ∨
      (a.shape ≠ [] ∧ a.shape.length + 3 < p.length)) :
    expandPiece inds (some a) p = .error .valueError := by
  unfold expandPiece
  rw [if_pos hd]
  split
  · rfl
  · rename_i hc
    simp only [not_or, Decidable.not_not] at hc
    rcases hbad with hbad | ⟨h1, h2⟩
    · exfalso
      obtain ⟨u, v, e⟩ := countDots_spec (s := p) (by omega)
      refine hbad ⟨u, v, ?_, ?_, e⟩
      · have := hc.1
        rw [e, List.count_append, List.count_append, show dots16.count '.' = 3 from rfl] at this
        exact List.count_eq_zero.1 (by omega)
      · have := hc.1
        rw [e, List.count_append, List.count_append, show dots16.count '.' = 3 from rfl] at this
        exact List.count_eq_zero.1 (by omega)
    · simp only
      have : a.shape.length ≠ 0 := by simpa using h1
      rw [if_neg h1, if_pos (by omega)]

theorem expandPiece_cases (inds : List Char) (a : NDArray R) (p : List Char) :
    (∃ r, expandPiece inds (some a) p = .ok r) ∨ expandPiece inds (some a) p = .error .valueError := by
  unfold expandPiece
  split
  · split
    · exact Or.inr rfl
    · simp only
      generalize (if a.shape = [] then (0 : Int)
        else max (a.shape.length : Int) 1 - ((p.length : Int) - 3)) = k
      by_cases hk : k < 0
      · rw [if_pos hk]; exact Or.inr rfl
      · rw [if_neg hk]; exact Or.inl ⟨_, rfl⟩
  · exact Or.inl ⟨_, rfl⟩

theorem expandPieces_bad (inds : List Char) : ∀ (l : List (List Char)) (arrs : List (NDArray R)) (i : Nat)
    (hi : i < l.length) (ha : i < arrs.length), l.length ≤ arrs.length →
    expandPiece inds (some arrs[i]) l[i] = .error .valueError →
    expandPieces inds l arrs = .error .valueError
  | s :: l, a :: arrs, 0, _, _, _, h => by
    unfold expandPieces
    simp only [List.getElem_cons_zero] at h
    rw [List.head?_cons, h]; rfl
  | s :: l, a :: arrs, i + 1, hi, ha, hl, h => by
    unfold expandPieces
    simp only [List.getElem_cons_succ] at h
    have ih := expandPieces_bad inds l arrs i (by simpa using hi) (by simpa using ha)
      (by simpa using hl) h
    rw [List.head?_cons, List.tail_cons, ih]
    rcases expandPiece_cases inds a s with ⟨r, hr⟩ | hr
    · rw [hr]; rfl
    · rw [hr]; rfl

/-- An input subscript with dots other than one group of three, or with more letters than its array has
axes, raises `ValueError`, with or without an explicit output. -/
theorem C16_ellipsis_rejected [Neg R] (so : List Char → List Char) (l : List (List Char)) (v s : List Char)
    (arrow : Bool) (arrs : List (NDArray R)) (hl : ∀ p ∈ l, ∀ c ∈ p, c = '.' ∨ c ∈ einsumSymbols)
    (hv : ∀ c ∈ v, c = '.' ∨ c ∈ einsumSymbols)
    (htext : noSpaces s = commaJoin l ++ if arrow then "->".toList ++ v else [])
    (hlen : l.length ≤ arrs.length) (i : Nat) (hi : i < l.length)
    (hd : '.' ∈ l[i])
    (hbad : (¬ ∃ p q : List Char, '.' ∉ p ∧ '.' ∉ q ∧ l[i] = p ++ dots16 ++ q) ∨
      ((arrs[i]'(by omega)).shape ≠ [] ∧ (arrs[i]'(by omega)).shape.length + 3 < (l[i]).length)) :
    parseEinsumDots so (.str s :: arrs.map .arr) = .error .valueError := by
  have hne : l ≠ [] := List.ne_nil_of_length_pos (by omega)
  have hu : SymDot (commaJoin l) := join_symDot hl
  have hv' : SymDot v := fun c hc => Or.inr (hv c hc)
  have hdot : '.' ∈ commaJoin l := commaJoin_mem (List.getElem_mem hi) hd
  have hsp : splitComma (commaJoin l) = l :=
    splitComma_join hne fun p hp hc => nocomma_dot (hl p hp _ hc) rfl
  have key : ∀ inds, expandPieces inds l arrs = .error .valueError := fun inds =>
    expandPieces_bad inds l arrs i hi (by omega) hlen (expandPiece_bad inds _ _ hd hbad)
  cases arrow with
  | false =>
    simp only [Bool.false_eq_true, if_false, List.append_nil] at htext
    rw [parse_dots, htext, parseStr_dots hu (List.ne_nil_of_mem hdot)]
    simp only [bind, Except.bind]
    rw [parseDots_noarrow so hu hdot]
    have hug : '>' ∉ commaJoin l := fun h => (hu.ne h).2.2.2 rfl
    unfold expandEllipses
    simp only
    rw [if_neg (by rw [countArrow_eq_zero hug]; decide), hsp, key]
    rfl
  | true =>
    have e : ∀ u v : List Char, u ++ ("->".toList ++ v) = u ++ '-' :: '>' :: v := by intro u v; simp
    simp only [if_true] at htext
    rw [e] at htext
    rw [parse_dots, htext, parseStr_dots_arrow hu hv']
    simp only [bind, Except.bind]
    rw [parseDots_arrow so hu hv' (List.mem_append_left _ hdot)]
    have hum : '-' ∉ commaJoin l := fun h => (hu.ne h).2.2.1 rfl
    have hvg : '>' ∉ v := fun h => (hv'.ne h).2.2.2 rfl
    obtain ⟨ca, sa⟩ := split_arrow _ _ hum hvg
    unfold expandEllipses
    simp only
    rw [if_pos ca, sa]
    simp only
    rw [hsp, key]
    rfl

/-- `einsum` of a call with ellipses is `einsum` of the call with letters in their place. -/
theorem C16_ellipsis_einsum [CommRing R] [DecidableEq R] (so : List Char → List Char) (ho : IsSetOrder so)
    (method : ContractMethod) (path : List (List Char) → List Char → List (NDArray R) → List Contraction)
    (alpha beta : R) (out : Option (NDArray R))
    (L : List (EllPiece × NDArray R)) (o : EllPiece) (s : List Char)
    (hL : ∃ x ∈ L, x.1.2 ≠ none) (hs : ∀ x ∈ L, x.1.Sym) (hso : o.Sym)
    (hf : ∀ x ∈ L, x.1.Fits x.2.shape.length)
    (htext : noSpaces s = dotted16 L ++ "->".toList ++ o.fill dots16)
    (hen : longest16 L ≤ (einsumSymbols.filter fun c => decide (c ∉ noSpaces s)).length) :
    ∃ w : List Char, w.Nodup ∧ w.length = longest16 L ∧ (∀ c ∈ w, c ∈ einsumSymbols ∧ c ∉ noSpaces s) ∧
      einsumDots so method path (.str s :: (L.map Prod.snd).map .arr) alpha beta out
        = einsum method path (.str (filled16 L w ++ "->".toList ++ o.fill w) :: (L.map Prod.snd).map .arr)
            alpha beta out := by
  obtain ⟨w, h1, h2, h3, h4⟩ := C16_ellipsis_explicit so ho L o s hL hs hso hf htext hen
  refine ⟨w, h1, h2, h3, ?_⟩
  unfold einsumDots einsum
  rw [h4]

/-- With ellipses too, an accepted output has no repeated symbol and only symbols of the input. -/
theorem C16_ellipsis_output_checked [Neg R] (so : List Char → List Char) (operands : List (EinArg R))
    (inp out : List Char) (arrs : List (NDArray R)) (h : parseEinsumDots so operands = .ok (inp, out, arrs)) :
    out.Nodup ∧ ∀ c ∈ out, c ∈ inp := by
  have tail : ∀ b sub ops, parseTail b sub ops = .ok (inp, out, arrs) →
      out.Nodup ∧ ∀ c ∈ out, c ∈ inp := by
    intro b sub ops h
    unfold parseTail at h
    have fin : ∀ i o : List Char, (if (o.all fun c => decide (o.count c = 1) && decide (c ∈ i)) = true
          then pure (i, o, ops)
          else if b = true then .error .valueError else .error .nameError : Except PyErr (EinInput R))
        = .ok (inp, out, arrs) → out.Nodup ∧ ∀ c ∈ out, c ∈ inp := by
      intro i o h
      split at h
      · rename_i hall
        cases h
        rw [List.all_eq_true] at hall
        simp only [Bool.and_eq_true, decide_eq_true_eq] at hall
        exact ⟨List.nodup_iff_count_eq_one.2 fun c hc => (hall c hc).1, fun c hc => (hall c hc).2⟩
      · split at h <;> cases h
    simp only [bind, Except.bind, pure, Except.pure] at h
    split at h
    · exact fin _ _ h
    · cases hi : implicitOutput sub with
      | error x => rw [hi] at h; cases h
      | ok o => rw [hi] at h; exact fin _ _ h
  have key : ∀ b sub ops, parseDots so b sub ops = .ok (inp, out, arrs) →
      out.Nodup ∧ ∀ c ∈ out, c ∈ inp := by
    intro b sub ops h
    unfold parseDots at h
    split at h
    · cases h
    split at h
    · cases hx : expandEllipses so sub ops with
      | error x => rw [hx] at h; cases h
      | ok y => rw [hx] at h; exact tail _ _ _ h
    · exact tail _ _ _ h
  unfold parseEinsumDots at h
  split at h
  · cases h
  · rename_i s rest
    cases h1 : rest.mapM EinArg.asArr with
    | error x => simp only [h1, bind, Except.bind] at h; cases h
    | ok ops =>
      cases h2 : parseStr s ops with
      | error x => simp only [h1, h2, bind, Except.bind] at h; cases h
      | ok r => simp only [h1, h2, bind, Except.bind] at h; exact key _ _ _ h
  · rename_i ops _ 
    cases h1 : parseList operands with
    | error x => simp only [h1, bind, Except.bind] at h; cases h
    | ok r => simp only [h1, bind, Except.bind] at h; exact key _ _ _ h

example : IsSetOrder unique := fun s => ⟨unique_nodup s, fun c => mem_unique⟩

/-- A matrix of two axes and an array of three axes, with the identity order of sets. -/
example : parseEinsumDots (R := Int) unique [.str "i..., j...i -> j...".toList,
    .arr ⟨[2, 3], [1, 2, 3, 4, 5, 6]⟩, .arr ⟨[1, 2, 3, 2], List.replicate 12 1⟩]
    = .ok ("iZ,jYZi".toList, "jYZ".toList,
        [⟨[2, 3], [1, 2, 3, 4, 5, 6]⟩, ⟨[1, 2, 3, 2], List.replicate 12 1⟩]) := by rfl

example : parseEinsumDots (R := Int) unique [.str "ij...,jk...".toList,
    .arr ⟨[1, 1, 2], [1, 2]⟩, .arr ⟨[1, 1, 2], [3, 4]⟩]
    = .ok ("ijZ,jkZ".toList, "Zik".toList, [⟨[1, 1, 2], [1, 2]⟩, ⟨[1, 1, 2], [3, 4]⟩]) := by rfl

example : parseEinsumDots (R := Int) unique [.str "ij..->i".toList, .arr ⟨[1, 1], [1]⟩]
    = .error .valueError := by rfl

end

end Ebcc
