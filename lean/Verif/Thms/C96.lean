import Mathlib.Data.List.GetD
import Verif.Model.Pack
import Verif.Lemmas.Array
import Verif.Lemmas.Lists
import Verif.Lemmas.Py
import Verif.Thms.C92
/-!
C96: density matrices are put together from blocks with each block at its place.
-/

namespace Ebcc

section
variable {R : Type} [Zero R]

/-- The size of a block along its axes; `sizes` has the numbers of occupied and virtual orbitals for each axis. -/
def blockShape96 : List (Nat × Nat) → List Char → List Nat
  | (o, v) :: sizes, c :: key => (if c = 'o' then o else v) :: blockShape96 sizes key
  | _, _ => []

/-- The name of the block in which an element is: occupied orbitals come first. -/
def keyAt96 : List (Nat × Nat) → List Nat → List Char
  | (o, _) :: sizes, i :: idx => (if i < o then 'o' else 'v') :: keyAt96 sizes idx
  | _, _ => []

/-- The place of an element in its block. -/
def placeAt96 : List (Nat × Nat) → List Nat → List Nat
  | (o, _) :: sizes, i :: idx => (if i < o then i else i - o) :: placeAt96 sizes idx
  | _, _ => []

/-- `x` consists of the blocks `blk`. -/
def MadeOf96 (sizes : List (Nat × Nat)) (blk : List Char → NDArray R) (x : NDArray R) : Prop :=
  x.shape = sizes.map (fun p => p.1 + p.2) ∧
    ∀ idx, InBox x.shape idx → x.get idx = (blk (keyAt96 sizes idx)).get (placeAt96 sizes idx)

/-- Blocks with all names. -/
def nested96 (blk : List Char → NDArray R) : Nat → List Char → Nested (NDArray R)
  | 0, pre => .leaf (blk pre)
  | n + 1, pre => .pair (nested96 blk n (pre ++ ['o'])) (nested96 blk n (pre ++ ['v']))

omit [Zero R] in
theorem depth96 (blk : List Char → NDArray R) (n : Nat) (pre : List Char) : (nested96 blk n pre).depth = n := by
  induction n generalizing pre with
  | zero => rfl
  | succ n ih => simp [nested96, Nested.depth, ih]

theorem blockShape_append96 (s s' : List (Nat × Nat)) (key key' : List Char) (h : s.length = key.length) :
    blockShape96 (s ++ s') (key ++ key') = blockShape96 s key ++ blockShape96 s' key' := by
  induction s generalizing key with
  | nil => cases key with
    | nil => rfl
    | cons _ _ => simp at h
  | cons p s ih => cases key with
    | nil => simp at h
    | cons c key => simp only [List.cons_append, blockShape96, ih key (by simpa using h)]

theorem blockShape_length96 (s : List (Nat × Nat)) (key : List Char) (h : s.length = key.length) :
    (blockShape96 s key).length = s.length := by
  induction s generalizing key with
  | nil => rfl
  | cons p s ih => cases key with
    | nil => simp at h
    | cons c key => simp [blockShape96, ih key (by simpa using h)]

theorem forall₂_split96 {α β : Type} {r : α → β → Prop} {a b : List α} {c d : List β} (h : a.length = c.length)
    (hf : List.Forall₂ r (a ++ b) (c ++ d)) : List.Forall₂ r a c ∧ List.Forall₂ r b d := by
  induction a generalizing c with
  | nil => cases c with
    | nil => exact ⟨.nil, hf⟩
    | cons _ _ => simp at h
  | cons x a ih => cases c with
    | nil => simp at h
    | cons y c =>
      cases hf with
      | cons h1 h2 =>
        obtain ⟨k1, k2⟩ := ih (by simpa using h) h2
        exact ⟨.cons h1 k1, k2⟩

/-- The part of `np.block` inside lists for the first axes. -/
theorem npBlock96 (blk : List Char → NDArray R) (done sizes : List (Nat × Nat)) (pre : List Char)
    (hl : done.length = pre.length)
    (hb : ∀ key : List Char, key.length = sizes.length → (∀ c ∈ key, c = 'o' ∨ c = 'v') →
      (blk (pre ++ key)).shape = blockShape96 (done ++ sizes) (pre ++ key) ∧ (blk (pre ++ key)).WF) :
    ∃ x, npBlock (nested96 blk sizes.length pre) = .ok x ∧ x.WF ∧
      x.shape = blockShape96 done pre ++ sizes.map (fun p => p.1 + p.2) ∧
      ∀ ip idx, ip.length = done.length → InBox x.shape (ip ++ idx) →
        x.get (ip ++ idx) = (blk (pre ++ keyAt96 sizes idx)).get (ip ++ placeAt96 sizes idx) := by
  induction sizes generalizing done pre with
  | nil =>
    refine ⟨blk pre, rfl, by simpa using (hb [] rfl (by simp)).2, ?_, fun ip idx hi hbox => ?_⟩
    · have := (hb [] rfl (by simp)).1
      simpa using this
    · have h0 := (hb [] rfl (by simp)).1
      simp only [List.append_nil] at h0
      have := InBox.length_eq hbox
      rw [h0, blockShape_length96 _ _ hl, List.length_append] at this
      have hnil : idx = [] := List.length_eq_zero_iff.1 (by omega)
      subst hnil
      simp [keyAt96, placeAt96]
  | cons p sizes ih =>
    obtain ⟨o, v⟩ := p
    have sub : ∀ c, c = 'o' ∨ c = 'v' → ∀ key : List Char, key.length = sizes.length → (∀ c ∈ key, c = 'o' ∨ c = 'v') →
        (blk (pre ++ [c] ++ key)).shape = blockShape96 (done ++ [(o, v)] ++ sizes) (pre ++ [c] ++ key) ∧
          (blk (pre ++ [c] ++ key)).WF := by
      intro c hc key hk hkey
      have := hb (c :: key) (by simp [hk]) (by
        intro d hd
        rcases List.mem_cons.1 hd with rfl | hd
        · exact hc
        · exact hkey d hd)
      simpa using this
    obtain ⟨a, a1, a2, a3, a4⟩ := ih (done ++ [(o, v)]) (pre ++ ['o']) (by simp [hl]) (sub 'o' (.inl rfl))
    obtain ⟨b, b1, b2, b3, b4⟩ := ih (done ++ [(o, v)]) (pre ++ ['v']) (by simp [hl]) (sub 'v' (.inr rfl))
    rw [blockShape_append96 _ _ _ _ hl] at a3 b3
    have hP : (blockShape96 done pre).length = done.length := blockShape_length96 _ _ hl
    generalize blockShape96 done pre = P at a3 b3 hP
    generalize hS : sizes.map (fun p => p.1 + p.2) = S at a3 b3
    have hSl : S.length = sizes.length := by rw [← hS, List.length_map]
    have sa : a.shape = P ++ o :: S := by simpa [blockShape96] using a3
    have sb : b.shape = P ++ v :: S := by simpa [blockShape96] using b3
    have ga : a.shape.getD P.length 0 = o := by simp [sa]
    have gb : b.shape.getD P.length 0 = v := by simp [sb]
    have hset : ∀ w, (P ++ o :: S).set P.length w = P ++ w :: S := by intro w; simp
    have hax : a.shape.length - ((nested96 blk sizes.length (pre ++ ['o'])).depth + 1) = P.length := by
      rw [depth96, sa, List.length_append, List.length_cons, hSl]
      omega
    refine ⟨NDArray.ofFn (P ++ (o + v) :: S) fun idx =>
      if idx.getD P.length 0 < o then a.get idx else b.get (idx.set P.length (idx.getD P.length 0 - o)), ?_,
      NDArray.ofFn_wf _ _, by rw [List.map_cons, hS]; rfl, fun ip idx hi hbox => ?_⟩
    · simp only [List.length_cons, nested96, npBlock, a1, b1, bind, Except.bind, hax]
      unfold npConcat2
      rw [ga, gb, if_pos ⟨by rw [sa]; simp, by rw [sa, sb, hset]⟩, sa, hset]
    · have hbox' : InBox (P ++ (o + v) :: S) (ip ++ idx) := hbox
      rw [NDArray.get_ofFn _ _ hbox']
      have hlen := InBox.length_eq hbox'
      cases idx with
      | nil => simp only [List.length_append, List.length_cons, List.length_nil] at hlen; omega
      | cons i idx =>
        have hpl : P.length = ip.length := by omega
        have hg : (ip ++ i :: idx).getD P.length 0 = i := by simp [hpl]
        have hs' : (ip ++ i :: idx).set P.length (i - o) = ip ++ (i - o) :: idx := by simp [hpl]
        rw [hg, hs']
        unfold InBox at hbox'
        have hsplit := forall₂_split96 hpl.symm hbox'
        obtain ⟨h1, h2⟩ := hsplit
        cases h2 with
        | cons h3 h4 =>
          simp only [keyAt96, placeAt96]
          by_cases hio : i < o
          · simp only [if_pos hio]
            have := a4 (ip ++ [i]) idx (by simp [hi]) (by
              rw [sa, List.append_assoc]
              exact List.rel_append h1 (.cons hio h4))
            simpa using this
          · simp only [if_neg hio]
            have := b4 (ip ++ [i - o]) idx (by simp [hi]) (by
              rw [sb, List.append_assoc]
              exact List.rel_append h1 (.cons (by omega) h4))
            simpa using this

/-- Names of spaces. -/
def IsName96 (key : List Char) : Prop := ∀ c ∈ key, c = 'o' ∨ c = 'v'

/-- Places of names in the nested lists. -/
def code96 (key : List Char) : List Nat := key.map fun c => if c = 'o' then 0 else 1

theorem mapM_ovIndex96 (key : List Char) (h : IsName96 key) : key.mapM ovIndex = .ok (code96 key) := by
  induction key with
  | nil => rfl
  | cons c key ih =>
    rw [List.mapM_cons, ih fun d hd => h d (List.mem_cons_of_mem _ hd)]
    rcases h c (List.mem_cons_self ..) with rfl | rfl <;> rfl

theorem code_inj96 (k k' : List Char) (h : IsName96 k) (h' : IsName96 k') (he : code96 k = code96 k') : k = k' := by
  induction k generalizing k' with
  | nil => cases k' with
    | nil => rfl
    | cons _ _ => simp [code96] at he
  | cons c k ih => cases k' with
    | nil => simp [code96] at he
    | cons c' k' =>
      simp only [code96, List.map_cons, List.cons.injEq] at he
      rw [ih k' (fun d hd => h d (List.mem_cons_of_mem _ hd)) (fun d hd => h' d (List.mem_cons_of_mem _ hd)) he.2]
      rcases h c (List.mem_cons_self ..) with rfl | rfl <;> rcases h' c' (List.mem_cons_self ..) with rfl | rfl
      · rfl
      · simp at he
      · simp at he
      · rfl

omit [Zero R] in
theorem packLoop96 (blk : List Char → NDArray R) (keys : List (List Char)) (hn : ∀ k ∈ keys, IsName96 k)
    (d : Dict (List Nat) (NDArray R)) : ∃ d', packLoop (keys.map fun k => (k, blk k)) d = .ok d' ∧
      ∀ key, IsName96 key → d'.get? (code96 key) = if key ∈ keys then some (blk key) else d.get? (code96 key) := by
  induction keys generalizing d with
  | nil => exact ⟨d, rfl, fun key _ => by simp⟩
  | cons k keys ih =>
    have hk := hn k (List.mem_cons_self ..)
    obtain ⟨d', h1, h2⟩ := ih (fun k' hk' => hn k' (List.mem_cons_of_mem _ hk')) (d.set (code96 k) (blk k))
    refine ⟨d', ?_, fun key hkey => ?_⟩
    · rw [List.map_cons, packLoop, mapM_ovIndex96 k hk]
      exact h1
    · rw [h2 key hkey, Dict.get?_set]
      by_cases hm : key ∈ keys
      · rw [if_pos hm, if_pos (List.mem_cons_of_mem _ hm)]
      · rw [if_neg hm]
        by_cases hkk : key = k
        · subst hkk
          simp
        · rw [if_neg (fun h => hkk (code_inj96 _ _ hk hkey h).symm), if_neg (by simp [hkk, hm])]

omit [Zero R] in
theorem packNested96 (blk : List Char → NDArray R) (d : Dict (List Nat) (NDArray R)) (n : Nat) (pre : List Char)
    (h : ∀ key, key.length = n → IsName96 key → d.get? (code96 (pre ++ key)) = some (blk (pre ++ key))) :
    packNested d n (code96 pre) = .ok (nested96 blk n pre) := by
  induction n generalizing pre with
  | zero =>
    have := h [] rfl (fun _ hc => by simp at hc)
    rw [List.append_nil] at this
    rw [packNested, this]
    rfl
  | succ n ih =>
    have sub : ∀ c, c = 'o' ∨ c = 'v' → ∀ key, key.length = n → IsName96 key →
        d.get? (code96 (pre ++ [c] ++ key)) = some (blk (pre ++ [c] ++ key)) := by
      intro c hc key hk hkey
      have := h (c :: key) (by simp [hk]) (by
        intro e he
        rcases List.mem_cons.1 he with rfl | he
        · exact hc
        · exact hkey e he)
      simpa using this
    have ho := ih (pre ++ ['o']) (sub 'o' (.inl rfl))
    have hv := ih (pre ++ ['v']) (sub 'v' (.inr rfl))
    have eo : code96 (pre ++ ['o']) = code96 pre ++ [0] := by simp [code96]
    have ev : code96 (pre ++ ['v']) = code96 pre ++ [1] := by simp [code96]
    rw [eo] at ho
    rw [ev] at hv
    rw [packNested, ho, hv]
    rfl

theorem all_names96 (key : List Char) (hk : key.length = 4) (hc : IsName96 key) : key ∈ ov2e := by
  match key, hk with
  | [a, b, c, d], _ =>
    rcases hc a (by simp) with rfl | rfl <;> rcases hc b (by simp) with rfl | rfl <;>
      rcases hc c (by simp) with rfl | rfl <;> rcases hc d (by simp) with rfl | rfl <;> decide

theorem names96 : ∀ key ∈ ov2e, IsName96 key := by
  unfold IsName96
  decide

theorem pack2e_eq96 (blk : List Char → NDArray R) : pack2e (ov2e.map blk) = npBlock (nested96 blk 4 []) := by
  unfold pack2e
  rw [if_neg (by simp [ov2e])]
  have hz : ov2e.zip (ov2e.map blk) = ov2e.map fun k => (k, blk k) := by
    generalize ov2e = l
    induction l with
    | nil => rfl
    | cons k l ih => simp only [List.map_cons, List.zip_cons_cons, ih]
  obtain ⟨d, h1, h2⟩ := packLoop96 blk ov2e names96 []
  rw [hz, h1]
  have h3 := packNested96 blk d 4 [] fun key hk hkey => by
    rw [List.nil_append, h2 key hkey, if_pos (all_names96 key hk hkey)]
  have h4 : packNested d 4 [] = .ok (nested96 blk 4 []) := h3
  simp only [bind, Except.bind, h4]

/-- C96, two-electron density matrices: `pack_2e` of blocks given in the order in which the generated functions give them
is the matrix that has each block at its place; the numbers of orbitals may differ between the axes. -/
theorem C96_pack_2e (sizes : List (Nat × Nat)) (h4 : sizes.length = 4) (blk : List Char → NDArray R)
    (hb : ∀ key ∈ [chars! "oooo", chars! "ooov", chars! "oovo", chars! "ovoo", chars! "vooo", chars! "oovv", chars! "ovov",
      chars! "ovvo", chars! "voov", chars! "vovo", chars! "vvoo", chars! "ovvv", chars! "vovv", chars! "vvov", chars! "vvvo",
      chars! "vvvv"], (blk key).shape = blockShape96 sizes key ∧ (blk key).WF) :
    ∃ x, pack2e [blk (chars! "oooo"), blk (chars! "ooov"), blk (chars! "oovo"), blk (chars! "ovoo"), blk (chars! "vooo"),
      blk (chars! "oovv"), blk (chars! "ovov"), blk (chars! "ovvo"), blk (chars! "voov"), blk (chars! "vovo"),
      blk (chars! "vvoo"), blk (chars! "ovvv"), blk (chars! "vovv"), blk (chars! "vvov"), blk (chars! "vvvo"),
      blk (chars! "vvvv")] = .ok x ∧ x.WF ∧ MadeOf96 sizes blk x := by
  obtain ⟨x, h1, h2, h3, h5⟩ := npBlock96 blk [] sizes [] rfl fun key hk hc => hb key (all_names96 key (hk.trans h4) hc)
  rw [h4] at h1
  exact ⟨x, (pack2e_eq96 blk).trans h1, h2, h3, fun idx hidx => h5 [] idx rfl hidx⟩

/-- Another number of arguments is refused. -/
theorem C96_pack_2e_arguments (args : List (NDArray R)) (h : args.length ≠ 16) : pack2e args = .error .assertionError := by
  unfold pack2e
  rw [if_pos h]

/-- C96, one-electron density matrices. -/
theorem C96_pack_1e (o v o' v' : Nat) (oo ov vo vv : NDArray R) (h1 : oo.shape = [o, o'] ∧ oo.WF) (h2 : ov.shape = [o, v'] ∧ ov.WF)
    (h3 : vo.shape = [v, o'] ∧ vo.WF) (h4 : vv.shape = [v, v'] ∧ vv.WF) :
    ∃ x, pack1e oo ov vo vv = .ok x ∧ x.WF ∧ x.shape = [o + v, o' + v'] ∧
      (∀ i < o, ∀ j < o', x.get [i, j] = oo.get [i, j]) ∧ (∀ i < o, ∀ a < v', x.get [i, o' + a] = ov.get [i, a]) ∧
      (∀ a < v, ∀ i < o', x.get [o + a, i] = vo.get [a, i]) ∧ ∀ a < v, ∀ b < v', x.get [o + a, o' + b] = vv.get [a, b] := by
  let blk : List Char → NDArray R
    | ['o', 'o'] => oo
    | ['o', 'v'] => ov
    | ['v', 'o'] => vo
    | ['v', 'v'] => vv
    | _ => ⟨[0], []⟩
  obtain ⟨x, k1, k2, k3, k4⟩ := npBlock96 blk [] [(o, v), (o', v')] [] rfl fun key hk hc => by
      match key, hk with
      | [a, b], _ =>
        rcases hc a (by simp) with rfl | rfl <;> rcases hc b (by simp) with rfl | rfl
        · exact h1
        · exact h2
        · exact h3
        · exact h4
  have k3' : x.shape = [o + v, o' + v'] := k3
  have k5 : ∀ p < o + v, ∀ q < o' + v', x.get [p, q] = (blk (keyAt96 [(o, v), (o', v')] [p, q])).get
      (placeAt96 [(o, v), (o', v')] [p, q]) := fun p hp q hq => k4 [] [p, q] rfl (by rw [k3']; exact .cons hp (.cons hq .nil))
  refine ⟨x, k1, k2, k3', fun i hi j hj => ?_, fun i hi a ha => ?_, fun a ha i hi => ?_, fun a ha b hb => ?_⟩
  · rw [k5 i (by omega) j (by omega)]
    simp only [keyAt96, placeAt96, if_pos hi, if_pos hj]
    rfl
  · rw [k5 i (by omega) (o' + a) (by omega)]
    simp only [keyAt96, placeAt96, if_pos hi, if_neg (show ¬ o' + a < o' by omega), Nat.add_sub_cancel_left]
    rfl
  · rw [k5 (o + a) (by omega) i (by omega)]
    simp only [keyAt96, placeAt96, if_pos hi, if_neg (show ¬ o + a < o by omega), Nat.add_sub_cancel_left]
    rfl
  · rw [k5 (o + a) (by omega) (o' + b) (by omega)]
    simp only [keyAt96, placeAt96, if_neg (show ¬ o' + b < o' by omega), if_neg (show ¬ o + a < o by omega), Nat.add_sub_cancel_left]
    rfl

omit [Zero R] in
theorem keyAt_replicate96 (n o v : Nat) (idx : List Nat) (h : idx.length = n) :
    keyAt96 (List.replicate n (o, v)) idx = idx.map (fun i => if i < o then 'o' else 'v') ∧
      placeAt96 (List.replicate n (o, v)) idx = idx.map fun i => if i < o then i else i - o := by
  induction n generalizing idx with
  | zero =>
    cases idx with
    | nil => exact ⟨rfl, rfl⟩
    | cons _ _ => simp at h
  | succ n ih => cases idx with
    | nil => simp at h
    | cons i idx =>
      obtain ⟨h1, h2⟩ := ih idx (by simpa using h)
      exact ⟨by simp only [List.replicate_succ, keyAt96, h1, List.map_cons], by
        simp only [List.replicate_succ, placeAt96, h2, List.map_cons]⟩

/-- The entries of a list in the order `axes`. -/
def inOrder96 {α : Type} [Inhabited α] (axes : List Nat) (l : List α) : List α := axes.map (l.getD · default)

/-- A relation (equality, or equality up to sign) between elements with exchanged indices holds for the matrix if it holds
between blocks with exchanged names. -/
theorem C96_symmetry (n o v : Nat) (blk : List Char → NDArray R) (x : NDArray R) (hx : MadeOf96 (List.replicate n (o, v)) blk x)
    (axes : List Nat) (ha : axes.Perm (List.range n)) (rel : R → R → Prop)
    (h : ∀ key idx, key.length = n → (∀ c ∈ key, c = 'o' ∨ c = 'v') → InBox (blockShape96 (List.replicate n (o, v)) key) idx →
      rel ((blk (inOrder96 axes key)).get (inOrder96 axes idx)) ((blk key).get idx)) :
    ∀ idx, InBox x.shape idx → rel (x.get (inOrder96 axes idx)) (x.get idx) := by
  intro idx hidx
  obtain ⟨h1, h2⟩ := hx
  have hil : idx.length = n := by have := InBox.length_eq hidx; simpa [h1] using this
  have hal : axes.length = n := by simpa using ha.length_eq
  have hlt : ∀ a ∈ axes, a < n := fun a hm => by simpa using ha.mem_iff.1 hm
  have hrange : ∀ i ∈ idx, i < o + v := by
    rw [h1, List.map_replicate] at hidx
    intro i hi
    obtain ⟨k, hk, rfl⟩ := List.getElem_of_mem hi
    have := List.Forall₂.get hidx hk (by simpa using hil ▸ hk)
    simpa using this
  have hbox : InBox x.shape (inOrder96 axes idx) := by
    rw [h1, List.map_replicate]
    unfold inOrder96 InBox
    rw [List.forall₂_iff_get]
    refine ⟨by simp [hal], fun k hk1 hk2 => ?_⟩
    have hk : k < axes.length := by simpa using hk1
    have hak := hlt _ (List.getElem_mem hk)
    simp only [List.get_eq_getElem, List.getElem_map, List.getElem_replicate]
    rw [List.getD_eq_getElem _ _ (by rw [hil]; exact hak)]
    exact hrange _ (List.getElem_mem _)
  rw [h2 _ hbox, h2 _ hidx]
  obtain ⟨k1, k2⟩ := keyAt_replicate96 n o v idx hil
  obtain ⟨k3, k4⟩ := keyAt_replicate96 n o v (inOrder96 axes idx) (by simp [inOrder96, hal])
  rw [k1, k2, k3, k4]
  have e : ∀ {α : Type} [Inhabited α] (f : Nat → α), (inOrder96 axes idx).map f = inOrder96 axes (idx.map f) := by
    intro α _ f
    unfold inOrder96
    rw [List.map_map]
    apply List.map_congr_left
    intro a hm
    have := hlt a hm
    simp only [Function.comp]
    rw [List.getD_eq_getElem _ _ (by rw [hil]; exact this), List.getD_eq_getElem _ _ (by rw [List.length_map, hil]; exact this),
      List.getElem_map]
  rw [e, e]
  apply h
  · simpa using hil
  · intro c hc
    obtain ⟨i, _, rfl⟩ := List.mem_map.1 hc
    split
    · exact .inl rfl
    · exact .inr rfl
  · have hb : ∀ (m : Nat) (l : List Nat), l.length = m → (∀ i ∈ l, i < o + v) →
        InBox (blockShape96 (List.replicate m (o, v)) (l.map fun i => if i < o then 'o' else 'v'))
          (l.map fun i => if i < o then i else i - o) := by
      intro m
      induction m with
      | zero =>
        intro l hl _
        cases l with
        | nil => exact .nil
        | cons _ _ => simp at hl
      | succ m ih =>
        intro l hl hr
        cases l with
        | nil => simp at hl
        | cons i l =>
          refine .cons ?_ (ih l (by simpa using hl) fun j hj => hr j (List.mem_cons_of_mem _ hj))
          have := hr i (List.mem_cons_self ..)
          by_cases hio : i < o
          · simp [hio]
          · simp [hio]
            omega
    exact hb n idx hil hrange

end

/-- The trace is that of the blocks on the diagonal. -/
theorem C96_trace {R : Type} [AddCommMonoid R] (o v : Nat) (oo vv x : NDArray R)
    (h1 : ∀ i < o, x.get [i, i] = oo.get [i, i]) (h2 : ∀ a < v, x.get [o + a, o + a] = vv.get [a, a]) :
    ((List.range (o + v)).map fun p => x.get [p, p]).sum =
      ((List.range o).map fun i => oo.get [i, i]).sum + ((List.range v).map fun a => vv.get [a, a]).sum := by
  rw [List.range_add, List.map_append, List.sum_append, List.map_map]
  congr 2
  · exact List.map_congr_left fun i hi => h1 i (List.mem_range.1 hi)
  · exact List.map_congr_left fun a ha => h2 a (List.mem_range.1 ha)

/-- A matrix of two occupied orbitals and one virtual. -/
example : (pack1e (R := Int) ⟨[2, 2], [1, 2, 3, 4]⟩ ⟨[2, 1], [5, 6]⟩ ⟨[1, 2], [7, 8]⟩ ⟨[1, 1], [9]⟩).toOption =
    some ⟨[3, 3], [1, 2, 5, 3, 4, 6, 7, 8, 9]⟩ := by decide +kernel

/-- Sixteen blocks with one element each. -/
example : (pack2e (R := Int) ((List.range 16).map fun n => ⟨[1, 1, 1, 1], [(n : Int)]⟩)).toOption =
    some ⟨[2, 2, 2, 2], [0, 1, 2, 5, 3, 6, 7, 11, 4, 8, 9, 12, 10, 13, 14, 15]⟩ := by decide +kernel

/-- Shapes that do not fit are refused. -/
example : pack1e (R := Int) ⟨[2, 2], [1, 2, 3, 4]⟩ ⟨[1, 1], [5]⟩ ⟨[1, 2], [7, 8]⟩ ⟨[1, 1], [9]⟩ = .error .valueError := by
  decide +kernel

end Ebcc
