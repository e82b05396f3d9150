import Verif.Model.Einsum
import Verif.Lemmas.EinSumSpec
import Verif.Lemmas.Py
import Verif.Lemmas.PermSum

namespace Ebcc

section
variable {R : Type}

theorem symbolSizes_ok (sz : Char → Nat) : ∀ (l : List (Char × Nat)) (d : Dict Char Nat),
    (∀ p ∈ l, p.2 = sz p.1) → (∀ c m, d.get? c = some m → m = sz c) →
    ∃ d', symbolSizes l d = .ok d' ∧ (∀ c m, d'.get? c = some m → m = sz c) ∧
      (∀ p ∈ l, d'.get? p.1 = some (sz p.1)) ∧ (∀ c m, d.get? c = some m → d'.get? c = some m)
  | [], d, _, hd => ⟨d, rfl, hd, by simp, fun _ _ h => h⟩
  | (c, n) :: l, d, hl, hd => by
    have hn : n = sz c := hl (c, n) (by simp)
    have hd1 : ∀ c' m, (d.set c n).get? c' = some m → m = sz c' := by
      intro c' m h
      rw [Dict.get?_set] at h
      split at h
      · rename_i e; subst e; rw [← hn]; simpa using h.symm
      · exact hd c' m h
    obtain ⟨d', h1, h2, h3, h4⟩ := symbolSizes_ok sz l (d.set c n) (fun p hp => hl p (by simp [hp])) hd1
    refine ⟨d', ?_, h2, ?_, ?_⟩
    · unfold symbolSizes
      cases hg : d.get? c with
      | none => exact h1
      | some m =>
        have : m = n := (hd c m hg).trans hn.symm
        simp only [if_pos this]; exact h1
    · intro p hp
      rcases List.mem_cons.1 hp with rfl | hp
      · exact h4 _ _ (by rw [Dict.get?_set, if_pos rfl, hn])
      · exact h3 p hp
    · intro c' m h
      apply h4
      rw [Dict.get?_set]
      split
      · rename_i e; subst e; rw [hd _ _ h, hn]
      · exact h

/-- Sizes of labelled arrays agree with `sz`. -/
def Sized (sz : Char → Nat) (x : List Char × NDArray R) : Prop := x.2.shape = x.1.map sz

theorem mem_zip_map {sz : Char → Nat} {s : List Char} {p : Char × Nat} (h : p ∈ s.zip (s.map sz)) :
    p.2 = sz p.1 ∧ p.1 ∈ s := by
  induction s with
  | nil => simp at h
  | cons c s ih =>
    simp only [List.map_cons, List.zip_cons_cons, List.mem_cons] at h
    rcases h with rfl | h
    · simp
    · exact ⟨(ih h).1, by simp [(ih h).2]⟩

theorem zip_map_mem {sz : Char → Nat} {s : List Char} {c : Char} (h : c ∈ s) :
    (c, sz c) ∈ s.zip (s.map sz) := by
  induction s with
  | nil => simp at h
  | cons x s ih =>
    rcases List.mem_cons.1 h with rfl | h
    · simp
    · simp [ih h]

theorem einSum_sz_congr {κ : Type} [DecidableEq κ] [AddMonoid R] {sz sz' : κ → Nat} (ds : List κ)
    (h : ∀ c ∈ ds, sz c = sz' c) (F : (κ → Nat) → R) (e : κ → Nat) :
    einSum sz ds F e = einSum sz' ds F e := by
  induction ds generalizing e with
  | nil => rfl
  | cons d ds ih =>
    simp only [einSum]
    rw [h d (by simp)]
    congr 1
    apply List.map_congr_left
    intro v _
    exact ih (fun c hc => h c (by simp [hc])) _

theorem einValue_sz_congr [CommSemiring R] {sz sz' : Char → Nat}
    {inputs : List (List Char × NDArray R)} {outs : List Char}
    (h : ∀ x ∈ inputs, ∀ c ∈ x.1, sz c = sz' c) (e : Char → Nat) :
    einValue sz inputs outs e = einValue sz' inputs outs e := by
  apply einSum_sz_congr
  intro c hc
  obtain ⟨⟨s, hs, hcs⟩, _⟩ := mem_einDummies.1 hc
  obtain ⟨x, hx, rfl⟩ := List.mem_map.1 hs
  exact h x hx c hcs

theorem assignOf_map {outs : List Char} (e : Char → Nat) {c : Char} (hc : c ∈ outs) :
    assignOf outs (outs.map e) c = e c := by
  have hlt := List.idxOf_lt_length_of_mem hc
  rw [assignOf, getD_eq _ _ _ (by simpa using hlt), List.getElem_map, List.getElem_idxOf]

/-- The model of `numpy.einsum` on consistent operands. -/
theorem numpyEinsum_ok [CommRing R] (sz : Char → Nat) (inputs : List (List Char × NDArray R))
    (outs : List Char) (hs : ∀ x ∈ inputs, Sized sz x) (ho : ∀ c ∈ outs, ∃ x ∈ inputs, c ∈ x.1) :
    ∃ r, numpyEinsum inputs outs = .ok r ∧ r.shape = outs.map sz ∧ r.WF ∧
      ∀ e : Char → Nat, (∀ c ∈ outs, e c < sz c) →
        r.get (outs.map e) = einValue sz inputs outs e := by
  have hl : (inputs.all fun x => decide (x.1.length = x.2.shape.length)) = true := by
    rw [List.all_eq_true]
    intro x hx
    rw [hs x hx]; simp
  obtain ⟨d, h1, _, h3, _⟩ := symbolSizes_ok sz (inputs.flatMap fun x => x.1.zip x.2.shape) []
    (by
      intro p hp
      obtain ⟨x, hx, hp⟩ := List.mem_flatMap.1 hp
      rw [hs x hx] at hp
      exact (mem_zip_map hp).1) (by simp [Dict.get?])
  have hsz : ∀ x ∈ inputs, ∀ c ∈ x.1, (d.get? c).getD 0 = sz c := by
    intro x hx c hc
    have := h3 (c, sz c) (List.mem_flatMap.2 ⟨x, hx, by rw [hs x hx]; exact zip_map_mem hc⟩)
    rw [this]; rfl
  have hshape : (outs.map fun c => (d.get? c).getD 0) = outs.map sz := by
    apply List.map_congr_left
    intro c hc
    obtain ⟨x, hx, hcx⟩ := ho c hc
    exact hsz x hx c hcx
  refine ⟨NDArray.ofFn (outs.map sz) fun idx =>
      einValue (fun c => (d.get? c).getD 0) inputs outs (assignOf outs idx), ?_, ?_, ?_, ?_⟩
  · unfold numpyEinsum
    simp only [if_pos hl, h1, bind, Except.bind, pure, Except.pure, hshape]
  · rfl
  · exact NDArray.ofFn_wf _ _
  · intro e he
    rw [NDArray.get_ofFn _ _ (inBox_map sz e outs he), einValue_sz_congr hsz]
    exact einValue_congr sz fun c hc => assignOf_map e hc

theorem get_map [Zero R] (a : NDArray R) (f : R → R) (hf : f 0 = 0) (idx : List Nat) :
    (a.map f).get idx = f (a.get idx) := by
  simp only [NDArray.map, NDArray.get, List.getD_eq_getElem?_getD, List.getElem?_map]
  cases a.data[ravelIdx a.shape idx]? <;> simp [hf]

theorem map_wf {S : Type} (a : NDArray R) (f : R → S) (h : a.WF) : (a.map f).WF := by
  simpa [NDArray.WF, NDArray.map] using h

/-- The output array contributes `beta * out`. -/
def outTerm [CommRing R] (beta : R) (out : Option (NDArray R)) (idx : List Nat) : R :=
  match out with
  | none => 0
  | some o => beta * o.get idx

theorem get_add [CommRing R] {a b : NDArray R} (ha : a.WF) (hb : b.WF) (hs : a.shape = b.shape) :
    ∃ r, a.add b = .ok r ∧ r.shape = a.shape ∧ r.WF ∧
      ∀ idx, InBox a.shape idx → r.get idx = a.get idx + b.get idx := by
  refine ⟨NDArray.ofFn a.shape fun i => a.get i + b.get i, ?_, rfl, NDArray.ofFn_wf _ _,
    fun idx h => NDArray.get_ofFn _ _ h⟩
  rw [← add_ofFn]
  congr 1
  · exact NDArray.eq_ofFn a ha
  · rw [hs]; exact NDArray.eq_ofFn b hb

theorem scaleAdd_ok [CommRing R] (x : NDArray R) (hx : x.WF) (alpha beta : R) (out : Option (NDArray R))
    (ho : ∀ o ∈ out, o.shape = x.shape ∧ o.WF) :
    ∃ r, scaleAdd x alpha beta out = .ok r ∧ r.shape = x.shape ∧ r.WF ∧
      ∀ idx, InBox x.shape idx → r.get idx = alpha * x.get idx + outTerm beta out idx := by
  cases out with
  | none =>
    refine ⟨_, rfl, rfl, map_wf _ _ hx, fun idx _ => ?_⟩
    rw [get_map _ _ (by simp), outTerm, add_zero, mul_comm]
  | some o =>
    obtain ⟨h1, h2⟩ := ho o rfl
    obtain ⟨r, e1, e2, e3, e4⟩ := get_add (a := x.map fun v => v * alpha) (b := o.map fun v => beta * v)
      (map_wf _ _ hx) (map_wf _ _ h2) h1.symm
    refine ⟨r, e1, e2, e3, fun idx hidx => ?_⟩
    rw [e4 idx hidx, get_map _ _ (by simp), get_map _ _ (by simp), outTerm, mul_comm]

theorem moveTo_end {l : List Char} {x : Char} (hx : x ∈ l) :
    moveTo l x (l.length - 1) = l.erase x ++ [x] := by
  unfold moveTo
  rw [← List.erase_eq_eraseIdx_of_idxOf rfl]
  have : l.length - 1 = (l.erase x).length := by rw [List.length_erase_of_mem hx]
  rw [this, List.insertIdx_length_self]

theorem insertIdx_append_left' {α : Type} (a b : List α) (x : α) :
    (a ++ b).insertIdx a.length x = a ++ x :: b := by
  induction a with
  | nil => simp
  | cons y a ih => simp [ih]

theorem moveDummies_eq : ∀ (ds pre at_ : List Char) (bt : List Char), ds.Nodup → at_.Nodup →
    (pre ++ bt).Nodup → (∀ x ∈ ds, x ∈ at_) → (∀ x ∈ ds, x ∈ bt) →
    moveDummies ds pre.length at_ (pre ++ bt)
      = (at_.filter (fun c => decide (c ∉ ds)) ++ ds, pre ++ ds ++ bt.filter fun c => decide (c ∉ ds))
  | [], pre, at_, bt, _, _, _, _, _ => by simp [moveDummies]
  | x :: ds, pre, at_, bt, hds, hat, hbt, ha, hb => by
    rw [List.nodup_cons] at hds
    have hxa := ha x (by simp)
    have hxb := hb x (by simp)
    have hxp : x ∉ pre := fun h => (List.nodup_append.1 hbt).2.2 x h x hxb rfl
    have hbtn := (List.nodup_append.1 hbt).2.1
    rw [moveDummies, moveTo_end hxa]
    have e2 : moveTo (pre ++ bt) x pre.length = (pre ++ [x]) ++ bt.erase x := by
      unfold moveTo
      rw [← List.erase_eq_eraseIdx_of_idxOf rfl, List.erase_append_right _ hxp,
        insertIdx_append_left']
      simp
    rw [e2]
    have hl : pre.length + 1 = (pre ++ [x]).length := by simp
    rw [hl, moveDummies_eq ds (pre ++ [x]) (at_.erase x ++ [x]) (bt.erase x) hds.2]
    · congr 1
      · rw [List.filter_append, List.filter_cons_of_pos (by simpa using hds.1), List.filter_nil,
          List.append_assoc, hat.erase_eq_filter, List.filter_filter]
        simp only [List.singleton_append]
        congr 1
        apply List.filter_congr
        intro c _
        by_cases h1 : c = x <;> by_cases h2 : c ∈ ds <;> simp [h1, h2]
      · rw [hbtn.erase_eq_filter, List.filter_filter]
        have : (bt.filter fun a => decide (a ∉ ds) && (a != x)) = bt.filter fun c => decide (c ∉ x :: ds) := by
          apply List.filter_congr
          intro c _
          by_cases h1 : c = x <;> by_cases h2 : c ∈ ds <;> simp [h1, h2]
        rw [this]
        simp
    · rw [List.nodup_append]
      refine ⟨hat.erase _, by simp, ?_⟩
      intro a h1 b h2 e
      rw [List.mem_singleton] at h2
      subst e; subst h2
      exact (hat.mem_erase_iff.1 h1).1 rfl
    · have hp : ((pre ++ [x]) ++ bt.erase x).Perm (pre ++ bt) := by
        rw [List.append_assoc, List.singleton_append]
        exact List.Perm.append_left _ (List.perm_cons_erase hxb).symm
      exact hp.nodup_iff.2 hbt
    · intro y hy
      by_cases hyx : y = x
      · simp [hyx]
      · exact List.mem_append_left _ ((List.mem_erase_of_ne hyx).2 (ha y (by simp [hy])))
    · intro y hy
      have hyx : y ≠ x := by rintro rfl; exact hds.1 hy
      exact (List.mem_erase_of_ne hyx).2 (hb y (by simp [hy]))

theorem beforeDummy_eq {dummy pre ds : List Char} (hpre : ∀ x ∈ pre, x ∉ dummy)
    (hds : ∀ x ∈ ds, x ∈ dummy) : beforeDummy dummy (pre ++ ds) = pre := by
  induction pre with
  | nil =>
    cases ds with
    | nil => rfl
    | cons d ds => simp [beforeDummy, hds d (by simp)]
  | cons x pre ih =>
    simp only [List.cons_append, beforeDummy]
    rw [if_neg (hpre x (by simp)), ih fun y hy => hpre y (by simp [hy])]

end
end Ebcc
