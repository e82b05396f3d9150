import Verif.Lemmas.Einsum
import Verif.Lemmas.Sym

namespace Ebcc

section
variable {R : Type}

theorem length_unique_eq_iff {l : List Char} : l.length = (unique l).length ↔ l.Nodup := by
  constructor
  · intro h
    have hsub : (unique l).Subperm l :=
      List.subperm_of_subset (unique_nodup l) fun x hx => mem_unique.1 hx
    exact (hsub.perm_of_length_le (by omega)).nodup_iff.1 (unique_nodup l)
  · intro h
    have : (unique l).Perm l := by
      rw [List.perm_ext_iff_of_nodup (unique_nodup l) h]
      exact fun a => mem_unique
    exact this.length_eq.symm

theorem data_length {a : NDArray R} (h : a.WF) : a.data.length = prodN a.shape := h

theorem sortChars_perm' (l : List Char) : (sortChars l).Perm l := List.perm_insertionSort _ _

/-- The fast path of `_contract_ttgt`. -/
theorem ttgt_fast [CommRing R] (sz : Char → Nat) (ia ib outs : List Char) (a b : NDArray R)
    (alpha beta : R) (out : Option (NDArray R)) (ha : Sized sz (ia, a)) (hb : Sized sz (ib, b))
    (hna : ia.Nodup) (hnb : ib.Nodup) (hno : outs.Nodup)
    (hcount : ∀ c, c ∈ ia ++ ib ++ outs → (ia ++ ib ++ outs).count c = 2)
    (hpos : ∀ c ∈ ia, sz c ≠ 0)
    (ho : ∀ o ∈ out, o.shape = outs.map sz ∧ o.WF)
    (dummy : List Char) (hd : dummy = ia.filter fun x => decide (x ∈ ib)) :
    ∃ r, (do
      let ranges ← symbolSizes (ia.zip a.shape ++ ib.zip b.shape) []
      let sz := fun c => (ranges.get? c).getD 0
      let sorted := sortChars dummy
      let (at_, bt_) := moveDummies sorted 0 ia ib
      let inner := prodN (sorted.map sz)
      let orderA := at_.map ia.idxOf
      let orderB := bt_.map ib.idxOf
      let inpCt := beforeDummy dummy at_ ++ bt_.filter fun x => decide (x ∉ dummy)
      let shapeCt := inpCt.map sz
      let orderCt := outs.map inpCt.idxOf
      let ta ← a.transpose orderA
      let tb ← b.transpose orderB
      let m ← inferSize ta.data.length inner
      let n ← inferSize tb.data.length inner
      let ta ← NDArray.reshape ta.data [m, inner]
      let tb ← NDArray.reshape tb.data [inner, n]
      let out2 ← match out with
        | none => pure none
        | some o => do
          let t ← o.transpose (inpCt.map outs.idxOf)
          let t ← NDArray.reshape t.data [m, n]
          pure (some t)
      let ct := gemm m inner n alpha ta tb beta out2
      let ct ← NDArray.reshape ct.data shapeCt
      ct.transpose orderCt : Except PyErr (NDArray R)) = .ok r ∧ r.shape = outs.map sz ∧ r.WF ∧
      ∀ e : Char → Nat, (∀ c ∈ outs, e c < sz c) → r.get (outs.map e)
        = alpha * einValue sz [(ia, a), (ib, b)] outs e + outTerm beta out (outs.map e) := by
  have hmd : ∀ x, x ∈ dummy ↔ x ∈ ia ∧ x ∈ ib := by intro x; simp [hd]
  have hnd : dummy.Nodup := by rw [hd]; exact hna.filter _
  -- sorted dummies
  obtain ⟨S, hS⟩ : ∃ S, S = sortChars dummy := ⟨_, rfl⟩
  have hSp : S.Perm dummy := hS ▸ sortChars_perm' dummy
  have hSn : S.Nodup := hSp.nodup_iff.2 hnd
  have hSm : ∀ x, x ∈ S ↔ x ∈ ia ∧ x ∈ ib := fun x => hSp.mem_iff.trans (hmd x)
  obtain ⟨A0, hA0⟩ : ∃ A0, A0 = ia.filter fun c => decide (c ∉ S) := ⟨_, rfl⟩
  obtain ⟨B0, hB0⟩ : ∃ B0, B0 = ib.filter fun c => decide (c ∉ S) := ⟨_, rfl⟩
  have hmA : ∀ x, x ∈ A0 ↔ x ∈ ia ∧ x ∉ S := by intro x; simp [hA0]
  have hmB : ∀ x, x ∈ B0 ↔ x ∈ ib ∧ x ∉ S := by intro x; simp [hB0]
  have hmv : moveDummies (sortChars dummy) 0 ia ib = (A0 ++ S, S ++ B0) := by
    have := moveDummies_eq S [] ia ib hSn hna (by simpa using hnb) (fun x hx => ((hSm x).1 hx).1)
      (fun x hx => ((hSm x).1 hx).2)
    simpa [hS, hA0, hB0] using this
  -- sizes
  obtain ⟨d, h1, _, h3, _⟩ := symbolSizes_ok sz (ia.zip a.shape ++ ib.zip b.shape) []
    (by
      intro p hp
      rw [show a.shape = ia.map sz from ha, show b.shape = ib.map sz from hb] at hp
      rcases List.mem_append.1 hp with hp | hp
      · exact (mem_zip_map hp).1
      · exact (mem_zip_map hp).1) (by simp [Dict.get?])
  have hsz : ∀ c, c ∈ ia ∨ c ∈ ib → (d.get? c).getD 0 = sz c := by
    intro c hc
    have : (c, sz c) ∈ ia.zip a.shape ++ ib.zip b.shape := by
      rw [show a.shape = ia.map sz from ha, show b.shape = ib.map sz from hb, List.mem_append]
      exact hc.imp zip_map_mem zip_map_mem
    rw [h3 _ this]; rfl
  have hszl : ∀ l : List Char, (∀ c ∈ l, c ∈ ia ∨ c ∈ ib) →
      (l.map fun c => (d.get? c).getD 0) = l.map sz := by
    intro l hl
    exact List.map_congr_left fun c hc => hsz c (hl c hc)
  -- labels of the result
  have hbd : beforeDummy dummy (A0 ++ S) = A0 :=
    beforeDummy_eq (fun x hx hxd => ((hmA x).1 hx).2 (hSp.mem_iff.2 hxd)) (fun x hx => hSp.mem_iff.1 hx)
  have hfb : ((S ++ B0).filter fun x => decide (x ∉ dummy)) = B0 := by
    rw [List.filter_append, List.filter_eq_nil_iff.2, List.nil_append, List.filter_eq_self.2]
    · intro x hx
      have := ((hmB x).1 hx).2
      simpa [← hSp.mem_iff] using this
    · intro x hx
      simpa using hSp.mem_iff.1 hx
  have hcn : (A0 ++ B0).Nodup := by
    rw [List.nodup_append]
    refine ⟨hA0 ▸ hna.filter _, hB0 ▸ hnb.filter _, ?_⟩
    rintro x hx y hy rfl
    exact ((hmA x).1 hx).2 ((hSm x).2 ⟨((hmA x).1 hx).1, ((hmB x).1 hy).1⟩)
  have hcnt : ∀ c, c ∈ ia ∨ c ∈ ib ∨ c ∈ outs → ia.count c + ib.count c + outs.count c = 2 := by
    intro c hc
    have := hcount c (by simpa [or_assoc] using hc)
    simpa [List.count_append, Nat.add_assoc] using this
  have hone : ∀ (l : List Char), l.Nodup → ∀ c, l.count c = if c ∈ l then 1 else 0 := by
    intro l hl c
    split
    · exact List.count_eq_one_of_mem hl ‹_›
    · exact List.count_eq_zero.2 ‹_›
  have hmout : ∀ c, c ∈ outs ↔ (c ∈ A0 ∨ c ∈ B0) := by
    intro c
    have h2 := hcnt c
    rw [hone ia hna, hone ib hnb, hone outs hno] at h2
    rw [hmA, hmB, hSm]
    by_cases p : c ∈ ia <;> by_cases q : c ∈ ib <;> by_cases r : c ∈ outs <;> simp_all
  have hperm : outs.Perm (A0 ++ B0) := by
    rw [List.perm_ext_iff_of_nodup hno hcn]
    intro c; rw [hmout, List.mem_append]
  have hdummies : S.Perm (einDummies [ia, ib] outs) := by
    rw [List.perm_ext_iff_of_nodup hSn (nodup_einDummies _ _)]
    intro c
    rw [mem_einDummies, hmout, hmA, hmB]
    simp only [List.mem_cons, List.not_mem_nil, or_false, exists_eq_or_imp, exists_eq_left]
    have := hSm c
    tauto
  have hpA : (A0 ++ S).Perm ia := by
    rw [List.perm_ext_iff_of_nodup _ hna]
    · intro c
      rw [List.mem_append, hmA]
      have := hSm c
      tauto
    · rw [List.nodup_append]
      refine ⟨hA0 ▸ hna.filter _, hSn, ?_⟩
      rintro x hx y hy rfl
      exact ((hmA x).1 hx).2 hy
  have hpB : (S ++ B0).Perm ib := by
    rw [List.perm_ext_iff_of_nodup _ hnb]
    · intro c
      rw [List.mem_append, hmB]
      have := hSm c
      tauto
    · rw [List.nodup_append]
      refine ⟨hSn, hB0 ▸ hnb.filter _, ?_⟩
      rintro x hx y hy rfl
      exact ((hmB x).1 hy).2 hx
  -- transposes
  obtain ⟨ta, ta1, ta2, ta3, ta4⟩ := transpose_labels a ia (A0 ++ S) sz ha hna hpA
  obtain ⟨tb, tb1, tb2, tb3, tb4⟩ := transpose_labels b ib (S ++ B0) sz hb hnb hpB
  have hinner : prodN (S.map sz) ≠ 0 := by
    rw [prodN_eq_prod]
    intro h
    rw [List.prod_eq_zero_iff] at h
    obtain ⟨c, hc, e⟩ := List.mem_map.1 h
    exact hpos c ((hSm c).1 hc).1 e
  have hm : inferSize ta.data.length (prodN (S.map sz)) = .ok (prodN (A0.map sz)) := by
    unfold inferSize
    rw [data_length ta3, ta2, List.map_append, prodN_append, if_pos ⟨hinner, Nat.mul_mod_left _ _⟩,
      Nat.mul_div_cancel _ (Nat.pos_of_ne_zero hinner)]
  have hn : inferSize tb.data.length (prodN (S.map sz)) = .ok (prodN (B0.map sz)) := by
    unfold inferSize
    rw [data_length tb3, tb2, List.map_append, prodN_append, if_pos ⟨hinner, Nat.mul_mod_right _ _⟩,
      Nat.mul_div_cancel_left _ (Nat.pos_of_ne_zero hinner)]
  have hra : NDArray.reshape ta.data [prodN (A0.map sz), prodN (S.map sz)]
      = .ok ⟨[prodN (A0.map sz), prodN (S.map sz)], ta.data⟩ := by
    unfold NDArray.reshape
    rw [if_pos]
    rw [data_length ta3, ta2, List.map_append, prodN_append]; simp [prodN]
  have hrb : NDArray.reshape tb.data [prodN (S.map sz), prodN (B0.map sz)]
      = .ok ⟨[prodN (S.map sz), prodN (B0.map sz)], tb.data⟩ := by
    unfold NDArray.reshape
    rw [if_pos]
    rw [data_length tb3, tb2, List.map_append, prodN_append]; simp [prodN]
  -- elements of flattened matrices
  have hflat : ∀ (x : NDArray R) (U V : List Char), x.shape = (U ++ V).map sz → ∀ e : Char → Nat,
      (NDArray.mk [prodN (U.map sz), prodN (V.map sz)] x.data).get
        [ravelIdx (U.map sz) (U.map e), ravelIdx (V.map sz) (V.map e)] = x.get ((U ++ V).map e) := by
    intro x U V hx e
    unfold NDArray.get
    simp only [hx, List.map_append]
    rw [ravelIdx_append (by simp)]
    simp [ravelIdx, prodN]
  have hinA : ∀ c ∈ A0, c ∈ ia ∨ c ∈ ib := fun c hc => Or.inl ((hmA c).1 hc).1
  have hinB : ∀ c ∈ B0, c ∈ ia ∨ c ∈ ib := fun c hc => Or.inr ((hmB c).1 hc).1
  have hinS : ∀ c ∈ S, c ∈ ia ∨ c ∈ ib := fun c hc => Or.inl ((hSm c).1 hc).1
  have hshapeCt : ((A0 ++ B0).map fun c => (d.get? c).getD 0) = (A0 ++ B0).map sz :=
    hszl _ fun c hc => (List.mem_append.1 hc).elim (hinA c) (hinB c)
  have hsorted : ((sortChars dummy).map fun c => (d.get? c).getD 0) = S.map sz := by
    rw [← hS]; exact hszl _ hinS
  -- the output array
  have hout2 : ∃ out2, (match out with
        | none => (pure none : Except PyErr (Option (NDArray R)))
        | some o => do
          let t ← o.transpose ((A0 ++ B0).map outs.idxOf)
          let t ← NDArray.reshape t.data [prodN (A0.map sz), prodN (B0.map sz)]
          pure (some t)) = .ok out2 ∧ ∀ e : Char → Nat, (∀ c ∈ outs, e c < sz c) →
        outTerm beta out2 [ravelIdx (A0.map sz) (A0.map e), ravelIdx (B0.map sz) (B0.map e)]
          = outTerm beta out (outs.map e) := by
    cases out with
    | none => exact ⟨none, rfl, fun _ _ => rfl⟩
    | some o =>
      obtain ⟨o1, o2⟩ := ho o rfl
      obtain ⟨t, t1, t2, t3, t4⟩ := transpose_labels o outs (A0 ++ B0) sz o1 hno hperm.symm
      refine ⟨some ⟨[prodN (A0.map sz), prodN (B0.map sz)], t.data⟩, ?_, ?_⟩
      · simp only [t1, bind, Except.bind]
        unfold NDArray.reshape
        rw [if_pos]
        · rfl
        · rw [data_length t3, t2, List.map_append, prodN_append]; simp [prodN]
      · intro e he
        simp only [outTerm]
        rw [hflat t A0 B0 t2 e, t4 e he]
  obtain ⟨out2, o1, o2⟩ := hout2
  obtain ⟨G, hG⟩ : ∃ G, G = gemm (prodN (A0.map sz)) (prodN (S.map sz)) (prodN (B0.map sz)) alpha
    ⟨[prodN (A0.map sz), prodN (S.map sz)], ta.data⟩ ⟨[prodN (S.map sz), prodN (B0.map sz)], tb.data⟩
    beta out2 := ⟨_, rfl⟩
  have hGl : G.data.length = prodN ((A0 ++ B0).map sz) := by
    have : G.WF := by rw [hG]; exact NDArray.ofFn_wf _ _
    rw [data_length this, hG, List.map_append, prodN_append]
    simp [gemm, prodN]
  have hrc : NDArray.reshape G.data ((A0 ++ B0).map sz) = .ok ⟨(A0 ++ B0).map sz, G.data⟩ := by
    unfold NDArray.reshape
    rw [if_pos hGl]
  obtain ⟨r, r1, r2, r3, r4⟩ := transpose_labels (NDArray.mk ((A0 ++ B0).map sz) G.data) (A0 ++ B0) outs sz
    rfl hcn hperm
  refine ⟨r, ?_, r2, r3, ?_⟩
  · simp only [h1, hmv, hbd, hfb, hsorted, hshapeCt, ta1, tb1, hm, hn, hra, hrb, bind, Except.bind]
    cases out with
    | none =>
      cases o1
      simp only [pure, Except.pure, ← hG, hrc, r1]
    | some o =>
      simp only [bind, Except.bind] at o1
      cases h5 : o.transpose ((A0 ++ B0).map fun a => outs.idxOf a) with
      | error x => simp only [h5] at o1; cases o1
      | ok t =>
        simp only [h5] at o1 ⊢
        cases h6 : NDArray.reshape t.data [prodN (A0.map sz), prodN (B0.map sz)] with
        | error x => simp only [h6] at o1; cases o1
        | ok t' =>
          simp only [h6] at o1 ⊢
          cases o1
          simp only [pure, Except.pure, ← hG, hrc, r1]
  · intro e he
    have heAB : ∀ c ∈ A0 ++ B0, e c < sz c := fun c hc => he c (hperm.mem_iff.2 hc)
    rw [r4 e heAB]
    have hflatG : (NDArray.mk ((A0 ++ B0).map sz) G.data).get ((A0 ++ B0).map e)
        = G.get [ravelIdx (A0.map sz) (A0.map e), ravelIdx (B0.map sz) (B0.map e)] := by
      have := hflat (NDArray.mk ((A0 ++ B0).map sz) G.data) A0 B0 rfl e
      rw [← this]
      rw [hG]; rfl
    rw [hflatG, hG, gemm, NDArray.get_ofFn]
    · simp only [List.getD_cons_zero, List.getD_cons_succ]
      have key : ∀ x y : R, x = y → alpha * x
          + outTerm beta out2 [ravelIdx (A0.map sz) (A0.map e), ravelIdx (B0.map sz) (B0.map e)]
          = alpha * y + outTerm beta out (outs.map e) := by
        rintro x y rfl; rw [o2 e he]
      refine key _ _ ?_
      rw [einValue, List.map_cons, List.map_cons, List.map_nil, ← einSum_perm sz hdummies]
      apply sum_flat sz S hSn
      intro e' he1 he2
      have hA0e : A0.map e = A0.map e' := List.map_congr_left fun c hc => (he1 c ((hmA c).1 hc).2).symm
      have hB0e : B0.map e = B0.map e' := List.map_congr_left fun c hc => (he1 c ((hmB c).1 hc).2).symm
      rw [hA0e, hB0e, hflat ta A0 S ta2 e', hflat tb S B0 tb2 e']
      have hA0b : ∀ c ∈ A0, e' c < sz c := by
        intro c hc
        rw [he1 c ((hmA c).1 hc).2]
        exact heAB c (by simp [hc])
      have hB0b : ∀ c ∈ B0, e' c < sz c := by
        intro c hc
        rw [he1 c ((hmB c).1 hc).2]
        exact heAB c (by simp [hc])
      rw [ta4, tb4]
      · simp [einProd]
      · intro c hc
        rcases List.mem_append.1 (hpB.mem_iff.2 hc) with h | h
        · exact he2 c h
        · exact hB0b c h
      · intro c hc
        rcases List.mem_append.1 (hpA.mem_iff.2 hc) with h | h
        · exact hA0b c h
        · exact he2 c h
    · refine .cons ?_ (.cons ?_ .nil)
      · exact ravelIdx_lt (inBox_map sz e A0 fun c hc => heAB c (by simp [hc]))
      · exact ravelIdx_lt (inBox_map sz e B0 fun c hc => heAB c (by simp [hc]))

end
end Ebcc
