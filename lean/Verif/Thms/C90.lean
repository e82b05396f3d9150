import Verif.Model.Tblis
import Verif.Thms.C15
import Verif.Model.GenCode
import Mathlib.Tactic.NormNum

/-!
C90: the contraction with TBLIS.
-/

namespace Ebcc

section
variable {R : Type} [CommRing R]

/-- What is added: `beta` times the output array, or times what `np.empty` holds. -/
def added90 (junk : List Nat → R) (beta : R) (out : Option (NDArray R)) (idx : List Nat) : R :=
  match out with
  | none => beta * junk idx
  | some o => beta * o.get idx

/-- The subscripts and sizes for which the library is called: every symbol occurs twice, once in each of two of the three
parts; some symbols are summed and both operands have others; both operands have at least 1000 elements. -/
def Fast90 (ia ib outs : List Char) (a b : NDArray R) : Prop :=
  1000 ≤ prodN a.shape ∧ 1000 ≤ prodN b.shape ∧ (∀ c ∈ ia ++ ib ++ outs, (ia ++ ib ++ outs).count c = 2) ∧
    ia.Nodup ∧ ib.Nodup ∧ (∃ c ∈ ia, c ∈ ib) ∧ (∃ c ∈ ia, c ∉ ib) ∧ ∃ c ∈ ib, c ∉ ia

/-- Both paths: without the library the result is that of `_contract_backend` and `out` is not written. -/
theorem tblis_paths90 (sz : Char → Nat) (viewed : Bool) (junk : List Nat → R) (ia ib outs : List Char) (a b : NDArray R)
    (alpha beta : R) (out : Option (NDArray R)) (ha : a.shape = ia.map sz) (hb : b.shape = ib.map sz)
    (hsub : ∀ c ∈ outs, c ∈ ia ∨ c ∈ ib) (ho : ∀ o ∈ out, o.shape = outs.map sz ∧ o.WF) :
    (¬Fast90 ia ib outs a b → contractTblis true viewed junk ia ib outs a b alpha beta out
      = (contractBackend ia ib outs a b alpha beta out).map fun r => (r, out)) ∧
    (Fast90 ia ib outs a b → ∃ r, contractTblis true viewed junk ia ib outs a b alpha beta out
        = .ok (r, out.map fun o => if viewed then r else o) ∧ r.shape = outs.map sz ∧ r.WF ∧
      ∀ e : Char → Nat, (∀ c ∈ outs, e c < sz c) → r.get (outs.map e)
        = alpha * einValue sz [(ia, a), (ib, b)] outs e + added90 junk beta out (outs.map e)) := by
  have hcount : ((ia ++ ib ++ outs).any fun x => decide ((ia ++ ib ++ outs).count x ≠ 2)) = true ↔
      ¬∀ c ∈ ia ++ ib ++ outs, (ia ++ ib ++ outs).count c = 2 := by
    rw [List.any_eq_true]
    push Not
    simp
  have hlen : ¬(ia.length ≠ a.shape.length ∨ ib.length ≠ b.shape.length) := by simp [ha, hb]
  have hdummy : ((ia.filter fun x => decide (x ∈ ib)) = [] ∨ (∀ x ∈ ia, x ∈ ia.filter fun x => decide (x ∈ ib)) ∨
      (∀ x ∈ ib, x ∈ ia.filter fun x => decide (x ∈ ib))) ↔
      ¬((∃ c ∈ ia, c ∈ ib) ∧ (∃ c ∈ ia, c ∉ ib) ∧ ∃ c ∈ ib, c ∉ ia) := by
    simp only [List.filter_eq_nil_iff, List.mem_filter, decide_eq_true_eq]
    grind
  have huniq : (ia.length ≠ (unique ia).length ∨ ib.length ≠ (unique ib).length) ↔ ¬(ia.Nodup ∧ ib.Nodup) := by
    rw [Ne, Ne, length_unique_eq_iff, length_unique_eq_iff]
    tauto
  have hsize : min (prodN a.shape) (prodN b.shape) < backendEinsumSize ↔ ¬(1000 ≤ prodN a.shape ∧ 1000 ≤ prodN b.shape) := by
    unfold backendEinsumSize
    omega
  constructor
  · intro hn
    unfold contractTblis
    simp only [Bool.true_eq_false, if_false]
    split
    · rfl
    split
    · rfl
    split
    · rfl
    split
    · rfl
    rename_i h1 h2 h3 h4
    rw [hsize, not_not] at h1
    rw [hcount, not_not] at h2
    rw [huniq, not_not] at h3
    rw [hdummy, not_not] at h4
    exact absurd ⟨h1.1, h1.2, h2, h3.1, h3.2, h4.1, h4.2.1, h4.2.2⟩ hn
  · rintro ⟨f1, f2, f3, f4, f5, f6, f7, f8⟩
    obtain ⟨d, h1, -, h3, -⟩ := symbolSizes_ok sz (ia.zip a.shape ++ ib.zip b.shape) []
      (by
        intro p hp
        rcases List.mem_append.1 hp with hp | hp
        · rw [ha] at hp; exact (mem_zip_map hp).1
        · rw [hb] at hp; exact (mem_zip_map hp).1) (by simp [Dict.get?])
    have hsz : ∀ x ∈ [(ia, a), (ib, b)], ∀ c ∈ x.1, (d.get? c).getD 0 = sz c := by
      intro x hx c hc
      have : (c, sz c) ∈ ia.zip a.shape ++ ib.zip b.shape := by
        rcases List.mem_cons.1 hx with rfl | hx
        · rw [ha]; exact List.mem_append_left _ (zip_map_mem hc)
        · cases List.mem_singleton.1 hx
          rw [hb]; exact List.mem_append_right _ (zip_map_mem hc)
      rw [h3 _ this]
      rfl
    have hshape : (outs.map fun c => (d.get? c).getD 0) = outs.map sz := by
      apply List.map_congr_left
      intro c hc
      rcases hsub c hc with h | h
      · exact hsz (ia, a) (by simp) c h
      · exact hsz (ib, b) (by simp) c h
    have hval : ∀ (c : NDArray R), c.shape = outs.map sz → ∀ e : Char → Nat, (∀ c ∈ outs, e c < sz c) →
        (asEinsum (fun c => (d.get? c).getD 0) ia ib outs a b alpha beta c).get (outs.map e)
          = alpha * einValue sz [(ia, a), (ib, b)] outs e + beta * c.get (outs.map e) := by
      intro c hc e he
      rw [asEinsum, hc, NDArray.get_ofFn _ _ (inBox_map sz e outs he), einValue_sz_congr hsz]
      congr 2
      exact einValue_congr sz fun c hc => assignOf_map e hc
    have hgo : contractTblis true viewed junk ia ib outs a b alpha beta out
        = (match out with
          | none => .ok (asEinsum (fun c => (d.get? c).getD 0) ia ib outs a b alpha beta
              (NDArray.ofFn (outs.map sz) junk), none)
          | some o => if o.data.length ≠ prodN (outs.map sz) then .error .assertionError else do
            let c ← NDArray.reshape o.data (outs.map sz)
            let c := asEinsum (fun c => (d.get? c).getD 0) ia ib outs a b alpha beta c
            pure (c, some (if viewed then ⟨o.shape, c.data⟩ else o))) := by
      unfold contractTblis
      simp only [Bool.true_eq_false, if_false]
      rw [if_neg (by rw [hsize]; exact not_not.2 ⟨f1, f2⟩), if_neg (by rw [hcount]; exact not_not.2 f3), if_neg hlen,
        if_neg (by rw [huniq]; exact not_not.2 ⟨f4, f5⟩), if_neg (by rw [hdummy]; exact not_not.2 ⟨f6, f7, f8⟩), h1]
      simp only [bind, Except.bind, hshape]
      cases out <;> rfl
    rw [hgo]
    cases out with
    | none =>
      refine ⟨_, rfl, rfl, NDArray.ofFn_wf _ _, fun e he => ?_⟩
      rw [hval _ rfl e he, NDArray.get_ofFn _ _ (inBox_map sz e outs he)]
      rfl
    | some o =>
      obtain ⟨o1, o2⟩ := ho o rfl
      have o3 : o.data.length = prodN (outs.map sz) := by rw [← o1]; exact o2
      have e1 : NDArray.reshape o.data (outs.map sz) = .ok o := by
        rw [NDArray.reshape, if_pos o3, ← o1]
      simp only [bind, Except.bind, pure, Except.pure, e1, ne_eq, o3, not_true, if_false]
      refine ⟨asEinsum (fun c => (d.get? c).getD 0) ia ib outs a b alpha beta o, ?_, o1, NDArray.ofFn_wf _ _,
        fun e he => hval _ o1 e he⟩
      cases viewed <;> rfl

/-- C90: if an output array is given, or `beta` is zero, the result is `alpha` times the Einstein sum plus `beta` times
the output array, whether or not the library is called; it is the array that `_contract_ttgt` returns. -/
theorem C90_value (sz : Char → Nat) (viewed : Bool) (junk : List Nat → R) (ia ib outs : List Char) (a b : NDArray R)
    (alpha beta : R) (out : Option (NDArray R)) (ha : a.shape = ia.map sz) (hb : b.shape = ib.map sz)
    (hno : outs.Nodup) (hsub : ∀ c ∈ outs, c ∈ ia ∨ c ∈ ib) (ho : ∀ o ∈ out, o.shape = outs.map sz ∧ o.WF)
    (hbeta : beta = 0 ∨ out ≠ none) :
    ∃ r after, contractTblis true viewed junk ia ib outs a b alpha beta out = .ok (r, after) ∧
      r.shape = outs.map sz ∧ r.WF ∧
      (∀ e : Char → Nat, (∀ c ∈ outs, e c < sz c) → r.get (outs.map e)
        = alpha * einValue sz [(ia, a), (ib, b)] outs e + outTerm beta out (outs.map e)) ∧
      contractTtgt ia ib outs a b alpha beta out = .ok r ∧ contractBackend ia ib outs a b alpha beta out = .ok r := by
  obtain ⟨p1, p2⟩ := tblis_paths90 sz viewed junk ia ib outs a b alpha beta out ha hb hsub ho
  obtain ⟨s, s1, s2, s3, s4⟩ := C15_contract_ttgt sz ia ib outs a b alpha beta out ha hb hno hsub ho
  obtain ⟨t, t1, t2, t3, t4⟩ := C15_contract_backend sz ia ib outs a b alpha beta out ha hb hsub ho
  have same : ∀ x y : NDArray R, x.WF → y.WF → x.shape = outs.map sz → y.shape = outs.map sz →
      (∀ e : Char → Nat, (∀ c ∈ outs, e c < sz c) → x.get (outs.map e) = y.get (outs.map e)) → x = y := by
    intro x y hx hy hxs hys h
    refine NDArray.ext_get hx hy (hxs.trans hys.symm) fun idx hidx => ?_
    rw [hxs] at hidx
    obtain ⟨e, rfl, he⟩ := map_of_inBox hno hidx
    exact h e he
  have hst : s = t := same s t s3 t3 s2 t2 fun e he => (s4 e he).trans (t4 e he).symm
  by_cases hf : Fast90 ia ib outs a b
  · obtain ⟨r, r1, r2, r3, r4⟩ := p2 hf
    have hv : ∀ e : Char → Nat, (∀ c ∈ outs, e c < sz c) → r.get (outs.map e)
        = alpha * einValue sz [(ia, a), (ib, b)] outs e + outTerm beta out (outs.map e) := by
      intro e he
      rw [r4 e he]
      congr 1
      cases out with
      | none =>
        rcases hbeta with rfl | h
        · simp [added90, outTerm]
        · exact absurd rfl h
      | some o => rfl
    have hrs : r = s := same r s r3 s3 r2 s2 fun e he => (hv e he).trans (s4 e he).symm
    exact ⟨r, _, r1, r2, r3, hv, hrs ▸ s1, by rw [hrs, hst]; exact t1⟩
  · refine ⟨t, out, ?_, t2, t3, t4, hst ▸ s1, t1⟩
    rw [p1 hf, t1]
    rfl

/-- C90: the array `out` after the call is the result if the library was called and `np.reshape` gave a view; otherwise it
is as before. -/
theorem C90_out (sz : Char → Nat) (viewed : Bool) (junk : List Nat → R) (ia ib outs : List Char) (a b : NDArray R)
    (alpha beta : R) (o : NDArray R) (ha : a.shape = ia.map sz) (hb : b.shape = ib.map sz)
    (hsub : ∀ c ∈ outs, c ∈ ia ∨ c ∈ ib) (ho : o.shape = outs.map sz) (hw : o.WF) :
    ∃ r after, contractTblis true viewed junk ia ib outs a b alpha beta (some o) = .ok (r, some after) ∧
      (Fast90 ia ib outs a b → viewed = true → after = r) ∧ (¬Fast90 ia ib outs a b ∨ viewed = false → after = o) := by
  have ho' : ∀ o' ∈ some o, o'.shape = outs.map sz ∧ o'.WF := by
    rintro o' h
    cases h
    exact ⟨ho, hw⟩
  obtain ⟨p1, p2⟩ := tblis_paths90 sz viewed junk ia ib outs a b alpha beta (some o) ha hb hsub ho'
  by_cases hf : Fast90 ia ib outs a b
  · obtain ⟨r, r1, -⟩ := p2 hf
    refine ⟨r, if viewed then r else o, r1, fun _ h => by simp [h], ?_⟩
    rintro (h | h)
    · exact absurd hf h
    · simp [h]
  · obtain ⟨t, t1, -⟩ := C15_contract_backend sz ia ib outs a b alpha beta (some o) ha hb hsub ho'
    refine ⟨t, o, ?_, fun h => absurd h hf, fun _ => rfl⟩
    rw [p1 hf, t1]
    rfl

/-- C90: without the library every call raises `ImportError`. -/
theorem C90_not_found (viewed : Bool) (junk : List Nat → R) (ia ib outs : List Char) (a b : NDArray R) (alpha beta : R)
    (out : Option (NDArray R)) : contractTblis false viewed junk ia ib outs a b alpha beta out = .error .importError := by
  simp [contractTblis]

/-- C90: a call returns only if the sizes of equal symbols agree. -/
theorem C90_rejects_inconsistent_sizes (found viewed : Bool) (junk : List Nat → R) (ia ib outs : List Char)
    (a b : NDArray R) (alpha beta : R) (out : Option (NDArray R)) (r : NDArray R) (after : Option (NDArray R))
    (h : contractTblis found viewed junk ia ib outs a b alpha beta out = .ok (r, after)) :
    ∃ sz : Char → Nat, a.shape = ia.map sz ∧ b.shape = ib.map sz := by
  have hfb : ((contractBackend ia ib outs a b alpha beta out).map fun r => (r, out)) = .ok (r, after) →
      ∃ sz : Char → Nat, a.shape = ia.map sz ∧ b.shape = ib.map sz := by
    intro h
    unfold contractBackend at h
    cases hn : numpyEinsum [(ia, a), (ib, b)] outs with
    | error x => simp [hn, bind, Except.bind, Except.map] at h
    | ok s =>
      obtain ⟨sz, hsz⟩ := numpyEinsum_sound hn
      exact ⟨sz, hsz (ia, a) (by simp), hsz (ib, b) (by simp)⟩
  unfold contractTblis at h
  simp only at h
  split at h
  · cases h
  split at h
  · exact hfb h
  split at h
  · exact hfb h
  split at h
  · cases h
  rename_i hl
  split at h
  · exact hfb h
  split at h
  · exact hfb h
  cases hd : symbolSizes (ia.zip a.shape ++ ib.zip b.shape) [] with
  | error x => simp [hd, bind, Except.bind] at h
  | ok d =>
    obtain ⟨-, h2⟩ := symbolSizes_sound _ _ _ hd
    push Not at hl
    refine ⟨fun c => (d.get? c).getD 0, eq_map_of_zip hl.1 fun p hp => ?_, eq_map_of_zip hl.2 fun p hp => ?_⟩
    · rw [h2 p (List.mem_append_left _ hp)]; rfl
    · rw [h2 p (List.mem_append_right _ hp)]; rfl

end

/-- The sizes of the example: `i` and `k` have 1000 values, `j` one. -/
def sz90 (c : Char) : Nat := if c = 'j' then 1 else 1000

/-- Zeros of the shape of the symbols `s`. -/
def zeros90 (s : List Char) : NDArray Int := NDArray.ofFn (s.map sz90) fun _ => 0

/-- The library is called for a product of a column and a row with 1000 elements each. -/
theorem fast90 : Fast90 (chars! "ij") (chars! "jk") (chars! "ik") (zeros90 (chars! "ij")) (zeros90 (chars! "jk")) := by
  refine ⟨?_, ?_, ?_, ?_, ?_, ?_, ?_, ?_⟩
  · exact (by decide : (1000 : Nat) ≤ 1000 * (1 * 1))
  · exact (by decide : (1000 : Nat) ≤ 1 * (1000 * 1))
  all_goals decide

/-- C90, refuted: without `out`, and with `beta` other than zero, the result depends on the contents of uninitialised
memory. -/
theorem C90_uninitialised_false : ¬∀ (viewed : Bool) (junk junk' : List Nat → Int) (ia ib outs : List Char)
    (a b : NDArray Int) (alpha beta : Int), contractTblis true viewed junk ia ib outs a b alpha beta none
      = contractTblis true viewed junk' ia ib outs a b alpha beta none := by
  intro h
  have key : ∀ junk : List Nat → Int, ∃ r, contractTblis true true junk (chars! "ij") (chars! "jk") (chars! "ik")
      (zeros90 (chars! "ij")) (zeros90 (chars! "jk")) 1 1 none = .ok (r, none) ∧
      r.get [0, 0] = 1 * einValue sz90 [(chars! "ij", zeros90 (chars! "ij")), (chars! "jk", zeros90 (chars! "jk"))]
        (chars! "ik") (fun _ => 0) + 1 * junk [0, 0] := by
    intro junk
    obtain ⟨r, r1, -, -, r4⟩ := (tblis_paths90 sz90 true junk (chars! "ij") (chars! "jk") (chars! "ik")
      (zeros90 (chars! "ij")) (zeros90 (chars! "jk")) 1 1 none rfl rfl (by decide) (by simp)).2 fast90
    exact ⟨r, r1, r4 (fun _ => 0) (by decide)⟩
  obtain ⟨r, r1, r2⟩ := key fun _ => 0
  obtain ⟨s, s1, s2⟩ := key fun _ => 1
  have hrs : r = s := by
    have := (r1.symm.trans (h true (fun _ => 0) (fun _ => 1) _ _ _ _ _ _ _)).trans s1
    cases this
    rfl
  rw [hrs, s2] at r2
  simp at r2

/-- C90, refuted: `out`, if given, need not hold the result after the call. -/
theorem C90_out_false : ¬∀ (viewed : Bool) (junk : List Nat → Int) (ia ib outs : List Char) (a b : NDArray Int)
    (alpha beta : Int) (o r after : NDArray Int),
    contractTblis true viewed junk ia ib outs a b alpha beta (some o) = .ok (r, some after) → after = r := by
  intro h
  have := h true (fun _ => 0) (chars! "ij") (chars! "jk") (chars! "ik") ⟨[1, 2], [3, 4]⟩ ⟨[2, 1], [5, 6]⟩ 1 0
    ⟨[1, 1], [7]⟩ ⟨[1, 1], [39]⟩ ⟨[1, 1], [7]⟩ (by decide +kernel)
  exact absurd this (by decide)

/-- The library is called, and `out` is overwritten with the sum of the product and twice what it was. -/
example (o : NDArray Int) (ho : o.shape = [1000, 1000]) (hw : o.WF) : ∃ r,
    contractTblis true true (fun _ => 5) (chars! "ij") (chars! "jk") (chars! "ik")
      (zeros90 (chars! "ij")) (zeros90 (chars! "jk")) 1 2 (some o) = .ok (r, some r) := by
  obtain ⟨r, after, h1, h2, -⟩ := C90_out sz90 true (fun _ => 5) (chars! "ij") (chars! "jk") (chars! "ik")
    (zeros90 (chars! "ij")) (zeros90 (chars! "jk")) 1 2 o rfl rfl (by decide) ho hw
  exact ⟨r, by rw [h1, h2 fast90 rfl]⟩

/-- A small product. -/
example : contractTblis true true (fun _ => (5 : Int)) (chars! "ij") (chars! "jk") (chars! "ik")
    ⟨[1, 2], [3, 4]⟩ ⟨[2, 1], [5, 6]⟩ 2 1 (some ⟨[1, 1], [7]⟩) = .ok (⟨[1, 1], [85]⟩, some ⟨[1, 1], [7]⟩) := by
  decide +kernel

end Ebcc
