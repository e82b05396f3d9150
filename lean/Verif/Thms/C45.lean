import Verif.Lemmas.Rotate
import Verif.Thms.C33
import Verif.Thms.C34
import Verif.Thms.C43
/-!
C45: the Brueckner rotation changes exactly the correlated columns of the orbital coefficients; the restricted and the
general `transform_amplitudes` rotate every amplitude.  The unrestricted one does not: of every amplitude it rotates
one spin block only.
-/

namespace Ebcc

section
variable {R : Type}

/-- `T'[i₁…iₙ a₁…aₙ] = Σ T[j₁…jₙ b₁…bₙ] Π u[jₖ, iₖ] Π u[nocc + bₖ, nocc + aₖ]`. -/
def bruecknerElem [CommSemiring R] (n nocc : Nat) (u x : NDArray R) (idx : List Nat) : R :=
  ((box x.shape).map fun j => x.get j *
    ((List.range n).map fun k => u.get [j.getD k 0, idx.getD k 0]).prod *
    ((List.range n).map fun k => u.get [nocc + j.getD (n + k) 0, nocc + idx.getD (n + k) 0]).prod).sum

theorem squareSlice_ok [Zero R] (u : NDArray R) (N lo hi : Nat) (hu : u.shape = [N, N]) (hh : hi ≤ N) :
    (squareSlice u lo hi).shape = [hi - lo, hi - lo] ∧ ∀ i < hi - lo, ∀ j < hi - lo,
      (squareSlice u lo hi).get [i, j] = u.get [i + lo, j + lo] := by
  have hs : (u.shape.take 2).map (fun n => min hi n - lo) = [hi - lo, hi - lo] := by
    rw [hu]; simp [Nat.min_eq_left hh]
  unfold squareSlice
  rw [hs]
  exact ⟨rfl, fun i hi j hj => NDArray.get_ofFn _ _ (.cons hi (.cons hj .nil))⟩

/-- The rank of an amplitude is between 1 and 4. -/
theorem rank_bounds {ansatz : List Char} {spin : SpinType} {fs : List Rank}
    (h : fermionicClusterRanks ansatz spin .t = .ok fs) (r : Rank) (hr : r ∈ fs) : 1 ≤ r.2.2 ∧ r.2.2 ≤ 4 := by
  obtain ⟨k, rfl⟩ := (C24_well_formed ansatz spin .t fs h).2.2 r hr
  cases k <;> decide

/-- One rotation. -/
theorem rotate_one [CommRing R] [DecidableEq R] (method : ContractMethod) (path : PathFn R) (hpath : GoodPath path)
    (n nocc nvir : Nat) (h1 : 1 ≤ n) (h4 : n ≤ 4) (u x : NDArray R) (hu : u.shape = [nocc + nvir, nocc + nvir])
    (hx : x.shape = List.replicate n nocc ++ List.replicate n nvir) (ci ca : Nat → Except PyErr (NDArray R))
    (hi : ∀ i < n, ci i = .ok (squareSlice u 0 nocc))
    (ha : ∀ i < n, ca i = .ok (squareSlice u nocc (u.shape.headD 0))) :
    ∃ y, (do
      let args ← rotateArgs n x ci ca
      einsum method path args 1 0 none) = .ok y ∧ y.shape = x.shape ∧ y.WF ∧
      ∀ idx, InBox x.shape idx → y.get idx = bruecknerElem n nocc u x idx := by
  obtain ⟨s1, s2⟩ := squareSlice_ok u (nocc + nvir) 0 nocc hu (by omega)
  obtain ⟨v1, v2⟩ := squareSlice_ok u (nocc + nvir) nocc (nocc + nvir) hu (by omega)
  have hh : u.shape.headD 0 = nocc + nvir := by rw [hu]; rfl
  have hlen : x.shape.length = n * 2 := by rw [hx]; simp; omega
  have ho : ∀ k < n, x.shape.getD k 0 = nocc := by
    intro k hk
    rw [hx, List.getD_eq_getElem?_getD, List.getElem?_append_left (by simpa using hk)]
    simp [hk]
  have hv : ∀ k < n, x.shape.getD (n + k) 0 = nvir := by
    intro k hk
    rw [hx, List.getD_eq_getElem?_getD, List.getElem?_append_right (by simp)]
    simp [hk]
  rw [rotateArgs_ok n x ci ca (fun _ => squareSlice u 0 nocc) (fun _ => squareSlice u nocc (u.shape.headD 0)) hi ha]
  obtain ⟨y, y1, y2, y3, y4⟩ := rotate_einsum method path hpath (n * 2) (by omega) (by omega) x
    (halfMats n (fun _ => squareSlice u 0 nocc) (fun _ => squareSlice u nocc (u.shape.headD 0))) x.shape hlen hlen (by
      intro k hk
      by_cases hkn : k < n
      · rw [halfMats, if_pos hkn, s1, ho k hkn, Nat.sub_zero]
      · obtain ⟨k', rfl⟩ := Nat.exists_eq_add_of_le (Nat.le_of_not_lt hkn)
        rw [halfMats, if_neg hkn, hh, v1, hv k' (by omega), Nat.add_sub_cancel_left])
  refine ⟨y, y1, y2, y3, fun idx hidx => ?_⟩
  rw [y4 idx hidx, rotatedElem, bruecknerElem]
  congr 1
  apply List.map_congr_left
  intro j hj
  have hb : ∀ (l : List Nat), InBox x.shape l → ∀ k < n * 2, l.getD k 0 < x.shape.getD k 0 := by
    intro l hl k hk
    exact (inBox_iff_getD.1 hl).2 k (by omega)
  have hjb := hb j (mem_box.1 hj)
  have hib := hb idx hidx
  rw [mul_assoc]
  congr 1
  rw [Nat.mul_two, List.range_add, List.map_append, List.prod_append, List.map_map]
  congr 1
  · congr 1
    apply List.map_congr_left
    intro k hk
    rw [List.mem_range] at hk
    have := hjb k (by omega)
    have := hib k (by omega)
    rw [ho k hk] at *
    rw [halfMats, if_pos hk, s2 _ (by omega) _ (by omega)]
    rfl
  · congr 1
    apply List.map_congr_left
    intro k hk
    rw [List.mem_range] at hk
    have := hjb (n + k) (by omega)
    have := hib (n + k) (by omega)
    rw [hv k hk] at *
    simp only [Function.comp]
    rw [halfMats, if_neg (by omega), hh, v2 _ (by omega) _ (by omega), Nat.add_comm _ nocc, Nat.add_comm _ nocc]

/-- A loop that replaces entries of a dictionary. -/
theorem replaceLoop_ok {V : Type} (F : Rank → V → Except PyErr V) (fs : List Rank)
    (hnd : (fs.map fun r => r.1).Nodup) (d : Dict (List Char) V)
    (h : ∀ r ∈ fs, ∃ x y, d.get? r.1 = some x ∧ F r x = .ok y) :
    ∃ d', fs.foldlM (fun (d : Dict (List Char) V) r => do
        let x ← d.getItem r.1
        let y ← F r x
        pure (d.set r.1 y)) d = .ok d' ∧ d'.keys = d.keys ∧
      (∀ r ∈ fs, ∀ x, d.get? r.1 = some x → ∃ y, F r x = .ok y ∧ d'.get? r.1 = some y) ∧
      ∀ nm, (∀ r ∈ fs, r.1 ≠ nm) → d'.get? nm = d.get? nm := by
  induction fs generalizing d with
  | nil => exact ⟨d, rfl, rfl, by simp, fun _ _ => rfl⟩
  | cons r fs ih =>
    rw [List.map_cons, List.nodup_cons] at hnd
    obtain ⟨x, y, hx, hy⟩ := h r (by simp)
    have hne : ∀ r' ∈ fs, r.1 ≠ r'.1 := fun r' hr' e => hnd.1 (List.mem_map.2 ⟨r', hr', e.symm⟩)
    obtain ⟨d', e1, e2, e3, e4⟩ := ih hnd.2 (d.set r.1 y) (by
      intro r' hr'
      obtain ⟨x', y', h1, h2⟩ := h r' (by simp [hr'])
      exact ⟨x', y', by rw [Dict.get?_set, if_neg (hne r' hr')]; exact h1, h2⟩)
    refine ⟨d', ?_, ?_, ?_, ?_⟩
    · have hg : d.getItem r.1 = .ok x := by simp [Dict.getItem, hx]
      simp only [List.foldlM_cons, hg, hy, bind, Except.bind, pure, Except.pure] at e1 ⊢
      exact e1
    · rw [e2, Dict.keys_set_of_mem _ _ _ ((Dict.mem_keys_iff _ _).2 ⟨x, hx⟩)]
    · intro r' hr' x' hx'
      rcases List.mem_cons.1 hr' with rfl | hr'
      · rw [hx] at hx'
        cases hx'
        exact ⟨y, hy, by rw [e4 r'.1 fun r' hr' e => hne r' hr' e.symm, Dict.get?_set, if_pos rfl]⟩
      · exact e3 r' hr' x' (by rw [Dict.get?_set, if_neg (hne r' hr')]; exact hx')
    · intro nm hnm
      rw [e4 nm fun r' hr' => hnm r' (by simp [hr']), Dict.get?_set, if_neg (hnm r (by simp))]

theorem noBosons_ok {a : Ansatz} {spin : SpinType} {fs : List Rank} (h : HasRanks a spin .t fs [] []) :
    noBosons a = .ok () := by
  simp only [noBosons, h.b, h.c, bind, Except.bind, ne_eq, not_true_eq_false, if_false, pure, Except.pure]

/-- Restricted and general: every amplitude is rotated, nothing else changes. -/
theorem C45_amplitudes [CommRing R] [DecidableEq R] (method : ContractMethod) (path : PathFn R) (hpath : GoodPath path)
    (a : Ansatz) (spin : SpinType) (fs : List Rank) (hr : HasRanks a spin .t fs [] [])
    (hnd : (fs.map fun r => r.1).Nodup) (space : Space) (nvir : Nat) (u : NDArray R)
    (hu : u.shape = [space.ncocc + nvir, space.ncocc + nvir]) (amps : Dict (List Char) (NDArray R))
    (hx : ∀ r ∈ fs, ∃ x, amps.get? r.1 = some x ∧
      x.shape = List.replicate r.2.2 space.ncocc ++ List.replicate r.2.2 nvir) :
    ∃ amps', transformAmplitudes method path a spin space u amps = .ok amps' ∧ amps'.keys = amps.keys ∧
      (∀ r ∈ fs, ∀ x, amps.get? r.1 = some x → ∃ y, amps'.get? r.1 = some y ∧ y.shape = x.shape ∧ y.WF ∧
        ∀ idx, InBox x.shape idx → y.get idx = bruecknerElem r.2.2 space.ncocc u x idx) ∧
      ∀ nm, (∀ r ∈ fs, r.1 ≠ nm) → amps'.get? nm = amps.get? nm := by
  have hone : ∀ r ∈ fs, ∀ x, amps.get? r.1 = some x → ∃ y, (do
      let args ← rotateArgs r.2.2 x (fun _ => .ok (squareSlice u 0 space.ncocc))
        (fun _ => .ok (squareSlice u space.ncocc (u.shape.headD 0)))
      einsum method path args 1 0 none) = .ok y ∧ y.shape = x.shape ∧ y.WF ∧
        ∀ idx, InBox x.shape idx → y.get idx = bruecknerElem r.2.2 space.ncocc u x idx := by
    intro r hrf x hx1
    obtain ⟨x', hx2, hx3⟩ := hx r hrf
    rw [hx1] at hx2
    cases hx2
    obtain ⟨b1, b4⟩ := rank_bounds hr.f r hrf
    exact rotate_one method path hpath r.2.2 space.ncocc nvir b1 b4 u x hu hx3 _ _ (fun _ _ => rfl) fun _ _ => rfl
  obtain ⟨d', e1, e2, e3, e4⟩ := replaceLoop_ok (fun r x => do
      let args ← rotateArgs r.2.2 x (fun _ => .ok (squareSlice u 0 space.ncocc))
        (fun _ => .ok (squareSlice u space.ncocc (u.shape.headD 0)))
      einsum method path args 1 0 none) fs hnd amps (by
    intro r hrf
    obtain ⟨x, hx1, hx2⟩ := hx r hrf
    obtain ⟨y, hy, _⟩ := hone r hrf x hx1
    exact ⟨x, y, hx1, hy⟩)
  refine ⟨d', ?_, e2, ?_, e4⟩
  · unfold transformAmplitudes
    rw [hr.f, noBosons_ok hr]
    have e0 : ∀ (l : List Rank) (d : Dict (List Char) (NDArray R)), l.foldlM (fun (amps : Dict (List Char) (NDArray R)) r => do
        let x ← amps.getItem r.1
        let args ← rotateArgs r.2.2 x (fun _ => .ok (squareSlice u 0 space.ncocc))
          (fun _ => .ok (squareSlice u space.ncocc (u.shape.headD 0)))
        let y ← einsum method path args 1 0 none
        pure (amps.set r.1 y)) d = l.foldlM (fun (d : Dict (List Char) (NDArray R)) r => do
        let x ← d.getItem r.1
        let y ← (do
          let args ← rotateArgs r.2.2 x (fun _ => .ok (squareSlice u 0 space.ncocc))
            (fun _ => .ok (squareSlice u space.ncocc (u.shape.headD 0)))
          einsum method path args 1 0 none)
        pure (d.set r.1 y)) d := by
      intro l d
      congr 1
      funext d r
      simp only [bind_assoc]
    simp only [bind, Except.bind] at e0 e1 ⊢
    rw [e0, e1]
    rfl
  · intro r hrf x hx1
    obtain ⟨y, hy1, hy2⟩ := e3 r hrf x hx1
    obtain ⟨y', hy3, hy4⟩ := hone r hrf x hx1
    have : y = y' := by
      have := hy1.symm.trans hy3
      cases this
      rfl
    subst this
    exact ⟨y, hy2, hy4⟩

/-- Rotating with the identity gives back every element. -/
theorem bruecknerElem_one [CommSemiring R] (n nocc nvir : Nat) (u x : NDArray R)
    (hx : x.shape = List.replicate n nocc ++ List.replicate n nvir)
    (hu : ∀ i < nocc + nvir, ∀ j < nocc + nvir, u.get [i, j] = if i = j then 1 else 0) (idx : List Nat)
    (hidx : InBox x.shape idx) : bruecknerElem n nocc u x idx = x.get idx := by
  have hlen : x.shape.length = n + n := by rw [hx]; simp
  have ho : ∀ k < n, x.shape.getD k 0 = nocc := by
    intro k hk
    rw [hx, List.getD_eq_getElem?_getD, List.getElem?_append_left (by simpa using hk)]
    simp [hk]
  have hv : ∀ k < n, x.shape.getD (n + k) 0 = nvir := by
    intro k hk
    rw [hx, List.getD_eq_getElem?_getD, List.getElem?_append_right (by simp)]
    simp [hk]
  have hib := (inBox_iff_getD.1 hidx)
  unfold bruecknerElem
  rw [List.sum_map_eq_nsmul_single idx]
  · have hc : ∀ (inst : BEq (List Nat)) [LawfulBEq (List Nat)], List.count idx (box x.shape) = 1 :=
      fun _ _ => List.count_eq_one_of_mem (nodup_box _) (mem_box.2 hidx)
    rw [hc, one_nsmul]
    have p1 : ((List.range n).map fun k => u.get [idx.getD k 0, idx.getD k 0]).prod = 1 := by
      apply List.prod_eq_one
      intro z hz
      obtain ⟨k, hk, rfl⟩ := List.mem_map.1 hz
      rw [List.mem_range] at hk
      have := hib.2 k (by omega)
      rw [ho k hk] at this
      rw [hu _ (by omega) _ (by omega), if_pos rfl]
    have p2 : ((List.range n).map fun k => u.get [nocc + idx.getD (n + k) 0, nocc + idx.getD (n + k) 0]).prod = 1 := by
      apply List.prod_eq_one
      intro z hz
      obtain ⟨k, hk, rfl⟩ := List.mem_map.1 hz
      rw [List.mem_range] at hk
      have := hib.2 (n + k) (by omega)
      rw [hv k hk] at this
      rw [hu _ (by omega) _ (by omega), if_pos rfl]
    rw [p1, p2, mul_one, mul_one]
  · intro j hj hjm
    have hjb := inBox_iff_getD.1 (mem_box.1 hjm)
    have : ∃ k < n + n, j.getD k 0 ≠ idx.getD k 0 := by
      by_contra hcon
      push Not at hcon
      apply hj
      apply List.ext_getElem
      · rw [hjb.1, hib.1]
      · intro k hk1 hk2
        have := hcon k (by omega)
        simpa [hk1, hk2] using this
    obtain ⟨k, hk, hne⟩ := this
    by_cases hkn : k < n
    · have : ((List.range n).map fun k => u.get [j.getD k 0, idx.getD k 0]).prod = 0 := by
        apply List.prod_eq_zero
        refine List.mem_map.2 ⟨k, List.mem_range.2 hkn, ?_⟩
        have h1 := hjb.2 k (by omega)
        have h2 := hib.2 k (by omega)
        rw [ho k hkn] at h1 h2
        rw [hu _ (by omega) _ (by omega), if_neg hne]
      rw [this, mul_zero, zero_mul]
    · obtain ⟨k, rfl⟩ := Nat.exists_eq_add_of_le (Nat.le_of_not_lt hkn)
      have : ((List.range n).map fun k => u.get [nocc + j.getD (n + k) 0, nocc + idx.getD (n + k) 0]).prod = 0 := by
        apply List.prod_eq_zero
        refine List.mem_map.2 ⟨k, List.mem_range.2 (by omega), ?_⟩
        have h1 := hjb.2 (n + k) (by omega)
        have h2 := hib.2 (n + k) (by omega)
        rw [hv k (by omega)] at h1 h2
        rw [hu _ (by omega) _ (by omega), if_neg (by omega)]
      rw [this, mul_zero]

/-- Restricted and general: rotating with the identity changes nothing. -/
theorem C45_identity [CommRing R] [DecidableEq R] (method : ContractMethod) (path : PathFn R) (hpath : GoodPath path)
    (a : Ansatz) (spin : SpinType) (fs : List Rank) (hr : HasRanks a spin .t fs [] [])
    (hnd : (fs.map fun r => r.1).Nodup) (space : Space) (nvir : Nat) (u : NDArray R)
    (hu : u.shape = [space.ncocc + nvir, space.ncocc + nvir])
    (hone : ∀ i < space.ncocc + nvir, ∀ j < space.ncocc + nvir, u.get [i, j] = if i = j then 1 else 0)
    (amps : Dict (List Char) (NDArray R))
    (hx : ∀ r ∈ fs, ∃ x, amps.get? r.1 = some x ∧ x.WF ∧
      x.shape = List.replicate r.2.2 space.ncocc ++ List.replicate r.2.2 nvir) :
    ∃ amps', transformAmplitudes method path a spin space u amps = .ok amps' ∧ amps'.keys = amps.keys ∧
      ∀ nm, amps'.get? nm = amps.get? nm := by
  obtain ⟨amps', e1, e2, e3, e4⟩ := C45_amplitudes method path hpath a spin fs hr hnd space nvir u hu amps
    (fun r hrf => by obtain ⟨x, h1, _, h2⟩ := hx r hrf; exact ⟨x, h1, h2⟩)
  refine ⟨amps', e1, e2, fun nm => ?_⟩
  by_cases h : ∃ r ∈ fs, r.1 = nm
  · obtain ⟨r, hrf, rfl⟩ := h
    obtain ⟨x, h1, h2, h3⟩ := hx r hrf
    obtain ⟨y, y1, y2, y3, y4⟩ := e3 r hrf x h1
    rw [y1, h1]
    congr 1
    refine NDArray.ext_get y3 h2 y2 fun idx hidx => ?_
    rw [y2] at hidx
    rw [y4 idx hidx, bruecknerElem_one r.2.2 space.ncocc nvir u x h3 hone idx hidx]
  · exact e4 nm fun r hrf e => h ⟨r, hrf, e⟩

/-- Ansätze with bosons are rejected. -/
theorem C45_bosons [CommRing R] [DecidableEq R] (method : ContractMethod) (path : PathFn R) (a : Ansatz)
    (spin : SpinType) (space : Space) (u : NDArray R) (amps : Dict (List Char) (NDArray R)) (fs bs : List Rank)
    (cs : List (List Char × List Char × Nat × Nat)) (hr : HasRanks a spin .t fs bs cs) (h : bs ≠ [] ∨ cs ≠ []) :
    ∀ amps', transformAmplitudes method path a spin space u amps ≠ .ok amps' := by
  have : noBosons a = .error .modelNotImplemented := by
    unfold noBosons
    rw [hr.b]
    simp only [bind, Except.bind]
    by_cases hb : bs = []
    · rw [if_neg (by simpa using hb), hr.c]
      simp only [pure, Except.pure]
      rw [if_pos (by simpa [hb] using h)]
      rfl
    · rw [if_pos hb]
      rfl
  intro amps' he
  unfold transformAmplitudes at he
  rw [this] at he
  simp only [bind, Except.bind] at he
  split at he
  · cases he
  · split at he <;> cases he

/-! ### Unrestricted -/

/-- The only spin block of an amplitude of rank `n` that is rotated. -/
def lastSpin (n : Nat) : List Char := if n = 1 then ['a', 'a'] else List.replicate (n + n) 'b'

theorem last_combination : ∀ n, 1 ≤ n → n ≤ 4 →
    ∃ l, generateSpinCombinations n false true = l ++ [lastSpin n] ∧ lastSpin n ∉ l := by
  have h : ∀ n ∈ [1, 2, 3, 4], generateSpinCombinations n false true
      = (generateSpinCombinations n false true).dropLast ++ [lastSpin n] ∧
        lastSpin n ∉ (generateSpinCombinations n false true).dropLast := by decide +kernel
  intro n h1 h4
  exact ⟨_, h n (by simp; omega)⟩

theorem lastLoop_ok (v : UVal R) (l : List (List Char)) (c : List Char) (b : List Char → NDArray R)
    (h : ∀ s ∈ l ++ [c], v.attr s = .ok (b s)) (st : Option (List Char × NDArray R)) :
    (l ++ [c]).foldlM (fun (_ : Option (List Char × NDArray R)) comb => do
      let x ← v.attr comb
      pure (some (comb, x))) st = .ok (some (c, b c)) := by
  induction l generalizing st with
  | nil => simp only [List.nil_append, List.foldlM_cons, h c (by simp), bind, Except.bind, pure, Except.pure,
      List.foldlM_nil]
  | cons s l ih =>
    simp only [List.cons_append, List.foldlM_cons, h s (by simp), bind, Except.bind, pure, Except.pure] at ih ⊢
    exact ih (fun s hs => h s (by simp at hs ⊢; tauto)) _

/-- An unrestricted amplitude: all spin blocks are present and have the shapes given by their spins. -/
def UBlocksOK (n : Nat) (no nv : Char → Nat) (d : Dict (List Char) (NDArray R)) : Prop :=
  ∀ s ∈ generateSpinCombinations n false true, ∃ x, d.get? s = some x ∧
    x.shape = (s.take n).map no ++ (s.drop n).map nv

/-- The spin of the rotated block. -/
def lastLetter (n : Nat) : Char := if n = 1 then 'a' else 'b'

theorem lastSpin_eq (n : Nat) : lastSpin n = List.replicate (n + n) (lastLetter n) := by
  unfold lastSpin lastLetter
  split
  · subst n; rfl
  · rfl

theorem uRotateRank_ok [CommRing R] [DecidableEq R] (method : ContractMethod) (path : PathFn R) (hpath : GoodPath path)
    (n : Nat) (h1 : 1 ≤ n) (h4 : n ≤ 4) (no nv : Char → Nat) (ua ub : NDArray R)
    (ha : ua.shape = [no 'a' + nv 'a', no 'a' + nv 'a']) (hb : ub.shape = [no 'b' + nv 'b', no 'b' + nv 'b'])
    (d : Dict (List Char) (NDArray R)) (hd : UBlocksOK n no nv d) :
    ∃ y, uRotateRank method path (spinItem2 (squareSlice ua 0 (no 'a')) (squareSlice ub 0 (no 'b')))
        (spinItem2 (squareSlice ua (no 'a') (ua.shape.headD 0)) (squareSlice ub (no 'b') (ub.shape.headD 0)))
        n (.spins d) = .ok (.spins (d.set (lastSpin n) y)) ∧
      ∀ x, d.get? (lastSpin n) = some x → y.shape = x.shape ∧ y.WF ∧ ∀ idx, InBox x.shape idx →
        y.get idx = bruecknerElem n (no (lastLetter n)) (if n = 1 then ua else ub) x idx := by
  obtain ⟨l, hl, _⟩ := last_combination n h1 h4
  have hattr : ∀ s ∈ generateSpinCombinations n false true, ∃ x, (UVal.spins d).attr s = .ok x ∧ d.get? s = some x ∧
      x.shape = (s.take n).map no ++ (s.drop n).map nv := by
    intro s hs
    obtain ⟨x, e1, e2⟩ := hd s hs
    exact ⟨x, by simp [UVal.attr, e1], e1, e2⟩
  have : Nonempty (NDArray R) := ⟨⟨[], []⟩⟩
  choose! b hb1 hb2 hb3 using hattr
  have hlm : lastSpin n ∈ generateSpinCombinations n false true := by rw [hl]; simp
  have hloop := lastLoop_ok (.spins d) l (lastSpin n) b (by rw [← hl]; exact hb1) none
  rw [← hl] at hloop
  have hshape : (b (lastSpin n)).shape
      = List.replicate n (no (lastLetter n)) ++ List.replicate n (nv (lastLetter n)) := by
    rw [hb3 _ hlm, lastSpin_eq]
    simp
  have hchar : ∀ i < n + n, (lastSpin n)[i]? = some (lastLetter n) := by
    intro i hi
    rw [lastSpin_eq]
    simp [hi]
  have hu : (if n = 1 then ua else ub).shape
      = [no (lastLetter n) + nv (lastLetter n), no (lastLetter n) + nv (lastLetter n)] := by
    unfold lastLetter
    split
    · exact ha
    · exact hb
  obtain ⟨y, y1, y2, y3, y4⟩ := rotate_one method path hpath n (no (lastLetter n)) (nv (lastLetter n)) h1 h4
    (if n = 1 then ua else ub) (b (lastSpin n)) hu hshape
    (fun i => spinItem2 (squareSlice ua 0 (no 'a')) (squareSlice ub 0 (no 'b')) (lastSpin n)[i]?)
    (fun i => spinItem2 (squareSlice ua (no 'a') (ua.shape.headD 0)) (squareSlice ub (no 'b') (ub.shape.headD 0))
      (lastSpin n)[i + n]?)
    (fun i hi => by
      rw [hchar i (by omega)]
      unfold lastLetter
      split <;> rfl)
    (fun i hi => by
      rw [hchar (i + n) (by omega)]
      unfold lastLetter
      split <;> rfl)
  refine ⟨y, ?_, ?_⟩
  · unfold uRotateRank
    simp only [bind, Except.bind, pure, Except.pure] at hloop y1 ⊢
    rw [hloop]
    simp only
    split at y1
    · cases y1
    · rename_i args hargs
      rw [y1]
      rfl
  · intro x hx
    rw [hb2 _ hlm] at hx
    cases hx
    exact ⟨y2, y3, y4⟩

/-- Unrestricted: of every amplitude exactly the block of the last spin combination is rotated, with the rotation of
its own spin: alpha-alpha for the singles, all-beta for the others.  What is missing for the full property is the
rotation of the other spin blocks; it does not happen (`C45_unrestricted_fails`). -/
theorem C45_unrestricted_partial [CommRing R] [DecidableEq R] (method : ContractMethod) (path : PathFn R)
    (hpath : GoodPath path) (a : Ansatz) (fs : List Rank) (hr : HasRanks a .U .t fs [] [])
    (hnd : (fs.map fun r => r.1).Nodup) (sa sb : Space) (nv : Char → Nat) (ua ub : NDArray R)
    (ha : ua.shape = [sa.ncocc + nv 'a', sa.ncocc + nv 'a']) (hb : ub.shape = [sb.ncocc + nv 'b', sb.ncocc + nv 'b'])
    (amps : Dict (List Char) (UVal R))
    (hx : ∀ r ∈ fs, ∃ d, amps.get? r.1 = some (.spins d) ∧
      UBlocksOK r.2.2 (fun c => if c = 'a' then sa.ncocc else sb.ncocc) nv d) :
    ∃ amps', uTransformAmplitudes method path a sa sb ua ub amps = .ok amps' ∧ amps'.keys = amps.keys ∧
      (∀ r ∈ fs, ∀ d, amps.get? r.1 = some (.spins d) → ∃ d', amps'.get? r.1 = some (.spins d') ∧
        (∀ s, s ≠ lastSpin r.2.2 → d'.get? s = d.get? s) ∧
        ∀ x, d.get? (lastSpin r.2.2) = some x → ∃ y, d'.get? (lastSpin r.2.2) = some y ∧ y.shape = x.shape ∧ y.WF ∧
          ∀ idx, InBox x.shape idx → y.get idx
            = if r.2.2 = 1 then bruecknerElem r.2.2 sa.ncocc ua x idx else bruecknerElem r.2.2 sb.ncocc ub x idx) ∧
      ∀ nm, (∀ r ∈ fs, r.1 ≠ nm) → amps'.get? nm = amps.get? nm := by
  have hone : ∀ r ∈ fs, ∀ d, amps.get? r.1 = some (.spins d) → _ := fun r hrf d hd =>
    uRotateRank_ok method path hpath r.2.2 (rank_bounds hr.f r hrf).1 (rank_bounds hr.f r hrf).2
      (fun c => if c = 'a' then sa.ncocc else sb.ncocc) nv ua ub (by simpa using ha) (by simpa using hb) d (by
        obtain ⟨d', h1, h2⟩ := hx r hrf
        rw [hd] at h1
        cases h1
        exact h2)
  obtain ⟨d', e1, e2, e3, e4⟩ := replaceLoop_ok (fun r v => uRotateRank method path
      (spinItem2 (squareSlice ua 0 sa.ncocc) (squareSlice ub 0 sb.ncocc))
      (spinItem2 (squareSlice ua sa.ncocc (ua.shape.headD 0)) (squareSlice ub sb.ncocc (ub.shape.headD 0)))
      r.2.2 v) fs hnd amps (by
    intro r hrf
    obtain ⟨d, h1, _⟩ := hx r hrf
    obtain ⟨y, h2, _⟩ := hone r hrf d h1
    exact ⟨_, _, h1, h2⟩)
  refine ⟨d', ?_, e2, ?_, e4⟩
  · unfold uTransformAmplitudes
    rw [hr.f, noBosons_ok hr]
    simp only [bind, Except.bind] at e1 ⊢
    rw [e1]
    rfl
  · intro r hrf d hd
    obtain ⟨v, hv1, hv2⟩ := e3 r hrf _ hd
    obtain ⟨y, y1, y2⟩ := hone r hrf d hd
    have hv : v = .spins (d.set (lastSpin r.2.2) y) := by
      have := hv1.symm.trans y1
      cases this
      rfl
    refine ⟨_, by rw [hv2, hv], fun s hs => ?_, fun x hx => ?_⟩
    · rw [Dict.get?_set, if_neg hs.symm]
    · obtain ⟨z1, z2, z3⟩ := y2 x hx
      refine ⟨y, by rw [Dict.get?_set, if_pos rfl], z1, z2, fun idx hidx => ?_⟩
      rw [z3 idx hidx]
      unfold lastLetter
      split <;> simp

/-! ### Orbital coefficients -/

theorem maskInds_at (mask : List Bool) (q : Nat) (hq : mask.getD q false = true) :
    (maskInds mask)[(mask.take q).count true]? = some q := by
  have hlt : q < mask.length := by
    by_contra h
    rw [List.getD_eq_getElem?_getD, List.getElem?_eq_none (by omega)] at hq
    cases hq
  have hsplit : List.range mask.length = List.range q ++ q :: (List.range (mask.length - q - 1)).map (fun i => q + 1 + i) := by
    conv_lhs => rw [show mask.length = q + 1 + (mask.length - q - 1) by omega, List.range_add, List.range_succ]
    simp
  have hcount : ∀ q ≤ mask.length, ((List.range q).filter fun i => mask.getD i false).length = (mask.take q).count true := by
    intro q hq
    induction q with
    | zero => rfl
    | succ q ih =>
      rw [List.range_succ, List.filter_append, List.length_append, ih (by omega), List.take_add_one,
        List.getElem?_eq_getElem (by omega)]
      simp only [List.filter_cons, List.filter_nil, List.count_append, List.getD_eq_getElem?_getD,
        List.getElem?_eq_getElem (show q < mask.length by omega), Option.getD_some, Option.toList_some]
      cases mask[q] <;> simp
  unfold maskInds
  rw [hsplit, List.filter_append, List.getElem?_append_right (by rw [hcount q (by omega)]), hcount q (by omega),
    Nat.sub_self, List.filter_cons_of_pos (by simpa using hq)]
  rfl

theorem mem_maskInds {mask : List Bool} {q : Nat} : q ∈ maskInds mask ↔ mask.getD q false = true := by
  unfold maskInds
  rw [List.mem_filter, List.mem_range]
  refine ⟨fun h => by simpa using h.2, fun h => ⟨?_, by simpa using h⟩⟩
  by_contra hn
  rw [List.getD_eq_getElem?_getD, List.getElem?_eq_none (by omega)] at h
  cases h

theorem maskInds_nodup (mask : List Bool) : (maskInds mask).Nodup := List.nodup_range.filter _

theorem maskInds_length (mask : List Bool) : (maskInds mask).length = mask.count true := by
  unfold maskInds
  induction mask using List.reverseRecOn with
  | nil => rfl
  | append_singleton l b ih =>
    rw [List.length_append, List.length_singleton, List.range_succ, List.filter_append, List.length_append,
      List.count_append]
    congr 1
    · rw [← ih]
      congr 1
      apply List.filter_congr
      intro i hi
      rw [List.mem_range] at hi
      rw [List.getD_eq_getElem?_getD, List.getElem?_append_left hi, List.getD_eq_getElem?_getD]
    · cases b <;> simp

/-- Writing back the correlated orbitals changes only the correlated columns; the correlated column `q` becomes column
`k` of the new coefficients, where `k` is the number of correlated columns before `q`. -/
theorem C45_columns [Zero R] (space : Space) (mo corr : NDArray R) (r c : Nat) (hmo : mo.shape = [r, c]) (hw : mo.WF)
    (hc : space.correlated.length = c) (hcorr : corr.shape = [r, space.ncorr]) (hcw : corr.WF) :
    ∃ out, moUpdateCorrelated space mo corr = .ok out ∧ out.shape = [r, c] ∧ out.WF ∧
      ∀ p < r, ∀ q < c, out.get [p, q] = if space.correlated.getD q false = true
        then corr.get [p, (space.correlated.take q).count true] else mo.get [p, q] := by
  have hall : ((maskInds space.correlated).all fun q => decide (q < c)) = true := by
    rw [List.all_eq_true]
    intro q hq
    have := mem_maskInds.1 hq
    have : q < space.correlated.length := by
      by_contra hn
      rw [List.getD_eq_getElem?_getD, List.getElem?_eq_none (by omega)] at this
      cases this
    simp; omega
  have hlenm : (maskInds space.correlated).length = space.ncorr := maskInds_length _
  generalize hm : maskInds space.correlated = m at hall hlenm
  let pos := (List.range r).flatMap fun p => m.map fun q => ravelIdx [r, c] [p, q]
  have hlen : corr.data.length = pos.length := by
    have := hcw
    unfold NDArray.WF at this
    rw [this, hcorr]
    simp [pos, prodN, hlenm, List.length_flatMap]
  have hmolen : mo.data.length = r * c := by
    have := hw
    unfold NDArray.WF at this
    rw [this, hmo]
    simp [prodN]
  have hlenset : ∀ (W : List (Nat × R)) (dat : List R), (applyWrites dat W).length = dat.length := by
    intro W
    induction W with
    | nil => intro dat; rfl
    | cons w W ih => intro dat; exact (ih _).trans (by simp)
  -- position k of the list of positions
  have hposk : ∀ p < r, ∀ k (q : Nat), m[k]? = some q → pos[p * space.ncorr + k]? = some (ravelIdx [r, c] [p, q]) := by
    intro p hp k q hk
    have hk2 : k < space.ncorr := by
      rw [← hlenm]
      by_contra h
      rw [List.getElem?_eq_none (by omega)] at hk
      cases hk
    have := getElem?_flatMap_const' (fun p => m.map fun q => ravelIdx [r, c] [p, q]) space.ncorr (List.range r)
      (fun a _ => by simp [hlenm]) p k hk2
    rw [this]
    simp [hp, hk]
  refine ⟨_, by unfold moUpdateCorrelated; rw [hmo, hm]; simp only; rw [if_pos hall], rfl, ?_, ?_⟩
  · unfold NDArray.WF
    simp only
    rw [putFlat_eq _ _ _ hlen, hlenset, hmolen]
    simp [prodN]
  · intro p hp q hq
    unfold NDArray.get
    simp only
    rw [putFlat_eq _ _ _ hlen, hmo]
    have hin : InBox [r, c] [p, q] := .cons hp (.cons hq .nil)
    have hmem : ∀ (z : Nat × R), z ∈ pos.zip corr.data → ∃ p' < r, ∃ k q', m[k]? = some q' ∧
        z = (ravelIdx [r, c] [p', q'], corr.data.getD (p' * space.ncorr + k) 0) := by
      intro z hz
      obtain ⟨i, hi⟩ := List.mem_iff_getElem?.1 hz
      rw [List.getElem?_zip_eq_some] at hi
      obtain ⟨h1, h2⟩ := hi
      have hi2 : i < pos.length := by
        by_contra h
        rw [List.getElem?_eq_none (by omega)] at h1
        cases h1
      have hlen2 : pos.length = r * space.ncorr := by simp [pos, hlenm, List.length_flatMap]
      have hn : 0 < space.ncorr := by
        rcases Nat.eq_zero_or_pos space.ncorr with h | h
        · rw [h] at hlen2; omega
        · exact h
      have hdm := Nat.div_add_mod' i space.ncorr
      have hk : i % space.ncorr < m.length := by rw [hlenm]; exact Nat.mod_lt _ hn
      have hp' : i / space.ncorr < r := by rw [Nat.div_lt_iff_lt_mul hn]; omega
      have h3 := hposk (i / space.ncorr) hp' (i % space.ncorr) m[i % space.ncorr] (List.getElem?_eq_getElem hk)
      rw [hdm, h1] at h3
      refine ⟨i / space.ncorr, hp', i % space.ncorr, m[i % space.ncorr], List.getElem?_eq_getElem hk, ?_⟩
      rw [hdm, List.getD_eq_getElem?_getD, h2]
      exact Prod.ext (Option.some.inj h3) rfl
    by_cases hqc : space.correlated.getD q false = true
    · rw [if_pos hqc]
      have hk := maskInds_at space.correlated q hqc
      rw [hm] at hk
      generalize (space.correlated.take q).count true = k at hk
      have hk2 : k < space.ncorr := by
        rw [← hlenm]
        by_contra h
        rw [List.getElem?_eq_none (by omega)] at hk
        cases hk
      have hnd : m.Nodup := hm ▸ maskInds_nodup space.correlated
      have hwr := applyWrites_written mo.data (pos.zip corr.data) (ravelIdx [r, c] [p, q])
        (corr.data.getD (p * space.ncorr + k) 0) (by
          have := ravelIdx_lt hin
          simp only [prodN] at this
          rw [hmolen]; simpa using this) (by
          refine List.mem_iff_getElem?.2 ⟨p * space.ncorr + k, ?_⟩
          rw [List.getElem?_zip_eq_some]
          have h1 := hposk p hp k q hk
          refine ⟨h1, ?_⟩
          have : p * space.ncorr + k < corr.data.length := by
            rw [hlen]
            by_contra h
            rw [List.getElem?_eq_none (by omega)] at h1
            cases h1
          simp [this]) (by
          intro v' hv'
          obtain ⟨p', hp', k', q', hk', he⟩ := hmem _ hv'
          obtain ⟨e1, e2⟩ := Prod.mk.inj he
          have hq' : q' < c := by
            have := List.all_eq_true.1 hall q' (List.mem_iff_getElem?.2 ⟨k', hk'⟩)
            simpa using this
          have := ravelIdx_inj hin (.cons hp' (.cons hq' .nil)) e1
          simp only [List.cons.injEq, and_true] at this
          obtain ⟨rfl, rfl⟩ := this
          have : k = k' := by
            obtain ⟨a1, a2⟩ := List.getElem?_eq_some_iff.1 hk
            obtain ⟨b1, b2⟩ := List.getElem?_eq_some_iff.1 hk'
            exact hnd.getElem_inj_iff.1 (a2.trans b2.symm)
          rw [e2, this])
      rw [List.getD_eq_getElem?_getD, hwr, Option.getD_some, hcorr]
      simp [ravelIdx, prodN]
    · rw [if_neg hqc]
      rw [List.getD_eq_getElem?_getD, applyWrites_not_written, ← List.getD_eq_getElem?_getD]
      intro v hv
      obtain ⟨p', hp', k', q', hk', he⟩ := hmem _ hv
      obtain ⟨e1, _⟩ := Prod.mk.inj he
      have hq' : q' < c := by
        have := List.all_eq_true.1 hall q' (List.mem_iff_getElem?.2 ⟨k', hk'⟩)
        simpa using this
      have := ravelIdx_inj hin (.cons hp' (.cons hq' .nil)) e1
      simp only [List.cons.injEq, and_true] at this
      obtain ⟨rfl, rfl⟩ := this
      exact hqc (mem_maskInds.1 (hm ▸ List.mem_iff_getElem?.2 ⟨k', hk'⟩))

/-- `update_coefficients`: the correlated columns become the product of the reference coefficients with the total
rotation. -/
theorem C45_coefficients [CommRing R] [DecidableEq R] (method : ContractMethod) (path : PathFn R) (space : Space)
    (u mo ref : NDArray R) (r c : Nat) (hmo : mo.shape = [r, c]) (hw : mo.WF) (hc : space.correlated.length = c)
    (href : ref.shape = [r, space.ncorr]) (hu : u.shape = [space.ncorr, space.ncorr]) :
    ∃ out, updateCoefficients method path space u mo ref = .ok out ∧ out.shape = [r, c] ∧ out.WF ∧
      ∀ p < r, ∀ q < c, out.get [p, q] = if space.correlated.getD q false = true
        then ((List.range space.ncorr).map fun i =>
          ref.get [p, i] * u.get [i, (space.correlated.take q).count true]).sum
        else mo.get [p, q] := by
  obtain ⟨new, n1, n2, n3, n4⟩ := C15_einsum_two method path
    (fun ch => if ch = 'p' then r else space.ncorr) ['p', 'i'] ['i', 'j'] ['p', 'j'] ref u 1 0 none
    (by decide) (by decide) (by simpa using href) (by simpa using hu) (by decide) (by decide) (by simp)
  obtain ⟨out, o1, o2, o3, o4⟩ := C45_columns space mo new r c hmo hw hc (by simpa using n2) n3
  refine ⟨out, ?_, o2, o3, fun p hp q hq => ?_⟩
  · unfold updateCoefficients
    have : "pi,ij->pj".toList = ['p', 'i'] ++ ",".toList ++ ['i', 'j'] ++ "->".toList ++ ['p', 'j'] := by decide
    rw [this, n1]
    exact o1
  · rw [o4 p hp q hq]
    split
    · rename_i hqc
      have hk : (space.correlated.take q).count true < space.ncorr := by
        have h1 := maskInds_at space.correlated q hqc
        have h2 : (maskInds space.correlated).length = space.ncorr := maskInds_length _
        rw [← h2]
        by_contra h
        rw [List.getElem?_eq_none (by omega)] at h1
        cases h1
      generalize (space.correlated.take q).count true = k at hk
      have := n4 (fun ch => if ch = 'p' then p else k) (by
        intro ch hch
        simp only [List.mem_cons, List.not_mem_nil, or_false] at hch
        rcases hch with rfl | rfl
        · simpa using hp
        · simpa using hk)
      have hd : einDummies [['p', 'i'], ['i', 'j']] ['p', 'j'] = ['i'] := by decide
      simp only [List.map_cons, List.map_nil, if_true, einValue, hd, einSum, einProd, outTerm] at this
      simpa using this
    · rfl

/-- The correlated columns of `out` are the product of the reference coefficients with the rotation; the others are those
of `mo`. -/
def RotatedColumns45 [CommRing R] (space : Space) (u mo ref out : NDArray R) (r c : Nat) : Prop :=
  out.shape = [r, c] ∧ out.WF ∧ ∀ p < r, ∀ q < c, out.get [p, q] = if space.correlated.getD q false = true
    then ((List.range space.ncorr).map fun i => ref.get [p, i] * u.get [i, (space.correlated.take q).count true]).sum
    else mo.get [p, q]

/-- `update_coefficients`, unrestricted: each spin has its own space, rotation and reference. -/
theorem C45_coefficients_unrestricted [CommRing R] [DecidableEq R] (method : ContractMethod) (path : PathFn R)
    (sa sb : Space) (ua ub : NDArray R) (mo ref : NDArray R × NDArray R) (r c : Nat)
    (hmo : mo.1.shape = [r, c] ∧ mo.2.shape = [r, c]) (hw : mo.1.WF ∧ mo.2.WF)
    (hc : sa.correlated.length = c ∧ sb.correlated.length = c)
    (href : ref.1.shape = [r, sa.ncorr] ∧ ref.2.shape = [r, sb.ncorr])
    (hu : ua.shape = [sa.ncorr, sa.ncorr] ∧ ub.shape = [sb.ncorr, sb.ncorr]) :
    ∃ oa ob, uUpdateCoefficients method path sa sb ua ub mo ref = .ok (oa, ob) ∧
      RotatedColumns45 sa ua mo.1 ref.1 oa r c ∧ RotatedColumns45 sb ub mo.2 ref.2 ob r c := by
  obtain ⟨oa, a1, a2⟩ := C45_coefficients method path sa ua mo.1 ref.1 r c hmo.1 hw.1 hc.1 href.1 hu.1
  obtain ⟨ob, b1, b2⟩ := C45_coefficients method path sb ub mo.2 ref.2 r c hmo.2 hw.2 hc.2 href.2 hu.2
  refine ⟨oa, ob, ?_, a2, b2⟩
  unfold updateCoefficients at a1 b1
  simp only [bind, Except.bind] at a1 b1
  unfold uUpdateCoefficients
  simp only [bind, Except.bind, pure, Except.pure]
  revert a1 b1
  cases einsum method path [.str "pi,ij->pj".toList, .arr ref.1, .arr ua] 1 0 none with
  | error e => intro h; cases h
  | ok na =>
    cases einsum method path [.str "pi,ij->pj".toList, .arr ref.2, .arr ub] 1 0 none with
    | error e => intro _ h; cases h
    | ok nb =>
      simp only
      intro a1 b1
      rw [a1, b1]

/-- Rotating the correlated columns of the coefficients themselves with the identity changes nothing. -/
theorem C45_coefficients_identity [CommRing R] [DecidableEq R] (method : ContractMethod) (path : PathFn R)
    (space : Space) (u mo : NDArray R) (r c : Nat) (hmo : mo.shape = [r, c]) (hw : mo.WF)
    (hc : space.correlated.length = c) (hu : u.shape = [space.ncorr, space.ncorr])
    (hone : ∀ i < space.ncorr, ∀ j < space.ncorr, u.get [i, j] = if i = j then 1 else 0) :
    (do
      let ref ← moToCorrelated space mo
      updateCoefficients method path space u mo ref) = .ok mo := by
  have hml : (maskInds space.correlated).length = space.ncorr := maskInds_length _
  have href : moToCorrelated space mo = .ok (ixGet mo [List.range r, maskInds space.correlated]) := by
    unfold moToCorrelated
    rw [hmo]
    simp only
    rw [if_pos hc.symm]
  rw [href]
  simp only [bind, Except.bind]
  obtain ⟨out, o1, o2, o3, o4⟩ := C45_coefficients method path space u mo
    (ixGet mo [List.range r, maskInds space.correlated]) r c hmo hw hc (by simp [ixGet, NDArray.ofFn, hml]) hu
  rw [o1]
  congr 1
  refine NDArray.ext_get o3 hw (o2.trans hmo.symm) fun idx hidx => ?_
  rw [o2] at hidx
  obtain ⟨p, q, rfl, hp, hq⟩ : ∃ p q, idx = [p, q] ∧ p < r ∧ q < c := by
    cases hidx with
    | cons h1 h2 =>
      cases h2 with
      | cons h2 h3 => cases h3; exact ⟨_, _, rfl, h1, h2⟩
  rw [o4 p hp q hq]
  split
  · rename_i hqc
    have h1 := maskInds_at space.correlated q hqc
    have hk : (space.correlated.take q).count true < space.ncorr := by
      rw [← hml]
      by_contra h
      rw [List.getElem?_eq_none (by omega)] at h1
      cases h1
    generalize (space.correlated.take q).count true = k at hk h1
    rw [List.sum_map_eq_nsmul_single k]
    · have hcnt : ∀ (inst : BEq Nat) [LawfulBEq Nat], List.count k (List.range space.ncorr) = 1 :=
        fun _ _ => List.count_eq_one_of_mem List.nodup_range (List.mem_range.2 hk)
      rw [hcnt, one_nsmul, hone k hk k hk, if_pos rfl, mul_one]
      unfold ixGet
      rw [NDArray.get_ofFn]
      · simp [hp, h1]
      · refine .cons (by simpa using hp) (.cons (by rw [hml]; exact hk) .nil)
    · intro i hi him
      rw [hone i (List.mem_range.1 him) k hk, if_neg hi, mul_zero]
  · rfl

end

/-! ### The unrestricted rotation does not rotate every block -/

/-- One occupied and one virtual orbital. -/
def space45 : Space := ⟨[true, false], [false, false], [false, false]⟩

def one45 (x : Int) : NDArray Int := ⟨[1, 1], [x]⟩
def ones45 (x : Int) : NDArray Int := ⟨[1, 1, 1, 1], [x]⟩

/-- CCSD amplitudes of `space45`. -/
def amps45 : Dict (List Char) (UVal Int) :=
  [(['t', '1'], .spins [(['a', 'a'], one45 1), (['b', 'b'], one45 1)]),
   (['t', '2'], .spins [("aaaa".toList, ones45 1), ("abab".toList, ones45 1), ("bbbb".toList, ones45 1)])]

def ansatz45 : Ansatz := ⟨"CCSD".toList, [], 0, 0, false, none⟩

/-- The rotation that doubles both orbitals. -/
def double45 : NDArray Int := ⟨[2, 2], [2, 0, 0, 2]⟩

/-- For CCSD only `t1.aa` and `t2.bbbb` are rotated: the other blocks keep their elements 1, although rotation would
give 4 and 16. -/
theorem C45_unrestricted_fails :
    uTransformAmplitudes .backend onePath ansatz45 space45 space45 double45 double45 amps45
      = .ok [(['t', '1'], .spins [(['a', 'a'], one45 4), (['b', 'b'], one45 1)]),
        (['t', '2'], .spins [("aaaa".toList, ones45 1), ("abab".toList, ones45 1), ("bbbb".toList, ones45 16)])] ∧
    bruecknerElem 1 1 double45 (one45 1) [0, 0] = 4 ∧ bruecknerElem 2 1 double45 (ones45 1) [0, 0, 0, 0] = 16 := by
  decide +kernel

/-! ### Examples -/

/-- The restricted transformation rotates both amplitudes. -/
example : transformAmplitudes .backend onePath ansatz45 .R space45 double45
    [(['t', '1'], one45 1), (['t', '2'], ones45 1)]
      = .ok [(['t', '1'], one45 4), (['t', '2'], ones45 16)] := by decide +kernel

/-- The middle one of three orbitals is frozen. -/
example : updateCoefficients .ttgt onePath ⟨[true, true, false], [false, true, false], [false, false, false]⟩
    (⟨[2, 2], [0, 1, 1, 0]⟩ : NDArray Int) ⟨[2, 3], [1, 2, 3, 4, 5, 6]⟩ ⟨[2, 2], [1, 3, 4, 6]⟩
      = .ok ⟨[2, 3], [3, 2, 1, 6, 5, 4]⟩ := by decide +kernel

end Ebcc
