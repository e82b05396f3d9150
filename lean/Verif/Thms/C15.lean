import Verif.Lemmas.Ttgt

/-!
C15: the transpose-transpose-GEMM-transpose contraction is `alpha` times the Einstein sum plus `beta`
times the output array, in the requested order of axes.
-/

namespace Ebcc

section
variable {R : Type}

theorem backend_ok [CommRing R] (sz : Char → Nat) (ia ib outs : List Char) (a b : NDArray R)
    (alpha beta : R) (out : Option (NDArray R)) (ha : a.shape = ia.map sz) (hb : b.shape = ib.map sz)
    (hsub : ∀ c ∈ outs, c ∈ ia ∨ c ∈ ib) (ho : ∀ o ∈ out, o.shape = outs.map sz ∧ o.WF) :
    ∃ r, contractBackend ia ib outs a b alpha beta out = .ok r ∧ r.shape = outs.map sz ∧ r.WF ∧
      ∀ e : Char → Nat, (∀ c ∈ outs, e c < sz c) → r.get (outs.map e)
        = alpha * einValue sz [(ia, a), (ib, b)] outs e + outTerm beta out (outs.map e) := by
  obtain ⟨x, x1, x2, x3, x4⟩ := numpyEinsum_ok sz [(ia, a), (ib, b)] outs
    (by simp [Sized, ha, hb]) (by simpa using hsub)
  obtain ⟨r, r1, r2, r3, r4⟩ := scaleAdd_ok x x3 alpha beta out (by rw [x2]; exact ho)
  refine ⟨r, by simp [contractBackend, x1, r1, bind, Except.bind], r2.trans x2, r3, fun e he => ?_⟩
  rw [r4 _ (by rw [x2]; exact inBox_map sz e outs he), x4 e he]

/-- For every subscript with a duplicate-free output drawn from the inputs, every consistent choice of
sizes and every `alpha`, `beta` and output array, `_contract_ttgt` returns the array with the axes of
the output subscript whose elements are `alpha` times the Einstein sum plus `beta` times the output
array.  The statement covers the transposed matrix product and the subscripts handed to the fallback. -/
theorem C15_contract_ttgt [CommRing R] (sz : Char → Nat) (ia ib outs : List Char) (a b : NDArray R)
    (alpha beta : R) (out : Option (NDArray R)) (ha : a.shape = ia.map sz) (hb : b.shape = ib.map sz)
    (hno : outs.Nodup) (hsub : ∀ c ∈ outs, c ∈ ia ∨ c ∈ ib)
    (ho : ∀ o ∈ out, o.shape = outs.map sz ∧ o.WF) :
    ∃ r, contractTtgt ia ib outs a b alpha beta out = .ok r ∧ r.shape = outs.map sz ∧ r.WF ∧
      ∀ e : Char → Nat, (∀ c ∈ outs, e c < sz c) → r.get (outs.map e)
        = alpha * einValue sz [(ia, a), (ib, b)] outs e + outTerm beta out (outs.map e) := by
  have hfb := backend_ok sz ia ib outs a b alpha beta out ha hb hsub ho
  unfold contractTtgt
  simp only
  split
  · exact hfb
  rename_i hsize
  split
  · exact hfb
  rename_i hcount
  rw [if_neg (by simp [ha, hb])]
  split
  · exact hfb
  rename_i huniq
  split
  · exact hfb
  rw [not_or] at huniq
  refine ttgt_fast sz ia ib outs a b alpha beta out ha hb (length_unique_eq_iff.1 (not_not.1 huniq.1))
    (length_unique_eq_iff.1 (not_not.1 huniq.2)) hno ?_ ?_ ho _ rfl
  · intro c hc
    by_contra hne
    exact hcount (List.any_eq_true.2 ⟨c, hc, by simpa using hne⟩)
  · intro c hc h0
    apply hsize
    have : prodN a.shape = 0 := by
      rw [ha, prodN_eq_prod, List.prod_eq_zero_iff]
      exact List.mem_map.2 ⟨c, hc, h0⟩
    rw [this]; simp [backendEinsumSize]

theorem symbolSizes_sound : ∀ (l : List (Char × Nat)) (d d' : Dict Char Nat),
    symbolSizes l d = .ok d' → (∀ c m, d.get? c = some m → d'.get? c = some m) ∧
      ∀ p ∈ l, d'.get? p.1 = some p.2
  | [], d, d', h => by cases h; simp
  | (c, n) :: l, d, d', h => by
    have key : symbolSizes l (d.set c n) = .ok d' ∧ (∀ m, d.get? c = some m → m = n) := by
      unfold symbolSizes at h
      split at h
      · split at h
        · rename_i m hm hmn
          exact ⟨h, fun m' hm' => by rw [hm] at hm'; cases hm'; exact hmn⟩
        · cases h
      · rename_i hm
        exact ⟨h, fun m' hm' => by rw [hm] at hm'; cases hm'⟩
    obtain ⟨h1, h2⟩ := symbolSizes_sound l _ d' key.1
    refine ⟨fun c' m hm => h1 c' m ?_, ?_⟩
    · rw [Dict.get?_set]
      split
      · rename_i hc
        subst hc
        rw [key.2 m hm]
      · exact hm
    · rintro p hp
      rcases List.mem_cons.1 hp with rfl | hp
      · exact h1 _ _ (by rw [Dict.get?_set]; simp)
      · exact h2 p hp

theorem eq_map_of_zip {f : Char → Nat} : ∀ {s : List Char} {sh : List Nat}, s.length = sh.length →
    (∀ p ∈ s.zip sh, f p.1 = p.2) → sh = s.map f
  | [], [], _, _ => rfl
  | c :: s, n :: sh, hl, h => by
    rw [List.map_cons, ← eq_map_of_zip (s := s) (sh := sh) (by simpa using hl)
      (fun p hp => h p (by simp [hp])), h (c, n) (by simp)]

theorem numpyEinsum_sound [CommRing R] {inputs : List (List Char × NDArray R)} {outs : List Char}
    {r : NDArray R} (h : numpyEinsum inputs outs = .ok r) :
    ∃ sz : Char → Nat, ∀ x ∈ inputs, x.2.shape = x.1.map sz := by
  unfold numpyEinsum at h
  split at h
  · rename_i hl
    cases hd : symbolSizes (inputs.flatMap fun x => x.1.zip x.2.shape) [] with
    | error x => simp [hd, bind, Except.bind] at h
    | ok d =>
      refine ⟨fun c => (d.get? c).getD 0, fun x hx => ?_⟩
      apply eq_map_of_zip
      · simpa using List.all_eq_true.1 hl x hx
      · intro p hp
        rw [(symbolSizes_sound _ _ _ hd).2 p (List.mem_flatMap.2 ⟨x, hx, hp⟩)]
        rfl
  · cases h

/-- `_contract_ttgt` never returns an array for operands whose number of axes or sizes disagree with
the subscript: whenever it returns, the sizes are a function of the symbols. -/
theorem C15_rejects_inconsistent_sizes [CommRing R] (ia ib outs : List Char) (a b : NDArray R)
    (alpha beta : R) (out : Option (NDArray R)) (r : NDArray R)
    (h : contractTtgt ia ib outs a b alpha beta out = .ok r) :
    ∃ sz : Char → Nat, a.shape = ia.map sz ∧ b.shape = ib.map sz := by
  have hfb : contractBackend ia ib outs a b alpha beta out = .ok r →
      ∃ sz : Char → Nat, a.shape = ia.map sz ∧ b.shape = ib.map sz := by
    intro h
    unfold contractBackend at h
    cases hn : numpyEinsum [(ia, a), (ib, b)] outs with
    | error x => simp [hn, bind, Except.bind] at h
    | ok x =>
      obtain ⟨sz, hs⟩ := numpyEinsum_sound hn
      exact ⟨sz, hs (ia, a) (by simp), hs (ib, b) (by simp)⟩
  unfold contractTtgt at h
  simp only at h
  split at h
  · exact hfb h
  split at h
  · exact hfb h
  split at h
  · cases h
  rename_i hlen
  split at h
  · exact hfb h
  split at h
  · exact hfb h
  rw [not_or, not_not, not_not] at hlen
  cases hd : symbolSizes (ia.zip a.shape ++ ib.zip b.shape) [] with
  | error x => simp [hd, bind, Except.bind] at h
  | ok d =>
    have := (symbolSizes_sound _ _ _ hd).2
    refine ⟨fun c => (d.get? c).getD 0, eq_map_of_zip hlen.1 fun p hp => ?_,
      eq_map_of_zip hlen.2 fun p hp => ?_⟩
    · simp [this p (by simp [hp])]
    · simp [this p (by simp [hp])]

/-- The backend contraction satisfies the same specification. -/
theorem C15_contract_backend [CommRing R] (sz : Char → Nat) (ia ib outs : List Char) (a b : NDArray R)
    (alpha beta : R) (out : Option (NDArray R)) (ha : a.shape = ia.map sz) (hb : b.shape = ib.map sz)
    (hsub : ∀ c ∈ outs, c ∈ ia ∨ c ∈ ib) (ho : ∀ o ∈ out, o.shape = outs.map sz ∧ o.WF) :
    ∃ r, contractBackend ia ib outs a b alpha beta out = .ok r ∧ r.shape = outs.map sz ∧ r.WF ∧
      ∀ e : Char → Nat, (∀ c ∈ outs, e c < sz c) → r.get (outs.map e)
        = alpha * einValue sz [(ia, a), (ib, b)] outs e + outTerm beta out (outs.map e) :=
  backend_ok sz ia ib outs a b alpha beta out ha hb hsub ho

end

/-- Sizes for the examples. -/
def exSize (c : Char) : Nat := if c = 'i' then 10 else if c = 'j' then 11 else if c = 'k' then 12 else 20

/-- A contraction that takes the matrix product path (both sizes above 1000, each symbol twice). -/
example (a b : NDArray Int) (ha : a.shape = [10, 11, 12]) (hb : b.shape = [12, 20, 11]) :
    ∃ r, contractTtgt ['i', 'j', 'k'] ['k', 'l', 'j'] ['l', 'i'] a b 3 0 none = .ok r ∧
      r.shape = [20, 10] := by
  obtain ⟨r, r1, r2, _⟩ := C15_contract_ttgt exSize ['i', 'j', 'k'] ['k', 'l', 'j'] ['l', 'i'] a b 3 0
    none (by rw [ha]; rfl) (by rw [hb]; rfl) (by decide) (by decide) (by simp)
  exact ⟨r, r1, r2⟩

/-- The Einstein sum over `j` and `k` in the example. -/
example (a b : NDArray Int) (e : Char → Nat) :
    einValue exSize [(['i', 'j', 'k'], a), (['k', 'l', 'j'], b)] ['l', 'i'] e
      = ((List.range 12).map fun k => ((List.range 11).map fun j =>
          a.get [e 'i', j, k] * b.get [k, e 'l', j]).sum).sum := by
  have : einDummies [['i', 'j', 'k'], ['k', 'l', 'j']] ['l', 'i'] = ['k', 'j'] := by decide
  simp [einValue, this, einSum, einProd, exSize]

/-- A small contraction evaluated. -/
example : contractTtgt ['i', 'j'] ['j', 'k'] ['k', 'i'] (⟨[2, 2], [1, 2, 3, 4]⟩ : NDArray Int)
    ⟨[2, 3], [1, 0, 2, 5, 1, 1]⟩ 1 0 none = .ok ⟨[3, 2], [11, 23, 2, 4, 4, 10]⟩ := by
  decide +kernel

/-- Inconsistent sizes raise `ValueError`. -/
example : contractTtgt ['i', 'j'] ['j', 'k'] ['k', 'i'] (⟨[2, 2], [1, 2, 3, 4]⟩ : NDArray Int)
    ⟨[3, 2], [1, 0, 2, 5, 1, 1]⟩ 1 0 none = .error .valueError := by
  decide +kernel

end Ebcc
