import Verif.Model.Fci
import Verif.Lemmas.TransposeInv
import Verif.Lemmas.PutIx
import Verif.Thms.C04
import Verif.Thms.C05
import Verif.Thms.C06
import Verif.Thms.C07
import Mathlib.Tactic.Ring
import Mathlib.Tactic.FieldSimp
import Mathlib.Tactic.IntervalCases
import Mathlib.Tactic.Choose
/-!
C59: packing coefficient amplitudes into a CI vector and extracting them are inverse operations.
-/

namespace Ebcc

section
variable {R : Type}

/-- The number of addresses of order `n` for `o` occupied and `v` virtual orbitals, and that they are distinct excited
strings: the properties of PySCF's `tn_addrs_signs` that are used. -/
structure CIAddresses.Valid (A : CIAddresses) (o v : Nat) : Prop where
  count : ∀ n, 1 ≤ n → (A.addrs n).length = o.choose n * v.choose n
  signCount : ∀ n, 1 ≤ n → (A.signs n).length = o.choose n * v.choose n
  sign : ∀ n, 1 ≤ n → ∀ s ∈ A.signs n, s = 1 ∨ s = -1
  distinct : ∀ n, 1 ≤ n → (A.addrs n).Nodup
  excited : ∀ n, 1 ≤ n → 0 ∉ A.addrs n
  disjoint : ∀ n m, 1 ≤ n → 1 ≤ m → n ≠ m → ∀ i ∈ A.addrs n, i ∉ A.addrs m

/-- A coefficient block for these spins: its shape, and it changes sign when two occupied (virtual) indices of the same
spin are exchanged. -/
structure IsCoefficient [Ring R] (size : Char → Char → Nat) (spins : List Char) (cn : NDArray R) : Prop where
  wf : cn.WF
  shape : cn.shape = spins.map (fun s => size s 'O') ++ spins.map (fun s => size s 'V')
  antisymmetric : GroupSymmetric (fciTarget spins) (fun _ => '-') cn

/-- The size of an axis labelled `i`, `a`, `j` or `b`. -/
def symSize (size : Char → Char → Nat) (c : Char) : Nat :=
  if c = 'i' then size 'a' 'O' else if c = 'a' then size 'a' 'V' else if c = 'j' then size 'b' 'O' else size 'b' 'V'

/-! ### Strings -/

theorem fci_counts {spins : List Char} (h : ∀ s ∈ spins, s = 'a' ∨ s = 'b') (c : Char) :
    (spins.map fun s => if s = 'a' then 'i' else 'j').count c
        = (if c = 'i' then spins.count 'a' else if c = 'j' then spins.count 'b' else 0)
      ∧ spins.count c = (if c = 'a' then spins.count 'a' else if c = 'b' then spins.count 'b' else 0) := by
  induction spins with
  | nil => simp
  | cons s l ih =>
    obtain ⟨h1, h2⟩ := ih (fun x hx => h x (by simp [hx]))
    rw [List.map_cons]
    simp only [List.count_cons, h1]
    rw [h2]
    rcases h s (by simp) with rfl | rfl
    · by_cases e1 : c = 'i'
      · subst e1; simp
      · by_cases e2 : c = 'j'
        · subst e2; simp
        · by_cases e3 : c = 'a'
          · subst e3; simp
          · simp [e1, e2, e3, Ne.symm e1, Ne.symm e3]
    · by_cases e1 : c = 'i'
      · subst e1; simp
      · by_cases e2 : c = 'j'
        · subst e2; simp
        · by_cases e3 : c = 'a'
          · subst e3; simp
          · by_cases e4 : c = 'b'
            · subst e4; simp
            · simp [e1, e2, e3, e4, Ne.symm e2, Ne.symm e4]

theorem fciSubscript_count (na nb : Nat) (c : Char) :
    (fciSubscript na nb).count c = if c = 'i' then na else if c = 'a' then na else if c = 'j' then nb
      else if c = 'b' then nb else 0 := by
  unfold fciSubscript
  simp only [List.count_append, List.count_replicate]
  by_cases e1 : c = 'i'
  · subst e1; simp
  · by_cases e2 : c = 'a'
    · subst e2; simp
    · by_cases e3 : c = 'j'
      · subst e3; simp
      · by_cases e4 : c = 'b'
        · subst e4; simp
        · simp [e1, e2, e3, e4, Ne.symm e1, Ne.symm e2, Ne.symm e3, Ne.symm e4]

theorem fciTarget_perm {spins : List Char} (h : ∀ s ∈ spins, s = 'a' ∨ s = 'b') :
    (fciTarget spins).Perm (fciSubscript (spins.count 'a') (spins.count 'b')) := by
  rw [List.perm_iff_count]
  intro c
  unfold fciTarget
  obtain ⟨h1, h2⟩ := fci_counts h c
  rw [List.count_append, h1, h2, fciSubscript_count]
  by_cases e1 : c = 'i'
  · subst e1; simp
  · by_cases e2 : c = 'a'
    · subst e2; simp
    · by_cases e3 : c = 'j'
      · subst e3; simp
      · by_cases e4 : c = 'b'
        · subst e4; simp
        · simp [e1, e2, e3, e4]

theorem fciTarget_shape {spins : List Char} (size : Char → Char → Nat) (h : ∀ s ∈ spins, s = 'a' ∨ s = 'b') :
    spins.map (fun s => size s 'O') ++ spins.map (fun s => size s 'V') = (fciTarget spins).map (symSize size) := by
  unfold fciTarget
  rw [List.map_append, List.map_map]
  congr 1
  · apply List.map_congr_left
    intro s hs
    rcases h s hs with rfl | rfl <;> simp [symSize]
  · apply List.map_congr_left
    intro s hs
    rcases h s hs with rfl | rfl <;> simp [symSize]

theorem firstOccurrences_replicate {κ : Type} [DecidableEq κ] (c : κ) (l : List κ) (hc : c ∉ l) (n : Nat) :
    firstOccurrences (List.replicate (n + 1) c ++ l) = c :: firstOccurrences l := by
  have hm : c ∉ firstOccurrences l := by
    rw [← unique_eq_firstOccurrences, mem_unique]; exact hc
  have hf : (firstOccurrences l).filter (fun x => decide (x ≠ c)) = firstOccurrences l := by
    rw [List.filter_eq_self]
    intro x hx
    simp only [ne_eq, decide_not, Bool.not_eq_true', decide_eq_false_iff_not]
    rintro rfl; exact hm hx
  induction n with
  | zero =>
    simp only [Nat.zero_add, List.replicate_one, List.singleton_append, firstOccurrences]
    rw [hf]
  | succ n ih =>
    rw [List.replicate_succ, List.cons_append, firstOccurrences, ih]
    simp only [List.filter_cons, ne_eq, not_true_eq_false, decide_false, Bool.false_eq_true, if_false]
    exact congrArg _ hf

/-- The product over the groups of a subscript. -/
theorem fci_prod (na nb : Nat) (g : Char → Nat → Nat) (hg : ∀ c, g c 0 = 1) :
    ((firstOccurrences (fciSubscript na nb)).map fun c => g c ((fciSubscript na nb).count c)).prod
      = g 'i' na * g 'a' na * (g 'j' nb * g 'b' nb) := by
  have key : firstOccurrences (fciSubscript na nb)
      = (if na = 0 then [] else ['i', 'a']) ++ (if nb = 0 then [] else ['j', 'b']) := by
    have hb : firstOccurrences (List.replicate nb 'j' ++ List.replicate nb 'b') = if nb = 0 then [] else ['j', 'b'] := by
      cases nb with
      | zero => rfl
      | succ n =>
        rw [firstOccurrences_replicate _ _ (by simp [List.mem_replicate])]
        have := firstOccurrences_replicate 'b' [] (by simp) n
        rw [List.append_nil] at this
        rw [this]; rfl
    cases na with
    | zero => simpa [fciSubscript] using hb
    | succ n =>
      unfold fciSubscript
      rw [List.append_assoc, firstOccurrences_replicate _ _ (by simp [List.mem_replicate]),
        firstOccurrences_replicate _ _ (by simp [List.mem_replicate]), hb]
      simp
  rw [key]
  simp only [fciSubscript_count]
  by_cases h1 : na = 0
  · subst h1
    by_cases h2 : nb = 0
    · subst h2; simp [hg]
    · simp [h2, hg]
  · by_cases h2 : nb = 0
    · subst h2; simp [h1, hg]
    · simp [h1, h2, Nat.mul_assoc]

theorem fciSubscript_filter (na nb : Nat) :
    ((fciSubscript na nb).filter fun s => decide (s ∈ ['i', 'a'])) = fciSubscript na 0
      ∧ ((fciSubscript na nb).filter fun s => decide (s ∈ ['j', 'b'])) = fciSubscript 0 nb := by
  unfold fciSubscript
  simp [List.filter_append]

/-- The number of elements of a compressed array. -/
theorem fci_size {S : Type} [Zero S] (size : Char → Char → Nat) (na nb : Nat) (sizes : Dict Char Nat)
    (hs : ∀ c ∈ fciSubscript na nb, sizes.get? c = some (symSize size c)) (t : NDArray S)
    (ht : t.shape = (fciSubscript na nb).map (symSize size)) :
    ∃ out, compressAxes (fciSubscript na nb) t false = .ok out ∧
      getCompressedSize (fciSubscript na nb) sizes = .ok out.data.length ∧
      out.data.length = (size 'a' 'O').choose na * (size 'a' 'V').choose na
        * ((size 'b' 'O').choose nb * (size 'b' 'V').choose nb) := by
  obtain ⟨out, h1, _, h3, h4⟩ := C04_size (fciSubscript na nb) (symSize size) sizes hs t ht
  refine ⟨out, h1, h3, ?_⟩
  rw [h4, fci_prod na nb (fun c n => (symSize size c).choose n) (fun c => by simp)]
  simp [symSize]

/-! ### Signs -/

theorem at_length {A : CIAddresses} {o v : Nat} (h : A.Valid o v) (n : Nat) :
    (A.at n).length = o.choose n * v.choose n ∧ (A.signAt n).length = o.choose n * v.choose n := by
  unfold CIAddresses.at CIAddresses.signAt
  by_cases e : n = 0
  · subst e; simp
  · rw [if_neg e, if_neg e]
    exact ⟨h.count n (by omega), h.signCount n (by omega)⟩

theorem signAt_unit {A : CIAddresses} {o v : Nat} (h : A.Valid o v) (n : Nat) : ∀ s ∈ A.signAt n, s = 1 ∨ s = -1 := by
  unfold CIAddresses.signAt
  by_cases e : n = 0
  · subst e; simp
  · rw [if_neg e]; exact h.sign n (by omega)

theorem at_nodup {A : CIAddresses} {o v : Nat} (h : A.Valid o v) (n : Nat) : (A.at n).Nodup := by
  unfold CIAddresses.at
  by_cases e : n = 0
  · subst e; simp
  · rw [if_neg e]; exact h.distinct n (by omega)

theorem at_disjoint {A : CIAddresses} {o v : Nat} (h : A.Valid o v) {n m i : Nat} (h1 : i ∈ A.at n) (h2 : i ∈ A.at m) :
    n = m := by
  unfold CIAddresses.at at h1 h2
  by_cases e1 : n = 0 <;> by_cases e2 : m = 0
  · omega
  · rw [if_pos e1] at h1
    rw [if_neg e2] at h2
    simp only [List.mem_singleton] at h1
    subst h1
    exact absurd h2 (h.excited m (by omega))
  · rw [if_neg e1] at h1
    rw [if_pos e2] at h2
    simp only [List.mem_singleton] at h2
    subst h2
    exact absurd h1 (h.excited n (by omega))
  · rw [if_neg e1] at h1
    rw [if_neg e2] at h2
    by_contra hne
    exact h.disjoint n m (by omega) (by omega) hne i h1 h2

theorem blockSigns_length (A B : CIAddresses) (na nb : Nat) :
    (blockSigns A B na nb).length = (A.signAt na).length * (B.signAt nb).length := by
  unfold blockSigns
  rw [List.length_map, length_prodL]
  simp [prodN]

theorem blockSigns_unit {A B : CIAddresses} {o v o' v' : Nat} (hA : A.Valid o v) (hB : B.Valid o' v') (na nb : Nat) :
    ∀ s ∈ blockSigns A B na nb, s * s = 1 := by
  intro s hs
  unfold blockSigns at hs
  obtain ⟨t, ht, rfl⟩ := List.mem_map.1 hs
  rw [mem_prodL] at ht
  cases ht with
  | cons h1 h2 =>
    cases h2 with
    | cons h3 h4 =>
      cases h4
      rcases signAt_unit hA na _ h1 with rfl | rfl <;> rcases signAt_unit hB nb _ h3 with rfl | rfl <;> simp [prodZ]

theorem scaleSigns_length [Ring R] (v : List R) (s : List Int) (h : v.length = s.length) :
    (scaleSigns v s).length = v.length := by
  simp [scaleSigns, h]

/-- The signs are their own inverses, also with a common factor. -/
theorem scaleSigns_twice [Field R] (v : List R) (s : List Int) (h : v.length = s.length) (hs : ∀ k ∈ s, k * k = 1)
    (f : R → R) (hf : ∀ x (k : Int), k * k = 1 → f (x * (k : R)) * (k : R) = f x) :
    scaleSigns ((scaleSigns v s).map f) s = v.map f := by
  unfold scaleSigns
  induction v generalizing s with
  | nil => simp
  | cons x v ih =>
    cases s with
    | nil => simp at h
    | cons k s =>
      simp only [List.zipWith_cons_cons, List.map_cons]
      rw [ih s (by simpa using h) (fun k hk => hs k (by simp [hk])), hf x k (hs k (by simp))]

theorem sq_cast [Field R] (k : Int) (h : k * k = 1) : (k : R) * (k : R) = 1 := by
  rw [← Int.cast_mul, h, Int.cast_one]

/-! ### One block -/

/-- Packing, given the transposed array and its compression. -/
theorem fciPack_of [Ring R] {A B : CIAddresses} {size : Char → Char → Nat} (hA : A.Valid (size 'a' 'O') (size 'a' 'V'))
    (hB : B.Valid (size 'b' 'O') (size 'b' 'V')) {spins : List Char} {cn t c : NDArray R} {perm : List Nat}
    (hp : getStringPermutation (fciSubscript (spins.count 'a') (spins.count 'b')) (fciTarget spins) = .ok perm)
    (ht : cn.transpose (argsort perm) = .ok t)
    (hts : t.shape = (fciSubscript (spins.count 'a') (spins.count 'b')).map (symSize size))
    (hc : compressAxes (fciSubscript (spins.count 'a') (spins.count 'b')) t false = .ok c) :
    fciPack A B size spins cn = .ok ⟨A.at (spins.count 'a'), B.at (spins.count 'b'),
        scaleSigns c.data (blockSigns A B (spins.count 'a') (spins.count 'b'))⟩ ∧
      c.data.length = (blockSigns A B (spins.count 'a') (spins.count 'b')).length := by
  obtain ⟨na, hna⟩ : ∃ na, spins.count 'a' = na := ⟨_, rfl⟩
  obtain ⟨nb, hnb⟩ : ∃ nb, spins.count 'b' = nb := ⟨_, rfl⟩
  rw [hna, hnb] at hp hts hc ⊢
  obtain ⟨out, h1, _, h3⟩ := fci_size size na nb
    [('i', symSize size 'i'), ('a', symSize size 'a'), ('j', symSize size 'j'), ('b', symSize size 'b')] (by
      intro c hcm
      have h0 : 0 < (fciSubscript na nb).count c := List.count_pos_iff.2 hcm
      rw [fciSubscript_count] at h0
      by_cases e1 : c = 'i'
      · subst e1; rfl
      · by_cases e2 : c = 'a'
        · subst e2; rfl
        · by_cases e3 : c = 'j'
          · subst e3; rfl
          · by_cases e4 : c = 'b'
            · subst e4; rfl
            · simp [e1, e2, e3, e4] at h0) t hts
  rw [hc] at h1
  injection h1 with h1
  subst h1
  obtain ⟨o1, _, h5, h6⟩ := fci_size size na 0 [('i', size 'a' 'O'), ('a', size 'a' 'V')] (by
      intro c hcm
      have h0 : 0 < (fciSubscript na 0).count c := List.count_pos_iff.2 hcm
      rw [fciSubscript_count] at h0
      by_cases e1 : c = 'i'
      · subst e1; rfl
      · by_cases e2 : c = 'a'
        · subst e2; rfl
        · simp [e1, e2] at h0) (NDArray.zeros (R := Int) ((fciSubscript na 0).map (symSize size))) rfl
  obtain ⟨o2, _, h8, h9⟩ := fci_size size 0 nb [('j', size 'b' 'O'), ('b', size 'b' 'V')] (by
      intro c hcm
      have h0 : 0 < (fciSubscript 0 nb).count c := List.count_pos_iff.2 hcm
      rw [fciSubscript_count] at h0
      by_cases e1 : c = 'j'
      · subst e1; rfl
      · by_cases e2 : c = 'b'
        · subst e2; rfl
        · by_cases e3 : c = 'i'
          · subst e3; simp at h0
          · by_cases e4 : c = 'a'
            · subst e4; simp at h0
            · simp [e1, e2, e3, e4] at h0) (NDArray.zeros (R := Int) ((fciSubscript 0 nb).map (symSize size))) rfl
  have hlen : c.data.length = (blockSigns A B na nb).length := by
    rw [blockSigns_length, (at_length hA na).2, (at_length hB nb).2, h3]
  refine ⟨?_, hlen⟩
  obtain ⟨f1, f2⟩ := fciSubscript_filter na nb
  have hmem : ∀ x : Char, x ∈ fciSubscript na nb ↔ 0 < (fciSubscript na nb).count x := fun x => List.count_pos_iff.symm
  have hab : ('i' ∉ fciSubscript na nb ∧ 'a' ∉ fciSubscript na nb) ↔ na = 0 := by
    rw [hmem, hmem, fciSubscript_count, fciSubscript_count]; simp
  have hjb : ('j' ∉ fciSubscript na nb ∧ 'b' ∉ fciSubscript na nb) ↔ nb = 0 := by
    rw [hmem, hmem, fciSubscript_count, fciSubscript_count]; simp
  unfold fciPack
  simp only [hna, hnb, hp, ht, hc, f1, f2, h5, h8, bind, Except.bind, pure, Except.pure, hab, hjb]
  rw [show NDArray.reshape c.data _ = .ok ⟨_, c.data⟩ from if_pos (by
    rw [h3]
    by_cases e1 : na = 0
    · by_cases e2 : nb = 0
      · subst e1 e2; simp [prodN]
      · subst e1; simp [e2, prodN, h9]
    · by_cases e2 : nb = 0
      · subst e2; simp [e1, prodN, h6]
      · simp [e1, e2, prodN, h6, h9])]
  simp only
  rw [if_pos ⟨hlen, by rw [(at_length hA na).1, (at_length hB nb).1, h3]⟩]

/-- The permutation between the grouped and the requested order of the axes. -/
theorem fci_perm {spins : List Char} (h : ∀ s ∈ spins, s = 'a' ∨ s = 'b') :
    ∃ perm, getStringPermutation (fciSubscript (spins.count 'a') (spins.count 'b')) (fciTarget spins) = .ok perm ∧
      perm.Perm (List.range (fciSubscript (spins.count 'a') (spins.count 'b')).length) ∧
      fciTarget spins = perm.map fun k => (fciSubscript (spins.count 'a') (spins.count 'b')).getD k default := by
  obtain ⟨perm, h1, h2, h3⟩ := C02_rearrangement _ _ (fciTarget_perm h)
  exact ⟨perm, h1, h3, permuteString_map h2⟩

theorem map_getD_map {α β : Type} (l : List α) (f : α → β) (p : List Nat) (hp : ∀ k ∈ p, k < l.length) (d : β) (d' : α) :
    (p.map fun k => (l.map f).getD k d) = (p.map fun k => l.getD k d').map f := by
  rw [List.map_map]
  apply List.map_congr_left
  intro k hk
  have := hp k hk
  simp [this]

theorem fci_symm_map {κ : Type} [DecidableEq κ] [Field R] (sub : List κ) (t : NDArray R) (c : R)
    (h : GroupSymmetric sub (fun _ => '-') t) : GroupSymmetric sub (fun _ => '-') (t.map fun x => x * c) := by
  intro i j x hij hi hj idx hidx
  rw [map_get _ _ (by simp), map_get _ _ (by simp), h i j x hij hi hj idx hidx]
  ring

/-- The grouped form of a coefficient block, its compression and its packing. -/
theorem fci_block [Field R] (h2 : ∀ x : R, x + x = 0 → x = 0) {A B : CIAddresses} {size : Char → Char → Nat}
    (hA : A.Valid (size 'a' 'O') (size 'a' 'V')) (hB : B.Valid (size 'b' 'O') (size 'b' 'V')) {spins : List Char}
    (hne : spins ≠ []) (h : ∀ s ∈ spins, s = 'a' ∨ s = 'b') {cn : NDArray R} (hcn : IsCoefficient size spins cn) :
    ∃ perm t c, getStringPermutation (fciSubscript (spins.count 'a') (spins.count 'b')) (fciTarget spins) = .ok perm ∧
      cn.transpose (argsort perm) = .ok t ∧ t.WF ∧ t.transpose perm = .ok cn ∧
      t.shape = (fciSubscript (spins.count 'a') (spins.count 'b')).map (symSize size) ∧
      GroupSymmetric (fciSubscript (spins.count 'a') (spins.count 'b')) (fun _ => '-') t ∧
      compressAxes (fciSubscript (spins.count 'a') (spins.count 'b')) t false = .ok c := by
  obtain ⟨perm, h1, h3, h4⟩ := fci_perm h
  obtain ⟨sub, hsub⟩ : ∃ sub, fciSubscript (spins.count 'a') (spins.count 'b') = sub := ⟨_, rfl⟩
  rw [hsub] at h1 h3 h4 ⊢
  have hpl : perm.length = sub.length := by simpa using h3.length_eq
  have hsl : cn.shape.length = sub.length := by
    rw [hcn.shape, fciTarget_shape size h, List.length_map, h4, List.length_map, hpl]
  have hperm : perm.Perm (List.range perm.length) := by rw [hpl]; exact h3
  obtain ⟨i1, i2⟩ := argsort_inv hperm
  have hq : (argsort perm).Perm (List.range cn.shape.length) := by
    rw [hsl, ← hpl]; exact argsort_perm perm
  obtain ⟨t, t1, t2, t3, t4, t5, t6⟩ := transpose_inv cn hcn.wf perm (argsort perm) (by rw [hsl]; exact h3) hq
    (fun k hk => i1 k (by omega))
  have hts : t.shape = sub.map (symSize size) := by
    rw [t3, hcn.shape, fciTarget_shape size h, map_getD_map _ _ _ (by
      intro k hk
      have := hq.mem_iff.1 hk
      rw [hsl] at this
      rw [h4, List.length_map, hpl]; simpa using this) 0 default]
    congr 1
    rw [h4]
    exact map_inv default (by rw [length_argsort, hpl]) hpl (fun k hk => by
      have := perm_range_getD_lt hq (k := k) (by rw [hsl]; exact hk)
      rw [hsl] at this; exact this) (fun k hk => i2 k (by omega))
  have hsym : GroupSymmetric sub (fun _ => '-') t := by
    apply groupSymmetric_transpose _ sub (symSize size) t cn perm h3 hts t6
    · rw [hts, hcn.shape, fciTarget_shape size h, h4, map_getD_map _ _ _ (by
        intro k hk
        have := h3.mem_iff.1 hk
        simpa using this) 0 default]
    · rw [← h4]; exact hcn.antisymmetric
  have hsne : sub ≠ [] := by
    intro e
    rw [e] at hpl
    have : (fciTarget spins).length = 0 := by rw [h4, List.length_map, hpl]; rfl
    unfold fciTarget at this
    simp at this
    exact hne this
  obtain ⟨c, c1, _⟩ := C06_antisymmetric h2 sub hsne (symSize size) t t2 hts hsym
  exact ⟨perm, t, c, h1, t1, t2, t4, hts, hsym, c1⟩

theorem fciSubscript_ne {spins : List Char} (hne : spins ≠ []) (h : ∀ s ∈ spins, s = 'a' ∨ s = 'b') :
    fciSubscript (spins.count 'a') (spins.count 'b') ≠ [] := by
  intro e
  have h1 := (fciTarget_perm h).length_eq
  rw [e] at h1
  unfold fciTarget at h1
  simp at h1
  exact hne h1

/-- The addresses of a block lie inside the array. -/
def BlockInside (A B : CIAddresses) (na nb : Nat) (ci : NDArray R) : Prop :=
  (∀ i ∈ A.at na, i < ci.shape.getD 0 0) ∧ (∀ j ∈ B.at nb, j < ci.shape.getD 1 0)

/-- C59, one block: a coefficient block that has been packed, possibly scaled by a common factor, is extracted unchanged
if the right shape is used. -/
theorem C59_block [Field R] (h2 : ∀ x : R, x + x = 0 → x = 0) {A B : CIAddresses} {size : Char → Char → Nat}
    (hA : A.Valid (size 'a' 'O') (size 'a' 'V')) (hB : B.Valid (size 'b' 'O') (size 'b' 'V')) {spins : List Char}
    (hne : spins ≠ []) (h : ∀ s ∈ spins, s = 'a' ∨ s = 'b') {cn : NDArray R} (hcn : IsCoefficient size spins cn) :
    ∃ b, fciPack A B size spins cn = .ok b ∧ b.rows = A.at (spins.count 'a') ∧ b.cols = B.at (spins.count 'b') ∧
      b.vals.length = b.rows.length * b.cols.length ∧
      ∀ (ci : NDArray R) (c0 : R), c0 ≠ 0 → ci.get [0, 0] = c0 → BlockInside A B (spins.count 'a') (spins.count 'b') ci →
        (prodL [b.rows, b.cols]).map ci.get = b.vals.map (fun x => x * c0) →
        fciGetC ci A B ((fciSubscript (spins.count 'a') (spins.count 'b')).map (symSize size)) spins = .ok cn := by
  obtain ⟨perm, t, c, p1, p2, p3, p4, p5, p6, p7⟩ := fci_block h2 hA hB hne h hcn
  obtain ⟨q1, q2⟩ := fciPack_of hA hB p1 p2 p5 p7
  have hsl : ((A.signAt (spins.count 'a')).length = (A.at (spins.count 'a')).length)
      ∧ ((B.signAt (spins.count 'b')).length = (B.at (spins.count 'b')).length) := by
    rw [(at_length hA _).1, (at_length hA _).2, (at_length hB _).1, (at_length hB _).2]; exact ⟨rfl, rfl⟩
  refine ⟨_, q1, rfl, rfl, ?_, ?_⟩
  · simp only
    rw [scaleSigns_length _ _ q2, q2, blockSigns_length, hsl.1, hsl.2]
  · intro ci c0 hc0 h00 hin hval
    simp only at hval
    obtain ⟨c', d1, d2⟩ := C06_antisymmetric h2 _ (fciSubscript_ne hne h) (symSize size) (t.map fun x => x * c0)
      (map_wf _ _ p3) p5 (fci_symm_map _ t c0 p6)
    rw [compress_map _ t false (fun x => x * c0) (by simp) ⟨_, p5⟩ p7] at d1
    injection d1 with d1
    subst d1
    unfold fciGetC
    simp only
    rw [if_pos (by
      rw [Bool.and_eq_true, List.all_eq_true, List.all_eq_true]
      exact ⟨fun i hi => by simpa using hin.1 i hi, fun i hi => by simpa using hin.2 i hi⟩), if_pos ⟨hsl.1.symm, hsl.2.symm⟩,
      hval, scaleSigns_twice c.data _ q2 (blockSigns_unit hA hB _ _) (fun x => x * c0) (by
        intro x k hk
        have := sq_cast (R := R) k hk
        calc x * (k : R) * c0 * (k : R) = x * c0 * ((k : R) * (k : R)) := by ring
          _ = x * c0 := by rw [this, mul_one])]
    have d2' : decompressAxes (fciSubscript (spins.count 'a') (spins.count 'b')) (c.data.map fun x => x * c0)
      ((fciSubscript (spins.count 'a') (spins.count 'b')).map (symSize size)) false none = .ok (t.map fun x => x * c0) := by
      rw [← p5]; exact d2
    simp only [d2', p1, bind, Except.bind, pure, Except.pure]
    rw [transpose_map t perm (fun x => x * c0) (by simp), p4]
    simp only [Except.map, Except.ok.injEq, h00]
    unfold NDArray.map
    rw [List.map_map]
    have : ((fun x => x / c0) ∘ fun x => x * c0) = (id : R → R) := by
      funext x
      simp only [Function.comp, id]
      field_simp
    rw [this, List.map_id]

/-- C59, one block, the other direction: what is extracted is a coefficient block, and packing it gives back the elements of
the CI vector, in intermediate normalisation. -/
theorem C59_block_inverse [Field R] {A B : CIAddresses} {size : Char → Char → Nat}
    (hA : A.Valid (size 'a' 'O') (size 'a' 'V')) (hB : B.Valid (size 'b' 'O') (size 'b' 'V')) {spins : List Char}
    (hne : spins ≠ []) (h : ∀ s ∈ spins, s = 'a' ∨ s = 'b') (ci : NDArray R)
    (hin : BlockInside A B (spins.count 'a') (spins.count 'b') ci) :
    ∃ cn, fciGetC ci A B ((fciSubscript (spins.count 'a') (spins.count 'b')).map (symSize size)) spins = .ok cn ∧
      IsCoefficient size spins cn ∧
      fciPack A B size spins cn = .ok ⟨A.at (spins.count 'a'), B.at (spins.count 'b'),
        (prodL [A.at (spins.count 'a'), B.at (spins.count 'b')]).map fun t => ci.get t / ci.get [0, 0]⟩ := by
  obtain ⟨perm, h1, h3, h4⟩ := fci_perm h
  have hsl : ((A.signAt (spins.count 'a')).length = (A.at (spins.count 'a')).length)
      ∧ ((B.signAt (spins.count 'b')).length = (B.at (spins.count 'b')).length) := by
    rw [(at_length hA _).1, (at_length hA _).2, (at_length hB _).1, (at_length hB _).2]; exact ⟨rfl, rfl⟩
  have hvl : ((prodL [A.at (spins.count 'a'), B.at (spins.count 'b')]).map ci.get).length
      = (blockSigns A B (spins.count 'a') (spins.count 'b')).length := by
    rw [blockSigns_length, hsl.1, hsl.2, List.length_map, length_prodL]; simp [prodN]
  have hfl : (scaleSigns ((prodL [A.at (spins.count 'a'), B.at (spins.count 'b')]).map ci.get)
      (blockSigns A B (spins.count 'a') (spins.count 'b'))).length
      = ((firstOccurrences (fciSubscript (spins.count 'a') (spins.count 'b'))).map
        fun c => ntrilNdim (symSize size c) ((fciSubscript (spins.count 'a') (spins.count 'b')).count c) false).prod := by
    rw [scaleSigns_length _ _ hvl, hvl, blockSigns_length, (at_length hA _).2, (at_length hB _).2,
      fci_prod _ _ (fun c n => ntrilNdim (symSize size c) n false) (fun c => by simp [(C03_binomial _ _).1])]
    simp [(C03_binomial _ _).1, symSize]
  obtain ⟨out, c, o1, o2, o3⟩ := C05_roundtrip _ (fciSubscript_ne hne h) (symSize size) false none (fun _ => '-')
    (blockString_const _ '-').symm (Or.inl rfl) _ hfl
  obtain ⟨out', w1, w2, w3, w4, _⟩ := decompress_main (fciSubscript (spins.count 'a') (spins.count 'b'))
    (fciSubscript_ne hne h) (symSize size) false none (fun _ => '-')
    (blockString_const _ '-').symm (Or.inl rfl) _ (by rw [hfl, packedLength, prodN_eq_prod])
  rw [o1] at w1
  injection w1 with w1
  subst w1
  have hpl : perm.length = (fciSubscript (spins.count 'a') (spins.count 'b')).length := by simpa using h3.length_eq
  have hol : out.shape.length = (fciSubscript (spins.count 'a') (spins.count 'b')).length := by rw [w2, List.length_map]
  have hperm : perm.Perm (List.range perm.length) := by rw [hpl]; exact h3
  obtain ⟨i1, i2⟩ := argsort_inv hperm
  obtain ⟨b, b1, b2, b3, b4, b5, b6⟩ := transpose_inv out w3 (argsort perm) perm
    (by rw [hol, ← hpl]; exact argsort_perm perm) (by rw [hol]; exact h3) (fun k hk => i2 k (by omega))
  have hdiv : (fun x : R => x / ci.get [0, 0]) = fun x => x * (ci.get [0, 0])⁻¹ := by
    funext x; exact div_eq_mul_inv _ _
  have hbs : b.shape = (fciTarget spins).map (symSize size) := by
    rw [b3, w2, h4, map_getD_map _ _ _ (by
      intro k hk
      simpa using h3.mem_iff.1 hk) 0 default]
  have hbsym : GroupSymmetric (fciTarget spins) (fun _ => '-') b := by
    have hsub : (fciSubscript (spins.count 'a') (spins.count 'b'))
        = (argsort perm).map fun k => (fciTarget spins).getD k default := by
      rw [h4]
      exact (map_inv default (by rw [length_argsort, hpl]) hpl (fun k hk => by
        have := perm_range_getD_lt (argsort_perm perm) (k := k) (by omega)
        omega) (fun k hk => i2 k (by omega))).symm
    have htl : (fciTarget spins).length = perm.length := by rw [h4, List.length_map]
    apply groupSymmetric_transpose _ (fciTarget spins) (symSize size) b out (argsort perm)
      (by rw [htl]; exact argsort_perm perm) hbs b6
    · rw [w2, hsub, hbs, map_getD_map _ _ _ (by
        intro k hk
        rw [htl]
        simpa using (argsort_perm perm).mem_iff.1 hk) 0 default]
    · rw [← hsub]; exact w4
  refine ⟨b.map fun x => x / ci.get [0, 0], ?_, ⟨?_, ?_, ?_⟩, ?_⟩
  · unfold fciGetC
    simp only
    rw [if_pos (by
      rw [Bool.and_eq_true, List.all_eq_true, List.all_eq_true]
      exact ⟨fun i hi => by simpa using hin.1 i hi, fun i hi => by simpa using hin.2 i hi⟩), if_pos ⟨hsl.1.symm, hsl.2.symm⟩]
    simp only [o1, h1, b1, bind, Except.bind, pure, Except.pure]
  · exact map_wf _ _ b2
  · rw [fciTarget_shape size h]; exact hbs
  · rw [hdiv]; exact fci_symm_map _ _ _ hbsym
  · have e1 : (b.map fun x => x / ci.get [0, 0]).transpose (argsort perm) = .ok (out.map fun x => x / ci.get [0, 0]) := by
      rw [transpose_map _ _ _ (by simp), b4]; rfl
    have e2 := compress_map _ out false (fun x => x / ci.get [0, 0]) (by simp) ⟨_, w2⟩ o2
    obtain ⟨q1, _⟩ := fciPack_of hA hB h1 e1 w2 e2
    rw [q1]
    congr 2
    change scaleSigns (c.data.map fun x => x / ci.get [0, 0]) _ = _
    rw [o3, scaleSigns_twice _ _ hvl (blockSigns_unit hA hB _ _) (fun x => x / ci.get [0, 0]) (by
        intro x k hk
        have := sq_cast (R := R) k hk
        simp only [div_eq_mul_inv]
        calc x * (k : R) * (ci.get [0, 0])⁻¹ * (k : R) = x * (ci.get [0, 0])⁻¹ * ((k : R) * (k : R)) := by ring
          _ = x * (ci.get [0, 0])⁻¹ := by rw [this, mul_one]), List.map_map]
    rfl

/-! ### The CI vector -/

theorem mem_prodL2 {rows cols idx : List Nat} : idx ∈ prodL [rows, cols] ↔ ∃ p q, idx = [p, q] ∧ p ∈ rows ∧ q ∈ cols := by
  rw [mem_prodL]
  constructor
  · intro h
    cases h with
    | cons h1 h2 =>
      cases h2 with
      | cons h3 h4 => cases h4; exact ⟨_, _, rfl, h1, h3⟩
  · rintro ⟨p, q, rfl, h1, h2⟩
    exact .cons h1 (.cons h2 .nil)

/-- Writing one block. -/
theorem ci_put_block [Ring R] (x : NDArray R) (hx : x.WF) (n0 n1 : Nat) (hs : x.shape = [n0, n1]) (b : CIBlock R)
    (hr : ∀ i ∈ b.rows, i < n0) (hc : ∀ j ∈ b.cols, j < n1) (hrn : b.rows.Nodup) (hcn : b.cols.Nodup)
    (hl : b.vals.length = b.rows.length * b.cols.length) :
    ∃ y, putIx x [b.rows, b.cols] ⟨[b.rows.length, b.cols.length], b.vals⟩ = .ok y ∧ y.WF ∧ y.shape = x.shape ∧
      (prodL [b.rows, b.cols]).map y.get = b.vals ∧
      ∀ idx, InBox x.shape idx → idx ∉ prodL [b.rows, b.cols] → y.get idx = x.get idx := by
  have hv : (NDArray.mk [b.rows.length, b.cols.length] b.vals).WF := by
    unfold NDArray.WF; simp [prodN, hl]
  refine ⟨_, putIx_ok x [b.rows, b.cols] ⟨[b.rows.length, b.cols.length], b.vals⟩ hx hv ?_ ?_ rfl, ?_, rfl, ?_, ?_⟩
  · rw [hs]; exact .cons hr (.cons hc .nil)
  · intro l hl
    simp only [List.mem_cons, List.not_mem_nil, or_false] at hl
    rcases hl with rfl | rfl
    · exact hrn
    · exact hcn
  · exact NDArray.ofFn_wf _ _
  · rw [prodL_eq_box_map 0, List.map_map]
    have hd := NDArray.data_eq_map_get _ hv
    simp only at hd
    conv_rhs => rw [hd]
    apply List.map_congr_left
    intro k hk
    have hk' := hk
    rw [show [b.rows, b.cols].map List.length = [b.rows.length, b.cols.length] from rfl] at hk'
    obtain ⟨k0, k1, rfl, e0, e1⟩ : ∃ k0 k1, k = [k0, k1] ∧ k0 < b.rows.length ∧ k1 < b.cols.length := by
      have := mem_box.1 hk'
      cases this with
      | cons a1 a2 =>
        cases a2 with
        | cons a3 a4 => cases a4; exact ⟨_, _, rfl, a1, a3⟩
    simp only [Function.comp, List.zipWith_cons_cons, List.zipWith_nil_left]
    rw [getD_eq _ _ _ e0, getD_eq _ _ _ e1]
    unfold ixPut
    rw [NDArray.get_ofFn _ _ (by
      rw [hs]
      exact .cons (hr _ (List.getElem_mem e0)) (.cons (hc _ (List.getElem_mem e1)) .nil))]
    rw [if_pos (by simp)]
    simp only [List.zipWith_cons_cons, List.zipWith_nil_left]
    rw [hrn.idxOf_getElem _ e0, hcn.idxOf_getElem _ e1]
  · intro idx hidx hnot
    unfold ixPut
    rw [NDArray.get_ofFn _ _ hidx, if_neg]
    intro hall
    apply hnot
    rw [hs] at hidx
    cases hidx with
    | cons a1 a2 =>
      cases a2 with
      | cons a3 a4 =>
        cases a4
        rw [mem_prodL2]
        simp only [List.zipWith_cons_cons, List.zipWith_nil_left, List.all_cons, List.all_nil, id, Bool.and_true,
          Bool.and_eq_true, decide_eq_true_eq] at hall
        exact ⟨_, _, rfl, hall.1, hall.2⟩

/-- Writing all blocks. -/
theorem put_blocks [Ring R] (n0 n1 : Nat) (bs : List (CIBlock R)) (x : NDArray R) (hx : x.WF) (hs : x.shape = [n0, n1])
    (hb : ∀ b ∈ bs, (∀ i ∈ b.rows, i < n0) ∧ (∀ j ∈ b.cols, j < n1) ∧ b.rows.Nodup ∧ b.cols.Nodup ∧
      b.vals.length = b.rows.length * b.cols.length)
    (hd : bs.Pairwise fun b b' => ∀ idx ∈ prodL [b.rows, b.cols], idx ∉ prodL [b'.rows, b'.cols]) :
    ∃ y, bs.foldlM (fun (ci : NDArray R) b => putIx ci [b.rows, b.cols] ⟨[b.rows.length, b.cols.length], b.vals⟩) x = .ok y ∧
      y.WF ∧ y.shape = x.shape ∧ (∀ b ∈ bs, (prodL [b.rows, b.cols]).map y.get = b.vals) ∧
      ∀ idx, InBox x.shape idx → (∀ b ∈ bs, idx ∉ prodL [b.rows, b.cols]) → y.get idx = x.get idx := by
  induction bs generalizing x with
  | nil => exact ⟨x, rfl, hx, rfl, by simp, fun _ _ _ => rfl⟩
  | cons b bs ih =>
    rw [List.pairwise_cons] at hd
    obtain ⟨b1, b2, b3, b4, b5⟩ := hb b (by simp)
    obtain ⟨y, y1, y2, y3, y4, y5⟩ := ci_put_block x hx n0 n1 hs b b1 b2 b3 b4 b5
    obtain ⟨z, z1, z2, z3, z4, z5⟩ := ih y y2 (y3.trans hs) (fun b' hb' => hb b' (by simp [hb'])) hd.2
    refine ⟨z, ?_, z2, z3.trans y3, ?_, ?_⟩
    · rw [List.foldlM_cons, y1]; exact z1
    · intro b' hb'
      rcases List.mem_cons.1 hb' with rfl | hm
      · rw [← y4]
        apply List.map_congr_left
        intro idx hidx
        apply z5
        · rw [y3, hs]
          obtain ⟨p, q, rfl, hp, hq⟩ := mem_prodL2.1 hidx
          exact .cons (b1 p hp) (.cons (b2 q hq) .nil)
        · intro b'' hb''
          exact hd.1 b'' hb'' idx hidx
      · exact z4 b' hm
    · intro idx hidx hnot
      rw [z5 idx (by rw [y3]; exact hidx) (fun b' hb' => hnot b' (by simp [hb'])), y5 idx hidx (hnot b (by simp))]

theorem le_foldl_max (l : List Nat) (a : Nat) : a ≤ l.foldl Nat.max a ∧ ∀ x ∈ l, x ≤ l.foldl Nat.max a := by
  induction l generalizing a with
  | nil => simp
  | cons b l ih =>
    obtain ⟨h1, h2⟩ := ih (Nat.max a b)
    rw [List.foldl_cons]
    refine ⟨le_trans (Nat.le_max_left a b) h1, ?_⟩
    intro x hx
    rcases List.mem_cons.1 hx with rfl | hm
    · exact le_trans (Nat.le_max_right a x) h1
    · exact h2 x hm

theorem le_maxNat {l : List Nat} {x : Nat} (h : x ∈ l) : x ≤ maxNat l := (le_foldl_max l 0).2 x h

/-- The assembled vector: the blocks, one for the reference, zero elsewhere. -/
theorem assemble_spec [Ring R] (bs : List (CIBlock R)) (hne : bs ≠ [])
    (hb : ∀ b ∈ bs, b.rows.Nodup ∧ b.cols.Nodup ∧ b.vals.length = b.rows.length * b.cols.length)
    (hd : bs.Pairwise fun b b' => ∀ idx ∈ prodL [b.rows, b.cols], idx ∉ prodL [b'.rows, b'.cols])
    (h0 : ∀ b ∈ bs, [0, 0] ∉ prodL [b.rows, b.cols]) :
    ∃ ci, fciAssemble bs = .ok ci ∧ ci.WF ∧
      ci.shape = [maxNat (bs.flatMap (·.rows)) + 1, maxNat (bs.flatMap (·.cols)) + 1] ∧ ci.get [0, 0] = 1 ∧
      (∀ b ∈ bs, (prodL [b.rows, b.cols]).map ci.get = b.vals) ∧
      ∀ idx, InBox ci.shape idx → idx ≠ [0, 0] → (∀ b ∈ bs, idx ∉ prodL [b.rows, b.cols]) → ci.get idx = 0 := by
  obtain ⟨y, y1, y2, y3, y4, y5⟩ := put_blocks (R := R) (maxNat (bs.flatMap (·.rows)) + 1) (maxNat (bs.flatMap (·.cols)) + 1) bs
    (NDArray.zeros [maxNat (bs.flatMap (·.rows)) + 1, maxNat (bs.flatMap (·.cols)) + 1]) (NDArray.ofFn_wf _ _) rfl
    (by
      intro b hbm
      refine ⟨fun i hi => ?_, fun j hj => ?_, hb b hbm⟩
      · exact Nat.lt_succ_of_le (le_maxNat (List.mem_flatMap.2 ⟨b, hbm, hi⟩))
      · exact Nat.lt_succ_of_le (le_maxNat (List.mem_flatMap.2 ⟨b, hbm, hj⟩))) hd
  have hys : y.shape = [maxNat (bs.flatMap (·.rows)) + 1, maxNat (bs.flatMap (·.cols)) + 1] := y3
  have hbox0 : InBox y.shape [0, 0] := by
    rw [hys]; exact .cons (Nat.succ_pos _) (.cons (Nat.succ_pos _) .nil)
  have hlt0 : ravelIdx y.shape [0, 0] < y.data.length := by rw [y2]; exact ravelIdx_lt hbox0
  have hget : ∀ idx, InBox y.shape idx → idx ≠ [0, 0] →
      (NDArray.mk y.shape (y.data.set (ravelIdx y.shape [0, 0]) 1)).get idx = y.get idx := by
    intro idx hidx hne0
    unfold NDArray.get
    simp only [List.getD_eq_getElem?_getD]
    rw [List.getElem?_set_ne]
    intro e
    exact hne0 (ravelIdx_inj hidx hbox0 e.symm)
  refine ⟨⟨y.shape, y.data.set (ravelIdx y.shape [0, 0]) 1⟩, ?_, ?_, hys, ?_, ?_, ?_⟩
  · unfold fciAssemble
    rw [if_neg (by simpa using hne)]
    simp only [bind, Except.bind, pure, Except.pure]
    rw [y1]
  · unfold NDArray.WF; rw [List.length_set]; exact y2
  · unfold NDArray.get
    simp only [List.getD_eq_getElem?_getD]
    rw [List.getElem?_set_self hlt0]
    rfl
  · intro b hbm
    rw [← y4 b hbm]
    apply List.map_congr_left
    intro idx hidx
    apply hget
    · rw [hys]
      obtain ⟨p, q, rfl, hp, hq⟩ := mem_prodL2.1 hidx
      exact .cons (Nat.lt_succ_of_le (le_maxNat (List.mem_flatMap.2 ⟨b, hbm, hp⟩)))
        (.cons (Nat.lt_succ_of_le (le_maxNat (List.mem_flatMap.2 ⟨b, hbm, hq⟩))) .nil)
    · rintro rfl
      exact h0 b hbm hidx
  · intro idx hidx hne0 hnot
    rw [hget idx hidx hne0, y5 idx (by rw [← y3]; exact hidx) hnot]
    exact zeros_get _ _

/-! ### The spin combinations -/

theorem fciCombs_four : fciCombs 4 = [(1, "bb".toList), (1, "aa".toList), (2, "aaaa".toList), (2, "abab".toList),
    (2, "bbbb".toList), (3, "aaaaaa".toList), (3, "babbab".toList), (3, "abaaba".toList), (3, "bbbbbb".toList),
    (4, "aaaaaaaa".toList), (4, "aaabaaab".toList), (4, "abababab".toList), (4, "abbbabbb".toList),
    (4, "bbbbbbbb".toList)] := by decide +kernel

theorem fciCombs_sub {m : Nat} (hm : m ≤ 4) : ∀ c ∈ fciCombs m, c ∈ fciCombs 4 ∧ c.1 ≤ m := by
  intro c hc
  unfold fciCombs at hc ⊢
  rw [List.mem_flatMap] at hc
  obtain ⟨n, hn, hcn⟩ := hc
  obtain ⟨x, hx, rfl⟩ := List.mem_map.1 hcn
  rw [List.mem_range'_1] at hn
  refine ⟨List.mem_flatMap.2 ⟨n, List.mem_range'_1.2 (by omega), hcn⟩, ?_⟩
  simp only; omega

theorem fciCombs_spins {m : Nat} (hm : m ≤ 4) : ∀ c ∈ fciCombs m, c.2.take c.1 ≠ [] ∧
    ∀ s ∈ c.2.take c.1, s = 'a' ∨ s = 'b' := by
  intro c hc
  have h1 := (fciCombs_sub hm c hc).1
  have : ∀ c ∈ fciCombs 4, c.2.take c.1 ≠ [] ∧ ∀ s ∈ c.2.take c.1, s = 'a' ∨ s = 'b' := by
    rw [fciCombs_four]; decide
  exact this c h1

theorem fciCombs_distinct {m : Nat} (hm : m ≤ 4) : (fciCombs m).Pairwise fun c c' =>
    ¬ ((c.2.take c.1).count 'a' = (c'.2.take c'.1).count 'a' ∧ (c.2.take c.1).count 'b' = (c'.2.take c'.1).count 'b') := by
  interval_cases m <;> decide +kernel

theorem fciCombs_keys {m : Nat} (hm : m ≤ 4) : ((fciCombs m).map (·.2)).Nodup := by
  interval_cases m <;> decide +kernel

theorem fciCombs_ne {m : Nat} (hm : 1 ≤ m) : fciCombs m ≠ [] := by
  intro h
  have : (1, "aa".toList) ∈ fciCombs m := by
    unfold fciCombs
    rw [List.mem_flatMap]
    exact ⟨1, List.mem_range'_1.2 (by omega), by decide +kernel⟩
  rw [h] at this
  cases this

/-- The shape used by the unrestricted extraction is right up to second order, and if both spins have the same sizes. -/
theorem fciShapeU_ok {m : Nat} (hm : m ≤ 4) {size : Char → Char → Nat} (hsz : m ≤ 2 ∨ ∀ k, size 'a' k = size 'b' k) :
    ∀ c ∈ fciCombs m, fciShapeU size (c.2.take c.1)
      = (fciSubscript ((c.2.take c.1).count 'a') ((c.2.take c.1).count 'b')).map (symSize size) := by
  intro c hc
  obtain ⟨h1, h2⟩ := fciCombs_sub hm c hc
  rw [fciCombs_four] at h1
  rcases hsz with hsz | hsz
  · simp only [List.mem_cons, List.not_mem_nil, or_false] at h1
    rcases h1 with rfl | rfl | rfl | rfl | rfl | rfl | rfl | rfl | rfl | rfl | rfl | rfl | rfl | rfl <;>
      first | (simp only at h2; omega) | rfl
  · simp only [List.mem_cons, List.not_mem_nil, or_false] at h1
    rcases h1 with rfl | rfl | rfl | rfl | rfl | rfl | rfl | rfl | rfl | rfl | rfl | rfl | rfl | rfl <;>
      simp [fciShapeU, fciSubscript, symSize, everyOther, fciKinds, hsz, List.replicate]

/-- The blocks of different spin combinations do not overlap. -/
theorem blocks_disjoint {A B : CIAddresses} {o v o' v' : Nat} (hA : A.Valid o v) (hB : B.Valid o' v') {na nb na' nb' : Nat}
    (h : ¬ (na = na' ∧ nb = nb')) : ∀ idx ∈ prodL [A.at na, B.at nb], idx ∉ prodL [A.at na', B.at nb'] := by
  intro idx h1 h2
  obtain ⟨p, q, rfl, hp, hq⟩ := mem_prodL2.1 h1
  obtain ⟨p', q', e, hp', hq'⟩ := mem_prodL2.1 h2
  simp only [List.cons.injEq, and_true] at e
  obtain ⟨rfl, rfl⟩ := e
  exact h ⟨at_disjoint hA hp hp', at_disjoint hB hq hq'⟩

theorem zero_not_in_block {A B : CIAddresses} {o v o' v' : Nat} (hA : A.Valid o v) (hB : B.Valid o' v') {na nb : Nat}
    (h : na ≠ 0 ∨ nb ≠ 0) : [0, 0] ∉ prodL [A.at na, B.at nb] := by
  have := blocks_disjoint hA hB (na := 0) (nb := 0) (na' := na) (nb' := nb) (by omega) [0, 0]
    (mem_prodL2.2 ⟨0, 0, rfl, by simp [CIAddresses.at], by simp [CIAddresses.at]⟩)
  exact this

theorem count_ne_zero {l : List Char} (hne : l ≠ []) (h : ∀ s ∈ l, s = 'a' ∨ s = 'b') : l.count 'a' ≠ 0 ∨ l.count 'b' ≠ 0 := by
  cases l with
  | nil => exact absurd rfl hne
  | cons s l =>
    rcases h s (by simp) with rfl | rfl
    · left; simp
    · right; simp

/-- The vector assembled from blocks at the addresses of the spin combinations. -/
theorem fci_assembled [Field R] {A B : CIAddresses} {o v o' v' : Nat} (hA : A.Valid o v) (hB : B.Valid o' v') {m : Nat}
    (hm1 : 1 ≤ m) (hm : m ≤ 4) (g : Nat × List Char → CIBlock R)
    (hg : ∀ c ∈ fciCombs m, (g c).rows = A.at ((c.2.take c.1).count 'a') ∧ (g c).cols = B.at ((c.2.take c.1).count 'b') ∧
      (g c).vals.length = (g c).rows.length * (g c).cols.length) :
    ∃ ci, fciAssemble ((fciCombs m).map g) = .ok ci ∧ ci.WF ∧
      (∀ c ∈ fciCombs m, BlockInside A B ((c.2.take c.1).count 'a') ((c.2.take c.1).count 'b') ci) ∧ ci.get [0, 0] = 1 ∧
      (∀ c ∈ fciCombs m, (prodL [(g c).rows, (g c).cols]).map ci.get = (g c).vals) ∧
      ∀ idx, InBox ci.shape idx → idx ≠ [0, 0] →
        (∀ c ∈ fciCombs m, idx ∉ prodL [A.at ((c.2.take c.1).count 'a'), B.at ((c.2.take c.1).count 'b')]) → ci.get idx = 0 := by
  obtain ⟨ci, c1, c2, c3, c4, c5, c6⟩ := assemble_spec ((fciCombs m).map g)
    (by simpa using fciCombs_ne hm1)
    (by
      intro b hb
      obtain ⟨c, hc, rfl⟩ := List.mem_map.1 hb
      obtain ⟨h1, h2, h3⟩ := hg c hc
      exact ⟨by rw [h1]; exact at_nodup hA _, by rw [h2]; exact at_nodup hB _, h3⟩)
    (by
      rw [List.pairwise_map]
      apply (fciCombs_distinct hm).imp_of_mem
      intro c c' hc hc' hne
      rw [(hg c hc).1, (hg c hc).2.1, (hg c' hc').1, (hg c' hc').2.1]
      exact blocks_disjoint hA hB hne)
    (by
      intro b hb
      obtain ⟨c, hc, rfl⟩ := List.mem_map.1 hb
      rw [(hg c hc).1, (hg c hc).2.1]
      obtain ⟨s1, s2⟩ := fciCombs_spins hm c hc
      exact zero_not_in_block hA hB (count_ne_zero s1 s2))
  refine ⟨ci, c1, c2, ?_, c4, fun c hc => c5 _ (List.mem_map_of_mem hc), ?_⟩
  · intro c hc
    rw [BlockInside, c3]
    constructor
    · intro i hi
      exact Nat.lt_succ_of_le (le_maxNat (List.mem_flatMap.2 ⟨g c, List.mem_map_of_mem hc, by rw [(hg c hc).1]; exact hi⟩))
    · intro j hj
      exact Nat.lt_succ_of_le (le_maxNat (List.mem_flatMap.2 ⟨g c, List.mem_map_of_mem hc, by rw [(hg c hc).2.1]; exact hj⟩))
  · intro idx h1 h2 h3
    apply c6 idx h1 h2
    intro b hb
    obtain ⟨c, hc, rfl⟩ := List.mem_map.1 hb
    rw [(hg c hc).1, (hg c hc).2.1]
    exact h3 c hc

theorem dict_of_list {ν : Type} (l : List (Nat × List Char)) (f : Nat × List Char → ν) (h : (l.map (·.2)).Nodup) :
    ∀ c ∈ l, Dict.get? (l.map fun c => (c.2, f c)) c.2 = some (f c) := by
  induction l with
  | nil => simp
  | cons a l ih =>
    intro c hc
    rw [List.map_cons, List.nodup_cons] at h
    simp only [List.map_cons, Dict.get?]
    rcases List.mem_cons.1 hc with rfl | hm
    · rw [if_pos rfl]
    · rw [if_neg, ih h.2 c hm]
      intro e
      exact h.1 (e ▸ List.mem_map_of_mem hm)

/-- C59, partially: coefficients packed into a CI vector (normalised or not) are extracted unchanged, up to second order for
all sizes, up to fourth order if both spins have the same numbers of occupied and virtual orbitals.  Missing: third and
fourth order for different sizes, where the claim is false (`C59_fails`). -/
theorem C59_roundtrip_partial [Field R] (h2 : ∀ x : R, x + x = 0 → x = 0) {A B : CIAddresses} {size : Char → Char → Nat}
    (hA : A.Valid (size 'a' 'O') (size 'a' 'V')) (hB : B.Valid (size 'b' 'O') (size 'b' 'V')) {m : Nat} (hm1 : 1 ≤ m)
    (hm : m ≤ 4) (hsz : m ≤ 2 ∨ ∀ k, size 'a' k = size 'b' k) (camps : Dict (List Char) (NDArray R))
    (hc : ∀ c ∈ fciCombs m, ∃ x, camps.get? c.2 = some x ∧ IsCoefficient size (c.2.take c.1) x)
    (norm : NDArray R → R) (hnorm : ∀ x : NDArray R, x.get [0, 0] = 1 → norm x ≠ 0) (normalise : Bool) :
    ∃ ci d, fciVectorU norm A B size camps m normalise = .ok ci ∧ fciExtractU ci A B size m = .ok d ∧
      d.keys = (fciCombs m).map (·.2) ∧ ∀ k ∈ d.keys, d.get? k = camps.get? k := by
  have hex : ∀ c : Nat × List Char, ∃ (b : CIBlock R) (x : NDArray R), c ∈ fciCombs m →
      camps.get? c.2 = some x ∧ fciPack A B size (c.2.take c.1) x = .ok b ∧
      b.rows = A.at ((c.2.take c.1).count 'a') ∧ b.cols = B.at ((c.2.take c.1).count 'b') ∧
      b.vals.length = b.rows.length * b.cols.length ∧
      ∀ (ci : NDArray R) (c0 : R), c0 ≠ 0 → ci.get [0, 0] = c0 →
        BlockInside A B ((c.2.take c.1).count 'a') ((c.2.take c.1).count 'b') ci →
        (prodL [b.rows, b.cols]).map ci.get = b.vals.map (fun x => x * c0) →
        fciGetC ci A B ((fciSubscript ((c.2.take c.1).count 'a') ((c.2.take c.1).count 'b')).map (symSize size))
          (c.2.take c.1) = .ok x := by
    intro c
    by_cases hcm : c ∈ fciCombs m
    · obtain ⟨x, x1, x2⟩ := hc c hcm
      obtain ⟨s1, s2⟩ := fciCombs_spins hm c hcm
      obtain ⟨b, b1, b2, b3, b4, b5⟩ := C59_block h2 hA hB s1 s2 x2
      exact ⟨b, x, fun _ => ⟨x1, b1, b2, b3, b4, b5⟩⟩
    · exact ⟨⟨[], [], []⟩, ⟨[], []⟩, fun h => absurd h hcm⟩
  choose g x hg using hex
  obtain ⟨ci, c1, c2, c3, c4, c5, _⟩ := fci_assembled hA hB hm1 hm g
    (fun c hcm => ⟨(hg c hcm).2.2.1, (hg c hcm).2.2.2.1, (hg c hcm).2.2.2.2.1⟩)
  have hpack : ((fciCombs m).mapM fun c => do
      let x ← camps.getItem c.2
      fciPack A B size (c.2.take c.1) x) = .ok ((fciCombs m).map g) := by
    apply mapM_ok
    intro c hcm
    simp only [bind, Except.bind, Dict.getItem, (hg c hcm).1, (hg c hcm).2.1]
  have hvec : fciVectorU norm A B size camps m normalise
      = .ok (if normalise then ci.map fun x => x / norm ci else ci) := by
    unfold fciVectorU
    rw [if_neg (by omega), hpack]
    simp only [bind, Except.bind, pure, Except.pure, c1]
  have hν := hnorm ci c4
  obtain ⟨ν, hν0, hνget, hνsh⟩ : ∃ ν : R, ν ≠ 0 ∧ (∀ idx, (if normalise then ci.map fun x => x / norm ci else ci).get idx
      = ci.get idx * ν) ∧ (if normalise then ci.map fun x => x / norm ci else ci).shape = ci.shape := by
    cases normalise with
    | false => exact ⟨1, one_ne_zero, fun idx => by simp, rfl⟩
    | true =>
      refine ⟨(norm ci)⁻¹, inv_ne_zero hν, fun idx => ?_, rfl⟩
      simp only [if_true]
      rw [map_get _ _ (by simp), div_eq_mul_inv]
  refine ⟨_, (fciCombs m).map fun c => (c.2, x c), hvec, ?_, ?_, ?_⟩
  · unfold fciExtractU
    rw [if_neg (by omega), if_neg (by omega)]
    apply mapM_ok
    intro c hcm
    rw [fciShapeU_ok hm hsz c hcm, (hg c hcm).2.2.2.2.2 _ ν hν0 (by rw [hνget, c4, one_mul])
      (by have := c3 c hcm; unfold BlockInside at this ⊢; rw [hνsh]; exact this)
      (by
        rw [← c5 c hcm, List.map_map]
        apply List.map_congr_left
        intro idx _
        exact hνget idx)]
    rfl
  · unfold Dict.keys
    rw [List.map_map]
    rfl
  · intro k hk
    unfold Dict.keys at hk
    rw [List.map_map] at hk
    obtain ⟨c, hcm, rfl⟩ := List.mem_map.1 hk
    simp only [Function.comp]
    rw [dict_of_list _ _ (fciCombs_keys hm) c hcm, (hg c hcm).1]

/-- C59, partially, the other direction: packing what was extracted from a CI vector gives the elements of the CI vector at the
addresses of the orders taken, in intermediate normalisation, and zero elsewhere. -/
theorem C59_inverse_partial [Field R] {A B : CIAddresses} {size : Char → Char → Nat}
    (hA : A.Valid (size 'a' 'O') (size 'a' 'V')) (hB : B.Valid (size 'b' 'O') (size 'b' 'V')) {m : Nat} (hm1 : 1 ≤ m)
    (hm : m ≤ 4) (hsz : m ≤ 2 ∨ ∀ k, size 'a' k = size 'b' k) (ci : NDArray R)
    (hin : ∀ c ∈ fciCombs m, BlockInside A B ((c.2.take c.1).count 'a') ((c.2.take c.1).count 'b') ci)
    (norm : NDArray R → R) :
    ∃ d ci', fciExtractU ci A B size m = .ok d ∧ fciVectorU norm A B size d m false = .ok ci' ∧ ci'.get [0, 0] = 1 ∧
      (∀ c ∈ fciCombs m, ∃ x, d.get? c.2 = some x ∧ IsCoefficient size (c.2.take c.1) x) ∧
      (∀ c ∈ fciCombs m, ∀ p ∈ A.at ((c.2.take c.1).count 'a'), ∀ q ∈ B.at ((c.2.take c.1).count 'b'),
        ci'.get [p, q] = ci.get [p, q] / ci.get [0, 0]) ∧
      ∀ idx, InBox ci'.shape idx → idx ≠ [0, 0] →
        (∀ c ∈ fciCombs m, idx ∉ prodL [A.at ((c.2.take c.1).count 'a'), B.at ((c.2.take c.1).count 'b')]) →
        ci'.get idx = 0 := by
  have hex : ∀ c : Nat × List Char, ∃ x : NDArray R, c ∈ fciCombs m →
      fciGetC ci A B (fciShapeU size (c.2.take c.1)) (c.2.take c.1) = .ok x ∧ IsCoefficient size (c.2.take c.1) x ∧
      fciPack A B size (c.2.take c.1) x = .ok ⟨A.at ((c.2.take c.1).count 'a'), B.at ((c.2.take c.1).count 'b'),
        (prodL [A.at ((c.2.take c.1).count 'a'), B.at ((c.2.take c.1).count 'b')]).map
          fun t => ci.get t / ci.get [0, 0]⟩ := by
    intro c
    by_cases hcm : c ∈ fciCombs m
    · obtain ⟨s1, s2⟩ := fciCombs_spins hm c hcm
      obtain ⟨x, x1, x2, x3⟩ := C59_block_inverse hA hB s1 s2 ci (hin c hcm)
      exact ⟨x, fun _ => ⟨by rw [fciShapeU_ok hm hsz c hcm]; exact x1, x2, x3⟩⟩
    · exact ⟨⟨[], []⟩, fun h => absurd h hcm⟩
  choose x hx using hex
  obtain ⟨ci', c1, c2, c3, c4, c5, c6⟩ := fci_assembled hA hB hm1 hm
    (fun c => ⟨A.at ((c.2.take c.1).count 'a'), B.at ((c.2.take c.1).count 'b'),
        (prodL [A.at ((c.2.take c.1).count 'a'), B.at ((c.2.take c.1).count 'b')]).map
          fun t => ci.get t / ci.get [0, 0]⟩)
    (fun c _ => ⟨rfl, rfl, by simp [length_prodL, prodN]⟩)
  have hkeys := dict_of_list (fciCombs m) x (fciCombs_keys hm)
  refine ⟨(fciCombs m).map fun c => (c.2, x c), ci', ?_, ?_, c4, ?_, ?_, c6⟩
  · unfold fciExtractU
    rw [if_neg (by omega), if_neg (by omega)]
    apply mapM_ok
    intro c hcm
    rw [(hx c hcm).1]
    rfl
  · unfold fciVectorU
    rw [if_neg (by omega), mapM_ok _ (fun c : Nat × List Char => (⟨A.at ((c.2.take c.1).count 'a'),
        B.at ((c.2.take c.1).count 'b'),
        (prodL [A.at ((c.2.take c.1).count 'a'), B.at ((c.2.take c.1).count 'b')]).map
          fun t => ci.get t / ci.get [0, 0]⟩ : CIBlock R))]
    · simp only [bind, Except.bind, pure, Except.pure, c1]
      rfl
    · intro c hcm
      simp only [bind, Except.bind, Dict.getItem, hkeys c hcm, (hx c hcm).2.2]
  · intro c hcm
    exact ⟨x c, hkeys c hcm, (hx c hcm).2.1⟩
  · intro c hcm p hp q hq
    have := c5 c hcm
    simp only at this
    exact List.map_inj_left.1 this [p, q] (mem_prodL2.2 ⟨p, q, rfl, hp, hq⟩)

/-- C59, restricted: every coefficient extracted from a CI vector repacks to the elements of the vector, in intermediate
normalisation, and has the symmetry of a coefficient. -/
theorem C59_restricted [Field R] {A : CIAddresses} {size : Char → Nat} (hA : A.Valid (size 'O') (size 'V')) {m : Nat}
    (hm1 : 1 ≤ m) (hm : m ≤ 4) (ci : NDArray R)
    (hin : ∀ b ∈ fciBlocksR m, BlockInside A A (b.2.count 'a') (b.2.count 'b') ci) :
    ∃ d, fciExtractR ci A size m = .ok d ∧ d.keys = (fciBlocksR m).map (·.1) ∧
      ∀ b ∈ fciBlocksR m, ∃ x, d.get? b.1 = some x ∧ IsCoefficient (fun _ => size) b.2 x ∧
        fciPack A A (fun _ => size) b.2 x = .ok ⟨A.at (b.2.count 'a'), A.at (b.2.count 'b'),
          (prodL [A.at (b.2.count 'a'), A.at (b.2.count 'b')]).map fun t => ci.get t / ci.get [0, 0]⟩ := by
  have hfour : fciBlocksR 4 = [("c1".toList, "b".toList), ("c2".toList, "ab".toList), ("c3".toList, "aba".toList),
    ("c4".toList, "abab".toList), ("c4a".toList, "abaa".toList)] := by rfl
  have hsub : ∀ b ∈ fciBlocksR m, b ∈ fciBlocksR 4 := by
    interval_cases m <;> decide
  have hnd : ((fciBlocksR m).map (·.1)).Nodup := by
    interval_cases m <;> decide
  have hex : ∀ b : List Char × List Char, ∃ x : NDArray R, b ∈ fciBlocksR m →
      fciGetC ci A A (fciShapeR size b.2) b.2 = .ok x ∧ IsCoefficient (fun _ => size) b.2 x ∧
      fciPack A A (fun _ => size) b.2 x = .ok ⟨A.at (b.2.count 'a'), A.at (b.2.count 'b'),
          (prodL [A.at (b.2.count 'a'), A.at (b.2.count 'b')]).map fun t => ci.get t / ci.get [0, 0]⟩ := by
    intro b
    by_cases hbm : b ∈ fciBlocksR m
    · have hb4 := hsub b hbm
      have hspins : b.2 ≠ [] ∧ ∀ s ∈ b.2, s = 'a' ∨ s = 'b' := by
        have : ∀ b ∈ fciBlocksR 4, b.2 ≠ [] ∧ ∀ s ∈ b.2, s = 'a' ∨ s = 'b' := by rw [hfour]; decide
        exact this b hb4
      have hshape : fciShapeR size b.2 = (fciSubscript (b.2.count 'a') (b.2.count 'b')).map (symSize fun _ => size) := by
        unfold fciShapeR fciKinds fciSubscript
        simp [symSize]
      obtain ⟨x, x1, x2, x3⟩ := C59_block_inverse (size := fun _ => size) hA hA hspins.1 hspins.2 ci (hin b hbm)
      exact ⟨x, fun _ => ⟨by rw [hshape]; exact x1, x2, x3⟩⟩
    · exact ⟨⟨[], []⟩, fun h => absurd h hbm⟩
  choose x hx using hex
  have hget : ∀ (l : List (List Char × List Char)), (l.map (·.1)).Nodup → ∀ b ∈ l,
      Dict.get? (l.map fun b => (b.1, x b)) b.1 = some (x b) := by
    intro l
    induction l with
    | nil => simp
    | cons a l ih =>
      intro h b hb
      rw [List.map_cons, List.nodup_cons] at h
      simp only [List.map_cons, Dict.get?]
      rcases List.mem_cons.1 hb with rfl | hm
      · rw [if_pos rfl]
      · rw [if_neg, ih h.2 b hm]
        intro e
        exact h.1 (e ▸ List.mem_map_of_mem hm)
  refine ⟨(fciBlocksR m).map fun b => (b.1, x b), ?_, ?_, ?_⟩
  · unfold fciExtractR
    rw [if_neg (by omega), if_neg (by omega)]
    apply mapM_ok
    intro b hbm
    rw [(hx b hbm).1]
    rfl
  · unfold Dict.keys
    rw [List.map_map]
    rfl
  · intro b hbm
    exact ⟨x b, hget _ hnd b hbm, (hx b hbm).2⟩

/-- C59: more than fourth order is refused. -/
theorem C59_unsupported [Field R] (norm : NDArray R → R) (ci : NDArray R) (A B : CIAddresses) (size : Char → Char → Nat)
    (camps : Dict (List Char) (NDArray R)) (normalise : Bool) (m : Nat) (hm : 4 < m) :
    fciExtractU ci A B size m = .error .notImplementedError ∧
    fciExtractR ci A (size 'a') m = .error .notImplementedError ∧
    fciVectorU norm A B size camps m normalise = .error .notImplementedError := by
  unfold fciExtractU fciExtractR fciVectorU
  exact ⟨if_pos hm, if_pos hm, if_pos hm⟩

/-! ### Concrete cases -/

/-- The addresses for one occupied and `v` virtual orbitals: PySCF's, apart from the signs. -/
def oneElectron (v : Nat) : CIAddresses :=
  ⟨fun n => if n = 1 then List.range' 1 v else [], fun n => if n = 1 then List.replicate v 1 else []⟩

theorem oneElectron_valid (v : Nat) : (oneElectron v).Valid 1 v := by
  have hch : ∀ n, 1 ≤ n → n ≠ 1 → Nat.choose 1 n = 0 := fun n h1 h2 => Nat.choose_eq_zero_of_lt (by omega)
  refine ⟨?_, ?_, ?_, ?_, ?_, ?_⟩
  · intro n hn
    by_cases e : n = 1
    · subst e; simp [oneElectron]
    · simp [oneElectron, e, hch n hn e]
  · intro n hn
    by_cases e : n = 1
    · subst e; simp [oneElectron]
    · simp [oneElectron, e, hch n hn e]
  · intro n hn s hs
    by_cases e : n = 1
    · subst e
      simp only [oneElectron, if_true] at hs
      exact Or.inl (List.eq_of_mem_replicate hs)
    · simp [oneElectron, e] at hs
  · intro n hn
    by_cases e : n = 1
    · subst e; simp only [oneElectron, if_true]; exact List.nodup_range'
    · simp [oneElectron, e]
  · intro n hn
    by_cases e : n = 1
    · subst e; simp [oneElectron]
    · simp [oneElectron, e]
  · intro n m hn hm hne i hi
    by_cases e : n = 1
    · subst e
      simp [oneElectron, Ne.symm hne]
    · simp [oneElectron, e] at hi

/-- One occupied orbital in each spin, one alpha and two beta virtual orbitals. -/
def size59 (s k : Char) : Nat := if k = 'O' then 1 else if s = 'a' then 1 else 2

/-- The coefficients of the reference: zero blocks of the right shapes. -/
def zero59 (m : Nat) : Dict (List Char) (NDArray Rat) :=
  (fciCombs m).map fun c => (c.2, NDArray.zeros
    ((c.2.take c.1).map (fun s => size59 s 'O') ++ (c.2.take c.1).map (fun s => size59 s 'V')))

theorem zero59_ok (m : Nat) (hm : m ≤ 4) :
    ∀ c ∈ fciCombs m, ∃ x, (zero59 m).get? c.2 = some x ∧ IsCoefficient size59 (c.2.take c.1) x := by
  intro c hc
  refine ⟨_, dict_of_list (fciCombs m) _ (fciCombs_keys hm) c hc, NDArray.ofFn_wf _ _, rfl, ?_⟩
  intro i j x _ _ _ idx _
  rw [zeros_get, zeros_get, mul_zero]

/-- C59 fails from third order on when the spins have different sizes: the extracted block of spins `aba` has the wrong
shape. -/
theorem C59_fails : ∃ ci d, fciVectorU (fun _ => 1) (oneElectron 1) (oneElectron 2) size59 (zero59 3) 3 false = .ok ci ∧
    fciExtractU ci (oneElectron 1) (oneElectron 2) size59 3 = .ok d ∧
    (d.get? "abaaba".toList).map (·.shape) = some [1, 1, 1, 2, 1, 2] ∧
    ((zero59 3).get? "abaaba".toList).map (·.shape) = some [1, 1, 1, 1, 2, 1] := by
  refine ⟨⟨[2, 3], [1, 0, 0, 0, 0, 0]⟩,
    ((fciExtractU (⟨[2, 3], [1, 0, 0, 0, 0, 0]⟩ : NDArray Rat) (oneElectron 1) (oneElectron 2) size59 3).toOption).getD [],
    ?_, ?_, ?_, ?_⟩ <;> decide +kernel

/-- At fourth order the extraction even raises. -/
theorem C59_fails_fourth :
    fciVectorU (fun _ => 1) (oneElectron 1) (oneElectron 2) size59 (zero59 4) 4 false = .ok ⟨[2, 3], [1, 0, 0, 0, 0, 0]⟩ ∧
    fciExtractU (⟨[2, 3], [1, 0, 0, 0, 0, 0]⟩ : NDArray Rat) (oneElectron 1) (oneElectron 2) size59 4
      = .error .assertionError := by
  constructor <;> decide +kernel

/-- Non-vacuity: a CI vector with different numbers of alpha and beta virtual orbitals, second order. -/
example : fciVectorU (fun _ => 1) (oneElectron 1) (oneElectron 2) size59
    (((zero59 2).set "bb".toList ⟨[1, 2], [3, 4]⟩).set "abab".toList ⟨[1, 1, 1, 2], [7, 8]⟩) 2 false
      = .ok ⟨[2, 3], [1, 3, 4, 0, 7, 8]⟩ ∧
    (fciExtractU (⟨[2, 3], [2, 6, 8, 0, 14, 16]⟩ : NDArray Rat) (oneElectron 1) (oneElectron 2) size59 2).toOption.bind
      (fun d => d.get? "abab".toList) = some ⟨[1, 1, 1, 2], [7, 8]⟩ := by
  constructor <;> decide +kernel

/-- Non-vacuity: a coefficient block with two electrons of the same spin. -/
example : IsCoefficient (fun _ _ => 2) "aa".toList
    (⟨[2, 2, 2, 2], [0, 0, 0, 0, 0, 1, -1, 0, 0, -1, 1, 0, 0, 0, 0, 0]⟩ : NDArray Rat) := by
  refine ⟨rfl, rfl, ?_⟩
  intro i j c hij hi hj idx hidx
  have ht : fciTarget "aa".toList = ['i', 'i', 'a', 'a'] := by decide
  rw [ht] at hi hj
  have hj4 : j < 4 := (List.getElem?_eq_some_iff.1 hj).1
  have key : ∀ i < 4, ∀ j < 4, i < j → (['i', 'i', 'a', 'a'][i]? = ['i', 'i', 'a', 'a'][j]?) → ∀ idx ∈ box [2, 2, 2, 2],
      (⟨[2, 2, 2, 2], [0, 0, 0, 0, 0, 1, -1, 0, 0, -1, 1, 0, 0, 0, 0, 0]⟩ : NDArray Rat).get (swapIdx i j idx)
        = -1 * (⟨[2, 2, 2, 2], [0, 0, 0, 0, 0, 1, -1, 0, 0, -1, 1, 0, 0, 0, 0, 0]⟩ : NDArray Rat).get idx := by
    decide +kernel
  exact key i (by omega) j hj4 hij (hi.trans hj.symm) idx (mem_box.2 hidx)

end

end Ebcc
