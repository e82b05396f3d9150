import Verif.Lemmas.SpinSum
/-!
The sums of C86: amplitudes with unrestricted spins from those of a restricted calculation (`ext/fci.py` lines 219-266).
-/

namespace Ebcc

set_option maxRecDepth 1000000

/-- The spins of the terms of `symmetrise`. -/
def movedPats (s sub : List Char) : List (List Char × List Char) :=
  (symTerms sub true).map fun q => (movedSpins 0 s (axesOcc s.length q.1), movedSpins s.length s (axesVir s.length q.1))

/-- All pairs. -/
def pairsOf (P : List (List Char)) : List (List Char × List Char) := P.flatMap fun p => P.map fun q => (p, q)

def ones3 : List (List Char) := [chars! "baa", chars! "aba", chars! "aab"]
def ones4 : List (List Char) := [chars! "baaa", chars! "abaa", chars! "aaba", chars! "aaab"]
def twos4 : List (List Char) :=
  [chars! "bbaa", chars! "baba", chars! "baab", chars! "abba", chars! "abab", chars! "aabb"]

theorem pats_aa : movedPats (chars! "ab") (chars! "iiaa") = pairsOf [chars! "ab", chars! "ba"] := by decide +kernel

theorem pats_aaa : ∃ P, movedPats (chars! "aba") (chars! "iiiaaa") = pairsOf P ∧ P.isPerm (ones3 ++ ones3) = true :=
  ⟨((permutationsWithSigns [0, 1, 2]).map fun q => movedSpins 0 (chars! "aba") (axesOcc 3 q.1)), by decide +kernel,
    by decide +kernel⟩

theorem pats_aba : movedPats (chars! "aba") (chars! "ijiaba") = List.replicate 4 (chars! "aba", chars! "aba") := by
  decide +kernel

theorem pats_aaaa : ∃ P, movedPats (chars! "abab") (chars! "iiiiaaaa") = pairsOf P ∧
    P.isPerm (twos4 ++ twos4 ++ (twos4 ++ twos4)) = true :=
  ⟨((permutationsWithSigns [0, 1, 2, 3]).map fun q => movedSpins 0 (chars! "abab") (axesOcc 4 q.1)), by decide +kernel,
    by decide +kernel⟩

theorem pats_aaab : movedPats (chars! "aaab") (chars! "iiijaaab") = List.replicate 36 (chars! "aaab", chars! "aaab") := by
  decide +kernel

theorem pats_baaa : movedPats (chars! "baaa") (chars! "jiiibaaa") = List.replicate 36 (chars! "baaa", chars! "baaa") := by
  decide +kernel

theorem pats_abab : movedPats (chars! "abab") (chars! "ijijabab") = List.replicate 16 (chars! "abab", chars! "abab") := by
  decide +kernel

/-- All terms are permutations with their signs. -/
theorem terms_good : ∀ x ∈ [(chars! "ab", chars! "iiaa"), (chars! "aba", chars! "iiiaaa"), (chars! "aba", chars! "ijiaba"),
    (chars! "abab", chars! "iiiiaaaa"), (chars! "aaab", chars! "iiijaaab"), (chars! "baaa", chars! "jiiibaaa"),
    (chars! "abab", chars! "ijijabab")], (symTerms x.2 true).all (termGood x.1) = true := by decide +kernel

section
variable {R : Type} [Field R] [CharZero R] {T : List Orb → List Orb → R} {sz : Nat → Nat}

omit [CharZero R] in
theorem sum_pats (s sub : List Char) (idx : List Nat) : ((symTerms sub true).map fun q =>
      spinVal T idx (movedSpins 0 s (axesOcc s.length q.1)) (movedSpins s.length s (axesVir s.length q.1))).sum
    = ((movedPats s sub).map fun p => spinVal T idx p.1 p.2).sum := by
  rw [movedPats, List.map_map]
  rfl

omit [CharZero R] in
theorem sum_pairs (P : List (List Char)) (H : List Char → List Char → R) :
    ((pairsOf P).map fun p => H p.1 p.2).sum = (P.map fun p => (P.map fun q => H p q).sum).sum := by
  unfold pairsOf
  rw [List.map_flatMap, List.flatMap, List.sum_flatten, List.map_map]
  congr 1
  apply List.map_congr_left
  intro p _
  simp only [Function.comp, List.map_map]
  rfl

omit [CharZero R] in
theorem sum_perm86 {P Q : List (List Char)} (h : P.isPerm Q = true) (f : List Char → R) : (P.map f).sum = (Q.map f).sum :=
  ((List.isPerm_iff.1 h).map f).sum_eq

theorem length_two {idx : List Nat} {n : Nat} (h : idx.length = 2 * n) {s : List Char} (hs : s.length = n) :
    idx.length = 2 * s.length := by omega

omit [CharZero R] in
/-- One of three occupied orbitals with spin β. -/
theorem sum_ones3 (hS : Singlet T) {idx : List Nat} (h : idx.length = 2 * 3) : ∀ p ∈ ones3,
    (ones3.map fun q => spinVal T idx p q).sum = spinVal T idx (chars! "aaa") (chars! "aaa") := by
  intro p hp
  have hlen : p.length = 3 ∧ raiC p = [chars! "aaa"] := by
    simp only [ones3, List.mem_cons, List.not_mem_nil, or_false] at hp
    rcases hp with rfl | rfl | rfl <;> decide
  have hlow : lowC (chars! "aaa") = ones3 := by decide
  have a := hS.spins (s1 := p) (s2 := chars! "aaa") (length_two h hlen.1) (by rw [hlen.1]; rfl)
  rw [hlow, hlen.2] at a
  simpa using a

omit [CharZero R] in
theorem sum_ones4 (hS : Singlet T) {idx : List Nat} (h : idx.length = 2 * 4) : ∀ p ∈ ones4,
    (ones4.map fun q => spinVal T idx p q).sum = spinVal T idx (chars! "aaaa") (chars! "aaaa") := by
  intro p hp
  have hlen : p.length = 4 ∧ raiC p = [chars! "aaaa"] := by
    simp only [ones4, List.mem_cons, List.not_mem_nil, or_false] at hp
    rcases hp with rfl | rfl | rfl | rfl <;> decide
  have hlow : lowC (chars! "aaaa") = ones4 := by decide
  have a := hS.spins (s1 := p) (s2 := chars! "aaaa") (length_two h hlen.1) (by rw [hlen.1]; rfl)
  rw [hlow, hlen.2] at a
  simpa using a

/-- Two of four occupied orbitals with spin β. -/
theorem sum_twos4 (hS : Singlet T) {idx : List Nat} (h : idx.length = 2 * 4) : ∀ p ∈ twos4,
    (twos4.map fun q => spinVal T idx p q).sum = spinVal T idx (chars! "aaaa") (chars! "aaaa") := by
  intro p hp
  have ho := sum_ones4 hS h
  have hlen : p.length = 4 := by
    simp only [twos4, List.mem_cons, List.not_mem_nil, or_false] at hp
    rcases hp with rfl | rfl | rfl | rfl | rfl | rfl <;> rfl
  have a1 := hS.spins (s1 := p) (s2 := chars! "baaa") (length_two h hlen) (by rw [hlen]; rfl)
  have a2 := hS.spins (s1 := p) (s2 := chars! "abaa") (length_two h hlen) (by rw [hlen]; rfl)
  have a3 := hS.spins (s1 := p) (s2 := chars! "aaba") (length_two h hlen) (by rw [hlen]; rfl)
  have a4 := hS.spins (s1 := p) (s2 := chars! "aaab") (length_two h hlen) (by rw [hlen]; rfl)
  have b1 := ho (chars! "baaa") (by decide)
  have b2 := ho (chars! "abaa") (by decide)
  have b3 := ho (chars! "aaba") (by decide)
  have b4 := ho (chars! "aaab") (by decide)
  simp only [ones4, twos4, lowC, List.map_cons, List.map_nil, List.sum_cons, List.sum_nil, if_true,
    show ¬ ('b' = 'a') by decide, if_false, List.nil_append, List.singleton_append, List.append_nil] at a1 a2 a3 a4 b1 b2 b3 b4 ⊢
  simp only [twos4, List.mem_cons, List.not_mem_nil, or_false] at hp
  have two : (2 : R) ≠ 0 := two_ne_zero
  rcases hp with rfl | rfl | rfl | rfl | rfl | rfl <;>
    simp only [raiC, List.map_cons, List.map_nil, List.sum_cons, List.sum_nil, if_true, show ¬ ('b' = 'a') by decide, if_false,
      List.nil_append, List.singleton_append, List.append_nil] at a1 a2 a3 a4 <;>
    apply mul_left_cancel₀ two
  · linear_combination a1 + a2 + a3 + a4 + b1 + b2
  · linear_combination a1 + a2 + a3 + a4 + b1 + b3
  · linear_combination a1 + a2 + a3 + a4 + b1 + b4
  · linear_combination a1 + a2 + a3 + a4 + b2 + b3
  · linear_combination a1 + a2 + a3 + a4 + b2 + b4
  · linear_combination a1 + a2 + a3 + a4 + b3 + b4

omit [CharZero R] in
theorem sum_const86 (Q : List (List Char)) (f : List Char → R) (c : R) (h : ∀ p ∈ Q, f p = c) :
    (Q.map f).sum = Q.length * c := by
  induction Q with
  | nil => simp
  | cons p Q ih =>
    rw [List.map_cons, List.sum_cons, h p (List.mem_cons_self ..), ih fun q hq => h q (List.mem_cons_of_mem _ hq)]
    push_cast [List.length_cons]
    ring

omit [CharZero R] in
theorem sum_replicate86 (n : Nat) (s : List Char) (idx : List Nat) :
    ((List.replicate n (s, s)).map fun p => spinVal T idx p.1 p.2).sum = n * spinVal T idx s s := by
  simp

theorem over_aa (hT : Antisymmetric T) (hS : Singlet T) (hz : SpinSizes sz) :
    symmetriseOver (chars! "iiaa") (ampArr sz T 1 (excSpaces (chars! "ab"))) (2 ^ 2)
      = .ok (ampArr sz T (1 / 2) (excSpaces (chars! "aa"))) := by
  refine symmetriseOver_ok hT hz (c := 2) (by decide) (by decide) (chars! "--") rfl (by decide)
    (terms_good (chars! "ab", chars! "iiaa") (by decide)) rfl (fun idx h => ?_) (by norm_num)
  rw [sum_pats, pats_aa, sum_pairs]
  have a1 := hS.spins (s1 := chars! "ab") (s2 := chars! "aa") (length_two h rfl) rfl
  have a2 := hS.spins (s1 := chars! "ba") (s2 := chars! "aa") (length_two h rfl) rfl
  simp [lowC, raiC] at a1 a2
  simp
  linear_combination a1 + a2

theorem over_aaa (hT : Antisymmetric T) (hS : Singlet T) (hz : SpinSizes sz) :
    symmetriseOver (chars! "iiiaaa") (ampArr sz T 1 (excSpaces (chars! "aba"))) (6 ^ 2 * 2)
      = .ok (ampArr sz T (1 / 6) (excSpaces (chars! "aaa"))) := by
  refine symmetriseOver_ok hT hz (c := 12) (by decide) (by decide) (chars! "--") rfl (by decide)
    (terms_good (chars! "aba", chars! "iiiaaa") (by decide)) rfl (fun idx h => ?_) (by norm_num)
  obtain ⟨P, p1, p2⟩ := pats_aaa
  rw [sum_pats, p1, sum_pairs, sum_perm86 p2]
  have key : ∀ p ∈ ones3 ++ ones3, (P.map fun q => spinVal T idx p q).sum
      = 2 * spinVal T idx (chars! "aaa") (chars! "aaa") := by
    intro p hp
    have hp' : p ∈ ones3 := by simpa using hp
    rw [sum_perm86 p2, List.map_append, List.sum_append, sum_ones3 hS h p hp']
    ring
  rw [sum_const86 _ _ _ key]
  simp [ones3]
  ring

theorem over_aba (hT : Antisymmetric T) (hz : SpinSizes sz) :
    symmetriseOver (chars! "ijiaba") (ampArr sz T 1 (excSpaces (chars! "aba"))) (2 ^ 2 * 2)
      = .ok (ampArr sz T (1 / 2) (excSpaces (chars! "aba"))) := by
  refine symmetriseOver_ok hT hz (c := 4) (by decide) (by decide) (chars! "----") rfl (by decide)
    (terms_good (chars! "aba", chars! "ijiaba") (by decide)) rfl (fun idx h => ?_) (by norm_num)
  rw [sum_pats, pats_aba, sum_replicate86]
  norm_num

theorem over_aaaa (hT : Antisymmetric T) (hS : Singlet T) (hz : SpinSizes sz) :
    symmetriseOver (chars! "iiiiaaaa") (ampArr sz T 1 (excSpaces (chars! "abab"))) (24 ^ 2 * 4)
      = .ok (ampArr sz T (1 / 24) (excSpaces (chars! "aaaa"))) := by
  refine symmetriseOver_ok hT hz (c := 96) (by decide) (by decide) (chars! "--") rfl (by decide)
    (terms_good (chars! "abab", chars! "iiiiaaaa") (by decide)) rfl (fun idx h => ?_) (by norm_num)
  obtain ⟨P, p1, p2⟩ := pats_aaaa
  rw [sum_pats, p1, sum_pairs, sum_perm86 p2]
  have key : ∀ p ∈ twos4 ++ twos4 ++ (twos4 ++ twos4), (P.map fun q => spinVal T idx p q).sum
      = 4 * spinVal T idx (chars! "aaaa") (chars! "aaaa") := by
    intro p hp
    have hp' : p ∈ twos4 := by simpa using hp
    rw [sum_perm86 p2]
    simp only [List.map_append, List.sum_append]
    rw [sum_twos4 hS h p hp']
    ring
  rw [sum_const86 _ _ _ key]
  simp [twos4]
  ring

theorem over_aaab (hT : Antisymmetric T) (hz : SpinSizes sz) :
    symmetriseOver (chars! "iiijaaab") (ampArr sz T 1 (excSpaces (chars! "aaab"))) (6 ^ 2 * 6)
      = .ok (ampArr sz T (1 / 6) (excSpaces (chars! "aaab"))) := by
  refine symmetriseOver_ok hT hz (c := 36) (by decide) (by decide) (chars! "----") rfl (by decide)
    (terms_good (chars! "aaab", chars! "iiijaaab") (by decide)) rfl (fun idx h => ?_) (by norm_num)
  rw [sum_pats, pats_aaab, sum_replicate86]
  norm_num

theorem over_baaa (hT : Antisymmetric T) (hz : SpinSizes sz) :
    symmetriseOver (chars! "jiiibaaa") (ampArr sz T 1 (excSpaces (chars! "baaa"))) (6 ^ 2 * 6)
      = .ok (ampArr sz T (1 / 6) (excSpaces (chars! "baaa"))) := by
  refine symmetriseOver_ok hT hz (c := 36) (by decide) (by decide) (chars! "----") rfl (by decide)
    (terms_good (chars! "baaa", chars! "jiiibaaa") (by decide)) rfl (fun idx h => ?_) (by norm_num)
  rw [sum_pats, pats_baaa, sum_replicate86]
  norm_num

theorem over_abab (hT : Antisymmetric T) (hz : SpinSizes sz) :
    symmetriseOver (chars! "ijijabab") (ampArr sz T 1 (excSpaces (chars! "abab"))) (2 ^ 6)
      = .ok (ampArr sz T (1 / 4) (excSpaces (chars! "abab"))) := by
  refine symmetriseOver_ok hT hz (c := 16) (by decide) (by decide) (chars! "----") rfl (by decide)
    (terms_good (chars! "abab", chars! "ijijabab") (by decide)) rfl (fun idx h => ?_) (by norm_num)
  rw [sum_pats, pats_abab, sum_replicate86]
  norm_num

omit [CharZero R] in
theorem transpose_aaab (hT : Antisymmetric T) (hz : SpinSizes sz) :
    (ampArr sz T 1 (excSpaces (chars! "abaa"))).transpose [0, 2, 3, 1, 4, 6, 7, 5]
      = .ok (ampArr sz T 1 (excSpaces (chars! "aaab"))) :=
  transpose_amp86 hT hz (by decide +kernel) (by decide +kernel) (by decide +kernel) (by decide) (by decide)

omit [CharZero R] in
theorem transpose_baaa (hT : Antisymmetric T) (hz : SpinSizes sz) :
    (ampArr sz T 1 (excSpaces (chars! "abaa"))).transpose [1, 0, 2, 3, 5, 4, 6, 7]
      = .ok (ampArr sz T 1 (excSpaces (chars! "baaa"))) :=
  transpose_amp86 hT hz (by decide +kernel) (by decide +kernel) (by decide +kernel) (by decide) (by decide)

end
end Ebcc
