import Verif.Lemmas.Rotated
/-!
Sums over all axes, with a matrix for each axis.
-/

namespace Ebcc

section
variable {R : Type} [CommRing R]

/-- The sum over new values of all indices, with the number of values and the matrix for each axis. -/
def axSum : List (Nat × (Nat → Nat → R)) → List Nat → (List Nat → R) → R
  | A :: L, i :: idx, F => ((List.range A.1).map fun j => A.2 i j * axSum L idx fun js => F (j :: js)).sum
  | _, _, F => F []

theorem rotSum_axSum (sz : Nat → Nat) (C : Nat → Nat → Nat → R) (sp idx : List Nat) (F : List Nat → R) :
    rotSum sz C sp idx F = axSum (sp.map fun s => (sz s, C s)) idx F := by
  induction sp generalizing idx F with
  | nil => cases idx <;> rfl
  | cons s sp ih => cases idx with
    | nil => rfl
    | cons i idx => simp only [rotSum, List.map_cons, axSum, ih]

theorem axSum_sum (L : List (Nat × (Nat → Nat → R))) (idx : List Nat) (hl : idx.length = L.length) (l : List Nat)
    (c : Nat → R) (G : Nat → List Nat → R) :
    axSum L idx (fun js => (l.map fun k => c k * G k js).sum) = (l.map fun k => c k * axSum L idx (G k)).sum := by
  induction L generalizing idx G with
  | nil => cases idx with
    | nil => rfl
    | cons _ _ => simp at hl
  | cons A L ih => cases idx with
    | nil => simp at hl
    | cons i idx =>
      simp only [axSum]
      rw [List.map_congr_left fun j _ => by rw [ih idx (by simpa using hl)]]
      clear ih
      generalize List.range A.1 = m
      induction l with
      | nil => simp
      | cons k l ih2 =>
        simp only [List.map_cons, List.sum_cons, mul_add, List.sum_map_add]
        rw [ih2, ← List.sum_map_mul_left]
        congr 2
        apply List.map_congr_left
        intro j _
        ring

/-- Two transformations one after the other. -/
def axComp (A B : Nat × (Nat → Nat → R)) : Nat × (Nat → Nat → R) :=
  (B.1, fun i k => ((List.range A.1).map fun j => A.2 i j * B.2 j k).sum)

theorem axSum_comp (L M : List (Nat × (Nat → Nat → R))) (hLM : L.length = M.length) (idx : List Nat)
    (hl : idx.length = L.length) (F : List Nat → R) :
    axSum L idx (fun js => axSum M js F) = axSum (List.zipWith axComp L M) idx F := by
  induction L generalizing M idx F with
  | nil =>
    cases M with
    | nil => cases idx <;> rfl
    | cons _ _ => simp at hLM
  | cons A L ih => cases M with
    | nil => simp at hLM
    | cons B M => cases idx with
      | nil => simp at hl
      | cons i idx =>
        have hl' : idx.length = L.length := by simpa using hl
        simp only [axSum, List.zipWith_cons_cons]
        rw [List.map_congr_left fun j _ => by
          rw [axSum_sum L idx hl' (List.range B.1) (B.2 j) fun k js => axSum M js fun ks => F (k :: ks)]]
        have h : ∀ k, axSum L idx (fun js => axSum M js fun ks => F (k :: ks)) =
            axSum (List.zipWith axComp L M) idx fun ks => F (k :: ks) :=
          fun k => ih M (by simpa using hLM) idx hl' _
        simp only [h, axComp]
        generalize (fun k => axSum (List.zipWith axComp L M) idx fun ks => F (k :: ks)) = G
        simp only [← List.sum_map_mul_left, ← List.sum_map_mul_right, ← mul_assoc]
        generalize List.range A.1 = m
        generalize List.range B.1 = n
        induction m with
        | nil => simp
        | cons a m ihm => simp only [List.map_cons, List.sum_cons, ihm, List.sum_map_add]

theorem axSum_congr {L M : List (Nat × (Nat → Nat → R))} {idx : List Nat}
    (h : List.Forall₂ (fun (A : (Nat × (Nat → Nat → R)) × Nat) (B : Nat × (Nat → Nat → R)) =>
      A.1.1 = B.1 ∧ ∀ j < B.1, A.1.2 A.2 j = B.2 A.2 j) (L.zip idx) M) (hl : idx.length = L.length) (F : List Nat → R) :
    axSum L idx F = axSum M idx F := by
  induction L generalizing M idx F with
  | nil => cases idx with
    | nil => cases h; rfl
    | cons _ _ => simp at hl
  | cons A L ih => cases idx with
    | nil => simp at hl
    | cons i idx =>
      cases h with
      | cons h1 h2 =>
        simp only [axSum]
        rw [h1.1]
        congr 1
        apply List.map_congr_left
        intro j hj
        rw [h1.2 j (List.mem_range.1 hj), ih h2 (by simpa using hl)]

/-- With identities for all axes nothing changes. -/
theorem axSum_one {L : List (Nat × (Nat → Nat → R))} {idx : List Nat}
    (h : List.Forall₂ (fun (A : Nat × (Nat → Nat → R)) i => i < A.1 ∧ ∀ j < A.1, A.2 i j = if i = j then 1 else 0) L idx)
    (F : List Nat → R) : axSum L idx F = F idx := by
  induction h generalizing F with
  | nil => rfl
  | @cons A i L idx h1 _ ih =>
    simp only [axSum, ih]
    rw [sum_range_eq_finset, Finset.sum_eq_single i]
    · rw [h1.2 i h1.1, if_pos rfl, one_mul]
    · intro j hj hne
      rw [h1.2 j (Finset.mem_range.1 hj), if_neg hne.symm, zero_mul]
    · intro h
      exact absurd (Finset.mem_range.2 h1.1) h

/-- The rotation back. -/
theorem rotSum_back {sz : Nat → Nat} {C : Nat → Nat → Nat → R} (hC : Orthogonal sz C) (sp idx : List Nat)
    (hi : InBox (sp.map sz) idx) (F : List Nat → R) :
    rotSum sz (fun s i j => C s j i) sp idx (fun js => rotSum sz C sp js F) = F idx := by
  have hl : idx.length = sp.length := by simpa using InBox.length_eq hi
  simp only [rotSum_axSum]
  rw [axSum_comp _ _ (by simp) _ (by simpa using hl)]
  apply axSum_one
  unfold InBox at hi
  clear hl
  induction sp generalizing idx with
  | nil => cases hi; exact .nil
  | cons s sp ih =>
    cases hi with
    | cons h1 h2 =>
      refine .cons ⟨h1, fun j hj => ?_⟩ (ih _ h2)
      exact (hC s _ j h1 hj).1

end
end Ebcc
