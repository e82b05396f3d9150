import Verif.Lemmas.EinSumSpec
/-!
Renaming the symbols of an Einstein sum, products and sums of Einstein sums.
-/

namespace Ebcc

section
variable {κ κ' R : Type} [DecidableEq κ] [DecidableEq κ']

/-- `F` depends on the symbols of `I` only. -/
def DependsOn (F : (κ → Nat) → R) (I : κ → Prop) : Prop := ∀ e e', (∀ i, I i → e i = e' i) → F e = F e'

omit [DecidableEq κ] in
theorem DependsOn.mono {F : (κ → Nat) → R} {I J : κ → Prop} (h : DependsOn F I) (hIJ : ∀ i, I i → J i) :
    DependsOn F J := fun e e' he => h e e' fun i hi => he i (hIJ i hi)

/-- Values of symbols on which the summand does not depend are irrelevant. -/
theorem einSum_depends [AddMonoid R] (sz : κ → Nat) (ds : List κ) {F : (κ → Nat) → R} {I : κ → Prop}
    (hF : DependsOn F I) : DependsOn (einSum sz ds F) fun i => I i ∧ i ∉ ds := by
  induction ds with
  | nil => exact fun e e' h => hF e e' fun i hi => h i ⟨hi, by simp⟩
  | cons d ds ih =>
    intro e e' h
    simp only [einSum]
    congr 1
    apply List.map_congr_left
    intro v _
    apply ih
    rintro i ⟨hi, hid⟩
    by_cases hd : i = d
    · subst hd; simp
    · rw [Function.update_of_ne hd, Function.update_of_ne hd]
      exact h i ⟨hi, by simp [hd, hid]⟩

/-- Renaming of the summed symbols. -/
theorem einSum_rename [AddMonoid R] (sz : κ → Nat) (sz' : κ' → Nat) (σ : κ → κ') (ds : List κ)
    {F : (κ → Nat) → R} {I : κ → Prop} (hF : DependsOn F I)
    (hinj : ∀ i, I i → ∀ d ∈ ds, σ i = σ d → i = d) (hsz : ∀ d ∈ ds, sz' (σ d) = sz d) (e : κ' → Nat) :
    einSum sz' (ds.map σ) (fun e' => F fun i => e' (σ i)) e = einSum sz ds F fun i => e (σ i) := by
  induction ds generalizing e with
  | nil => rfl
  | cons d ds ih =>
    simp only [List.map_cons, einSum]
    rw [hsz d (by simp)]
    congr 1
    apply List.map_congr_left
    intro v _
    rw [ih (fun i hi d' hd' => hinj i hi d' (by simp [hd'])) (fun d' hd' => hsz d' (by simp [hd']))]
    apply einSum_depends sz ds hF
    rintro i ⟨hi, _⟩
    by_cases hid : i = d
    · subst hid; simp
    · rw [Function.update_of_ne hid, Function.update_of_ne]
      exact fun h => hid (hinj i hi d (by simp) h)

theorem einSum_const_mul [CommSemiring R] (sz : κ → Nat) (ds : List κ) (c : R) (F : (κ → Nat) → R)
    (e : κ → Nat) : einSum sz ds (fun e' => c * F e') e = c * einSum sz ds F e :=
  einSum_mul_left sz ds (fun _ => c) F e fun _ _ => rfl

/-- Product of two Einstein sums over different symbols. -/
theorem einSum_mul [CommSemiring R] (sz : κ → Nat) (ds ds' : List κ) {F G : (κ → Nat) → R}
    {I J : κ → Prop} (hF : DependsOn F I) (hG : DependsOn G J) (hI : ∀ d ∈ ds', ¬ I d)
    (hJ : ∀ d ∈ ds, ¬ J d) (e : κ → Nat) :
    einSum sz (ds ++ ds') (fun e' => F e' * G e') e = einSum sz ds F e * einSum sz ds' G e := by
  rw [einSum_append]
  rw [einSum_congr (G := fun e' => einSum sz ds' G e' * F e') sz ds fun e' h1 h2 => ?_]
  · rw [einSum_mul_left sz ds (einSum sz ds' G) F e, mul_comm]
    intro e' he'
    apply einSum_depends sz ds' hG
    rintro i ⟨hi, _⟩
    exact he' i fun hid => hJ i hid hi
  · rw [einSum_mul_left sz ds' F G e', mul_comm]
    intro e'' he''
    apply hF
    intro i hi
    exact he'' i fun hid => hI i hid hi

theorem einSum_zero [AddMonoid R] (sz : κ → Nat) (ds : List κ) (e : κ → Nat) :
    einSum sz ds (fun _ => (0 : R)) e = 0 := by
  induction ds generalizing e with
  | nil => rfl
  | cons d ds ih => simp [einSum, ih]

theorem einSum_list_sum [AddCommMonoid R] {α : Type} (sz : κ → Nat) (ds : List κ) (l : List α)
    (F : α → (κ → Nat) → R) (e : κ → Nat) :
    einSum sz ds (fun e' => (l.map fun a => F a e').sum) e = (l.map fun a => einSum sz ds (F a) e).sum := by
  induction l with
  | nil => simp [einSum_zero]
  | cons a l ih =>
    simp only [List.map_cons, List.sum_cons]
    rw [einSum_add, ih]

end
end Ebcc
