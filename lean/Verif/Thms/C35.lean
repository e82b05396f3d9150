import Verif.Thms.C33

/-!
C35: vectors of wrong length.  Shorter vectors raise; longer vectors are accepted by the restricted and the
general class, which ignore the surplus elements.  (For the unrestricted class see `C34_wrong_length`.)
-/

namespace Ebcc

theorem reshapeItem_err {R : Type} (n : List Char) (s : List Nat) (vec : List R) (i : Nat) (e : PyErr)
    (h : (reshapeItem R n s).un vec i = .error e) : e = .valueError := by
  simp only [reshapeItem, NDArray.reshape, Except.map] at h
  split at h
  · rename_i hr
    cases h
    split at hr
    · cases hr
    · cases hr; rfl
  · cases h

theorem unItems_err {R : Type} (l : List (List Char × List Nat)) (vec : List R)
    (st : Dict (List Char) (NDArray R) × Nat) (e : PyErr)
    (h : unItems (itemsOf R l) vec st = .error e) : e = .valueError := by
  induction l generalizing st with
  | nil => cases h
  | cons p l ih =>
    unfold unItems itemsOf at h ih
    rw [List.map_cons, List.foldlM_cons] at h
    simp only [bind, Except.bind, pure, Except.pure] at h
    cases hu : (reshapeItem R p.1 p.2).un vec st.2 with
    | error e' =>
      simp only [hu, Except.error.injEq] at h
      subst h
      exact reshapeItem_err _ _ _ _ _ hu
    | ok q =>
      simp only [hu] at h
      exact ih _ h

/-- Restricted and general: a vector is accepted exactly when it has at least the length of the ansatz, a
shorter one raises `ValueError`, and of a longer one the surplus is ignored. -/
theorem C35_lengths_partial {R : Type} {a : Ansatz} {spin : SpinType} {which : Which} {fs bs : List Rank}
    {cs : List CRank} (h : HasRanks a spin which fs bs cs) (space : Space) (nbos : Nat)
    (hne : layout space nbos fs bs cs ≠ []) (hnd : ((layout space nbos fs bs cs).map fun p => p.1).Nodup)
    (x : List R) :
    (x.length < layoutSize (layout space nbos fs bs cs) ↔
      vectorToAmplitudes a spin which space nbos x = .error .valueError) ∧
    (layoutSize (layout space nbos fs bs cs) ≤ x.length →
      ∃ T, vectorToAmplitudes a spin which space nbos x = .ok T ∧
        amplitudesToVector a spin which T = .ok (x.take (layoutSize (layout space nbos fs bs cs)))) := by
  have key : layoutSize (layout space nbos fs bs cs) ≤ x.length →
      ∃ T, vectorToAmplitudes a spin which space nbos x = .ok T ∧
        amplitudesToVector a spin which T = .ok (x.take (layoutSize (layout space nbos fs bs cs))) := by
    intro hx
    obtain ⟨T, h1, _, _, h2⟩ := vector_vector h space nbos hne hnd
      (x.take (layoutSize (layout space nbos fs bs cs))) (by rw [List.length_take]; omega)
      (x.drop (layoutSize (layout space nbos fs bs cs)))
    rw [List.take_append_drop] at h1
    exact ⟨T, h1, h2⟩
  refine ⟨⟨fun hx => ?_, fun he => ?_⟩, key⟩
  · rw [vectorToAmplitudes_eq h]
    cases hu : unItems (itemsOf R (layout space nbos fs bs cs)) x ([], 0) with
    | error e => rw [unItems_err _ _ _ _ hu]; rfl
    | ok st =>
      have h1 := unItems_long _ _ _ _ (Nat.zero_le _) hu
      have h2 := items_pos _ (itemsOf_ok R _) _ _ _ hu
      rw [totalSize_itemsOf] at h2
      simp only at h2
      omega
  · by_contra hx
    obtain ⟨T, h1, _⟩ := key (by omega)
    rw [h1] at he
    cases he

/-- A vector that is too long is accepted: the claim is false of the restricted and general classes. -/
theorem C35_long_vector_accepted {R : Type} {a : Ansatz} {spin : SpinType} {which : Which} {fs bs : List Rank}
    {cs : List CRank} (h : HasRanks a spin which fs bs cs) (space : Space) (nbos : Nat)
    (hne : layout space nbos fs bs cs ≠ []) (hnd : ((layout space nbos fs bs cs).map fun p => p.1).Nodup)
    (x : List R) (hx : layoutSize (layout space nbos fs bs cs) < x.length) :
    ∃ T, vectorToAmplitudes a spin which space nbos x = .ok T := by
  obtain ⟨T, hT, _⟩ := (C35_lengths_partial h space nbos hne hnd x).2 hx.le
  exact ⟨T, hT⟩

example : (vectorToAmplitudes ⟨"CCD".toList, [], 0, 0, false, none⟩ .R .t space12 0 [1, 2, 3] :
    Except PyErr (Dict (List Char) (NDArray Int))) = .error .valueError := by decide +kernel

example : (vectorToAmplitudes ⟨"CCD".toList, [], 0, 0, false, none⟩ .R .t space12 0 [1, 2, 3, 4, 5] :
    Except PyErr (Dict (List Char) (NDArray Int))) = .ok [("t2".toList, ⟨[1, 1, 2, 2], [1, 2, 3, 4]⟩)] := by
  decide +kernel

end Ebcc
