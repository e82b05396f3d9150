import Verif.Lemmas.EinRename
import Verif.Model.GenCode
import Verif.Thms.C16
import Verif.Thms.C17
/-!
`einsum` with integer labels, as the generated code calls it.
-/

namespace Ebcc

section
variable {R : Type}

/-- The path finder returns valid paths. -/
def PathOk (path : List (List Char) → List Char → List (NDArray R) → List Contraction) : Prop :=
  ∀ subs outs arrs, 3 ≤ subs.length → ValidPath outs subs (path subs outs arrs)

/-- The symbol of an integer label. -/
def labelChar (i : Nat) : Char := einsumSymbols.getD i 'a'

theorem labelChar_mem {i : Nat} (h : i < 52) : labelChar i ∈ einsumSymbols := by
  have hl : i < einsumSymbols.length := h
  unfold labelChar
  rw [List.getD_eq_getElem?_getD, List.getElem?_eq_getElem hl]
  exact List.getElem_mem hl

theorem idxOf_labelChar {i : Nat} (h : i < 52) : einsumSymbols.idxOf (labelChar i) = i := by
  have hnd : einsumSymbols.Nodup := by decide +kernel
  have hl : i < einsumSymbols.length := h
  unfold labelChar
  rw [List.getD_eq_getElem?_getD, List.getElem?_eq_getElem hl]
  exact hnd.idxOf_getElem i hl

theorem labelChar_inj {i j : Nat} (hi : i < 52) (hj : j < 52) (h : labelChar i = labelChar j) : i = j := by
  rw [← idxOf_labelChar hi, ← idxOf_labelChar hj, h]

theorem letters_eq_labelChar (l : List Nat) : letters l = l.map labelChar := rfl

theorem einProd_depends [CommSemiring R] {κ : Type} (L : List (List κ × NDArray R)) :
    DependsOn (einProd L) fun i => ∃ x ∈ L, i ∈ x.1 :=
  fun e e' h => einProd_congr fun x hx c hc => h c ⟨x, hx, hc⟩

/-- The Einstein sum with integer labels and the one with letters. -/
theorem einValue_letters [CommSemiring R] (szl : Nat → Nat) (L : List (List Nat × NDArray R))
    (out : List Nat) (hlt : ∀ x ∈ L, ∀ i ∈ x.1, i < 52) (hlo : ∀ i ∈ out, i < 52) (e : Char → Nat) :
    einValue (fun c => szl (einsumSymbols.idxOf c)) (L.map fun x => (letters x.1, x.2)) (letters out) e
      = einValue szl L out fun i => e (labelChar i) := by
  unfold einValue
  have hmem : ∀ d ∈ einDummies (L.map Prod.fst) out, d < 52 := by
    intro d hd
    obtain ⟨⟨s, hs, hds⟩, _⟩ := mem_einDummies.1 hd
    obtain ⟨x, hx, rfl⟩ := List.mem_map.1 hs
    exact hlt x hx d hds
  rw [← einSum_rename szl (fun c => szl (einsumSymbols.idxOf c)) labelChar
    (einDummies (L.map Prod.fst) out) (einProd_depends L)
    (fun i ⟨x, hx, hi⟩ d hd h => labelChar_inj (hlt x hx i hi) (hmem d hd) h)
    (fun d hd => by rw [idxOf_labelChar (hmem d hd)]) e]
  have hperm : (einDummies ((L.map fun x => (letters x.1, x.2)).map Prod.fst) (letters out)).Perm
      ((einDummies (L.map Prod.fst) out).map labelChar) := by
    rw [List.perm_ext_iff_of_nodup (nodup_einDummies _ _)
      ((nodup_einDummies _ _).map_on fun a ha b hb h => labelChar_inj (hmem a ha) (hmem b hb) h)]
    intro c
    rw [mem_einDummies, List.mem_map]
    constructor
    · rintro ⟨⟨s, hs, hcs⟩, hc⟩
      rw [List.map_map, List.mem_map] at hs
      obtain ⟨x, hx, rfl⟩ := hs
      simp only [Function.comp, letters_eq_labelChar, List.mem_map] at hcs
      obtain ⟨i, hi, rfl⟩ := hcs
      refine ⟨i, mem_einDummies.2 ⟨⟨x.1, List.mem_map.2 ⟨x, hx, rfl⟩, hi⟩, fun ho => hc ?_⟩, rfl⟩
      rw [letters_eq_labelChar]
      exact List.mem_map_of_mem ho
    · rintro ⟨i, hi, rfl⟩
      have hi52 := hmem i hi
      obtain ⟨⟨s, hs, his⟩, ho⟩ := mem_einDummies.1 hi
      obtain ⟨x, hx, rfl⟩ := List.mem_map.1 hs
      refine ⟨⟨letters x.1, ?_, ?_⟩, fun h => ho ?_⟩
      · rw [List.map_map]; exact List.mem_map.2 ⟨x, hx, rfl⟩
      · rw [letters_eq_labelChar]; exact List.mem_map_of_mem his
      · rw [letters_eq_labelChar] at h
        obtain ⟨j, hj, hji⟩ := List.mem_map.1 h
        rw [← labelChar_inj (hlo j hj) hi52 hji]
        exact hj
  rw [einSum_perm _ hperm]
  congr 1
  funext e'
  simp only [einProd, List.map_map]
  congr 1
  apply List.map_congr_left
  intro x _
  simp [Function.comp_def, letters_eq_labelChar]

/-- `einsum` with integer labels returns the Einstein sum. -/
theorem einsum_labels_ok [CommRing R] [DecidableEq R] (method : ContractMethod)
    (path : List (List Char) → List Char → List (NDArray R) → List Contraction) (hpath : PathOk path)
    (szl : Nat → Nat) (L : List (NDArray R × List Nat)) (out : List Nat) (hne : L ≠ [])
    (hlt : ∀ x ∈ L, ∀ i ∈ x.2, i < 52) (hno : out.Nodup) (hsub : ∀ i ∈ out, ∃ x ∈ L, i ∈ x.2)
    (hL : ∀ x ∈ L, x.1.shape = x.2.map szl) :
    ∃ r, einsum method path (einArgs L out) 1 0 none = .ok r ∧ r.shape = out.map szl ∧ r.WF ∧
      ∀ e : Nat → Nat, (∀ i ∈ out, e i < szl i) →
        r.get (out.map e) = einValue szl (L.map Prod.swap) out e := by
  have hlo : ∀ i ∈ out, i < 52 := fun i hi => by
    obtain ⟨x, hx, hix⟩ := hsub i hi
    exact hlt x hx i hix
  obtain ⟨sz, hszdef⟩ : ∃ sz : Char → Nat, sz = fun c => szl (einsumSymbols.idxOf c) := ⟨_, rfl⟩
  have hsz : ∀ l : List Nat, (∀ i ∈ l, i < 52) → (letters l).map sz = l.map szl := by
    intro l hl
    rw [letters_eq_labelChar, List.map_map]
    apply List.map_congr_left
    intro i hi
    simp only [Function.comp, hszdef, idxOf_labelChar (hl i hi)]
  have hnoC : (letters out).Nodup := by
    rw [letters_eq_labelChar]
    exact hno.map_on fun a ha b hb h => labelChar_inj (hlo a ha) (hlo b hb) h
  -- the call in string form
  obtain ⟨LC, hLC⟩ : ∃ LC : List (List Char × NDArray R), LC = L.map fun x => (letters x.2, x.1) := ⟨_, rfl⟩
  have hstr : ∃ r, einsum method path (.str (subscriptText (LC.map Prod.fst) (letters out)) ::
      (LC.map Prod.snd).map .arr) 1 0 none = .ok r ∧ r.shape = (letters out).map sz ∧ r.WF ∧
      ∀ e : Char → Nat, (∀ c ∈ letters out, e c < sz c) →
        r.get ((letters out).map e) = einValue sz LC (letters out) e := by
    have hsymC : ∀ x ∈ LC, ∀ c ∈ x.1, c ∈ einsumSymbols := by
      intro x hx c hc
      rw [hLC] at hx
      obtain ⟨y, hy, rfl⟩ := List.mem_map.1 hx
      simp only [letters_eq_labelChar, List.mem_map] at hc
      obtain ⟨i, hi, rfl⟩ := hc
      exact labelChar_mem (hlt y hy i hi)
    have hshC : ∀ x ∈ LC, x.2.shape = x.1.map sz := by
      intro x hx
      rw [hLC] at hx
      obtain ⟨y, hy, rfl⟩ := List.mem_map.1 hx
      rw [hsz _ (hlt y hy), hL y hy]
    have hsubC : ∀ c ∈ letters out, ∃ x ∈ LC, c ∈ x.1 := by
      intro c hc
      rw [letters_eq_labelChar, List.mem_map] at hc
      obtain ⟨i, hi, rfl⟩ := hc
      obtain ⟨y, hy, hiy⟩ := hsub i hi
      refine ⟨(letters y.2, y.1), ?_, ?_⟩
      · rw [hLC]; exact List.mem_map.2 ⟨y, hy, rfl⟩
      · rw [letters_eq_labelChar]; exact List.mem_map_of_mem hiy
    have hneC : LC ≠ [] := fun h => hne (List.map_eq_nil_iff.1 (hLC.symm.trans h))
    clear hLC
    rcases LC with _ | ⟨⟨ia, a⟩, _ | ⟨⟨ib, b⟩, _ | ⟨z, LC'⟩⟩⟩
    · exact absurd rfl hneC
    · obtain ⟨r, r1, r2, r3, r4⟩ := C15_einsum_one method path sz ia (letters out) a 1 0 none
        (hsymC (ia, a) (by simp)) (hshC (ia, a) (by simp)) hnoC (by simpa using hsubC) (by simp)
      refine ⟨r, ?_, r2, r3, fun e he => ?_⟩
      · simpa [subscriptText, commaJoin] using r1
      · rw [r4 e he]; simp [outTerm]
    · obtain ⟨r, r1, r2, r3, r4⟩ := C15_einsum_two method path sz ia ib (letters out) a b 1 0 none
        (hsymC (ia, a) (by simp)) (hsymC (ib, b) (by simp)) (hshC (ia, a) (by simp))
        (hshC (ib, b) (by simp)) hnoC (by simpa using hsubC) (by simp)
      refine ⟨r, ?_, r2, r3, fun e he => ?_⟩
      · simpa [subscriptText, commaJoin] using r1
      · rw [r4 e he]; simp [outTerm]
    · exact C17_einsum_chain method path sz (letters out) ((ia, a) :: (ib, b) :: z :: LC') (by simp) hsymC hnoC
        hshC hsubC (hpath _ _ _ (by simp))
  obtain ⟨r, r1, r2, r3, r4⟩ := hstr
  refine ⟨r, ?_, ?_, r3, fun e he => ?_⟩
  · have htext : listText L (some out) = subscriptText (LC.map Prod.fst) (letters out) := by
      simp only [listText, subscriptText, hLC, List.map_map, Function.comp_def, List.append_assoc]
    have harr : (LC.map Prod.snd) = L.map Prod.fst := by
      rw [hLC, List.map_map]; rfl
    have hform := C16_list_form L (some out) hne hlt (by simpa using hlo)
      (by simp [listText])
    rw [htext] at hform
    rw [harr] at r1
    have e1 : einArgs L out = listArgs L (some out) := rfl
    rw [e1]
    unfold einsum at r1 ⊢
    cases hp : parseEinsumInput (.str (subscriptText (LC.map Prod.fst) (letters out)) ::
        (L.map Prod.fst).map .arr) with
    | error x => rw [hp] at r1; cases r1
    | ok x =>
      rw [hp] at r1
      rw [(hform x).2 hp]
      exact r1
  · rw [r2, hsz out hlo]
  · have h := r4 (fun c => e (einsumSymbols.idxOf c)) (by
      intro c hc
      rw [letters_eq_labelChar, List.mem_map] at hc
      obtain ⟨i, hi, rfl⟩ := hc
      simp only [hszdef, idxOf_labelChar (hlo i hi)]
      exact he i hi)
    have e1 : (letters out).map (fun c => e (einsumSymbols.idxOf c)) = out.map e := by
      rw [letters_eq_labelChar, List.map_map]
      apply List.map_congr_left
      intro i hi
      simp only [Function.comp, idxOf_labelChar (hlo i hi)]
    rw [e1] at h
    rw [h]
    have e2 : LC = (L.map Prod.swap).map fun x => (letters x.1, x.2) := by
      rw [hLC, List.map_map]; rfl
    rw [e2, hszdef, einValue_letters szl _ out (by
      intro x hx
      obtain ⟨y, hy, rfl⟩ := List.mem_map.1 hx
      exact hlt y hy) hlo]
    apply einValue_congr
    intro i hi
    simp only [idxOf_labelChar (hlo i hi)]

end
end Ebcc
