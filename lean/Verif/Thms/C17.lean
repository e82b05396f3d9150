import Verif.Thms.C15
import Verif.Lemmas.EinsumParse

/-!
C17: a chain of pairwise contractions along any valid contraction path is the Einstein sum over all
indices that are absent from the output.
-/

namespace Ebcc

section
variable {R : Type}

/-- A valid contraction path for operands with the given labels.  Every step removes operands, and
appends one whose label has each symbol of the removed operands that is still needed, by the output
or by another operand, once and in any order.  The last step consumes all operands and has the label
of the output.  This is what `numpy.einsum_path` returns. -/
inductive ValidPath (outs : List Char) : List (List Char) → List Contraction → Prop
  | last (subs : List (List Char)) (c : Contraction) (hne : c.strIn ≠ [])
      (hpop : popAll c.inds subs = .ok (c.strIn, [])) (hout : c.strOut = outs) : ValidPath outs subs [c]
  | step (subs rest : List (List Char)) (c : Contraction) (cs : List Contraction) (hne : c.strIn ≠ [])
      (hpop : popAll c.inds subs = .ok (c.strIn, rest)) (hnd : c.strOut.Nodup)
      (hout : ∀ x, x ∈ c.strOut ↔ (∃ s ∈ c.strIn, x ∈ s) ∧ (x ∈ outs ∨ ∃ s ∈ rest, x ∈ s))
      (hrest : ValidPath outs (rest ++ [c.strOut]) cs) : ValidPath outs subs (c :: cs)

theorem popAll_map {α β : Type} (f : α → β) : ∀ (is : List Nat) (l : List α) (p q : List β),
    popAll is (l.map f) = .ok (p, q) → ∃ p' q', popAll is l = .ok (p', q') ∧ p = p'.map f ∧ q = q'.map f
  | [], l, p, q, h => by cases h; exact ⟨[], l, rfl, rfl, rfl⟩
  | i :: is, l, p, q, h => by
    unfold popAll at h ⊢
    rw [List.getElem?_map] at h
    cases ha : l[i]? with
    | none => rw [ha] at h; cases h
    | some a =>
      rw [ha] at h
      simp only [Option.map_some] at h ⊢
      have he : (l.map f).eraseIdx i = (l.eraseIdx i).map f := by rw [List.eraseIdx_map]
      rw [he] at h
      cases hr : popAll is ((l.eraseIdx i).map f) with
      | error x => rw [hr] at h; cases h
      | ok r =>
        rw [hr] at h
        cases h
        obtain ⟨p', q', h1, h2, h3⟩ := popAll_map f is _ _ _ hr
        rw [h1]
        exact ⟨a :: p', q', rfl, by simp [h2], h3⟩

theorem popAll_map' {α β : Type} (f : α → β) : ∀ (is : List Nat) (l p q : List α),
    popAll is l = .ok (p, q) → popAll is (l.map f) = .ok (p.map f, q.map f)
  | [], l, p, q, h => by cases h; rfl
  | i :: is, l, p, q, h => by
    unfold popAll at h ⊢
    rw [List.getElem?_map]
    cases ha : l[i]? with
    | none => rw [ha] at h; cases h
    | some a =>
      rw [ha] at h
      simp only [Option.map_some] at h ⊢
      rw [List.eraseIdx_map]
      cases hr : popAll is (l.eraseIdx i) with
      | error x => rw [hr] at h; cases h
      | ok r =>
        rw [hr] at h
        cases h
        rw [popAll_map' f is _ _ _ hr]
        rfl

theorem popAll_perm {α : Type} : ∀ (is : List Nat) (l p q : List α),
    popAll is l = .ok (p, q) → l.Perm (p ++ q)
  | [], l, p, q, h => by cases h; exact .refl _
  | i :: is, l, p, q, h => by
    unfold popAll at h
    cases ha : l[i]? with
    | none => rw [ha] at h; cases h
    | some a =>
      rw [ha] at h
      simp only at h
      cases hr : popAll is (l.eraseIdx i) with
      | error x => rw [hr] at h; cases h
      | ok r =>
        rw [hr] at h
        cases h
        obtain ⟨hi, rfl⟩ := List.getElem?_eq_some_iff.1 ha
        exact (List.getElem_cons_eraseIdx_perm hi).symm.trans ((popAll_perm is _ _ _ hr).cons _)

theorem chainContract_ok [CommRing R] (method : ContractMethod) (sz : Char → Nat)
    (P : List (List Char × NDArray R)) (strOut : List Char) (hP : ∀ x ∈ P, Sized sz x)
    (hnd : strOut.Nodup) (hsub : ∀ c ∈ strOut, ∃ x ∈ P, c ∈ x.1) :
    ∃ r, chainContract method (P.map Prod.fst) strOut (P.map Prod.snd) = .ok r ∧
      r.shape = strOut.map sz ∧ r.WF ∧ ∀ e : Char → Nat, (∀ c ∈ strOut, e c < sz c) →
        r.get (strOut.map e) = einValue sz P strOut e := by
  have hn := numpyEinsum_ok sz P strOut hP hsub
  match P with
  | [] => simpa [chainContract] using hn
  | [x] =>
    obtain ⟨y, y1, y2, y3, y4⟩ := hn
    obtain ⟨r, r1, r2, r3, r4⟩ := scaleAdd_ok y y3 (1 : R) 0 none (by simp)
    refine ⟨r, ?_, r2.trans y2, r3, fun e he => ?_⟩
    · simp [chainContract, transposeBackend, y1, r1, bind, Except.bind]
    · rw [r4 _ (by rw [y2]; exact inBox_map sz e strOut he), y4 e he]; simp [outTerm]
  | [x, y] =>
    have hs : ∀ c ∈ strOut, c ∈ x.1 ∨ c ∈ y.1 := by simpa using hsub
    have hx : x.2.shape = x.1.map sz := hP x (by simp)
    have hy : y.2.shape = y.1.map sz := hP y (by simp)
    have hc : ∃ r, contractWith method x.1 y.1 strOut x.2 y.2 1 0 none = .ok r ∧
        r.shape = strOut.map sz ∧ r.WF ∧ ∀ e : Char → Nat, (∀ c ∈ strOut, e c < sz c) →
          r.get (strOut.map e) = 1 * einValue sz [(x.1, x.2), (y.1, y.2)] strOut e
            + outTerm 0 none (strOut.map e) := by
      cases method
      · exact C15_contract_backend sz _ _ _ _ _ 1 0 none hx hy hs (by simp)
      · exact C15_contract_ttgt sz _ _ _ _ _ 1 0 none hx hy hnd hs (by simp)
    obtain ⟨r, r1, r2, r3, r4⟩ := hc
    refine ⟨r, r1, r2, r3, fun e he => ?_⟩
    rw [r4 e he]; simp [outTerm]
  | x :: y :: z :: P =>
    have : ∀ l : List (List Char × NDArray R), (l.map Prod.fst).zip (l.map Prod.snd) = l := by
      intro l; induction l with
      | nil => rfl
      | cons a l ih => simp [ih]
    simpa [chainContract, this] using hn

theorem einProd_append [CommSemiring R] (P Q : List (List Char × NDArray R)) (e : Char → Nat) :
    einProd (P ++ Q) e = einProd P e * einProd Q e := by
  simp [einProd]

theorem einProd_perm [CommSemiring R] {P Q : List (List Char × NDArray R)} (h : P.Perm Q)
    (e : Char → Nat) : einProd P e = einProd Q e :=
  (h.map _).prod_eq

/-- Replacing some operands by their contraction keeps the Einstein sum. -/
theorem einValue_contract [CommRing R] (sz : Char → Nat) (L P Q : List (List Char × NDArray R))
    (strOut outs : List Char) (r : NDArray R) (hperm : L.Perm (P ++ Q))
    (hout : ∀ x, x ∈ strOut ↔ (∃ p ∈ P, x ∈ p.1) ∧ (x ∈ outs ∨ ∃ q ∈ Q, x ∈ q.1))
    (hr : ∀ e : Char → Nat, (∀ c ∈ strOut, e c < sz c) →
      r.get (strOut.map e) = einValue sz P strOut e)
    (e : Char → Nat) (he : ∀ c ∈ outs, e c < sz c) :
    einValue sz L outs e = einValue sz (Q ++ [(strOut, r)]) outs e := by
  have hL : ∀ x, (∃ s ∈ L.map Prod.fst, x ∈ s) ↔ (∃ p ∈ P, x ∈ p.1) ∨ ∃ q ∈ Q, x ∈ q.1 := by
    intro x
    constructor
    · rintro ⟨s, hs, hx⟩
      obtain ⟨y, hy, rfl⟩ := List.mem_map.1 hs
      rcases List.mem_append.1 (hperm.mem_iff.1 hy) with h | h
      · exact Or.inl ⟨y, h, hx⟩
      · exact Or.inr ⟨y, h, hx⟩
    · rintro (⟨y, hy, hx⟩ | ⟨y, hy, hx⟩)
      · exact ⟨y.1, List.mem_map.2 ⟨y, hperm.mem_iff.2 (by simp [hy]), rfl⟩, hx⟩
      · exact ⟨y.1, List.mem_map.2 ⟨y, hperm.mem_iff.2 (by simp [hy]), rfl⟩, hx⟩
  have hPm : ∀ x, (∃ s ∈ P.map Prod.fst, x ∈ s) ↔ ∃ p ∈ P, x ∈ p.1 := by
    intro x
    constructor
    · rintro ⟨s, hs, hx⟩
      obtain ⟨y, hy, rfl⟩ := List.mem_map.1 hs
      exact ⟨y, hy, hx⟩
    · rintro ⟨y, hy, hx⟩
      exact ⟨y.1, List.mem_map.2 ⟨y, hy, rfl⟩, hx⟩
  have hQm : ∀ x, (∃ s ∈ (Q ++ [(strOut, r)]).map Prod.fst, x ∈ s)
      ↔ (∃ q ∈ Q, x ∈ q.1) ∨ x ∈ strOut := by
    intro x
    constructor
    · rintro ⟨s, hs, hx⟩
      obtain ⟨y, hy, rfl⟩ := List.mem_map.1 hs
      rcases List.mem_append.1 hy with h | h
      · exact Or.inl ⟨y, h, hx⟩
      · rw [List.mem_singleton] at h; subst h; exact Or.inr hx
    · rintro (⟨y, hy, hx⟩ | hx)
      · exact ⟨y.1, List.mem_map.2 ⟨y, by simp [hy], rfl⟩, hx⟩
      · exact ⟨strOut, List.mem_map.2 ⟨(strOut, r), by simp, rfl⟩, hx⟩
  obtain ⟨D1, hD1⟩ : ∃ D, D = einDummies ((Q ++ [(strOut, r)]).map Prod.fst) outs := ⟨_, rfl⟩
  obtain ⟨D2, hD2⟩ : ∃ D, D = einDummies (P.map Prod.fst) strOut := ⟨_, rfl⟩
  have m1 : ∀ x, x ∈ D1 ↔ ((∃ q ∈ Q, x ∈ q.1) ∨ x ∈ strOut) ∧ x ∉ outs := by
    intro x; rw [hD1, mem_einDummies, hQm]
  have m2 : ∀ x, x ∈ D2 ↔ (∃ p ∈ P, x ∈ p.1) ∧ x ∉ strOut := by
    intro x; rw [hD2, mem_einDummies, hPm]
  have hsplit : (einDummies (L.map Prod.fst) outs).Perm (D1 ++ D2) := by
    rw [List.perm_ext_iff_of_nodup (nodup_einDummies _ _)]
    · intro x
      rw [mem_einDummies, hL, List.mem_append, m1, m2, hout]
      generalize (∃ p ∈ P, x ∈ p.1) = p1
      generalize (∃ q ∈ Q, x ∈ q.1) = p2
      tauto
    · rw [List.nodup_append]
      refine ⟨hD1 ▸ nodup_einDummies _ _, hD2 ▸ nodup_einDummies _ _, ?_⟩
      rintro x hx y hy rfl
      have h1 := (m1 x).1 hx
      have h2 := (m2 x).1 hy
      have h3 := hout x
      revert h1 h2 h3
      generalize (∃ p ∈ P, x ∈ p.1) = p1
      generalize (∃ q ∈ Q, x ∈ q.1) = p2
      tauto
  rw [einValue, einSum_perm sz hsplit, einSum_append, einValue, ← hD1]
  apply einSum_congr
  intro e' h1 h2
  have hb : ∀ c ∈ strOut, e' c < sz c := by
    intro c hc
    by_cases ho : c ∈ outs
    · rw [h1 c (fun h => ((m1 c).1 h).2 ho)]; exact he c ho
    · exact h2 c ((m1 c).2 ⟨Or.inr hc, ho⟩)
  rw [einProd_append]
  have hsing : einProd [(strOut, r)] e' = r.get (strOut.map e') := by simp [einProd]
  rw [hsing, hr e' hb, einValue, ← hD2, ← einSum_mul_left]
  · apply einSum_congr
    intro e'' _ _
    rw [einProd_perm hperm, einProd_append, mul_comm]
  · intro e'' h3
    apply einProd_congr
    intro x hx c hc
    apply h3
    intro hc2
    have h4 := (m2 c).1 hc2
    exact h4.2 ((hout c).2 ⟨h4.1, Or.inr ⟨x, hx, hc⟩⟩)

/-- Evaluation along any valid path, for any number of operands and either contraction method, is the
Einstein sum with the axes of the output in the requested order. -/
theorem C17_chain_is_einstein_sum [CommRing R] (method : ContractMethod) (sz : Char → Nat)
    (outs : List Char) (hno : outs.Nodup) (cs : List Contraction) (L : List (List Char × NDArray R))
    (hL : ∀ x ∈ L, x.2.shape = x.1.map sz) (hsub : ∀ c ∈ outs, ∃ x ∈ L, c ∈ x.1)
    (hpath : ValidPath outs (L.map Prod.fst) cs) (res : Option (NDArray R)) :
    ∃ r, chainLoop method cs (L.map Prod.snd) res = .ok (some r) ∧ r.shape = outs.map sz ∧ r.WF ∧
      ∀ e : Char → Nat, (∀ c ∈ outs, e c < sz c) → r.get (outs.map e) = einValue sz L outs e := by
  obtain ⟨subs, hsubs⟩ : ∃ subs, subs = L.map Prod.fst := ⟨_, rfl⟩
  rw [← hsubs] at hpath
  induction hpath generalizing L res with
  | last subs c hne hpop hout =>
    subst hsubs
    obtain ⟨P, Q, h1, h2, h3⟩ := popAll_map Prod.fst _ _ _ _ hpop
    have hQ : Q = [] := by simpa using h3.symm
    subst hQ
    have hp := popAll_perm _ _ _ _ h1
    rw [List.append_nil] at hp
    obtain ⟨r, r1, r2, r3, r4⟩ := chainContract_ok method sz P outs
      (fun x hx => hL x (hp.mem_iff.2 hx)) hno fun c hc => by
        obtain ⟨x, hx, hcx⟩ := hsub c hc
        exact ⟨x, hp.mem_iff.1 hx, hcx⟩
    refine ⟨r, ?_, r2, r3, fun e he => ?_⟩
    · unfold chainLoop
      rw [popAll_map' Prod.snd _ _ _ _ h1]
      simp only [bind, Except.bind]
      rw [h2, hout, r1]
      rfl
    · rw [r4 e he, einValue, einValue]
      rw [einSum_perm sz (ds' := einDummies (L.map Prod.fst) outs)]
      · apply einSum_congr
        intro e' _ _
        exact (einProd_perm hp e').symm
      · rw [List.perm_ext_iff_of_nodup (nodup_einDummies _ _) (nodup_einDummies _ _)]
        intro x
        rw [mem_einDummies, mem_einDummies]
        have : ∀ s, s ∈ P.map Prod.fst ↔ s ∈ L.map Prod.fst := fun s => (hp.symm.map Prod.fst).mem_iff
        simp only [this]
  | step subs rest c cs hne hpop hnd hout hrest ih =>
    subst hsubs
    obtain ⟨P, Q, h1, h2, h3⟩ := popAll_map Prod.fst _ _ _ _ hpop
    have hp := popAll_perm _ _ _ _ h1
    have hout' : ∀ x, x ∈ c.strOut ↔ (∃ p ∈ P, x ∈ p.1) ∧ (x ∈ outs ∨ ∃ q ∈ Q, x ∈ q.1) := by
      intro x
      rw [hout x, h2, h3]
      simp
    obtain ⟨r, r1, r2, r3, r4⟩ := chainContract_ok method sz P c.strOut
      (fun x hx => hL x (hp.mem_iff.2 (by simp [hx]))) hnd fun x hx => ((hout' x).1 hx).1
    obtain ⟨f, f1, f2, f3, f4⟩ := ih (Q ++ [(c.strOut, r)])
      (by
        intro x hx
        rcases List.mem_append.1 hx with h | h
        · exact hL x (hp.mem_iff.2 (by simp [h]))
        · rw [List.mem_singleton] at h; subst h; exact r2)
      (by
        intro x hx
        obtain ⟨y, hy, hxy⟩ := hsub x hx
        rcases List.mem_append.1 (hp.mem_iff.1 hy) with h | h
        · exact ⟨(c.strOut, r), by simp, (hout' x).2 ⟨⟨y, h, hxy⟩, Or.inl hx⟩⟩
        · exact ⟨y, by simp [h], hxy⟩)
      (some r) (by simp [h3])
    refine ⟨f, ?_, f2, f3, fun e he => ?_⟩
    · unfold chainLoop
      rw [popAll_map' Prod.snd _ _ _ _ h1]
      simp only [bind, Except.bind]
      rw [h2, r1]
      simpa using f1
    · rw [f4 e he, einValue_contract sz L P Q c.strOut outs r hp hout' r4 e he]

/-- The result does not depend on the path nor on the contraction method. -/
theorem C17_path_independent [CommRing R] (method method' : ContractMethod) (sz : Char → Nat)
    (outs : List Char) (hno : outs.Nodup) (cs cs' : List Contraction)
    (L : List (List Char × NDArray R)) (hL : ∀ x ∈ L, x.2.shape = x.1.map sz)
    (hsub : ∀ c ∈ outs, ∃ x ∈ L, c ∈ x.1) (hpath : ValidPath outs (L.map Prod.fst) cs)
    (hpath' : ValidPath outs (L.map Prod.fst) cs') :
    chainLoop method cs (L.map Prod.snd) none = chainLoop method' cs' (L.map Prod.snd) none := by
  obtain ⟨r, r1, r2, r3, r4⟩ := C17_chain_is_einstein_sum method sz outs hno cs L hL hsub hpath none
  obtain ⟨s, s1, s2, s3, s4⟩ := C17_chain_is_einstein_sum method' sz outs hno cs' L hL hsub hpath' none
  rw [r1, s1]
  have : r = s := by
    refine NDArray.ext_get r3 s3 (r2.trans s2.symm) fun idx hidx => ?_
    rw [r2] at hidx
    obtain ⟨e, rfl, he⟩ := map_of_inBox hno hidx
    rw [r4 e he, s4 e he]
  rw [this]

/-- The subscript string of labels and output. -/
def subscriptText (subs : List (List Char)) (outs : List Char) : List Char :=
  commaJoin subs ++ "->".toList ++ outs

theorem parse_subscript [Neg R] (subs : List (List Char)) (outs : List Char) (arrs : List (NDArray R))
    (hsym : ∀ s ∈ subs, ∀ c ∈ s, c ∈ einsumSymbols) (hno : outs.Nodup)
    (hsub : ∀ c ∈ outs, ∃ s ∈ subs, c ∈ s) :
    parseEinsumInput (.str (subscriptText subs outs) :: arrs.map .arr)
      = .ok (commaJoin subs, outs, arrs) := by
  have hu : SymComma (commaJoin subs) := symComma_join hsym
  have hv : SymComma outs := fun c hc => by
    obtain ⟨s, hs, hcs⟩ := hsub c hc
    exact Or.inr (hsym s hs c hcs)
  have e : subscriptText subs outs = commaJoin subs ++ '-' :: '>' :: outs := by simp [subscriptText]
  rw [e, parseEinsumInput]
  simp only [mapM_asArr, bind, Except.bind]
  rw [parseStr_arrow hu hv]
  simp only
  rw [parseCommon_explicit hu hv, if_pos]
  refine ⟨hno, fun c hc => ?_⟩
  obtain ⟨s, hs, hcs⟩ := hsub c hc
  exact commaJoin_mem hs hcs

/-- `einsum` on one operand. -/
theorem C15_einsum_one [CommRing R] [DecidableEq R] (method : ContractMethod)
    (path : List (List Char) → List Char → List (NDArray R) → List Contraction) (sz : Char → Nat)
    (ia outs : List Char) (a : NDArray R) (alpha beta : R) (out : Option (NDArray R))
    (hsym : ∀ c ∈ ia, c ∈ einsumSymbols) (ha : a.shape = ia.map sz)
    (hno : outs.Nodup) (hsub : ∀ c ∈ outs, c ∈ ia) (ho : ∀ o ∈ out, o.shape = outs.map sz ∧ o.WF) :
    ∃ r, einsum method path [.str (ia ++ "->".toList ++ outs), .arr a] alpha beta out = .ok r ∧
      r.shape = outs.map sz ∧ r.WF ∧ ∀ e : Char → Nat, (∀ c ∈ outs, e c < sz c) → r.get (outs.map e)
        = alpha * einValue sz [(ia, a)] outs e + outTerm beta out (outs.map e) := by
  have hp := parse_subscript [ia] outs [a] (by simpa using hsym) hno (by simpa using hsub)
  have h1 : splitComma ia = [ia] := splitComma_plain fun h => (symbol_ne (hsym _ h)).2.2.2.2.2 rfl
  obtain ⟨x, x1, x2, x3, x4⟩ := numpyEinsum_ok sz [(ia, a)] outs (by simp [Sized, ha]) (by simpa using hsub)
  obtain ⟨r, r1, r2, r3, r4⟩ := scaleAdd_ok x x3 alpha beta out (by rw [x2]; exact ho)
  refine ⟨r, ?_, r2.trans x2, r3, fun e he => ?_⟩
  · simp only [subscriptText, commaJoin, List.map_cons, List.map_nil] at hp
    unfold einsum einsumParsed
    rw [hp]
    simp only [bind, Except.bind, h1, transposeBackend]
    rw [x1]
    exact r1
  · rw [r4 _ (by rw [x2]; exact inBox_map sz e outs he), x4 e he]

/-- `einsum` on two operands, with either contraction method. -/
theorem C15_einsum_two [CommRing R] [DecidableEq R] (method : ContractMethod)
    (path : List (List Char) → List Char → List (NDArray R) → List Contraction) (sz : Char → Nat)
    (ia ib outs : List Char) (a b : NDArray R) (alpha beta : R) (out : Option (NDArray R))
    (hsa : ∀ c ∈ ia, c ∈ einsumSymbols) (hsb : ∀ c ∈ ib, c ∈ einsumSymbols)
    (ha : a.shape = ia.map sz) (hb : b.shape = ib.map sz)
    (hno : outs.Nodup) (hsub : ∀ c ∈ outs, c ∈ ia ∨ c ∈ ib)
    (ho : ∀ o ∈ out, o.shape = outs.map sz ∧ o.WF) :
    ∃ r, einsum method path [.str (ia ++ ",".toList ++ ib ++ "->".toList ++ outs), .arr a, .arr b]
        alpha beta out = .ok r ∧ r.shape = outs.map sz ∧ r.WF ∧
      ∀ e : Char → Nat, (∀ c ∈ outs, e c < sz c) → r.get (outs.map e)
        = alpha * einValue sz [(ia, a), (ib, b)] outs e + outTerm beta out (outs.map e) := by
  have hp := parse_subscript [ia, ib] outs [a, b] (by simpa using ⟨hsa, hsb⟩) hno (by simpa using hsub)
  have h1 : splitComma (commaJoin [ia, ib]) = [ia, ib] := splitComma_join (by simp) (by
    intro s hs h
    simp only [List.mem_cons, List.not_mem_nil, or_false] at hs
    rcases hs with rfl | rfl
    · exact (symbol_ne (hsa _ h)).2.2.2.2.2 rfl
    · exact (symbol_ne (hsb _ h)).2.2.2.2.2 rfl)
  have hc : ∃ r, contractWith method ia ib outs a b alpha beta out = .ok r ∧ r.shape = outs.map sz ∧
      r.WF ∧ ∀ e : Char → Nat, (∀ c ∈ outs, e c < sz c) → r.get (outs.map e)
        = alpha * einValue sz [(ia, a), (ib, b)] outs e + outTerm beta out (outs.map e) := by
    cases method
    · exact C15_contract_backend sz _ _ _ _ _ alpha beta out ha hb hsub ho
    · exact C15_contract_ttgt sz _ _ _ _ _ alpha beta out ha hb hno hsub ho
  obtain ⟨r, r1, r2⟩ := hc
  refine ⟨r, ?_, r2⟩
  have e : subscriptText [ia, ib] outs = ia ++ ",".toList ++ ib ++ "->".toList ++ outs := by
    simp [subscriptText, commaJoin]
  rw [e] at hp
  simp only [List.map_cons, List.map_nil] at hp
  unfold einsum einsumParsed
  rw [hp]
  simp only [bind, Except.bind, h1]
  exact r1

/-- `einsum` on three or more operands returns the Einstein sum whatever valid path is chosen. -/
theorem C17_einsum_chain [CommRing R] [DecidableEq R] (method : ContractMethod)
    (path : List (List Char) → List Char → List (NDArray R) → List Contraction) (sz : Char → Nat)
    (outs : List Char) (L : List (List Char × NDArray R)) (hlen : 3 ≤ L.length)
    (hsym : ∀ x ∈ L, ∀ c ∈ x.1, c ∈ einsumSymbols) (hno : outs.Nodup)
    (hL : ∀ x ∈ L, x.2.shape = x.1.map sz) (hsub : ∀ c ∈ outs, ∃ x ∈ L, c ∈ x.1)
    (hpath : ValidPath outs (L.map Prod.fst) (path (L.map Prod.fst) outs (L.map Prod.snd))) :
    ∃ r, einsum method path (.str (subscriptText (L.map Prod.fst) outs) :: (L.map Prod.snd).map .arr)
        1 0 none = .ok r ∧ r.shape = outs.map sz ∧ r.WF ∧
      ∀ e : Char → Nat, (∀ c ∈ outs, e c < sz c) → r.get (outs.map e) = einValue sz L outs e := by
  have hp := parse_subscript (L.map Prod.fst) outs (L.map Prod.snd) (by
    intro s hs c hc
    obtain ⟨x, hx, rfl⟩ := List.mem_map.1 hs
    exact hsym x hx c hc) hno (by
    intro c hc
    obtain ⟨x, hx, hcx⟩ := hsub c hc
    exact ⟨x.1, List.mem_map.2 ⟨x, hx, rfl⟩, hcx⟩)
  have h1 : splitComma (commaJoin (L.map Prod.fst)) = L.map Prod.fst := splitComma_join
    (by intro h; rw [List.map_eq_nil_iff] at h; simp [h] at hlen) (by
      intro s hs h
      obtain ⟨x, hx, rfl⟩ := List.mem_map.1 hs
      exact (symbol_ne (hsym x hx _ h)).2.2.2.2.2 rfl)
  obtain ⟨r, r1, r2⟩ := C17_chain_is_einstein_sum method sz outs hno _ L hL hsub hpath none
  refine ⟨r, ?_, r2⟩
  unfold einsum einsumParsed
  rw [hp]
  simp only [bind, Except.bind, h1]
  match L, hlen with
  | x :: y :: z :: L, _ =>
    simp only [List.map_cons] at r1 ⊢
    rw [if_neg (by simp), if_neg (by simp), r1]
    rfl

/-- Scaling factors are rejected for chains, for every non-empty path (einsumfunc.py:525-526). -/
theorem C17_scaling_rejected [CommRing R] [DecidableEq R] (method : ContractMethod)
    (path : List (List Char) → List Char → List (NDArray R) → List Contraction)
    (outs : List Char) (L : List (List Char × NDArray R)) (hlen : 3 ≤ L.length)
    (hsym : ∀ x ∈ L, ∀ c ∈ x.1, c ∈ einsumSymbols) (hno : outs.Nodup)
    (hsub : ∀ c ∈ outs, ∃ x ∈ L, c ∈ x.1)
    (hpath : path (L.map Prod.fst) outs (L.map Prod.snd) ≠ []) (alpha beta : R)
    (hab : alpha ≠ 1 ∨ beta ≠ 0) (out : Option (NDArray R)) :
    einsum method path (.str (subscriptText (L.map Prod.fst) outs) :: (L.map Prod.snd).map .arr)
        alpha beta out = .error .notImplementedError := by
  have hp := parse_subscript (L.map Prod.fst) outs (L.map Prod.snd) (by
    intro s hs c hc
    obtain ⟨x, hx, rfl⟩ := List.mem_map.1 hs
    exact hsym x hx c hc) hno (by
    intro c hc
    obtain ⟨x, hx, hcx⟩ := hsub c hc
    exact ⟨x.1, List.mem_map.2 ⟨x, hx, rfl⟩, hcx⟩)
  have h1 : splitComma (commaJoin (L.map Prod.fst)) = L.map Prod.fst := splitComma_join
    (by intro h; rw [List.map_eq_nil_iff] at h; simp [h] at hlen) (by
      intro s hs h
      obtain ⟨x, hx, rfl⟩ := List.mem_map.1 hs
      exact (symbol_ne (hsym x hx _ h)).2.2.2.2.2 rfl)
  unfold einsum einsumParsed
  rw [hp]
  simp only [bind, Except.bind, h1]
  match L, hlen with
  | x :: y :: z :: L, _ =>
    simp only [List.map_cons] at hpath ⊢
    rw [if_neg (by simp), if_pos ⟨hpath, hab⟩]

end

/-- A valid path for `ij,jk,kl->il`: first the last two operands, then the rest. -/
example : ValidPath ['i', 'l'] [['i', 'j'], ['j', 'k'], ['k', 'l']]
    [⟨[2, 1], [['k', 'l'], ['j', 'k']], ['j', 'l']⟩, ⟨[1, 0], [['j', 'l'], ['i', 'j']], ['i', 'l']⟩] := by
  refine .step _ [['i', 'j']] _ _ (by simp) (by rfl) (by decide) ?_ (.last _ _ (by simp) (by rfl) rfl)
  intro x
  simp only [List.mem_cons, List.not_mem_nil, or_false, exists_eq_or_imp, exists_eq_left]
  by_cases h1 : x = 'i' <;> by_cases h2 : x = 'j' <;> by_cases h3 : x = 'k' <;> by_cases h4 : x = 'l' <;>
    simp_all

/-- Three matrices, two different paths. -/
example :
    let A : NDArray Int := ⟨[2, 2], [1, 2, 3, 4]⟩
    let B : NDArray Int := ⟨[2, 2], [0, 1, 1, 1]⟩
    let C : NDArray Int := ⟨[2, 2], [2, 0, 1, 5]⟩
    chainLoop .ttgt [⟨[2, 1], [['k', 'l'], ['j', 'k']], ['j', 'l']⟩,
        ⟨[1, 0], [['j', 'l'], ['i', 'j']], ['l', 'i']⟩] [A, B, C] none
      = .ok (some ⟨[2, 2], [7, 15, 15, 35]⟩) ∧
    chainLoop .ttgt [⟨[0, 1, 0], [['i', 'j'], ['k', 'l'], ['j', 'k']], ['l', 'i']⟩] [A, B, C] none
      = .ok (some ⟨[2, 2], [7, 15, 15, 35]⟩) := by
  decide +kernel

end Ebcc
