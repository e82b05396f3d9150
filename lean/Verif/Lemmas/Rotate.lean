import Verif.Model.Brueckner
import Verif.Thms.C16
import Verif.Thms.C17
import Verif.Lemmas.Decompress
/-!
`einsum` in list form with one matrix for each index of an array.
-/

namespace Ebcc

section
variable {R : Type}

/-- `path` returns a valid contraction path for every call with at least three operands. -/
def GoodPath (path : PathFn R) : Prop :=
  ∀ (subs : List (List Char)) (outs : List Char) (arrs : List (NDArray R)), 3 ≤ subs.length → outs.Nodup →
    (∀ c ∈ outs, ∃ s ∈ subs, c ∈ s) → ValidPath outs subs (path subs outs arrs)

/-- The path that contracts all operands at once. -/
def onePath : PathFn R := fun subs outs _ => [⟨List.replicate subs.length 0, subs, outs⟩]

theorem popAll_zeros {α : Type} (l : List α) : popAll (List.replicate l.length 0) l = .ok (l, []) := by
  induction l with
  | nil => rfl
  | cons a l ih =>
    simp only [List.length_cons, List.replicate_succ, popAll, List.getElem?_cons_zero, List.eraseIdx_cons_zero, ih, bind,
      Except.bind, pure, Except.pure]

theorem onePath_good : GoodPath (onePath (R := R)) := by
  intro subs outs _ hl _ _
  refine .last subs _ ?_ (popAll_zeros subs) rfl
  intro h
  simp only at h
  subst h
  simp at hl

/-- The `k`-th letter used for integer subscripts. -/
def letter (k : Nat) : Char := einsumSymbols.getD k 'a'

theorem letters_eq (l : List Nat) : letters l = l.map letter := rfl

theorem letter_idxOf : ∀ k < 52, einsumSymbols.idxOf (letter k) = k := by decide

theorem letter_inj {j k : Nat} (hj : j < 52) (hk : k < 52) (h : letter j = letter k) : j = k := by
  have := congrArg (einsumSymbols.idxOf ·) h
  simpa only [letter_idxOf j hj, letter_idxOf k hk] using this

/-- A sum over all multi-indices. -/
theorem sum_box [AddCommMonoid R] {κ : Type} [DecidableEq κ] (sz : κ → Nat) (ds : List κ) (hnd : ds.Nodup)
    (f : List Nat → R) (e : κ → Nat) :
    ((box (ds.map sz)).map f).sum = einSum sz ds (fun e' => f (ds.map e')) e := by
  rw [← sum_flat sz ds hnd (fun q => f ((box (ds.map sz)).getD q [])) (fun e' => f (ds.map e')) e]
  · rw [← length_box]
    congr 1
    apply List.ext_getElem
    · simp
    · intro i h1 h2
      simp only [List.length_map] at h1
      simp [h1]
  · intro e' _ h2
    rw [List.getD_eq_getElem?_getD, getElem?_box (inBox_map sz e' ds h2), Option.getD_some]

/-- Element of an array after every index `k` has been contracted with the first index of the matrix `mats k`. -/
def rotatedElem [CommSemiring R] (K : Nat) (x : NDArray R) (mats : Nat → NDArray R) (idx : List Nat) : R :=
  ((box x.shape).map fun j =>
    x.get j * ((List.range K).map fun k => (mats k).get [j.getD k 0, idx.getD k 0]).prod).sum

/-- The operands with their subscripts. -/
def rotatePairs (K : Nat) (x : NDArray R) (mats : Nat → NDArray R) : List (NDArray R × List Nat) :=
  (x, List.range K) :: (List.range K).map fun k => (mats k, [k, k + K])

theorem rotate_einsum [CommRing R] [DecidableEq R] (method : ContractMethod) (path : PathFn R) (hpath : GoodPath path)
    (K : Nat) (hK : 2 ≤ K) (hK2 : K + K ≤ 52) (x : NDArray R) (mats : Nat → NDArray R) (os : List Nat)
    (hx : x.shape.length = K) (hos : os.length = K)
    (hm : ∀ k < K, (mats k).shape = [x.shape.getD k 0, os.getD k 0]) :
    ∃ y, einsum method path (listArgs (rotatePairs K x mats) (some ((List.range K).map fun k => k + K))) 1 0 none = .ok y ∧
      y.shape = os ∧ y.WF ∧ ∀ idx, InBox os idx → y.get idx = rotatedElem K x mats idx := by
  let sz : Char → Nat := fun c => (x.shape ++ os).getD (einsumSymbols.idxOf c) 0
  have hsz1 : ∀ k < K, sz (letter k) = x.shape.getD k 0 := by
    intro k hk
    show (x.shape ++ os).getD (einsumSymbols.idxOf (letter k)) 0 = _
    rw [letter_idxOf k (by omega), List.getD_eq_getElem?_getD, List.getElem?_append_left (by omega),
      ← List.getD_eq_getElem?_getD]
  have hsz2 : ∀ k < K, sz (letter (k + K)) = os.getD k 0 := by
    intro k hk
    show (x.shape ++ os).getD (einsumSymbols.idxOf (letter (k + K))) 0 = _
    rw [letter_idxOf (k + K) (by omega), List.getD_eq_getElem?_getD, List.getElem?_append_right (by omega),
      ← List.getD_eq_getElem?_getD, hx, Nat.add_sub_cancel]
  let P := rotatePairs K x mats
  let L : List (List Char × NDArray R) := P.map fun p => (letters p.2, p.1)
  let outs : List Char := letters ((List.range K).map fun k => k + K)
  have hP : ∀ p ∈ P, ∀ i ∈ p.2, i < 52 := by
    intro p hp i hi
    rcases List.mem_cons.1 hp with rfl | hp
    · simp only [List.mem_range] at hi; omega
    · obtain ⟨k, hk, rfl⟩ := List.mem_map.1 hp
      rw [List.mem_range] at hk
      simp only [List.mem_cons, List.not_mem_nil, or_false] at hi
      omega
  have hO : ∀ i ∈ (List.range K).map (fun k => k + K), i < 52 := by
    intro i hi
    obtain ⟨k, hk, rfl⟩ := List.mem_map.1 hi
    rw [List.mem_range] at hk
    omega
  have hsym : ∀ y ∈ L, ∀ c ∈ y.1, c ∈ einsumSymbols := by
    intro y hy c hc
    obtain ⟨p, hp, rfl⟩ := List.mem_map.1 hy
    exact letters_mem (hP p hp) hc
  have houts : outs = (List.range K).map fun k => letter (k + K) := by
    simp only [outs, letters_eq, List.map_map]; rfl
  have hno : outs.Nodup := by
    rw [houts]
    refine List.Nodup.map_on ?_ List.nodup_range
    intro i hi j hj h
    rw [List.mem_range] at hi hj
    have := letter_inj (by omega) (by omega) h
    omega
  have hmapsz : ∀ (l : List Nat) (n : Nat), l.length = n → (List.range n).map (fun k => l.getD k 0) = l := by
    intro l n hn
    subst hn
    apply List.ext_getElem
    · simp
    · intro i h1 h2
      simp [h2]
  have hxs : (letters (List.range K)).map sz = x.shape := by
    rw [letters_eq, List.map_map]
    conv_rhs => rw [← hmapsz x.shape K hx]
    exact List.map_congr_left fun k hk => hsz1 k (List.mem_range.1 hk)
  have houtsz : outs.map sz = os := by
    rw [houts, List.map_map]
    conv_rhs => rw [← hmapsz os K hos]
    exact List.map_congr_left fun k hk => hsz2 k (List.mem_range.1 hk)
  have hL : ∀ y ∈ L, y.2.shape = y.1.map sz := by
    intro y hy
    obtain ⟨p, hp, rfl⟩ := List.mem_map.1 hy
    rcases List.mem_cons.1 hp with rfl | hp
    · exact hxs.symm
    · obtain ⟨k, hk, rfl⟩ := List.mem_map.1 hp
      rw [List.mem_range] at hk
      simp only [letters_eq, List.map_cons, List.map_nil, hsz1 k hk, hsz2 k hk, hm k hk]
  have hsub : ∀ c ∈ outs, ∃ y ∈ L, c ∈ y.1 := by
    intro c hc
    rw [houts] at hc
    obtain ⟨k, hk, rfl⟩ := List.mem_map.1 hc
    exact ⟨_, List.mem_map.2 ⟨(mats k, [k, k + K]), by simp [P, rotatePairs, List.mem_range.1 hk], rfl⟩,
      by simp [letters_eq]⟩
  have hlen : 3 ≤ L.length := by simp [L, P, rotatePairs]; omega
  obtain ⟨y, y1, y2, y3, y4⟩ := C17_einsum_chain method path sz outs L hlen hsym hno hL hsub
    (hpath _ _ _ (by simpa using hlen) hno fun c hc => by
      obtain ⟨z, hz, hcz⟩ := hsub c hc
      exact ⟨z.1, List.mem_map.2 ⟨z, hz, rfl⟩, hcz⟩)
  have hp := parse_subscript (L.map Prod.fst) outs (L.map Prod.snd) (by
    intro s hs c hc
    obtain ⟨z, hz, rfl⟩ := List.mem_map.1 hs
    exact hsym z hz c hc) hno (by
    intro c hc
    obtain ⟨z, hz, hcz⟩ := hsub c hc
    exact ⟨z.1, List.mem_map.2 ⟨z, hz, rfl⟩, hcz⟩)
  have htext : subscriptText (L.map Prod.fst) outs = listText P (some ((List.range K).map fun k => k + K)) := by
    simp only [subscriptText, listText, L, List.map_map, outs, List.append_assoc]
    rfl
  have harrs : L.map Prod.snd = P.map Prod.fst := by simp [L]
  have hp2 := (C16_list_form P (some ((List.range K).map fun k => k + K)) (by simp [P, rotatePairs]) hP
    (by intro o ho; cases ho; exact hO) (by simp [listText]) (commaJoin (L.map Prod.fst), outs, L.map Prod.snd)).2 (by
      rw [← htext, ← harrs]; exact hp)
  refine ⟨y, ?_, y2.trans houtsz, y3, ?_⟩
  · unfold einsum einsumParsed at y1 ⊢
    rw [hp] at y1
    rw [hp2]
    exact y1
  · intro idx hidx
    rw [← houtsz] at hidx
    obtain ⟨e, he1, he2⟩ := map_of_inBox hno hidx
    have hd : (einDummies (L.map Prod.fst) outs).Perm ((List.range K).map letter) := by
      rw [List.perm_ext_iff_of_nodup (nodup_einDummies _ _)]
      · intro c
        rw [mem_einDummies]
        constructor
        · rintro ⟨⟨s, hs, hc⟩, hco⟩
          simp only [L, P, rotatePairs, List.map_map, List.map_cons, List.mem_cons, List.mem_map, List.mem_range] at hs
          rcases hs with rfl | ⟨k, hk, rfl⟩
          · exact hc
          · simp only [Function.comp, letters_eq, List.map_cons, List.map_nil, List.mem_cons, List.not_mem_nil,
              or_false] at hc
            rcases hc with rfl | rfl
            · exact List.mem_map.2 ⟨k, List.mem_range.2 hk, rfl⟩
            · exact absurd (by rw [houts]; exact List.mem_map.2 ⟨k, List.mem_range.2 hk, rfl⟩) hco
        · intro hc
          obtain ⟨k, hk, rfl⟩ := List.mem_map.1 hc
          refine ⟨⟨letters (List.range K), by simp [L, P, rotatePairs], List.mem_map.2 ⟨k, hk, rfl⟩⟩, ?_⟩
          rw [houts]
          intro h
          obtain ⟨j, hj, hjk⟩ := List.mem_map.1 h
          rw [List.mem_range] at hj hk
          have := letter_inj (by omega) (by omega) hjk
          omega
      · refine List.Nodup.map_on ?_ List.nodup_range
        intro i hi j hj h
        rw [List.mem_range] at hi hj
        exact letter_inj (by omega) (by omega) h
    have hnd1 : ((List.range K).map letter).Nodup := hd.nodup (nodup_einDummies _ _)
    have hxs' : ((List.range K).map letter).map sz = x.shape := hxs
    rw [← he1, y4 e he2, rotatedElem, einValue, einSum_perm sz hd]
    conv_rhs => rw [← hxs']
    rw [sum_box sz _ hnd1 _ e]
    apply einSum_congr
    intro e' h1 _
    have h3 : ∀ k < K, e' (letter (k + K)) = e (letter (k + K)) := by
      intro k hk
      apply h1
      intro h
      obtain ⟨j, hj, hjk⟩ := List.mem_map.1 h
      rw [List.mem_range] at hj
      have := letter_inj (by omega) (by omega) hjk
      omega
    simp only [einProd, L, P, rotatePairs, List.map_cons, List.prod_cons, List.map_map]
    refine congrArg₂ (· * ·) (by rw [letters_eq, List.map_map]) ?_
    congr 1
    apply List.map_congr_left
    intro k hk
    have hk' := List.mem_range.1 hk
    simp only [Function.comp, letters_eq, List.map_cons, List.map_nil, h3 k hk']
    congr 1
    rw [houts]
    simp [hk']

theorem foldlM_append {α β : Type} (l : List α) (f : α → Except PyErr (List β)) (g : α → List β)
    (h : ∀ a ∈ l, f a = .ok (g a)) (acc : List β) :
    l.foldlM (fun acc a => do
      let b ← f a
      pure (acc ++ b)) acc = .ok (acc ++ l.flatMap g) := by
  induction l generalizing acc with
  | nil => simp [pure, Except.pure]
  | cons a l ih =>
    simp only [List.foldlM_cons, h a (by simp), bind, Except.bind, pure, Except.pure] at ih ⊢
    rw [ih fun a ha => h a (by simp [ha])]
    simp

/-- The matrix for each index: `n` occupied, then `n` virtual. -/
def halfMats (n : Nat) (ci ca : Nat → NDArray R) (k : Nat) : NDArray R := if k < n then ci k else ca (k - n)

theorem rotateArgs_ok (n : Nat) (x : NDArray R) (ci ca : Nat → Except PyErr (NDArray R)) (ci' ca' : Nat → NDArray R)
    (hi : ∀ i < n, ci i = .ok (ci' i)) (ha : ∀ i < n, ca i = .ok (ca' i)) :
    rotateArgs n x ci ca = .ok (listArgs (rotatePairs (n * 2) x (halfMats n ci' ca'))
      (some ((List.range (n * 2)).map fun k => k + n * 2))) := by
  have e1 := foldlM_append (List.range n) (fun i => do
    let c ← ci i
    pure [EinArg.arr c, .idx [i, i + n * 2]]) (fun i => [EinArg.arr (ci' i), .idx [i, i + n * 2]]) (fun i h => by
      simp only [hi i (List.mem_range.1 h), bind, Except.bind, pure, Except.pure])
  have e2 := foldlM_append (List.range n) (fun i => do
    let c ← ca i
    pure [EinArg.arr c, .idx [i + n, i + n * 3]]) (fun i => [EinArg.arr (ca' i), .idx [i + n, i + n * 3]]) (fun i h => by
      simp only [ha i (List.mem_range.1 h), bind, Except.bind, pure, Except.pure])
  have e3 : ∀ (f : Nat → Except PyErr (NDArray R)) (g : Nat → List Nat) (acc : List (EinArg R)) (l : List Nat),
      l.foldlM (fun args i => do
        let c ← f i
        pure (args ++ [EinArg.arr c, .idx (g i)])) acc = l.foldlM (fun acc a => do
        let b ← (do
          let c ← f a
          pure [EinArg.arr c, .idx (g a)])
        pure (acc ++ b)) acc := by
    intro f g acc l
    induction l generalizing acc with
    | nil => rfl
    | cons i l ih =>
      simp only [List.foldlM_cons]
      cases f i with
      | error e => rfl
      | ok c => exact ih _
  unfold rotateArgs
  have e3i := e3 ci fun i => [i, i + n * 2]
  have e3a := e3 ca fun i => [i + n, i + n * 3]
  simp only [bind, Except.bind] at e3i e3a e1 e2 ⊢
  rw [e3i, e1]
  simp only
  rw [e3a, e2]
  simp only [pure, Except.pure, Except.ok.injEq, listArgs, rotatePairs, List.flatMap_cons, List.append_assoc,
    List.cons_append, List.nil_append, List.cons.injEq, true_and]
  have : List.range (n * 2) = List.range n ++ (List.range n).map fun i => n + i := by
    rw [Nat.mul_two, List.range_add]
  have e4 : (List.range (n * 2)).map (fun k => (halfMats n ci' ca' k, [k, k + n * 2]))
      = ((List.range n).map fun i => (ci' i, [i, i + n * 2])) ++
        (List.range n).map fun i => (ca' i, [i + n, i + n * 3]) := by
    rw [this, List.map_append, List.map_map]
    congr 1
    · apply List.map_congr_left
      intro i h
      rw [halfMats, if_pos (List.mem_range.1 h)]
    · apply List.map_congr_left
      intro i h
      simp only [Function.comp, halfMats]
      rw [if_neg (by omega), Nat.add_sub_cancel_left, Nat.add_comm n i, show i + n + n * 2 = i + n * 3 by omega]
  rw [e4, List.flatMap_append, List.append_assoc]
  simp only [List.flatMap_map]

end

end Ebcc
