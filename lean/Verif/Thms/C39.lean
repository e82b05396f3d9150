import Verif.Model.Amps
import Verif.Thms.C18

/-!
C39: energy denominators.
-/

namespace Ebcc

open Dict

/-! ### Statements -/

/-- The sign of the energies of an orbital class: as given, otherwise `+` for occupied (`o`, `O`, `i`) and `-`
for virtual (`v`, `V`, `a`) and boson (`b`) indices. -/
def indexSign {R : Type} [Ring R] (signs : Dict Char (List Char)) (c : Char) : R :=
  match signs.get? c with
  | some s => if s = "+".toList then 1 else -1
  | none => if c ∈ "oOi".toList then 1 else -1

/-- `en` are the energies that the object stores for an index of class `p.1` and spin `p.2`: the boson energies,
or the diagonal of the block of the Fock matrix. -/
def HasEnergies {R : Type} [Zero R] (env : EnergyEnv R) (p : Char × Char) (en : List R) : Prop :=
  if p.1 = 'b' then env.omega = some ⟨[en.length], en⟩
  else ∃ F, env.fock p.2 p.1 = .ok F ∧ F.shape = [en.length, en.length] ∧
    ∀ i < en.length, F.get [i, i] = en.getD i 0

/-- The signed sum of the energies of an index tuple. -/
def signedSum {R : Type} [Ring R] (signs : Dict Char (List Char)) (en : Char × Char → List R)
    (pairs : List (Char × Char)) (idx : List Nat) : R :=
  ((pairs.zip idx).map fun x => indexSign signs x.1.1 * (en x.1).getD x.2 0).sum

/-! ### Direct sums of vectors -/

theorem exists_map {α β : Type} [DecidableEq α] (d : β) : ∀ (l : List α) (m : List β), l.Nodup →
    l.length = m.length → ∃ f : α → β, l.map f = m
  | [], [], _, _ => ⟨fun _ => d, rfl⟩
  | a :: l, b :: m, hn, hl => by
    obtain ⟨f, hf⟩ := exists_map d l m (List.nodup_cons.1 hn).2 (by simpa using hl)
    refine ⟨Function.update f a b, ?_⟩
    simp only [List.map_cons, Function.update_self]
    congr 1
    rw [← hf]
    apply List.map_congr_left
    intro x hx
    rw [Function.update_of_ne]
    rintro rfl
    exact (List.nodup_cons.1 hn).1 hx

theorem commaTerms {R : Type} (its : List (Char × NDArray R)) (c : Char) :
    termText [c] (its.map fun x => (Sep.comma, [x.1], x.2))
      = commaJoin ((c :: its.map Prod.fst).map fun c => [c]) := by
  rw [List.map_cons, List.map_map]
  have := commaJoin_terms [c] (its.map fun x => ((Sep.comma, [x.1], x.2) : Term R))
  rw [List.map_map] at this
  refine Eq.trans ?_ this
  simp [termText, List.flatMap_map, Sep.char]

/-- The direct sum of vectors with alphabetical labels and no output. -/
theorem dirsum_vectors {R : Type} [CommRing R] (setOrder : List Char → List Char) (ho : IsSetOrder setOrder)
    (its : List (Char × List R)) (hne : its ≠ []) (hsym : ∀ x ∈ its, x.1 ∈ einsumSymbols)
    (hlt : (its.map Prod.fst).Pairwise (· < ·)) :
    ∃ r, dirsum setOrder (.str (commaJoin ((its.map Prod.fst).map fun c => [c])) ::
        (its.map fun x => (⟨[x.2.length], x.2⟩ : NDArray R)).map .arr) = .ok r ∧
      r.shape = its.map (fun x => x.2.length) ∧ r.WF ∧ ∀ idx, ValidIdx r.shape idx →
        r.get idx = ((its.zip idx).map fun x => x.1.2.getD x.2 0).sum := by
  have hnd : (its.map Prod.fst).Nodup := hlt.imp fun h => ne_of_lt h
  obtain ⟨sz, hsz⟩ := exists_map 0 (its.map Prod.fst) (its.map fun x => x.2.length) hnd (by simp)
  have hsz' : ∀ x ∈ its, sz x.1 = x.2.length := by
    rw [List.map_map] at hsz
    intro x hx
    exact List.map_inj_left.1 hsz x hx
  cases its with
  | nil => exact absurd rfl hne
  | cons x0 its =>
    obtain ⟨c0, v0⟩ := x0
    have hs : ∀ c ∈ [c0], c ∈ einsumSymbols := by simpa using hsym (c0, v0) (by simp)
    have hts : ∀ t ∈ (its.map fun x => ((Sep.comma, [x.1], ⟨[x.2.length], x.2⟩) : Term R)),
        ∀ c ∈ t.2.1, c ∈ einsumSymbols := by
      intro t ht
      obtain ⟨x, hx, rfl⟩ := List.mem_map.1 ht
      simpa using hsym x (by simp [hx])
    obtain ⟨outs, hi, hd⟩ := C18_implicit_partial setOrder [c0] (⟨[v0.length], v0⟩ : NDArray R) _ hs hts
      (by simp) (by
        intro t ht
        obtain ⟨x, _, rfl⟩ := List.mem_map.1 ht
        simp)
    have hflat : ([c0] :: (its.map fun x => ((Sep.comma, [x.1], ⟨[x.2.length], x.2⟩) : Term R)).map
        fun t => t.2.1).flatten = c0 :: its.map Prod.fst := by
      simp only [List.map_map, Function.comp_def, List.flatten_cons, List.singleton_append]
      congr 1
      clear * -
      induction its with
      | nil => rfl
      | cons x l ih => simp [ih]
    have houts : outs = c0 :: its.map Prod.fst := by
      apply hi.1.sortedLT.eq_of_mem_iff
      · exact List.Pairwise.sortedLT (by simpa using hlt)
      · intro c
        rw [hi.2, hflat]
        have hnd' : (c0 :: its.map Prod.fst).Nodup := by simpa using hnd
        constructor
        · intro h; exact List.count_pos_iff.1 (by omega)
        · intro h; exact List.count_eq_one_of_mem hnd' h
    obtain ⟨r, r1, r2, r3, r4⟩ := C18_dirsum_partial setOrder ho sz [c0] (⟨[v0.length], v0⟩ : NDArray R)
      (its.map fun x => (Sep.comma, [x.1], ⟨[x.2.length], x.2⟩)) outs hs hts (by simp)
      ⟨by simpa using (hsz' (c0, v0) (by simp)).symm, by simp [NDArray.WF, prodN]⟩ (by
        intro t ht
        obtain ⟨x, hx, rfl⟩ := List.mem_map.1 ht
        exact ⟨by simpa using (hsz' x (by simp [hx])).symm, by simp [NDArray.WF, prodN]⟩)
      (by rw [houts]; simpa using hnd) (by
        intro c hc
        rw [houts, List.mem_cons] at hc
        rcases hc with rfl | hc
        · simp
        · obtain ⟨x, hx, rfl⟩ := List.mem_map.1 hc
          exact Or.inr ⟨_, List.mem_map.2 ⟨x, hx, rfl⟩, by simp⟩)
    have hshape : r.shape = (((c0, v0) :: its).map fun x => x.2.length) := by
      rw [r2, houts, ← hsz]; rfl
    refine ⟨r, ?_, hshape, r3, fun idx hidx => ?_⟩
    · rw [← r1, ← hd]
      have e := commaTerms (its.map fun x => (x.1, (⟨[x.2.length], x.2⟩ : NDArray R))) c0
      simp only [List.map_map, Function.comp_def, List.map_cons] at e ⊢
      rw [e]
    · have hin : InBox ((c0 :: its.map Prod.fst).map sz) idx := by
        have : (c0 :: its.map Prod.fst).map sz = r.shape := by rw [hshape, ← hsz]; rfl
        rw [this]; exact hidx
      obtain ⟨e, he, hb⟩ := map_of_inBox (by simpa using hnd) hin
      have hval := r4 e (by rw [houts]; exact hb)
      rw [houts, he] at hval
      rw [hval]
      have hdum : einDummies ([c0] :: (its.map fun x => ((Sep.comma, [x.1], ⟨[x.2.length], x.2⟩) : Term R)).map
          fun t => t.2.1) (c0 :: its.map Prod.fst) = [] := by
        apply List.eq_nil_iff_forall_not_mem.2
        intro c hc
        rw [mem_einDummies] at hc
        obtain ⟨⟨x, hx, hcx⟩, hn⟩ := hc
        apply hn
        rw [← hflat]
        exact List.mem_flatten.2 ⟨x, hx, hcx⟩
      rw [hdum, einSum, ← he]
      simp only [List.map_map, Function.comp_def, Sep.sign, one_mul, List.map_cons, List.map_nil, List.zip_cons_cons,
        List.sum_cons]
      have hget : ∀ (v : List R) (i : Nat), (⟨[v.length], v⟩ : NDArray R).get [i] = v.getD i 0 := by
        intro v i
        simp [NDArray.get, ravelIdx, prodN]
      rw [hget]
      congr 2
      clear * -
      induction its with
      | nil => rfl
      | cons x l ih =>
        simp only [List.map_cons, List.zip_cons_cons, ih]
        simp [NDArray.get, ravelIdx, prodN]

/-! ### Signs -/

theorem fill_get? (l : List (Char × List Char)) (d : Dict Char (List Char)) (c : Char) :
    (l.foldl (fun d p => if d.contains p.1 then d else d.set p.1 p.2) d).get? c
      = (d.get? c).or (Dict.get? l c) := by
  induction l generalizing d with
  | nil => simp [Dict.get?]
  | cons p l ih =>
    obtain ⟨k, v⟩ := p
    rw [List.foldl_cons, ih]
    by_cases hk : d.contains k
    · rw [if_pos hk]
      unfold Dict.contains at hk
      by_cases hkc : k = c
      · subst hkc
        cases h : d.get? k with
        | none => simp [h] at hk
        | some w => simp
      · rw [show Dict.get? ((k, v) :: l) c = Dict.get? l c by simp [Dict.get?, hkc]]
    · rw [if_neg hk, get?_set]
      unfold Dict.contains at hk
      by_cases hkc : k = c
      · subst hkc
        cases h : d.get? k with
        | none => simp [Dict.get?]
        | some w => simp [h] at hk
      · rw [if_neg hkc, show Dict.get? ((k, v) :: l) c = Dict.get? l c by simp [Dict.get?, hkc]]

theorem fillSigns_sign {R : Type} [CommRing R] (signs : Dict Char (List Char)) (c : Char)
    (hc : c ∈ "vVaoOib".toList) : ∃ s, (fillSigns signs).get? c = some s ∧
      (if s = ['+'] then (1 : R) else -1) = indexSign signs c := by
  have hd : ∀ c ∈ "vVaoOib".toList, ∃ s, Dict.get? defaultSigns c = some s ∧
      (s = ['+'] ↔ c ∈ "oOi".toList) := by decide
  obtain ⟨s, h1, h2⟩ := hd c hc
  unfold indexSign fillSigns
  rw [fill_get?, h1]
  cases h : signs.get? c with
  | none =>
    refine ⟨s, rfl, ?_⟩
    simp only [h2]
  | some w => exact ⟨w, rfl, rfl⟩

/-! ### The sum -/

theorem energyTerm_ok {R : Type} [CommRing R] (env : EnergyEnv R) (signs : Dict Char (List Char))
    (p : Char × Char) (en : List R) (hp : p.1 ∈ "vVaoOib".toList) (he : HasEnergies env p en) :
    energyTerm env (fillSigns signs) p
      = .ok ⟨[en.length], en.map fun x => indexSign signs p.1 * x⟩ := by
  obtain ⟨s, h1, h2⟩ := fillSigns_sign (R := R) signs p.1 hp
  unfold energyTerm Dict.getItem
  rw [h1]
  simp only [bind, Except.bind, h2]
  unfold HasEnergies at he
  split at he
  · rename_i hb
    rw [if_pos hb, he]
    simp [NDArray.map, pure, Except.pure, mul_comm]
  · rename_i hb
    rw [if_neg hb]
    obtain ⟨F, f1, f2, f3⟩ := he
    rw [f1]
    simp only [npDiag, f2]
    have : (NDArray.ofFn [min en.length en.length] fun idx => F.get [idx.getD 0 0, idx.getD 0 0]).map
        (fun x => x * (indexSign signs p.1 : R)) = ⟨[en.length], en.map fun x => indexSign signs p.1 * x⟩ := by
      simp only [NDArray.map, NDArray.ofFn, min_self, NDArray.mk.injEq, true_and]
      apply List.ext_getElem
      · simp [length_box, prodN]
      · intro i g1 g2
        have hi : i < en.length := by simpa using g2
        have hbox : box [en.length] = (List.range en.length).map fun i => [i] := by
          simp only [box, List.map_cons, List.map_nil]
          exact (List.map_eq_flatMap ..).symm
        simp only [List.getElem_map, hbox, List.getElem_range, List.getD_cons_zero]
        rw [f3 i hi, mul_comm]
        simp [List.getElem?_eq_getElem hi]
    exact congrArg Except.ok this

theorem nextChar_lt : ∀ i < 26, ∀ j < 26, i < j → nextChar i < nextChar j := by decide

theorem nextChar_symbol : ∀ i < 26, nextChar i ∈ einsumSymbols := by decide

theorem energySumPairs_ok {R : Type} [CommRing R] (setOrder : List Char → List Char) (ho : IsSetOrder setOrder)
    (env : EnergyEnv R) (key : List Char) (pairs : List (Char × Char)) (signs : Dict Char (List Char))
    (en : Char × Char → List R) (hlen : key.length = pairs.length) (h0 : pairs ≠ []) (h26 : pairs.length ≤ 26)
    (hp : ∀ p ∈ pairs, p.1 ∈ "vVaoOib".toList) (he : ∀ p ∈ pairs, HasEnergies env p (en p)) :
    ∃ r, energySumPairs setOrder env key pairs (fillSigns signs) = .ok r ∧
      r.shape = pairs.map (fun p => (en p).length) ∧ r.WF ∧
      ∀ idx, ValidIdx r.shape idx → r.get idx = signedSum signs en pairs idx := by
  let labels := (List.range pairs.length).map nextChar
  let its : List (Char × List R) := labels.zip (pairs.map fun p => (en p).map fun x => indexSign signs p.1 * x)
  have hll : labels.length = pairs.length := by simp [labels]
  have hfst : its.map Prod.fst = labels := List.map_fst_zip (by simp [hll])
  have hsnd : its.map Prod.snd = pairs.map fun p => (en p).map fun x => indexSign signs p.1 * x :=
    List.map_snd_zip (by simp [hll])
  have hlt : labels.Pairwise (· < ·) := by
    simp only [labels]
    rw [List.pairwise_map]
    refine List.Pairwise.imp_of_mem ?_ List.pairwise_lt_range
    intro i j hi hj hij
    rw [List.mem_range] at hi hj
    exact nextChar_lt i (by omega) j (by omega) hij
  obtain ⟨r, r1, r2, r3, r4⟩ := dirsum_vectors setOrder ho its (by
      intro h
      have := congrArg List.length hsnd
      rw [h] at this
      simp at this
      exact h0 (List.length_eq_zero_iff.1 this.symm)) (by
      intro x hx
      have : x.1 ∈ labels := hfst ▸ List.mem_map_of_mem hx
      obtain ⟨i, hi, h⟩ := List.mem_map.1 this
      rw [List.mem_range] at hi
      rw [← h]
      exact nextChar_symbol i (by omega)) (by rw [hfst]; exact hlt)
  have hshape : r.shape = pairs.map (fun p => (en p).length) := by
    rw [r2]
    have : its.map (fun x => x.2.length) = (its.map Prod.snd).map List.length := by simp
    rw [this, hsnd]
    simp
  refine ⟨r, ?_, hshape, r3, fun idx hidx => ?_⟩
  · unfold energySumPairs
    rw [mapM_ok _ (fun p => (⟨[(en p).length], (en p).map fun x => indexSign signs p.1 * x⟩ : NDArray R)) pairs
      (fun p hm => energyTerm_ok env signs p (en p) (hp p hm) (he p hm))]
    simp only [bind, Except.bind]
    rw [← r1, hfst, hlen]
    congr 2
    · simp only [labels, List.map_map]
      rfl
    · have : its.map (fun x => (⟨[x.2.length], x.2⟩ : NDArray R))
          = (its.map Prod.snd).map fun v => ⟨[v.length], v⟩ := by simp
      rw [this, hsnd]
      simp
  · rw [r4 idx hidx]
    unfold signedSum
    congr 1
    have hz : its.zip idx = (its.zip idx) := rfl
    have key2 : ∀ (f : List R → Nat → R), (its.zip idx).map (fun x => f x.1.2 x.2)
        = ((its.map Prod.snd).zip idx).map fun x => f x.1 x.2 := by
      intro f
      rw [List.zip_map_left]
      simp
    rw [key2 fun v i => v.getD i 0, hsnd, List.zip_map_left]
    simp only [List.map_map, Function.comp_def, Prod.map, id]
    apply List.map_congr_left
    intro x _
    simp only [List.getD_eq_getElem?_getD, List.getElem?_map]
    cases (en x.1)[x.2]? <;> simp

/-- Restricted and generalised: every element of `energy_sum(key, signs_dict=signs)` is the signed sum of the
energies of its indices, and the shape is that of the key. -/
theorem C39_elements {R : Type} [CommRing R] (setOrder : List Char → List Char) (ho : IsSetOrder setOrder)
    (env : EnergyEnv R) (key : List Char) (signs : Dict Char (List Char)) (en : Char → List R) (h0 : key ≠ [])
    (h26 : key.length ≤ 26) (hk : ∀ k ∈ key, k ∈ "vVaoOib".toList)
    (he : ∀ k ∈ key, HasEnergies env (k, '_') (en k)) :
    ∃ r, (energySum setOrder env key signs).1 = .ok r ∧ r.shape = key.map (fun k => (en k).length) ∧ r.WF ∧
      ∀ idx, ValidIdx r.shape idx →
        r.get idx = ((key.zip idx).map fun x => indexSign signs x.1 * (en x.1).getD x.2 0).sum := by
  obtain ⟨r, r1, r2, r3, r4⟩ := energySumPairs_ok setOrder ho env key (key.map fun k => (k, '_')) signs
    (fun p => en p.1) (by simp) (by simpa using h0) (by simpa using h26) (by
      intro p hp
      obtain ⟨k, hk', rfl⟩ := List.mem_map.1 hp
      exact hk k hk') (by
      intro p hp
      obtain ⟨k, hk', rfl⟩ := List.mem_map.1 hp
      exact he k hk')
  refine ⟨r, r1, by rw [r2, List.map_map]; rfl, r3, fun idx hidx => ?_⟩
  rw [r4 idx hidx, signedSum, List.zip_map_left, List.map_map]
  rfl

/-- Unrestricted: the same, with the energies of the spin given for each index. -/
theorem C39_elements_unrestricted {R : Type} [CommRing R] (setOrder : List Char → List Char)
    (ho : IsSetOrder setOrder) (env : EnergyEnv R) (key spins : List Char) (signs : Dict Char (List Char))
    (en : Char × Char → List R) (hs : key.length = spins.length) (h0 : key ≠ []) (h26 : key.length ≤ 26)
    (hk : ∀ k ∈ key, k ∈ "vVaoOib".toList) (he : ∀ p ∈ key.zip spins, HasEnergies env p (en p)) :
    ∃ r, (uEnergySum setOrder env key spins signs).1 = .ok r ∧
      r.shape = (key.zip spins).map (fun p => (en p).length) ∧ r.WF ∧
      ∀ idx, ValidIdx r.shape idx → r.get idx
        = (((key.zip spins).zip idx).map fun x => indexSign signs x.1.1 * (en x.1).getD x.2 0).sum :=
  energySumPairs_ok setOrder ho env key (key.zip spins) signs en (by simp [hs])
    (by
      cases key with
      | nil => exact absurd rfl h0
      | cons k key =>
        cases spins with
        | nil => simp at hs
        | cons s spins => simp)
    (by simp; omega) (fun p hp => hk p.1 (List.of_mem_zip hp).1) he

/-- The dictionary of the caller keeps its entries and order only if it already has an entry for every class:
the property that arguments are not changed holds in that case alone. -/
theorem C39_argument_kept_iff {R : Type} [CommRing R] (setOrder : List Char → List Char) (env : EnergyEnv R)
    (key : List Char) (signs : Dict Char (List Char)) :
    (energySum setOrder env key signs).2 = signs ↔ ∀ k ∈ "vVaoOib".toList, signs.contains k := by
  unfold energySum
  simp only
  constructor
  · intro h k hk
    obtain ⟨s, h1, -⟩ := fillSigns_sign (R := Int) signs k hk
    rw [h] at h1
    simp [Dict.contains, h1]
  · intro h
    unfold fillSigns
    have : ∀ l : List (Char × List Char), (∀ p ∈ l, signs.contains p.1) →
        l.foldl (fun d p => if d.contains p.1 then d else d.set p.1 p.2) signs = signs := by
      intro l hl
      induction l with
      | nil => rfl
      | cons p l ih =>
        rw [List.foldl_cons, if_pos (hl p (by simp))]
        exact ih fun q hq => hl q (by simp [hq])
    apply this
    intro p hp
    apply h
    have : ∀ p ∈ defaultSigns, p.1 ∈ "vVaoOib".toList := by decide
    exact this p hp

/-- A caller that overrides one sign finds six more entries in its dictionary afterwards. -/
theorem C39_argument_changed : (energySum List.dedup ⟨fun _ _ => .ok ⟨[1, 1], [(2 : Int)]⟩, none⟩ "o".toList
      [('o', "-".toList)]) = (.ok ⟨[1], [-2]⟩, [('o', "-".toList), ('v', "-".toList), ('V', "-".toList),
        ('a', "-".toList), ('O', "+".toList), ('i', "+".toList), ('b', "-".toList)]) := by
  decide +kernel

/-- Keys of 27 characters are rejected: the 27th label would be `chr(ord("A") + 26)`, which is not a letter. -/
theorem C39_27_characters_fail : (energySum List.dedup ⟨fun _ _ => .ok ⟨[1, 1], [(2 : Int)]⟩, none⟩
      (List.replicate 27 'o') []).1 = .error .valueError := by
  decide +kernel

/-- A concrete sum with a boson index: `energy_sum("bov")`. -/
example : (energySum List.dedup ⟨fun _ k => if k = 'o' then .ok ⟨[1, 1], [(-2 : Int)]⟩
      else .ok ⟨[2, 2], [5, 1, 1, 7]⟩, some ⟨[2], [10, 20]⟩⟩ "bov".toList []).1
    = .ok ⟨[2, 1, 2], [-17, -19, -27, -29]⟩ := by
  decide +kernel

example : HasEnergies (⟨fun _ k => if k = 'o' then .ok ⟨[1, 1], [(-2 : Int)]⟩
      else .ok ⟨[2, 2], [5, 1, 1, 7]⟩, some ⟨[2], [10, 20]⟩⟩ : EnergyEnv Int) ('v', '_') [5, 7] :=
  ⟨_, rfl, rfl, by decide⟩

end Ebcc
