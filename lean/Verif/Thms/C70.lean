import Verif.Model.EomOps
import Verif.Model.Guesses
import Verif.Thms.C37
import Verif.Thms.C39
import Verif.Thms.C43

/-!
C70: the diagonal of EOM calculations.

The diagonal is that of the zeroth-order Hamiltonian, which multiplies the amplitude of an excitation with the
energies of its virtual orbitals minus the energies of its occupied orbitals, in the basis of packed vectors; for
some calculations with the wrong sign (`C70_sign_fails`).
-/

namespace Ebcc

section
variable {R : Type}

/-! ### Packing and elementwise products -/

theorem product_data70 [Mul R] [Zero R] {e t t' : NDArray R} (h1 : e.WF) (h2 : t.WF) (h3 : t'.WF)
    (s1 : e.shape = t.shape) (s2 : t'.shape = t.shape)
    (h : ∀ idx, ValidIdx t.shape idx → t'.get idx = e.get idx * t.get idx) :
    t' = ⟨t.shape, List.zipWith (· * ·) e.data t.data⟩ := by
  have hd : t'.data = List.zipWith (· * ·) e.data t.data := by
    rw [NDArray.data_eq_map_get t' h3, NDArray.data_eq_map_get e h1, NDArray.data_eq_map_get t h2, s1, s2,
      List.zipWith_map, List.zipWith_self]
    apply List.map_congr_left
    intro idx hidx
    exact h idx (mem_box.1 hidx)
  cases t'
  simp only at hd s2
  rw [hd, s2]

theorem mul_get70 [MulZeroClass R] (e t : NDArray R) (s1 : e.shape = t.shape) (hl : e.data.length = t.data.length)
    (idx : List Nat) :
    (⟨t.shape, List.zipWith (· * ·) e.data t.data⟩ : NDArray R).get idx = e.get idx * t.get idx := by
  unfold NDArray.get
  simp only [s1, List.getD_eq_getElem?_getD, List.getElem?_zipWith]
  by_cases h : ravelIdx t.shape idx < t.data.length
  · rw [List.getElem?_eq_getElem h, List.getElem?_eq_getElem (by omega)]
    rfl
  · rw [List.getElem?_eq_none (by omega), List.getElem?_eq_none (by omega)]
    simp

theorem compress_mul70 {κ : Type} [DecidableEq κ] [MulZeroClass R] (sub : List κ) {e t t' : NDArray R}
    (hc : Consistent sub t.shape) (h1 : e.WF) (h2 : t.WF) (h3 : t'.WF) (s1 : e.shape = t.shape)
    (s2 : t'.shape = t.shape) (h : ∀ idx, ValidIdx t.shape idx → t'.get idx = e.get idx * t.get idx) :
    ∃ u v w, compressAxes sub e false = .ok u ∧ compressAxes sub t false = .ok v ∧ compressAxes sub t' false = .ok w ∧
      u.data.length = v.data.length ∧ w.data = List.zipWith (· * ·) u.data v.data := by
  refine ⟨_, _, _, compressAxes_ok sub e false (by rw [s1]; exact hc), compressAxes_ok sub t false hc,
    compressAxes_ok sub t' false (by rw [s2]; exact hc), ?_, ?_⟩
  · simp [s1]
  · rw [product_data70 h1 h2 h3 s1 s2 h]
    simp only [s1]
    rw [List.zipWith_map, List.zipWith_self]
    apply List.map_congr_left
    intro ts _
    exact mul_get70 e t s1 (by rw [h1, h2, s1]) _

/-- Three packed blocks, the third the product of the others. -/
def PackMul70 [Mul R] (p q w : Except PyErr (List R)) : Prop :=
  ∃ u v, p = .ok u ∧ q = .ok v ∧ u.length = v.length ∧ w = .ok (List.zipWith (· * ·) u v)

theorem mapM_mul70 [Mul R] {α : Type} (l : List α) (p q w : α → Except PyErr (List R))
    (h : ∀ a ∈ l, PackMul70 (p a) (q a) (w a)) :
    ∃ us vs ws, l.mapM p = .ok us ∧ l.mapM q = .ok vs ∧ l.mapM w = .ok ws ∧
      us.flatten.length = vs.flatten.length ∧ ws.flatten = List.zipWith (· * ·) us.flatten vs.flatten := by
  induction l with
  | nil => exact ⟨[], [], [], rfl, rfl, rfl, rfl, rfl⟩
  | cons a l ih =>
    obtain ⟨us, vs, ws, e1, e2, e3, e4, e5⟩ := ih fun b hb => h b (List.mem_cons_of_mem _ hb)
    obtain ⟨u, v, f1, f2, f3, f4⟩ := h a List.mem_cons_self
    refine ⟨u :: us, v :: vs, List.zipWith (· * ·) u v :: ws, ?_, ?_, ?_, ?_, ?_⟩
    · rw [List.mapM_cons, f1, e1]; rfl
    · rw [List.mapM_cons, f2, e2]; rfl
    · rw [List.mapM_cons, f4, e3]; rfl
    · simp [f3, e4]
    · rw [List.flatten_cons, e5, List.flatten_cons, List.flatten_cons, List.zipWith_append f3]

theorem packItems_mul70 [Mul R] {X : Type} (items : List (Item R X)) (E T T' : Dict (List Char) X)
    (h : ∀ it ∈ items, ∃ e t t', E.get? it.name = some e ∧ T.get? it.name = some t ∧ T'.get? it.name = some t' ∧
      PackMul70 (it.pack e) (it.pack t) (it.pack t')) :
    PackMul70 ((packItems items E).map List.flatten) ((packItems items T).map List.flatten)
      ((packItems items T').map List.flatten) := by
  obtain ⟨us, vs, ws, e1, e2, e3, e4, e5⟩ := mapM_mul70 items
    (fun it => do let x ← E.getItem it.name; it.pack x) (fun it => do let x ← T.getItem it.name; it.pack x)
    (fun it => do let x ← T'.getItem it.name; it.pack x) (by
      intro it hit
      obtain ⟨e, t, t', h1, h2, h3, h4⟩ := h it hit
      simp only [Dict.getItem, h1, h2, h3, bind, Except.bind]
      exact h4)
  unfold packItems
  rw [e1, e2, e3]
  exact ⟨us.flatten, vs.flatten, rfl, rfl, e4, by rw [← e5]; rfl⟩

end

/-! ### The zeroth-order Hamiltonian -/

section
variable {R : Type} [CommRing R]

/-- The energy of an excitation: virtual orbitals minus occupied orbitals. -/
def excitation70 (en : Char × Char → List R) (pairs : List (Char × Char)) (idx : List Nat) : R :=
  ((pairs.zip idx).map fun x => (if x.1.1 = 'v' ∨ x.1.1 = 'V' then 1 else -1) * (en x.1).getD x.2 0).sum

/-- The sign with which the diagonal appears. -/
def sign70 (spin : SpinType) (which : Which) : R :=
  match spin, which with
  | .R, .ee => 1
  | .U, .ea => 1
  | .G, .ea => 1
  | .G, .ee => 1
  | _, _ => -1

/-- `t'` is `t` with every element multiplied by `s` times the energy of its excitation. -/
def Acts70 (s : R) (en : Char × Char → List R) (pairs : List (Char × Char)) (t t' : NDArray R) : Prop :=
  t'.WF ∧ t'.shape = t.shape ∧
    ∀ idx, ValidIdx t.shape idx → t'.get idx = s * excitation70 en pairs idx * t.get idx

theorem signed_excitation70 (en : Char × Char → List R) (pairs : List (Char × Char)) (idx : List Nat)
    (hp : ∀ p ∈ pairs, p.1 = 'o' ∨ p.1 = 'O' ∨ p.1 = 'v' ∨ p.1 = 'V') :
    signedSum [] en pairs idx = - excitation70 en pairs idx := by
  unfold signedSum excitation70
  rw [List.sum_neg, List.map_map]
  congr 1
  apply List.map_congr_left
  intro x hx
  have := hp x.1 (List.of_mem_zip hx).1
  rcases this with h | h | h | h <;> simp [indexSign, Dict.get?, h]

theorem negIf_get70 (spin : SpinType) (which : Which) (x : NDArray R) (idx : List Nat) :
    (negIf (diagNegated spin which) x).get idx = - sign70 spin which * x.get idx := by
  cases spin <;> cases which <;> simp [negIf, diagNegated, sign70, map_get]

theorem negIf_shape70 (neg : Bool) (x : NDArray R) : (negIf neg x).shape = x.shape := by
  cases neg <;> rfl

theorem negIf_wf70 (neg : Bool) (x : NDArray R) (h : x.WF) : (negIf neg x).WF := by
  cases neg
  · exact h
  · simpa [negIf, NDArray.WF, NDArray.map] using h

/-- One block of the diagonal. -/
theorem diagBlock70 (setOrder : List Char → List Char) (ho : IsSetOrder setOrder) (env : EnergyEnv R) (key : List Char)
    (pairs : List (Char × Char)) (en : Char × Char → List R) (hl : key.length = pairs.length) (h0 : pairs ≠ [])
    (h26 : pairs.length ≤ 26) (hp : ∀ p ∈ pairs, p.1 = 'o' ∨ p.1 = 'O' ∨ p.1 = 'v' ∨ p.1 = 'V')
    (he : ∀ p ∈ pairs, HasEnergies env p (en p)) (spin : SpinType) (which : Which) :
    ∃ e, (energySumPairs setOrder env key pairs (fillSigns [])).map (negIf (diagNegated spin which)) = .ok e ∧ e.WF ∧
      e.shape = pairs.map (fun p => (en p).length) ∧
      ∀ t t', t.WF → t.shape = e.shape → Acts70 (sign70 spin which) en pairs t t' →
        t'.WF ∧ e.shape = t.shape ∧ t'.shape = t.shape ∧
          ∀ idx, ValidIdx t.shape idx → t'.get idx = e.get idx * t.get idx := by
  obtain ⟨r, r1, r2, r3, r4⟩ := energySumPairs_ok setOrder ho env key pairs [] en (by omega) h0 h26 (by
    intro p hpm
    rcases hp p hpm with h | h | h | h <;> rw [h] <;> decide) he
  refine ⟨negIf (diagNegated spin which) r, by rw [r1]; rfl, negIf_wf70 _ _ r3, by rw [negIf_shape70, r2], ?_⟩
  intro t t' ht hs ha
  refine ⟨ha.1, hs.symm, ha.2.1, fun idx hidx => ?_⟩
  rw [ha.2.2 idx hidx, negIf_get70, r4 idx (by rw [← negIf_shape70 (diagNegated spin which) r, ← hs]; exact hidx),
    signed_excitation70 en pairs idx hp]
  ring


theorem key_short70 {ansatz : List Char} {spin : SpinType} {which : Which} {fs : List Rank}
    (h : fermionicClusterRanks ansatz spin which = .ok fs) (r : Rank) (hr : r ∈ fs) : r.2.1.length ≤ 26 := by
  obtain ⟨k, rfl⟩ := (C24_well_formed ansatz spin which fs h).2.2 r hr
  cases which <;> cases k <;> decide

theorem diagOnlyFermions_ok70 {a : Ansatz} {spin : SpinType} {which : Which} {fs : List Rank}
    (h : HasRanks a spin which fs [] []) : diagOnlyFermions a which = .ok () := by
  simp only [diagOnlyFermions, h.b, bind, Except.bind, ne_eq, not_true_eq_false, if_false, pure, Except.pure]

/-- The blocks of the diagonal without spin. -/
theorem diagParts_ok70 (setOrder : List Char → List Char) (ho : IsSetOrder setOrder) (env : EnergyEnv R)
    (en : Char × Char → List R) {a : Ansatz} {spin : SpinType} {which : Which} {fs : List Rank}
    (h : HasRanks a spin which fs [] []) (hnd : (fs.map fun r => r.1).Nodup)
    (he : ∀ r ∈ fs, ∀ k ∈ r.2.1, HasEnergies env (k, '_') (en (k, '_'))) :
    ∃ E, diagParts setOrder env a spin which = .ok E ∧ ∀ r ∈ fs, ∃ e, E.get? r.1 = some e ∧ e.WF ∧
      e.shape = r.2.1.map (fun k => (en (k, '_')).length) ∧
      ∀ t t', t.WF → t.shape = e.shape → Acts70 (sign70 spin which) en (r.2.1.map fun k => (k, '_')) t t' →
        t'.WF ∧ e.shape = t.shape ∧ t'.shape = t.shape ∧
          ∀ idx, ValidIdx t.shape idx → t'.get idx = e.get idx * t.get idx := by
  have hblock : ∀ r : Rank, ∃ e, r ∈ fs → (energySum setOrder env r.2.1 []).1.map (negIf (diagNegated spin which))
      = .ok e ∧ e.WF ∧ e.shape = r.2.1.map (fun k => (en (k, '_')).length) ∧
      ∀ t t', t.WF → t.shape = e.shape → Acts70 (sign70 spin which) en (r.2.1.map fun k => (k, '_')) t t' →
        t'.WF ∧ e.shape = t.shape ∧ t'.shape = t.shape ∧
          ∀ idx, ValidIdx t.shape idx → t'.get idx = e.get idx * t.get idx := by
    intro r
    by_cases hr : r ∈ fs
    · obtain ⟨e, e1, e2, e3, e4⟩ := diagBlock70 setOrder ho env r.2.1 (r.2.1.map fun k => (k, '_')) en (by simp)
        (by simpa using key_nonempty h.f r hr) (by simpa using key_short70 h.f r hr) (by
          intro p hp
          obtain ⟨k, hk, rfl⟩ := List.mem_map.1 hp
          exact key_chars h.f r hr k hk) (by
          intro p hp
          obtain ⟨k, hk, rfl⟩ := List.mem_map.1 hp
          exact he r hr k hk) spin which
      exact ⟨e, fun _ => ⟨e1, e2, by rw [e3, List.map_map]; rfl, e4⟩⟩
    · exact ⟨⟨[], []⟩, fun h => absurd h hr⟩
  choose e hb using hblock
  have hl := initLoop_ok (fun r : Rank => r.1)
    (fun r => (energySum setOrder env r.2.1 []).1.map (negIf (diagNegated spin which))) e fs
    (fun r hr => (hb r hr).1) hnd [] (by simp [Dict.keys])
  refine ⟨fs.map fun r => (r.1, e r), ?_, fun r hr => ⟨e r, ?_, (hb r hr).2⟩⟩
  · unfold diagParts
    simp only [h.f, bind, Except.bind, hl, diagOnlyFermions_ok70 h]
    rfl
  · exact get?_map_mem fs (fun r => r.1) e hnd r hr

theorem zero_good70 : ∀ n : Nat, (List.replicate n (0 : R)).length = n := fun n => List.length_replicate

/-- Restricted: multiplying a packed vector elementwise with the diagonal is the action of the zeroth-order
Hamiltonian, with the sign `sign70`, on the amplitudes. -/
theorem C70_restricted_partial (setOrder : List Char → List Char) (ho : IsSetOrder setOrder) (env : EnergyEnv R)
    (en : Char × Char → List R) {a : Ansatz} {which : Which} {fs : List Rank} (h : HasRanks a .R which fs [] [])
    (hne : fs ≠ []) (hnd : (fs.map fun r => r.1).Nodup) (space : Space)
    (hs : ∀ k, (en (k, '_')).length = szOf space k)
    (he : ∀ r ∈ fs, ∀ k ∈ r.2.1, HasEnergies env (k, '_') (en (k, '_'))) :
    ∃ D, rEomDiag setOrder env a which = .ok D ∧ D.length = rEomLength space fs ∧
      ∀ T T', RBlocks space fs T →
        (∀ r ∈ fs, ∃ t t', T.get? r.1 = some t ∧ T'.get? r.1 = some t' ∧
          Acts70 (sign70 .R which) en (r.2.1.map fun k => (k, '_')) t t') →
        ∃ x, rEomToVector a which T = .ok x ∧ rEomToVector a which T' = .ok (List.zipWith (· * ·) D x) := by
  obtain ⟨E, hE, hb⟩ := diagParts_ok70 setOrder ho env en h hnd he
  have hv : ∀ T : Dict (List Char) (NDArray R), rEomToVector a which T
      = (packItems (itemsOf R (layout space 0 fs [] [])) T).bind concatenate := by
    intro T
    rw [rEomToVector_eq h, amplitudesToVector_eq h space 0]
    rfl
  have hcat : ∀ T : Dict (List Char) (NDArray R), (packItems (itemsOf R (layout space 0 fs [] [])) T).bind concatenate
      = (packItems (itemsOf R (layout space 0 fs [] [])) T).map List.flatten := by
    intro T
    cases hp : packItems (itemsOf R (layout space 0 fs [] [])) T with
    | error e => rfl
    | ok vs =>
      have : vs.length = fs.length := by
        have := mapM_length hp
        simpa [itemsOf, layout_fermions] using this
      have hvs : vs ≠ [] := by
        rintro rfl
        exact hne (List.length_eq_zero_iff.1 this.symm)
      simp only [Except.bind, Except.map, concatenate]
      cases vs with
      | nil => exact absurd rfl hvs
      | cons v vs => rfl
  have key : ∀ T T', RBlocks space fs T →
      (∀ r ∈ fs, ∃ t t', T.get? r.1 = some t ∧ T'.get? r.1 = some t' ∧
        Acts70 (sign70 .R which) en (r.2.1.map fun k => (k, '_')) t t') →
      PackMul70 (rEomToVector a which E) (rEomToVector a which T) (rEomToVector a which T') := by
    intro T T' hT hTT
    simp only [hv, hcat]
    apply packItems_mul70
    intro it hit
    rw [layout_fermions] at hit
    simp only [itemsOf, List.map_map, List.mem_map, Function.comp] at hit
    obtain ⟨r, hr, rfl⟩ := hit
    obtain ⟨e, e1, e2, e3, e4⟩ := hb r hr
    obtain ⟨t, t', t1, t2, t3⟩ := hTT r hr
    obtain ⟨t0, u1, u2, u3⟩ := hT r hr
    rw [t1] at u1
    cases u1
    obtain ⟨v1, v2, v3, v4⟩ := e4 t t' u2 (by rw [u3, e3]; simp only [hs]) t3
    refine ⟨e, t, t', e1, t1, t2, e.data, t.data, rfl, rfl, ?_, ?_⟩
    · rw [e2, u2, v2]
    · have := product_data70 e2 u2 v1 v2 v3 v4
      show Except.ok t'.data = _
      rw [this]
  obtain ⟨T0, _, _, z3, z4⟩ := C43_restricted_vectors h hne hnd space (List.replicate (rEomLength space fs) (0 : R))
    (by simp)
  have act : ∀ T, RBlocks space fs T → ∃ T' : Dict (List Char) (NDArray R), ∀ r ∈ fs, ∃ t t', T.get? r.1 = some t ∧
      T'.get? r.1 = some t' ∧ Acts70 (sign70 .R which) en (r.2.1.map fun k => (k, '_')) t t' := by
    intro T hT
    refine ⟨fs.map fun r => (r.1, NDArray.ofFn (((T.get? r.1).getD ⟨[], []⟩).shape) fun idx =>
      sign70 .R which * excitation70 en (r.2.1.map fun k => (k, '_')) idx * ((T.get? r.1).getD ⟨[], []⟩).get idx),
      fun r hr => ?_⟩
    obtain ⟨t, t1, t2, t3⟩ := hT r hr
    refine ⟨t, _, t1, get?_map_mem fs (fun r => r.1) _ hnd r hr, ?_⟩
    rw [t1]
    exact ⟨NDArray.ofFn_wf _ _, rfl, fun idx hidx => NDArray.get_ofFn _ _ hidx⟩
  obtain ⟨T0', hT0'⟩ := act T0 z3
  obtain ⟨D, x, k1, k2, k3, _⟩ := key T0 T0' z3 hT0'
  rw [z4] at k2
  cases k2
  refine ⟨D, ?_, by simpa using k3, ?_⟩
  · unfold rEomDiag
    rw [hE]
    exact k1
  · intro T T' hT hTT
    obtain ⟨D', x, f1, f2, f3, f4⟩ := key T T' hT hTT
    rw [k1] at f1
    cases f1
    exact ⟨x, f2, f4⟩

theorem gConsistent70 {space : Space} {key : List Char} {x : NDArray R} (h : x.shape = key.map (szOf space)) :
    Consistent key x.shape := ⟨szOf space, h⟩

/-- General: the same; the blocks are antisymmetric and only the independent elements are packed. -/
theorem C70_general_partial (h2 : ∀ x : R, x + x = 0 → x = 0) (setOrder : List Char → List Char)
    (ho : IsSetOrder setOrder) (env : EnergyEnv R)
    (en : Char × Char → List R) {a : Ansatz} {which : Which} {fs : List Rank} (h : HasRanks a .G which fs [] [])
    (hne : fs ≠ []) (hnd : (fs.map fun r => r.1).Nodup) (space : Space)
    (hs : ∀ k, (en (k, '_')).length = szOf space k)
    (he : ∀ r ∈ fs, ∀ k ∈ r.2.1, HasEnergies env (k, '_') (en (k, '_'))) :
    ∃ D, gEomDiag setOrder env a which = .ok D ∧ D.length = gEomLength space fs ∧
      ∀ T T', GBlocks space fs T →
        (∀ r ∈ fs, ∃ t t', T.get? r.1 = some t ∧ T'.get? r.1 = some t' ∧
          Acts70 (sign70 .G which) en (r.2.1.map fun k => (k, '_')) t t') →
        ∃ x, gEomToVector a which T = .ok x ∧ gEomToVector a which T' = .ok (List.zipWith (· * ·) D x) := by
  obtain ⟨E, hE, hb⟩ := diagParts_ok70 setOrder ho env en h hnd he
  have key : ∀ T T', GBlocks space fs T →
      (∀ r ∈ fs, ∃ t t', T.get? r.1 = some t ∧ T'.get? r.1 = some t' ∧
        Acts70 (sign70 .G which) en (r.2.1.map fun k => (k, '_')) t t') →
      PackMul70 (gEomToVector a which E) (gEomToVector a which T) (gEomToVector a which T') := by
    intro T T' hT hTT
    simp only [gToVector_eq h hne space]
    apply packItems_mul70
    intro it hit
    obtain ⟨r, hr, rfl⟩ := List.mem_map.1 hit
    obtain ⟨e, e1, e2, e3, e4⟩ := hb r hr
    obtain ⟨t, t', t1, t2, t3⟩ := hTT r hr
    obtain ⟨t0, u1, u2⟩ := hT r hr
    rw [t1] at u1
    cases u1
    have hsh : t.shape = r.2.1.map (szOf space) := u2.2.1
    obtain ⟨v1, v2, v3, v4⟩ := e4 t t' u2.1 (by rw [hsh, e3]; simp only [hs]) t3
    obtain ⟨u, v, w, c1, c2, c3, c4, c5⟩ := compress_mul70 r.2.1 (gConsistent70 hsh) e2 u2.1 v1 v2 v3 v4
    refine ⟨e, t, t', e1, t1, t2, u.data, v.data, ?_, ?_, c4, ?_⟩
    · simp only [gItem, c1]; rfl
    · simp only [gItem, c2]; rfl
    · simp only [gItem, c3]; rw [← c5]; rfl
  obtain ⟨T0, _, _, z3, z4⟩ := C43_general_vectors h2 h hne hnd space (List.replicate (gEomLength space fs) (0 : R))
    (by simp)
  have act : ∀ T, GBlocks space fs T → ∃ T' : Dict (List Char) (NDArray R), ∀ r ∈ fs, ∃ t t', T.get? r.1 = some t ∧
      T'.get? r.1 = some t' ∧ Acts70 (sign70 .G which) en (r.2.1.map fun k => (k, '_')) t t' := by
    intro T hT
    refine ⟨fs.map fun r => (r.1, NDArray.ofFn (((T.get? r.1).getD ⟨[], []⟩).shape) fun idx =>
      sign70 .G which * excitation70 en (r.2.1.map fun k => (k, '_')) idx * ((T.get? r.1).getD ⟨[], []⟩).get idx),
      fun r hr => ?_⟩
    obtain ⟨t, t1, t2⟩ := hT r hr
    refine ⟨t, _, t1, get?_map_mem fs (fun r => r.1) _ hnd r hr, ?_⟩
    rw [t1]
    exact ⟨NDArray.ofFn_wf _ _, rfl, fun idx hidx => NDArray.get_ofFn _ _ hidx⟩
  obtain ⟨T0', hT0'⟩ := act T0 z3
  obtain ⟨D, x, k1, k2, k3, _⟩ := key T0 T0' z3 hT0'
  rw [z4] at k2
  cases k2
  refine ⟨D, ?_, by simpa using k3, ?_⟩
  · unfold gEomDiag
    rw [hE]
    exact k1
  · intro T T' hT hTT
    obtain ⟨D', x, f1, f2, f3, f4⟩ := key T T' hT hTT
    rw [k1] at f1
    cases f1
    exact ⟨x, f2, f4⟩

end

/-! ### Unrestricted -/

section
variable {R : Type} [Field R]

theorem diagSpins_mem70 (which : Which) (n : Nat) (s : List Char) (h : s ∈ eomSpins which n) :
    s ∈ diagSpins which n := by
  unfold diagSpins
  unfold eomSpins at h
  by_cases hw : which = .ee
  · simpa [hw] using h
  · simpa [hw] using (C11_unique n (eomExcited which)).1 s h


theorem diagSpins_nodup70 (which : Which) (n : Nat) : (diagSpins which n).Nodup := by
  unfold diagSpins
  by_cases hw : which = .ee
  · simp only [hw, decide_true]
    exact (C11_unique n _).2.1.of_map _
  · simp only [hw, decide_false]
    exact (C11_order n _).imp fun h => ne_of_lt h

theorem diagSpins_keySpin70 {ansatz : List Char} {spin : SpinType} {which : Which} {fs : List Rank} (hw : IsEom which)
    (h : fermionicClusterRanks ansatz spin which = .ok fs) (r : Rank) (hr : r ∈ fs)
    (hq : which = .ee ∨ r.2.2 ≤ 3) (s : List Char) (hs : s ∈ diagSpins which r.2.2) : KeySpin r.2.1 s := by
  have hl : r.2.1.length = (if which = .ee then r.2.2 + r.2.2 else r.2.2 + r.2.2 - 1) := by
    obtain ⟨k, rfl⟩ := (C24_well_formed ansatz spin which fs h).2.2 r hr
    rcases hw with rfl | rfl | rfl <;> cases k <;> revert hq <;> decide
  have hs' : s.length = (if which = .ee then r.2.2 + r.2.2 else r.2.2 + r.2.2 - 1) ∧ ∀ c ∈ s, c = 'a' ∨ c = 'b' := by
    unfold diagSpins at hs
    by_cases he : which = .ee
    · simp only [he, decide_true] at hs
      simpa [he] using combos_spin _ s hs
    · have hx : eomExcited which = true := by simp [eomExcited, he]
      simp only [he, decide_false, hx] at hs
      obtain ⟨t, h1, h2, rfl⟩ := (C11_all_excited _ s).1 hs
      refine ⟨by simp [h1, he], fun c hc => ?_⟩
      rcases List.mem_append.1 (List.mem_of_mem_dropLast hc) with h | h <;> exact h2 c h
  exact ⟨by rw [hl, hs'.1], key_nonempty h r hr, key_chars h r hr, hs'.2⟩

/-- One block of one rank. -/
def UDiagBlock70 (en : Char × Char → List R) (which : Which) (key s : List Char) (e : NDArray R) : Prop :=
  e.WF ∧ e.shape = (key.zip s).map (fun p => (en p).length) ∧
    ∀ t t', t.WF → t.shape = e.shape → Acts70 (sign70 .U which) en (key.zip s) t t' →
      t'.WF ∧ e.shape = t.shape ∧ t'.shape = t.shape ∧
        ∀ idx, ValidIdx t.shape idx → t'.get idx = e.get idx * t.get idx

theorem uDiagPart_ok70 (setOrder : List Char → List Char) (ho : IsSetOrder setOrder) (env : EnergyEnv R)
    (en : Char × Char → List R) (which : Which) (r : Rank) (h26 : r.2.1.length ≤ 26)
    (hk : ∀ s ∈ diagSpins which r.2.2, KeySpin r.2.1 s)
    (he : ∀ s ∈ diagSpins which r.2.2, ∀ p ∈ r.2.1.zip s, HasEnergies env p (en p)) :
    ∃ d, uDiagPart setOrder env which r = .ok d ∧ ∀ s ∈ diagSpins which r.2.2, ∃ e, d.get? s = some e ∧
      UDiagBlock70 en which r.2.1 s e := by
  have hblock : ∀ s : List Char, ∃ e, s ∈ diagSpins which r.2.2 →
      (uEnergySum setOrder env r.2.1 s []).1.map (negIf (diagNegated .U which)) = .ok e ∧
      UDiagBlock70 en which r.2.1 s e := by
    intro s
    by_cases hs : s ∈ diagSpins which r.2.2
    · have k := hk s hs
      have hl : r.2.1.length = (r.2.1.zip s).length := by rw [List.length_zip, ← k.len, Nat.min_self]
      obtain ⟨e, e1, e2, e3, e4⟩ := diagBlock70 setOrder ho env r.2.1 (r.2.1.zip s) en hl (by
          intro h0
          have := k.ne
          rw [h0] at hl
          exact this (List.length_eq_zero_iff.1 hl)) (by omega)
        (fun p hp => k.key p.1 (List.of_mem_zip hp).1) (he s hs) .U which
      exact ⟨e, fun _ => ⟨e1, e2, e3, e4⟩⟩
    · exact ⟨⟨[], []⟩, fun h => absurd h hs⟩
  choose e hb using hblock
  have hl := initLoop_ok (fun s : List Char => s)
    (fun s => (uEnergySum setOrder env r.2.1 s []).1.map (negIf (diagNegated .U which))) e (diagSpins which r.2.2)
    (fun s hs => (hb s hs).1) (by simpa using diagSpins_nodup70 which r.2.2) [] (by simp [Dict.keys])
  refine ⟨_, hl, fun s hs => ⟨e s, ?_, (hb s hs).2⟩⟩
  exact get?_map_mem _ (fun s => s) e (by simpa using diagSpins_nodup70 which r.2.2) s hs

/-- Unrestricted: the same, with the energies of the spin of each index. -/
theorem C70_unrestricted_partial (h2 : ∀ x : R, x + x = 0 → x = 0) (setOrder : List Char → List Char)
    (ho : IsSetOrder setOrder) (env : EnergyEnv R) (en : Char × Char → List R) {a : Ansatz} {which : Which}
    {fs : List Rank} (hw : IsEom which) (h : HasRanks a .U which fs [] []) (hne : fs ≠ [])
    (hnd : (fs.map fun r => r.1).Nodup) (hq : which = .ee ∨ ∀ r ∈ fs, r.2.2 ≤ 3) (sa sb : Space)
    (hs : ∀ k s, (en (k, s)).length = sz2 sa sb (k, s))
    (he : ∀ k s, (k = 'o' ∨ k = 'O' ∨ k = 'v' ∨ k = 'V') → (s = 'a' ∨ s = 'b') → HasEnergies env (k, s) (en (k, s))) :
    ∃ D, uEomDiag setOrder env a which = .ok D ∧ D.length = uEomLength which sa sb fs ∧
      ∀ T T', UEomBlocks which sa sb fs T →
        (∀ r ∈ fs, ∃ d d', T.get? r.1 = some (.spins d) ∧ T'.get? r.1 = some (.spins d') ∧
          ∀ s ∈ eomSpins which r.2.2, ∃ t t', d.get? s = some t ∧ d'.get? s = some t' ∧
            Acts70 (sign70 .U which) en (r.2.1.zip s) t t') →
        ∃ x, uEomToVector a which T = .ok x ∧ uEomToVector a which T' = .ok (List.zipWith (· * ·) D x) := by
  obtain ⟨sizes, hsz, hsizes⟩ := uSizes_ok sa sb
  have hks : ∀ r ∈ fs, ∀ s ∈ diagSpins which r.2.2, KeySpin r.2.1 s := fun r hr s hsp =>
    diagSpins_keySpin70 hw h.f r hr (hq.imp id fun h3 => h3 r hr) s hsp
  have hpart : ∀ r : Rank, ∃ d, r ∈ fs → uDiagPart setOrder env which r = .ok d ∧
      ∀ s ∈ diagSpins which r.2.2, ∃ e, d.get? s = some e ∧ UDiagBlock70 en which r.2.1 s e := by
    intro r
    by_cases hr : r ∈ fs
    · obtain ⟨d, d1, d2⟩ := uDiagPart_ok70 setOrder ho env en which r (key_short70 h.f r hr) (hks r hr)
        (fun s hsp p hp => he p.1 p.2 ((hks r hr s hsp).key _ (List.of_mem_zip hp).1)
          ((hks r hr s hsp).spin _ (List.of_mem_zip hp).2))
      exact ⟨d, fun _ => ⟨d1, d2⟩⟩
    · exact ⟨[], fun h => absurd h hr⟩
  choose d hd using hpart
  have hl := initLoop_ok (fun r : Rank => r.1) (fun r => (uDiagPart setOrder env which r).map UVal.spins)
    (fun r => UVal.spins (d r)) fs (fun r hr => by rw [(hd r hr).1]; rfl) hnd [] (by simp [Dict.keys])
  let E : Dict (List Char) (UVal R) := [] ++ fs.map fun r => (r.1, UVal.spins (d r))
  have hE : uEomDiag setOrder env a which = uEomToVector a which E := by
    unfold uEomDiag
    simp only [h.f, bind, Except.bind, hl, diagOnlyFermions_ok70 h]
    rfl
  have key : ∀ T T', UEomBlocks which sa sb fs T →
      (∀ r ∈ fs, ∃ d d', T.get? r.1 = some (.spins d) ∧ T'.get? r.1 = some (.spins d') ∧
        ∀ s ∈ eomSpins which r.2.2, ∃ t t', d.get? s = some t ∧ d'.get? s = some t' ∧
          Acts70 (sign70 .U which) en (r.2.1.zip s) t t') →
      PackMul70 (uEomToVector a which E) (uEomToVector a which T) (uEomToVector a which T') := by
    intro T T' hT hTT
    simp only [uEomToVector_eq h hne (fun r _ => eomSpins_nonempty hw r.2.2) sa sb sizes]
    apply packItems_mul70
    intro it hit
    obtain ⟨r, hr, rfl⟩ := List.mem_map.1 hit
    obtain ⟨dt, dt', t1, t2, t3⟩ := hTT r hr
    obtain ⟨dt0, u1, u2⟩ := hT r hr
    rw [t1] at u1
    cases u1
    refine ⟨.spins (d r), .spins dt, .spins dt', get?_map_mem fs (fun r => r.1) _ hnd r hr, t1, t2, ?_⟩
    simp only [eomItem_pack]
    apply packItems_mul70
    intro it' hit'
    obtain ⟨s, hsp, rfl⟩ := List.mem_map.1 hit'
    obtain ⟨e, e1, e2, e3, e4⟩ := (hd r hr).2 s (diagSpins_mem70 which r.2.2 s hsp)
    obtain ⟨t, t', f1, f2, f3⟩ := t3 s hsp
    obtain ⟨t0, g1, g2⟩ := u2 s hsp
    rw [f1] at g1
    cases g1
    have hk := hks r hr s (diagSpins_mem70 which r.2.2 s hsp)
    obtain ⟨sub, osizes, c1, c2, g, p1, p2, p3⟩ := combine_two r.2.1 s sizes (sz2 sa sb) hk.len hk.ne hk.card
      fun p hp => hsizes p.1 p.2 (hk.key _ (List.of_mem_zip hp).1) (hk.spin _ (List.of_mem_zip hp).2)
    let sz : Char → Nat := fun c => (osizes.get? c).getD 0
    have hshape : sub.map sz = (r.2.1.zip s).map (sz2 sa sb) := by
      rw [p1, List.map_map]
      exact List.map_congr_left fun p hp => by simp only [Function.comp, sz, p3 p hp]; rfl
    have hc : Consistent sub t.shape := ⟨sz, by rw [g2.2.1, hshape]⟩
    obtain ⟨v1, v2, v3, v4⟩ := e4 t t' g2.1 (by
      rw [g2.2.1, e3]
      exact List.map_congr_left fun p _ => (hs p.1 p.2).symm) f3
    obtain ⟨u, v, w, q1, q2, q3, q4, q5⟩ := compress_mul70 sub hc e2 g2.1 v1 v2 v3 v4
    refine ⟨e, t, t', e1, f1, f2, u.data, v.data, ?_, ?_, q4, ?_⟩
    · simp only [dividedItem, spinItem, c2, bind, Except.bind, q1]; rfl
    · simp only [dividedItem, spinItem, c2, bind, Except.bind, q2]; rfl
    · simp only [dividedItem, spinItem, c2, bind, Except.bind, q3]; rw [← q5]; rfl
  obtain ⟨T0, _, _, z3, z4⟩ := C43_unrestricted_vectors_partial h2 hw h hne hnd hq sa sb
    (List.replicate (uEomLength which sa sb fs) (0 : R)) (by simp)
  have act : ∃ T' : Dict (List Char) (UVal R),
      ∀ r ∈ fs, ∃ d d', T0.get? r.1 = some (.spins d) ∧ T'.get? r.1 = some (.spins d') ∧
        ∀ s ∈ eomSpins which r.2.2, ∃ t t', d.get? s = some t ∧ d'.get? s = some t' ∧
          Acts70 (sign70 .U which) en (r.2.1.zip s) t t' := by
    choose! dd hdd1 hdd2 using z3
    let blk : Rank → List Char → NDArray R := fun r s => ((dd r).get? s).getD ⟨[], []⟩
    refine ⟨fs.map fun r => (r.1, UVal.spins ((eomSpins which r.2.2).map fun s => (s, NDArray.ofFn (blk r s).shape
      fun idx => sign70 .U which * excitation70 en (r.2.1.zip s) idx * (blk r s).get idx))), fun r hr => ?_⟩
    refine ⟨dd r, _, hdd1 r hr, get?_map_mem fs (fun r => r.1) _ hnd r hr, fun s hsp => ?_⟩
    obtain ⟨t, t1, t2⟩ := hdd2 r hr s hsp
    refine ⟨t, _, t1, get?_map_mem (eomSpins which r.2.2) (fun s => s) _
      (by simpa using eomSpins_nodup which r.2.2) s hsp, ?_⟩
    have : blk r s = t := by simp only [blk, t1]; rfl
    rw [this]
    exact ⟨NDArray.ofFn_wf _ _, rfl, fun idx hidx => NDArray.get_ofFn _ _ hidx⟩
  obtain ⟨T0', hT0'⟩ := act
  obtain ⟨D, x, k1, k2, k3, _⟩ := key T0 T0' z3 hT0'
  obtain ⟨x0, _, x1, x2, _⟩ := C43_unrestricted_amplitudes_partial h2 hw h hne hnd hq sa sb T0 z3
  rw [k2] at x1
  cases x1
  refine ⟨D, by rw [hE]; exact k1, by rw [k3, x2], ?_⟩
  intro T T' hT hTT
  obtain ⟨D', x, f1, f2, f3, f4⟩ := key T T' hT hTT
  rw [k1] at f1
  cases f1
  exact ⟨x, f2, f4⟩

end

/-! ### Signs -/

/-- One occupied orbital of energy -2 and two virtual orbitals of energies 3 and 7. -/
def env70 : EnergyEnv Rat where
  fock _ c := if c = 'o' then .ok ⟨[1, 1], [-2]⟩ else if c = 'v' then .ok ⟨[2, 2], [3, 0, 0, 7]⟩ else .ok ⟨[0, 0], []⟩
  omega := none

/-- The energies. -/
def en70 (p : Char × Char) : List Rat := if p.1 = 'o' then [-2] else if p.1 = 'v' then [3, 7] else []

def ccsd70 : Ansatz := ⟨"CCSD".toList, [], 0, 0, false, none⟩

/-- The sign is the opposite one for ionisation in all classes, for attachment in the restricted class and for
excitation in the unrestricted class: the first element of the diagonal is minus the energy of the first
excitation. -/
theorem C70_sign_fails :
    (∃ D e, rEomDiag List.dedup env70 ccsd70 .ip = .ok D ∧ excitation70 en70 [('o', '_')] [0] = e ∧ e ≠ 0 ∧
      D.head? = some (-e)) ∧
    (∃ D e, uEomDiag List.dedup env70 ccsd70 .ip = .ok D ∧ excitation70 en70 [('o', 'a')] [0] = e ∧ e ≠ 0 ∧
      D.head? = some (-e)) ∧
    (∃ D e, gEomDiag List.dedup env70 ccsd70 .ip = .ok D ∧ excitation70 en70 [('o', '_')] [0] = e ∧ e ≠ 0 ∧
      D.head? = some (-e)) ∧
    (∃ D e, rEomDiag List.dedup env70 ccsd70 .ea = .ok D ∧ excitation70 en70 [('v', '_')] [0] = e ∧ e ≠ 0 ∧
      D.head? = some (-e)) ∧
    ∃ D e, uEomDiag List.dedup env70 ccsd70 .ee = .ok D ∧ excitation70 en70 [('o', 'a'), ('v', 'a')] [0, 0] = e ∧
      e ≠ 0 ∧ D.head? = some (-e) := by
  refine ⟨⟨[-2, -7, -11], 2, ?_⟩, ⟨[-2, -2, -7, -11, -7, -11], 2, ?_⟩, ⟨[-2], 2, ?_⟩,
    ⟨[-3, -7, -8, -12, -12, -16], 3, ?_⟩, [-5, -9, -5, -9, -10, -14, -14, -18], 5, ?_⟩ <;>
    exact ⟨by decide +kernel, by decide +kernel, by decide +kernel, by decide +kernel⟩

/-- Consequence: the first guess for an unrestricted excitation energy is the double excitation with the largest
energy (18), not the single excitation with the smallest one (5). -/
theorem C70_unrestricted_guess_fails :
    ∃ D, uEomDiag List.dedup env70 ccsd70 .ee = .ok D ∧ getGuesses .ee none 1 D = .ok [[0, 0, 0, 0, 0, 0, 0, 1]] ∧
      D.getLast? = some (-18) ∧ excitation70 en70 [('o', 'a'), ('v', 'a')] [0, 0] = 5 ∧
      excitation70 en70 [('o', 'a'), ('o', 'b'), ('v', 'a'), ('v', 'b')] [0, 0, 1, 1] = 18 :=
  ⟨[-5, -9, -5, -9, -10, -14, -14, -18], by decide +kernel, by decide +kernel, by decide +kernel, by decide +kernel,
    by decide +kernel⟩

/-- The energies of the example satisfy the hypotheses, and the diagonal of a general-spin excitation calculation
has the right sign. -/
example : (∀ k, k = 'o' ∨ k = 'v' ∨ k = 'O' ∨ k = 'V' → HasEnergies env70 (k, '_') (en70 (k, '_'))) ∧
    gEomDiag List.dedup env70 ccsd70 .ee = .ok [5, 9] := by
  refine ⟨?_, by decide +kernel⟩
  rintro k (rfl | rfl | rfl | rfl) <;> exact ⟨_, rfl, rfl, by decide +kernel⟩

end Ebcc
