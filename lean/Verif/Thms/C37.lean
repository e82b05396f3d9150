import Verif.Model.InitAmps
import Verif.Thms.C36

/-!
C37: initial amplitudes.
-/

namespace Ebcc

open Dict

section
variable {K : Type} [Field K]

theorem initLoop_ok {α V : Type} (name : α → List Char) (item : α → Except PyErr V) (x : α → V) (l : List α)
    (hi : ∀ a ∈ l, item a = .ok (x a)) (hn : (l.map name).Nodup) (d : Dict (List Char) V)
    (hd : ∀ a ∈ l, name a ∉ d.keys) :
    initLoop name item l d = .ok (d ++ l.map fun a => (name a, x a)) := by
  unfold initLoop
  induction l generalizing d with
  | nil => simp [pure, Except.pure]
  | cons a l ih =>
    rw [List.map_cons, List.nodup_cons] at hn
    rw [List.foldlM_cons, hi a (by simp)]
    simp only [bind, Except.bind, pure, Except.pure]
    have := ih (fun b hb => hi b (by simp [hb])) hn.2 (d.set (name a) (x a)) (by
      intro b hb
      rw [set_new _ _ _ (hd a (by simp))]
      simp only [Dict.keys, List.map_append, List.map_cons, List.map_nil, List.mem_append, List.mem_singleton, not_or]
      refine ⟨hd b (by simp [hb]), ?_⟩
      intro h
      exact hn.1 (h ▸ List.mem_map_of_mem hb))
    simp only [bind, Except.bind, pure, Except.pure] at this
    rw [this, set_new _ _ _ (hd a (by simp))]
    simp

/-- The three loops of `init_amps` and `init_lams`. -/
theorem three_loops {V : Type} (n1 : Rank → List Char) (n2 : Rank → List Char) (n3 : CRank → List Char)
    (i1 : Rank → Except PyErr V) (i2 : Rank → Except PyErr V) (i3 : CRank → Except PyErr V)
    (fs bs : List Rank) (cs : List CRank) (F : Rank → V) (B : Rank → V) (C : CRank → V)
    (h1 : ∀ r ∈ fs, i1 r = .ok (F r)) (h2 : ∀ r ∈ bs, i2 r = .ok (B r)) (h3 : ∀ r ∈ cs, i3 r = .ok (C r))
    (hn : (fs.map n1 ++ (bs.map n2 ++ cs.map n3)).Nodup) :
    (do let d ← initLoop n1 i1 fs []; let d ← initLoop n2 i2 bs d; initLoop n3 i3 cs d)
      = .ok ((fs.map fun r => (n1 r, F r)) ++ ((bs.map fun r => (n2 r, B r)) ++ cs.map fun r => (n3 r, C r))) := by
  obtain ⟨a1, a2, a3⟩ := List.nodup_append.1 hn
  obtain ⟨b1, b2, b3⟩ := List.nodup_append.1 a2
  rw [initLoop_ok n1 i1 F fs h1 a1 [] (by simp [Dict.keys])]
  simp only [bind, Except.bind]
  rw [initLoop_ok n2 i2 B bs h2 b1 _ (by
    intro r hr hm
    simp only [Dict.keys, List.nil_append, List.map_map, Function.comp_def] at hm
    exact a3 _ hm _ (List.mem_append_left _ (List.mem_map_of_mem hr)) rfl)]
  simp only
  rw [initLoop_ok n3 i3 C cs h3 b2 _ (by
    intro r hr hm
    simp only [Dict.keys, List.nil_append, List.map_append, List.map_map, Function.comp_def, List.mem_append] at hm
    rcases hm with hm | hm
    · exact a3 _ hm _ (List.mem_append_right _ (List.mem_map_of_mem hr)) rfl
    · exact b3 _ hm _ (List.mem_map_of_mem hr) rfl)]
  simp

/-- The amplitudes of a restricted or generalised calculation. -/
def ampDict {V : Type} (fs bs : List Rank) (cs : List CRank) (F B : Rank → V) (C : CRank → V) : Dict (List Char) V :=
  (fs.map fun r => (r.1, F r)) ++ ((bs.map fun r => (r.1, B r)) ++ cs.map fun r => (r.1, C r))

/-- `D idx`: the energy denominator of a key for given orbital energies. -/
def denominator (en : Char → List K) (key : List Char) (idx : List Nat) : K :=
  ((key.zip idx).map fun x => indexSign [] x.1 * (en x.1).getD x.2 0).sum

/-- The integrals and energies that a calculation provides: shapes given by the numbers of energies. -/
structure InitData (env : InitEnv K) (eenv : EnergyEnv K) (en : Char → List K) (fs bs : List Rank) (cs : List CRank)
    (f v g : List Char → NDArray K) (w G : NDArray K) (vkey : List Char → List Char) : Prop where
  energies : ∀ e ∈ entries fs bs cs, ∀ k ∈ e.2, HasEnergies eenv (k, '_') (en k)
  size : ∀ e ∈ entries fs bs cs, ∀ k ∈ e.2, k ≠ 'b' → env.size k = .ok (en k).length
  fock : ∀ r ∈ fs, r.2.2 = 1 → env.fock r.2.1 = .ok (f r.2.1) ∧ (f r.2.1).WF ∧
    (f r.2.1).shape = r.2.1.map fun k => (en k).length
  eris : ∀ r ∈ fs, r.2.2 = 2 → env.eris (vkey r.2.1) = .ok (v (vkey r.2.1)) ∧ (v (vkey r.2.1)).WF ∧
    (v (vkey r.2.1)).shape = (vkey r.2.1).map fun k => (en k).length
  omega : bs ≠ [] ∨ cs ≠ [] → env.omega = some w ∧ w.WF ∧ w.shape = [(en 'b').length] ∧
    ∀ i < (en 'b').length, w.get [i] = (en 'b').getD i 0
  G : bs ≠ [] → env.G = some G ∧ G.WF ∧ G.shape = [(en 'b').length]
  g : cs ≠ [] → ∃ gf, env.g = some gf ∧ ∀ r ∈ cs, r.2.2.2 = 1 → gf r.2.1 = .ok (g r.2.1) ∧ (g r.2.1).WF ∧
    (g r.2.1).shape = r.2.1.map fun k => (en k).length

/-- A first order bosonic amplitude `-G / omega`, and zero from two bosons on. -/
def IsInitBoson (en : Char → List K) (G : NDArray K) (r : Rank) (b : NDArray K) : Prop :=
  b.WF ∧ b.shape = List.replicate r.2.2 (en 'b').length ∧
  (r.2.2 = 1 → ∀ i < (en 'b').length, b.get [i] = -G.get [i] / (en 'b').getD i 0) ∧ (r.2.2 ≠ 1 → IsZero b)

theorem isZero_zeros (shape : List Nat) : IsZero (NDArray.zeros (R := K) shape) := by
  intro idx hidx
  exact NDArray.get_ofFn _ _ hidx

theorem zeros_wf (shape : List Nat) : (NDArray.zeros (R := K) shape).WF := NDArray.ofFn_wf _ _

theorem initBoson_ok {env : InitEnv K} {eenv : EnergyEnv K} {en : Char → List K} {fs bs : List Rank} {cs : List CRank}
    {f v g : List Char → NDArray K} {w G : NDArray K} {vkey : List Char → List Char}
    (hd : InitData env eenv en fs bs cs f v g w G vkey) (r : Rank) (hr : r ∈ bs) :
    ∃ b, initBoson env.omega env.G r = .ok b ∧ IsInitBoson en G r b := by
  obtain ⟨w1, w2, w3, w4⟩ := hd.omega (Or.inl (List.ne_nil_of_mem hr))
  obtain ⟨g1, g2, g3⟩ := hd.G (List.ne_nil_of_mem hr)
  unfold initBoson
  rw [w1, g1]
  simp only
  by_cases h1 : r.2.2 = 1
  · rw [if_pos h1]
    obtain ⟨q, q1, q2, q3, q4⟩ := div_ok (G.map fun x => -x) w (map_wf _ _ g2) w2 (g3.trans w3.symm)
    refine ⟨q, q1, q3, q2.trans (by rw [h1]; exact g3), fun _ i hi => ?_, fun h => absurd h1 h⟩
    rw [q4, map_get _ _ neg_zero, w4 i hi]
  · rw [if_neg h1]
    simp only [nbosOf, w3, bind, Except.bind, pure, Except.pure]
    exact ⟨_, rfl, zeros_wf _, rfl, fun h => absurd h h1, fun _ => isZero_zeros _⟩

/-- A coupled amplitude: `g / D` for one boson, zero otherwise. -/
def IsInitCoupling (en : Char → List K) (g : List Char → NDArray K) (r : CRank) (c : NDArray K) : Prop :=
  c.WF ∧ c.shape = (r.2.1.map fun k => (en k).length) ∧
  (r.2.2.2 = 1 → ∀ idx, ValidIdx c.shape idx → c.get idx = (g r.2.1).get idx / denominator en r.2.1 idx) ∧
  (r.2.2.2 ≠ 1 → IsZero c)

theorem initCoupling_ok (setOrder : List Char → List Char) (ho : IsSetOrder setOrder) {a : Ansatz} {spin : SpinType}
    {env : InitEnv K} {eenv : EnergyEnv K} {en : Char → List K}
    {fs bs : List Rank} {cs : List CRank} (h : HasRanks a spin .t fs bs cs) (h1 : ∀ r ∈ cs, r.2.2.1 = 1)
    (h9 : a.bosonCouplingRank ≤ 9)
    (henv : env.energy = fun key => (energySum setOrder eenv key []).1)
    {f v g : List Char → NDArray K} {w G : NDArray K} {vkey : List Char → List Char}
    (hd : InitData env eenv en fs bs cs f v g w G vkey) (r : CRank) (hr : r ∈ cs) :
    ∃ c, initCoupling env (.ok (decide (r.2.2.2 = 1))) r = .ok c ∧ IsInitCoupling en g r c := by
  obtain ⟨w1, w2, w3, w4⟩ := hd.omega (Or.inr (List.ne_nil_of_mem hr))
  obtain ⟨gf, g1, g2⟩ := hd.g (List.ne_nil_of_mem hr)
  have hm : (r.1, r.2.1) ∈ entries fs bs cs := by
    unfold entries
    simp only [List.mem_append, List.mem_map]
    exact Or.inr (Or.inr ⟨r, hr, rfl⟩)
  have hg := good_entries h (Or.inl rfl) h9 h1 _ hm
  unfold initCoupling
  rw [w1, g1]
  simp only [if_neg (by simp [h1 r hr] : ¬ r.2.2.1 ≠ 1), bind, Except.bind, pure, Except.pure, decide_eq_true_eq]
  by_cases hb : r.2.2.2 = 1
  · obtain ⟨x1, x2, x3⟩ := g2 r hr hb
    obtain ⟨E, e1, e2, e3, e4⟩ := C39_elements setOrder ho eenv r.2.1 [] en hg.ne hg.short hg.chars
      (hd.energies _ hm)
    obtain ⟨q, q1, q2, q3, q4⟩ := div_ok (g r.2.1) E x2 e3 (x3.trans e2.symm)
    rw [if_pos hb, x1, henv]
    simp only [e1, q1]
    refine ⟨q, rfl, q3, q2.trans x3, fun _ idx hidx => ?_, fun h => absurd hb h⟩
    rw [q4, e4 idx (by rw [e2, ← x3, ← q2]; exact hidx)]
    rfl
  · obtain ⟨-, hkey⟩ := goodEntry_c h.c (Or.inl rfl) h9 r hr (h1 r hr)
    rw [if_neg hb]
    simp only [nbosOf, w3]
    have hdrop : (r.2.1.drop r.2.2.2).mapM env.size = .ok ((r.2.1.drop r.2.2.2).map fun k => (en k).length) := by
      apply mapM_ok
      intro k hk
      refine hd.size _ hm k (List.mem_of_mem_drop hk) ?_
      rintro rfl
      rcases hkey with hkey | hkey <;> rw [hkey] at hk <;> simp at hk
    rw [hdrop]
    refine ⟨_, rfl, zeros_wf _, ?_, fun h => absurd h hb, fun _ => isZero_zeros _⟩
    show List.replicate r.2.2.2 (en 'b').length ++ _ = _
    rcases hkey with hkey | hkey <;> rw [hkey] <;> simp

/-- A restricted fermionic amplitude: `f / D` for singles, `(ia|jb) / D` for doubles, zero otherwise. -/
def IsInitFermion (en : Char → List K) (f v : List Char → NDArray K) (r : Rank) (t : NDArray K) : Prop :=
  t.WF ∧ t.shape = (r.2.1.map fun k => (en k).length) ∧
  (r.2.2 = 1 → ∀ idx, ValidIdx t.shape idx → t.get idx = (f r.2.1).get idx / denominator en r.2.1 idx) ∧
  (r.2.2 = 2 → ∀ k0 k1 k2 k3, r.2.1 = [k0, k1, k2, k3] → ∀ i j a b, ValidIdx t.shape [i, j, a, b] →
    t.get [i, j, a, b] = (v [k0, k2, k1, k3]).get [i, a, j, b] / denominator en r.2.1 [i, j, a, b]) ∧
  (3 ≤ r.2.2 → IsZero t)

theorem rank_key {ansatz : List Char} {spin : SpinType} {fs : List Rank}
    (h : fermionicClusterRanks ansatz spin .t = .ok fs) (r : Rank) (hr : r ∈ fs) :
    r.2.1.length = 2 * r.2.2 ∧ 1 ≤ r.2.2 := by
  obtain ⟨k, rfl⟩ := (C24_well_formed ansatz spin .t fs h).2.2 r hr
  cases k <;> decide

theorem mem_entries_f {fs bs : List Rank} {cs : List CRank} {r : Rank} (hr : r ∈ fs) :
    (r.1, r.2.1) ∈ entries fs bs cs := by
  unfold entries
  simp only [List.mem_append, List.mem_map]
  exact Or.inl ⟨r, hr, rfl⟩

/-- `vt[i, j, a, b] = v[i, a, j, b]`. -/
theorem transpose_0213 (x : NDArray K) (n0 n1 n2 n3 : Nat) (hs : x.shape = [n0, n2, n1, n3]) :
    ∃ y, x.transpose [0, 2, 1, 3] = .ok y ∧ y.WF ∧ y.shape = [n0, n1, n2, n3] ∧
      ∀ i j a b, ValidIdx [n0, n1, n2, n3] [i, j, a, b] → y.get [i, j, a, b] = x.get [i, a, j, b] := by
  obtain ⟨y, y1, y2, y3, y4⟩ := transpose_spec x [0, 2, 1, 3] (by
    rw [hs]
    show List.Perm [0, 2, 1, 3] (List.range 4)
    decide)
  refine ⟨y, y1, y2, by rw [y3, hs]; rfl, fun i j a b hv => ?_⟩
  have := y4 [i, a, j, b] (by
    rw [hs]
    unfold ValidIdx at *
    simp only [List.forall₂_cons, List.forall₂_nil_left_iff] at hv ⊢
    tauto)
  exact this

theorem rInitFermion_ok (setOrder : List Char → List Char) (ho : IsSetOrder setOrder) {a : Ansatz} {spin : SpinType}
    {env : InitEnv K} {eenv : EnergyEnv K} {en : Char → List K}
    {fs bs : List Rank} {cs : List CRank} (h : HasRanks a spin .t fs bs cs)
    (henv : env.energy = fun key => (energySum setOrder eenv key []).1)
    {f v g : List Char → NDArray K} {w G : NDArray K} {vkey : List Char → List Char}
    (hvk : ∀ k0 k1 k2 k3, vkey [k0, k1, k2, k3] = [k0, k2, k1, k3])
    (hd : InitData env eenv en fs bs cs f v g w G vkey) (r : Rank) (hr : r ∈ fs) :
    ∃ t, rInitFermion env r = .ok t ∧ IsInitFermion en f v r t := by
  have hm := mem_entries_f (bs := bs) (cs := cs) hr
  have hg := goodEntry_f h.f (Or.inl rfl) r hr
  obtain ⟨hlen, hpos⟩ := rank_key h.f r hr
  obtain ⟨E, e1, e2, e3, e4⟩ := C39_elements setOrder ho eenv r.2.1 [] en hg.ne hg.short hg.chars (hd.energies _ hm)
  unfold rInitFermion
  by_cases h1 : r.2.2 = 1
  · obtain ⟨x1, x2, x3⟩ := hd.fock r hr h1
    obtain ⟨q, q1, q2, q3, q4⟩ := div_ok (f r.2.1) E x2 e3 (x3.trans e2.symm)
    rw [if_pos h1, x1, henv]
    simp only [bind, Except.bind, e1, q1]
    refine ⟨q, rfl, q3, q2.trans x3, fun _ idx hidx => ?_, fun h2 => by omega, fun h3 => by omega⟩
    rw [q4, e4 idx (by rw [e2, ← x3, ← q2]; exact hidx)]
    rfl
  · rw [if_neg h1]
    by_cases h2 : r.2.2 = 2
    · obtain ⟨k0, k1, k2, k3, hk⟩ : ∃ k0 k1 k2 k3, r.2.1 = [k0, k1, k2, k3] := by
        rw [h2] at hlen
        obtain ⟨k0, t, ht⟩ := List.exists_cons_of_length_eq_add_one hlen
        rw [ht, List.length_cons, Nat.add_right_cancel_iff] at hlen
        obtain ⟨k1, t, ht'⟩ := List.exists_cons_of_length_eq_add_one hlen
        rw [ht', List.length_cons, Nat.add_right_cancel_iff] at hlen
        obtain ⟨k2, t, ht''⟩ := List.exists_cons_of_length_eq_add_one hlen
        rw [ht'', List.length_cons, Nat.add_right_cancel_iff] at hlen
        obtain ⟨k3, t, ht'''⟩ := List.exists_cons_of_length_eq_add_one hlen
        rw [ht''', List.length_cons, Nat.add_right_cancel_iff] at hlen
        have := List.length_eq_zero_iff.1 hlen
        subst this
        exact ⟨k0, k1, k2, k3, by rw [ht, ht', ht'', ht''']⟩
      obtain ⟨x1, x2, x3⟩ := hd.eris r hr h2
      rw [hk, hvk] at x1 x2 x3
      obtain ⟨y, y1, y2, y3, y4⟩ := transpose_0213 (v [k0, k2, k1, k3]) (en k0).length (en k1).length (en k2).length
        (en k3).length x3
      have hsh : y.shape = r.2.1.map fun k => (en k).length := by rw [y3, hk]; rfl
      obtain ⟨q, q1, q2, q3, q4⟩ := div_ok y E y2 e3 (hsh.trans e2.symm)
      rw [if_pos h2, henv]
      have hck : chemKey r.2.1 = .ok [k0, k2, k1, k3] := by rw [hk]; rfl
      simp only [hck, bind, Except.bind, x1, y1, e1, q1]
      refine ⟨q, rfl, q3, q2.trans hsh, fun h => by omega, fun _ k0' k1' k2' k3' hk' i j a b hv => ?_, fun h3 => by omega⟩
      rw [hk] at hk'
      cases hk'
      rw [q4, e4 _ (by rw [e2, ← hsh, ← q2]; exact hv), y4 _ _ _ _ (by rw [← y3, ← q2]; exact hv)]
      rfl
    · rw [if_neg h2]
      have hs : r.2.1.mapM env.size = .ok (r.2.1.map fun k => (en k).length) := by
        apply mapM_ok
        intro k hk
        refine hd.size _ hm k hk ?_
        rcases key_chars h.f r hr k hk with rfl | rfl | rfl | rfl <;> decide
      rw [hs]
      simp only [bind, Except.bind, pure, Except.pure]
      exact ⟨_, rfl, zeros_wf _, rfl, fun h => absurd h h1, fun h => absurd h h2, fun _ => isZero_zeros _⟩

/-- Restricted: all amplitudes of the ansatz, in order, with the shapes of their keys; first order values. -/
theorem C37_restricted (setOrder : List Char → List Char) (ho : IsSetOrder setOrder) {a : Ansatz}
    {env : InitEnv K} {eenv : EnergyEnv K} {en : Char → List K}
    {fs bs : List Rank} {cs : List CRank} (h : HasRanks a .R .t fs bs cs) (h1 : ∀ r ∈ cs, r.2.2.1 = 1)
    (h9 : a.bosonCouplingRank ≤ 9) (hnd : ((entries fs bs cs).map fun e => e.1).Nodup)
    (henv : env.energy = fun key => (energySum setOrder eenv key []).1)
    {f v g : List Char → NDArray K} {w G : NDArray K} {vkey : List Char → List Char}
    (hvk : ∀ k0 k1 k2 k3, vkey [k0, k1, k2, k3] = [k0, k2, k1, k3])
    (hd : InitData env eenv en fs bs cs f v g w G vkey) :
    ∃ F B C, rInitAmps a env = .ok (ampDict fs bs cs F B C) ∧ (∀ r ∈ fs, IsInitFermion en f v r (F r)) ∧
      (∀ r ∈ bs, IsInitBoson en G r (B r)) ∧ ∀ r ∈ cs, IsInitCoupling en g r (C r) := by
  have k1 := rInitFermion_ok setOrder ho h henv hvk hd
  have k2 := initBoson_ok hd
  have k3 := initCoupling_ok setOrder ho h h1 h9 henv hd
  choose! F f1 f2 using k1
  choose! B b1 b2 using k2
  choose! C c1 c2 using k3
  refine ⟨F, B, C, ?_, f2, b2, c2⟩
  have := three_loops (fun r => r.1) (fun r => r.1) (fun r => r.1) (rInitFermion env) (initBoson env.omega env.G)
    (fun r => initCoupling env (.ok (decide (r.2.2.2 = 1))) r) fs bs cs F B C f1 b1 c1
    (by simpa [entries, List.map_append, List.map_map, Function.comp_def] using hnd)
  unfold rInitAmps
  rw [h.f, h.b, h.c]
  exact this

/-! ### Generalised -/

/-- A generalised fermionic amplitude: `f / D` for singles, `<ij||ab> / D` for doubles, zero otherwise. -/
def IsInitFermionG (en : Char → List K) (f v : List Char → NDArray K) (r : Rank) (t : NDArray K) : Prop :=
  t.WF ∧ t.shape = (r.2.1.map fun k => (en k).length) ∧
  (r.2.2 = 1 → ∀ idx, ValidIdx t.shape idx → t.get idx = (f r.2.1).get idx / denominator en r.2.1 idx) ∧
  (r.2.2 = 2 → ∀ idx, ValidIdx t.shape idx → t.get idx = (v r.2.1).get idx / denominator en r.2.1 idx) ∧
  (3 ≤ r.2.2 → IsZero t)

theorem gInitFermion_ok (setOrder : List Char → List Char) (ho : IsSetOrder setOrder) {a : Ansatz} {spin : SpinType}
    {env : InitEnv K} {eenv : EnergyEnv K} {en : Char → List K}
    {fs bs : List Rank} {cs : List CRank} (h : HasRanks a spin .t fs bs cs)
    (henv : env.energy = fun key => (energySum setOrder eenv key []).1)
    {f v g : List Char → NDArray K} {w G : NDArray K}
    (hd : InitData env eenv en fs bs cs f v g w G id) (r : Rank) (hr : r ∈ fs) :
    ∃ t, gInitFermion env r = .ok t ∧ IsInitFermionG en f v r t := by
  have hm := mem_entries_f (bs := bs) (cs := cs) hr
  have hg := goodEntry_f h.f (Or.inl rfl) r hr
  obtain ⟨hlen, hpos⟩ := rank_key h.f r hr
  obtain ⟨E, e1, e2, e3, e4⟩ := C39_elements setOrder ho eenv r.2.1 [] en hg.ne hg.short hg.chars (hd.energies _ hm)
  unfold gInitFermion
  by_cases h1 : r.2.2 = 1
  · obtain ⟨x1, x2, x3⟩ := hd.fock r hr h1
    obtain ⟨q, q1, q2, q3, q4⟩ := div_ok (f r.2.1) E x2 e3 (x3.trans e2.symm)
    rw [if_pos h1, x1, henv]
    simp only [bind, Except.bind, e1, q1]
    refine ⟨q, rfl, q3, q2.trans x3, fun _ idx hidx => ?_, fun h2 => by omega, fun h3 => by omega⟩
    rw [q4, e4 idx (by rw [e2, ← x3, ← q2]; exact hidx)]
    rfl
  · rw [if_neg h1]
    by_cases h2 : r.2.2 = 2
    · obtain ⟨x1, x2, x3⟩ := hd.eris r hr h2
      obtain ⟨q, q1, q2, q3, q4⟩ := div_ok (v r.2.1) E x2 e3 (x3.trans e2.symm)
      simp only [id] at x1 x2 x3
      rw [if_pos h2, x1, henv]
      simp only [bind, Except.bind, e1, q1]
      refine ⟨q, rfl, q3, q2.trans x3, fun h => by omega, fun _ idx hidx => ?_, fun h3 => by omega⟩
      rw [q4, e4 idx (by rw [e2, ← x3, ← q2]; exact hidx)]
      rfl
    · rw [if_neg h2]
      have hs : r.2.1.mapM env.size = .ok (r.2.1.map fun k => (en k).length) := by
        apply mapM_ok
        intro k hk
        refine hd.size _ hm k hk ?_
        rcases key_chars h.f r hr k hk with rfl | rfl | rfl | rfl <;> decide
      rw [hs]
      simp only [bind, Except.bind, pure, Except.pure]
      exact ⟨_, rfl, zeros_wf _, rfl, fun h => absurd h h1, fun h => absurd h h2, fun _ => isZero_zeros _⟩

/-- Generalised: as in the restricted case, provided that the stale loop variable which the code tests has the
value `1` exactly for the coupled amplitudes with one boson.  Missing: all other ansatzes, where the claim is false
(`C37_generalised_coupling_zero`). -/
theorem C37_generalised_partial (setOrder : List Char → List Char) (ho : IsSetOrder setOrder) {a : Ansatz}
    {env : InitEnv K} {eenv : EnergyEnv K} {en : Char → List K}
    {fs bs : List Rank} {cs : List CRank} (h : HasRanks a .G .t fs bs cs) (h1 : ∀ r ∈ cs, r.2.2.1 = 1)
    (h9 : a.bosonCouplingRank ≤ 9) (hnd : ((entries fs bs cs).map fun e => e.1).Nodup)
    (henv : env.energy = fun key => (energySum setOrder eenv key []).1)
    {f v g : List Char → NDArray K} {w G : NDArray K}
    (hd : InitData env eenv en fs bs cs f v g w G id)
    (hst : ∀ r ∈ cs, ∃ n, staleN fs bs = some n ∧ (n = 1 ↔ r.2.2.2 = 1)) :
    ∃ F B C, gInitAmps a env = .ok (ampDict fs bs cs F B C) ∧ (∀ r ∈ fs, IsInitFermionG en f v r (F r)) ∧
      (∀ r ∈ bs, IsInitBoson en G r (B r)) ∧ ∀ r ∈ cs, IsInitCoupling en g r (C r) := by
  have k1 := gInitFermion_ok setOrder ho h henv hd
  have k2 := initBoson_ok hd
  have k3 := initCoupling_ok setOrder ho h h1 h9 henv hd
  choose! F f1 f2 using k1
  choose! B b1 b2 using k2
  choose! C c1 c2 using k3
  refine ⟨F, B, C, ?_, f2, b2, c2⟩
  have := three_loops (fun r => r.1) (fun r => r.1) (fun r => r.1) (gInitFermion env) (initBoson env.omega env.G)
    (fun r => initCoupling env (staleTest fs bs) r) fs bs cs F B C f1 b1 (by
      intro r hr
      obtain ⟨n, n1, n2⟩ := hst r hr
      have e : staleTest fs bs = .ok (decide (r.2.2.2 = 1)) := by
        unfold staleTest
        rw [n1]
        simp [n2]
      rw [e]
      exact c1 r hr)
    (by simpa [entries, List.map_append, List.map_map, Function.comp_def] using hnd)
  unfold gInitAmps
  rw [h.f, h.b, h.c]
  exact this

/-- Generalised: when the last rank of the bosons (or of the fermions, without bosonic amplitudes) is not one, all
coupled amplitudes are initialised to zero, including the ones with one boson. -/
theorem C37_generalised_coupling_zero (setOrder : List Char → List Char) (ho : IsSetOrder setOrder) {a : Ansatz}
    {env : InitEnv K} {eenv : EnergyEnv K} {en : Char → List K}
    {fs bs : List Rank} {cs : List CRank} (h : HasRanks a .G .t fs bs cs) (h1 : ∀ r ∈ cs, r.2.2.1 = 1)
    (h9 : a.bosonCouplingRank ≤ 9) (hnd : ((entries fs bs cs).map fun e => e.1).Nodup)
    (henv : env.energy = fun key => (energySum setOrder eenv key []).1)
    {f v g : List Char → NDArray K} {w G : NDArray K}
    (hd : InitData env eenv en fs bs cs f v g w G id) (n : Nat) (hst : staleN fs bs = some n) (hn : n ≠ 1) :
    ∃ F B C, gInitAmps a env = .ok (ampDict fs bs cs F B C) ∧ ∀ r ∈ cs, IsZero (C r) := by
  have k1 := gInitFermion_ok setOrder ho h henv hd
  have k2 := initBoson_ok hd
  choose! F f1 f2 using k1
  choose! B b1 b2 using k2
  have hst' : staleTest fs bs = .ok false := by
    unfold staleTest
    rw [hst]
    simp [hn]
  have k3 : ∀ r : CRank, r ∈ cs → ∃ c, initCoupling env (.ok false) r = .ok c ∧ IsZero c := by
    intro r hr
    obtain ⟨w1, w2, w3, w4⟩ := hd.omega (Or.inr (List.ne_nil_of_mem hr))
    obtain ⟨gf, g1, g2⟩ := hd.g (List.ne_nil_of_mem hr)
    have hm : (r.1, r.2.1) ∈ entries fs bs cs := by
      unfold entries
      simp only [List.mem_append, List.mem_map]
      exact Or.inr (Or.inr ⟨r, hr, rfl⟩)
    unfold initCoupling
    rw [w1, g1]
    simp only [if_neg (by simp [h1 r hr] : ¬ r.2.2.1 ≠ 1), bind, Except.bind, pure, Except.pure]
    obtain ⟨-, hkey⟩ := goodEntry_c h.c (Or.inl rfl) h9 r hr (h1 r hr)
    simp only [nbosOf, w3, Bool.false_eq_true, if_false]
    have hdrop : (r.2.1.drop r.2.2.2).mapM env.size = .ok ((r.2.1.drop r.2.2.2).map fun k => (en k).length) := by
      apply mapM_ok
      intro k hk
      refine hd.size _ hm k (List.mem_of_mem_drop hk) ?_
      rintro rfl
      rcases hkey with hkey | hkey <;> rw [hkey] at hk <;> simp at hk
    rw [hdrop]
    exact ⟨_, rfl, isZero_zeros _⟩
  choose! C c1 c2 using k3
  refine ⟨F, B, C, ?_, c2⟩
  have := three_loops (fun r => r.1) (fun r => r.1) (fun r => r.1) (gInitFermion env) (initBoson env.omega env.G)
    (fun r => initCoupling env (staleTest fs bs) r) fs bs cs F B C f1 b1 (by rw [hst']; exact c1)
    (by simpa [entries, List.map_append, List.map_map, Function.comp_def] using hnd)
  unfold gInitAmps
  rw [h.f, h.b, h.c]
  exact this

/-! ### Unrestricted -/

theorem rank_two_key {ansatz : List Char} {fs : List Rank} {spin : SpinType}
    (h : fermionicClusterRanks ansatz spin .t = .ok fs) (r : Rank) (hr : r ∈ fs) :
    (r.2.2 = 2 → r.2.1 = ['o', 'o', 'v', 'v']) := by
  obtain ⟨k, rfl⟩ := (C24_well_formed ansatz spin .t fs h).2.2 r hr
  cases k <;> decide

theorem combos_two (s : List Char) (hs : s ∈ generateSpinCombinations 2 false true) :
    s = ['a', 'a', 'a', 'a'] ∨ s = ['a', 'b', 'a', 'b'] ∨ s = ['b', 'b', 'b', 'b'] := by
  have : ∀ s ∈ generateSpinCombinations 2 false true,
      s = ['a', 'a', 'a', 'a'] ∨ s = ['a', 'b', 'a', 'b'] ∨ s = ['b', 'b', 'b', 'b'] := by decide +kernel
  exact this s hs

/-- An unrestricted fermionic amplitude: `f / D` for singles; for doubles `(ia|jb) / D`, antisymmetrised with the
weight one half for equal spins; zero otherwise.  Energies and integrals of the spin of the block. -/
def IsInitBlock (en : Char × Char → List K) (f v : List Char → List Char → NDArray K) (r : Rank) (s : List Char)
    (t : NDArray K) : Prop :=
  t.WF ∧ t.shape = ((r.2.1.zip s).map fun p => (en p).length) ∧
  (r.2.2 = 1 → ∀ idx, ValidIdx t.shape idx → t.get idx = (f s r.2.1).get idx / signedSum [] en (r.2.1.zip s) idx) ∧
  (r.2.2 = 2 → ∀ i j a b, ValidIdx t.shape [i, j, a, b] →
    (s = "abab".toList → t.get [i, j, a, b]
      = (v "aabb".toList "ovov".toList).get [i, a, j, b] / signedSum [] en (r.2.1.zip s) [i, j, a, b]) ∧
    (s ≠ "abab".toList → t.get [i, j, a, b]
      = ((v s "ovov".toList).get [i, a, j, b] - (v s "ovov".toList).get [j, a, i, b])
        / (2 * signedSum [] en (r.2.1.zip s) [i, j, a, b]))) ∧
  (3 ≤ r.2.2 → IsZero t)

/-- The integrals and energies of an unrestricted calculation. -/
structure UInitData (env : UInitEnv K) (eenv : EnergyEnv K) (en : Char × Char → List K) (fs bs : List Rank)
    (cs : List CRank) (f v g : List Char → List Char → NDArray K) (w G : NDArray K) : Prop where
  energies : UEnergies eenv en fs bs cs
  size : ∀ s ∈ ['a', 'b'], ∀ k, (k = 'o' ∨ k = 'O' ∨ k = 'v' ∨ k = 'V') → env.size s k = .ok (en (k, s)).length
  fock : ∀ r ∈ fs, r.2.2 = 1 → ∀ s ∈ [['a', 'a'], ['b', 'b']], env.fock s r.2.1 = .ok (f s r.2.1) ∧
    (f s r.2.1).WF ∧ (f s r.2.1).shape = (r.2.1.zip s).map fun p => (en p).length
  eris : ∀ s ∈ ["aaaa".toList, "aabb".toList, "bbbb".toList], env.eris s "ovov".toList = .ok (v s "ovov".toList) ∧
    (v s "ovov".toList).WF ∧ (v s "ovov".toList).shape = ("ovov".toList.zip s).map fun p => (en p).length
  omega : bs ≠ [] ∨ cs ≠ [] → env.omega = some w ∧ w.WF ∧ w.shape = [(en ('b', '_')).length] ∧
    ∀ i < (en ('b', '_')).length, w.get [i] = (en ('b', '_')).getD i 0
  G : bs ≠ [] → env.G = some G ∧ G.WF ∧ G.shape = [(en ('b', '_')).length]
  g : cs ≠ [] → ∃ gf, env.g = some gf ∧ ∀ r ∈ cs, r.2.2.2 = 1 → ∀ s ∈ [['a', 'a'], ['b', 'b']],
    gf s r.2.1 = .ok (g s r.2.1) ∧ (g s r.2.1).WF ∧
    (g s r.2.1).shape = (r.2.1.zip ('_' :: s)).map fun p => (en p).length

theorem transpose_1023 (x : NDArray K) (n m2 m3 : Nat) (hs : x.shape = [n, n, m2, m3]) :
    ∃ y, x.transpose [1, 0, 2, 3] = .ok y ∧ y.WF ∧ y.shape = [n, n, m2, m3] ∧
      ∀ i j a b, ValidIdx [n, n, m2, m3] [i, j, a, b] → y.get [i, j, a, b] = x.get [j, i, a, b] := by
  obtain ⟨y, y1, y2, y3, y4⟩ := transpose_spec x [1, 0, 2, 3] (by
    rw [hs]
    show List.Perm [1, 0, 2, 3] (List.range 4)
    decide)
  refine ⟨y, y1, y2, by rw [y3, hs]; rfl, fun i j a b hv => ?_⟩
  exact y4 [j, i, a, b] (by
    rw [hs]
    unfold ValidIdx at *
    simp only [List.forall₂_cons, List.forall₂_nil_left_iff] at hv ⊢
    tauto)

theorem half_sub (x y D : K) : (x / D + -(y / D)) * 2⁻¹ = (x - y) / (2 * D) := by
  simp only [div_eq_mul_inv, mul_inv]
  ring

theorem uInitBlock_ok (setOrder : List Char → List Char) (ho : IsSetOrder setOrder) {a : Ansatz}
    {env : UInitEnv K} {eenv : EnergyEnv K} {en : Char × Char → List K}
    {fs bs : List Rank} {cs : List CRank} (h : HasRanks a .U .t fs bs cs)
    (henv : env.energy = fun key spins => (uEnergySum setOrder eenv key spins []).1)
    {f v g : List Char → List Char → NDArray K} {w G : NDArray K}
    (hd : UInitData env eenv en fs bs cs f v g w G) (r : Rank) (s : List Char)
    (hrs : r ∈ fs ∧ s ∈ generateSpinCombinations r.2.2 false true) :
    ∃ t, uInitBlock env r s = .ok t ∧ IsInitBlock en f v r s t := by
  obtain ⟨hr, hs⟩ := hrs
  have hl := key_length h.f (Or.inl rfl) r hr
  have hc := combos_spin r.2.2 s hs
  have hk : KeySpin r.2.1 s := ⟨by rw [hl.1, hc.1], hl.2, key_chars h.f r hr, hc.2⟩
  have hg := goodEntry_f h.f (Or.inl rfl) r hr
  obtain ⟨E, e1, e2, e3, e4⟩ := C39_elements_unrestricted setOrder ho eenv r.2.1 s [] en hk.len hk.ne hg.short hg.chars
    (hd.energies.f r hr s hs)
  unfold uInitBlock
  by_cases h1 : r.2.2 = 1
  · obtain ⟨x1, x2, x3⟩ := hd.fock r hr h1 s (by
      rw [h1] at hs
      revert hs
      have : ∀ s ∈ generateSpinCombinations 1 false true, s ∈ [['a', 'a'], ['b', 'b']] := by decide +kernel
      exact this s)
    obtain ⟨q, q1, q2, q3, q4⟩ := div_ok (f s r.2.1) E x2 e3 (x3.trans e2.symm)
    rw [if_pos h1, x1, henv]
    simp only [bind, Except.bind, e1, q1]
    refine ⟨q, rfl, q3, q2.trans x3, fun _ idx hidx => ?_, fun h2 => by omega, fun h3 => by omega⟩
    rw [q4, e4 idx (by rw [e2, ← x3, ← q2]; exact hidx)]
    rfl
  · rw [if_neg h1]
    by_cases h2 : r.2.2 = 2
    · have hkey := rank_two_key h.f r hr h2
      rw [h2] at hs
      have hs' := combos_two s hs
      rw [if_pos h2]
      have hck : chemKey r.2.1 = .ok "ovov".toList := by rw [hkey]; rfl
      rcases hs' with hs' | hs' | hs'
      · obtain ⟨x1, x2, x3⟩ := hd.eris "aaaa".toList (by simp)
        obtain ⟨y, y1, y2, y3, y4⟩ := transpose_0213 (v "aaaa".toList "ovov".toList) (en ('o', 'a')).length
          (en ('o', 'a')).length (en ('v', 'a')).length (en ('v', 'a')).length x3
        have hsh : y.shape = (r.2.1.zip s).map fun p => (en p).length := by rw [y3, hkey, hs']; rfl
        obtain ⟨q, q1, q2, q3, q4⟩ := div_ok y E y2 e3 (hsh.trans e2.symm)
        obtain ⟨z, z1, z2, z3, z4⟩ := transpose_1023 q (en ('o', 'a')).length (en ('v', 'a')).length
          (en ('v', 'a')).length (q2.trans y3)
        obtain ⟨u, u1, u2, u3, u4⟩ := add_ok q (z.map fun x => -x) q3 (map_wf _ _ z2) ((q2.trans y3).trans z3.symm)
        have hct : chemKey s = .ok "aaaa".toList := by rw [hs']; rfl
        rw [henv]
        simp only [hct, hck, bind, Except.bind, x1, y1, e1, q1, if_pos (Or.inl hs' : s = "aaaa".toList ∨ s = "bbbb".toList),
          z1, u1, pure, Except.pure]
        refine ⟨_, rfl, map_wf _ _ u3, u2.trans (q2.trans hsh), fun h => by omega, fun _ i j a b hv => ⟨?_, ?_⟩,
          fun h3 => by omega⟩
        · intro hc
          rw [hs'] at hc
          exact absurd hc (by decide)
        · intro _
          have hv0 : ValidIdx u.shape [i, j, a, b] := hv
          rw [u2, q2, y3] at hv0
          have hv1 : ValidIdx [(en ('o', 'a')).length, (en ('o', 'a')).length, (en ('v', 'a')).length,
              (en ('v', 'a')).length] [j, i, a, b] := by
            unfold ValidIdx at *
            simp only [List.forall₂_cons, List.forall₂_nil_left_iff] at hv0 ⊢
            tauto
          have hD : E.get [j, i, a, b] = E.get [i, j, a, b] := by
            rw [e4 _ (by rw [e2, ← hsh, y3]; exact hv1), e4 _ (by rw [e2, ← hsh, y3]; exact hv0), hkey, hs']
            simp only [signedSum, List.zip_cons_cons, List.zip_nil_right, List.map_cons, List.map_nil, List.sum_cons,
              List.sum_nil]
            ring
          rw [map_get u (fun x => x * 2⁻¹) (zero_mul _), u4, map_get z (fun x => -x) neg_zero, z4 _ _ _ _ hv0, q4, q4, y4 _ _ _ _ hv0,
            y4 _ _ _ _ hv1, hD, e4 _ (by rw [e2, ← hsh, y3]; exact hv0), hs']
          exact half_sub _ _ _
      · obtain ⟨x1, x2, x3⟩ := hd.eris "aabb".toList (by simp)
        obtain ⟨y, y1, y2, y3, y4⟩ := transpose_0213 (v "aabb".toList "ovov".toList) (en ('o', 'a')).length
          (en ('o', 'b')).length (en ('v', 'a')).length (en ('v', 'b')).length x3
        have hsh : y.shape = (r.2.1.zip s).map fun p => (en p).length := by rw [y3, hkey, hs']; rfl
        obtain ⟨q, q1, q2, q3, q4⟩ := div_ok y E y2 e3 (hsh.trans e2.symm)
        have hct : chemKey s = .ok "aabb".toList := by rw [hs']; rfl
        rw [henv]
        simp only [hct, hck, bind, Except.bind, x1, y1, e1, q1,
          if_neg (by rw [hs']; decide : ¬ (s = "aaaa".toList ∨ s = "bbbb".toList)), pure, Except.pure]
        refine ⟨_, rfl, q3, q2.trans hsh, fun h => by omega, fun _ i j a b hv => ⟨?_, ?_⟩, fun h3 => by omega⟩
        · intro _
          rw [q4, y4 _ _ _ _ (by rw [← y3, ← q2]; exact hv), e4 _ (by rw [e2, ← hsh, ← q2]; exact hv)]
          rfl
        · intro hc
          exact absurd hs' hc
      · obtain ⟨x1, x2, x3⟩ := hd.eris "bbbb".toList (by simp)
        obtain ⟨y, y1, y2, y3, y4⟩ := transpose_0213 (v "bbbb".toList "ovov".toList) (en ('o', 'b')).length
          (en ('o', 'b')).length (en ('v', 'b')).length (en ('v', 'b')).length x3
        have hsh : y.shape = (r.2.1.zip s).map fun p => (en p).length := by rw [y3, hkey, hs']; rfl
        obtain ⟨q, q1, q2, q3, q4⟩ := div_ok y E y2 e3 (hsh.trans e2.symm)
        obtain ⟨z, z1, z2, z3, z4⟩ := transpose_1023 q (en ('o', 'b')).length (en ('v', 'b')).length
          (en ('v', 'b')).length (q2.trans y3)
        obtain ⟨u, u1, u2, u3, u4⟩ := add_ok q (z.map fun x => -x) q3 (map_wf _ _ z2) ((q2.trans y3).trans z3.symm)
        have hct : chemKey s = .ok "bbbb".toList := by rw [hs']; rfl
        rw [henv]
        simp only [hct, hck, bind, Except.bind, x1, y1, e1, q1, if_pos (Or.inr hs' : s = "aaaa".toList ∨ s = "bbbb".toList),
          z1, u1, pure, Except.pure]
        refine ⟨_, rfl, map_wf _ _ u3, u2.trans (q2.trans hsh), fun h => by omega, fun _ i j a b hv => ⟨?_, ?_⟩,
          fun h3 => by omega⟩
        · intro hc
          rw [hs'] at hc
          exact absurd hc (by decide)
        · intro _
          have hv0 : ValidIdx u.shape [i, j, a, b] := hv
          rw [u2, q2, y3] at hv0
          have hv1 : ValidIdx [(en ('o', 'b')).length, (en ('o', 'b')).length, (en ('v', 'b')).length,
              (en ('v', 'b')).length] [j, i, a, b] := by
            unfold ValidIdx at *
            simp only [List.forall₂_cons, List.forall₂_nil_left_iff] at hv0 ⊢
            tauto
          have hD : E.get [j, i, a, b] = E.get [i, j, a, b] := by
            rw [e4 _ (by rw [e2, ← hsh, y3]; exact hv1), e4 _ (by rw [e2, ← hsh, y3]; exact hv0), hkey, hs']
            simp only [signedSum, List.zip_cons_cons, List.zip_nil_right, List.map_cons, List.map_nil, List.sum_cons,
              List.sum_nil]
            ring
          rw [map_get u (fun x => x * 2⁻¹) (zero_mul _), u4, map_get z (fun x => -x) neg_zero, z4 _ _ _ _ hv0, q4, q4, y4 _ _ _ _ hv0,
            y4 _ _ _ _ hv1, hD, e4 _ (by rw [e2, ← hsh, y3]; exact hv0), hs']
          exact half_sub _ _ _
    · rw [if_neg h2]
      have hsz : (s.zip r.2.1).mapM (fun p => env.size p.1 p.2)
          = .ok ((s.zip r.2.1).map fun p => (en (p.2, p.1)).length) := by
        apply mapM_ok
        rintro ⟨c, k⟩ hp
        have hp' := List.of_mem_zip hp
        exact hd.size c (by rcases hc.2 c hp'.1 with h | h <;> simp [h]) k (key_chars h.f r hr k hp'.2)
      rw [hsz]
      simp only [bind, Except.bind, pure, Except.pure]
      refine ⟨_, rfl, zeros_wf _, ?_, fun h => absurd h h1, fun h => absurd h h2, fun _ => isZero_zeros _⟩
      show ((s.zip r.2.1).map fun p => (en (p.2, p.1)).length) = _
      rw [← List.zip_swap, List.map_map]
      rfl

/-- What the unrestricted code makes of a coupled amplitude: right for spin up; for spin down the energies and the
sizes of spin up. -/
def IsInitCouplingU (en : Char × Char → List K) (g : List Char → List Char → NDArray K) (r : CRank) (s : List Char)
    (c : NDArray K) : Prop :=
  c.WF ∧ c.shape = ((r.2.1.zip (List.replicate r.2.2.2 '_' ++ ['a', 'a'])).map fun p => (en p).length) ∧
  (r.2.2.2 = 1 → ∀ idx, ValidIdx c.shape idx →
    c.get idx = (g s r.2.1).get idx / signedSum [] en (r.2.1.zip "_aa".toList) idx) ∧
  (r.2.2.2 ≠ 1 → IsZero c)

theorem uInitCoupling_ok (setOrder : List Char → List Char) (ho : IsSetOrder setOrder) {a : Ansatz}
    {env : UInitEnv K} {eenv : EnergyEnv K} {en : Char × Char → List K}
    {fs bs : List Rank} {cs : List CRank} (h : HasRanks a .U .t fs bs cs) (h1 : ∀ r ∈ cs, r.2.2.1 = 1)
    (h9 : a.bosonCouplingRank ≤ 9)
    (henv : env.energy = fun key spins => (uEnergySum setOrder eenv key spins []).1)
    {f v g : List Char → List Char → NDArray K} {w G : NDArray K}
    (hd : UInitData env eenv en fs bs cs f v g w G)
    (hsame : (en ('o', 'a')).length = (en ('o', 'b')).length ∧ (en ('v', 'a')).length = (en ('v', 'b')).length)
    (r : CRank) (hr : r ∈ cs) :
    ∃ aa bb, uInitCoupling env r = .ok (.spins [(['a', 'a'], aa), (['b', 'b'], bb)]) ∧
      IsInitCouplingU en g r ['a', 'a'] aa ∧ IsInitCouplingU en g r ['b', 'b'] bb := by
  obtain ⟨w1, w2, w3, w4⟩ := hd.omega (Or.inr (List.ne_nil_of_mem hr))
  obtain ⟨gf, g1, g2⟩ := hd.g (List.ne_nil_of_mem hr)
  obtain ⟨hge, -⟩ := goodEntry_c h.c (Or.inl rfl) h9 r hr (h1 r hr)
  have hkey : r.2.1 = List.replicate r.2.2.2 'b' ++ ['o', 'v'] := by
    have hc := h.c
    rw [(C24_coupling _ _).1] at hc
    cases hc
    simp only [List.mem_flatMap, List.mem_map, List.mem_range] at hr
    obtain ⟨i, hi, j, hj, rfl⟩ := hr
    have := h1 _ (by
      simp only [List.mem_flatMap, List.mem_map, List.mem_range]
      exact ⟨i, hi, j, hj, rfl⟩)
    simp only at this
    have hi0 : i = 0 := by omega
    subst hi0
    rfl
  unfold uInitCoupling
  rw [w1, g1]
  simp only [if_neg (by simp [h1 r hr] : ¬ r.2.2.1 ≠ 1), bind, Except.bind, pure, Except.pure]
  by_cases hb : r.2.2.2 = 1
  · rw [hb] at hkey
    have hkey' : r.2.1 = ['b', 'o', 'v'] := hkey
    obtain ⟨x1, x2, x3⟩ := g2 r hr hb ['a', 'a'] (by simp)
    obtain ⟨y1, y2, y3⟩ := g2 r hr hb ['b', 'b'] (by simp)
    obtain ⟨E, e1, e2, e3, e4⟩ := C39_elements_unrestricted setOrder ho eenv r.2.1 "_aa".toList [] en
      (by rw [hkey']; rfl) hge.ne hge.short hge.chars (by
        have := hd.energies.c r hr ['a', 'a'] (by simp)
        rw [hb] at this
        exact this)
    obtain ⟨q, q1, q2, q3, q4⟩ := div_ok (g ['a', 'a'] r.2.1) E x2 e3 (x3.trans e2.symm)
    have hyE : (g ['b', 'b'] r.2.1).shape = E.shape := by
      rw [y3, e2, hkey']
      simp [hsame.1, hsame.2]
    obtain ⟨p, p1, p2, p3, p4⟩ := div_ok (g ['b', 'b'] r.2.1) E y2 e3 hyE
    rw [if_pos hb, x1, y1, henv]
    simp only [e1, q1, p1]
    refine ⟨q, p, rfl, ⟨q3, ?_, fun _ idx hidx => ?_, fun h => absurd hb h⟩,
      ⟨p3, ?_, fun _ idx hidx => ?_, fun h => absurd hb h⟩⟩
    · rw [q2, x3, hb]; rfl
    · rw [q4, e4 idx (by
        rw [q2, x3] at hidx
        rw [e2]
        exact hidx)]
      rfl
    · rw [p2, hyE, e2, hb]; rfl
    · rw [p4, e4 idx (by rw [← hyE, ← p2]; exact hidx)]
      rfl
  · rw [if_neg hb]
    simp only [nbosOf, w3]
    have hdrop : (r.2.1.drop r.2.2.2).mapM (env.size 'a') = .ok [(en ('o', 'a')).length, (en ('v', 'a')).length] := by
      rw [hkey]
      simp only [List.drop_left', List.length_replicate]
      have ho := hd.size 'a' (by simp) 'o' (by simp)
      have hv := hd.size 'a' (by simp) 'v' (by simp)
      simp [List.mapM_cons, ho, hv, bind, Except.bind, pure, Except.pure]
    rw [hdrop]
    have hz : (List.replicate r.2.2.2 (en ('b', '_')).length ++ [(en ('o', 'a')).length, (en ('v', 'a')).length])
        = (r.2.1.zip (List.replicate r.2.2.2 '_' ++ ['a', 'a'])).map fun p => (en p).length := by
      rw [hkey, List.zip_append (by simp)]
      simp
    exact ⟨_, _, rfl, ⟨zeros_wf _, hz, fun h => absurd h hb, fun _ => isZero_zeros _⟩,
      ⟨zeros_wf _, hz, fun h => absurd h hb, fun _ => isZero_zeros _⟩⟩

/-- Unrestricted: fermionic and bosonic amplitudes as claimed, every block with the energies of its own spin, and
the coupled amplitudes of spin up.  The coupled amplitudes of spin down are computed with the energies of spin up;
if the numbers of orbitals of the two spins are equal nothing is raised and the values are the ones stated.
Missing: the claim for the coupled amplitudes of spin down, which is false (`C37_unrestricted_coupling_wrong`,
`C37_unrestricted_coupling_shape`). -/
theorem C37_unrestricted_partial (setOrder : List Char → List Char) (ho : IsSetOrder setOrder) {a : Ansatz}
    {env : UInitEnv K} {eenv : EnergyEnv K} {en : Char × Char → List K}
    {fs bs : List Rank} {cs : List CRank} (h : HasRanks a .U .t fs bs cs) (h1 : ∀ r ∈ cs, r.2.2.1 = 1)
    (h9 : a.bosonCouplingRank ≤ 9) (hnd : ((entries fs bs cs).map fun e => e.1).Nodup)
    (henv : env.energy = fun key spins => (uEnergySum setOrder eenv key spins []).1)
    {f v g : List Char → List Char → NDArray K} {w G : NDArray K}
    (hd : UInitData env eenv en fs bs cs f v g w G)
    (hsame : cs ≠ [] →
      (en ('o', 'a')).length = (en ('o', 'b')).length ∧ (en ('v', 'a')).length = (en ('v', 'b')).length) :
    ∃ F B C, uInitAmps a env = .ok (uAmpDict fs bs cs [] F B C) ∧
      (∀ r ∈ fs, ∀ s ∈ generateSpinCombinations r.2.2 false true, IsInitBlock en f v r s (F r s)) ∧
      (∀ r ∈ bs, IsInitBoson (fun _ => en ('b', '_')) G r (B r)) ∧
      ∀ r ∈ cs, ∀ s ∈ [['a', 'a'], ['b', 'b']], IsInitCouplingU en g r s (C r s) := by
  have k1 := uInitBlock_ok setOrder ho h henv hd
  have k2 : ∀ r : Rank, r ∈ bs → ∃ b, initBoson env.omega env.G r = .ok b ∧
      IsInitBoson (fun _ => en ('b', '_')) G r b := by
    intro r hr
    obtain ⟨w1, w2, w3, w4⟩ := hd.omega (Or.inl (List.ne_nil_of_mem hr))
    obtain ⟨g1, g2, g3⟩ := hd.G (List.ne_nil_of_mem hr)
    unfold initBoson
    rw [w1, g1]
    simp only
    by_cases h1 : r.2.2 = 1
    · rw [if_pos h1]
      obtain ⟨q, q1, q2, q3, q4⟩ := div_ok (G.map fun x => -x) w (map_wf _ _ g2) w2 (g3.trans w3.symm)
      refine ⟨q, q1, q3, q2.trans (by rw [h1]; exact g3), fun _ i hi => ?_, fun h => absurd h1 h⟩
      rw [q4, map_get _ _ neg_zero, w4 i hi]
    · rw [if_neg h1]
      simp only [nbosOf, w3, bind, Except.bind, pure, Except.pure]
      exact ⟨_, rfl, zeros_wf _, rfl, fun h => absurd h h1, fun _ => isZero_zeros _⟩
  have k3 : ∀ r : CRank, r ∈ cs → ∃ aa bb, uInitCoupling env r = .ok (.spins [(['a', 'a'], aa), (['b', 'b'], bb)]) ∧
      IsInitCouplingU en g r ['a', 'a'] aa ∧ IsInitCouplingU en g r ['b', 'b'] bb := fun r hr =>
    uInitCoupling_ok setOrder ho h h1 h9 henv hd (hsame (List.ne_nil_of_mem hr)) r hr
  choose! F f1 f2 using k1
  choose! B b1 b2 using k2
  choose! aa bb c1 c2 c3 using k3
  refine ⟨F, B, fun r s => if s = ['a', 'a'] then aa r else bb r, ?_, fun r hr s hs => f2 r s ⟨hr, hs⟩, b2, ?_⟩
  · have := three_loops (fun r => r.1) (fun r => r.1) (fun r => r.1) (uInitFermion env)
      (fun r => (initBoson env.omega env.G r).map UVal.array) (uInitCoupling env) fs bs cs
      (fun r => UVal.spins ((generateSpinCombinations r.2.2 false true).map fun s => (s, F r s)))
      (fun r => UVal.array (B r)) (fun r => UVal.spins [(['a', 'a'], aa r), (['b', 'b'], bb r)]) (by
        intro r hr
        unfold uInitFermion
        rw [initLoop_ok id _ (F r) _ (fun s hs => f1 r s ⟨hr, hs⟩) (by simpa using combos_nodup r.2.2) []
          (by simp [Dict.keys])]
        rfl)
      (by
        intro r hr
        rw [b1 r hr]
        rfl) c1
      (by simpa [entries, List.map_append, List.map_map, Function.comp_def] using hnd)
    unfold uInitAmps
    rw [h.f, h.b, h.c]
    refine Eq.trans this ?_
    unfold uAmpDict
    simp
  · intro r hr s hs
    simp only [List.mem_cons, List.not_mem_nil, or_false] at hs
    rcases hs with rfl | rfl
    · simpa using c2 r hr
    · simpa using c3 r hr

end

/-! ### Lambda amplitudes -/

theorem lamPerm_map (n : Nat) (p q : List Nat) (hp : p.length = n) (hq : q.length = n) :
    ((lamPerm n).map fun k => (p ++ q).getD k 0) = q ++ p := by
  unfold lamPerm
  rw [List.map_append, List.map_map]
  congr 1
  · apply List.ext_getElem
    · simp [hq]
    · intro k k1 k2
      simp [List.getElem?_append_right (by omega : p.length ≤ k + n), hp, k2]
  · apply List.ext_getElem
    · simp [hp]
    · intro k k1 k2
      simp [List.getElem?_append_left k2, k2]

theorem lamPermC_map (nb : Nat) (x : List Nat) (i a : Nat) (hx : x.length = nb) :
    ((lamPermC nb).map fun k => (x ++ [i, a]).getD k 0) = x ++ [a, i] := by
  unfold lamPermC
  rw [List.map_append]
  congr 1
  · apply List.ext_getElem
    · simp [hx]
    · intro k k1 k2
      simp [List.getElem?_append_left k2, k2]
  · subst hx
    simp

theorem lamPerm_perm (n : Nat) : (lamPerm n).Perm (List.range (2 * n)) := by
  unfold lamPerm
  rw [show 2 * n = n + n by omega, List.range_add]
  refine List.perm_append_comm.trans ?_
  rw [show (fun i => i + n) = fun i => n + i from funext fun i => Nat.add_comm i n]

theorem lamPermC_perm (nb : Nat) : (lamPermC nb).Perm (List.range (nb + 2)) := by
  unfold lamPermC
  rw [List.range_succ, List.range_succ, List.append_assoc]
  exact List.Perm.append_left _ (List.Perm.swap _ _ _)

/-- The names of the lambda amplitudes are distinct. -/
theorem lnames_nodup {a : Ansatz} {spin : SpinType} {fs bs : List Rank} {cs : List CRank}
    (h : HasRanks a spin .t fs bs cs) (hnd : ((entries fs bs cs).map fun e => e.1).Nodup) :
    ((fs.map fun r => lname r.1) ++ ((bs.map fun r => 'l' :: r.1) ++ cs.map fun r => 'l' :: r.1)).Nodup := by
  have hnd' : ((fs.map fun r => r.1) ++ ((bs.map fun r => r.1) ++ cs.map fun r => r.1)).Nodup := by
    simpa [entries, List.map_append, List.map_map, Function.comp_def] using hnd
  obtain ⟨f1, _, f2⟩ := C24_well_formed _ _ _ _ h.f
  obtain ⟨n1, n2, -⟩ := List.nodup_append.1 hnd'
  refine List.nodup_append.2 ⟨?_, ?_, ?_⟩
  · have e : (fs.map fun r => lname r.1) = (fs.map fun r => r.1).map lname := by simp
    rw [e]
    refine List.Nodup.map_on ?_ n1
    intro x hx y hy hxy
    obtain ⟨r, hr, rfl⟩ := List.mem_map.1 hx
    obtain ⟨r', hr', rfl⟩ := List.mem_map.1 hy
    obtain ⟨c, rfl⟩ := f2 r hr
    obtain ⟨c', rfl⟩ := f2 r' hr'
    revert hxy
    cases c <;> cases c' <;> decide
  · have e : ((bs.map fun r => 'l' :: r.1) ++ cs.map fun r => 'l' :: r.1)
        = ((bs.map fun r => r.1) ++ cs.map fun r => r.1).map fun s => 'l' :: s := by
      simp [List.map_append, List.map_map, Function.comp_def]
    rw [e]
    exact n2.map fun x y hxy => by simpa using hxy
  · intro x hx y hy hxy
    subst hxy
    obtain ⟨r, hr, rfl⟩ := List.mem_map.1 hx
    obtain ⟨c, rfl⟩ := f2 r hr
    have hk : (lname (Cls.entry .t c).1).tail.head? ≠ some 's' ∧ (lname (Cls.entry .t c).1).tail.head? ≠ some 'u' := by
      cases c <;> decide
    rcases List.mem_append.1 hy with hy | hy
    · obtain ⟨r, hr, he⟩ := List.mem_map.1 hy
      obtain ⟨n, _, rfl⟩ := (boson_well_formed h.b).2 r hr
      rw [← he] at hk
      exact hk.1 rfl
    · obtain ⟨r, hr, he⟩ := List.mem_map.1 hy
      have hc := h.c
      rw [(C24_coupling _ _).1] at hc
      cases hc
      simp only [List.mem_flatMap, List.mem_map, List.mem_range] at hr
      obtain ⟨i, _, j, _, rfl⟩ := hr
      rw [← he] at hk
      exact hk.2 rfl

/-- Restricted and generalised: the initial lambda amplitudes are the transposed amplitudes. -/
theorem C37_lambdas {R : Type} [Zero R] {a : Ansatz} {spin : SpinType} {fs bs : List Rank} {cs : List CRank}
    (h : HasRanks a spin .t fs bs cs) (h1 : ∀ r ∈ cs, r.2.2.1 = 1)
    (hnd : ((entries fs bs cs).map fun e => e.1).Nodup) (F B : Rank → NDArray R) (C : CRank → NDArray R)
    (hF : ∀ r ∈ fs, (F r).shape.length = 2 * r.2.2) (hC : ∀ r ∈ cs, (C r).shape.length = r.2.2.2 + 2) :
    ∃ (L : Rank → NDArray R) (LC : CRank → NDArray R), initLams a spin (ampDict fs bs cs F B C)
        = .ok ((fs.map fun r => (lname r.1, L r)) ++ ((bs.map fun r => ('l' :: r.1, B r)) ++
          cs.map fun r => ('l' :: r.1, LC r))) ∧
      (∀ r ∈ fs, (L r).WF ∧ ∀ p q, p.length = r.2.2 → ValidIdx (F r).shape (p ++ q) →
        (L r).get (q ++ p) = (F r).get (p ++ q)) ∧
      ∀ r ∈ cs, (LC r).WF ∧ ∀ x i b, x.length = r.2.2.2 → ValidIdx (C r).shape (x ++ [i, b]) →
        (LC r).get (x ++ [b, i]) = (C r).get (x ++ [i, b]) := by
  have hkeys : (ampDict fs bs cs F B C).keys.Nodup := by
    simpa [ampDict, entries, Dict.keys, List.map_append, List.map_map, Function.comp_def] using hnd
  have hget : ∀ k v, (k, v) ∈ ampDict fs bs cs F B C → (ampDict fs bs cs F B C).getItem k = .ok v := by
    intro k v hm
    unfold Dict.getItem
    rw [get?_of_mem _ hkeys k v hm]
  have k1 : ∀ r : Rank, r ∈ fs → ∃ b, (F r).transpose (lamPerm r.2.2) = .ok b ∧ (b.WF ∧ ∀ p q, p.length = r.2.2 →
      ValidIdx (F r).shape (p ++ q) → b.get (q ++ p) = (F r).get (p ++ q)) := by
    intro r hr
    obtain ⟨b, b1, b2, b3, b4⟩ := transpose_spec (F r) (lamPerm r.2.2) (by rw [hF r hr]; exact lamPerm_perm _)
    refine ⟨b, b1, b2, fun p q hp hv => ?_⟩
    have hl := List.Forall₂.length_eq hv
    rw [List.length_append, hF r hr] at hl
    rw [← b4 _ hv, lamPerm_map _ p q hp (by omega)]
  have k3 : ∀ r : CRank, r ∈ cs → ∃ b, (C r).transpose (lamPermC r.2.2.2) = .ok b ∧ (b.WF ∧ ∀ x i c,
      x.length = r.2.2.2 → ValidIdx (C r).shape (x ++ [i, c]) → b.get (x ++ [c, i]) = (C r).get (x ++ [i, c])) := by
    intro r hr
    obtain ⟨b, b1, b2, b3, b4⟩ := transpose_spec (C r) (lamPermC r.2.2.2) (by rw [hC r hr]; exact lamPermC_perm _)
    refine ⟨b, b1, b2, fun x i c hx hv => ?_⟩
    rw [← b4 _ hv, lamPermC_map _ x i c hx]
  choose! L l1 l2 using k1
  choose! LC c1 c2 using k3
  refine ⟨L, LC, ?_, l2, c2⟩
  have := three_loops (fun r => lname r.1) (fun r => 'l' :: r.1) (fun r => 'l' :: r.1)
    (fun r : Rank => do
      let t ← (ampDict fs bs cs F B C).getItem r.1
      t.transpose (lamPerm r.2.2))
    (fun r : Rank => (ampDict fs bs cs F B C).getItem r.1)
    (fun r : CRank => do
      if r.2.2.1 ≠ 1 then throw PyErr.modelNotImplemented
      let t ← (ampDict fs bs cs F B C).getItem r.1
      t.transpose (lamPermC r.2.2.2)) fs bs cs L B LC
    (by
      intro r hr
      rw [hget r.1 (F r) (by
        unfold ampDict
        simp only [List.mem_append, List.mem_map]
        exact Or.inl ⟨r, hr, rfl⟩)]
      simp only [bind, Except.bind]
      exact l1 r hr)
    (by
      intro r hr
      exact hget r.1 (B r) (by
        unfold ampDict
        simp only [List.mem_append, List.mem_map]
        exact Or.inr (Or.inl ⟨r, hr, rfl⟩)))
    (by
      intro r hr
      rw [hget r.1 (C r) (by
        unfold ampDict
        simp only [List.mem_append, List.mem_map]
        exact Or.inr (Or.inr ⟨r, hr, rfl⟩))]
      simp only [if_neg (by simp [h1 r hr] : ¬ r.2.2.1 ≠ 1), bind, Except.bind, pure, Except.pure]
      exact c1 r hr)
    (lnames_nodup h hnd)
  unfold initLams
  rw [h.f, h.b, h.c]
  exact this

theorem uTransposeAll_ok {R α : Type} [Zero R] (L : List α) (f : α → List Char) (x y : α → NDArray R)
    (perm : List Nat) (hn : (L.map f).Nodup) (h : ∀ a ∈ L, (x a).transpose perm = .ok (y a)) :
    uTransposeAll (.spins (L.map fun a => (f a, x a))) perm = .ok (.spins (L.map fun a => (f a, y a))) := by
  unfold uTransposeAll
  have hl : initLoop (fun p => p.1) (fun p : List Char × NDArray R => p.2.transpose perm)
      (L.map fun a => (f a, x a)) [] = initLoop f (fun a => (x a).transpose perm) L [] := by
    unfold initLoop
    rw [List.foldlM_map]
  simp only [hl]
  rw [initLoop_ok f _ y L h hn [] (by simp [Dict.keys])]
  rfl

/-- Unrestricted: the initial lambda amplitudes are the transposed amplitudes, block by block. -/
theorem C37_lambdas_unrestricted {R : Type} [Zero R] {a : Ansatz} {fs bs : List Rank} {cs : List CRank}
    (h : HasRanks a .U .t fs bs cs) (h1 : ∀ r ∈ cs, r.2.2.1 = 1)
    (hnd : ((entries fs bs cs).map fun e => e.1).Nodup) (F : Rank → List Char → NDArray R) (B : Rank → NDArray R)
    (C : CRank → List Char → NDArray R)
    (hF : ∀ r ∈ fs, ∀ s ∈ generateSpinCombinations r.2.2 false true, (F r s).shape.length = 2 * r.2.2)
    (hC : ∀ r ∈ cs, ∀ s ∈ [['a', 'a'], ['b', 'b']], (C r s).shape.length = r.2.2.2 + 2) :
    ∃ (L : Rank → List Char → NDArray R) (LC : CRank → List Char → NDArray R), uInitLams a (uAmpDict fs bs cs [] F B C)
        = .ok ((fs.map fun r => (lname r.1,
            UVal.spins ((generateSpinCombinations r.2.2 false true).map fun s => (s, L r s)))) ++
          ((bs.map fun r => ('l' :: r.1, UVal.array (B r))) ++
          cs.map fun r => ('l' :: r.1, UVal.spins ([['a', 'a'], ['b', 'b']].map fun s => (s, LC r s))))) ∧
      (∀ r ∈ fs, ∀ s ∈ generateSpinCombinations r.2.2 false true, (L r s).WF ∧ ∀ p q, p.length = r.2.2 →
        ValidIdx (F r s).shape (p ++ q) → (L r s).get (q ++ p) = (F r s).get (p ++ q)) ∧
      ∀ r ∈ cs, ∀ s ∈ [['a', 'a'], ['b', 'b']], (LC r s).WF ∧ ∀ x i b, x.length = r.2.2.2 →
        ValidIdx (C r s).shape (x ++ [i, b]) → (LC r s).get (x ++ [b, i]) = (C r s).get (x ++ [i, b]) := by
  have hkeys : (uAmpDict fs bs cs [] F B C).keys.Nodup := by
    simpa [uAmpDict, entries, Dict.keys, List.map_append, List.map_map, Function.comp_def] using hnd
  have hget : ∀ k v, (k, v) ∈ uAmpDict fs bs cs [] F B C → (uAmpDict fs bs cs [] F B C).getItem k = .ok v := by
    intro k v hm
    unfold Dict.getItem
    rw [get?_of_mem _ hkeys k v hm]
  have k1 : ∀ (r : Rank) (s : List Char), (r ∈ fs ∧ s ∈ generateSpinCombinations r.2.2 false true) →
      ∃ b, (F r s).transpose (lamPerm r.2.2) = .ok b ∧ (b.WF ∧ ∀ p q, p.length = r.2.2 →
      ValidIdx (F r s).shape (p ++ q) → b.get (q ++ p) = (F r s).get (p ++ q)) := by
    rintro r s ⟨hr, hs⟩
    obtain ⟨b, b1, b2, b3, b4⟩ := transpose_spec (F r s) (lamPerm r.2.2) (by rw [hF r hr s hs]; exact lamPerm_perm _)
    refine ⟨b, b1, b2, fun p q hp hv => ?_⟩
    have hl := List.Forall₂.length_eq hv
    rw [List.length_append, hF r hr s hs] at hl
    rw [← b4 _ hv, lamPerm_map _ p q hp (by omega)]
  have k3 : ∀ (r : CRank) (s : List Char), (r ∈ cs ∧ s ∈ [['a', 'a'], ['b', 'b']]) →
      ∃ b, (C r s).transpose (lamPermC r.2.2.2) = .ok b ∧ (b.WF ∧ ∀ x i c,
      x.length = r.2.2.2 → ValidIdx (C r s).shape (x ++ [i, c]) → b.get (x ++ [c, i]) = (C r s).get (x ++ [i, c])) := by
    rintro r s ⟨hr, hs⟩
    obtain ⟨b, b1, b2, b3, b4⟩ := transpose_spec (C r s) (lamPermC r.2.2.2) (by rw [hC r hr s hs]; exact lamPermC_perm _)
    refine ⟨b, b1, b2, fun x i c hx hv => ?_⟩
    rw [← b4 _ hv, lamPermC_map _ x i c hx]
  choose! L l1 l2 using k1
  choose! LC c1 c2 using k3
  refine ⟨L, LC, ?_, fun r hr s hs => l2 r s ⟨hr, hs⟩, fun r hr s hs => c2 r s ⟨hr, hs⟩⟩
  have := three_loops (fun r => lname r.1) (fun r => 'l' :: r.1) (fun r => 'l' :: r.1)
    (fun r : Rank => do
      let t ← (uAmpDict fs bs cs [] F B C).getItem r.1
      uTransposeAll t (lamPerm r.2.2))
    (fun r : Rank => (uAmpDict fs bs cs [] F B C).getItem r.1)
    (fun r : CRank => do
      if r.2.2.1 ≠ 1 then throw PyErr.modelNotImplemented
      let t ← (uAmpDict fs bs cs [] F B C).getItem r.1
      uTransposeAll t (lamPermC r.2.2.2)) fs bs cs
    (fun r => UVal.spins ((generateSpinCombinations r.2.2 false true).map fun s => (s, L r s)))
    (fun r => UVal.array (B r)) (fun r => UVal.spins ([['a', 'a'], ['b', 'b']].map fun s => (s, LC r s)))
    (by
      intro r hr
      rw [hget r.1 (UVal.spins ((generateSpinCombinations r.2.2 false true).map fun s => (s, F r s))) (by
        unfold uAmpDict
        simp only [List.mem_append, List.mem_map, List.append_nil]
        exact Or.inl ⟨r, hr, rfl⟩)]
      simp only [bind, Except.bind]
      exact uTransposeAll_ok _ (fun s => s) (F r) (L r) _ (by simpa using combos_nodup r.2.2)
        fun s hs => l1 r s ⟨hr, hs⟩)
    (by
      intro r hr
      exact hget r.1 (UVal.array (B r)) (by
        unfold uAmpDict
        simp only [List.mem_append, List.mem_map, List.append_nil]
        exact Or.inr (Or.inl ⟨r, hr, rfl⟩)))
    (by
      intro r hr
      rw [hget r.1 (UVal.spins [(['a', 'a'], C r ['a', 'a']), (['b', 'b'], C r ['b', 'b'])]) (by
        unfold uAmpDict
        simp only [List.mem_append, List.mem_map, List.append_nil]
        exact Or.inr (Or.inr ⟨r, hr, rfl⟩))]
      simp only [if_neg (by simp [h1 r hr] : ¬ r.2.2.1 ≠ 1), bind, Except.bind, pure, Except.pure]
      exact uTransposeAll_ok [['a', 'a'], ['b', 'b']] (fun s => s) (C r) (LC r) _ (by decide)
        fun s hs => c1 r s ⟨hr, hs⟩)
    (lnames_nodup h hnd)
  unfold uInitLams
  rw [h.f, h.b, h.c]
  exact this

/-! ### Concrete cases -/

section
open PyErr

/-- Singles, doubles, one-boson and two-boson amplitudes, one coupled amplitude. -/
def sd11 : Ansatz := ⟨"CCSD".toList, "SD".toList, 1, 1, false, none⟩

def eenv1 (ob vb : Rat) : EnergyEnv Rat :=
  ⟨fun s k => if k = 'o' then .ok ⟨[1, 1], [if s = 'b' then ob else -1]⟩
    else .ok ⟨[1, 1], [if s = 'b' then vb else 1]⟩, some ⟨[1], [1]⟩⟩

def initEnv1 : InitEnv Rat where
  fock _ := .ok ⟨[1, 1], [6]⟩
  eris _ := .ok ⟨[1, 1, 1, 1], [8]⟩
  omega := some ⟨[1], [1]⟩
  G := some ⟨[1], [5]⟩
  g := some fun _ => .ok ⟨[1, 1, 1], [9]⟩
  size _ := .ok 1
  energy key := (energySum List.dedup (eenv1 (-1) 1) key []).1

example : rInitAmps sd11 initEnv1 = .ok [("t1".toList, ⟨[1, 1], [-3]⟩), ("t2".toList, ⟨[1, 1, 1, 1], [-2]⟩),
    ("s1".toList, ⟨[1], [-5]⟩), ("s2".toList, ⟨[1, 1], [0]⟩), ("u11".toList, ⟨[1, 1, 1], [-3]⟩)] := by
  decide +kernel

/-- The generalised code gives a vanishing `u11` for the same input: the first order value is `-3`. -/
theorem C37_generalised_coupling_wrong : (gInitAmps sd11 initEnv1).map (fun d => d.get? "u11".toList)
      = .ok (some ⟨[1, 1, 1], [0]⟩) ∧
    (rInitAmps sd11 initEnv1).map (fun d => d.get? "u11".toList) = .ok (some ⟨[1, 1, 1], [-3]⟩) := by
  decide +kernel

/-- Without bosonic amplitudes the test uses the last fermionic rank. -/
example : (gInitAmps { sd11 with bosonAnsatz := [] } initEnv1).map (fun d => d.get? "u11".toList)
    = .ok (some ⟨[1, 1, 1], [0]⟩) := by
  decide +kernel

/-- With single bosons only the generalised code is right. -/
example : (gInitAmps { sd11 with bosonAnsatz := ['S'] } initEnv1).map (fun d => d.get? "u11".toList)
    = .ok (some ⟨[1, 1, 1], [-3]⟩) := by
  decide +kernel

def uInitEnv1 (nv : Nat) (ob vb : Rat) (nb : Nat) : UInitEnv Rat where
  fock s _ := .ok ⟨[1, if s = ['b', 'b'] then nv else 1], List.replicate (if s = ['b', 'b'] then nv else 1) 6⟩
  eris s _ := if s = "bbbb".toList then .ok ⟨[1, nv, 1, nv], List.replicate (nv * nv) 8⟩
    else if s = "aabb".toList then .ok ⟨[1, 1, 1, nv], List.replicate nv 8⟩ else .ok ⟨[1, 1, 1, 1], [8]⟩
  omega := some ⟨[1], [1]⟩
  G := some ⟨[1], [5]⟩
  g := some fun s _ => .ok ⟨[1, 1, if s = ['b', 'b'] then nv else 1], List.replicate (if s = ['b', 'b'] then nv else 1) 12⟩
  size s k := .ok (if s = 'b' ∧ k = 'v' then nv else 1)
  energy key spins := (uEnergySum List.dedup ⟨fun s k => if k = 'o' then .ok ⟨[1, 1], [if s = 'b' then ob else -1]⟩
    else if s = 'b' then .ok (NDArray.ofFn [nv, nv] fun _ => vb) else .ok ⟨[1, 1], [1]⟩, some ⟨[1], [nb]⟩⟩ key spins []).1

/-- Unrestricted, one orbital of each kind: the denominator of spin up is `-3`, the one of spin down `-4`.  The code
gives `12 / -3` for both spins. -/
theorem C37_unrestricted_coupling_wrong :
    (uInitAmps { sd11 with bosonAnsatz := ['S'] } (uInitEnv1 1 (-1) 2 1)).map (fun d => d.get? "u11".toList)
      = .ok (some (.spins [("aa".toList, ⟨[1, 1, 1], [-4]⟩), ("bb".toList, ⟨[1, 1, 1], [-4]⟩)])) ∧
    (uInitEnv1 1 (-1) 2 1).energy "bov".toList "_aa".toList = .ok ⟨[1, 1, 1], [-3]⟩ ∧
    (uInitEnv1 1 (-1) 2 1).energy "bov".toList "_bb".toList = .ok ⟨[1, 1, 1], [-4]⟩ := by
  decide +kernel

/-- Unrestricted, two virtual orbitals of spin down: the array of spin down with two bosons has the shape of spin
up. -/
theorem C37_unrestricted_coupling_shape :
    uInitCoupling (uInitEnv1 2 (-1) 2 1) ("u12".toList, "bbov".toList, 1, 2)
      = .ok (.spins [("aa".toList, ⟨[1, 1, 1, 1], [0]⟩), ("bb".toList, ⟨[1, 1, 1, 1], [0]⟩)]) ∧
    (uInitEnv1 2 (-1) 2 1).size 'b' 'v' = .ok 2 := by
  decide +kernel

example : (uInitAmps { sd11 with bosonAnsatz := ['S'], fermionCouplingRank := 0, bosonCouplingRank := 0 }
      (uInitEnv1 2 (-1) 1 1)).map (fun d =>
      (d.get? "t1".toList, d.get? "s1".toList))
    = .ok (some (.spins [("bb".toList, ⟨[1, 2], [-3, -3]⟩), ("aa".toList, ⟨[1, 1], [-3]⟩)]),
      some (.array ⟨[1], [-5]⟩)) := by
  decide +kernel

example : initLams ccsd .R [("t1".toList, ⟨[1, 2], [1, 2]⟩), ("t2".toList, ⟨[1, 1, 1, 2], [5, (6 : Int)]⟩)]
    = .ok [("l1".toList, ⟨[2, 1], [1, 2]⟩), ("l2".toList, ⟨[1, 2, 1, 1], [5, 6]⟩)] := by
  decide +kernel

end

end Ebcc
