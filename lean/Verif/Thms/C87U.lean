import Verif.Thms.C87
import Verif.Thms.C65
import Verif.Thms.C36
import Verif.Thms.C82
import Verif.Model.ExternalUpdate
import Verif.Lemmas.GenInts
/-!
C87: a step of the amplitude equations with external corrections is a step of the equations of CCSDTQ for the amplitudes
of singles and doubles.
-/

namespace Ebcc

section
variable {R : Type} [Field R]

/-! ### Arguments -/

omit [Field R] in
theorem bind_congr87 {vals vals' : List Char → Option (NDArray R)} (l : List (List Char))
    (h : ∀ name ∈ l, vals name = vals' name) (k : Nat) (st : GenStore R) :
    bindPositional vals l k st = bindPositional vals' l k st := by
  induction l generalizing k st with
  | nil => rfl
  | cons name l ih =>
    simp only [bindPositional]
    rw [← h name (by simp)]
    cases vals name with
    | none => rfl
    | some a => exact ih (fun n hn => h n (by simp [hn])) _ _

theorem call_congr87 [DecidableEq R] (g : GenFun) (method : ContractMethod)
    (path : List (List Char) → List Char → List (NDArray R) → List Contraction) (sizes : Nat → Nat)
    {vals vals' : List Char → Option (NDArray R)} (h : ∀ name ∈ g.args, vals name = vals' name) :
    g.call method path sizes vals = g.call method path sizes vals' := by
  unfold GenFun.call
  rw [bind_congr87 g.args h]

/-- The integrals alone. -/
def intArgs87 (h : GHam R) (m : ActiveMasks) : List Char → Option (NDArray R)
  | 'f' :: '.' :: key => if isActiveKey key then some (m.block (tens2 h.f) key) else none
  | 'v' :: '.' :: key => if isActiveKey key then some (m.block (tens4 h.v) key) else none
  | _ => none

/-! ### Energies -/

/-- The energies of the active orbitals are those of these orbitals. -/
def ActiveEnergies87 (m : ActiveMasks) (en : Char → List R) : Prop :=
  (en 'o').length = m.occ.length ∧ (en 'v').length = m.vir.length ∧
  en 'O' = (maskInds m.occ).map (fun i => (en 'o').getD i 0) ∧ en 'V' = (maskInds m.vir).map fun i => (en 'v').getD i 0

theorem energies_size87 {m : ActiveMasks} {en : Char → List R} (h : ActiveEnergies87 m en) {c : Char}
    (hc : c = 'o' ∨ c = 'O' ∨ c = 'v' ∨ c = 'V') : (en c).length = m.size c := by
  obtain ⟨h1, h2, h3, h4⟩ := h
  rcases hc with rfl | rfl | rfl | rfl
  · simp [h1, ActiveMasks.size, ActiveMasks.cls]
  · simp [h3, ActiveMasks.size, ActiveMasks.cls, maskInds_length]
  · simp [h2, ActiveMasks.size, ActiveMasks.cls]
  · simp [h4, ActiveMasks.size, ActiveMasks.cls, maskInds_length]

theorem cls_getD_lt87 {n i : Nat} (h : (List.replicate n true).getD i false = true) : i < n := by
  by_contra hc
  simp [List.getD_eq_getElem?_getD, List.getElem?_eq_none (l := List.replicate n true) (i := i) (by simpa using hc)] at h

theorem energies_at87 {m : ActiveMasks} {en : Char → List R} (h : ActiveEnergies87 m en) {c : Char}
    (hc : c = 'o' ∨ c = 'O' ∨ c = 'v' ∨ c = 'V') {i : Nat} (hi : (m.cls c).getD i false = true) :
    (en c).getD (((m.cls c).take i).count true) 0 = (en c.toLower).getD i 0 := by
  obtain ⟨h1, h2, h3, h4⟩ := h
  rcases hc with rfl | rfl | rfl | rfl
  · have : i < m.occ.length := cls_getD_lt87 hi
    change (en 'o').getD (((List.replicate m.occ.length true).take i).count true) 0 = (en 'o').getD i 0
    rw [all_take this]
  · change (en 'O').getD ((m.occ.take i).count true) 0 = (en 'o').getD i 0
    rw [h3, List.getD_eq_getElem?_getD, List.getElem?_map, maskInds_at m.occ i hi]
    rfl
  · have : i < m.vir.length := cls_getD_lt87 hi
    change (en 'v').getD (((List.replicate m.vir.length true).take i).count true) 0 = (en 'v').getD i 0
    rw [all_take this]
  · change (en 'V').getD ((m.vir.take i).count true) 0 = (en 'v').getD i 0
    rw [h4, List.getD_eq_getElem?_getD, List.getElem?_map, maskInds_at m.vir i hi]
    rfl

/-- The energy denominator of an element. -/
def denom87 (en : Char → List R) (key : List Char) (idx : List Nat) : R :=
  ((key.zip idx).map fun x => indexSign [] x.1 * (en x.1).getD x.2 0).sum

theorem denom_block87 {m : ActiveMasks} {en : Char → List R} (h : ActiveEnergies87 m en) (key : List Char)
    (hkey : isActiveKey key = true) (idx : List Nat) (hin : inBlock (key.map m.cls) idx = true) :
    denom87 en key (blockIdx (key.map m.cls) idx) = denom87 en (key.map Char.toLower) idx := by
  induction key generalizing idx with
  | nil => rfl
  | cons c key ih =>
    obtain ⟨hc, hkey⟩ := isActiveKey_cons hkey
    cases idx with
    | nil => rfl
    | cons i idx =>
      simp only [inBlock, List.map_cons, List.zipWith_cons_cons, List.all_cons, Bool.and_eq_true, id] at hin
      have ih := ih hkey idx hin.2
      unfold denom87 at ih ⊢
      simp only [blockIdx, List.map_cons, List.zipWith_cons_cons, List.zip_cons_cons, List.sum_cons] at ih ⊢
      rw [ih, energies_at87 h hc hin.1]
      congr 2
      rcases hc with rfl | rfl | rfl | rfl <;> rfl

theorem blockIdx_inBox87 (cls : List (List Bool)) (idx : List Nat) (hlen : idx.length = cls.length)
    (hin : inBlock cls idx = true) : InBox (cls.map (List.count true)) (blockIdx cls idx) := by
  induction cls generalizing idx with
  | nil => cases idx with
    | nil => exact .nil
    | cons _ _ => cases hlen
  | cons l cls ih =>
    cases idx with
    | nil => cases hlen
    | cons i idx =>
      simp only [inBlock, List.zipWith_cons_cons, List.all_cons, Bool.and_eq_true, id] at hin
      refine .cons ?_ (ih idx (by simpa using hlen) hin.2)
      have := (List.getElem?_eq_some_iff.1 (maskInds_at l i hin.1)).1
      rwa [maskInds_length] at this

/-- One block divided by its energies. -/
theorem divide_block87 (setOrder : List Char → List Char) (ho : IsSetOrder setOrder) {m : ActiveMasks} {en : Char → List R}
    (h : ActiveEnergies87 m en) (env : EnergyEnv R) (he : ∀ k ∈ ['o', 'O', 'v', 'V'], HasEnergies env (k, '_') (en k))
    (key : List Char) (hkey : isActiveKey key = true) (h0 : key ≠ []) (h26 : key.length ≤ 26) (x : NDArray R) (hx : x.WF)
    (hs : x.shape = key.map m.size) :
    ∃ q, ((energySum setOrder env key []).1 >>= fun e => x.div e >>= fun q => pure (key, q)) = .ok (key, q) ∧ q.WF ∧
      q.shape = key.map m.size ∧ ∀ idx, idx.length = key.length →
        blockElem (key.map m.cls) q idx = blockElem (key.map m.cls) x idx / denom87 en (key.map Char.toLower) idx := by
  have hmem : ∀ c ∈ key, c = 'o' ∨ c = 'O' ∨ c = 'v' ∨ c = 'V' := fun c hc => by
    simpa using List.all_eq_true.1 hkey c hc
  have hsz : (key.map fun k => (en k).length) = key.map m.size :=
    List.map_congr_left fun c hc => energies_size87 h (hmem c hc)
  obtain ⟨e, e1, e2, e3, e4⟩ := C39_elements setOrder ho env key [] en h0 h26 (by
    intro c hc
    rcases hmem c hc with rfl | rfl | rfl | rfl <;> decide) (by
    intro c hc
    apply he
    rcases hmem c hc with rfl | rfl | rfl | rfl <;> decide)
  obtain ⟨q, q1, q2, q3, q4⟩ := div_ok x e hx e3 (by rw [hs, e2, hsz])
  refine ⟨q, ?_, q3, q2.trans hs, fun idx hidx => ?_⟩
  · simp only [e1, q1, bind, Except.bind, pure, Except.pure]
  · unfold blockElem
    cases hin : inBlock (key.map m.cls) idx with
    | false => simp
    | true =>
      simp only [if_true]
      rw [q4, e4 _ (by
        rw [e2, hsz]
        have := blockIdx_inBox87 (key.map m.cls) idx (by simpa using hidx) hin
        rw [List.map_map] at this
        exact this)]
      exact congrArg _ (denom_block87 h key hkey idx hin)

/-- The blocks of one amplitude. -/
theorem divide_ok87 (setOrder : List Char → List Char) (ho : IsSetOrder setOrder) {m : ActiveMasks} {en : Char → List R}
    (h : ActiveEnergies87 m en) (env : EnergyEnv R) (he : ∀ k ∈ ['o', 'O', 'v', 'V'], HasEnergies env (k, '_') (en k))
    (low : List Char) (d : Dict (List Char) (NDArray R))
    (hd : ∀ kv ∈ d, isActiveKey kv.1 = true ∧ kv.1 ≠ [] ∧ kv.1.length ≤ 26 ∧ kv.1.map Char.toLower = low ∧ kv.2.WF ∧
      kv.2.shape = kv.1.map m.size) :
    ∃ d', divideExternal (fun key => (energySum setOrder env key []).1) d = .ok d' ∧
      (∀ kv ∈ d', isActiveKey kv.1 = true ∧ kv.1.map Char.toLower = low ∧ kv.2.WF ∧ kv.2.shape = kv.1.map m.size) ∧
      ∀ idx, idx.length = low.length → (d'.map fun kv => blockElem (kv.1.map m.cls) kv.2 idx).sum =
        (d.map fun kv => blockElem (kv.1.map m.cls) kv.2 idx).sum / denom87 en low idx := by
  induction d with
  | nil => exact ⟨[], rfl, by simp, by simp⟩
  | cons kv d ih =>
    obtain ⟨d', d1, d2, d3⟩ := ih fun kv hkv => hd kv (by simp [hkv])
    obtain ⟨k1, k2, k3, k4, k5, k6⟩ := hd kv (by simp)
    obtain ⟨q, q1, q2, q3, q4⟩ := divide_block87 setOrder ho h env he kv.1 k1 k2 k3 kv.2 k5 k6
    refine ⟨(kv.1, q) :: d', ?_, ?_, fun idx hidx => ?_⟩
    · unfold divideExternal at d1 ⊢
      rw [List.mapM_cons, d1]
      simp only [bind, Except.bind] at q1 ⊢
      rw [q1]
      rfl
    · intro p hp
      rcases List.mem_cons.1 hp with rfl | hp
      · exact ⟨k1, k4, q2, q3⟩
      · exact d2 p hp
    · simp only [List.map_cons, List.sum_cons]
      rw [d3 idx hidx, q4 idx (by rw [hidx, ← k4, List.length_map]), k4]
      ring

/-! ### The corrections -/

theorem energy_cls87 {m : ActiveMasks} {c : Char} (hc : c = 'o' ∨ c = 'O' ∨ c = 'v' ∨ c = 'V') :
    (m.cls c).length = m.size c.toLower := by
  rcases hc with rfl | rfl | rfl | rfl
  · change (List.replicate m.occ.length true).length = (List.replicate m.occ.length true).count true
    simp
  · change m.occ.length = (List.replicate m.occ.length true).count true
    simp
  · change (List.replicate m.vir.length true).length = (List.replicate m.vir.length true).count true
    simp
  · change m.vir.length = (List.replicate m.vir.length true).count true
    simp

/-- The active space of a calculation. -/
def spaceMasks87 (s : Space) : ActiveMasks := ⟨axisClass s 'O', axisClass s 'V'⟩

theorem cls_axis87 (s : Space) {c : Char} (hc : c = 'o' ∨ c = 'O' ∨ c = 'v' ∨ c = 'V') :
    (spaceMasks87 s).cls c = axisClass s c := by
  rcases hc with rfl | rfl | rfl | rfl
  · simp [spaceMasks87, ActiveMasks.cls, axisClass]
  · rfl
  · simp [spaceMasks87, ActiveMasks.cls, axisClass]
  · rfl

theorem map_cls87 (s : Space) {key : List Char} (hkey : isActiveKey key = true) :
    key.map (spaceMasks87 s).cls = key.map (axisClass s) :=
  List.map_congr_left fun c hc => cls_axis87 s (by simpa using List.all_eq_true.1 hkey c hc)

omit [Field R] in
theorem fits87 (s : Space) (low : List Char) (x : NDArray R) (hx : x.shape = low.map (spaceMasks87 s).size)
    (d : Dict (List Char) (NDArray R))
    (hd : ∀ kv ∈ d, isActiveKey kv.1 = true ∧ kv.1.map Char.toLower = low ∧ kv.2.WF ∧
      kv.2.shape = kv.1.map (spaceMasks87 s).size) : BlocksFit s x d := by
  intro kv hkv
  obtain ⟨k1, k2, k3, k4⟩ := hd kv hkv
  have hmem : ∀ c ∈ kv.1, c = 'o' ∨ c = 'O' ∨ c = 'v' ∨ c = 'V' := fun c hc => by
    simpa using List.all_eq_true.1 k1 c hc
  refine ⟨fun c hc => ?_, k3, ?_, ?_⟩
  · rcases hmem c hc with rfl | rfl | rfl | rfl <;> decide
  · rw [hx, ← k2, ← map_cls87 s k1, List.map_map, List.map_map]
    exact List.map_congr_left fun c hc => (energy_cls87 (hmem c hc)).symm
  · rw [k4, ← map_cls87 s k1, List.map_map]
    rfl

theorem corrected87 (s : Space) (d : Dict (List Char) (NDArray R)) (hd : ∀ kv ∈ d, isActiveKey kv.1 = true)
    {x y : NDArray R} (h : Corrected s d x y) (idx : List Nat) (hidx : InBox x.shape idx) :
    y.get idx = x.get idx + (d.map fun kv => blockElem (kv.1.map (spaceMasks87 s).cls) kv.2 idx).sum := by
  rw [h.2.2 idx hidx]
  congr 2
  exact List.map_congr_left fun kv hkv => by rw [map_cls87 s (hd kv hkv)]

omit [Field R] in
theorem split6_87 {d : Dict (List Char) (NDArray R)} {n0 n1 n2 n3 n4 n5 : List Char}
    (h : d.map Prod.fst = [n0, n1, n2, n3, n4, n5]) :
    ∃ a0 a1 a2 a3 a4 a5, d = [(n0, a0), (n1, a1), (n2, a2), (n3, a3), (n4, a4), (n5, a5)] := by
  match d, h with
  | [(_, a0), (_, a1), (_, a2), (_, a3), (_, a4), (_, a5)], h =>
    simp only [List.map_cons, List.map_nil, List.cons.injEq, and_true] at h
    obtain ⟨rfl, rfl, rfl, rfl, rfl, rfl⟩ := h
    exact ⟨a0, a1, a2, a3, a4, a5, rfl⟩

omit [Field R] in
theorem split5_87 {d : Dict (List Char) (NDArray R)} {n1 n2 n3 n4 n5 : List Char}
    (h : d.map Prod.fst = [n1, n2, n3, n4, n5]) :
    ∃ a1 a2 a3 a4 a5, d = [(n1, a1), (n2, a2), (n3, a3), (n4, a4), (n5, a5)] := by
  match d, h with
  | [(_, a1), (_, a2), (_, a3), (_, a4), (_, a5)], h =>
    simp only [List.map_cons, List.map_nil, List.cons.injEq, and_true] at h
    obtain ⟨rfl, rfl, rfl, rfl, rfl⟩ := h
    exact ⟨a1, a2, a3, a4, a5, rfl⟩

omit [Field R] in
theorem split2_87 {d : Dict (List Char) (NDArray R)} {n0 n1 : List Char} (h : d.map Prod.fst = [n0, n1]) :
    ∃ a0 a1, d = [(n0, a0), (n1, a1)] := by
  match d, h with
  | [(_, a0), (_, a1)], h =>
    simp only [List.map_cons, List.map_nil, List.cons.injEq, and_true] at h
    obtain ⟨rfl, rfl⟩ := h
    exact ⟨a0, a1, rfl⟩

/-- What a divided correction is: blocks whose sum is that of the residuals over the denominators. -/
def Divided87 (m : ActiveMasks) (en : Char → List R) (low : List Char) (r : Dict (List Char) (NDArray R))
    (name : List Char) (keys : List (List Char)) (d : Dict (List Char) (NDArray R)) : Prop :=
  (∀ kv ∈ d, isActiveKey kv.1 = true ∧ kv.1.map Char.toLower = low ∧ kv.2.WF ∧ kv.2.shape = kv.1.map m.size) ∧
  ∀ idx, idx.length = low.length →
    (d.map fun kv => blockElem (kv.1.map m.cls) kv.2 idx).sum = extSum m r name keys idx / denom87 en low idx

theorem ccsd_ranks87 : HasRanks ccsd .G .t fs82 [] [] := ⟨by decide, by decide, by decide⟩

/-- The loop over the amplitudes. -/
theorem fold_both87 (energy : List Char → Except PyErr (NDArray R)) {b1 b2 d1 d2 : Dict (List Char) (NDArray R)}
    (h1 : divideExternal energy b1 = .ok d1) (h2 : divideExternal energy b2 = .ok d2) :
    fs82.foldlM (fun (ext : Dict (List Char) (Dict (List Char) (NDArray R))) r =>
      match ext.get? r.1 with
      | none => pure ext
      | some d => do
        let d' ← divideExternal energy d
        pure (ext.set r.1 d')) [(chars! "t1", b1), (chars! "t2", b2)] = .ok [(chars! "t1", d1), (chars! "t2", d2)] := by
  simp only [fs82, List.foldlM_cons, List.foldlM_nil, rankOne82, rankTwo82]
  have g1 : Dict.get? [(chars! "t1", b1), (chars! "t2", b2)] (chars! "t1") = some b1 := rfl
  have g2 : Dict.set [(chars! "t1", b1), (chars! "t2", b2)] (chars! "t1") d1 = [(chars! "t1", d1), (chars! "t2", b2)] := rfl
  have g3 : Dict.get? [(chars! "t1", d1), (chars! "t2", b2)] (chars! "t2") = some b2 := rfl
  have g4 : Dict.set [(chars! "t1", d1), (chars! "t2", b2)] (chars! "t2") d2 = [(chars! "t1", d1), (chars! "t2", d2)] := rfl
  simp only [g1, h1, bind, Except.bind, pure, Except.pure, g2, g3, h2, g4]

theorem fold_two87 (energy : List Char → Except PyErr (NDArray R)) {b2 d2 : Dict (List Char) (NDArray R)}
    (h2 : divideExternal energy b2 = .ok d2) :
    fs82.foldlM (fun (ext : Dict (List Char) (Dict (List Char) (NDArray R))) r =>
      match ext.get? r.1 with
      | none => pure ext
      | some d => do
        let d' ← divideExternal energy d
        pure (ext.set r.1 d')) [(chars! "t2", b2)] = .ok [(chars! "t2", d2)] := by
  simp only [fs82, List.foldlM_cons, List.foldlM_nil, rankOne82, rankTwo82]
  have g1 : Dict.get? [(chars! "t2", b2)] (chars! "t1") = none := rfl
  have g3 : Dict.get? [(chars! "t2", b2)] (chars! "t2") = some b2 := rfl
  have g4 : Dict.set [(chars! "t2", b2)] (chars! "t2") d2 = [(chars! "t2", d2)] := rfl
  simp only [g1, bind, Except.bind, pure, Except.pure, g3, h2, g4]

theorem external_ok87 (setOrder : List Char → List Char) (ho : IsSetOrder setOrder) {m : ActiveMasks} {en : Char → List R}
    (h : ActiveEnergies87 m en) (env : EnergyEnv R) (he : ∀ k ∈ ['o', 'O', 'v', 'V'], HasEnergies env (k, '_') (en k))
    (func : Dict (List Char) (NDArray R) → Except PyErr (Dict (List Char) (NDArray R))) (amps e : Dict (List Char) (NDArray R))
    (hf : func amps = .ok e) (hk : e.map Prod.fst = [chars! "t1new.OV", chars! "t2new.OOVV", chars! "t2new.OoVV",
      chars! "t2new.oOVV", chars! "t2new.OOvV", chars! "t2new.OOVv"])
    (h1 : ∀ key ∈ extKeys1, HasBlock m e (chars! "t1new" ++ '.' :: key) key)
    (h2 : ∀ key ∈ extKeys2, HasBlock m e (chars! "t2new" ++ '.' :: key) key) :
    ∃ d1 d2, externalCorrections ccsd .G (fun key => (energySum setOrder env key []).1) func amps =
        .ok [(chars! "t1", d1), (chars! "t2", d2)] ∧
      Divided87 m en ['o', 'v'] e (chars! "t1new") extKeys1 d1 ∧
      Divided87 m en ['o', 'o', 'v', 'v'] e (chars! "t2new") extKeys2 d2 := by
  obtain ⟨a0, a1, a2, a3, a4, a5, rfl⟩ := split6_87 hk
  have b0 : a0.WF ∧ a0.shape = ['O', 'V'].map m.size := by
    obtain ⟨y, y1, y2⟩ := h1 ['O', 'V'] (by decide)
    cases y1; exact y2
  have b1 : a1.WF ∧ a1.shape = ['O', 'O', 'V', 'V'].map m.size := by
    obtain ⟨y, y1, y2⟩ := h2 ['O', 'O', 'V', 'V'] (by decide)
    cases y1; exact y2
  have b2 : a2.WF ∧ a2.shape = ['O', 'o', 'V', 'V'].map m.size := by
    obtain ⟨y, y1, y2⟩ := h2 ['O', 'o', 'V', 'V'] (by decide)
    cases y1; exact y2
  have b3 : a3.WF ∧ a3.shape = ['o', 'O', 'V', 'V'].map m.size := by
    obtain ⟨y, y1, y2⟩ := h2 ['o', 'O', 'V', 'V'] (by decide)
    cases y1; exact y2
  have b4 : a4.WF ∧ a4.shape = ['O', 'O', 'v', 'V'].map m.size := by
    obtain ⟨y, y1, y2⟩ := h2 ['O', 'O', 'v', 'V'] (by decide)
    cases y1; exact y2
  have b5 : a5.WF ∧ a5.shape = ['O', 'O', 'V', 'v'].map m.size := by
    obtain ⟨y, y1, y2⟩ := h2 ['O', 'O', 'V', 'v'] (by decide)
    cases y1; exact y2
  obtain ⟨d1, p1, p2, p3⟩ := divide_ok87 setOrder ho h env he ['o', 'v'] [(['O', 'V'], a0)] (by
    intro kv hkv
    simp only [List.mem_cons, List.not_mem_nil, or_false] at hkv
    subst hkv
    exact ⟨rfl, List.cons_ne_nil _ _, by simp, rfl, b0⟩)
  obtain ⟨d2, q1, q2, q3⟩ := divide_ok87 setOrder ho h env he ['o', 'o', 'v', 'v'] [(['O', 'O', 'V', 'V'], a1),
      (['O', 'o', 'V', 'V'], a2), (['o', 'O', 'V', 'V'], a3), (['O', 'O', 'v', 'V'], a4), (['O', 'O', 'V', 'v'], a5)] (by
    intro kv hkv
    simp only [List.mem_cons, List.not_mem_nil, or_false] at hkv
    rcases hkv with rfl | rfl | rfl | rfl | rfl
    · exact ⟨rfl, List.cons_ne_nil _ _, by simp, rfl, b1⟩
    · exact ⟨rfl, List.cons_ne_nil _ _, by simp, rfl, b2⟩
    · exact ⟨rfl, List.cons_ne_nil _ _, by simp, rfl, b3⟩
    · exact ⟨rfl, List.cons_ne_nil _ _, by simp, rfl, b4⟩
    · exact ⟨rfl, List.cons_ne_nil _ _, by simp, rfl, b5⟩)
  refine ⟨d1, d2, ?_, ⟨p2, p3⟩, ⟨q2, q3⟩⟩
  unfold externalCorrections
  rw [hf, ccsd_ranks87.f]
  have e0 : nestResults [(chars! "t1new.OV", a0), (chars! "t2new.OOVV", a1), (chars! "t2new.OoVV", a2),
      (chars! "t2new.oOVV", a3), (chars! "t2new.OOvV", a4), (chars! "t2new.OOVv", a5)] =
      [(chars! "t1", [(['O', 'V'], a0)]), (chars! "t2", [(['O', 'O', 'V', 'V'], a1),
      (['O', 'o', 'V', 'V'], a2), (['o', 'O', 'V', 'V'], a3), (['O', 'O', 'v', 'V'], a4), (['O', 'O', 'V', 'v'], a5)])] :=
    rfl
  simp only [bind, Except.bind, e0]
  exact fold_both87 _ p1 q1

theorem mixed_ok87 (setOrder : List Char → List Char) (ho : IsSetOrder setOrder) {m : ActiveMasks} {en : Char → List R}
    (h : ActiveEnergies87 m en) (env : EnergyEnv R) (he : ∀ k ∈ ['o', 'O', 'v', 'V'], HasEnergies env (k, '_') (en k))
    (func : Dict (List Char) (NDArray R) → Except PyErr (Dict (List Char) (NDArray R))) (amps e : Dict (List Char) (NDArray R))
    (hf : func amps = .ok e) (hk : e.map Prod.fst = [chars! "t2new.OOVV", chars! "t2new.OoVV",
      chars! "t2new.oOVV", chars! "t2new.OOvV", chars! "t2new.OOVv"])
    (h2 : ∀ key ∈ extKeys2, HasBlock m e (chars! "t2new" ++ '.' :: key) key) :
    ∃ d2, externalCorrections ccsd .G (fun key => (energySum setOrder env key []).1) func amps =
        .ok [(chars! "t2", d2)] ∧
      Divided87 m en ['o', 'o', 'v', 'v'] e (chars! "t2new") extKeys2 d2 := by
  obtain ⟨a1, a2, a3, a4, a5, rfl⟩ := split5_87 hk
  have b1 : a1.WF ∧ a1.shape = ['O', 'O', 'V', 'V'].map m.size := by
    obtain ⟨y, y1, y2⟩ := h2 ['O', 'O', 'V', 'V'] (by decide)
    cases y1; exact y2
  have b2 : a2.WF ∧ a2.shape = ['O', 'o', 'V', 'V'].map m.size := by
    obtain ⟨y, y1, y2⟩ := h2 ['O', 'o', 'V', 'V'] (by decide)
    cases y1; exact y2
  have b3 : a3.WF ∧ a3.shape = ['o', 'O', 'V', 'V'].map m.size := by
    obtain ⟨y, y1, y2⟩ := h2 ['o', 'O', 'V', 'V'] (by decide)
    cases y1; exact y2
  have b4 : a4.WF ∧ a4.shape = ['O', 'O', 'v', 'V'].map m.size := by
    obtain ⟨y, y1, y2⟩ := h2 ['O', 'O', 'v', 'V'] (by decide)
    cases y1; exact y2
  have b5 : a5.WF ∧ a5.shape = ['O', 'O', 'V', 'v'].map m.size := by
    obtain ⟨y, y1, y2⟩ := h2 ['O', 'O', 'V', 'v'] (by decide)
    cases y1; exact y2
  obtain ⟨d2, q1, q2, q3⟩ := divide_ok87 setOrder ho h env he ['o', 'o', 'v', 'v'] [(['O', 'O', 'V', 'V'], a1),
      (['O', 'o', 'V', 'V'], a2), (['o', 'O', 'V', 'V'], a3), (['O', 'O', 'v', 'V'], a4), (['O', 'O', 'V', 'v'], a5)] (by
    intro kv hkv
    simp only [List.mem_cons, List.not_mem_nil, or_false] at hkv
    rcases hkv with rfl | rfl | rfl | rfl | rfl
    · exact ⟨rfl, List.cons_ne_nil _ _, by simp, rfl, b1⟩
    · exact ⟨rfl, List.cons_ne_nil _ _, by simp, rfl, b2⟩
    · exact ⟨rfl, List.cons_ne_nil _ _, by simp, rfl, b3⟩
    · exact ⟨rfl, List.cons_ne_nil _ _, by simp, rfl, b4⟩
    · exact ⟨rfl, List.cons_ne_nil _ _, by simp, rfl, b5⟩)
  refine ⟨d2, ?_, ⟨q2, q3⟩⟩
  unfold externalCorrections
  rw [hf, ccsd_ranks87.f]
  have e0 : nestResults [(chars! "t2new.OOVV", a1), (chars! "t2new.OoVV", a2),
      (chars! "t2new.oOVV", a3), (chars! "t2new.OOvV", a4), (chars! "t2new.OOVv", a5)] =
      [(chars! "t2", [(['O', 'O', 'V', 'V'], a1),
      (['O', 'o', 'V', 'V'], a2), (['o', 'O', 'V', 'V'], a3), (['O', 'O', 'v', 'V'], a4), (['O', 'O', 'V', 'v'], a5)])] :=
    rfl
  simp only [bind, Except.bind, e0]
  exact fold_two87 _ q1

omit [Field R] in
theorem fullAmplitudes_get87 (amps own : Dict (List Char) (NDArray R)) (name : List Char) :
    (fullAmplitudes amps own).get? name = (amps.get? name).or (own.get? name) := by
  unfold fullAmplitudes
  induction own generalizing amps with
  | nil => simp [Dict.get?]
  | cons p own ih =>
    rw [List.foldl_cons, ih]
    have hc : Dict.get? (p :: own) name = if p.1 = name then some p.2 else Dict.get? own name := rfl
    rw [hc]
    by_cases hp : amps.contains p.1 = true
    · rw [if_pos hp]
      split
      · rename_i hn
        subst hn
        have : (amps.get? p.1).isSome = true := hp
        obtain ⟨v, hv⟩ := Option.isSome_iff_exists.1 this
        rw [hv]
        simp
      · rfl
    · rw [if_neg hp, Dict.get?_set]
      have : amps.get? p.1 = none := by
        have : ¬ (amps.get? p.1).isSome = true := hp
        simpa using this
      split
      · rename_i hn
        subst hn
        rw [this]
        simp
      · rfl

/-! ### The step -/

/-- The amplitudes of singles and doubles as arrays. -/
def ampDict87 (t : GAmps R) (m : ActiveMasks) : Dict (List Char) (NDArray R) :=
  [(chars! "t1", m.block (tens2 fun i a => t.a1 i.2 a.2) ['o', 'v']),
    (chars! "t2", m.block (tens4 fun i j a b => t.a2 i.2 j.2 a.2 b.2) ['o', 'o', 'v', 'v'])]

theorem pack_ints87 (h : GHam R) (t : GAmps R) (t4 : List Nat → R) (m : ActiveMasks)
    (amps : Dict (List Char) (NDArray R)) (l : List (List Char))
    (hl : ∀ name ∈ l, name ∈ [chars! "t1", chars! "t2", chars! "t3", chars! "t4"] ∨ name.take 2 = chars! "f." ∨
      name.take 2 = chars! "v.")
    (hamp : ∀ name ∈ l, name ∈ [chars! "t1", chars! "t2", chars! "t3", chars! "t4"] →
      amps.get? name = h.activeArgs t t4 m name)
    (hint : ∀ name ∈ l, name.take 2 = chars! "f." ∨ name.take 2 = chars! "v." → amps.get? name = none) :
    ∀ name ∈ l, packArgs (intArgs87 h m) amps name = h.activeArgs t t4 m name := by
  intro name hname
  unfold packArgs
  rcases hl name hname with hn | hn | hn
  · rw [hamp name hname hn]
    simp only [List.mem_cons, List.not_mem_nil, or_false] at hn
    rcases hn with rfl | rfl | rfl | rfl <;> rfl
  · rw [hint name hname (Or.inl hn)]
    match name, hn with
    | _ :: _ :: key, hn =>
      simp only [List.take_succ_cons, List.take_zero, List.cons.injEq, and_true] at hn
      obtain ⟨rfl, rfl⟩ := hn
      rfl
  · rw [hint name hname (Or.inr hn)]
    match name, hn with
    | _ :: _ :: key, hn =>
      simp only [List.take_succ_cons, List.take_zero, List.cons.injEq, and_true] at hn
      obtain ⟨rfl, rfl⟩ := hn
      rfl

end

open Gen in
/-- The names of the arguments of the functions. -/
theorem argNames87 (f : GenFun) (hf : f = GCCSD.update_amps ∨ f = GecCCExt.update_amps_external ∨
    f = GecCCExt.update_amps_mixed) : ∀ name ∈ f.args, name ∈ [chars! "t1", chars! "t2", chars! "t3", chars! "t4"] ∨
      name.take 2 = chars! "f." ∨ name.take 2 = chars! "v." := by
  rcases hf with rfl | rfl | rfl <;> decide

section
variable {R : Type} [Field R]

/-- The given amplitudes: triples and quadruples, and at least singles, of the active space; no names of integrals. -/
structure Given87 (t : GAmps R) (t4 : List Nat → R) (m : ActiveMasks) (own : Dict (List Char) (NDArray R)) : Prop where
  one : ∃ x, own.get? (chars! "t1") = some x ∧ x.WF ∧ x.shape = ['O', 'V'].map m.size
  two : ∀ x, own.get? (chars! "t2") = some x → x.WF ∧ x.shape = ['O', 'O', 'V', 'V'].map m.size
  three : own.get? (chars! "t3") = some (m.amp t.list3 ['O', 'O', 'O', 'V', 'V', 'V'])
  four : own.get? (chars! "t4") = some (m.amp t4 ['O', 'O', 'O', 'O', 'V', 'V', 'V', 'V'])
  ints : ∀ name, name.take 2 = chars! "f." ∨ name.take 2 = chars! "v." → own.get? name = none

/-- A call of a generated function with amplitudes and integrals. -/
def callWith87 [DecidableEq R] (f : GenFun) (method : ContractMethod)
    (path : List (List Char) → List Char → List (NDArray R) → List Contraction) (h : GHam R) (m : ActiveMasks)
    (amps : Dict (List Char) (NDArray R)) : Except PyErr (Dict (List Char) (NDArray R)) :=
  f.call method path m.sizes (packArgs (intArgs87 h m) amps)

theorem ampDict_ints87 (t : GAmps R) (m : ActiveMasks) (name : List Char)
    (hn : name.take 2 = chars! "f." ∨ name.take 2 = chars! "v.") : (ampDict87 t m).get? name = none := by
  rw [Dict.get?_eq_none_iff]
  intro hc
  have : name = chars! "t1" ∨ name = chars! "t2" := by simpa [ampDict87, Dict.keys] using hc
  rcases this with rfl | rfl <;> revert hn <;> decide

theorem block1_get87 (t : GAmps R) (m : ActiveMasks) {i k : Nat} (hi : i < m.occ.length) (hk : k < m.vir.length) :
    (m.block (tens2 fun i a => t.a1 i.2 a.2) ['o', 'v']).get [i, k] = t.a1 i k := by
  have hb : InBox (['o', 'v'].map m.size) [i, k] := by
    refine .cons ?_ (.cons ?_ .nil) <;> simpa [ActiveMasks.size, ActiveMasks.cls]
  rw [ActiveMasks.block, NDArray.get_ofFn _ _ hb]
  simp [ActiveMasks.orb, ActiveMasks.cls, maskInds_replicate, tens2, hi, hk]

theorem block2_get87 (t : GAmps R) (m : ActiveMasks) {i j k l : Nat} (hi : i < m.occ.length) (hj : j < m.occ.length)
    (hk : k < m.vir.length) (hl : l < m.vir.length) :
    (m.block (tens4 fun i j a b => t.a2 i.2 j.2 a.2 b.2) ['o', 'o', 'v', 'v']).get [i, j, k, l] = t.a2 i j k l := by
  have hb : InBox (['o', 'o', 'v', 'v'].map m.size) [i, j, k, l] := by
    refine .cons ?_ (.cons ?_ (.cons ?_ (.cons ?_ .nil))) <;> simpa [ActiveMasks.size, ActiveMasks.cls]
  rw [ActiveMasks.block, NDArray.get_ofFn _ _ hb]
  simp [ActiveMasks.orb, ActiveMasks.cls, maskInds_replicate, tens4, hi, hj, hk, hl]

/-- The inflated singles, as amplitudes. -/
def withOne87 (t : GAmps R) (y : NDArray R) : GAmps R := { t with a1 := fun i k => y.get [i, k] }

theorem block_withOne87 (t : GAmps R) (m : ActiveMasks) (y : NDArray R) (hw : y.WF)
    (hs : y.shape = ['o', 'v'].map m.size) :
    m.block (tens2 fun i a => (withOne87 t y).a1 i.2 a.2) ['o', 'v'] = y := by
  refine NDArray.ext_get (NDArray.ofFn_wf _ _) hw ?_ ?_
  · rw [ActiveMasks.block, NDArray.ofFn_shape, hs]
  · intro idx hidx
    rw [ActiveMasks.block, NDArray.ofFn_shape] at hidx
    match idx, hidx with
    | [i, k], hidx =>
      obtain ⟨hi, hidx⟩ := List.forall₂_cons.1 hidx
      obtain ⟨hk, -⟩ := List.forall₂_cons.1 hidx
      exact block1_get87 (withOne87 t y) m (by simpa [ActiveMasks.size, ActiveMasks.cls] using hi)
        (by simpa [ActiveMasks.size, ActiveMasks.cls] using hk)

open Gen in
/-- C87: with the strategy `update`, for spaces without frozen orbitals: entering the context and each step of the
amplitude equations succeed, and the new amplitudes are the residuals of CCSDTQ, with triples and quadruples zero outside
of the active space, over the energy denominators, plus the old amplitudes. -/
theorem C87_update_partial [CharZero R] [DecidableEq R] (setOrder : List Char → List Char) (ho : IsSetOrder setOrder)
    {o f a : List Bool} {s : Space} (hs : Space.new o f a = .ok s) (hfro : ∀ p, inMask s.frozen p = false)
    (env : EnergyEnv R) (en : Char → List R) (hen : ActiveEnergies87 (spaceMasks87 s) en)
    (he : ∀ k ∈ ['o', 'O', 'v', 'V'], HasEnergies env (k, '_') (en k)) (h : GHam R) (t : GAmps R) (t4 : List Nat → R)
    (own : Dict (List Char) (NDArray R)) (hown : Given87 t t4 (spaceMasks87 s) own) (method : ContractMethod)
    (path : List (List Char) → List Char → List (NDArray R) → List Contraction) (hpath : PathOk path) :
    ∃ em, externalEnter ccsd .G s (fun key => (energySum setOrder env key []).1)
        (callWith87 GecCCExt.update_amps_external method path h (spaceMasks87 s))
        (callWith87 GecCCExt.update_amps_mixed method path h (spaceMasks87 s)) .update own = .ok em ∧
      ∀ t' : GAmps R, (∀ i j k a b c, t'.a3 i j k a b c = t.a3 i j k a b c) →
      ∃ (r : Dict (List Char) (NDArray R)) (y1 y2 : NDArray R),
        GCCSDTQ.update_amps.call method path (spaceMasks87 s).sizes (h.inflatedArgs t' t4 (spaceMasks87 s)) = .ok r ∧
        externalUpdate ccsd .G s (fun key => (energySum setOrder env key []).1)
          (callWith87 GecCCExt.update_amps_mixed method path h (spaceMasks87 s))
          (updateAmps ccsd .G (fun key => (energySum setOrder env key []).1)
            (callWith87 GCCSD.update_amps method path h (spaceMasks87 s)))
          .update own em (ampDict87 t' (spaceMasks87 s)) = .ok [(chars! "t1", y1), (chars! "t2", y2)] ∧
        y1.WF ∧ y1.shape = ['o', 'v'].map (spaceMasks87 s).size ∧
        y2.WF ∧ y2.shape = ['o', 'o', 'v', 'v'].map (spaceMasks87 s).size ∧
        (∀ i < (spaceMasks87 s).occ.length, ∀ k < (spaceMasks87 s).vir.length,
          y1.get [i, k] = (resArr r (chars! "t1new")).get [i, k] / denom87 en ['o', 'v'] [i, k] + t'.a1 i k) ∧
        ∀ i < (spaceMasks87 s).occ.length, ∀ j < (spaceMasks87 s).occ.length, ∀ k < (spaceMasks87 s).vir.length,
          ∀ l < (spaceMasks87 s).vir.length, y2.get [i, j, k, l] =
            (resArr r (chars! "t2new")).get [i, j, k, l] / denom87 en ['o', 'o', 'v', 'v'] [i, j, k, l] +
              t'.a2 i j k l := by
  have hm : ∀ c, (c = 'o' ∨ c = 'O' ∨ c = 'v' ∨ c = 'V') → (spaceMasks87 s).cls c = axisClass s c :=
    fun c hc => cls_axis87 s hc
  generalize hmm : spaceMasks87 s = m at *
  -- the amplitudes in the full space
  obtain ⟨ext, x1, x2, x3, x4⟩ := C65_external_partial hs hfro ccsd .G fs82 ccsd_ranks87.f (by decide) (by decide) own (by
    intro r hr x hx
    simp only [fs82, List.mem_cons, List.not_mem_nil, or_false] at hr
    rcases hr with rfl | rfl
    · obtain ⟨x', h1, h2, h3⟩ := hown.one
      have : x = x' := Option.some.inj (hx.symm.trans h1)
      subst this
      refine ⟨h2, h3.trans ?_⟩
      subst hmm
      rfl
    · obtain ⟨h2, h3⟩ := hown.two x hx
      refine ⟨h2, h3.trans ?_⟩
      subst hmm
      rfl)
  have f3 : ext.get? (chars! "t3") = h.activeArgs t t4 m (chars! "t3") := (x4 _ (by decide)).trans hown.three
  have f4 : ext.get? (chars! "t4") = h.activeArgs t t4 m (chars! "t4") := (x4 _ (by decide)).trans hown.four
  have fi : ∀ name : List Char, name.take 2 = chars! "f." ∨ name.take 2 = chars! "v." → ext.get? name = none := by
    intro name hn
    rw [x4 name (by
      intro r hr
      simp only [fs82, List.mem_cons, List.not_mem_nil, or_false] at hr
      rcases hr with rfl | rfl <;> rintro rfl <;> revert hn <;> decide)]
    exact hown.ints name hn
  obtain ⟨y, y1, y2, y3, -⟩ : ∃ y, ext.get? (chars! "t1") = some y ∧ Inflated65 (activeClasses s ['o', 'v'])
      (hown.one.choose) y := by
    obtain ⟨y, z1, z2⟩ := x3 rankOne82 (by decide) _ hown.one.choose_spec.1
    exact ⟨y, z1, z2⟩
  have y2 : y.shape = ['o', 'v'].map m.size := by
    rw [y2, ← hmm]
    simp [activeClasses, spaceMasks87, ActiveMasks.size, ActiveMasks.cls]
  have f1 : ext.get? (chars! "t1") = h.activeArgs (withOne87 t y) t4 m (chars! "t1") := by
    rw [y1]
    exact congrArg some (block_withOne87 t m y y3 y2).symm
  -- entering
  obtain ⟨-, -, e0, m0, -, -, hE0, hM0, -, bE1, b2, -, -⟩ := C87_residuals h (withOne87 t y) t4 m method path hpath
  have cE : callWith87 GecCCExt.update_amps_external method path h m ext = .ok e0 := by
    unfold callWith87
    rw [← hE0]
    refine call_congr87 _ _ _ _ (pack_ints87 h (withOne87 t y) t4 m ext _ (argNames87 _ (by simp)) ?_ fun n _ => fi n)
    intro name hn hm
    simp only [List.mem_cons, List.not_mem_nil, or_false] at hm
    rcases hm with rfl | rfl | rfl | rfl
    · exact f1
    · exact absurd hn (by decide)
    · exact f3
    · exact f4
  have cM : callWith87 GecCCExt.update_amps_mixed method path h m ext = .ok m0 := by
    unfold callWith87
    rw [← hM0]
    refine call_congr87 _ _ _ _ (pack_ints87 h (withOne87 t y) t4 m ext _ (argNames87 _ (by simp)) ?_ fun n _ => fi n)
    intro name hn hm
    simp only [List.mem_cons, List.not_mem_nil, or_false] at hm
    rcases hm with rfl | rfl | rfl | rfl
    · exact f1
    · exact absurd hn (by decide)
    · exact f3
    · exact f4
  obtain ⟨d1, d2, p1, p2, p3⟩ := external_ok87 setOrder ho hen env he _ ext e0 cE (GenFun.call_keys hE0) bE1
    (b2 e0 (by simp))
  obtain ⟨dm, q1, -⟩ := mixed_ok87 setOrder ho hen env he _ ext m0 cM (GenFun.call_keys hM0) (b2 m0 (by simp))
  refine ⟨([(chars! "t1", d1), (chars! "t2", d2)], [(chars! "t2", dm)]), ?_, ?_⟩
  · unfold externalEnter
    simp only [x1, p1, q1, bind, Except.bind, pure, Except.pure]
    rfl
  clear q1 cM hM0
  -- a step
  intro t' ht'
  have hl3 : t'.list3 = t.list3 := by
    funext l
    unfold GAmps.list3
    split
    · exact ht' _ _ _ _ _ _
    · rfl
  obtain ⟨r, c, e, x, hA, hC, hE, hM, bA, bE1', b2', v1, v2⟩ := C87_residuals h t' t4 m method path hpath
  -- the corrections do not depend on the amplitudes
  have : e = e0 := by
    have : GecCCExt.update_amps_external.call method path m.sizes (h.activeArgs t' t4 m) =
        GecCCExt.update_amps_external.call method path m.sizes (h.activeArgs (withOne87 t y) t4 m) := by
      refine call_congr87 _ _ _ _ fun name hn => ?_
      have hn' := argNames87 GecCCExt.update_amps_external (by simp) name hn
      rcases hn' with hn' | hn' | hn'
      · simp only [List.mem_cons, List.not_mem_nil, or_false] at hn'
        rcases hn' with rfl | rfl | rfl | rfl
        · exact absurd hn (by decide)
        · exact absurd hn (by decide)
        · change some (m.amp t'.list3 _) = some (m.amp t.list3 _)
          rw [hl3]
        · rfl
      · match name, hn' with
        | _ :: _ :: key, hn' =>
          simp only [List.take_succ_cons, List.take_zero, List.cons.injEq, and_true] at hn'
          obtain ⟨rfl, rfl⟩ := hn'
          rfl
      · match name, hn' with
        | _ :: _ :: key, hn' =>
          simp only [List.take_succ_cons, List.take_zero, List.cons.injEq, and_true] at hn'
          obtain ⟨rfl, rfl⟩ := hn'
          rfl
    rw [hE, hE0] at this
    exact Except.ok.inj this
  subst this
  have g1 : ∀ own', (fullAmplitudes (ampDict87 t' m) own').get? (chars! "t1") = h.activeArgs t' t4 m (chars! "t1") :=
    fun own' => by rw [fullAmplitudes_get87]; rfl
  have g2 : ∀ own', (fullAmplitudes (ampDict87 t' m) own').get? (chars! "t2") = h.activeArgs t' t4 m (chars! "t2") :=
    fun own' => by rw [fullAmplitudes_get87]; rfl
  have g3 : (fullAmplitudes (ampDict87 t' m) own).get? (chars! "t3") = h.activeArgs t' t4 m (chars! "t3") := by
    rw [fullAmplitudes_get87, hown.three, ← hl3]; rfl
  have g4 : (fullAmplitudes (ampDict87 t' m) own).get? (chars! "t4") = h.activeArgs t' t4 m (chars! "t4") := by
    rw [fullAmplitudes_get87, hown.four]; rfl
  have cM : callWith87 GecCCExt.update_amps_mixed method path h m (fullAmplitudes (ampDict87 t' m) own) = .ok x := by
    unfold callWith87
    rw [← hM]
    refine call_congr87 _ _ _ _ (pack_ints87 h t' t4 m _ _ (argNames87 _ (by simp)) ?_ fun n _ hn => ?_)
    · intro name hn hm
      simp only [List.mem_cons, List.not_mem_nil, or_false] at hm
      rcases hm with rfl | rfl | rfl | rfl
      · exact g1 own
      · exact g2 own
      · exact g3
      · exact g4
    · rw [fullAmplitudes_get87, ampDict_ints87 t' m n hn, hown.ints n hn]; rfl
  obtain ⟨d3, q1, q2⟩ := mixed_ok87 setOrder ho hen env he _ _ x cM (GenFun.call_keys hM) (b2' x (by simp))
  -- the original step
  have cC : callWith87 GCCSD.update_amps method path h m (ampDict87 t' m) = .ok c := by
    unfold callWith87
    rw [← hC]
    refine call_congr87 _ _ _ _ (pack_ints87 h t' t4 m _ _ (argNames87 _ (by simp)) ?_ fun n _ hn => ?_)
    · intro name hn hm
      simp only [List.mem_cons, List.not_mem_nil, or_false] at hm
      rcases hm with rfl | rfl | rfl | rfl
      · rfl
      · rfl
      · exact absurd hn (by decide)
      · exact absurd hn (by decide)
    · exact ampDict_ints87 t' m n hn
  obtain ⟨c1, c2, rfl⟩ := split2_87 (GenFun.call_keys hC)
  have bC1 : c1.WF ∧ c1.shape = ['o', 'v'].map m.size := by
    obtain ⟨z, z1, z2⟩ := (bA _ (List.mem_cons_of_mem _ (List.mem_singleton.2 rfl))).1
    cases z1; exact z2
  have bC2 : c2.WF ∧ c2.shape = ['o', 'o', 'v', 'v'].map m.size := by
    obtain ⟨z, z1, z2⟩ := (bA _ (List.mem_cons_of_mem _ (List.mem_singleton.2 rfl))).2
    cases z1; exact z2
  have hsz1 : (['o', 'v'].map fun k => (en k).length) = ['o', 'v'].map m.size :=
    List.map_congr_left fun c hc => energies_size87 hen (by revert c; decide)
  have hsz2 : (['o', 'o', 'v', 'v'].map fun k => (en k).length) = ['o', 'o', 'v', 'v'].map m.size :=
    List.map_congr_left fun c hc => energies_size87 hen (by revert c; decide)
  obtain ⟨new, n1, n2⟩ := C36_update setOrder ho ccsd_ranks87 (by simp) (by decide) (by decide) env en (by
      intro e he' k hk
      apply he
      simp only [entries, fs82, rankOne82, rankTwo82, List.map_cons, List.map_nil, List.append_nil, List.mem_cons,
        List.not_mem_nil, or_false] at he'
      rcases he' with rfl | rfl <;> revert hk <;> revert k <;> decide)
    (callWith87 GCCSD.update_amps method path h m)
    (fun e => if e.1 = chars! "t1" then m.block (tens2 fun i a => t'.a1 i.2 a.2) ['o', 'v'] else
      m.block (tens4 fun i j a b => t'.a2 i.2 j.2 a.2 b.2) ['o', 'o', 'v', 'v'])
    (fun e => if e.1 = chars! "t1" then c1 else c2) (by
      intro e he'
      simp only [entries, fs82, rankOne82, rankTwo82, List.map_cons, List.map_nil, List.append_nil, List.mem_cons,
        List.not_mem_nil, or_false] at he'
      rcases he' with rfl | rfl
      · rw [if_pos rfl]; exact ⟨NDArray.ofFn_wf _ _, (NDArray.ofFn_shape _ _).trans hsz1.symm⟩
      · rw [if_neg (by decide)]; exact ⟨NDArray.ofFn_wf _ _, (NDArray.ofFn_shape _ _).trans hsz2.symm⟩) (by
      intro e he'
      simp only [entries, fs82, rankOne82, rankTwo82, List.map_cons, List.map_nil, List.append_nil, List.mem_cons,
        List.not_mem_nil, or_false] at he'
      rcases he' with rfl | rfl
      · rw [if_pos rfl]; exact ⟨bC1.1, bC1.2.trans hsz1.symm⟩
      · rw [if_neg (by decide)]; exact ⟨bC2.1, bC2.2.trans hsz2.symm⟩) (by
      exact cC)
  have n1 : updateAmps ccsd .G (fun key => (energySum setOrder env key []).1)
      (callWith87 GCCSD.update_amps method path h m) (ampDict87 t' m) =
      .ok [(chars! "t1", new (chars! "t1", ['o', 'v'])), (chars! "t2", new (chars! "t2", ['o', 'o', 'v', 'v']))] := n1
  obtain ⟨w1, w2, w3⟩ := n2 (chars! "t1", ['o', 'v']) (by decide)
  obtain ⟨u1, u2, u3⟩ := n2 (chars! "t2", ['o', 'o', 'v', 'v']) (by decide)
  generalize new (chars! "t1", ['o', 'v']) = N1 at *
  generalize new (chars! "t2", ['o', 'o', 'v', 'v']) = N2 at *
  have w2 : N1.shape = ['o', 'v'].map m.size := w2.trans hsz1
  have u2 : N2.shape = ['o', 'o', 'v', 'v'].map m.size := u2.trans hsz2
  -- the corrections added
  obtain ⟨A1, a1, a2, a3, -⟩ := C47_corrected_partial hs hfro [(chars! "t1", N1), (chars! "t2", N2)]
    [(chars! "t1", d1), (chars! "t2", d2)] (by simp [Dict.keys]) (by
      intro nm z blocks hz hb
      by_cases h1 : nm = chars! "t1"
      · subst h1
        cases hz; cases hb
        subst hmm
        exact ⟨w1, fits87 s ['o', 'v'] _ w2 _ p2.1⟩
      · by_cases h2 : nm = chars! "t2"
        · subst h2
          cases hz; cases hb
          subst hmm
          exact ⟨u1, fits87 s ['o', 'o', 'v', 'v'] _ u2 _ p3.1⟩
        · simp [Dict.get?, Ne.symm h1, Ne.symm h2] at hb)
  obtain ⟨P1, P1g, P1c⟩ := a3 (chars! "t1") N1 d1 rfl rfl
  obtain ⟨P2, P2g, P2c⟩ := a3 (chars! "t2") N2 d2 rfl rfl
  have hA1 : A1 = [(chars! "t1", P1), (chars! "t2", P2)] := by
    obtain ⟨b1, b2, rfl⟩ := split2_87 (d := A1) a2
    cases P1g; cases P2g; rfl
  subst hA1
  have P2s : P2.shape = ['o', 'o', 'v', 'v'].map m.size := P2c.1.trans u2
  obtain ⟨A2, b1, b2, b3, b4⟩ := C47_corrected_partial hs hfro [(chars! "t1", P1), (chars! "t2", P2)]
    [(chars! "t2", d3)] (by simp [Dict.keys]) (by
      intro nm z blocks hz hb
      by_cases h2 : nm = chars! "t2"
      · subst h2
        cases hz; cases hb
        subst hmm
        exact ⟨P2c.2.1, fits87 s ['o', 'o', 'v', 'v'] _ P2s _ q2.1⟩
      · simp [Dict.get?, Ne.symm h2] at hb)
  obtain ⟨Q2, Q2g, Q2c⟩ := b3 (chars! "t2") P2 d3 rfl rfl
  have Q1g := b4 (chars! "t1") rfl
  have hA2 : A2 = [(chars! "t1", P1), (chars! "t2", Q2)] := by
    obtain ⟨b1, b2, rfl⟩ := split2_87 (d := A2) b2
    cases Q1g; cases Q2g; rfl
  subst hA2
  refine ⟨r, P1, Q2, hA, ?_, P1c.2.1, P1c.1.trans w2, Q2c.2.1, Q2c.1.trans P2s, ?_, ?_⟩
  · unfold externalUpdate
    rw [if_pos rfl, q1, n1]
    simp only [bind, Except.bind]
    rw [a1]
    exact b1
  · intro i hi k hk
    have hb : InBox N1.shape [i, k] := by
      rw [w2]
      refine .cons ?_ (.cons ?_ .nil) <;> simpa [ActiveMasks.size, ActiveMasks.cls]
    subst hmm
    rw [corrected87 s d1 (fun kv hkv => (p2.1 kv hkv).1) P1c _ hb, w3 _ hb, p2.2 [i, k] rfl, if_pos rfl, if_pos rfl,
      block1_get87 t' _ hi hk, v1 i hi k hk, add_div]
    change c1.get [i, k] / denom87 en ['o', 'v'] [i, k] + _ + _ = c1.get [i, k] / _ + _ + _
    ring
  · intro i hi j hj k hk l hl
    have hb : InBox N2.shape [i, j, k, l] := by
      rw [u2]
      refine .cons ?_ (.cons ?_ (.cons ?_ (.cons ?_ .nil))) <;> simpa [ActiveMasks.size, ActiveMasks.cls]
    have hb2 : InBox P2.shape [i, j, k, l] := by rw [P2s, ← u2]; exact hb
    subst hmm
    rw [corrected87 s d3 (fun kv hkv => (q2.1 kv hkv).1) Q2c _ hb2,
      corrected87 s d2 (fun kv hkv => (p3.1 kv hkv).1) P2c _ hb, u3 _ hb, p3.2 [i, j, k, l] rfl, q2.2 [i, j, k, l] rfl,
      if_neg (by decide), if_neg (by decide), block2_get87 t' _ hi hj hk hl, v2 i hi j hj k hk l hl, add_div, add_div]
    change c2.get [i, j, k, l] / denom87 en ['o', 'o', 'v', 'v'] [i, j, k, l] + _ + _ + _ =
      c2.get [i, j, k, l] / _ + (_ + _) + _
    ring

open Gen in
/-- C87: such a step leaves the amplitudes unchanged exactly when the residuals of singles and doubles of CCSDTQ with the
inflated triples and quadruples vanish, unless a denominator is zero. -/
theorem C87_fixed_points_partial [CharZero R] [DecidableEq R] (setOrder : List Char → List Char)
    (ho : IsSetOrder setOrder) {o f a : List Bool} {s : Space} (hs : Space.new o f a = .ok s)
    (hfro : ∀ p, inMask s.frozen p = false) (env : EnergyEnv R) (en : Char → List R)
    (hen : ActiveEnergies87 (spaceMasks87 s) en) (he : ∀ k ∈ ['o', 'O', 'v', 'V'], HasEnergies env (k, '_') (en k))
    (h : GHam R) (t : GAmps R) (t4 : List Nat → R) (own : Dict (List Char) (NDArray R))
    (hown : Given87 t t4 (spaceMasks87 s) own) (method : ContractMethod)
    (path : List (List Char) → List Char → List (NDArray R) → List Contraction) (hpath : PathOk path)
    (hd1 : ∀ i < (spaceMasks87 s).occ.length, ∀ k < (spaceMasks87 s).vir.length, denom87 en ['o', 'v'] [i, k] ≠ 0)
    (hd2 : ∀ i < (spaceMasks87 s).occ.length, ∀ j < (spaceMasks87 s).occ.length, ∀ k < (spaceMasks87 s).vir.length,
      ∀ l < (spaceMasks87 s).vir.length, denom87 en ['o', 'o', 'v', 'v'] [i, j, k, l] ≠ 0) :
    ∃ em, externalEnter ccsd .G s (fun key => (energySum setOrder env key []).1)
        (callWith87 GecCCExt.update_amps_external method path h (spaceMasks87 s))
        (callWith87 GecCCExt.update_amps_mixed method path h (spaceMasks87 s)) .update own = .ok em ∧
      ∃ r, GCCSDTQ.update_amps.call method path (spaceMasks87 s).sizes (h.inflatedArgs t t4 (spaceMasks87 s)) = .ok r ∧
        (externalUpdate ccsd .G s (fun key => (energySum setOrder env key []).1)
          (callWith87 GecCCExt.update_amps_mixed method path h (spaceMasks87 s))
          (updateAmps ccsd .G (fun key => (energySum setOrder env key []).1)
            (callWith87 GCCSD.update_amps method path h (spaceMasks87 s)))
          .update own em (ampDict87 t (spaceMasks87 s)) = .ok (ampDict87 t (spaceMasks87 s)) ↔
        (∀ i < (spaceMasks87 s).occ.length, ∀ k < (spaceMasks87 s).vir.length,
          (resArr r (chars! "t1new")).get [i, k] = 0) ∧
        ∀ i < (spaceMasks87 s).occ.length, ∀ j < (spaceMasks87 s).occ.length, ∀ k < (spaceMasks87 s).vir.length,
          ∀ l < (spaceMasks87 s).vir.length, (resArr r (chars! "t2new")).get [i, j, k, l] = 0) := by
  obtain ⟨em, h1, h2⟩ := C87_update_partial setOrder ho hs hfro env en hen he h t t4 own hown method path hpath
  obtain ⟨r, y1, y2, r1, r2, w1, s1, w2, s2, g1, g2⟩ := h2 t fun _ _ _ _ _ _ => rfl
  refine ⟨em, h1, r, r1, ?_⟩
  rw [r2]
  generalize spaceMasks87 s = m at *
  constructor
  · intro hh
    have hh := Except.ok.inj hh
    unfold ampDict87 at hh
    simp only [List.cons.injEq, Prod.mk.injEq, true_and, and_true] at hh
    obtain ⟨rfl, rfl⟩ := hh
    constructor
    · intro i hi k hk
      have := g1 i hi k hk
      rw [block1_get87 t m hi hk] at this
      have := right_eq_add.1 this
      exact (div_eq_zero_iff.1 this).resolve_right (hd1 i hi k hk)
    · intro i hi j hj k hk l hl
      have := g2 i hi j hj k hk l hl
      rw [block2_get87 t m hi hj hk hl] at this
      have := right_eq_add.1 this
      exact (div_eq_zero_iff.1 this).resolve_right (hd2 i hi j hj k hk l hl)
  · rintro ⟨z1, z2⟩
    have e1 : y1 = m.block (tens2 fun i a => t.a1 i.2 a.2) ['o', 'v'] := by
      refine NDArray.ext_get w1 (NDArray.ofFn_wf _ _) (s1.trans (NDArray.ofFn_shape _ _).symm) ?_
      intro idx hidx
      rw [s1] at hidx
      match idx, hidx with
      | [i, k], hidx =>
        obtain ⟨hi, hidx⟩ := List.forall₂_cons.1 hidx
        obtain ⟨hk, -⟩ := List.forall₂_cons.1 hidx
        have hi : i < m.occ.length := by simpa [ActiveMasks.size, ActiveMasks.cls] using hi
        have hk : k < m.vir.length := by simpa [ActiveMasks.size, ActiveMasks.cls] using hk
        rw [g1 i hi k hk, z1 i hi k hk, block1_get87 t m hi hk, zero_div, zero_add]
    have e2 : y2 = m.block (tens4 fun i j a b => t.a2 i.2 j.2 a.2 b.2) ['o', 'o', 'v', 'v'] := by
      refine NDArray.ext_get w2 (NDArray.ofFn_wf _ _) (s2.trans (NDArray.ofFn_shape _ _).symm) ?_
      intro idx hidx
      rw [s2] at hidx
      match idx, hidx with
      | [i, j, k, l], hidx =>
        obtain ⟨hi, hidx⟩ := List.forall₂_cons.1 hidx
        obtain ⟨hj, hidx⟩ := List.forall₂_cons.1 hidx
        obtain ⟨hk, hidx⟩ := List.forall₂_cons.1 hidx
        obtain ⟨hl, -⟩ := List.forall₂_cons.1 hidx
        have hi : i < m.occ.length := by simpa [ActiveMasks.size, ActiveMasks.cls] using hi
        have hj : j < m.occ.length := by simpa [ActiveMasks.size, ActiveMasks.cls] using hj
        have hk : k < m.vir.length := by simpa [ActiveMasks.size, ActiveMasks.cls] using hk
        have hl : l < m.vir.length := by simpa [ActiveMasks.size, ActiveMasks.cls] using hl
        rw [g2 i hi j hj k hk l hl, z2 i hi j hj k hk l hl, block2_get87 t m hi hj hk hl, zero_div, zero_add]
    rw [e1, e2]
    rfl

/-- Amplitudes with the assumptions of the theorems exist for all amplitudes and active spaces. -/
example (t : GAmps Rat) (t4 : List Nat → Rat) (m : ActiveMasks) : Given87 t t4 m
    [(chars! "t1", m.block (tens2 fun i a => t.a1 i.2 a.2) ['O', 'V']),
      (chars! "t3", m.amp t.list3 ['O', 'O', 'O', 'V', 'V', 'V']),
      (chars! "t4", m.amp t4 ['O', 'O', 'O', 'O', 'V', 'V', 'V', 'V'])] := by
  refine ⟨⟨_, rfl, NDArray.ofFn_wf _ _, NDArray.ofFn_shape _ _⟩, fun x hx => ?_, rfl, rfl, fun name hn => ?_⟩
  · exact absurd hx (by simp [Dict.get?])
  · rw [Dict.get?_eq_none_iff]
    intro hc
    have : name = chars! "t1" ∨ name = chars! "t3" ∨ name = chars! "t4" := by simpa [Dict.keys] using hc
    rcases this with rfl | rfl | rfl <;> revert hn <;> decide

/-- Three occupied and two virtual orbitals, the last two occupied and the first virtual orbital active: the classes of the
space, and energies. -/
example : ∃ s, Space.new [true, true, true, false, false] [false, false, false, false, false]
      [false, true, true, true, false] = .ok s ∧ (∀ p, inMask s.frozen p = false) ∧
    (spaceMasks87 s).occ = [false, true, true] ∧ (spaceMasks87 s).vir = [true, false] ∧
    ActiveEnergies87 (R := Rat) (spaceMasks87 s)
      (fun c => if c = 'o' then [-3, -2, -1] else if c = 'O' then [-2, -1] else if c = 'v' then [1, 2] else [1]) := by
  refine ⟨_, rfl, ?_, by decide, by decide, by unfold ActiveEnergies87; decide +kernel⟩
  intro p
  match p with
  | 0 | 1 | 2 | 3 | 4 => rfl
  | p + 5 => simp [inMask]

end
end Ebcc
