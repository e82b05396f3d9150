import Verif.Thms.C93
import Verif.Thms.C94
/-!
C95: solutions and energies do not depend on the choice of the orbitals within each space.
-/

namespace Ebcc

set_option maxRecDepth 100000
set_option linter.style.longLine false

section
variable {R : Type}

/-- The arguments that are used have axes of the given spaces. -/
def HasSpacesOn95 [CommRing R] (args : List (List Char)) (sz : Nat → Nat) (ty : List Char → Option (List Nat))
    (vals : List Char → Option (NDArray R)) : Prop :=
  ∀ name ∈ args, ∀ sp, ty name = some sp → ∃ a, vals name = some a ∧ a.shape = sp.map sz ∧ a.WF

/-- The results `res` are zero. -/
def AllZero95 [CommRing R] (res : Dict (List Char) (List Nat)) (r : Dict (List Char) (NDArray R)) : Prop :=
  ∀ name sp, res.get? name = some sp → ∃ a, r.get? name = some a ∧ ∀ idx, InBox a.shape idx → a.get idx = 0

end

/-- Amplitudes, or multipliers, solve the equations of `g`, that is, its results `res` are zero, if and only if the
rotated ones solve the equations for rotated orbitals; and then the number `n` of `e` is the same. -/
def SameSolutions95 (g e : GenFun) (ty : List Char → Option (List Nat)) (res : Dict (List Char) (List Nat))
    (n : List Char) : Prop :=
  ∀ (R : Type) [Field R] [DecidableEq R] (sz : Nat → Nat) (C : Nat → Nat → Nat → R) (_ : Orthogonal sz C)
    (method : ContractMethod)
    (path : List (List Char) → List Char → List (NDArray R) → List Contraction) (_ : PathOk path)
    (vals vals' : List Char → Option (NDArray R)) (_ : HasSpacesOn95 (g.args ++ e.args) sz ty vals)
    (_ : ∀ name ∈ g.args ++ e.args, vals' name = rotatedVals sz C ty vals name),
    ∃ r r' v v' a a', g.call method path sz vals = .ok r ∧ g.call method path sz vals' = .ok r' ∧
      (AllZero95 res r ↔ AllZero95 res r') ∧
      e.call method path sz vals = .ok v ∧ e.call method path sz vals' = .ok v' ∧
      v.get? n = some a ∧ v'.get? n = some a' ∧ a'.get [] = a.get []

section
variable {R : Type} [Field R] [DecidableEq R]

omit [Field R] [DecidableEq R] in
/-- A function depends on its arguments only. -/
theorem bind_congr95 (vals vals' : List Char → Option (NDArray R)) (args : List (List Char))
    (h : ∀ name ∈ args, vals' name = vals name) (k : Nat) (st : GenStore R) :
    bindPositional vals' args k st = bindPositional vals args k st := by
  induction args generalizing k st with
  | nil => rfl
  | cons n args ih =>
    simp only [bindPositional]
    rw [h n (List.mem_cons_self ..)]
    cases vals n with
    | none => rfl
    | some a => exact ih (fun m hm => h m (List.mem_cons_of_mem _ hm)) _ _

theorem call_congr95 (g : GenFun) (method : ContractMethod)
    (path : List (List Char) → List Char → List (NDArray R) → List Contraction) (sz : Nat → Nat)
    (vals vals' : List Char → Option (NDArray R)) (h : ∀ name ∈ g.args, vals' name = vals name) :
    g.call method path sz vals' = g.call method path sz vals := by
  unfold GenFun.call
  rw [bind_congr95 vals vals' g.args h]

omit [DecidableEq R] in
/-- Values for names that are not used. -/
theorem extend95 (args : List (List Char)) (sz : Nat → Nat) (C : Nat → Nat → Nat → R)
    (ty : List Char → Option (List Nat)) (vals : List Char → Option (NDArray R)) (h : HasSpacesOn95 args sz ty vals) :
    ∃ ext, HasSpaces sz ty ext ∧ (∀ name ∈ args, ext name = vals name) ∧
      ∀ name ∈ args, rotatedVals sz C ty ext name = rotatedVals sz C ty vals name := by
  classical
  refine ⟨fun name => if name ∈ args then vals name else (ty name).map fun sp => NDArray.ofFn (sp.map sz) fun _ => 0,
    fun name sp hsp => ?_, fun name hn => by simp only [if_pos hn], fun name hn => by simp only [rotatedVals, if_pos hn]⟩
  by_cases hn : name ∈ args
  · simp only [if_pos hn]
    exact h name hn sp hsp
  · simp only [if_neg hn, hsp]
    exact ⟨_, rfl, rfl, NDArray.ofFn_wf _ _⟩

omit [DecidableEq R] in
theorem rotSum_zero95 (sz : Nat → Nat) (C : Nat → Nat → Nat → R) (sp idx : List Nat) :
    rotSum sz C sp idx (fun _ => 0) = 0 := by
  induction sp generalizing idx with
  | nil => rfl
  | cons s sp ih => cases idx with
    | nil => rfl
    | cons i idx => simp [rotSum, ih]

omit [DecidableEq R] in
/-- An array is zero if and only if the rotated one is. -/
theorem zero_iff95 {sz : Nat → Nat} {C : Nat → Nat → Nat → R} (hC : Orthogonal sz C) (sp : List Nat) (a : NDArray R)
    (ha : a.shape = sp.map sz) :
    (∀ idx, InBox a.shape idx → a.get idx = 0) ↔
      ∀ idx, InBox (rotated sz C sp a).shape idx → (rotated sz C sp a).get idx = 0 := by
  have hg : ∀ idx, InBox (sp.map sz) idx → (rotated sz C sp a).get idx = rotSum sz C sp idx a.get := fun idx hidx =>
    NDArray.get_ofFn _ _ hidx
  constructor
  · intro h idx hidx
    replace hidx : InBox (sp.map sz) idx := hidx
    rw [hg idx hidx, rotSum_congr94 sz C sp idx (by simpa using InBox.length_eq hidx) (G := fun _ => 0)
      fun js hjs => h js (ha ▸ hjs), rotSum_zero95]
  · intro h idx hidx
    rw [ha] at hidx
    rw [← rotSum_back hC sp idx hidx a.get, rotSum_congr94 sz _ sp idx (by simpa using InBox.length_eq hidx) (G := fun _ => 0)
      fun js hjs => by rw [← hg js hjs]; exact h js hjs, rotSum_zero95]

end

theorem sameSolutions95 {g e : GenFun} {ty : List Char → Option (List Nat)} {res : Dict (List Char) (List Nat)}
    {n : List Char} (hg : RotCovariant g ty res) (he : ScalarInvariant e ty n) : SameSolutions95 g e ty res n := by
  intro R _ _ sz C hC method path hpath vals vals' hv hv'
  obtain ⟨ext, x1, x2, x3⟩ := extend95 _ sz C ty vals hv
  obtain ⟨r, r', g1, g2, g3⟩ := hg R sz C hC method path hpath ext x1
  obtain ⟨v, v', a, a', e1, e2, e3, e4, e5⟩ := he R sz C hC method path hpath ext x1
  have hl : ∀ name ∈ g.args, name ∈ g.args ++ e.args := fun _ h => List.mem_append_left _ h
  have hr : ∀ name ∈ e.args, name ∈ g.args ++ e.args := fun _ h => List.mem_append_right _ h
  refine ⟨r, r', v, v', a, a', ?_, ?_, ?_, ?_, ?_, e3, e4, e5⟩
  · rw [← g1]
    exact call_congr95 _ _ _ _ _ _ fun m hm => (x2 m (hl m hm)).symm
  · rw [← g2]
    exact call_congr95 _ _ _ _ _ _ fun m hm => (hv' m (hl m hm)).trans (x3 m (hl m hm)).symm
  · constructor
    · intro h name sp hsp
      obtain ⟨a, k1, k2, k3⟩ := g3 name sp hsp
      obtain ⟨b, l1, l2⟩ := h name sp hsp
      rw [k1] at l1
      cases l1
      exact ⟨_, k3, (zero_iff95 hC sp a k2).1 l2⟩
    · intro h name sp hsp
      obtain ⟨a, k1, k2, k3⟩ := g3 name sp hsp
      obtain ⟨b, l1, l2⟩ := h name sp hsp
      rw [k3] at l1
      cases l1
      exact ⟨_, k1, (zero_iff95 hC sp a k2).2 l2⟩
  · rw [← e1]
    exact call_congr95 _ _ _ _ _ _ fun m hm => (x2 m (hr m hm)).symm
  · rw [← e2]
    exact call_congr95 _ _ _ _ _ _ fun m hm => (hv' m (hr m hm)).trans (x3 m (hr m hm)).symm

section
variable {R : Type} [Field R] [DecidableEq R]

/-- The arguments of a restricted calculation with the coefficients `C`: blocks of the Fock matrix, of integrals and of
density fitted integrals as the containers return them, and further arguments, like amplitudes. -/
def orbVals95 (nao : Nat) (fock : NDArray R) (eri : Nat → Nat → Nat → Nat → R) (cderi : NDArray R) (s : Space) (C : NDArray R)
    (amps : List Char → Option (NDArray R)) : List Char → Option (NDArray R)
  | 'f' :: '.' :: key => (fockBlock fock [s, s] [C, C] key).toOption
  | 'v' :: '.' :: 'x' :: key => (cderiBlock (nrE2Packed nao cderi) [s, s] [C, C] false key).toOption
  | 'v' :: '.' :: key => (eriBlock (ao2mo94 nao eri) [s, s, s, s] [C, C, C, C] key).toOption
  | name => amps name

def isOV95 (c : Char) : Bool := c = 'o' || c = 'v'

/-- The names of integrals with occupied and virtual orbitals, or of other arguments. -/
def calcArg95 : List Char → Bool
  | ['f', '.', a, b] => isOV95 a && isOV95 b
  | ['v', '.', 'x', a, b] => isOV95 a && isOV95 b
  | ['v', '.', a, b, c, d] => isOV95 a && isOV95 b && isOV95 c && isOV95 d
  | 'f' :: '.' :: _ => false
  | 'v' :: '.' :: _ => false
  | _ => true

omit [DecidableEq R] in
theorem getCoeff_class95 {nao : Nat} {spaces : List Space} {coeffs : List (NDArray R)} {i : Nat} {k : Char} {s : Space}
    {U : Nat → Nat → R} {sz : Nat → Nat} {M : Nat → Nat → Nat → R} {n : Nat} {C : NDArray R} (hs : spaces[i]? = some s)
    (hC : coeffs[i]? = some C) (hf : Fits66 nao s C) (hk : IsClass94 s U sz M k n ∧ ∃ ab, s.slice k = .ok ab) :
    ∃ c, getCoeff spaces coeffs i k = .ok c := by
  obtain ⟨⟨hp, _⟩, hsl⟩ := hk
  unfold getCoeff
  rw [hC, hs]
  simp only [if_neg hp, bind, Except.bind]
  obtain ⟨ab, hab⟩ := hsl
  rw [hab]
  simp only
  rw [npSlices_full66 _ _ (by simp [hf.2])]
  exact ⟨_, rfl⟩

omit [DecidableEq R] in
theorem isClass95 {s : Space} {U : Nat → Nat → R} {sz : Nat → Nat} {M : Nat → Nat → Nat → R} 
    (ho : IsClass94 s U sz M 'o' 0 ∧ ∃ ab, s.slice 'o' = .ok ab)
    (hv : IsClass94 s U sz M 'v' 1 ∧ ∃ ab, s.slice 'v' = .ok ab) {c : Char} (hc : isOV95 c = true) :
    ∃ n, spaceOf c = some n ∧ IsClass94 s U sz M c n ∧ ∃ ab, s.slice c = .ok ab := by
  rcases Bool.or_eq_true _ _ ▸ hc with h | h
  · cases of_decide_eq_true h
    exact ⟨0, rfl, ho⟩
  · cases of_decide_eq_true h
    exact ⟨1, rfl, hv⟩

omit [DecidableEq R] in
/-- The arguments of a calculation with rotated orbitals are the rotated ones. -/
theorem orbVals_rotated95 (nao : Nat) (fock : NDArray R) (hF : fock.shape = [nao, nao]) (eri : Nat → Nat → Nat → Nat → R)
    (cderi : NDArray R) (s : Space) (U : Nat → Nat → R) (C C' : NDArray R) (hf : Fits66 nao s C) (hf' : Fits66 nao s C')
    (hr : RotatedCoeffs94 nao s.nmo U C C') (sz : Nat → Nat) (M : Nat → Nat → Nat → R)
    (ho : IsClass94 s U sz M 'o' 0 ∧ ∃ ab, s.slice 'o' = .ok ab)
    (hv : IsClass94 s U sz M 'v' 1 ∧ ∃ ab, s.slice 'v' = .ok ab) (hq : sz 3 = cderi.shape.getD 0 0)
    (hM : ∀ i < sz 3, ∀ j < sz 3, M 3 i j = if i = j then 1 else 0) (amps : List Char → Option (NDArray R))
    (name : List Char) (hn : calcArg95 name = true) :
    orbVals95 nao fock eri cderi s C' (rotatedVals sz M argSpaces amps) name
      = rotatedVals sz M argSpaces (orbVals95 nao fock eri cderi s C amps) name ∧
    ((∀ sp, argSpaces name = some sp → ∃ a, amps name = some a ∧ a.shape = sp.map sz ∧ a.WF) →
      ∀ sp, argSpaces name = some sp → ∃ a, orbVals95 nao fock eri cderi s C amps name = some a ∧ a.shape = sp.map sz ∧ a.WF) := by
  unfold calcArg95 at hn
  split at hn
  · rename_i a b
    simp only [Bool.and_eq_true] at hn
    obtain ⟨ha, hb⟩ := hn
    obtain ⟨na, a1, a2⟩ := isClass95 ho hv ha
    obtain ⟨nb, b1, b2⟩ := isClass95 ho hv hb
    have hsp : argSpaces ['f', '.', a, b] = some [na, nb] := by simp [argSpaces, spacesOf, a1, b1]
    obtain ⟨c0, k0⟩ := getCoeff_class95 (spaces := [s, s]) (coeffs := [C, C]) (i := 0) rfl rfl hf a2
    obtain ⟨c1, k1⟩ := getCoeff_class95 (spaces := [s, s]) (coeffs := [C, C]) (i := 1) rfl rfl hf b2
    have hx : ∃ x, fockBlock fock [s, s] [C, C] [a, b] = .ok x ∧ x.WF := by
      unfold fockBlock getCoeffs
      simp only [List.zipIdx_cons, List.zipIdx_nil, List.mapM_cons, List.mapM_nil, Nat.zero_add, Nat.add_zero, k0, k1]
      exact ⟨_, rfl, NDArray.ofFn_wf _ _⟩
    obtain ⟨x, hx, hw⟩ := hx
    obtain ⟨h1, h2⟩ := C94_fock nao fock hF s U C C' hf hf' hr sz M a b na nb a2.1 b2.1 x hx
    refine ⟨?_, fun _ sp hsp' => ?_⟩
    · simp only [orbVals95, rotatedVals, hsp, hx, h2, Except.toOption]
    · rw [hsp] at hsp'
      cases hsp'
      exact ⟨x, by simp only [orbVals95, hx, Except.toOption], h1, hw⟩
  · rename_i a b
    simp only [Bool.and_eq_true] at hn
    obtain ⟨ha, hb⟩ := hn
    obtain ⟨na, a1, a2⟩ := isClass95 ho hv ha
    obtain ⟨nb, b1, b2⟩ := isClass95 ho hv hb
    have hsp : argSpaces ['v', '.', 'x', a, b] = some [3, na, nb] := by
      simp [argSpaces, spacesOf, a1, b1, show spaceOf 'x' = some 3 from rfl]
    obtain ⟨c0, k0⟩ := getCoeff_class95 (spaces := [s, s]) (coeffs := [C, C]) (i := 0) rfl rfl hf a2
    obtain ⟨c1, k1⟩ := getCoeff_class95 (spaces := [s, s]) (coeffs := [C, C]) (i := 1) rfl rfl hf b2
    have hx : ∃ x, cderiBlock (nrE2Packed nao cderi) [s, s] [C, C] false [a, b] = .ok x ∧ x.WF := by
      unfold cderiBlock getCoeffs
      simp only [List.zipIdx_cons, List.zipIdx_nil, List.mapM_cons, List.mapM_nil, Nat.zero_add, Nat.add_zero,
        Bool.false_eq_true, if_false, k0, k1]
      exact ⟨_, rfl, NDArray.ofFn_wf _ _⟩
    obtain ⟨x, hx, hw⟩ := hx
    obtain ⟨h1, h2⟩ := C94_cderis nao _ cderi rfl s U C C' hf hf' hr sz M a b 3 na nb a2.1 b2.1 hq (hq ▸ hM) x hx
    refine ⟨?_, fun _ sp hsp' => ?_⟩
    · simp only [orbVals95, rotatedVals, hsp, hx, h2, Except.toOption]
    · rw [hsp] at hsp'
      cases hsp'
      exact ⟨x, by simp only [orbVals95, hx, Except.toOption], h1, hw⟩
  · rename_i a b c d
    simp only [Bool.and_eq_true] at hn
    obtain ⟨⟨⟨ha, hb⟩, hc⟩, hd⟩ := hn
    have hax : a ≠ 'x' := fun h => by subst h; cases ha
    obtain ⟨na, a1, a2⟩ := isClass95 ho hv ha
    obtain ⟨nb, b1, b2⟩ := isClass95 ho hv hb
    obtain ⟨nc, c1, c2⟩ := isClass95 ho hv hc
    obtain ⟨nd, d1, d2⟩ := isClass95 ho hv hd
    have hsp : argSpaces ['v', '.', a, b, c, d] = some [na, nb, nc, nd] := by simp [argSpaces, spacesOf, a1, b1, c1, d1]
    obtain ⟨x0, k0⟩ := getCoeff_class95 (spaces := [s, s, s, s]) (coeffs := [C, C, C, C]) (i := 0) rfl rfl hf a2
    obtain ⟨x1, k1⟩ := getCoeff_class95 (spaces := [s, s, s, s]) (coeffs := [C, C, C, C]) (i := 1) rfl rfl hf b2
    obtain ⟨x2, k2⟩ := getCoeff_class95 (spaces := [s, s, s, s]) (coeffs := [C, C, C, C]) (i := 2) rfl rfl hf c2
    obtain ⟨x3, k3⟩ := getCoeff_class95 (spaces := [s, s, s, s]) (coeffs := [C, C, C, C]) (i := 3) rfl rfl hf d2
    have hx : ∃ x, eriBlock (ao2mo94 nao eri) [s, s, s, s] [C, C, C, C] [a, b, c, d] = .ok x ∧ x.WF := by
      unfold eriBlock getCoeffs
      simp only [List.zipIdx_cons, List.zipIdx_nil, List.mapM_cons, List.mapM_nil, Nat.zero_add, Nat.add_zero,
        Nat.reduceAdd, k0, k1, k2, k3]
      exact ⟨_, rfl, NDArray.ofFn_wf _ _⟩
    obtain ⟨x, hx, hw⟩ := hx
    obtain ⟨h1, h2⟩ := C94_eris nao eri s s U U C C' C C' hf hf' hr hf hf' hr sz M a b c d na nb nc nd a2.1 b2.1 c2.1 d2.1 x hx
    have ev : ∀ (D : NDArray R) (am : List Char → Option (NDArray R)), orbVals95 nao fock eri cderi s D am ['v', '.', a, b, c, d]
        = (eriBlock (ao2mo94 nao eri) [s, s, s, s] [D, D, D, D] [a, b, c, d]).toOption := by
      intro D am
      unfold orbVals95
      split
      · rename_i h; cases h
      · rename_i h; cases h; exact absurd rfl hax
      · rename_i h; cases h; rfl
      · rename_i h; exact absurd rfl (h _)
    refine ⟨?_, fun _ sp hsp' => ?_⟩
    · simp only [rotatedVals, ev, hsp, hx, h2, Except.toOption]
    · rw [hsp] at hsp'
      cases hsp'
      exact ⟨x, by simp only [ev, hx, Except.toOption], h1, hw⟩
  · cases hn
  · cases hn
  · rename_i h1 h2
    have ev : ∀ (D : NDArray R) (am : List Char → Option (NDArray R)), orbVals95 nao fock eri cderi s D am name = am name := by
      intro D am
      unfold orbVals95
      split
      · exact absurd rfl (h1 _)
      · exact absurd rfl (h2 _)
      · exact absurd rfl (h2 _)
      · rfl
    simp only [rotatedVals, ev]
    exact ⟨trivial, fun h => h⟩

end

/-- C95, restricted calculations from the integrals over atomic orbitals: let `C'` be the coefficients of orbitals rotated
among the correlated occupied ones and among the correlated virtual ones.  Then amplitudes (or multipliers) solve the equations
of `g` with the integrals of `C` if and only if the rotated ones solve them with the integrals of `C'`, and the number `n` of `e`,
the energy, is the same. -/
def OrbitalFree95 (g e : GenFun) (res : Dict (List Char) (List Nat)) (n : List Char) : Prop :=
  ∀ (R : Type) [Field R] [DecidableEq R] (nao : Nat) (fock : NDArray R) (_ : fock.shape = [nao, nao])
    (eri : Nat → Nat → Nat → Nat → R) (cderi : NDArray R) (s : Space) (U : Nat → Nat → R) (C C' : NDArray R)
    (_ : Fits66 nao s C) (_ : Fits66 nao s C') (_ : RotatedCoeffs94 nao s.nmo U C C') (sz : Nat → Nat)
    (M : Nat → Nat → Nat → R) (_ : Orthogonal sz M) (_ : IsClass94 s U sz M 'o' 0 ∧ ∃ ab, s.slice 'o' = .ok ab)
    (_ : IsClass94 s U sz M 'v' 1 ∧ ∃ ab, s.slice 'v' = .ok ab) (_ : sz 3 = cderi.shape.getD 0 0)
    (_ : ∀ i < sz 3, ∀ j < sz 3, M 3 i j = if i = j then 1 else 0)
    (method : ContractMethod)
    (path : List (List Char) → List Char → List (NDArray R) → List Contraction) (_ : PathOk path)
    (amps : List Char → Option (NDArray R)) (_ : HasSpaces sz argSpaces amps),
    ∃ r r' v v' a a', g.call method path sz (orbVals95 nao fock eri cderi s C amps) = .ok r ∧
      g.call method path sz (orbVals95 nao fock eri cderi s C' (rotatedVals sz M argSpaces amps)) = .ok r' ∧
      (AllZero95 res r ↔ AllZero95 res r') ∧
      e.call method path sz (orbVals95 nao fock eri cderi s C amps) = .ok v ∧
      e.call method path sz (orbVals95 nao fock eri cderi s C' (rotatedVals sz M argSpaces amps)) = .ok v' ∧
      v.get? n = some a ∧ v'.get? n = some a' ∧ a'.get [] = a.get []

theorem orbitalFree95 {g e : GenFun} {res : Dict (List Char) (List Nat)} {n : List Char}
    (h : SameSolutions95 g e argSpaces res n) (hn : (g.args ++ e.args).all calcArg95 = true) : OrbitalFree95 g e res n := by
  intro R _ _ nao fock hF eri cderi s U C C' hf hf' hr sz M hM ho hv hq h3 method path hp amps ha
  have key := fun name hm => orbVals_rotated95 nao fock hF eri cderi s U C C' hf hf' hr sz M ho hv hq h3 amps name
    (List.all_eq_true.1 hn name hm)
  exact h R sz M hM method path hp _ _ (fun name hm => (key name hm).2 (ha name)) fun name hm => (key name hm).1

section
variable {R : Type} [Field R] [DecidableEq R]

/-- The arguments of a general calculation with the coefficients `C`, with integrals `array` computed from them. -/
def gOrbVals95 (fock array : NDArray R) (s : Space) (C : NDArray R) (amps : List Char → Option (NDArray R)) :
    List Char → Option (NDArray R)
  | 'f' :: '.' :: key => (fockBlock fock [s, s] [C, C] key).toOption
  | 'v' :: '.' :: key => (geriRead array [s, s, s, s] key).toOption
  | name => amps name

/-- Names that are not those of density fitted integrals. -/
def gCalcArg95 : List Char → Bool
  | ['f', '.', a, b] => isOV95 a && isOV95 b
  | ['v', '.', a, b, c, d] => isOV95 a && isOV95 b && isOV95 c && isOV95 d
  | 'f' :: '.' :: _ => false
  | 'v' :: '.' :: _ => false
  | _ => true

omit [DecidableEq R] in
theorem gOrbVals_rotated95 (nao : Nat) (fock : NDArray R) (hF : fock.shape = [2 * nao, 2 * nao])
    (eri : Nat → Nat → Nat → Nat → R) (s : Space) (U : Nat → Nat → R) (C C' array array' : NDArray R)
    (hf : Fits66 (2 * nao) s C) (hf' : Fits66 (2 * nao) s C')
    (hr : RotatedCoeffs94 (2 * nao) s.nmo U C C') (hg : geriArray nao eri [C, C, C, C] = .ok array)
    (hg' : geriArray nao eri [C', C', C', C'] = .ok array') (sz : Nat → Nat) (M : Nat → Nat → Nat → R)
    (ho : IsClass94 s U sz M 'o' 0 ∧ ∃ ab, s.slice 'o' = .ok ab)
    (hv : IsClass94 s U sz M 'v' 1 ∧ ∃ ab, s.slice 'v' = .ok ab) (amps : List Char → Option (NDArray R))
    (name : List Char) (hn : gCalcArg95 name = true) :
    gOrbVals95 fock array' s C' (rotatedVals sz M argSpaces amps) name
      = rotatedVals sz M argSpaces (gOrbVals95 fock array s C amps) name ∧
    ((∀ sp, argSpaces name = some sp → ∃ a, amps name = some a ∧ a.shape = sp.map sz ∧ a.WF) →
      ∀ sp, argSpaces name = some sp → ∃ a, gOrbVals95 fock array s C amps name = some a ∧ a.shape = sp.map sz ∧ a.WF) := by
  unfold gCalcArg95 at hn
  split at hn
  · rename_i a b
    simp only [Bool.and_eq_true] at hn
    obtain ⟨ha, hb⟩ := hn
    obtain ⟨na, a1, a2⟩ := isClass95 ho hv ha
    obtain ⟨nb, b1, b2⟩ := isClass95 ho hv hb
    have hsp : argSpaces ['f', '.', a, b] = some [na, nb] := by simp [argSpaces, spacesOf, a1, b1]
    obtain ⟨c0, k0⟩ := getCoeff_class95 (spaces := [s, s]) (coeffs := [C, C]) (i := 0) rfl rfl hf a2
    obtain ⟨c1, k1⟩ := getCoeff_class95 (spaces := [s, s]) (coeffs := [C, C]) (i := 1) rfl rfl hf b2
    have hx : ∃ x, fockBlock fock [s, s] [C, C] [a, b] = .ok x ∧ x.WF := by
      unfold fockBlock getCoeffs
      simp only [List.zipIdx_cons, List.zipIdx_nil, List.mapM_cons, List.mapM_nil, Nat.zero_add, Nat.add_zero, k0, k1]
      exact ⟨_, rfl, NDArray.ofFn_wf _ _⟩
    obtain ⟨x, hx, hw⟩ := hx
    obtain ⟨h1, h2⟩ := C94_fock (2 * nao) fock hF s U C C' hf hf' hr sz M a b na nb a2.1 b2.1 x hx
    refine ⟨?_, fun _ sp hsp' => ?_⟩
    · simp only [gOrbVals95, rotatedVals, hsp, hx, h2, Except.toOption]
    · rw [hsp] at hsp'
      cases hsp'
      exact ⟨x, by simp only [gOrbVals95, hx, Except.toOption], h1, hw⟩
  · rename_i a b c d
    simp only [Bool.and_eq_true] at hn
    obtain ⟨⟨⟨ha, hb⟩, hc⟩, hd⟩ := hn
    obtain ⟨na, a1, a2, sa, a3⟩ := isClass95 ho hv ha
    obtain ⟨nb, b1, b2, sb, b3⟩ := isClass95 ho hv hb
    obtain ⟨nc, c1, c2, sc, c3⟩ := isClass95 ho hv hc
    obtain ⟨nd, d1, d2, sd, d3⟩ := isClass95 ho hv hd
    have hsp : argSpaces ['v', '.', a, b, c, d] = some [na, nb, nc, nd] := by simp [argSpaces, spacesOf, a1, b1, c1, d1]
    have hsh : array.shape.length = 4 := by
      unfold geriArray at hg
      simp only at hg
      split at hg
      · cases hg
        rfl
      · cases hg
    have hx : ∃ x, geriRead array [s, s, s, s] [a, b, c, d] = .ok x ∧ x.WF := by
      unfold geriRead getSlices
      rw [if_neg (by
        intro h
        simp only [List.mem_cons, List.not_mem_nil, or_false] at h
        rcases h with h | h | h | h
        · exact a2.1 h.symm
        · exact b2.1 h.symm
        · exact c2.1 h.symm
        · exact d2.1 h.symm)]
      simp only [List.zip_cons_cons, List.zip_nil_right, List.mapM_cons, List.mapM_nil, a3, b3, c3, d3, bind, Except.bind, pure, Except.pure]
      rw [npSlices_full66 _ _ (by simp [hsh])]
      exact ⟨_, rfl, NDArray.ofFn_wf _ _⟩
    obtain ⟨x, hx, hw⟩ := hx
    obtain ⟨h1, h2⟩ := C94_eris_general nao eri s U C C' array array' hf hf' hr hg hg' sz M a b c d na nb nc nd a2 b2 c2 d2 x hx
    refine ⟨?_, fun _ sp hsp' => ?_⟩
    · simp only [gOrbVals95, rotatedVals, hsp, hx, h2, Except.toOption]
    · rw [hsp] at hsp'
      cases hsp'
      exact ⟨x, by simp only [gOrbVals95, hx, Except.toOption], h1, hw⟩
  · cases hn
  · cases hn
  · rename_i h1 h2
    have ev : ∀ (D E : NDArray R) (am : List Char → Option (NDArray R)), gOrbVals95 fock E s D am name = am name := by
      intro D E am
      unfold gOrbVals95
      split
      · exact absurd rfl (h1 _)
      · exact absurd rfl (h2 _)
      · rfl
    simp only [rotatedVals, ev]
    exact ⟨trivial, fun h => h⟩

end

/-- C95, general calculations from the integrals over atomic orbitals, as `OrbitalFree95`; the rotations may mix spins. -/
def GOrbitalFree95 (g e : GenFun) (res : Dict (List Char) (List Nat)) (n : List Char) : Prop :=
  ∀ (R : Type) [Field R] [DecidableEq R] (nao : Nat) (fock : NDArray R) (_ : fock.shape = [2 * nao, 2 * nao])
    (eri : Nat → Nat → Nat → Nat → R) (s : Space) (U : Nat → Nat → R) (C C' array array' : NDArray R)
    (_ : Fits66 (2 * nao) s C) (_ : Fits66 (2 * nao) s C') (_ : RotatedCoeffs94 (2 * nao) s.nmo U C C')
    (_ : geriArray nao eri [C, C, C, C] = .ok array) (_ : geriArray nao eri [C', C', C', C'] = .ok array') (sz : Nat → Nat)
    (M : Nat → Nat → Nat → R) (_ : Orthogonal sz M) (_ : IsClass94 s U sz M 'o' 0 ∧ ∃ ab, s.slice 'o' = .ok ab)
    (_ : IsClass94 s U sz M 'v' 1 ∧ ∃ ab, s.slice 'v' = .ok ab)
    (method : ContractMethod)
    (path : List (List Char) → List Char → List (NDArray R) → List Contraction) (_ : PathOk path)
    (amps : List Char → Option (NDArray R)) (_ : HasSpaces sz argSpaces amps),
    ∃ r r' v v' a a', g.call method path sz (gOrbVals95 fock array s C amps) = .ok r ∧
      g.call method path sz (gOrbVals95 fock array' s C' (rotatedVals sz M argSpaces amps)) = .ok r' ∧
      (AllZero95 res r ↔ AllZero95 res r') ∧
      e.call method path sz (gOrbVals95 fock array s C amps) = .ok v ∧
      e.call method path sz (gOrbVals95 fock array' s C' (rotatedVals sz M argSpaces amps)) = .ok v' ∧
      v.get? n = some a ∧ v'.get? n = some a' ∧ a'.get [] = a.get []

theorem gOrbitalFree95 {g e : GenFun} {res : Dict (List Char) (List Nat)} {n : List Char}
    (h : SameSolutions95 g e argSpaces res n) (hn : (g.args ++ e.args).all gCalcArg95 = true) : GOrbitalFree95 g e res n := by
  intro R _ _ nao fock hF eri s U C C' array array' hf hf' hr hg hg' sz M hM ho hv method path hp amps ha
  have key := fun name hm => gOrbVals_rotated95 nao fock hF eri s U C C' array array' hf hf' hr hg hg' sz M ho hv amps name
    (List.all_eq_true.1 hn name hm)
  exact h R sz M hM method path hp _ _ (fun name hm => (key name hm).2 (ha name)) fun name hm => (key name hm).1

section
variable {R : Type} [Field R] [DecidableEq R]

/-- One of a pair by the character of a spin. -/
def pick95 {X : Type} (p : X × X) (c : Char) : X := if c = 'b' then p.2 else p.1

/-- The arguments of an unrestricted calculation with the coefficients `C` of the spins. -/
def uOrbVals95 (nao : Nat) (fock : NDArray R × NDArray R) (eri : Nat → Nat → Nat → Nat → R) (s : Space × Space)
    (C : NDArray R × NDArray R) (amps : List Char → Option (NDArray R)) : List Char → Option (NDArray R)
  | ['f', '.', a, _, '.', p, q] =>
    (fockBlock (pick95 fock a) [pick95 s a, pick95 s a] [pick95 C a, pick95 C a] [p, q]).toOption
  | ['v', '.', a, _, c, _, '.', p, q, r, t] =>
    (eriBlock (ao2mo94 nao eri) [pick95 s a, pick95 s a, pick95 s c, pick95 s c]
      [pick95 C a, pick95 C a, pick95 C c, pick95 C c] [p, q, r, t]).toOption
  | name => amps name

/-- The names of integrals with the same spin for the orbitals of an electron, or of other arguments. -/
def uCalcArg95 : List Char → Bool
  | ['f', '.', a, b, '.', p, q] => a = b && isOV95 p && isOV95 q
  | ['v', '.', a, b, c, d, '.', p, q, r, t] => a = b && c = d && isOV95 p && isOV95 q && isOV95 r && isOV95 t
  | 'f' :: '.' :: _ => false
  | 'v' :: '.' :: _ => false
  | _ => true

/-- The rotations of the orbitals of both spins; the codes of beta orbitals are four further. -/
def SpinClasses95 (s : Space × Space) (U : (Nat → Nat → R) × (Nat → Nat → R)) (sz : Nat → Nat) (M : Nat → Nat → Nat → R) : Prop :=
  ∀ σ : Char, ∀ k n, (k, n) = ('o', 0) ∨ (k, n) = ('v', 1) →
    IsClass94 (pick95 s σ) (pick95 U σ) sz M k (rotSpinSpace σ n) ∧ ∃ ab, (pick95 s σ).slice k = .ok ab

omit [DecidableEq R] in
theorem spinClass95 {s : Space × Space} {U : (Nat → Nat → R) × (Nat → Nat → R)} {sz : Nat → Nat} {M : Nat → Nat → Nat → R}
    (h : SpinClasses95 s U sz M) (σ : Char) {c : Char} (hc : isOV95 c = true) :
    ∃ n, spaceOf c = some n ∧ IsClass94 (pick95 s σ) (pick95 U σ) sz M c (rotSpinSpace σ n) ∧
      ∃ ab, (pick95 s σ).slice c = .ok ab := by
  rcases Bool.or_eq_true _ _ ▸ hc with h' | h'
  · cases of_decide_eq_true h'
    exact ⟨0, rfl, h σ 'o' 0 (.inl rfl)⟩
  · cases of_decide_eq_true h'
    exact ⟨1, rfl, h σ 'v' 1 (.inr rfl)⟩

omit [DecidableEq R] in
theorem uOrbVals_rotated95 (nao : Nat) (fock : NDArray R × NDArray R) (hF : ∀ σ, (pick95 fock σ).shape = [nao, nao])
    (eri : Nat → Nat → Nat → Nat → R) (s : Space × Space) (U : (Nat → Nat → R) × (Nat → Nat → R)) (C C' : NDArray R × NDArray R)
    (hf : ∀ σ, Fits66 nao (pick95 s σ) (pick95 C σ)) (hf' : ∀ σ, Fits66 nao (pick95 s σ) (pick95 C' σ))
    (hr : ∀ σ, RotatedCoeffs94 nao (pick95 s σ).nmo (pick95 U σ) (pick95 C σ) (pick95 C' σ)) (sz : Nat → Nat)
    (M : Nat → Nat → Nat → R) (hM : SpinClasses95 s U sz M) (amps : List Char → Option (NDArray R))
    (name : List Char) (hn : uCalcArg95 name = true) :
    uOrbVals95 nao fock eri s C' (rotatedVals sz M uArgSpaces amps) name
      = rotatedVals sz M uArgSpaces (uOrbVals95 nao fock eri s C amps) name ∧
    ((∀ sp, uArgSpaces name = some sp → ∃ a, amps name = some a ∧ a.shape = sp.map sz ∧ a.WF) →
      ∀ sp, uArgSpaces name = some sp → ∃ a, uOrbVals95 nao fock eri s C amps name = some a ∧ a.shape = sp.map sz ∧ a.WF) := by
  unfold uCalcArg95 at hn
  split at hn
  · rename_i σ σ' a b
    simp only [Bool.and_eq_true, decide_eq_true_eq] at hn
    obtain ⟨⟨rfl, ha⟩, hb⟩ := hn
    obtain ⟨na, a1, a2⟩ := spinClass95 hM σ ha
    obtain ⟨nb, b1, b2⟩ := spinClass95 hM σ hb
    have hsp : uArgSpaces ['f', '.', σ, σ, '.', a, b] = some [rotSpinSpace σ na, rotSpinSpace σ nb] := by
      simp [uArgSpaces, rotSpinSpaces, a1, b1]
    obtain ⟨c0, k0⟩ := getCoeff_class95 (spaces := [pick95 s σ, pick95 s σ]) (coeffs := [pick95 C σ, pick95 C σ]) (i := 0) rfl rfl (hf σ) a2
    obtain ⟨c1, k1⟩ := getCoeff_class95 (spaces := [pick95 s σ, pick95 s σ]) (coeffs := [pick95 C σ, pick95 C σ]) (i := 1) rfl rfl (hf σ) b2
    have hx : ∃ x, fockBlock (pick95 fock σ) [pick95 s σ, pick95 s σ] [pick95 C σ, pick95 C σ] [a, b] = .ok x ∧ x.WF := by
      unfold fockBlock getCoeffs
      simp only [List.zipIdx_cons, List.zipIdx_nil, List.mapM_cons, List.mapM_nil, Nat.zero_add, Nat.add_zero, k0, k1]
      exact ⟨_, rfl, NDArray.ofFn_wf _ _⟩
    obtain ⟨x, hx, hw⟩ := hx
    obtain ⟨h1, h2⟩ := C94_fock nao _ (hF σ) _ _ _ _ (hf σ) (hf' σ) (hr σ) sz M a b _ _ a2.1 b2.1 x hx
    refine ⟨?_, fun _ sp hsp' => ?_⟩
    · simp only [uOrbVals95, rotatedVals, hsp, hx, h2, Except.toOption]
    · rw [hsp] at hsp'
      cases hsp'
      exact ⟨x, by simp only [uOrbVals95, hx, Except.toOption], h1, hw⟩
  · rename_i σ σ' τ τ' a b c d
    simp only [Bool.and_eq_true, decide_eq_true_eq] at hn
    obtain ⟨⟨⟨⟨⟨rfl, rfl⟩, ha⟩, hb⟩, hc⟩, hd⟩ := hn
    obtain ⟨na, a1, a2⟩ := spinClass95 hM σ ha
    obtain ⟨nb, b1, b2⟩ := spinClass95 hM σ hb
    obtain ⟨nc, c1, c2⟩ := spinClass95 hM τ hc
    obtain ⟨nd, d1, d2⟩ := spinClass95 hM τ hd
    have hsp : uArgSpaces ['v', '.', σ, σ, τ, τ, '.', a, b, c, d] =
        some [rotSpinSpace σ na, rotSpinSpace σ nb, rotSpinSpace τ nc, rotSpinSpace τ nd] := by
      simp [uArgSpaces, rotSpinSpaces, a1, b1, c1, d1]
    obtain ⟨x0, k0⟩ := getCoeff_class95 (spaces := [pick95 s σ, pick95 s σ, pick95 s τ, pick95 s τ])
      (coeffs := [pick95 C σ, pick95 C σ, pick95 C τ, pick95 C τ]) (i := 0) rfl rfl (hf σ) a2
    obtain ⟨x1, k1⟩ := getCoeff_class95 (spaces := [pick95 s σ, pick95 s σ, pick95 s τ, pick95 s τ])
      (coeffs := [pick95 C σ, pick95 C σ, pick95 C τ, pick95 C τ]) (i := 1) rfl rfl (hf σ) b2
    obtain ⟨x2, k2⟩ := getCoeff_class95 (spaces := [pick95 s σ, pick95 s σ, pick95 s τ, pick95 s τ])
      (coeffs := [pick95 C σ, pick95 C σ, pick95 C τ, pick95 C τ]) (i := 2) rfl rfl (hf τ) c2
    obtain ⟨x3, k3⟩ := getCoeff_class95 (spaces := [pick95 s σ, pick95 s σ, pick95 s τ, pick95 s τ])
      (coeffs := [pick95 C σ, pick95 C σ, pick95 C τ, pick95 C τ]) (i := 3) rfl rfl (hf τ) d2
    have hx : ∃ x, eriBlock (ao2mo94 nao eri) [pick95 s σ, pick95 s σ, pick95 s τ, pick95 s τ]
        [pick95 C σ, pick95 C σ, pick95 C τ, pick95 C τ] [a, b, c, d] = .ok x ∧ x.WF := by
      unfold eriBlock getCoeffs
      simp only [List.zipIdx_cons, List.zipIdx_nil, List.mapM_cons, List.mapM_nil, Nat.zero_add, Nat.add_zero,
        Nat.reduceAdd, k0, k1, k2, k3]
      exact ⟨_, rfl, NDArray.ofFn_wf _ _⟩
    obtain ⟨x, hx, hw⟩ := hx
    obtain ⟨h1, h2⟩ := C94_eris nao eri _ _ _ _ _ _ _ _ (hf σ) (hf' σ) (hr σ) (hf τ) (hf' τ) (hr τ) sz M a b c d _ _ _ _
      a2.1 b2.1 c2.1 d2.1 x hx
    refine ⟨?_, fun _ sp hsp' => ?_⟩
    · simp only [uOrbVals95, rotatedVals, hsp, hx, h2, Except.toOption]
    · rw [hsp] at hsp'
      cases hsp'
      exact ⟨x, by simp only [uOrbVals95, hx, Except.toOption], h1, hw⟩
  · cases hn
  · cases hn
  · rename_i h1 h2
    have ev : ∀ (D : NDArray R × NDArray R) (am : List Char → Option (NDArray R)),
        uOrbVals95 nao fock eri s D am name = am name := by
      intro D am
      unfold uOrbVals95
      split
      · exact absurd rfl (h1 _)
      · exact absurd rfl (h2 _)
      · rfl
    simp only [rotatedVals, ev]
    exact ⟨trivial, fun h => h⟩

end

/-- C95, unrestricted calculations from the integrals over atomic orbitals, as `OrbitalFree95`; the orbitals of each spin are
rotated by themselves. -/
def UOrbitalFree95 (g e : GenFun) (res : Dict (List Char) (List Nat)) (n : List Char) : Prop :=
  ∀ (R : Type) [Field R] [DecidableEq R] (nao : Nat) (fock : NDArray R × NDArray R) (_ : ∀ σ, (pick95 fock σ).shape = [nao, nao])
    (eri : Nat → Nat → Nat → Nat → R) (s : Space × Space) (U : (Nat → Nat → R) × (Nat → Nat → R)) (C C' : NDArray R × NDArray R)
    (_ : ∀ σ, Fits66 nao (pick95 s σ) (pick95 C σ)) (_ : ∀ σ, Fits66 nao (pick95 s σ) (pick95 C' σ))
    (_ : ∀ σ, RotatedCoeffs94 nao (pick95 s σ).nmo (pick95 U σ) (pick95 C σ) (pick95 C' σ)) (sz : Nat → Nat)
    (M : Nat → Nat → Nat → R) (_ : Orthogonal sz M) (_ : SpinClasses95 s U sz M)
    (method : ContractMethod)
    (path : List (List Char) → List Char → List (NDArray R) → List Contraction) (_ : PathOk path)
    (amps : List Char → Option (NDArray R)) (_ : HasSpaces sz uArgSpaces amps),
    ∃ r r' v v' a a', g.call method path sz (uOrbVals95 nao fock eri s C amps) = .ok r ∧
      g.call method path sz (uOrbVals95 nao fock eri s C' (rotatedVals sz M uArgSpaces amps)) = .ok r' ∧
      (AllZero95 res r ↔ AllZero95 res r') ∧
      e.call method path sz (uOrbVals95 nao fock eri s C amps) = .ok v ∧
      e.call method path sz (uOrbVals95 nao fock eri s C' (rotatedVals sz M uArgSpaces amps)) = .ok v' ∧
      v.get? n = some a ∧ v'.get? n = some a' ∧ a'.get [] = a.get []

theorem uOrbitalFree95 {g e : GenFun} {res : Dict (List Char) (List Nat)} {n : List Char}
    (h : SameSolutions95 g e uArgSpaces res n) (hn : (g.args ++ e.args).all uCalcArg95 = true) : UOrbitalFree95 g e res n := by
  intro R _ _ nao fock hF eri s U C C' hf hf' hr sz M hM ho method path hp amps ha
  have key := fun name hm => uOrbVals_rotated95 nao fock hF eri s U C C' hf hf' hr sz M ho amps name
    (List.all_eq_true.1 hn name hm)
  exact h R sz M hM method path hp _ _ (fun name hm => (key name hm).2 (ha name)) fun name hm => (key name hm).1

/-- C95, amplitudes. -/
theorem C95_amps :
    SameSolutions95 Gen.GCC2.update_amps Gen.GCC2.energy argSpaces [(chars! "t1new", [0, 1]), (chars! "t2new", [0, 0, 1, 1])] (chars! "e_cc") ∧
    SameSolutions95 Gen.GCCD.update_amps Gen.GCCD.energy argSpaces [(chars! "t2new", [0, 0, 1, 1])] (chars! "e_cc") ∧
    SameSolutions95 Gen.GCCSD.update_amps Gen.GCCSD.energy argSpaces [(chars! "t1new", [0, 1]), (chars! "t2new", [0, 0, 1, 1])] (chars! "e_cc") ∧
    SameSolutions95 Gen.GCCSDT.update_amps Gen.GCCSDT.energy argSpaces [(chars! "t1new", [0, 1]), (chars! "t2new", [0, 0, 1, 1]), (chars! "t3new", [0, 0, 0, 1, 1, 1])] (chars! "e_cc") ∧
    SameSolutions95 Gen.GCCSD_SD_1_1.update_amps Gen.GCCSD_SD_1_1.energy argSpaces [(chars! "t1new", [0, 1]), (chars! "t2new", [0, 0, 1, 1]), (chars! "s1new", [2]), (chars! "s2new", [2, 2]), (chars! "u11new", [2, 0, 1])] (chars! "e_cc") ∧
    SameSolutions95 Gen.GCCSD_SD_1_2.update_amps Gen.GCCSD_SD_1_2.energy argSpaces [(chars! "t1new", [0, 1]), (chars! "t2new", [0, 0, 1, 1]), (chars! "s1new", [2]), (chars! "s2new", [2, 2]), (chars! "u11new", [2, 0, 1]), (chars! "u12new", [2, 2, 0, 1])] (chars! "e_cc") ∧
    SameSolutions95 Gen.GCCSD_S_1_1.update_amps Gen.GCCSD_S_1_1.energy argSpaces [(chars! "t1new", [0, 1]), (chars! "t2new", [0, 0, 1, 1]), (chars! "s1new", [2]), (chars! "u11new", [2, 0, 1])] (chars! "e_cc") ∧
    SameSolutions95 Gen.GLCCD.update_amps Gen.GLCCD.energy argSpaces [(chars! "t2new", [0, 0, 1, 1])] (chars! "e_cc") ∧
    SameSolutions95 Gen.GLCCSD.update_amps Gen.GLCCSD.energy argSpaces [(chars! "t1new", [0, 1]), (chars! "t2new", [0, 0, 1, 1])] (chars! "e_cc") ∧
    SameSolutions95 Gen.GQCISD.update_amps Gen.GQCISD.energy argSpaces [(chars! "t1new", [0, 1]), (chars! "t2new", [0, 0, 1, 1])] (chars! "e_cc") ∧
    SameSolutions95 Gen.RCC2.update_amps Gen.RCC2.energy argSpaces [(chars! "t1new", [0, 1]), (chars! "t2new", [0, 0, 1, 1])] (chars! "e_cc") ∧
    SameSolutions95 Gen.RCCD.update_amps Gen.RCCD.energy argSpaces [(chars! "t2new", [0, 0, 1, 1])] (chars! "e_cc") ∧
    SameSolutions95 Gen.RCCSD.update_amps Gen.RCCSD.energy argSpaces [(chars! "t1new", [0, 1]), (chars! "t2new", [0, 0, 1, 1])] (chars! "e_cc") ∧
    SameSolutions95 Gen.RCCSD_SD_1_1.update_amps Gen.RCCSD_SD_1_1.energy argSpaces [(chars! "t1new", [0, 1]), (chars! "t2new", [0, 0, 1, 1]), (chars! "s1new", [2]), (chars! "s2new", [2, 2]), (chars! "u11new", [2, 0, 1])] (chars! "e_cc") ∧
    SameSolutions95 Gen.RCCSD_SD_1_2.update_amps Gen.RCCSD_SD_1_2.energy argSpaces [(chars! "t1new", [0, 1]), (chars! "t2new", [0, 0, 1, 1]), (chars! "s1new", [2]), (chars! "s2new", [2, 2]), (chars! "u11new", [2, 0, 1]), (chars! "u12new", [2, 2, 0, 1])] (chars! "e_cc") ∧
    SameSolutions95 Gen.RCCSD_S_1_1.update_amps Gen.RCCSD_S_1_1.energy argSpaces [(chars! "t1new", [0, 1]), (chars! "t2new", [0, 0, 1, 1]), (chars! "s1new", [2]), (chars! "u11new", [2, 0, 1])] (chars! "e_cc") ∧
    SameSolutions95 Gen.RDCD.update_amps Gen.RDCD.energy argSpaces [(chars! "t2new", [0, 0, 1, 1])] (chars! "e_cc") ∧
    SameSolutions95 Gen.RDCSD.update_amps Gen.RDCSD.energy argSpaces [(chars! "t1new", [0, 1]), (chars! "t2new", [0, 0, 1, 1])] (chars! "e_cc") ∧
    SameSolutions95 Gen.RDFCC2.update_amps Gen.RDFCC2.energy argSpaces [(chars! "t1new", [0, 1]), (chars! "t2new", [0, 0, 1, 1])] (chars! "e_cc") ∧
    SameSolutions95 Gen.RDFCCD.update_amps Gen.RDFCCD.energy argSpaces [(chars! "t2new", [0, 0, 1, 1])] (chars! "e_cc") ∧
    SameSolutions95 Gen.RDFCCSD.update_amps Gen.RDFCCSD.energy argSpaces [(chars! "t1new", [0, 1]), (chars! "t2new", [0, 0, 1, 1])] (chars! "e_cc") ∧
    SameSolutions95 Gen.RDFDCD.update_amps Gen.RDFDCD.energy argSpaces [(chars! "t2new", [0, 0, 1, 1])] (chars! "e_cc") ∧
    SameSolutions95 Gen.RDFDCSD.update_amps Gen.RDFDCSD.energy argSpaces [(chars! "t1new", [0, 1]), (chars! "t2new", [0, 0, 1, 1])] (chars! "e_cc") ∧
    SameSolutions95 Gen.RDFLCCD.update_amps Gen.RDFLCCD.energy argSpaces [(chars! "t2new", [0, 0, 1, 1])] (chars! "e_cc") ∧
    SameSolutions95 Gen.RDFLCCSD.update_amps Gen.RDFLCCSD.energy argSpaces [(chars! "t1new", [0, 1]), (chars! "t2new", [0, 0, 1, 1])] (chars! "e_cc") ∧
    SameSolutions95 Gen.RDFQCISD.update_amps Gen.RDFQCISD.energy argSpaces [(chars! "t1new", [0, 1]), (chars! "t2new", [0, 0, 1, 1])] (chars! "e_cc") ∧
    SameSolutions95 Gen.RLCCD.update_amps Gen.RLCCD.energy argSpaces [(chars! "t2new", [0, 0, 1, 1])] (chars! "e_cc") ∧
    SameSolutions95 Gen.RLCCSD.update_amps Gen.RLCCSD.energy argSpaces [(chars! "t1new", [0, 1]), (chars! "t2new", [0, 0, 1, 1])] (chars! "e_cc") ∧
    SameSolutions95 Gen.RQCISD.update_amps Gen.RQCISD.energy argSpaces [(chars! "t1new", [0, 1]), (chars! "t2new", [0, 0, 1, 1])] (chars! "e_cc") :=
  ⟨sameSolutions95 (C93_GCC2.2.1) (C93_scalar (C93_GCC2.1)),
    sameSolutions95 (C93_GCCD.2.1) (C93_scalar (C93_GCCD.1)),
    sameSolutions95 (C93_GCCSD.2.1) (C93_scalar (C93_GCCSD.1)),
    sameSolutions95 (C93_GCCSDT.2.1) (C93_scalar (C93_GCCSDT.1)),
    sameSolutions95 (C93_GCCSD_SD_1_1.2.1) (C93_scalar (C93_GCCSD_SD_1_1.1)),
    sameSolutions95 (C93_GCCSD_SD_1_2.2.1) (C93_scalar (C93_GCCSD_SD_1_2.1)),
    sameSolutions95 (C93_GCCSD_S_1_1.2.1) (C93_scalar (C93_GCCSD_S_1_1.1)),
    sameSolutions95 (C93_GLCCD.2) (C93_scalar (C93_GLCCD.1)),
    sameSolutions95 (C93_GLCCSD.2) (C93_scalar (C93_GLCCSD.1)),
    sameSolutions95 (C93_GQCISD.2) (C93_scalar (C93_GQCISD.1)),
    sameSolutions95 (C93_RCC2.2.1) (C93_scalar (C93_RCC2.1)),
    sameSolutions95 (C93_RCCD.2.1) (C93_scalar (C93_RCCD.1)),
    sameSolutions95 (C93_RCCSD.2.1) (C93_scalar (C93_RCCSD.1)),
    sameSolutions95 (C93_RCCSD_SD_1_1.2) (C93_scalar (C93_RCCSD_SD_1_1.1)),
    sameSolutions95 (C93_RCCSD_SD_1_2.2) (C93_scalar (C93_RCCSD_SD_1_2.1)),
    sameSolutions95 (C93_RCCSD_S_1_1.2) (C93_scalar (C93_RCCSD_S_1_1.1)),
    sameSolutions95 (C93_RDCD.2) (C93_scalar (C93_RDCD.1)),
    sameSolutions95 (C93_RDCSD.2) (C93_scalar (C93_RDCSD.1)),
    sameSolutions95 (C93_RDFCC2.2.1) (C93_scalar (C93_RDFCC2.1)),
    sameSolutions95 (C93_RDFCCD.2.1) (C93_scalar (C93_RDFCCD.1)),
    sameSolutions95 (C93_RDFCCSD.2.1) (C93_scalar (C93_RDFCCSD.1)),
    sameSolutions95 (C93_RDFDCD.2) (C93_scalar (C93_RDFDCD.1)),
    sameSolutions95 (C93_RDFDCSD.2) (C93_scalar (C93_RDFDCSD.1)),
    sameSolutions95 (C93_RDFLCCD.2) (C93_scalar (C93_RDFLCCD.1)),
    sameSolutions95 (C93_RDFLCCSD.2) (C93_scalar (C93_RDFLCCSD.1)),
    sameSolutions95 (C93_RDFQCISD.2) (C93_scalar (C93_RDFQCISD.1)),
    sameSolutions95 (C93_RLCCD.2) (C93_scalar (C93_RLCCD.1)),
    sameSolutions95 (C93_RLCCSD.2) (C93_scalar (C93_RLCCSD.1)),
    sameSolutions95 (C93_RQCISD.2) (C93_scalar (C93_RQCISD.1))⟩

/-- C95, amplitudes of unrestricted calculations. -/
theorem C95_amps_u :
    SameSolutions95 Gen.UCC2.update_amps Gen.UCC2.energy uArgSpaces [(chars! "t1new.bb", [4, 5]), (chars! "t1new.aa", [0, 1]), (chars! "t2new.bbbb", [4, 4, 5, 5]), (chars! "t2new.abab", [0, 4, 1, 5]), (chars! "t2new.aaaa", [0, 0, 1, 1])] (chars! "e_cc") ∧
    SameSolutions95 Gen.UCCD.update_amps Gen.UCCD.energy uArgSpaces [(chars! "t2new.bbbb", [4, 4, 5, 5]), (chars! "t2new.abab", [0, 4, 1, 5]), (chars! "t2new.aaaa", [0, 0, 1, 1])] (chars! "e_cc") ∧
    SameSolutions95 Gen.UCCSD.update_amps Gen.UCCSD.energy uArgSpaces [(chars! "t1new.bb", [4, 5]), (chars! "t1new.aa", [0, 1]), (chars! "t2new.bbbb", [4, 4, 5, 5]), (chars! "t2new.abab", [0, 4, 1, 5]), (chars! "t2new.aaaa", [0, 0, 1, 1])] (chars! "e_cc") ∧
    SameSolutions95 Gen.UDCD.update_amps Gen.UDCD.energy uArgSpaces [(chars! "t2new.bbbb", [4, 4, 5, 5]), (chars! "t2new.abab", [0, 4, 1, 5]), (chars! "t2new.aaaa", [0, 0, 1, 1])] (chars! "e_cc") ∧
    SameSolutions95 Gen.ULCCD.update_amps Gen.ULCCD.energy uArgSpaces [(chars! "t2new.aaaa", [0, 0, 1, 1]), (chars! "t2new.abab", [0, 4, 1, 5]), (chars! "t2new.bbbb", [4, 4, 5, 5])] (chars! "e_cc") ∧
    SameSolutions95 Gen.ULCCSD.update_amps Gen.ULCCSD.energy uArgSpaces [(chars! "t1new.aa", [0, 1]), (chars! "t1new.bb", [4, 5]), (chars! "t2new.aaaa", [0, 0, 1, 1]), (chars! "t2new.abab", [0, 4, 1, 5]), (chars! "t2new.bbbb", [4, 4, 5, 5])] (chars! "e_cc") ∧
    SameSolutions95 Gen.UQCISD.update_amps Gen.UQCISD.energy uArgSpaces [(chars! "t1new.bb", [4, 5]), (chars! "t1new.aa", [0, 1]), (chars! "t2new.bbbb", [4, 4, 5, 5]), (chars! "t2new.abab", [0, 4, 1, 5]), (chars! "t2new.aaaa", [0, 0, 1, 1])] (chars! "e_cc") :=
  ⟨sameSolutions95 (C93_UCC2.2) (C93_scalar (C93_UCC2.1)),
    sameSolutions95 (C93_UCCD.2.1) (C93_scalar (C93_UCCD.1)),
    sameSolutions95 (C93_UCCSD.2) (C93_scalar (C93_UCCSD.1)),
    sameSolutions95 (C93_UDCD.2) (C93_scalar (C93_UDCD.1)),
    sameSolutions95 (C93_ULCCD.2) (C93_scalar (C93_ULCCD.1)),
    sameSolutions95 (C93_ULCCSD.2) (C93_scalar (C93_ULCCSD.1)),
    sameSolutions95 (C93_UQCISD.2) (C93_scalar (C93_UQCISD.1))⟩

/-- C95, multipliers, for amplitudes that are rotated with them. -/
theorem C95_lams :
    SameSolutions95 Gen.GCC2.update_lams Gen.GCC2.energy argSpaces [(chars! "l1new", [1, 0]), (chars! "l2new", [1, 1, 0, 0])] (chars! "e_cc") ∧
    SameSolutions95 Gen.GCCD.update_lams Gen.GCCD.energy argSpaces [(chars! "l2new", [1, 1, 0, 0])] (chars! "e_cc") ∧
    SameSolutions95 Gen.GCCSD.update_lams Gen.GCCSD.energy argSpaces [(chars! "l1new", [1, 0]), (chars! "l2new", [1, 1, 0, 0])] (chars! "e_cc") ∧
    SameSolutions95 Gen.RCC2.update_lams Gen.RCC2.energy argSpaces [(chars! "l1new", [1, 0]), (chars! "l2new", [1, 1, 0, 0])] (chars! "e_cc") ∧
    SameSolutions95 Gen.RCCD.update_lams Gen.RCCD.energy argSpaces [(chars! "l2new", [1, 1, 0, 0])] (chars! "e_cc") ∧
    SameSolutions95 Gen.RCCSD.update_lams Gen.RCCSD.energy argSpaces [(chars! "l1new", [1, 0]), (chars! "l2new", [1, 1, 0, 0])] (chars! "e_cc") ∧
    SameSolutions95 Gen.RDFCC2.update_lams Gen.RDFCC2.energy argSpaces [(chars! "l1new", [1, 0]), (chars! "l2new", [1, 1, 0, 0])] (chars! "e_cc") ∧
    SameSolutions95 Gen.RDFCCD.update_lams Gen.RDFCCD.energy argSpaces [(chars! "l2new", [1, 1, 0, 0])] (chars! "e_cc") ∧
    SameSolutions95 Gen.RDFCCSD.update_lams Gen.RDFCCSD.energy argSpaces [(chars! "l1new", [1, 0]), (chars! "l2new", [1, 1, 0, 0])] (chars! "e_cc") ∧
    SameSolutions95 Gen.UCCD.update_lams Gen.UCCD.energy uArgSpaces [(chars! "l2new.bbbb", [5, 5, 4, 4]), (chars! "l2new.abab", [1, 5, 0, 4]), (chars! "l2new.aaaa", [1, 1, 0, 0])] (chars! "e_cc") :=
  ⟨sameSolutions95 (C93_GCC2.2.2.1) (C93_scalar (C93_GCC2.1)),
    sameSolutions95 (C93_GCCD.2.2.1) (C93_scalar (C93_GCCD.1)),
    sameSolutions95 (C93_GCCSD.2.2.1) (C93_scalar (C93_GCCSD.1)),
    sameSolutions95 (C93_RCC2.2.2) (C93_scalar (C93_RCC2.1)),
    sameSolutions95 (C93_RCCD.2.2) (C93_scalar (C93_RCCD.1)),
    sameSolutions95 (C93_RCCSD.2.2) (C93_scalar (C93_RCCSD.1)),
    sameSolutions95 (C93_RDFCC2.2.2) (C93_scalar (C93_RDFCC2.1)),
    sameSolutions95 (C93_RDFCCD.2.2) (C93_scalar (C93_RDFCCD.1)),
    sameSolutions95 (C93_RDFCCSD.2.2) (C93_scalar (C93_RDFCCSD.1)),
    sameSolutions95 (C93_UCCD.2.2) (C93_scalar (C93_UCCD.1))⟩

/-- C95, restricted calculations from the integrals over atomic orbitals. -/
theorem C95_orbitals :
    OrbitalFree95 Gen.RCC2.update_amps Gen.RCC2.energy [(chars! "t1new", [0, 1]), (chars! "t2new", [0, 0, 1, 1])] (chars! "e_cc") ∧
    OrbitalFree95 Gen.RCC2.update_lams Gen.RCC2.energy [(chars! "l1new", [1, 0]), (chars! "l2new", [1, 1, 0, 0])] (chars! "e_cc") ∧
    OrbitalFree95 Gen.RCCD.update_amps Gen.RCCD.energy [(chars! "t2new", [0, 0, 1, 1])] (chars! "e_cc") ∧
    OrbitalFree95 Gen.RCCD.update_lams Gen.RCCD.energy [(chars! "l2new", [1, 1, 0, 0])] (chars! "e_cc") ∧
    OrbitalFree95 Gen.RCCSD.update_amps Gen.RCCSD.energy [(chars! "t1new", [0, 1]), (chars! "t2new", [0, 0, 1, 1])] (chars! "e_cc") ∧
    OrbitalFree95 Gen.RCCSD.update_lams Gen.RCCSD.energy [(chars! "l1new", [1, 0]), (chars! "l2new", [1, 1, 0, 0])] (chars! "e_cc") ∧
    OrbitalFree95 Gen.RDCD.update_amps Gen.RDCD.energy [(chars! "t2new", [0, 0, 1, 1])] (chars! "e_cc") ∧
    OrbitalFree95 Gen.RDCSD.update_amps Gen.RDCSD.energy [(chars! "t1new", [0, 1]), (chars! "t2new", [0, 0, 1, 1])] (chars! "e_cc") ∧
    OrbitalFree95 Gen.RLCCD.update_amps Gen.RLCCD.energy [(chars! "t2new", [0, 0, 1, 1])] (chars! "e_cc") ∧
    OrbitalFree95 Gen.RLCCSD.update_amps Gen.RLCCSD.energy [(chars! "t1new", [0, 1]), (chars! "t2new", [0, 0, 1, 1])] (chars! "e_cc") ∧
    OrbitalFree95 Gen.RQCISD.update_amps Gen.RQCISD.energy [(chars! "t1new", [0, 1]), (chars! "t2new", [0, 0, 1, 1])] (chars! "e_cc") ∧
    OrbitalFree95 Gen.RDFCC2.update_amps Gen.RDFCC2.energy [(chars! "t1new", [0, 1]), (chars! "t2new", [0, 0, 1, 1])] (chars! "e_cc") ∧
    OrbitalFree95 Gen.RDFCC2.update_lams Gen.RDFCC2.energy [(chars! "l1new", [1, 0]), (chars! "l2new", [1, 1, 0, 0])] (chars! "e_cc") ∧
    OrbitalFree95 Gen.RDFCCD.update_amps Gen.RDFCCD.energy [(chars! "t2new", [0, 0, 1, 1])] (chars! "e_cc") ∧
    OrbitalFree95 Gen.RDFCCD.update_lams Gen.RDFCCD.energy [(chars! "l2new", [1, 1, 0, 0])] (chars! "e_cc") ∧
    OrbitalFree95 Gen.RDFCCSD.update_amps Gen.RDFCCSD.energy [(chars! "t1new", [0, 1]), (chars! "t2new", [0, 0, 1, 1])] (chars! "e_cc") ∧
    OrbitalFree95 Gen.RDFCCSD.update_lams Gen.RDFCCSD.energy [(chars! "l1new", [1, 0]), (chars! "l2new", [1, 1, 0, 0])] (chars! "e_cc") ∧
    OrbitalFree95 Gen.RDFDCD.update_amps Gen.RDFDCD.energy [(chars! "t2new", [0, 0, 1, 1])] (chars! "e_cc") ∧
    OrbitalFree95 Gen.RDFDCSD.update_amps Gen.RDFDCSD.energy [(chars! "t1new", [0, 1]), (chars! "t2new", [0, 0, 1, 1])] (chars! "e_cc") ∧
    OrbitalFree95 Gen.RDFLCCD.update_amps Gen.RDFLCCD.energy [(chars! "t2new", [0, 0, 1, 1])] (chars! "e_cc") ∧
    OrbitalFree95 Gen.RDFLCCSD.update_amps Gen.RDFLCCSD.energy [(chars! "t1new", [0, 1]), (chars! "t2new", [0, 0, 1, 1])] (chars! "e_cc") ∧
    OrbitalFree95 Gen.RDFQCISD.update_amps Gen.RDFQCISD.energy [(chars! "t1new", [0, 1]), (chars! "t2new", [0, 0, 1, 1])] (chars! "e_cc") :=
  ⟨orbitalFree95 (sameSolutions95 (C93_RCC2.2.1) (C93_scalar (C93_RCC2.1))) (by decide +kernel),
    orbitalFree95 (sameSolutions95 (C93_RCC2.2.2) (C93_scalar (C93_RCC2.1))) (by decide +kernel),
    orbitalFree95 (sameSolutions95 (C93_RCCD.2.1) (C93_scalar (C93_RCCD.1))) (by decide +kernel),
    orbitalFree95 (sameSolutions95 (C93_RCCD.2.2) (C93_scalar (C93_RCCD.1))) (by decide +kernel),
    orbitalFree95 (sameSolutions95 (C93_RCCSD.2.1) (C93_scalar (C93_RCCSD.1))) (by decide +kernel),
    orbitalFree95 (sameSolutions95 (C93_RCCSD.2.2) (C93_scalar (C93_RCCSD.1))) (by decide +kernel),
    orbitalFree95 (sameSolutions95 (C93_RDCD.2) (C93_scalar (C93_RDCD.1))) (by decide +kernel),
    orbitalFree95 (sameSolutions95 (C93_RDCSD.2) (C93_scalar (C93_RDCSD.1))) (by decide +kernel),
    orbitalFree95 (sameSolutions95 (C93_RLCCD.2) (C93_scalar (C93_RLCCD.1))) (by decide +kernel),
    orbitalFree95 (sameSolutions95 (C93_RLCCSD.2) (C93_scalar (C93_RLCCSD.1))) (by decide +kernel),
    orbitalFree95 (sameSolutions95 (C93_RQCISD.2) (C93_scalar (C93_RQCISD.1))) (by decide +kernel),
    orbitalFree95 (sameSolutions95 (C93_RDFCC2.2.1) (C93_scalar (C93_RDFCC2.1))) (by decide +kernel),
    orbitalFree95 (sameSolutions95 (C93_RDFCC2.2.2) (C93_scalar (C93_RDFCC2.1))) (by decide +kernel),
    orbitalFree95 (sameSolutions95 (C93_RDFCCD.2.1) (C93_scalar (C93_RDFCCD.1))) (by decide +kernel),
    orbitalFree95 (sameSolutions95 (C93_RDFCCD.2.2) (C93_scalar (C93_RDFCCD.1))) (by decide +kernel),
    orbitalFree95 (sameSolutions95 (C93_RDFCCSD.2.1) (C93_scalar (C93_RDFCCSD.1))) (by decide +kernel),
    orbitalFree95 (sameSolutions95 (C93_RDFCCSD.2.2) (C93_scalar (C93_RDFCCSD.1))) (by decide +kernel),
    orbitalFree95 (sameSolutions95 (C93_RDFDCD.2) (C93_scalar (C93_RDFDCD.1))) (by decide +kernel),
    orbitalFree95 (sameSolutions95 (C93_RDFDCSD.2) (C93_scalar (C93_RDFDCSD.1))) (by decide +kernel),
    orbitalFree95 (sameSolutions95 (C93_RDFLCCD.2) (C93_scalar (C93_RDFLCCD.1))) (by decide +kernel),
    orbitalFree95 (sameSolutions95 (C93_RDFLCCSD.2) (C93_scalar (C93_RDFLCCSD.1))) (by decide +kernel),
    orbitalFree95 (sameSolutions95 (C93_RDFQCISD.2) (C93_scalar (C93_RDFQCISD.1))) (by decide +kernel)⟩

/-- C95, general calculations from the integrals over atomic orbitals. -/
theorem C95_orbitals_g :
    GOrbitalFree95 Gen.GCC2.update_amps Gen.GCC2.energy [(chars! "t1new", [0, 1]), (chars! "t2new", [0, 0, 1, 1])] (chars! "e_cc") ∧
    GOrbitalFree95 Gen.GCC2.update_lams Gen.GCC2.energy [(chars! "l1new", [1, 0]), (chars! "l2new", [1, 1, 0, 0])] (chars! "e_cc") ∧
    GOrbitalFree95 Gen.GCCD.update_amps Gen.GCCD.energy [(chars! "t2new", [0, 0, 1, 1])] (chars! "e_cc") ∧
    GOrbitalFree95 Gen.GCCD.update_lams Gen.GCCD.energy [(chars! "l2new", [1, 1, 0, 0])] (chars! "e_cc") ∧
    GOrbitalFree95 Gen.GCCSD.update_amps Gen.GCCSD.energy [(chars! "t1new", [0, 1]), (chars! "t2new", [0, 0, 1, 1])] (chars! "e_cc") ∧
    GOrbitalFree95 Gen.GCCSD.update_lams Gen.GCCSD.energy [(chars! "l1new", [1, 0]), (chars! "l2new", [1, 1, 0, 0])] (chars! "e_cc") ∧
    GOrbitalFree95 Gen.GCCSDT.update_amps Gen.GCCSDT.energy [(chars! "t1new", [0, 1]), (chars! "t2new", [0, 0, 1, 1]), (chars! "t3new", [0, 0, 0, 1, 1, 1])] (chars! "e_cc") ∧
    GOrbitalFree95 Gen.GLCCD.update_amps Gen.GLCCD.energy [(chars! "t2new", [0, 0, 1, 1])] (chars! "e_cc") ∧
    GOrbitalFree95 Gen.GLCCSD.update_amps Gen.GLCCSD.energy [(chars! "t1new", [0, 1]), (chars! "t2new", [0, 0, 1, 1])] (chars! "e_cc") ∧
    GOrbitalFree95 Gen.GQCISD.update_amps Gen.GQCISD.energy [(chars! "t1new", [0, 1]), (chars! "t2new", [0, 0, 1, 1])] (chars! "e_cc") :=
  ⟨gOrbitalFree95 (sameSolutions95 (C93_GCC2.2.1) (C93_scalar (C93_GCC2.1))) (by decide +kernel),
    gOrbitalFree95 (sameSolutions95 (C93_GCC2.2.2.1) (C93_scalar (C93_GCC2.1))) (by decide +kernel),
    gOrbitalFree95 (sameSolutions95 (C93_GCCD.2.1) (C93_scalar (C93_GCCD.1))) (by decide +kernel),
    gOrbitalFree95 (sameSolutions95 (C93_GCCD.2.2.1) (C93_scalar (C93_GCCD.1))) (by decide +kernel),
    gOrbitalFree95 (sameSolutions95 (C93_GCCSD.2.1) (C93_scalar (C93_GCCSD.1))) (by decide +kernel),
    gOrbitalFree95 (sameSolutions95 (C93_GCCSD.2.2.1) (C93_scalar (C93_GCCSD.1))) (by decide +kernel),
    gOrbitalFree95 (sameSolutions95 (C93_GCCSDT.2.1) (C93_scalar (C93_GCCSDT.1))) (by decide +kernel),
    gOrbitalFree95 (sameSolutions95 (C93_GLCCD.2) (C93_scalar (C93_GLCCD.1))) (by decide +kernel),
    gOrbitalFree95 (sameSolutions95 (C93_GLCCSD.2) (C93_scalar (C93_GLCCSD.1))) (by decide +kernel),
    gOrbitalFree95 (sameSolutions95 (C93_GQCISD.2) (C93_scalar (C93_GQCISD.1))) (by decide +kernel)⟩

/-- C95, unrestricted calculations from the integrals over atomic orbitals. -/
theorem C95_orbitals_u :
    UOrbitalFree95 Gen.UCC2.update_amps Gen.UCC2.energy [(chars! "t1new.bb", [4, 5]), (chars! "t1new.aa", [0, 1]), (chars! "t2new.bbbb", [4, 4, 5, 5]), (chars! "t2new.abab", [0, 4, 1, 5]), (chars! "t2new.aaaa", [0, 0, 1, 1])] (chars! "e_cc") ∧
    UOrbitalFree95 Gen.UCCD.update_amps Gen.UCCD.energy [(chars! "t2new.bbbb", [4, 4, 5, 5]), (chars! "t2new.abab", [0, 4, 1, 5]), (chars! "t2new.aaaa", [0, 0, 1, 1])] (chars! "e_cc") ∧
    UOrbitalFree95 Gen.UCCD.update_lams Gen.UCCD.energy [(chars! "l2new.bbbb", [5, 5, 4, 4]), (chars! "l2new.abab", [1, 5, 0, 4]), (chars! "l2new.aaaa", [1, 1, 0, 0])] (chars! "e_cc") ∧
    UOrbitalFree95 Gen.UCCSD.update_amps Gen.UCCSD.energy [(chars! "t1new.bb", [4, 5]), (chars! "t1new.aa", [0, 1]), (chars! "t2new.bbbb", [4, 4, 5, 5]), (chars! "t2new.abab", [0, 4, 1, 5]), (chars! "t2new.aaaa", [0, 0, 1, 1])] (chars! "e_cc") ∧
    UOrbitalFree95 Gen.UDCD.update_amps Gen.UDCD.energy [(chars! "t2new.bbbb", [4, 4, 5, 5]), (chars! "t2new.abab", [0, 4, 1, 5]), (chars! "t2new.aaaa", [0, 0, 1, 1])] (chars! "e_cc") ∧
    UOrbitalFree95 Gen.ULCCD.update_amps Gen.ULCCD.energy [(chars! "t2new.aaaa", [0, 0, 1, 1]), (chars! "t2new.abab", [0, 4, 1, 5]), (chars! "t2new.bbbb", [4, 4, 5, 5])] (chars! "e_cc") ∧
    UOrbitalFree95 Gen.ULCCSD.update_amps Gen.ULCCSD.energy [(chars! "t1new.aa", [0, 1]), (chars! "t1new.bb", [4, 5]), (chars! "t2new.aaaa", [0, 0, 1, 1]), (chars! "t2new.abab", [0, 4, 1, 5]), (chars! "t2new.bbbb", [4, 4, 5, 5])] (chars! "e_cc") ∧
    UOrbitalFree95 Gen.UQCISD.update_amps Gen.UQCISD.energy [(chars! "t1new.bb", [4, 5]), (chars! "t1new.aa", [0, 1]), (chars! "t2new.bbbb", [4, 4, 5, 5]), (chars! "t2new.abab", [0, 4, 1, 5]), (chars! "t2new.aaaa", [0, 0, 1, 1])] (chars! "e_cc") :=
  ⟨uOrbitalFree95 (sameSolutions95 (C93_UCC2.2) (C93_scalar (C93_UCC2.1))) (by decide +kernel),
    uOrbitalFree95 (sameSolutions95 (C93_UCCD.2.1) (C93_scalar (C93_UCCD.1))) (by decide +kernel),
    uOrbitalFree95 (sameSolutions95 (C93_UCCD.2.2) (C93_scalar (C93_UCCD.1))) (by decide +kernel),
    uOrbitalFree95 (sameSolutions95 (C93_UCCSD.2) (C93_scalar (C93_UCCSD.1))) (by decide +kernel),
    uOrbitalFree95 (sameSolutions95 (C93_UDCD.2) (C93_scalar (C93_UDCD.1))) (by decide +kernel),
    uOrbitalFree95 (sameSolutions95 (C93_ULCCD.2) (C93_scalar (C93_ULCCD.1))) (by decide +kernel),
    uOrbitalFree95 (sameSolutions95 (C93_ULCCSD.2) (C93_scalar (C93_ULCCSD.1))) (by decide +kernel),
    uOrbitalFree95 (sameSolutions95 (C93_UQCISD.2) (C93_scalar (C93_UQCISD.1))) (by decide +kernel)⟩

/-- Amplitudes for the orbitals of `hyps94`. -/
def amps95 (name : List Char) : Option (NDArray Rat) :=
  if name = chars! "t2" then some ⟨[2, 2, 1, 1], [1, 2, 3, 5]⟩
  else (argSpaces name).map fun sp => NDArray.ofFn (sp.map sizes94) fun _ => 0

def eri95 (m n p q : Nat) : Rat := if m = n ∧ p = q then 1 else 1 / 2

/-- The theorems apply to these: the hypotheses hold. -/
example : ∃ r r', Gen.RCCD.energy.call .backend onePath93 sizes94
      (orbVals95 2 ⟨[2, 2], [1, 2, 3, 4]⟩ eri95 ⟨[1, 3], [1, 2, 3]⟩ space94 mo94 amps95) = .ok r ∧
    Gen.RCCD.energy.call .backend onePath93 sizes94
      (orbVals95 2 ⟨[2, 2], [1, 2, 3, 4]⟩ eri95 ⟨[1, 3], [1, 2, 3]⟩ space94 moRot94
        (rotatedVals sizes94 matrix94 argSpaces amps95)) = .ok r' := by
  obtain ⟨h1, h2, h3, h4, h5, h6⟩ := hyps94
  obtain ⟨_, _, v, v', _, _, _, _, _, k1, k2, _⟩ := C95_orbitals.2.2.1 Rat 2 ⟨[2, 2], [1, 2, 3, 4]⟩ rfl
    eri95 ⟨[1, 3], [1, 2, 3]⟩ space94 rot94 mo94 moRot94 h1 h2 h3 sizes94 matrix94 h6
    ⟨h4, _, rfl⟩ ⟨h5, _, rfl⟩ rfl (fun i hi j hj => by simp [matrix94]) .backend onePath93 onePath93_ok amps95 (fun name sp hsp => by
      unfold amps95
      split
      · rename_i hn
        subst hn
        cases hsp
        exact ⟨_, rfl, rfl, rfl⟩
      · exact ⟨_, by rw [hsp]; rfl, rfl, NDArray.ofFn_wf _ _⟩)
  exact ⟨v, v', k1, k2⟩

/-- The energy, the same for both. -/
example : ((Gen.RCCD.energy.call .backend onePath93 sizes94
      (orbVals95 2 ⟨[2, 2], [1, 2, 3, 4]⟩ eri95 ⟨[1, 3], [1, 2, 3]⟩ space94 mo94 amps95)).toOption.bind
        (·.get? (chars! "e_cc"))).map (·.data) = some [24057] ∧
    ((Gen.RCCD.energy.call .backend onePath93 sizes94
      (orbVals95 2 ⟨[2, 2], [1, 2, 3, 4]⟩ eri95 ⟨[1, 3], [1, 2, 3]⟩ space94 moRot94
        (rotatedVals sizes94 matrix94 argSpaces amps95))).toOption.bind (·.get? (chars! "e_cc"))).map (·.data) = some [24057] := by
  refine ⟨by decide +kernel, by decide +kernel⟩

/-- The hypotheses on the integrals of a general calculation hold too. -/
example : ∃ a a', geriArray 1 eri95 [mo94, mo94, mo94, mo94] = .ok a ∧
    geriArray 1 eri95 [moRot94, moRot94, moRot94, moRot94] = .ok a' ∧ Fits66 (2 * 1) space94 mo94 :=
  ⟨_, _, rfl, rfl, hyps94.1⟩

/-- And those on the spaces of an unrestricted one, with both spins alike. -/
example : SpinClasses95 (space94, space94) (rot94, rot94) (fun n => sizes94 (n % 4)) (fun n => matrix94 (n % 4)) := by
  obtain ⟨_, _, _, h4, h5, _⟩ := hyps94
  intro σ k n h
  have e : pick95 (space94, space94) σ = space94 := by simp [pick95]
  have e' : pick95 (rot94, rot94) σ = rot94 := by simp [pick95]
  rw [e, e']
  rcases h with h | h
  · cases h
    refine ⟨?_, _, rfl⟩
    unfold rotSpinSpace
    split
    · exact h4
    · exact h4
  · cases h
    refine ⟨?_, _, rfl⟩
    unfold rotSpinSpace
    split
    · exact h5
    · exact h5

end Ebcc
