import Verif.Thms.C53
import Verif.Thms.C54
/-!
C55: density fitted integrals.  In a container after any sequence of reads, the block of a key with four characters is
the sum over the auxiliary index of the blocks with three indices, and it has the symmetries of the exact integrals.
-/

namespace Ebcc

section
variable {R : Type} [CommRing R]

/-- The block of the two coefficients, by the two characters of the key. -/
theorem cderiBlock_two {nrE2 : NDArray R → NDArray R → NDArray R} {spaces : List Space} {coeffs : List (NDArray R)}
    {e2 : Bool} {a b : Char} {v : NDArray R} (h : cderiBlock nrE2 spaces coeffs e2 [a, b] = .ok v) :
    ∃ ca cb, getCoeff spaces coeffs (if e2 then 2 else 0) a = .ok ca ∧
      getCoeff spaces coeffs (if e2 then 3 else 1) b = .ok cb ∧ v = nrE2 ca cb := by
  unfold cderiBlock getCoeffs at h
  simp only [List.zipIdx_cons, List.zipIdx_nil, List.mapM_cons, List.mapM_nil, bind, Except.bind, pure, Except.pure] at h
  have e0 : 0 + (if e2 then 2 else 0) = if e2 then 2 else 0 := by cases e2 <;> rfl
  have e1 : 0 + 1 + (if e2 then 2 else 0) = if e2 then 3 else 1 := by cases e2 <;> rfl
  rw [e0, e1] at h
  cases ha : getCoeff spaces coeffs (if e2 then 2 else 0) a with
  | error e => rw [ha] at h; cases h
  | ok ca =>
    cases hb : getCoeff spaces coeffs (if e2 then 3 else 1) b with
    | error e => rw [ha, hb] at h; cases h
    | ok cb =>
      rw [ha, hb] at h
      cases h
      exact ⟨ca, cb, rfl, rfl, rfl⟩

theorem getCoeff_congr {spaces spaces' : List Space} {coeffs coeffs' : List (NDArray R)} {i j : Nat} {k : Char}
    (hs : spaces[i]? = spaces'[j]?) (hc : coeffs[i]? = coeffs'[j]?) :
    getCoeff spaces coeffs i k = getCoeff spaces' coeffs' j k := by
  unfold getCoeff
  rw [hs, hc]

theorem cderiBlock_congr (nrE2 : NDArray R → NDArray R → NDArray R) {spaces spaces' : List Space}
    {coeffs coeffs' : List (NDArray R)} {e2 e2' : Bool} (a b : Char)
    (h0 : spaces[(if e2 then 2 else 0 : Nat)]? = spaces'[(if e2' then 2 else 0 : Nat)]?)
    (h1 : spaces[(if e2 then 3 else 1 : Nat)]? = spaces'[(if e2' then 3 else 1 : Nat)]?)
    (h2 : coeffs[(if e2 then 2 else 0 : Nat)]? = coeffs'[(if e2' then 2 else 0 : Nat)]?)
    (h3 : coeffs[(if e2 then 3 else 1 : Nat)]? = coeffs'[(if e2' then 3 else 1 : Nat)]?) :
    cderiBlock nrE2 spaces coeffs e2 [a, b] = cderiBlock nrE2 spaces' coeffs' e2' [a, b] := by
  unfold cderiBlock getCoeffs
  simp only [List.zipIdx_cons, List.zipIdx_nil, List.mapM_cons, List.mapM_nil]
  have e0 : ∀ e : Bool, 0 + (if e then 2 else 0) = if e then 2 else 0 := by intro e; cases e <;> rfl
  have e1 : ∀ e : Bool, 0 + 1 + (if e then 2 else 0) = if e then 3 else 1 := by intro e; cases e <;> rfl
  rw [e0, e1, e0, e1, getCoeff_congr (k := a) h0 h2, getCoeff_congr (k := b) h1 h3]

/-- The states that a container can have. -/
def CderiReached (nrE2 : NDArray R → NDArray R → NDArray R) (spaces : List Space) (coeffs : List (NDArray R))
    (m : Dict (List Char) (NDArray R)) : Prop :=
  ∃ ops, m = (runReads (rcderiRead nrE2 spaces coeffs) ops []).2

theorem CderiReached.sound {nrE2 : NDArray R → NDArray R → NDArray R} {spaces : List Space} {coeffs : List (NDArray R)}
    {m : Dict (List Char) (NDArray R)} (h : CderiReached nrE2 spaces coeffs m) : CderiSound nrE2 spaces coeffs m := by
  obtain ⟨ops, rfl⟩ := h
  exact (runReads_spec _ (CderiSound nrE2 spaces coeffs) (cderiSpec nrE2 spaces coeffs) ops
    (fun o _ s hs => rcderiRead_sound nrE2 spaces coeffs o s hs) [] (fun _ _ _ h => by cases h)).2

theorem contractQ_get (v1 v2 : NDArray R) (i j k l : Nat) (hi : i < v1.shape.getD 1 0) (hj : j < v1.shape.getD 2 0)
    (hk : k < v2.shape.getD 1 0) (hl : l < v2.shape.getD 2 0) :
    (contractQ v1 v2).get [i, j, k, l]
      = ((List.range (v1.shape.getD 0 0)).map fun Q => v1.get [Q, i, j] * v2.get [Q, k, l]).sum := by
  unfold contractQ
  rw [NDArray.get_ofFn _ _ (inBox4.2 ⟨hi, hj, hk, hl⟩)]
  rfl

theorem cderiSpec_four {nrE2 : NDArray R → NDArray R → NDArray R} {spaces : List Space} {coeffs : List (NDArray R)}
    {a b c d : Char} {x : NDArray R} (h : cderiSpec nrE2 spaces coeffs [a, b, c, d] = .ok x) :
    ∃ v1 v2, cderiBlock nrE2 spaces coeffs false [a, b] = .ok v1 ∧ cderiBlock nrE2 spaces coeffs true [c, d] = .ok v2 ∧
      x = contractQ v1 v2 := by
  unfold cderiSpec at h
  rw [if_pos (by rfl)] at h
  change (match cderiBlock nrE2 spaces coeffs false [a, b] with
    | .error e => Except.error e
    | .ok v1 => match cderiBlock nrE2 spaces coeffs true [c, d] with
      | .error e => .error e
      | .ok v2 => .ok (contractQ v1 v2)) = .ok x at h
  cases h1 : cderiBlock nrE2 spaces coeffs false [a, b] with
  | error e => rw [h1] at h; cases h
  | ok v1 =>
    cases h2 : cderiBlock nrE2 spaces coeffs true [c, d] with
    | error e => rw [h1, h2] at h; cases h
    | ok v2 =>
      rw [h1, h2] at h
      cases h
      exact ⟨v1, v2, rfl, rfl, rfl⟩

/-- In every state of a container a block with four indices is the sum over the auxiliary index of the block with three
indices for the first pair and that for the second pair, which for equal spaces and coefficients of the pairs is also
what the container returns for the second pair. -/
theorem C55_contract (nrE2 : NDArray R → NDArray R → NDArray R) (spaces : List Space) (coeffs : List (NDArray R))
    (m : Dict (List Char) (NDArray R)) (hm : CderiReached nrE2 spaces coeffs m) (a b c d : Char) (x : NDArray R)
    (hx : (rcderiRead nrE2 spaces coeffs [a, b, c, d] m).1 = .ok x) :
    ∃ v1 v2, (rcderiRead nrE2 spaces coeffs ['Q', a, b] m).1 = .ok v1 ∧
      (cderiRead3 nrE2 spaces coeffs true [c, d] m).1 = .ok v2 ∧
      (spaces[2]? = spaces[0]? → spaces[3]? = spaces[1]? → coeffs[2]? = coeffs[0]? → coeffs[3]? = coeffs[1]? →
        (rcderiRead nrE2 spaces coeffs ['Q', c, d] m).1 = .ok v2) ∧
      ∀ i j k l, InBox x.shape [i, j, k, l] →
        x.get [i, j, k, l] = ((List.range (v1.shape.getD 0 0)).map fun Q => v1.get [Q, i, j] * v2.get [Q, k, l]).sum := by
  have hs := hm.sound
  rw [(rcderiRead_sound nrE2 spaces coeffs _ m hs).1] at hx
  obtain ⟨v1, v2, h1, h2, rfl⟩ := cderiSpec_four hx
  refine ⟨v1, v2, ?_, ?_, ?_, ?_⟩
  · rw [(rcderiRead_sound nrE2 spaces coeffs _ m hs).1]
    exact h1
  · rw [(cderiRead3_sound nrE2 spaces coeffs _ _ m hs).1]
    exact h2
  · intro e0 e1 e2 e3
    rw [(rcderiRead_sound nrE2 spaces coeffs _ m hs).1]
    change cderiBlock nrE2 spaces coeffs false [c, d] = _
    rw [← h2]
    exact cderiBlock_congr nrE2 c d e0.symm e1.symm e2.symm e3.symm
  · intro i j k l hb
    obtain ⟨b1, b2, b3, b4⟩ := inBox4.1 hb
    exact contractQ_get v1 v2 i j k l b1 b2 b3 b4

theorem trilPos_comm (m n : Nat) : trilPos m n = trilPos n m := by
  unfold trilPos
  by_cases h : n ≤ m
  · by_cases h' : m ≤ n
    · have : m = n := by omega
      subst this
      rfl
    · rw [if_pos h, if_neg h']
  · rw [if_neg h, if_pos (by omega)]

theorem inBox3 {a b c i j k : Nat} : InBox [a, b, c] [i, j, k] ↔ i < a ∧ j < b ∧ k < c := by simp [InBox]

theorem nrE2Packed_swap (nao : Nat) (cderi ci cj : NDArray R) (Q i j : Nat) (hQ : Q < cderi.shape.getD 0 0)
    (hi : i < ci.shape.getD 1 0) (hj : j < cj.shape.getD 1 0) :
    (nrE2Packed nao cderi ci cj).get [Q, i, j] = (nrE2Packed nao cderi cj ci).get [Q, j, i] := by
  unfold nrE2Packed
  rw [NDArray.get_ofFn _ _ (inBox3.2 ⟨hQ, hi, hj⟩), NDArray.get_ofFn _ _ (inBox3.2 ⟨hQ, hj, hi⟩)]
  refine (sum_comm_list (List.range nao) (List.range nao) fun m n =>
    cderi.get [Q, trilPos m n] * (ci.get [m, i] * cj.get [n, j])).trans ?_
  congr 1
  refine List.map_congr_left fun n _ => ?_
  congr 1
  refine List.map_congr_left fun m _ => ?_
  rw [trilPos_comm m n]
  change _ = cderi.get [Q, trilPos n m] * (cj.get [n, j] * ci.get [m, i])
  ring

/-- Exchange of the pairs, for two containers whose pairs are exchanged. -/
theorem cderiSpec_swap {nao : Nat} {cderi : NDArray R} {s0 s1 s2 s3 : Space} {c0 c1 c2 c3 : NDArray R} {a b c d : Char}
    {x y : NDArray R} (hx : cderiSpec (nrE2Packed nao cderi) [s0, s1, s2, s3] [c0, c1, c2, c3] [a, b, c, d] = .ok x)
    (hy : cderiSpec (nrE2Packed nao cderi) [s2, s3, s0, s1] [c2, c3, c0, c1] [c, d, a, b] = .ok y) (i j k l : Nat)
    (hb : InBox x.shape [i, j, k, l]) : x.get [i, j, k, l] = y.get [k, l, i, j] := by
  obtain ⟨v1, v2, h1, h2, rfl⟩ := cderiSpec_four hx
  obtain ⟨w1, w2, k1, k2, rfl⟩ := cderiSpec_four hy
  have e1 : cderiBlock (nrE2Packed nao cderi) [s2, s3, s0, s1] [c2, c3, c0, c1] true [a, b]
      = cderiBlock (nrE2Packed nao cderi) [s0, s1, s2, s3] [c0, c1, c2, c3] false [a, b] :=
    cderiBlock_congr _ a b rfl rfl rfl rfl
  have e2 : cderiBlock (nrE2Packed nao cderi) [s2, s3, s0, s1] [c2, c3, c0, c1] false [c, d]
      = cderiBlock (nrE2Packed nao cderi) [s0, s1, s2, s3] [c0, c1, c2, c3] true [c, d] :=
    cderiBlock_congr _ c d rfl rfl rfl rfl
  rw [e1, h1] at k2
  rw [e2, h2] at k1
  cases k1
  cases k2
  obtain ⟨b1, b2, b3, b4⟩ := inBox4.1 hb
  rw [contractQ_get _ _ i j k l b1 b2 b3 b4, contractQ_get _ _ k l i j b3 b4 b1 b2]
  obtain ⟨_, _, _, _, rfl⟩ := cderiBlock_two h1
  obtain ⟨_, _, _, _, rfl⟩ := cderiBlock_two h2
  congr 1
  refine List.map_congr_left fun Q _ => ?_
  ring

/-- Exchange of the pairs: `(ij|kl) = (kl|ij)` between the blocks of any two reads, if the pairs have the same spaces
and coefficients. -/
theorem C55_exchange (nao : Nat) (cderi : NDArray R) (s0 s1 : Space) (c0 c1 : NDArray R)
    (m m' : Dict (List Char) (NDArray R))
    (hm : CderiReached (nrE2Packed nao cderi) [s0, s1, s0, s1] [c0, c1, c0, c1] m)
    (hm' : CderiReached (nrE2Packed nao cderi) [s0, s1, s0, s1] [c0, c1, c0, c1] m') (a b c d : Char) (x y : NDArray R)
    (hx : (rcderiRead (nrE2Packed nao cderi) [s0, s1, s0, s1] [c0, c1, c0, c1] [a, b, c, d] m).1 = .ok x)
    (hy : (rcderiRead (nrE2Packed nao cderi) [s0, s1, s0, s1] [c0, c1, c0, c1] [c, d, a, b] m').1 = .ok y)
    (i j k l : Nat) (hb : InBox x.shape [i, j, k, l]) : x.get [i, j, k, l] = y.get [k, l, i, j] := by
  rw [(rcderiRead_sound _ _ _ _ m hm.sound).1] at hx
  rw [(rcderiRead_sound _ _ _ _ m' hm'.sound).1] at hy
  exact cderiSpec_swap hx hy i j k l hb

/-- Exchange within the first pair: `(ij|kl) = (ji|kl)`, if its indices have the same space and coefficients. -/
theorem C55_pair (nao : Nat) (cderi : NDArray R) (s s2 s3 : Space) (co c2 c3 : NDArray R)
    (m m' : Dict (List Char) (NDArray R))
    (hm : CderiReached (nrE2Packed nao cderi) [s, s, s2, s3] [co, co, c2, c3] m)
    (hm' : CderiReached (nrE2Packed nao cderi) [s, s, s2, s3] [co, co, c2, c3] m') (a b c d : Char) (x y : NDArray R)
    (hx : (rcderiRead (nrE2Packed nao cderi) [s, s, s2, s3] [co, co, c2, c3] [a, b, c, d] m).1 = .ok x)
    (hy : (rcderiRead (nrE2Packed nao cderi) [s, s, s2, s3] [co, co, c2, c3] [b, a, c, d] m').1 = .ok y)
    (i j k l : Nat) (hb : InBox x.shape [i, j, k, l]) : x.get [i, j, k, l] = y.get [j, i, k, l] := by
  rw [(rcderiRead_sound _ _ _ _ m hm.sound).1] at hx
  rw [(rcderiRead_sound _ _ _ _ m' hm'.sound).1] at hy
  obtain ⟨v1, v2, h1, h2, rfl⟩ := cderiSpec_four hx
  obtain ⟨w1, w2, k1, k2, rfl⟩ := cderiSpec_four hy
  rw [h2] at k2
  cases k2
  obtain ⟨ca, cb, ha, hb', rfl⟩ := cderiBlock_two h1
  obtain ⟨cb', ca', hb2, ha2, rfl⟩ := cderiBlock_two k1
  have ea : getCoeff [s, s, s2, s3] [co, co, c2, c3] 1 a = getCoeff [s, s, s2, s3] [co, co, c2, c3] 0 a :=
    getCoeff_congr rfl rfl
  have eb : getCoeff [s, s, s2, s3] [co, co, c2, c3] 1 b = getCoeff [s, s, s2, s3] [co, co, c2, c3] 0 b :=
    getCoeff_congr rfl rfl
  simp only [Bool.false_eq_true, if_false] at ha hb' ha2 hb2
  rw [ea, ha] at ha2
  rw [eb, hb2] at hb'
  cases ha2
  cases hb'
  obtain ⟨b1, b2, b3, b4⟩ := inBox4.1 hb
  rw [contractQ_get _ _ i j k l b1 b2 b3 b4,
    contractQ_get (nrE2Packed nao cderi _ _) _ j i k l b2 b1 b3 b4]
  refine congrArg List.sum (List.map_congr_left fun Q hQ => ?_)
  rw [show (nrE2Packed nao cderi ca cb).get [Q, i, j] = (nrE2Packed nao cderi cb ca).get [Q, j, i] from
    nrE2Packed_swap nao cderi ca cb Q i j (List.mem_range.1 hQ) b1 b2]

/-- The states of an unrestricted container. -/
def UCderiReached (nrE2 : NDArray R → NDArray R → NDArray R) (spaces : List (Space × Space))
    (coeffs : List (NDArray R × NDArray R)) (m : Dict (List Char) (Dict (List Char) (NDArray R))) : Prop :=
  ∃ ops : List (List Char × List Char), m = (runReads (fun o => ucderiRead nrE2 spaces coeffs o.1 o.2) ops []).2

theorem UCderiReached.sound {nrE2 : NDArray R → NDArray R → NDArray R} {spaces : List (Space × Space)}
    {coeffs : List (NDArray R × NDArray R)} {m : Dict (List Char) (Dict (List Char) (NDArray R))}
    (h : UCderiReached nrE2 spaces coeffs m) : NestedSound (fun spin => CderiSound nrE2 (pickSpins spaces (eriSpins spin))
      (pickSpins coeffs (eriSpins spin))) m := by
  obtain ⟨ops, rfl⟩ := h
  refine (runReads_spec (fun o => ucderiRead nrE2 spaces coeffs o.1 o.2)
    (NestedSound fun spin => CderiSound nrE2 (pickSpins spaces (eriSpins spin)) (pickSpins coeffs (eriSpins spin)))
    (fun o => (ucderiRead nrE2 spaces coeffs o.1 o.2 []).1) ops (fun o _ s hs => ?_) [] (fun _ _ h => by cases h)).2
  simp only [ucderiRead]
  cases hk : ucderiKey o.1 with
  | error e => exact ⟨rfl, hs⟩
  | ok spin =>
    have h0 : CderiSound nrE2 (pickSpins spaces (eriSpins spin)) (pickSpins coeffs (eriSpins spin))
      ([] : Dict (List Char) (NDArray R)) := fun _ _ _ h => by cases h
    obtain ⟨h1, h2⟩ := rcderiRead_sound nrE2 _ _ o.2 _ (nested_getD hs spin [] h0)
    refine ⟨?_, nested_set hs _ _ h2⟩
    simp only
    rw [h1]
    exact (rcderiRead_sound nrE2 _ _ o.2 [] h0).1.symm

theorem ucderiRead_spec {nrE2 : NDArray R → NDArray R → NDArray R} {spaces : List (Space × Space)}
    {coeffs : List (NDArray R × NDArray R)} {m : Dict (List Char) (Dict (List Char) (NDArray R))}
    (h : UCderiReached nrE2 spaces coeffs m) {spin spin' : List Char} (hk : ucderiKey spin = .ok spin') (key : List Char) :
    (ucderiRead nrE2 spaces coeffs spin key m).1
      = cderiSpec nrE2 (pickSpins spaces (eriSpins spin')) (pickSpins coeffs (eriSpins spin')) key := by
  simp only [ucderiRead, hk]
  exact (rcderiRead_sound nrE2 _ _ key _ (nested_getD h.sound spin' [] (fun _ _ _ h => by cases h))).1

/-- Exchange of the pairs of an unrestricted container: the blocks of `aabb` are those of `bbaa`, and each of `aaaa` and
`bbbb` has the symmetry. -/
theorem C55_exchange_unrestricted (nao : Nat) (cderi : NDArray R) (s0 s1 : Space × Space) (c0 c1 : NDArray R × NDArray R)
    (m m' : Dict (List Char) (Dict (List Char) (NDArray R)))
    (hm : UCderiReached (nrE2Packed nao cderi) [s0, s1, s0, s1] [c0, c1, c0, c1] m)
    (hm' : UCderiReached (nrE2Packed nao cderi) [s0, s1, s0, s1] [c0, c1, c0, c1] m') (spins : List Char × List Char)
    (hs : spins ∈ [("aaaa".toList, "aaaa".toList), ("aabb".toList, "bbaa".toList), ("bbaa".toList, "aabb".toList),
      ("bbbb".toList, "bbbb".toList)])
    (a b c d : Char) (x y : NDArray R)
    (hx : (ucderiRead (nrE2Packed nao cderi) [s0, s1, s0, s1] [c0, c1, c0, c1] spins.1 [a, b, c, d] m).1 = .ok x)
    (hy : (ucderiRead (nrE2Packed nao cderi) [s0, s1, s0, s1] [c0, c1, c0, c1] spins.2 [c, d, a, b] m').1 = .ok y)
    (i j k l : Nat) (hb : InBox x.shape [i, j, k, l]) : x.get [i, j, k, l] = y.get [k, l, i, j] := by
  simp only [List.mem_cons, List.not_mem_nil, or_false] at hs
  rcases hs with rfl | rfl | rfl | rfl
  all_goals
    rw [ucderiRead_spec hm rfl] at hx
    rw [ucderiRead_spec hm' rfl] at hy
    exact cderiSpec_swap hx hy i j k l hb

end

/-- Two functions, one auxiliary function, one occupied and one virtual orbital. -/
def cderi55 : NDArray Int := ⟨[1, 3], [1, 2, 3]⟩

def mo55 : NDArray Int := ⟨[2, 2], [1, 1, 0, 1]⟩

def space55 : Space := ⟨[true, false], [false, false], [false, false]⟩

/-- The blocks of a container after a read. -/
example :
    let read := rcderiRead (nrE2Packed 2 cderi55) (List.replicate 4 space55) (List.replicate 4 mo55)
    let m := (read "Qov".toList []).2
    (read "Qov".toList []).1.toOption.map NDArray.data = some [3] ∧
    (read "Qvv".toList m).1.toOption.map NDArray.data = some [8] ∧
    (read "ovvv".toList m).1.toOption.map NDArray.data = some [24] ∧
    (read "pvoo".toList m).1.toOption.map NDArray.data = some [3, 5] := by decide +kernel

end Ebcc
