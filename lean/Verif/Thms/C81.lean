import Verif.Tensor.SetupB
import Verif.Tensor.Value
import Verif.Gen.Hints.Bosons
import Verif.Gen.RCCSD_S_1_1
import Verif.Gen.UCCSD_S_1_1
import Verif.Gen.RCCSD_SD_1_1
import Verif.Gen.UCCSD_SD_1_1
import Verif.Gen.RCCSD_SD_1_2
import Verif.Gen.UCCSD_SD_1_2
import Verif.Thms.C80B
/-!
C81: the generated energies and residuals of the unrestricted class with bosons are those of the restricted class,
for amplitudes and integrals of a closed-shell calculation, except the singles of CCSD-S-1-1: there the restricted
residual is twice the unrestricted one.
-/

set_option maxRecDepth 1000000

namespace Ebcc

/-- The residuals for bosons, and for bosons and one electron: the same array for both spins. -/
def BosonsAgree {R : Type} (sz : Nat → Nat) (results : List (List Char × List Nat))
    (r u : Dict (List Char) (NDArray R)) : Prop :=
  ∀ x ∈ results, ∃ a, r.get? x.1 = some a ∧ a.shape = x.2.map sz ∧
    if x.2.all (· == 2) then u.get? x.1 = some a
    else u.get? (x.1 ++ chars! ".aa") = some a ∧ u.get? (x.1 ++ chars! ".bb") = some a

/-- The restricted residual for singles is `c` times that of both spins. -/
def SinglesTimes {R : Type} [Field R] (c : R) (name : List Char) (n m : Nat) (r u : Dict (List Char) (NDArray R)) :
    Prop :=
  ∃ a aa bb, r.get? name = some a ∧ a.shape = [n, m] ∧
    u.get? (name ++ chars! ".aa") = some aa ∧ aa.shape = [n, m] ∧
    u.get? (name ++ chars! ".bb") = some bb ∧ bb.shape = [n, m] ∧
    ∀ i j, i < n → j < m → a.get [i, j] = c * aa.get [i, j] ∧ a.get [i, j] = c * bb.get [i, j]

/-- The energies agree for all closed-shell data. -/
def EnergyAgreeB (rf uf : GenFun) : Prop :=
  ∀ (R : Type) [Field R] [CharZero R] [DecidableEq R] (d : BData R) (no nv nb : Nat) (method : ContractMethod)
    (path : List (List Char) → List Char → List (NDArray R) → List Contraction), PathOk path →
    ∃ r u e, rf.call method path (spaceSizes no nv nb 0) (d.rArgs (spaceSizes no nv nb 0)) = .ok r ∧
      uf.call method path (spaceSizes no nv nb 0) (d.uArgs (spaceSizes no nv nb 0)) = .ok u ∧
      r.get? (chars! "e_cc") = some e ∧ u.get? (chars! "e_cc") = some e ∧ e.shape = []

/-- The residuals agree for all closed-shell data; `n1`, `n2` are the names of singles and doubles with axes of
the spaces `s` and `s'`, and `c` is the factor of the singles. -/
def ResidualsAgree (rf uf : GenFun) (c : Nat) (n1 n2 : List Char) (s s' : Nat)
    (results : List (List Char × List Nat)) : Prop :=
  ∀ (R : Type) [Field R] [CharZero R] [DecidableEq R] (d : BData R) (no nv nb : Nat) (method : ContractMethod)
    (path : List (List Char) → List Char → List (NDArray R) → List Contraction), PathOk path →
    ∃ r u, rf.call method path (spaceSizes no nv nb 0) (d.rArgs (spaceSizes no nv nb 0)) = .ok r ∧
      uf.call method path (spaceSizes no nv nb 0) (d.uArgs (spaceSizes no nv nb 0)) = .ok u ∧
      SinglesTimes (c : R) n1 (spaceSizes no nv nb 0 s) (spaceSizes no nv nb 0 s') r u ∧
      DoublesAgree n2 (spaceSizes no nv nb 0 s) (spaceSizes no nv nb 0 s') r u ∧
      BosonsAgree (spaceSizes no nv nb 0) results r u

def relTimes81 (c : Nat) (n1 n2 : List Char) (sp : List Nat) : TRel :=
  (sp, [⟨1, 1, false, n1, List.range sp.length⟩, ⟨Int.negOfNat c, 1, true, n2, List.range sp.length⟩])

def relsBosons81 (results : List (List Char × List Nat)) : List TRel :=
  results.flatMap fun x => bif x.2.all (· == 2) then [relSame x.1 x.1 x.2] else
    [relSame x.1 (x.1 ++ chars! ".aa") x.2, relSame x.1 (x.1 ++ chars! ".bb") x.2]

theorem relTimes81_holds {R : Type} [Field R] {sz : Nat → Nat} {r u : Dict (List Char) (NDArray R)} {c : Nat}
    {n1 n2 : List Char} {s s' : Nat} (h : TRel.Holds sz (relTimes81 c n1 n2 [s, s']) r u) :
    ∃ a b, r.get? n1 = some a ∧ u.get? n2 = some b ∧ a.shape = [sz s, sz s'] ∧ b.shape = [sz s, sz s'] ∧
      ∀ i j, i < sz s → j < sz s' → a.get [i, j] = c * b.get [i, j] := by
  obtain ⟨h1, h2⟩ := h
  obtain ⟨a, a1, a2, a3⟩ := h1 _ (List.mem_cons_self ..)
  obtain ⟨b, b1, b2, b3⟩ := h1 _ (List.mem_cons_of_mem _ (List.mem_cons_self ..))
  simp only [relTimes81, range_map_getD_sz, cond_true, cond_false] at a1 a3 b1 b3 h2
  refine ⟨a, b, a1, b1, by simpa using a3, by simpa using b3, fun i j hi hj => ?_⟩
  have hm : ((List.range [s, s'].length).map fun k => [i, j].getD k 0) = [i, j] := rfl
  have := h2 [i, j] (.cons hi (.cons hj .nil))
  simp only [TTerm.val, List.map_cons, List.map_nil, cond_true, cond_false, a1, b1, hm, List.sum_cons,
    List.sum_nil, Int.negOfNat_eq, Int.ofNat_eq_natCast] at this
  push_cast at this
  simp only [div_one, one_mul] at this
  linear_combination this

theorem energyAgreeB_of_check {rf uf : GenFun} {hints : List Nat}
    (h : checkPair (canonByHints bSym) hints rf (· % 4) rbosVals uf (· % 4) ubVals
      [relSame (chars! "e_cc") (chars! "e_cc") []] = true) : EnergyAgreeB rf uf := by
  intro R _ _ _ d no nv nb method path hpath
  have hs := spaceSizes_mod no nv nb 0
  obtain ⟨r, u, h1, h2, h3⟩ := checkPair_sound (spaceSizes no nv nb 0) d.tensor bSym d.symOk method path hpath
    _ _ _ _ hs hs rbosVals ubVals _ _ (d.rbVals_rep _) (d.ubVals_rep _) rf uf hints _ h
  obtain ⟨a, a1, a2, _, a4⟩ := relSame_holds (h3 _ (List.mem_cons_self ..))
  exact ⟨r, u, a, h1, h2, a1, a2, a4⟩

theorem residualsAgree_of_check {rf uf : GenFun} {c : Nat} {n1 n2 : List Char} {s s' : Nat}
    {results : List (List Char × List Nat)} {hints : List Nat}
    (h : checkPair (canonByHints bSym) hints rf (· % 4) rbosVals uf (· % 4) ubVals
      ([relTimes81 c n1 (n1 ++ chars! ".aa") [s, s'], relTimes81 c n1 (n1 ++ chars! ".bb") [s, s']] ++
        relsSD false n1 n2 s s' ++ relsBosons81 results) = true) :
    ResidualsAgree rf uf c n1 n2 s s' results := by
  intro R _ _ _ d no nv nb method path hpath
  have hs := spaceSizes_mod no nv nb 0
  obtain ⟨r, u, h1, h2, h3⟩ := checkPair_sound (spaceSizes no nv nb 0) d.tensor bSym d.symOk method path hpath
    _ _ _ _ hs hs rbosVals ubVals _ _ (d.rbVals_rep _) (d.ubVals_rep _) rf uf hints _ h
  refine ⟨r, u, h1, h2, ?_, ?_, ?_⟩
  · obtain ⟨a, aa, a1, a2, a3, a4, a5⟩ := relTimes81_holds (h3 (relTimes81 c n1 (n1 ++ chars! ".aa") [s, s'])
      (List.mem_append_left _ (List.mem_append_left _ (List.mem_cons_self ..))))
    obtain ⟨b, bb, b1, b2, b3, b4, b5⟩ := relTimes81_holds (h3 (relTimes81 c n1 (n1 ++ chars! ".bb") [s, s'])
      (List.mem_append_left _ (List.mem_append_left _ (List.mem_cons_of_mem _ (List.mem_cons_self ..)))))
    rw [a1] at b1
    cases b1
    exact ⟨a, aa, bb, a1, a3, a2, a4, b2, b4, fun i j hi hj => ⟨a5 i j hi hj, b5 i j hi hj⟩⟩
  · exact (agree_of_relsSD (singles := false) (n1 := n1) fun rel hrel => h3 rel (List.mem_append_left _ (List.mem_append_right _ hrel))).2
  · intro x hx
    have hin : ∀ rel ∈ (bif x.2.all (· == 2) then [relSame x.1 x.1 x.2] else
        [relSame x.1 (x.1 ++ chars! ".aa") x.2, relSame x.1 (x.1 ++ chars! ".bb") x.2]),
        TRel.Holds (spaceSizes no nv nb 0) rel r u := fun rel hrel =>
      h3 rel (List.mem_append_right _ (List.mem_flatMap.2 ⟨x, hx, hrel⟩))
    cases hb : x.2.all (· == 2) with
    | true =>
      rw [hb, cond_true] at hin
      obtain ⟨a, a1, a2, _, a4⟩ := relSame_holds (hin _ (List.mem_cons_self ..))
      exact ⟨a, a1, a4, by simpa using a2⟩
    | false =>
      rw [hb, cond_false] at hin
      obtain ⟨a, a1, a2, _, a4⟩ := relSame_holds (hin _ (List.mem_cons_self ..))
      obtain ⟨b, b1, b2, _, _⟩ := relSame_holds (hin _ (List.mem_cons_of_mem _ (List.mem_cons_self ..)))
      rw [a1] at b1
      cases b1
      exact ⟨a, a1, a4, by simpa using ⟨a2, b2⟩⟩

theorem C81_CCSD_S_1_1_energy : EnergyAgreeB Gen.RCCSD_S_1_1.energy Gen.UCCSD_S_1_1.energy :=
  energyAgreeB_of_check (hints := Hints.energy_CCSD_S_1_1) (by decide +kernel)

/-- What is missing for equal residuals: the factor 2 of the singles. -/
theorem C81_CCSD_S_1_1_amps_partial : ResidualsAgree Gen.RCCSD_S_1_1.update_amps Gen.UCCSD_S_1_1.update_amps 2
    (chars! "t1new") (chars! "t2new") 0 1
    [(chars! "s1new", [2]), (chars! "u11new", [2, 0, 1])] :=
  residualsAgree_of_check (hints := Hints.amps_CCSD_S_1_1) (by decide +kernel)

theorem C81_CCSD_SD_1_1_energy : EnergyAgreeB Gen.RCCSD_SD_1_1.energy Gen.UCCSD_SD_1_1.energy :=
  energyAgreeB_of_check (hints := Hints.energy_CCSD_SD_1_1) (by decide +kernel)

theorem C81_CCSD_SD_1_1_amps : ResidualsAgree Gen.RCCSD_SD_1_1.update_amps Gen.UCCSD_SD_1_1.update_amps 1
    (chars! "t1new") (chars! "t2new") 0 1
    [(chars! "s1new", [2]), (chars! "s2new", [2, 2]), (chars! "u11new", [2, 0, 1])] :=
  residualsAgree_of_check (hints := Hints.amps_CCSD_SD_1_1) (by decide +kernel)

theorem C81_CCSD_SD_1_2_energy : EnergyAgreeB Gen.RCCSD_SD_1_2.energy Gen.UCCSD_SD_1_2.energy :=
  energyAgreeB_of_check (hints := Hints.energy_CCSD_SD_1_2) (by decide +kernel)

theorem C81_CCSD_SD_1_2_amps : ResidualsAgree Gen.RCCSD_SD_1_2.update_amps Gen.UCCSD_SD_1_2.update_amps 1
    (chars! "t1new") (chars! "t2new") 0 1
    [(chars! "s1new", [2]), (chars! "s2new", [2, 2]), (chars! "u11new", [2, 0, 1]), (chars! "u12new", [2, 2, 0, 1])] :=
  residualsAgree_of_check (hints := Hints.amps_CCSD_SD_1_2) (by decide +kernel)

/-- Data for the examples. -/
def exData81 : BData ℚ where
  toCCData := exData72
  g x p q := x + p.2 + 2 * q.2 + 1
  G x := x + 1
  w x y := if x = y then 1 else 1 / 2
  s1 x := x + 2
  s2 x y := x + y + 1
  u11 x i a := x + i + 2 * a + 1
  u12 x y i a := x + y + i + a
  ls1 x := x + 3
  ls2 x y := x + y + 2
  lu11 x a i := x + a + i + 1
  lu12 x y a i := x + y + a * i
  w_symm x y := by simp only [eq_comm]
  s2_symm x y := by ring
  u12_symm x y i a := by ring
  ls2_symm x y := by ring
  lu12_symm x y a i := by ring

theorem exData81_value {hints : List Nat} {f : GenFun} {no nv nb : Nat} {name : List Char} {idx : List Nat} {x : ℚ}
    (h : symElem bSym hints f rbosVals (spaceSizes no nv nb 0) exData81.tensor name idx = some x) :
    ∃ r a, f.call .backend onePath (spaceSizes no nv nb 0) (exData81.rArgs (spaceSizes no nv nb 0)) = .ok r ∧
      r.get? name = some a ∧ a.get idx = x :=
  symElem_sound h exData81.symOk (spaceSizes_mod _ _ _ _) _ (exData81.rbVals_rep _) _ _ onePath_ok

theorem exData81_t1new : ∃ r a, Gen.RCCSD_S_1_1.update_amps.call .backend onePath (spaceSizes 2 1 1 0)
    (exData81.rArgs (spaceSizes 2 1 1 0)) = .ok r ∧
    r.get? (chars! "t1new") = some a ∧ a.get [1, 0] = -348 :=
  exData81_value (hints := Hints.amps_CCSD_S_1_1) (by decide +kernel)

/-- The residual for the singles of the restricted CCSD-S-1-1 is not that of the unrestricted one. -/
theorem C81_CCSD_S_1_1_amps_false : ¬ ResidualsAgree Gen.RCCSD_S_1_1.update_amps Gen.UCCSD_S_1_1.update_amps 1
    (chars! "t1new") (chars! "t2new") 0 1 [(chars! "s1new", [2]), (chars! "u11new", [2, 0, 1])] := by
  intro h
  obtain ⟨r, u, r1, u1, ⟨a, aa, _, a1, _, a2, _, _, _, a3⟩, _⟩ := h ℚ exData81 2 1 1 .backend onePath onePath_ok
  obtain ⟨r', u', r1', u1', ⟨b, bb, _, b1, _, b2, _, _, _, b3⟩, _⟩ :=
    C81_CCSD_S_1_1_amps_partial ℚ exData81 2 1 1 .backend onePath onePath_ok
  obtain ⟨r'', x, x1, x2, x3⟩ := exData81_t1new
  rw [r1] at r1' x1
  cases r1'
  cases x1
  rw [u1] at u1'
  cases u1'
  rw [a1] at b1 x2
  cases b1
  cases x2
  rw [a2] at b2
  cases b2
  have e1 := (a3 1 0 (by decide) (by decide)).1
  have e2 := (b3 1 0 (by decide) (by decide)).1
  rw [x3] at e1 e2
  push_cast at e1 e2
  rw [one_mul] at e1
  rw [← e1] at e2
  norm_num at e2

/-- Elements of the results for two occupied orbitals, one virtual orbital and one boson. -/
example : ∃ r a, Gen.RCCSD_SD_1_1.energy.call .backend onePath (spaceSizes 2 1 1 0)
    (exData81.rArgs (spaceSizes 2 1 1 0)) = .ok r ∧ r.get? (chars! "e_cc") = some a ∧ a.get [] = 152 :=
  exData81_value (hints := Hints.energy_CCSD_SD_1_1) (by decide +kernel)

example : ∃ r a, Gen.RCCSD_SD_1_2.update_amps.call .backend onePath (spaceSizes 2 1 1 0)
    (exData81.rArgs (spaceSizes 2 1 1 0)) = .ok r ∧ r.get? (chars! "u12new") = some a ∧ a.get [0, 0, 1, 0] = -1307 / 2 :=
  exData81_value (hints := Hints.amps_CCSD_SD_1_2) (by decide +kernel)

end Ebcc
