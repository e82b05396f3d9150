import Verif.Thms.C78
import Verif.Gen.GCCD
import Verif.Gen.GCC2
import Verif.Gen.GCCSD
/-!
C78, second part: `hbar_matvec_ee` is the derivative of the residuals of `update_amps`.
-/

set_option maxRecDepth 1000000

namespace Ebcc

section
variable {R : Type} [NontriviallyNormedField R] [DecidableEq R]

/-- `A` is called with the amplitudes `t + x * s` for all `x`, with the results `w x`; `M` is called with the
amplitudes `t`, the intermediates of `I` and the vector `s`, with the result `m`. -/
def JacCalls78 (A I M : GenFun) (h : GHam R) (t s : GAmps R) (sz : Nat → Nat) (method : ContractMethod)
    (path : List (List Char) → List Char → List (NDArray R) → List Contraction)
    (w : R → Dict (List Char) (NDArray R)) (m : Dict (List Char) (NDArray R)) : Prop :=
  (∀ x, A.call method path sz (h.args0 (t.move s x) sz) = .ok (w x)) ∧
  ∃ i, I.call method path sz (h.args0 t sz) = .ok i ∧
    M.call method path sz (h.eomArgs t sz i (s.vec.arr1 sz) (s.vec.arr2 sz)) = .ok m

/-- The derivative of the residuals of single excitations. -/
def JacSingles78 (sz : Nat → Nat) (w : R → Dict (List Char) (NDArray R)) (m : Dict (List Char) (NDArray R)) : Prop :=
  (∀ x, HasResult (w x) sz (chars! "t1new", [0, 1])) ∧ HasResult m sz (chars! "r1new", [0, 1]) ∧
  ∀ i a, i < sz 0 → a < sz 1 →
    HasDerivAt (fun x => elemOf (w x) (chars! "t1new") [i, a]) (elemOf m (chars! "r1new") [i, a]) 0

/-- The derivative of the residuals of double excitations, with an additional term. -/
def JacDoubles78 (sz : Nat → Nat) (w : R → Dict (List Char) (NDArray R)) (m : Dict (List Char) (NDArray R))
    (ext : Nat → Nat → Nat → Nat → R) : Prop :=
  (∀ x, HasResult (w x) sz (chars! "t2new", [0, 0, 1, 1])) ∧ HasResult m sz (chars! "r2new", [0, 0, 1, 1]) ∧
  ∀ i j a b, i < sz 0 → j < sz 0 → a < sz 1 → b < sz 1 →
    HasDerivAt (fun x => elemOf (w x) (chars! "t2new") [i, j, a, b])
      (elemOf m (chars! "r2new") [i, j, a, b] - ext i j a b) 0

/-- The antisymmetric product of single amplitudes and residuals. -/
def jacExt78 (s : GAmps R) (w : Dict (List Char) (NDArray R)) (i j a b : Nat) : R :=
  s.a1 i a * elemOf w (chars! "t1new") [j, b] - s.a1 j a * elemOf w (chars! "t1new") [i, b] -
    s.a1 i b * elemOf w (chars! "t1new") [j, a] + s.a1 j b * elemOf w (chars! "t1new") [i, a]

theorem jacSingles78 {sz : Nat → Nat} {w : R → Dict (List Char) (NDArray R)} {m : Dict (List Char) (NDArray R)}
    {av : R → List Char → Option (NDArray R)} (hA : ∀ x n, av x ('A' :: n) = (w x).get? n)
    (hM : ∀ n, av 0 ('M' :: n) = m.get? n)
    (k1 : ∀ x, ∀ t ∈ jacIdent1.dterms, t.Ok sz jacIdent1.sps (av x))
    (k2 : ∀ t ∈ jacIdent1.terms, t.Ok sz jacIdent1.sps (av 0))
    (k3 : ∀ idx, InBox ((jacIdent1.sps.take jacIdent1.nf).map sz) idx →
      HasDerivAt (fun x => (jacIdent1.dterms.map fun t => t.val sz jacIdent1.sps jacIdent1.nf (av x) idx).sum)
        (-(jacIdent1.terms.map fun t => t.val sz jacIdent1.sps jacIdent1.nf (av 0) idx).sum) 0) :
    JacSingles78 sz w m := by
  refine ⟨fun x => ?_, ?_, fun i a hi ha => ?_⟩
  · obtain ⟨b, b1, _, b3⟩ := k1 x _ (List.mem_singleton.2 rfl) _ (List.mem_singleton.2 rfl)
    exact ⟨b, (hA x _).symm.trans b1, b3⟩
  · obtain ⟨b, b1, _, b3⟩ := k2 _ (List.mem_singleton.2 rfl) _ (List.mem_singleton.2 rfl)
    exact ⟨b, (hM _).symm.trans b1, b3⟩
  · have := k3 [i, a] (.cons hi (.cons ha .nil))
    simp only [jacIdent1, List.map_cons, List.map_nil, List.sum_cons, List.sum_nil, oneTerm2_val, hA, hM] at this
    convert this using 1
    · funext x; simp [elemOf]
    · simp [elemOf]

theorem jacDoubles78 {sz : Nat → Nat} {w : R → Dict (List Char) (NDArray R)} {m : Dict (List Char) (NDArray R)}
    {av : R → List Char → Option (NDArray R)} (ext : List ITerm) (ext' : Nat → Nat → Nat → Nat → R)
    (hA : ∀ x n, av x ('A' :: n) = (w x).get? n)
    (hM : ∀ n, av 0 ('M' :: n) = m.get? n)
    (hext : ∀ i j a b, i < sz 0 → j < sz 0 → a < sz 1 → b < sz 1 →
      (ext.map fun t => t.val sz [0, 0, 1, 1] 4 (av 0) [i, j, a, b]).sum = ext' i j a b)
    (k1 : ∀ x, ∀ t ∈ (jacIdent2 ext).dterms, t.Ok sz (jacIdent2 ext).sps (av x))
    (k2 : ∀ t ∈ (jacIdent2 ext).terms, t.Ok sz (jacIdent2 ext).sps (av 0))
    (k3 : ∀ idx, InBox (((jacIdent2 ext).sps.take (jacIdent2 ext).nf).map sz) idx →
      HasDerivAt (fun x => ((jacIdent2 ext).dterms.map fun t => t.val sz (jacIdent2 ext).sps (jacIdent2 ext).nf (av x) idx).sum)
        (-((jacIdent2 ext).terms.map fun t => t.val sz (jacIdent2 ext).sps (jacIdent2 ext).nf (av 0) idx).sum) 0) :
    JacDoubles78 sz w m ext' := by
  refine ⟨fun x => ?_, ?_, fun i j a b hi hj ha hb => ?_⟩
  · obtain ⟨b, b1, _, b3⟩ := k1 x _ (List.mem_singleton.2 rfl) _ (List.mem_singleton.2 rfl)
    exact ⟨b, (hA x _).symm.trans b1, b3⟩
  · obtain ⟨b, b1, _, b3⟩ := k2 _ (List.mem_cons_self ..) _ (List.mem_singleton.2 rfl)
    exact ⟨b, (hM _).symm.trans b1, b3⟩
  · have := k3 [i, j, a, b] (.cons hi (.cons hj (.cons ha (.cons hb .nil))))
    simp only [jacIdent2, List.map_cons, List.map_nil, List.sum_cons, List.sum_nil, oneTerm4_val, hA, hM,
      hext i j a b hi hj ha hb] at this
    convert this using 1
    · funext x; simp [elemOf]
    · simp [elemOf]; ring

end

/-- CCSD: single excitations, and double excitations with a term with the residuals of single excitations. -/
theorem C78_CCSD_jacobian (R : Type) [NontriviallyNormedField R] [CharZero R] [DecidableEq R] (h : GHam R)
    (t s : GAmps R) (no nv nb : Nat) (method : ContractMethod)
    (path : List (List Char) → List Char → List (NDArray R) → List Contraction) (hpath : PathOk path) :
    ∃ w m, JacCalls78 Gen.GCCSD.update_amps Gen.GCCSDEom.hbar_matvec_ee_intermediates Gen.GCCSDEom.hbar_matvec_ee
        h t s (spaceSizes no nv nb 0) method path w m ∧
      JacSingles78 (spaceSizes no nv nb 0) w m ∧
      JacDoubles78 (spaceSizes no nv nb 0) w m (jacExt78 s (w 0)) := by
  obtain ⟨w, i, m, av, h1, h2, h3, h4, h5, h6, key⟩ := jac_sound (A := Gen.GCCSD.update_amps)
    (I := Gen.GCCSDEom.hbar_matvec_ee_intermediates) (M := Gen.GCCSDEom.hbar_matvec_ee) (hints := Hints.jac_CCSD)
    (vals := eVals .ee) (rels := [jacIdent1, jacIdent2 jacExt]) (by decide +kernel) (by decide) h t s no nv nb
    (fun x => eVals_rep _ h (t.move s x) t s s.vec s.vec) method path hpath
  obtain ⟨a1, a2, a3⟩ := key _ (List.mem_cons_self ..)
  obtain ⟨b1, b2, b3⟩ := key _ (List.mem_cons_of_mem _ (List.mem_singleton.2 rfl))
  refine ⟨w, m, ⟨h1, i, h2, h3⟩, jacSingles78 h4 h5 a1 a2 a3, jacDoubles78 jacExt _ h4 h5 ?_ b1 b2 b3⟩
  intro i j a b hi hj ha hb
  have e : ∀ i a, i < no → a < nv → (s.vec.arr1 (spaceSizes no nv nb 0)).get [i, a] = s.a1 i a := by
    intro i a hi ha
    exact NDArray.get_ofFn _ _ (.cons hi (.cons ha .nil))
  simp only [jacExt, List.map_cons, List.map_nil, List.sum_cons, List.sum_nil]
  rw [prodTerm4_val _ _ _ _ _ _ _ _ _ (by decide), prodTerm4_val _ _ _ _ _ _ _ _ _ (by decide),
    prodTerm4_val _ _ _ _ _ _ _ _ _ (by decide), prodTerm4_val _ _ _ _ _ _ _ _ _ (by decide)]
  simp only [h6, h4, Option.getD_some, List.map_cons, List.map_nil, List.getD_cons_zero, List.getD_cons_succ,
    e i a hi ha, e j a hj ha, e i b hi hb, e j b hj hb, jacExt78, elemOf]
  push_cast
  ring

/-- CCSD, at amplitudes for which the residuals of single excitations are zero: `hbar_matvec_ee` is the derivative of the
residuals. -/
theorem C78_CCSD_jacobian_at_solution (R : Type) [NontriviallyNormedField R] [CharZero R] [DecidableEq R] (h : GHam R)
    (t s : GAmps R) (no nv nb : Nat) (method : ContractMethod)
    (path : List (List Char) → List Char → List (NDArray R) → List Contraction) (hpath : PathOk path) :
    ∃ w m, JacCalls78 Gen.GCCSD.update_amps Gen.GCCSDEom.hbar_matvec_ee_intermediates Gen.GCCSDEom.hbar_matvec_ee
        h t s (spaceSizes no nv nb 0) method path w m ∧
      JacSingles78 (spaceSizes no nv nb 0) w m ∧
      (ResZero (w 0) (spaceSizes no nv nb 0) [.t1] → JacDoubles78 (spaceSizes no nv nb 0) w m fun _ _ _ _ => 0) := by
  obtain ⟨w, m, h1, h2, h3, h4, h5⟩ := C78_CCSD_jacobian R h t s no nv nb method path hpath
  refine ⟨w, m, h1, h2, fun hz => ⟨h3, h4, fun i j a b hi hj ha hb => ?_⟩⟩
  have e : ∀ i a, i < no → a < nv → elemOf (w 0) (chars! "t1new") [i, a] = 0 := fun i a hi ha =>
    hz _ (List.mem_singleton.2 rfl) [i, a] (mem_box.2 (.cons hi (.cons ha .nil)))
  have := h5 i j a b hi hj ha hb
  rwa [jacExt78, e j b hj hb, e i b hi hb, e j a hj ha, e i a hi ha,
    show s.a1 i a * 0 - s.a1 j a * 0 - s.a1 i b * 0 + s.a1 j b * 0 = 0 by ring] at this

/-- CC2: single excitations. -/
theorem C78_CC2_jacobian_partial (R : Type) [NontriviallyNormedField R] [CharZero R] [DecidableEq R] (h : GHam R)
    (t s : GAmps R) (no nv nb : Nat) (method : ContractMethod)
    (path : List (List Char) → List Char → List (NDArray R) → List Contraction) (hpath : PathOk path) :
    ∃ w m, JacCalls78 Gen.GCC2.update_amps Gen.GCC2Eom.hbar_matvec_ee_intermediates Gen.GCC2Eom.hbar_matvec_ee
        h t s (spaceSizes no nv nb 0) method path w m ∧ JacSingles78 (spaceSizes no nv nb 0) w m := by
  obtain ⟨w, i, m, av, h1, h2, h3, h4, h5, h6, key⟩ := jac_sound (A := Gen.GCC2.update_amps)
    (I := Gen.GCC2Eom.hbar_matvec_ee_intermediates) (M := Gen.GCC2Eom.hbar_matvec_ee) (hints := Hints.jac_CC2)
    (vals := eVals .ee) (rels := [jacIdent1]) (by decide +kernel) (by decide) h t s no nv nb
    (fun x => eVals_rep _ h (t.move s x) t s s.vec s.vec) method path hpath
  obtain ⟨a1, a2, a3⟩ := key _ (List.mem_cons_self ..)
  exact ⟨w, m, ⟨h1, i, h2, h3⟩, jacSingles78 h4 h5 a1 a2 a3⟩

/-- CCD, which has no single amplitudes: double excitations. -/
theorem C78_CCD_jacobian (R : Type) [NontriviallyNormedField R] [CharZero R] [DecidableEq R] (h : GHam R)
    (t s : GAmps R) (hs : ∀ i a, s.a1 i a = 0) (no nv nb : Nat) (method : ContractMethod)
    (path : List (List Char) → List Char → List (NDArray R) → List Contraction) (hpath : PathOk path) :
    ∃ w m, JacCalls78 Gen.GCCD.update_amps Gen.GCCDEom.hbar_matvec_ee_intermediates Gen.GCCDEom.hbar_matvec_ee
        h t s (spaceSizes no nv nb 0) method path w m ∧
      JacDoubles78 (spaceSizes no nv nb 0) w m fun _ _ _ _ => 0 := by
  have hx : ∀ idx, s.vec.x1 idx = 0 := by
    intro idx
    unfold GAmps.vec
    simp only
    split
    · exact hs ..
    · rfl
  obtain ⟨w, i, m, av, h1, h2, h3, h4, h5, h6, key⟩ := jac_sound (A := Gen.GCCD.update_amps)
    (I := Gen.GCCDEom.hbar_matvec_ee_intermediates) (M := Gen.GCCDEom.hbar_matvec_ee) (hints := Hints.jac_CCD)
    (vals := eVals0 .ee) (rels := [jacIdent2 []]) (by decide +kernel) (by decide) h t s no nv nb
    (fun x => eVals0_rep _ h (t.move s x) t s s.vec s.vec hx) method path hpath
  obtain ⟨b1, b2, b3⟩ := key _ (List.mem_cons_self ..)
  exact ⟨w, m, ⟨h1, i, h2, h3⟩, jacDoubles78 [] _ h4 h5 (fun _ _ _ _ _ _ _ _ => rfl) b1 b2 b3⟩

end Ebcc
