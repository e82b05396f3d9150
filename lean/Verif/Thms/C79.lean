import Verif.Lemmas.GenInts
import Verif.Thms.C78N
import Verif.Gen.GMP2Eom
import Verif.Gen.GCCDEom
import Verif.Gen.GCC2Eom
import Verif.Gen.GCCSDEom
import Verif.Gen.RMP2Eom
import Verif.Gen.RCCDEom
import Verif.Gen.RCC2Eom
import Verif.Gen.RCCSDEom
import Verif.Gen.RDFCCDEom
import Verif.Gen.RDFCC2Eom
import Verif.Gen.RDFCCSDEom
import Verif.Gen.UMP2Eom
import Verif.Gen.UCCDEom
import Verif.Gen.UCC2Eom
import Verif.Gen.UCCSDEom
import Verif.Gen.UDFCCDEom
import Verif.Gen.UDFCC2Eom
import Verif.Gen.UDFCCSDEom
/-!
C79: products of any number of vectors with the same intermediates, though the generated functions delete them.
-/

set_option maxRecDepth 1000000

namespace Ebcc

/-- For all arguments and vectors: if `ints` are the intermediates, then products one after the other that are given the
same namespace `ints` have the results (or the first exception) of single calls with these intermediates. -/
def SameProducts79 (p : GenFun × GenFun) : Prop :=
  ∀ (R : Type) [Field R] [DecidableEq R] (method : ContractMethod)
    (path : List (List Char) → List Char → List (NDArray R) → List Contraction) (sizes : Nat → Nat)
    (args : List Char → Option (NDArray R)) (ints : Dict (List Char) (NDArray R))
    (excs : List (Dict (List Char) (NDArray R))), p.1.call method path sizes args = .ok ints →
    (eomProducts p.1 p.2 method path sizes args excs ints).map Prod.fst =
      excs.mapM fun exc => p.2.call method path sizes (eomVals args ints exc)

/-- The namespace of the caller after the products. -/
def IntsAfter79 (p : GenFun × GenFun) (Q : ∀ {R : Type}, Dict (List Char) (NDArray R) → Dict (List Char) (NDArray R) → Prop) : Prop :=
  ∀ (R : Type) [Field R] [DecidableEq R] (method : ContractMethod)
    (path : List (List Char) → List Char → List (NDArray R) → List Contraction) (sizes : Nat → Nat)
    (args : List Char → Option (NDArray R)) (ints after : Dict (List Char) (NDArray R))
    (excs : List (Dict (List Char) (NDArray R))) (rs : List (Dict (List Char) (NDArray R))),
    p.1.call method path sizes args = .ok ints → excs ≠ [] →
    eomProducts p.1 p.2 method path sizes args excs ints = .ok (rs, after) → Q ints after

/-- The namespace is unchanged. -/
def IntsKept79 (p : GenFun × GenFun) : Prop := IntsAfter79 p fun ints after => after = ints

/-- The namespace was not empty and is empty. -/
def IntsEmptied79 (p : GenFun × GenFun) : Prop := IntsAfter79 p fun ints after => ints ≠ [] ∧ after = []

section
variable {R : Type} [Field R] [DecidableEq R] {method : ContractMethod}
  {path : List (List Char) → List Char → List (NDArray R) → List Contraction} {sizes : Nat → Nat}
  {args : List Char → Option (NDArray R)} {ints : Dict (List Char) (NDArray R)}

theorem product79 {I M : GenFun} {pos : List Nat} (hc : keepsInts M = true ∨ dropsInts pos I M = true)
    (hi : I.call method path sizes args = .ok ints) (exc : Dict (List Char) (NDArray R))
    (cache : Dict (List Char) (NDArray R)) (hcache : cache = ints ∨ cache = []) :
    (∃ e, M.call method path sizes (eomVals args ints exc) = .error e ∧
      eomProduct I M method path sizes args exc cache = .error e) ∨
    ∃ r cache', M.call method path sizes (eomVals args ints exc) = .ok r ∧
      eomProduct I M method path sizes args exc cache = .ok (r, cache') ∧ (cache' = ints ∨ cache' = []) := by
  have hrun := GenFun.run_fst (method := method) (path := path) (sizes := sizes) M (eomVals args ints exc)
  unfold eomProduct
  by_cases he : cache.isEmpty = true
  · have hn : cache = [] := List.isEmpty_iff.1 he
    rw [if_pos he, hi]
    simp only [bind, Except.bind, pure, Except.pure]
    cases hr : M.run method path sizes (eomVals args ints exc) with
    | error e =>
      rw [hr] at hrun
      exact .inl ⟨e, hrun.symm, rfl⟩
    | ok r =>
      rw [hr] at hrun
      exact .inr ⟨r.1, cache, hrun.symm, rfl, .inr hn⟩
  · rw [if_neg he]
    have hn : cache = ints := by
      rcases hcache with h | h
      · exact h
      · subst h; exact absurd rfl he
    subst hn
    simp only [bind, Except.bind, pure, Except.pure]
    cases hr : M.run method path sizes (eomVals args cache exc) with
    | error e =>
      rw [hr] at hrun
      exact .inl ⟨e, hrun.symm, rfl⟩
    | ok r =>
      rw [hr] at hrun
      refine .inr ⟨r.1, _, hrun.symm, rfl, ?_⟩
      rcases hc with h | h
      · exact .inl (intsLeft_of_keeps h _ hr)
      · exact .inr (intsLeft_of_drops h hi hr)

theorem products79 {I M : GenFun} {pos : List Nat} (hc : keepsInts M = true ∨ dropsInts pos I M = true)
    (hi : I.call method path sizes args = .ok ints) : ∀ (excs : List (Dict (List Char) (NDArray R)))
    (cache : Dict (List Char) (NDArray R)), cache = ints ∨ cache = [] →
    (eomProducts I M method path sizes args excs cache).map Prod.fst =
      excs.mapM fun exc => M.call method path sizes (eomVals args ints exc)
  | [], cache, _ => rfl
  | exc :: l, cache, h => by
    rw [List.mapM_cons]
    simp only [eomProducts, bind, Except.bind, pure, Except.pure]
    rcases product79 hc hi exc cache h with ⟨e, h1, h2⟩ | ⟨r, c, h1, h2, h3⟩
    · rw [h1, h2]; rfl
    · rw [h1, h2]
      simp only
      have := products79 hc hi l c h3
      rw [← this]
      cases eomProducts I M method path sizes args l c <;> rfl

theorem after_kept79 {I M : GenFun} (hc : keepsInts M = true) (hi : I.call method path sizes args = .ok ints) :
    ∀ (excs : List (Dict (List Char) (NDArray R))) {rs : List (Dict (List Char) (NDArray R))}
      {after : Dict (List Char) (NDArray R)},
      eomProducts I M method path sizes args excs ints = .ok (rs, after) → after = ints
  | [], rs, after, h => by cases h; rfl
  | exc :: l, rs, after, h => by
    simp only [eomProducts, bind, Except.bind, pure, Except.pure] at h
    split at h
    · cases h
    · rename_i r hr
      split at h
      · cases h
      · rename_i rs' hrs
        cases h
        have e : r.2 = ints := by
          unfold eomProduct at hr
          split at hr
          · simp only [bind, Except.bind, pure, Except.pure, hi] at hr
            split at hr
            · cases hr
            · cases hr; rfl
          · simp only [bind, Except.bind, pure, Except.pure] at hr
            split at hr
            · cases hr
            · rename_i hr'
              cases hr
              exact intsLeft_of_keeps hc _ hr'
        rw [e] at hrs
        exact after_kept79 hc hi l hrs

theorem after_empty79 {I M : GenFun} (hi : I.call method path sizes args = .ok ints) :
    ∀ (excs : List (Dict (List Char) (NDArray R))) {rs : List (Dict (List Char) (NDArray R))}
      {after : Dict (List Char) (NDArray R)},
      eomProducts I M method path sizes args excs [] = .ok (rs, after) → after = []
  | [], rs, after, h => by cases h; rfl
  | exc :: l, rs, after, h => by
    simp only [eomProducts, eomProduct, List.isEmpty_nil, if_true, bind, Except.bind, pure, Except.pure, hi] at h
    split at h
    · cases h
    · rename_i r hr
      split at h
      · cases h
      · rename_i rs' hrs
        cases h
        split at hr
        · cases hr
        · cases hr
          exact after_empty79 hi l hrs

end

theorem kept79 {l : List (GenFun × GenFun)} (hc : (l.all fun p => keepsInts p.2) = true) :
    ∀ p ∈ l, SameProducts79 p ∧ IntsKept79 p := by
  intro p hp
  refine ⟨?_, ?_⟩
  · intro R _ _ method path sizes args ints excs hi
    exact products79 (pos := []) (.inl (List.all_eq_true.1 hc p hp)) hi excs ints (.inl rfl)
  · intro R _ _ method path sizes args ints after excs rs hi _ h
    exact after_kept79 (List.all_eq_true.1 hc p hp) hi excs h

theorem emptied79 {l : List (GenFun × GenFun)} {pos : List (List Nat)} (hl : pos.length = l.length)
    (hc : ((l.zip pos).all fun p => dropsInts p.2 p.1.1 p.1.2 && !p.1.1.ret.isEmpty) = true) :
    ∀ p ∈ l, SameProducts79 p ∧ IntsEmptied79 p := by
  intro p hp
  obtain ⟨i, hlt, e⟩ := List.getElem_of_mem hp
  have := List.all_eq_true.1 hc (p, pos[i]'(hl ▸ hlt))
    (List.mem_iff_getElem.2 ⟨i, by simp [hl, hlt], by simp [e]⟩)
  rw [Bool.and_eq_true] at this
  obtain ⟨hd, hr⟩ := this
  refine ⟨fun R _ _ method path sizes args ints excs hi => products79 (.inr hd) hi excs ints (.inl rfl), ?_⟩
  intro R _ _ method path sizes args ints after excs rs hi hne h
  have hn : ints ≠ [] := by
    intro e
    have := GenFun.call_keys hi
    rw [e] at this
    rw [List.map_eq_nil_iff.1 this.symm] at hr
    cases hr
  refine ⟨hn, ?_⟩
  cases excs with
  | nil => exact absurd rfl hne
  | cons exc l =>
    simp only [eomProducts, bind, Except.bind, pure, Except.pure] at h
    split at h
    · cases h
    · rename_i r hr
      split at h
      · cases h
      · rename_i rs' hrs
        cases h
        have e : r.2 = [] := by
          unfold eomProduct at hr
          rw [if_neg (by simpa using hn)] at hr
          simp only [bind, Except.bind, pure, Except.pure] at hr
          split at hr
          · cases hr
          · rename_i hr'
            cases hr
            exact intsLeft_of_drops hd hi hr'
        rw [e] at hrs
        exact after_empty79 hi l hrs

/-! The functions of the modules. -/

open Gen.GMP2Eom in
/-- The functions of ebcc/codegen/GMP2.py. -/
def funsGMP279 : List (GenFun × GenFun) :=
  [(hbar_matvec_ip_intermediates, hbar_matvec_ip),
    (hbar_matvec_ea_intermediates, hbar_matvec_ea),
    (hbar_matvec_ee_intermediates, hbar_matvec_ee)]

theorem C79_GMP2 : ∀ p ∈ funsGMP279, SameProducts79 p ∧ IntsEmptied79 p :=
  emptied79 (pos := [[2],
    [2],
    [6, 7]])
    (by decide +kernel) (by decide +kernel)

open Gen.GCCDEom in
/-- The functions of ebcc/codegen/GCCD.py. -/
def funsGCCD79 : List (GenFun × GenFun) :=
  [(hbar_matvec_ip_intermediates, hbar_matvec_ip),
    (hbar_lmatvec_ip_intermediates, hbar_lmatvec_ip),
    (hbar_matvec_ea_intermediates, hbar_matvec_ea),
    (hbar_lmatvec_ea_intermediates, hbar_lmatvec_ea),
    (hbar_matvec_ee_intermediates, hbar_matvec_ee),
    (hbar_lmatvec_ee_intermediates, hbar_lmatvec_ee)]

theorem C79_GCCD : ∀ p ∈ funsGCCD79, SameProducts79 p ∧ IntsEmptied79 p :=
  emptied79 (pos := [[6, 17, 13, 4, 9, 16, 10, 1, 11, 14],
    [12, 15, 8, 7, 2, 0, 13, 16, 14, 17],
    [1, 7, 4, 11, 12, 14, 13, 9],
    [13, 3, 1, 14, 11, 15, 10, 7],
    [5, 17, 19, 10, 14, 20, 16, 12, 21, 11, 18, 8],
    [20, 15, 17, 19, 11, 8, 1, 14, 21, 16, 18, 22]])
    (by decide +kernel) (by decide +kernel)

open Gen.GCC2Eom in
/-- The functions of ebcc/codegen/GCC2.py. -/
def funsGCC279 : List (GenFun × GenFun) :=
  [(hbar_matvec_ip_intermediates, hbar_matvec_ip),
    (hbar_lmatvec_ip_intermediates, hbar_lmatvec_ip),
    (hbar_matvec_ea_intermediates, hbar_matvec_ea),
    (hbar_lmatvec_ea_intermediates, hbar_lmatvec_ea),
    (hbar_matvec_ee_intermediates, hbar_matvec_ee),
    (hbar_lmatvec_ee_intermediates, hbar_lmatvec_ee)]

theorem C79_GCC2 : ∀ p ∈ funsGCC279, SameProducts79 p ∧ IntsEmptied79 p :=
  emptied79 (pos := [[1, 24, 17, 23, 13, 14, 3, 15, 21, 27, 19, 9, 7, 26, 5, 25, 16, 18],
    [5, 31, 2, 28, 16, 29, 22, 38, 23, 30, 39, 24, 32, 12, 17, 14, 33, 25, 34, 40, 26, 35, 18, 19, 9, 0, 36, 15, 20,
      37, 21],
    [22, 17, 13, 14, 9, 15, 12, 8, 20, 4, 3, 16, 18, 21],
    [15, 29, 2, 12, 32, 13, 30, 26, 22, 27, 14, 23, 31, 9, 16, 4, 17, 18, 25, 24, 19, 10, 20, 34, 21],
    [6, 13, 32, 25, 29, 33, 30, 10, 26, 27, 16, 12, 28, 14, 18, 34, 23, 15, 31, 20, 21, 7],
    [3, 34, 36, 21, 37, 17, 4, 14, 22, 24, 38, 20, 23, 42, 18, 47, 31, 43, 50, 32, 25, 44, 19, 26, 15, 39, 7, 48, 27,
      33, 45, 28, 46, 29, 40, 41, 30, 49, 35]])
    (by decide +kernel) (by decide +kernel)

open Gen.GCCSDEom in
/-- The functions of ebcc/codegen/GCCSD.py. -/
def funsGCCSD79 : List (GenFun × GenFun) :=
  [(hbar_matvec_ip_intermediates, hbar_matvec_ip),
    (hbar_lmatvec_ip_intermediates, hbar_lmatvec_ip),
    (hbar_matvec_ea_intermediates, hbar_matvec_ea),
    (hbar_lmatvec_ea_intermediates, hbar_lmatvec_ea),
    (hbar_matvec_ee_intermediates, hbar_matvec_ee),
    (hbar_lmatvec_ee_intermediates, hbar_lmatvec_ee)]

theorem C79_GCCSD : ∀ p ∈ funsGCCSD79, SameProducts79 p ∧ IntsKept79 p := kept79 (by decide +kernel)

open Gen.RMP2Eom in
/-- The functions of ebcc/codegen/RMP2.py. -/
def funsRMP279 : List (GenFun × GenFun) :=
  [(hbar_matvec_ip_intermediates, hbar_matvec_ip),
    (hbar_matvec_ea_intermediates, hbar_matvec_ea)]

theorem C79_RMP2 : ∀ p ∈ funsRMP279, SameProducts79 p ∧ IntsEmptied79 p :=
  emptied79 (pos := [[1, 0],
    [1, 0]])
    (by decide +kernel) (by decide +kernel)

open Gen.RCCDEom in
/-- The functions of ebcc/codegen/RCCD.py. -/
def funsRCCD79 : List (GenFun × GenFun) :=
  [(hbar_matvec_ip_intermediates, hbar_matvec_ip),
    (hbar_lmatvec_ip_intermediates, hbar_lmatvec_ip),
    (hbar_matvec_ea_intermediates, hbar_matvec_ea),
    (hbar_lmatvec_ea_intermediates, hbar_lmatvec_ea)]

theorem C79_RCCD : ∀ p ∈ funsRCCD79, SameProducts79 p ∧ IntsEmptied79 p :=
  emptied79 (pos := [[14, 11, 24, 20, 19, 25, 5, 2, 3, 1, 21, 12, 15, 26, 8, 9, 13, 16, 18, 22, 29],
    [24, 22, 2, 21, 25, 14, 17, 18, 15, 23, 26, 16, 19, 5, 12, 13, 10, 31, 8, 9, 3],
    [12, 24, 2, 5, 22, 21, 6, 3, 13, 15, 16, 10, 11, 9, 4, 7, 25, 17, 18],
    [18, 16, 6, 15, 19, 21, 17, 20, 23, 22, 25, 24, 9, 8, 2, 12, 13, 10, 5]])
    (by decide +kernel) (by decide +kernel)

open Gen.RCC2Eom in
/-- The functions of ebcc/codegen/RCC2.py. -/
def funsRCC279 : List (GenFun × GenFun) :=
  [(hbar_matvec_ip_intermediates, hbar_matvec_ip),
    (hbar_lmatvec_ip_intermediates, hbar_lmatvec_ip),
    (hbar_matvec_ea_intermediates, hbar_matvec_ea),
    (hbar_lmatvec_ea_intermediates, hbar_lmatvec_ea)]

theorem C79_RCC2 : ∀ p ∈ funsRCC279, SameProducts79 p ∧ IntsEmptied79 p :=
  emptied79 (pos := [[3, 5, 4, 36, 34, 11, 40, 23, 19, 15, 12, 37, 16, 6, 9, 10, 8, 24, 13, 35, 20, 25, 17, 30, 28, 33, 21, 22, 26, 27,
      32, 38],
    [2, 34, 28, 45, 32, 21, 9, 7, 8, 5, 59, 13, 57, 11, 22, 46, 33, 48, 29, 66, 4, 3, 47, 35, 36, 23, 61, 62, 67, 49,
      51, 37, 30, 50, 38, 39, 52, 63, 69, 68, 40, 53, 24, 31, 64, 25, 41, 54, 16, 26, 60, 58, 55, 42, 44, 27, 65, 56,
      43],
    [23, 21, 16, 19, 13, 34, 25, 6, 26, 29, 8, 7, 30, 31, 27, 32, 33, 28, 14, 17, 35, 18, 11, 12, 10, 4, 3],
    [30, 5, 39, 26, 17, 25, 28, 40, 27, 51, 52, 41, 29, 42, 18, 10, 8, 32, 43, 31, 22, 45, 44, 33, 19, 23, 24, 20, 55,
      46, 34, 35, 47, 57, 36, 48, 21, 6, 37, 7, 49, 15, 13, 11, 16, 50, 38]])
    (by decide +kernel) (by decide +kernel)

open Gen.RCCSDEom in
/-- The functions of ebcc/codegen/RCCSD.py. -/
def funsRCCSD79 : List (GenFun × GenFun) :=
  [(hbar_matvec_ip_intermediates, hbar_matvec_ip),
    (hbar_lmatvec_ip_intermediates, hbar_lmatvec_ip),
    (hbar_matvec_ea_intermediates, hbar_matvec_ea),
    (hbar_lmatvec_ea_intermediates, hbar_lmatvec_ea)]

theorem C79_RCCSD : ∀ p ∈ funsRCCSD79, SameProducts79 p ∧ IntsKept79 p := kept79 (by decide +kernel)

open Gen.RDFCCDEom in
/-- The functions of ebcc/codegen/RDFCCD.py. -/
def funsRDFCCD79 : List (GenFun × GenFun) :=
  [(hbar_matvec_ip_intermediates, hbar_matvec_ip),
    (hbar_lmatvec_ip_intermediates, hbar_lmatvec_ip),
    (hbar_matvec_ea_intermediates, hbar_matvec_ea),
    (hbar_lmatvec_ea_intermediates, hbar_lmatvec_ea)]

theorem C79_RDFCCD : ∀ p ∈ funsRDFCCD79, SameProducts79 p ∧ IntsEmptied79 p :=
  emptied79 (pos := [[2, 3, 0, 18, 12, 24, 21, 19, 6, 4, 17, 7, 14, 13, 5, 22, 25, 29, 8, 10, 11, 23, 26, 15, 28],
    [27, 25, 14, 1, 13, 24, 28, 22, 18, 19, 16, 26, 17, 29, 20, 10, 31, 11, 15, 8, 21, 9, 6, 7, 3],
    [4, 7, 10, 16, 17, 5, 28, 13, 18, 21, 3, 2, 22, 19, 6, 25, 8, 9, 27, 20, 23, 11, 26],
    [24, 22, 2, 12, 0, 13, 21, 25, 14, 23, 26, 17, 15, 16, 18, 5, 10, 9, 29, 6, 7, 27, 19]])
    (by decide +kernel) (by decide +kernel)

open Gen.RDFCC2Eom in
/-- The functions of ebcc/codegen/RDFCC2.py. -/
def funsRDFCC279 : List (GenFun × GenFun) :=
  [(hbar_matvec_ip_intermediates, hbar_matvec_ip),
    (hbar_lmatvec_ip_intermediates, hbar_lmatvec_ip),
    (hbar_matvec_ea_intermediates, hbar_matvec_ea),
    (hbar_lmatvec_ea_intermediates, hbar_lmatvec_ea)]

theorem C79_RDFCC2 : ∀ p ∈ funsRDFCC279, SameProducts79 p ∧ IntsEmptied79 p :=
  emptied79 (pos := [[29, 20, 37, 43, 19, 31, 17, 30, 35, 33, 21, 32, 40, 15, 10, 6, 39, 24, 22, 25, 16, 27, 36, 11, 23, 7, 12, 26, 3, 1,
      8, 9, 13, 14, 34, 38],
    [14, 24, 53, 70, 69, 46, 19, 17, 34, 21, 47, 58, 35, 22, 54, 36, 23, 48, 5, 20, 6, 12, 18, 9, 7, 68, 49, 38, 37,
      25, 55, 26, 63, 3, 16, 1, 15, 39, 40, 27, 50, 59, 60, 64, 41, 28, 56, 65, 42, 29, 30, 43, 61, 66, 31, 44, 51,
      57, 33, 62, 52, 32, 45],
    [22, 5, 4, 3, 34, 9, 33, 7, 25, 11, 12, 23, 13, 30, 37, 14, 35, 17, 32, 31, 18, 19, 15, 20, 21, 16, 24, 26, 27,
      28, 36],
    [21, 14, 47, 44, 9, 7, 18, 30, 17, 49, 31, 19, 43, 45, 32, 20, 59, 57, 58, 34, 33, 22, 46, 8, 23, 50, 4, 12, 2,
      10, 36, 61, 35, 24, 53, 37, 25, 55, 54, 52, 56, 42, 38, 26, 27, 39, 60, 28, 40, 51, 15, 29, 16, 41]])
    (by decide +kernel) (by decide +kernel)

open Gen.RDFCCSDEom in
/-- The functions of ebcc/codegen/RDFCCSD.py. -/
def funsRDFCCSD79 : List (GenFun × GenFun) :=
  [(hbar_matvec_ip_intermediates, hbar_matvec_ip),
    (hbar_lmatvec_ip_intermediates, hbar_lmatvec_ip),
    (hbar_matvec_ea_intermediates, hbar_matvec_ea),
    (hbar_lmatvec_ea_intermediates, hbar_lmatvec_ea)]

theorem C79_RDFCCSD : ∀ p ∈ funsRDFCCSD79, SameProducts79 p ∧ IntsEmptied79 p :=
  emptied79 (pos := [[65, 8, 49, 50, 36, 51, 37, 23, 2, 9, 11, 38, 24, 39, 52, 12, 40, 53, 13, 54, 41, 7, 32, 69, 30, 66, 70, 67, 75, 31,
      72, 33, 25, 60, 61, 4, 14, 34, 42, 10, 26, 71, 15, 16, 17, 43, 55, 62, 18, 19, 27, 20, 35, 63, 68, 56, 44, 45,
      57, 46, 28, 58, 47, 21, 76, 73, 3, 22, 29, 59, 48],
    [18, 38, 15, 78, 31, 68, 22, 19, 48, 35, 32, 69, 59, 28, 49, 36, 75, 50, 6, 37, 33, 70, 12, 23, 13, 14, 30, 20,
      25, 29, 34, 26, 71, 51, 9, 2, 39, 16, 40, 64, 5, 24, 3, 21, 52, 53, 41, 72, 60, 61, 65, 54, 42, 76, 66, 10, 55,
      43, 44, 56, 62, 67, 45, 57, 73, 77, 47, 63, 74, 46, 58],
    [16, 2, 47, 34, 35, 48, 36, 49, 37, 38, 50, 15, 20, 1, 21, 9, 51, 39, 40, 52, 7, 10, 6, 61, 65, 58, 62, 22, 33,
      31, 41, 28, 24, 3, 66, 17, 53, 25, 67, 18, 32, 59, 54, 42, 29, 26, 4, 19, 55, 63, 43, 8, 30, 27, 44, 13, 45, 56,
      46, 57],
    [48, 16, 35, 32, 23, 31, 45, 20, 57, 17, 44, 40, 58, 46, 24, 33, 21, 59, 18, 47, 29, 68, 8, 26, 60, 4, 49, 34, 25,
      50, 41, 11, 30, 9, 27, 62, 12, 61, 51, 36, 63, 52, 38, 37, 43, 39, 0, 5, 64, 53, 54, 65, 13, 55, 66, 42, 19, 56,
      22, 67]])
    (by decide +kernel) (by decide +kernel)

open Gen.UMP2Eom in
/-- The functions of ebcc/codegen/UMP2.py. -/
def funsUMP279 : List (GenFun × GenFun) :=
  [(hbar_matvec_ip_intermediates, hbar_matvec_ip),
    (hbar_matvec_ea_intermediates, hbar_matvec_ea)]

theorem C79_UMP2 : ∀ p ∈ funsUMP279, SameProducts79 p ∧ IntsEmptied79 p :=
  emptied79 (pos := [[0, 1, 2, 3],
    [8, 9, 10, 11]])
    (by decide +kernel) (by decide +kernel)

open Gen.UCCDEom in
/-- The functions of ebcc/codegen/UCCD.py. -/
def funsUCCD79 : List (GenFun × GenFun) :=
  [(hbar_matvec_ip_intermediates, hbar_matvec_ip),
    (hbar_lmatvec_ip_intermediates, hbar_lmatvec_ip),
    (hbar_matvec_ea_intermediates, hbar_matvec_ea),
    (hbar_lmatvec_ea_intermediates, hbar_lmatvec_ea)]

theorem C79_UCCD : ∀ p ∈ funsUCCD79, SameProducts79 p ∧ IntsEmptied79 p :=
  emptied79 (pos := [[2, 25, 8, 28, 4, 9, 5, 51, 45, 46, 56, 48, 49, 58, 3, 47, 42, 37, 39, 0, 7, 6, 38, 76, 73, 83, 81, 74, 75, 77, 78,
      12, 16, 11, 10, 69, 70, 34, 14, 32, 18, 15, 19, 17, 84, 62, 60, 67, 63, 64, 65, 68, 79, 52, 43, 44, 57, 53, 54],
    [64, 81, 50, 46, 47, 42, 44, 24, 17, 19, 4, 8, 5, 9, 35, 36, 18, 40, 38, 67, 73, 74, 68, 76, 86, 78, 70, 82, 87,
      79, 83, 69, 75, 66, 71, 65, 77, 84, 52, 59, 6, 72, 7, 57, 62, 53, 60, 58, 54, 61, 80, 63, 55, 28, 30, 13, 15,
      14, 16],
    [3, 45, 42, 40, 41, 43, 44, 50, 54, 51, 26, 8, 28, 4, 6, 9, 7, 46, 47, 0, 29, 1, 56, 75, 57, 12, 36, 13, 38, 10,
      17, 37, 15, 11, 16, 59, 60, 78, 18, 61, 58, 71, 72, 68, 62, 64, 65, 69, 66, 55, 48, 52],
    [46, 11, 15, 12, 43, 35, 36, 24, 17, 27, 9, 4, 10, 5, 38, 18, 49, 55, 56, 50, 68, 72, 53, 51, 57, 52, 47, 69, 48,
      73, 71, 76, 70, 74, 77, 6, 54, 7, 58, 62, 63, 59, 66, 61, 64, 60, 67, 41, 42, 33, 32, 16]])
    (by decide +kernel) (by decide +kernel)

open Gen.UCC2Eom in
/-- The functions of ebcc/codegen/UCC2.py. -/
def funsUCC279 : List (GenFun × GenFun) :=
  [(hbar_matvec_ip_intermediates, hbar_matvec_ip),
    (hbar_lmatvec_ip_intermediates, hbar_lmatvec_ip),
    (hbar_matvec_ea_intermediates, hbar_matvec_ea),
    (hbar_lmatvec_ea_intermediates, hbar_lmatvec_ea)]

theorem C79_UCC2 : ∀ p ∈ funsUCC279, SameProducts79 p ∧ IntsEmptied79 p :=
  emptied79 (pos := [[21, 70, 68, 75, 71, 72, 107, 73, 76, 105, 86, 101, 59, 48, 49, 64, 60, 61, 32, 2, 24, 10, 3, 106, 11, 43, 62, 44,
      45, 65, 52, 115, 53, 66, 50, 46, 51, 47, 57, 55, 116, 8, 5, 4, 58, 16, 17, 113, 109, 110, 1, 99, 95, 96, 108,
      104, 114, 6, 7, 100, 97, 98, 82, 111, 77, 83, 93, 91, 78, 112, 84, 85, 79, 80, 12, 23, 103, 22, 88, 89, 41, 18,
      42, 14, 19, 15, 94, 102, 81],
    [14, 134, 132, 79, 133, 204, 183, 193, 80, 171, 194, 172, 62, 157, 115, 63, 93, 116, 205, 173, 135, 195, 184, 206,
      174, 185, 64, 4, 117, 5, 118, 65, 54, 196, 197, 47, 186, 169, 165, 166, 81, 66, 60, 136, 56, 119, 67, 57, 120,
      175, 198, 207, 187, 188, 82, 68, 137, 121, 138, 69, 83, 208, 176, 84, 72, 70, 61, 139, 58, 122, 71, 59, 11, 123,
      199, 189, 124, 94, 146, 147, 105, 148, 95, 106, 158, 170, 96, 149, 107, 97, 150, 167, 159, 98, 168, 108, 160,
      99, 200, 151, 100, 152, 101, 161, 109, 153, 102, 162, 190, 110, 40, 154, 111, 155, 163, 112, 85, 113, 164, 103,
      156, 114, 73, 36, 34, 15, 19, 16, 20, 140, 51, 52, 125, 141, 86, 49, 28, 31, 8, 6, 126, 9, 7, 209, 42, 43, 45,
      201, 177, 178, 21, 22, 87, 74, 127, 128, 75, 210, 191, 202, 179, 192, 203, 180, 143, 76, 129, 142, 88, 211, 90,
      181, 77, 130, 89, 144, 78, 131, 91, 145, 92],
    [83, 68, 79, 43, 80, 84, 81, 41, 66, 44, 60, 62, 52, 57, 47, 53, 58, 59, 48, 49, 50, 42, 51, 54, 55, 63, 67, 64,
      32, 0, 27, 2, 1, 3, 4, 26, 5, 95, 21, 22, 90, 89, 91, 93, 9, 10, 92, 75, 76, 12, 38, 13, 94, 39, 17, 40, 19, 46,
      18, 20, 70, 71, 72, 101, 77, 86, 45, 73, 74, 78, 87, 88],
    [121, 119, 76, 120, 77, 141, 59, 100, 102, 98, 60, 146, 103, 161, 150, 47, 61, 122, 39, 104, 40, 105, 48, 62, 18,
      20, 34, 32, 19, 21, 42, 78, 63, 123, 106, 64, 107, 79, 65, 57, 124, 56, 108, 58, 125, 80, 149, 148, 145, 143,
      81, 49, 66, 126, 109, 67, 69, 68, 110, 41, 134, 90, 111, 7, 8, 131, 91, 92, 132, 96, 135, 93, 133, 97, 139, 138,
      136, 94, 140, 5, 10, 27, 23, 82, 6, 11, 44, 51, 50, 137, 70, 55, 52, 112, 53, 83, 113, 162, 151, 15, 16, 84, 71,
      114, 115, 72, 158, 152, 73, 116, 127, 85, 128, 159, 153, 163, 156, 160, 154, 87, 157, 144, 74, 117, 86, 129, 54,
      75, 118, 88, 130, 89]])
    (by decide +kernel) (by decide +kernel)

open Gen.UCCSDEom in
/-- The functions of ebcc/codegen/UCCSD.py. -/
def funsUCCSD79 : List (GenFun × GenFun) :=
  [(hbar_matvec_ip_intermediates, hbar_matvec_ip),
    (hbar_lmatvec_ip_intermediates, hbar_lmatvec_ip),
    (hbar_matvec_ea_intermediates, hbar_matvec_ea),
    (hbar_lmatvec_ea_intermediates, hbar_lmatvec_ea)]

theorem C79_UCCSD : ∀ p ∈ funsUCCSD79, SameProducts79 p ∧ IntsKept79 p := kept79 (by decide +kernel)

open Gen.UDFCCDEom in
/-- The functions of ebcc/codegen/UDFCCD.py. -/
def funsUDFCCD79 : List (GenFun × GenFun) :=
  [(hbar_matvec_ip_intermediates, hbar_matvec_ip),
    (hbar_lmatvec_ip_intermediates, hbar_lmatvec_ip),
    (hbar_matvec_ea_intermediates, hbar_matvec_ea),
    (hbar_lmatvec_ea_intermediates, hbar_lmatvec_ea)]

theorem C79_UDFCCD : ∀ p ∈ funsUDFCCD79, SameProducts79 p ∧ IntsEmptied79 p :=
  emptied79 (pos := [[24, 67, 53, 36, 37, 58, 54, 55, 28, 14, 7, 56, 39, 40, 59, 42, 43, 49, 50, 6, 69, 41, 38, 45, 47, 48, 15, 5, 4, 10,
      46, 12, 9, 13, 64, 61, 57, 81, 31, 79, 62, 63, 80, 65, 66, 25, 19, 18, 76, 20, 77, 17, 29, 32, 22, 82, 30, 16,
      70, 51, 21, 52, 74, 71, 72, 23, 73, 75, 68],
    [54, 78, 19, 26, 20, 30, 28, 47, 48, 41, 42, 79, 85, 37, 38, 5, 44, 45, 14, 24, 21, 15, 17, 32, 33, 39, 40, 3, 18,
      35, 36, 57, 23, 63, 66, 64, 60, 58, 73, 83, 75, 0, 80, 84, 55, 76, 2, 81, 59, 65, 61, 56, 74, 82, 62, 67, 51,
      12, 13, 71, 49, 77, 68, 52, 72, 69, 53, 50, 70],
    [19, 69, 50, 52, 4, 46, 6, 40, 37, 44, 45, 38, 39, 47, 51, 48, 32, 5, 63, 53, 41, 42, 12, 7, 13, 10, 71, 14, 72,
      9, 15, 54, 55, 26, 49, 20, 27, 33, 18, 29, 36, 24, 17, 57, 58, 78, 21, 30, 77, 59, 56, 61, 62, 67, 25, 70, 64,
      22, 75, 65, 68, 66],
    [47, 17, 38, 39, 30, 18, 27, 29, 78, 69, 76, 77, 40, 41, 12, 5, 32, 33, 25, 26, 13, 19, 35, 36, 3, 20, 75, 50, 62,
      63, 59, 51, 65, 70, 52, 49, 2, 64, 0, 60, 48, 66, 71, 68, 73, 67, 72, 53, 74, 61, 23, 14, 15, 43, 54, 55, 44,
      57, 46, 56, 45, 58]])
    (by decide +kernel) (by decide +kernel)

open Gen.UDFCC2Eom in
/-- The functions of ebcc/codegen/UDFCC2.py. -/
def funsUDFCC279 : List (GenFun × GenFun) :=
  [(hbar_matvec_ip_intermediates, hbar_matvec_ip),
    (hbar_lmatvec_ip_intermediates, hbar_lmatvec_ip),
    (hbar_matvec_ea_intermediates, hbar_matvec_ea),
    (hbar_lmatvec_ea_intermediates, hbar_lmatvec_ea)]

theorem C79_UDFCC2 : ∀ p ∈ funsUDFCC279, SameProducts79 p ∧ IntsEmptied79 p :=
  emptied79 (pos := [[23, 91, 32, 107, 68, 20, 95, 80, 64, 65, 85, 81, 82, 83, 86, 93, 87, 88, 57, 51, 52, 62, 58, 59, 30, 13, 105, 46,
      60, 47, 48, 63, 43, 44, 103, 66, 53, 49, 54, 12, 50, 94, 67, 55, 41, 24, 42, 7, 15, 104, 14, 114, 56, 113, 28,
      26, 29, 27, 111, 108, 109, 17, 8, 84, 61, 100, 96, 97, 102, 106, 10, 5, 11, 6, 101, 98, 99, 73, 69, 74, 92, 112,
      36, 89, 70, 75, 76, 90, 71, 72, 25, 19, 18, 110, 77, 78, 21, 33, 40],
    [22, 130, 53, 112, 70, 129, 54, 74, 113, 71, 131, 72, 132, 73, 133, 179, 199, 168, 187, 134, 169, 188, 55, 154,
      114, 56, 90, 115, 180, 189, 170, 171, 200, 181, 190, 201, 57, 16, 116, 17, 117, 58, 35, 51, 172, 191, 209, 44,
      202, 166, 162, 163, 75, 59, 88, 135, 84, 118, 60, 85, 119, 61, 173, 182, 203, 204, 76, 65, 62, 136, 120, 137,
      77, 13, 183, 192, 78, 63, 89, 123, 138, 86, 121, 64, 87, 122, 174, 33, 205, 91, 143, 37, 144, 102, 193, 145, 92,
      103, 155, 93, 146, 104, 94, 147, 167, 156, 95, 105, 157, 96, 164, 148, 97, 149, 98, 158, 106, 150, 99, 159, 165,
      107, 29, 38, 151, 108, 52, 152, 160, 109, 175, 110, 161, 100, 153, 111, 23, 45, 24, 36, 206, 48, 79, 49, 125,
      46, 47, 14, 66, 30, 15, 39, 40, 139, 42, 43, 124, 140, 80, 81, 184, 176, 194, 195, 5, 18, 3, 19, 67, 28, 126,
      101, 127, 141, 68, 185, 207, 177, 0, 196, 208, 82, 178, 2, 197, 69, 128, 142, 83, 186, 198],
    [77, 82, 72, 91, 100, 73, 78, 83, 84, 70, 85, 66, 44, 96, 86, 67, 71, 68, 42, 64, 58, 4, 60, 54, 46, 49, 55, 47,
      48, 50, 51, 59, 52, 53, 56, 41, 57, 61, 65, 62, 31, 39, 5, 12, 20, 43, 11, 13, 94, 40, 93, 35, 34, 25, 22, 26,
      23, 63, 10, 69, 88, 87, 89, 33, 9, 15, 8, 16, 79, 80, 92, 28, 21, 29, 19, 38, 90, 74, 18, 75, 76, 98],
    [129, 146, 157, 49, 111, 66, 128, 69, 100, 50, 112, 67, 130, 68, 131, 70, 132, 133, 151, 51, 47, 113, 106, 52,
      162, 114, 164, 140, 44, 53, 36, 115, 37, 116, 45, 54, 158, 154, 23, 34, 159, 155, 39, 71, 55, 134, 117, 56, 118,
      46, 72, 57, 109, 135, 119, 110, 136, 73, 61, 58, 161, 160, 153, 156, 74, 59, 137, 120, 60, 38, 121, 122, 28,
      108, 33, 25, 10, 41, 92, 84, 15, 16, 141, 95, 85, 86, 96, 90, 93, 87, 97, 91, 149, 94, 88, 101, 148, 80, 29, 11,
      102, 81, 42, 150, 83, 82, 105, 103, 75, 62, 172, 98, 171, 124, 123, 99, 76, 170, 31, 22, 104, 77, 40, 165, 142,
      5, 19, 3, 20, 152, 63, 48, 125, 163, 138, 126, 107, 64, 167, 143, 65, 79, 2, 127, 0, 139, 78, 168, 144, 166,
      147, 169, 145, 89]])
    (by decide +kernel) (by decide +kernel)

open Gen.UDFCCSDEom in
/-- The functions of ebcc/codegen/UDFCCSD.py. -/
def funsUDFCCSD79 : List (GenFun × GenFun) :=
  [(hbar_matvec_ip_intermediates, hbar_matvec_ip),
    (hbar_lmatvec_ip_intermediates, hbar_lmatvec_ip),
    (hbar_matvec_ea_intermediates, hbar_matvec_ea),
    (hbar_lmatvec_ea_intermediates, hbar_lmatvec_ea)]

theorem C79_UDFCCSD : ∀ p ∈ funsUDFCCSD79, SameProducts79 p ∧ IntsEmptied79 p :=
  emptied79 (pos := [[52, 182, 183, 225, 56, 51, 165, 166, 66, 49, 61, 57, 214, 215, 65, 83, 90, 167, 184, 168, 47, 185, 186, 187, 188,
      169, 170, 226, 82, 230, 11, 227, 228, 171, 63, 45, 172, 58, 92, 173, 174, 67, 43, 62, 68, 175, 176, 59, 69, 48,
      9, 189, 177, 178, 220, 194, 44, 137, 204, 138, 205, 206, 195, 8, 196, 197, 207, 222, 85, 208, 198, 199, 200,
      139, 209, 140, 201, 210, 202, 75, 211, 221, 203, 141, 212, 213, 71, 126, 21, 122, 127, 162, 142, 152, 110, 111,
      153, 76, 154, 143, 144, 80, 26, 72, 93, 112, 94, 113, 114, 115, 95, 145, 96, 97, 155, 123, 73, 124, 164, 156,
      146, 147, 116, 98, 53, 99, 117, 24, 100, 118, 119, 54, 101, 120, 148, 157, 25, 102, 149, 158, 150, 159, 103,
      163, 151, 28, 104, 105, 160, 106, 107, 161, 6, 121, 108, 109, 37, 134, 14, 88, 132, 135, 128, 86, 136, 15, 35,
      38, 19, 16, 29, 30, 129, 133, 130, 131, 17, 79, 39, 20, 40, 18, 41, 7, 89, 23, 33, 22, 34, 36, 31, 32, 12, 190,
      218, 77, 74, 216, 219, 64, 179, 191, 192, 180, 193, 70, 223, 60, 55, 231, 84, 224, 229, 181],
    [46, 138, 167, 120, 184, 137, 8, 23, 168, 188, 121, 185, 139, 186, 140, 187, 141, 227, 206, 216, 196, 142, 217,
      197, 169, 33, 122, 170, 92, 123, 228, 198, 218, 219, 207, 229, 199, 208, 171, 35, 124, 36, 125, 172, 65, 97,
      220, 200, 234, 78, 209, 57, 44, 45, 189, 173, 37, 143, 25, 126, 174, 26, 127, 66, 175, 221, 230, 79, 210, 80,
      211, 90, 190, 179, 176, 71, 144, 128, 72, 145, 91, 191, 27, 231, 201, 192, 177, 38, 131, 146, 28, 129, 178, 29,
      130, 98, 222, 53, 81, 212, 100, 149, 75, 150, 110, 76, 151, 101, 111, 160, 102, 152, 6, 112, 103, 153, 58, 161,
      104, 113, 162, 105, 47, 154, 106, 155, 107, 163, 114, 156, 108, 164, 48, 115, 62, 73, 157, 116, 99, 60, 158,
      165, 117, 223, 118, 166, 109, 74, 159, 119, 49, 82, 50, 213, 51, 64, 40, 133, 0, 86, 87, 180, 88, 21, 12, 132,
      94, 95, 96, 30, 31, 61, 22, 32, 41, 67, 68, 69, 83, 84, 85, 193, 54, 224, 77, 202, 1, 55, 2, 56, 181, 34, 134,
      93, 135, 147, 182, 232, 214, 225, 13, 203, 215, 194, 226, 15, 204, 183, 136, 148, 195, 233, 205, 42],
    [27, 24, 65, 154, 28, 155, 31, 149, 142, 143, 40, 23, 156, 55, 157, 183, 171, 158, 159, 34, 172, 144, 160, 189,
      57, 29, 6, 161, 173, 145, 146, 22, 162, 56, 38, 163, 184, 164, 165, 174, 166, 175, 9, 25, 150, 147, 148, 41, 35,
      176, 167, 168, 139, 10, 153, 134, 26, 187, 135, 136, 76, 151, 152, 54, 137, 140, 138, 77, 78, 61, 128, 133, 13,
      81, 67, 118, 111, 112, 74, 122, 98, 113, 123, 14, 62, 82, 99, 114, 115, 75, 124, 68, 100, 83, 101, 71, 119, 116,
      117, 84, 131, 20, 85, 86, 87, 88, 102, 89, 90, 91, 132, 12, 92, 93, 103, 94, 95, 104, 105, 125, 129, 126, 69,
      15, 96, 106, 97, 107, 108, 109, 72, 73, 127, 36, 45, 53, 46, 130, 19, 16, 48, 42, 120, 70, 185, 49, 52, 121, 17,
      18, 43, 50, 44, 51, 177, 178, 66, 59, 63, 58, 60, 30, 79, 80, 169, 179, 170, 180, 181, 182],
    [118, 177, 0, 27, 139, 100, 156, 117, 6, 159, 26, 140, 101, 157, 119, 158, 120, 160, 121, 122, 51, 141, 35, 102,
      58, 142, 56, 103, 179, 171, 77, 143, 64, 104, 65, 105, 78, 144, 168, 185, 44, 60, 169, 186, 73, 84, 161, 79,
      145, 71, 123, 66, 106, 80, 146, 67, 107, 81, 162, 147, 38, 124, 108, 39, 125, 163, 151, 148, 42, 170, 74, 187,
      85, 164, 82, 149, 72, 126, 68, 109, 83, 150, 70, 69, 110, 111, 53, 34, 61, 54, 31, 87, 129, 92, 40, 41, 172,
      132, 93, 94, 133, 98, 130, 95, 134, 99, 47, 10, 131, 96, 135, 45, 89, 55, 33, 136, 90, 86, 48, 32, 91, 88, 137,
      19, 152, 4, 190, 14, 113, 112, 5, 20, 189, 62, 43, 138, 188, 165, 75, 180, 173, 11, 49, 12, 50, 52, 153, 36,
      114, 57, 127, 115, 59, 154, 182, 174, 155, 167, 17, 116, 15, 128, 166, 183, 175, 181, 178, 184, 176, 97]])
    (by decide +kernel) (by decide +kernel)

/-! The claims are not about nothing: there are arguments for which the intermediates exist and products succeed. -/

theorem eomArgs_eq79 {R : Type} [Field R] (h : GHam R) (t : GAmps R) (sz : Nat → Nat)
    (ints : Dict (List Char) (NDArray R)) (r1 r2 : NDArray R) :
    h.eomArgs t sz ints r1 r2 = eomVals (h.args0 t sz) ints [(['r', '1'], r1), (['r', '2'], r2)] := by
  funext name
  unfold GHam.eomArgs
  split
  · rfl
  · rfl
  · rfl
  · rename_i h1 h2 h3
    unfold eomVals
    split
    · exact absurd rfl (h3 _)
    · rename_i n
      have e : h.args0 t sz ('r' :: n) = none := by
        unfold GHam.args0
        split
        · rfl
        · unfold GHam.args
          split <;> first | rfl | (rename_i heq; cases heq)
      rw [e]
      symm
      simp [Dict.get?]
      rw [if_neg (fun e => h1 (by rw [← e])), if_neg (fun e => h2 (by rw [← e]))]
    · rfl

example : ∃ ints rs after, Gen.GCCDEom.hbar_matvec_ip_intermediates.call .backend onePath (spaceSizes 2 2 0 0)
      (exHam78.args0 (exAmps78 0 1) (spaceSizes 2 2 0 0)) = .ok ints ∧
    eomProducts Gen.GCCDEom.hbar_matvec_ip_intermediates Gen.GCCDEom.hbar_matvec_ip .backend onePath (spaceSizes 2 2 0 0)
      (exHam78.args0 (exAmps78 0 1) (spaceSizes 2 2 0 0))
      (List.replicate 2 [(['r', '1'], (exVec78 .ip 1 0).arr1 (spaceSizes 2 2 0 0)),
        (['r', '2'], (exVec78 .ip 1 0).arr2 (spaceSizes 2 2 0 0))]) ints = .ok (rs, after) ∧
    rs.length = 2 ∧ ints ≠ [] ∧ after = [] := by
  obtain ⟨i, m, -, -, h1, h2, -⟩ := C78_CCD_ip ℚ exHam78 (exAmps78 0 1) (exVec78 .ip 1 0) (exVec78 .ip 1 0) 2 2 0 .backend
    onePath onePath_ok
  rw [eomArgs_eq79] at h2
  obtain ⟨g1, g2⟩ := C79_GCCD _ (List.mem_cons_self ..)
  have g1 := g1 ℚ .backend onePath (spaceSizes 2 2 0 0) _ i
    (List.replicate 2 [(['r', '1'], (exVec78 .ip 1 0).arr1 (spaceSizes 2 2 0 0)),
        (['r', '2'], (exVec78 .ip 1 0).arr2 (spaceSizes 2 2 0 0))]) h1
  have e : (List.replicate 2 [(['r', '1'], (exVec78 .ip 1 0).arr1 (spaceSizes 2 2 0 0)),
        (['r', '2'], (exVec78 .ip 1 0).arr2 (spaceSizes 2 2 0 0))]).mapM (fun exc =>
        Gen.GCCDEom.hbar_matvec_ip.call .backend onePath (spaceSizes 2 2 0 0)
          (eomVals (exHam78.args0 (exAmps78 0 1) (spaceSizes 2 2 0 0)) i exc)) = .ok [m, m] := by
    simp only [List.replicate, List.mapM_cons, h2, List.mapM_nil]
    rfl
  rw [e] at g1
  cases hp : eomProducts Gen.GCCDEom.hbar_matvec_ip_intermediates Gen.GCCDEom.hbar_matvec_ip .backend onePath
      (spaceSizes 2 2 0 0) (exHam78.args0 (exAmps78 0 1) (spaceSizes 2 2 0 0))
      (List.replicate 2 [(['r', '1'], (exVec78 .ip 1 0).arr1 (spaceSizes 2 2 0 0)),
        (['r', '2'], (exVec78 .ip 1 0).arr2 (spaceSizes 2 2 0 0))]) i with
  | error e' => rw [hp] at g1; cases g1
  | ok r =>
    obtain ⟨rs, after⟩ := r
    have g2 := g2 ℚ .backend onePath (spaceSizes 2 2 0 0) _ i after _ rs h1 (by simp [List.replicate]) hp
    rw [hp] at g1
    have g3 : rs = [m, m] := Except.ok.inj g1
    exact ⟨i, rs, after, h1, hp, by rw [g3]; rfl, g2.1, g2.2⟩

end Ebcc
