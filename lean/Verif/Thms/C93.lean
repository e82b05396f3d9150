import Verif.Gen.GCC2
import Verif.Gen.GCCD
import Verif.Gen.GCCSD
import Verif.Gen.GCCSDT
import Verif.Gen.GCCSDTQ
import Verif.Gen.GCCSD_SD_1_1
import Verif.Gen.GCCSD_SD_1_2
import Verif.Gen.GCCSD_S_1_1
import Verif.Gen.GLCCD
import Verif.Gen.GLCCSD
import Verif.Gen.GMP2
import Verif.Gen.GMP3
import Verif.Gen.GQCISD
import Verif.Gen.GecCC
import Verif.Gen.RCC2
import Verif.Gen.RCCD
import Verif.Gen.RCCSD
import Verif.Gen.RCCSD_SD_1_1
import Verif.Gen.RCCSD_SD_1_2
import Verif.Gen.RCCSD_S_1_1
import Verif.Gen.RDCD
import Verif.Gen.RDCSD
import Verif.Gen.RDFCC2
import Verif.Gen.RDFCCD
import Verif.Gen.RDFCCSD
import Verif.Gen.RDFDCD
import Verif.Gen.RDFDCSD
import Verif.Gen.RDFLCCD
import Verif.Gen.RDFLCCSD
import Verif.Gen.RDFQCISD
import Verif.Gen.RLCCD
import Verif.Gen.RLCCSD
import Verif.Gen.RMP2
import Verif.Gen.RQCISD
import Verif.Gen.RecCC
import Verif.Gen.UCC2
import Verif.Gen.UCCD
import Verif.Gen.UCCSD
import Verif.Gen.UCCSD_SD_1_1
import Verif.Gen.UCCSD_SD_1_2
import Verif.Gen.UCCSD_S_1_1
import Verif.Gen.UDCD
import Verif.Gen.UDCSD
import Verif.Gen.ULCCD
import Verif.Gen.ULCCSD
import Verif.Gen.UMP2
import Verif.Gen.UMP3
import Verif.Gen.UQCISD
import Verif.Gen.UecCC
import Verif.Tensor.Covariant
/-!
C93: generated functions give rotated results for orbitals rotated within each space.
-/

namespace Ebcc

set_option maxRecDepth 100000
set_option linter.style.longLine false

/-- Any energy, a number, is the same for rotated orbitals. -/
theorem C93_scalar {g : GenFun} {ty : List Char → Option (List Nat)} {n : List Char} (h : RotCovariant g ty [(n, [])]) :
    ScalarInvariant g ty n := by
  intro R _ _ sz C hC method path hp vals hv
  obtain ⟨r, r', h1, h2, h3⟩ := h R sz C hC method path hp vals hv
  obtain ⟨a, ha, _, hb⟩ := h3 n [] (by simp [Dict.get?])
  refine ⟨r, r', a, _, h1, h2, ha, hb, ?_⟩
  unfold rotated
  exact NDArray.get_ofFn [] _ .nil

/-- The rotation with cosine 3/5 and sine 4/5 of two orbitals in each space. -/
def turn93 (_ i j : Nat) : Rat := if i = j then 3 / 5 else if i = 0 then 4 / 5 else -(4 / 5)

theorem turn93_orthogonal : Orthogonal (fun _ => 2) turn93 := by
  have h : ∀ i < 2, ∀ j < 2,
      ((List.range 2).map fun k => turn93 0 k i * turn93 0 k j).sum = (if i = j then 1 else 0) ∧
      ((List.range 2).map fun k => turn93 0 i k * turn93 0 j k).sum = if i = j then 1 else 0 := by decide +kernel
  exact fun _ i j hi hj => h i hi j hj

example : rotated (fun _ => 2) turn93 [0] ⟨[2], [1, 0]⟩ = ⟨[2], [3 / 5, -(4 / 5)]⟩ := by decide +kernel

/-- The path with a single contraction of all operands. -/
def onePath93 {R : Type} (subs : List (List Char)) (outs : List Char) (_ : List (NDArray R)) : List Contraction :=
  [⟨List.replicate subs.length 0, subs, outs⟩]

theorem onePath93_ok {R : Type} : PathOk (R := R) onePath93 := by
  intro subs outs _ h
  refine .last _ _ (by rintro rfl; simp at h) ?_ rfl
  show popAll (List.replicate subs.length 0) subs = _
  clear h
  induction subs with
  | nil => rfl
  | cons s subs ih => simp [List.replicate_succ, popAll, ih]

/-- All arrays zero, but one element of `f.oo`. -/
def vals93 (name : List Char) : Option (NDArray Rat) :=
  (argSpaces name).map fun sp =>
    if name = chars! "f.oo" then ⟨[2, 2], [1, 0, 0, 0]⟩ else NDArray.zeros (sp.map fun _ => 2)

/-- A function with a label that occurs only once, the sum of all elements of `f.oo`, is not covariant. -/
example : ¬ RotCovariant ⟨[chars! "f.oo"], [.set 1 (.ein [(0, [0, 1])] []) 1 1], [(chars! "e", 1)]⟩ argSpaces
    [(chars! "e", [])] := by
  intro h
  obtain ⟨r, r', a, a', h1, h2, h3, h4, h5⟩ := C93_scalar h Rat (fun _ => 2) turn93 turn93_orthogonal .backend onePath93
    onePath93_ok vals93 (by
      intro name sp hn
      refine ⟨_, by rw [vals93, hn, Option.map_some], ?_⟩
      split
      · rename_i e
        subst e
        cases hn
        exact ⟨rfl, rfl⟩
      · exact ⟨rfl, NDArray.ofFn_wf _ _⟩)
  rw [show GenFun.call _ .backend onePath93 (fun _ => 2) vals93 = .ok [(chars! "e", ⟨[], [1]⟩)] by decide +kernel] at h1
  rw [show GenFun.call _ .backend onePath93 (fun _ => 2) (rotatedVals (fun _ => 2) turn93 argSpaces vals93) =
    .ok [(chars! "e", ⟨[], [1 / 25]⟩)] by decide +kernel] at h2
  cases h1
  cases h2
  cases h3
  cases h4
  exact absurd h5 (by decide +kernel)

theorem C93_GCC2 :
    RotCovariant Gen.GCC2.energy argSpaces [(chars! "e_cc", [])] ∧
    RotCovariant Gen.GCC2.update_amps argSpaces [(chars! "t1new", [0, 1]), (chars! "t2new", [0, 0, 1, 1])] ∧
    RotCovariant Gen.GCC2.update_lams argSpaces [(chars! "l1new", [1, 0]), (chars! "l2new", [1, 1, 0, 0])] ∧
    RotCovariant Gen.GCC2.make_rdm1_f argSpaces [(chars! "rdm1.oo", [0, 0]), (chars! "rdm1.ov", [0, 1]), (chars! "rdm1.vo", [1, 0]), (chars! "rdm1.vv", [1, 1])] ∧
    RotCovariant Gen.GCC2.make_rdm2_f argSpaces [(chars! "rdm2.oooo", [0, 0, 0, 0]), (chars! "rdm2.ooov", [0, 0, 0, 1]), (chars! "rdm2.oovo", [0, 0, 1, 0]), (chars! "rdm2.ovoo", [0, 1, 0, 0]), (chars! "rdm2.vooo", [1, 0, 0, 0]), (chars! "rdm2.oovv", [0, 0, 1, 1]), (chars! "rdm2.ovov", [0, 1, 0, 1]), (chars! "rdm2.ovvo", [0, 1, 1, 0]), (chars! "rdm2.voov", [1, 0, 0, 1]), (chars! "rdm2.vovo", [1, 0, 1, 0]), (chars! "rdm2.vvoo", [1, 1, 0, 0]), (chars! "rdm2.ovvv", [0, 1, 1, 1]), (chars! "rdm2.vovv", [1, 0, 1, 1]), (chars! "rdm2.vvov", [1, 1, 0, 1]), (chars! "rdm2.vvvo", [1, 1, 1, 0]), (chars! "rdm2.vvvv", [1, 1, 1, 1])] :=
  ⟨covariant_of_check (by decide +kernel),
    covariant_of_check (by decide +kernel),
    covariant_of_check (by decide +kernel),
    covariant_of_check (by decide +kernel),
    covariant_of_check (by decide +kernel)⟩

theorem C93_GCCD :
    RotCovariant Gen.GCCD.energy argSpaces [(chars! "e_cc", [])] ∧
    RotCovariant Gen.GCCD.update_amps argSpaces [(chars! "t2new", [0, 0, 1, 1])] ∧
    RotCovariant Gen.GCCD.update_lams argSpaces [(chars! "l2new", [1, 1, 0, 0])] ∧
    RotCovariant Gen.GCCD.make_rdm1_f argSpaces [(chars! "rdm1.oo", [0, 0]), (chars! "rdm1.ov", [0, 1]), (chars! "rdm1.vo", [1, 0]), (chars! "rdm1.vv", [1, 1])] ∧
    RotCovariant Gen.GCCD.make_rdm2_f argSpaces [(chars! "rdm2.oooo", [0, 0, 0, 0]), (chars! "rdm2.ooov", [0, 0, 0, 1]), (chars! "rdm2.oovo", [0, 0, 1, 0]), (chars! "rdm2.ovoo", [0, 1, 0, 0]), (chars! "rdm2.vooo", [1, 0, 0, 0]), (chars! "rdm2.oovv", [0, 0, 1, 1]), (chars! "rdm2.ovov", [0, 1, 0, 1]), (chars! "rdm2.ovvo", [0, 1, 1, 0]), (chars! "rdm2.voov", [1, 0, 0, 1]), (chars! "rdm2.vovo", [1, 0, 1, 0]), (chars! "rdm2.vvoo", [1, 1, 0, 0]), (chars! "rdm2.ovvv", [0, 1, 1, 1]), (chars! "rdm2.vovv", [1, 0, 1, 1]), (chars! "rdm2.vvov", [1, 1, 0, 1]), (chars! "rdm2.vvvo", [1, 1, 1, 0]), (chars! "rdm2.vvvv", [1, 1, 1, 1])] :=
  ⟨covariant_of_check (by decide +kernel),
    covariant_of_check (by decide +kernel),
    covariant_of_check (by decide +kernel),
    covariant_of_check (by decide +kernel),
    covariant_of_check (by decide +kernel)⟩

theorem C93_GCCSD :
    RotCovariant Gen.GCCSD.energy argSpaces [(chars! "e_cc", [])] ∧
    RotCovariant Gen.GCCSD.update_amps argSpaces [(chars! "t1new", [0, 1]), (chars! "t2new", [0, 0, 1, 1])] ∧
    RotCovariant Gen.GCCSD.update_lams argSpaces [(chars! "l1new", [1, 0]), (chars! "l2new", [1, 1, 0, 0])] ∧
    RotCovariant Gen.GCCSD.make_rdm1_f argSpaces [(chars! "rdm1.oo", [0, 0]), (chars! "rdm1.ov", [0, 1]), (chars! "rdm1.vo", [1, 0]), (chars! "rdm1.vv", [1, 1])] ∧
    RotCovariant Gen.GCCSD.make_rdm2_f argSpaces [(chars! "rdm2.oooo", [0, 0, 0, 0]), (chars! "rdm2.ooov", [0, 0, 0, 1]), (chars! "rdm2.oovo", [0, 0, 1, 0]), (chars! "rdm2.ovoo", [0, 1, 0, 0]), (chars! "rdm2.vooo", [1, 0, 0, 0]), (chars! "rdm2.oovv", [0, 0, 1, 1]), (chars! "rdm2.ovov", [0, 1, 0, 1]), (chars! "rdm2.ovvo", [0, 1, 1, 0]), (chars! "rdm2.voov", [1, 0, 0, 1]), (chars! "rdm2.vovo", [1, 0, 1, 0]), (chars! "rdm2.vvoo", [1, 1, 0, 0]), (chars! "rdm2.ovvv", [0, 1, 1, 1]), (chars! "rdm2.vovv", [1, 0, 1, 1]), (chars! "rdm2.vvov", [1, 1, 0, 1]), (chars! "rdm2.vvvo", [1, 1, 1, 0]), (chars! "rdm2.vvvv", [1, 1, 1, 1])] :=
  ⟨covariant_of_check (by decide +kernel),
    covariant_of_check (by decide +kernel),
    covariant_of_check (by decide +kernel),
    covariant_of_check (by decide +kernel),
    covariant_of_check (by decide +kernel)⟩

theorem C93_GCCSDT :
    RotCovariant Gen.GCCSDT.energy argSpaces [(chars! "e_cc", [])] ∧
    RotCovariant Gen.GCCSDT.update_amps argSpaces [(chars! "t1new", [0, 1]), (chars! "t2new", [0, 0, 1, 1]), (chars! "t3new", [0, 0, 0, 1, 1, 1])] ∧
    RotCovariant Gen.GCCSDT.make_rdm1_f argSpaces [(chars! "rdm1_f.oo", [0, 0]), (chars! "rdm1_f.ov", [0, 1]), (chars! "rdm1_f.vo", [1, 0]), (chars! "rdm1_f.vv", [1, 1])] :=
  ⟨covariant_of_check (by decide +kernel),
    covariant_of_check (by decide +kernel),
    covariant_of_check (by decide +kernel)⟩

theorem C93_GCCSDTQ :
    RotCovariant Gen.GCCSDTQ.update_amps argSpaces [(chars! "t1new", [0, 1]), (chars! "t2new", [0, 0, 1, 1])] :=
  covariant_of_check (by decide +kernel)

theorem C93_GCCSD_SD_1_1 :
    RotCovariant Gen.GCCSD_SD_1_1.energy argSpaces [(chars! "e_cc", [])] ∧
    RotCovariant Gen.GCCSD_SD_1_1.update_amps argSpaces [(chars! "t1new", [0, 1]), (chars! "t2new", [0, 0, 1, 1]), (chars! "s1new", [2]), (chars! "s2new", [2, 2]), (chars! "u11new", [2, 0, 1])] ∧
    RotCovariant Gen.GCCSD_SD_1_1.make_rdm1_f argSpaces [(chars! "rdm1_f.oo", [0, 0]), (chars! "rdm1_f.ov", [0, 1]), (chars! "rdm1_f.vo", [1, 0]), (chars! "rdm1_f.vv", [1, 1])] ∧
    RotCovariant Gen.GCCSD_SD_1_1.make_rdm2_f argSpaces [(chars! "rdm2_f.oooo", [0, 0, 0, 0]), (chars! "rdm2_f.ooov", [0, 0, 0, 1]), (chars! "rdm2_f.oovo", [0, 0, 1, 0]), (chars! "rdm2_f.ovoo", [0, 1, 0, 0]), (chars! "rdm2_f.vooo", [1, 0, 0, 0]), (chars! "rdm2_f.oovv", [0, 0, 1, 1]), (chars! "rdm2_f.ovov", [0, 1, 0, 1]), (chars! "rdm2_f.ovvo", [0, 1, 1, 0]), (chars! "rdm2_f.voov", [1, 0, 0, 1]), (chars! "rdm2_f.vovo", [1, 0, 1, 0]), (chars! "rdm2_f.vvoo", [1, 1, 0, 0]), (chars! "rdm2_f.ovvv", [0, 1, 1, 1]), (chars! "rdm2_f.vovv", [1, 0, 1, 1]), (chars! "rdm2_f.vvov", [1, 1, 0, 1]), (chars! "rdm2_f.vvvo", [1, 1, 1, 0]), (chars! "rdm2_f.vvvv", [1, 1, 1, 1])] ∧
    RotCovariant Gen.GCCSD_SD_1_1.make_sing_b_dm argSpaces [(chars! "dm_b.0", [2]), (chars! "dm_b.1", [2])] ∧
    RotCovariant Gen.GCCSD_SD_1_1.make_rdm1_b argSpaces [(chars! "rdm1_b", [2, 2])] ∧
    RotCovariant Gen.GCCSD_SD_1_1.make_eb_coup_rdm argSpaces [(chars! "rdm_eb.0.oo", [2, 0, 0]), (chars! "rdm_eb.0.ov", [2, 0, 1]), (chars! "rdm_eb.0.vo", [2, 1, 0]), (chars! "rdm_eb.0.vv", [2, 1, 1]), (chars! "rdm_eb.1.oo", [2, 0, 0]), (chars! "rdm_eb.1.ov", [2, 0, 1]), (chars! "rdm_eb.1.vo", [2, 1, 0]), (chars! "rdm_eb.1.vv", [2, 1, 1])] :=
  ⟨covariant_of_check (by decide +kernel),
    covariant_of_check (by decide +kernel),
    covariant_of_check (by decide +kernel),
    covariant_of_check (by decide +kernel),
    covariant_of_check (by decide +kernel),
    covariant_of_check (by decide +kernel),
    covariant_of_check (by decide +kernel)⟩

theorem C93_GCCSD_SD_1_2 :
    RotCovariant Gen.GCCSD_SD_1_2.energy argSpaces [(chars! "e_cc", [])] ∧
    RotCovariant Gen.GCCSD_SD_1_2.update_amps argSpaces [(chars! "t1new", [0, 1]), (chars! "t2new", [0, 0, 1, 1]), (chars! "s1new", [2]), (chars! "s2new", [2, 2]), (chars! "u11new", [2, 0, 1]), (chars! "u12new", [2, 2, 0, 1])] ∧
    RotCovariant Gen.GCCSD_SD_1_2.make_rdm1_f argSpaces [(chars! "rdm1_f.oo", [0, 0]), (chars! "rdm1_f.ov", [0, 1]), (chars! "rdm1_f.vo", [1, 0]), (chars! "rdm1_f.vv", [1, 1])] ∧
    RotCovariant Gen.GCCSD_SD_1_2.make_sing_b_dm argSpaces [(chars! "dm_b.0", [2]), (chars! "dm_b.1", [2])] ∧
    RotCovariant Gen.GCCSD_SD_1_2.make_rdm1_b argSpaces [(chars! "rdm1_b", [2, 2])] ∧
    RotCovariant Gen.GCCSD_SD_1_2.make_eb_coup_rdm argSpaces [(chars! "rdm_eb.0.oo", [2, 0, 0]), (chars! "rdm_eb.0.ov", [2, 0, 1]), (chars! "rdm_eb.0.vo", [2, 1, 0]), (chars! "rdm_eb.0.vv", [2, 1, 1]), (chars! "rdm_eb.1.oo", [2, 0, 0]), (chars! "rdm_eb.1.ov", [2, 0, 1]), (chars! "rdm_eb.1.vo", [2, 1, 0]), (chars! "rdm_eb.1.vv", [2, 1, 1])] :=
  ⟨covariant_of_check (by decide +kernel),
    covariant_of_check (by decide +kernel),
    covariant_of_check (by decide +kernel),
    covariant_of_check (by decide +kernel),
    covariant_of_check (by decide +kernel),
    covariant_of_check (by decide +kernel)⟩

theorem C93_GCCSD_S_1_1 :
    RotCovariant Gen.GCCSD_S_1_1.energy argSpaces [(chars! "e_cc", [])] ∧
    RotCovariant Gen.GCCSD_S_1_1.update_amps argSpaces [(chars! "t1new", [0, 1]), (chars! "t2new", [0, 0, 1, 1]), (chars! "s1new", [2]), (chars! "u11new", [2, 0, 1])] ∧
    RotCovariant Gen.GCCSD_S_1_1.make_rdm1_f argSpaces [(chars! "rdm1_f.oo", [0, 0]), (chars! "rdm1_f.ov", [0, 1]), (chars! "rdm1_f.vo", [1, 0]), (chars! "rdm1_f.vv", [1, 1])] ∧
    RotCovariant Gen.GCCSD_S_1_1.make_rdm2_f argSpaces [(chars! "rdm2_f.oooo", [0, 0, 0, 0]), (chars! "rdm2_f.ooov", [0, 0, 0, 1]), (chars! "rdm2_f.oovo", [0, 0, 1, 0]), (chars! "rdm2_f.ovoo", [0, 1, 0, 0]), (chars! "rdm2_f.vooo", [1, 0, 0, 0]), (chars! "rdm2_f.oovv", [0, 0, 1, 1]), (chars! "rdm2_f.ovov", [0, 1, 0, 1]), (chars! "rdm2_f.ovvo", [0, 1, 1, 0]), (chars! "rdm2_f.voov", [1, 0, 0, 1]), (chars! "rdm2_f.vovo", [1, 0, 1, 0]), (chars! "rdm2_f.vvoo", [1, 1, 0, 0]), (chars! "rdm2_f.ovvv", [0, 1, 1, 1]), (chars! "rdm2_f.vovv", [1, 0, 1, 1]), (chars! "rdm2_f.vvov", [1, 1, 0, 1]), (chars! "rdm2_f.vvvo", [1, 1, 1, 0]), (chars! "rdm2_f.vvvv", [1, 1, 1, 1])] ∧
    RotCovariant Gen.GCCSD_S_1_1.make_sing_b_dm argSpaces [(chars! "dm_b.0", [2]), (chars! "dm_b.1", [2])] ∧
    RotCovariant Gen.GCCSD_S_1_1.make_rdm1_b argSpaces [(chars! "rdm1_b", [2, 2])] ∧
    RotCovariant Gen.GCCSD_S_1_1.make_eb_coup_rdm argSpaces [(chars! "rdm_eb.0.oo", [2, 0, 0]), (chars! "rdm_eb.0.ov", [2, 0, 1]), (chars! "rdm_eb.0.vo", [2, 1, 0]), (chars! "rdm_eb.0.vv", [2, 1, 1]), (chars! "rdm_eb.1.oo", [2, 0, 0]), (chars! "rdm_eb.1.ov", [2, 0, 1]), (chars! "rdm_eb.1.vo", [2, 1, 0]), (chars! "rdm_eb.1.vv", [2, 1, 1])] :=
  ⟨covariant_of_check (by decide +kernel),
    covariant_of_check (by decide +kernel),
    covariant_of_check (by decide +kernel),
    covariant_of_check (by decide +kernel),
    covariant_of_check (by decide +kernel),
    covariant_of_check (by decide +kernel),
    covariant_of_check (by decide +kernel)⟩

theorem C93_GLCCD :
    RotCovariant Gen.GLCCD.energy argSpaces [(chars! "e_cc", [])] ∧
    RotCovariant Gen.GLCCD.update_amps argSpaces [(chars! "t2new", [0, 0, 1, 1])] :=
  ⟨covariant_of_check (by decide +kernel),
    covariant_of_check (by decide +kernel)⟩

theorem C93_GLCCSD :
    RotCovariant Gen.GLCCSD.energy argSpaces [(chars! "e_cc", [])] ∧
    RotCovariant Gen.GLCCSD.update_amps argSpaces [(chars! "t1new", [0, 1]), (chars! "t2new", [0, 0, 1, 1])] :=
  ⟨covariant_of_check (by decide +kernel),
    covariant_of_check (by decide +kernel)⟩

theorem C93_GMP2 :
    RotCovariant Gen.GMP2.energy argSpaces [(chars! "e_mp", [])] :=
  covariant_of_check (by decide +kernel)

theorem C93_GMP3 :
    RotCovariant Gen.GMP3.energy argSpaces [(chars! "e_mp", [])] :=
  covariant_of_check (by decide +kernel)

theorem C93_GQCISD :
    RotCovariant Gen.GQCISD.energy argSpaces [(chars! "e_cc", [])] ∧
    RotCovariant Gen.GQCISD.update_amps argSpaces [(chars! "t1new", [0, 1]), (chars! "t2new", [0, 0, 1, 1])] :=
  ⟨covariant_of_check (by decide +kernel),
    covariant_of_check (by decide +kernel)⟩

theorem C93_GecCC :
    RotCovariant Gen.GecCC.convert_c1_to_t1 argSpaces [(chars! "t1", [0, 1])] ∧
    RotCovariant Gen.GecCC.convert_t1_to_c1 argSpaces [(chars! "c1", [0, 1])] ∧
    RotCovariant Gen.GecCC.convert_c2_to_t2 argSpaces [(chars! "t2", [0, 0, 1, 1])] ∧
    RotCovariant Gen.GecCC.convert_t2_to_c2 argSpaces [(chars! "c2", [0, 0, 1, 1])] ∧
    RotCovariant Gen.GecCC.convert_c3_to_t3 argSpaces [(chars! "t3", [0, 0, 0, 1, 1, 1])] ∧
    RotCovariant Gen.GecCC.convert_t3_to_c3 argSpaces [(chars! "c3", [0, 0, 0, 1, 1, 1])] ∧
    RotCovariant Gen.GecCC.convert_c4_to_t4 argSpaces [(chars! "t4", [0, 0, 0, 0, 1, 1, 1, 1])] ∧
    RotCovariant Gen.GecCC.convert_t4_to_c4 argSpaces [(chars! "c4", [0, 0, 0, 0, 1, 1, 1, 1])] :=
  ⟨covariant_of_check (by decide +kernel),
    covariant_of_check (by decide +kernel),
    covariant_of_check (by decide +kernel),
    covariant_of_check (by decide +kernel),
    covariant_of_check (by decide +kernel),
    covariant_of_check (by decide +kernel),
    covariant_of_check (by decide +kernel),
    covariant_of_check (by decide +kernel)⟩

theorem C93_RCC2 :
    RotCovariant Gen.RCC2.energy argSpaces [(chars! "e_cc", [])] ∧
    RotCovariant Gen.RCC2.update_amps argSpaces [(chars! "t1new", [0, 1]), (chars! "t2new", [0, 0, 1, 1])] ∧
    RotCovariant Gen.RCC2.update_lams argSpaces [(chars! "l1new", [1, 0]), (chars! "l2new", [1, 1, 0, 0])] :=
  ⟨covariant_of_check (by decide +kernel),
    covariant_of_check (by decide +kernel),
    covariant_of_check (by decide +kernel)⟩

theorem C93_RCCD :
    RotCovariant Gen.RCCD.energy argSpaces [(chars! "e_cc", [])] ∧
    RotCovariant Gen.RCCD.update_amps argSpaces [(chars! "t2new", [0, 0, 1, 1])] ∧
    RotCovariant Gen.RCCD.update_lams argSpaces [(chars! "l2new", [1, 1, 0, 0])] :=
  ⟨covariant_of_check (by decide +kernel),
    covariant_of_check (by decide +kernel),
    covariant_of_check (by decide +kernel)⟩

theorem C93_RCCSD :
    RotCovariant Gen.RCCSD.energy argSpaces [(chars! "e_cc", [])] ∧
    RotCovariant Gen.RCCSD.update_amps argSpaces [(chars! "t1new", [0, 1]), (chars! "t2new", [0, 0, 1, 1])] ∧
    RotCovariant Gen.RCCSD.update_lams argSpaces [(chars! "l1new", [1, 0]), (chars! "l2new", [1, 1, 0, 0])] :=
  ⟨covariant_of_check (by decide +kernel),
    covariant_of_check (by decide +kernel),
    covariant_of_check (by decide +kernel)⟩

theorem C93_RCCSD_SD_1_1 :
    RotCovariant Gen.RCCSD_SD_1_1.energy argSpaces [(chars! "e_cc", [])] ∧
    RotCovariant Gen.RCCSD_SD_1_1.update_amps argSpaces [(chars! "t1new", [0, 1]), (chars! "t2new", [0, 0, 1, 1]), (chars! "s1new", [2]), (chars! "s2new", [2, 2]), (chars! "u11new", [2, 0, 1])] :=
  ⟨covariant_of_check (by decide +kernel),
    covariant_of_check (by decide +kernel)⟩

theorem C93_RCCSD_SD_1_2 :
    RotCovariant Gen.RCCSD_SD_1_2.energy argSpaces [(chars! "e_cc", [])] ∧
    RotCovariant Gen.RCCSD_SD_1_2.update_amps argSpaces [(chars! "t1new", [0, 1]), (chars! "t2new", [0, 0, 1, 1]), (chars! "s1new", [2]), (chars! "s2new", [2, 2]), (chars! "u11new", [2, 0, 1]), (chars! "u12new", [2, 2, 0, 1])] :=
  ⟨covariant_of_check (by decide +kernel),
    covariant_of_check (by decide +kernel)⟩

theorem C93_RCCSD_S_1_1 :
    RotCovariant Gen.RCCSD_S_1_1.energy argSpaces [(chars! "e_cc", [])] ∧
    RotCovariant Gen.RCCSD_S_1_1.update_amps argSpaces [(chars! "t1new", [0, 1]), (chars! "t2new", [0, 0, 1, 1]), (chars! "s1new", [2]), (chars! "u11new", [2, 0, 1])] :=
  ⟨covariant_of_check (by decide +kernel),
    covariant_of_check (by decide +kernel)⟩

theorem C93_RDCD :
    RotCovariant Gen.RDCD.energy argSpaces [(chars! "e_cc", [])] ∧
    RotCovariant Gen.RDCD.update_amps argSpaces [(chars! "t2new", [0, 0, 1, 1])] :=
  ⟨covariant_of_check (by decide +kernel),
    covariant_of_check (by decide +kernel)⟩

theorem C93_RDCSD :
    RotCovariant Gen.RDCSD.energy argSpaces [(chars! "e_cc", [])] ∧
    RotCovariant Gen.RDCSD.update_amps argSpaces [(chars! "t1new", [0, 1]), (chars! "t2new", [0, 0, 1, 1])] :=
  ⟨covariant_of_check (by decide +kernel),
    covariant_of_check (by decide +kernel)⟩

theorem C93_RDFCC2 :
    RotCovariant Gen.RDFCC2.energy argSpaces [(chars! "e_cc", [])] ∧
    RotCovariant Gen.RDFCC2.update_amps argSpaces [(chars! "t1new", [0, 1]), (chars! "t2new", [0, 0, 1, 1])] ∧
    RotCovariant Gen.RDFCC2.update_lams argSpaces [(chars! "l1new", [1, 0]), (chars! "l2new", [1, 1, 0, 0])] :=
  ⟨covariant_of_check (by decide +kernel),
    covariant_of_check (by decide +kernel),
    covariant_of_check (by decide +kernel)⟩

theorem C93_RDFCCD :
    RotCovariant Gen.RDFCCD.energy argSpaces [(chars! "e_cc", [])] ∧
    RotCovariant Gen.RDFCCD.update_amps argSpaces [(chars! "t2new", [0, 0, 1, 1])] ∧
    RotCovariant Gen.RDFCCD.update_lams argSpaces [(chars! "l2new", [1, 1, 0, 0])] :=
  ⟨covariant_of_check (by decide +kernel),
    covariant_of_check (by decide +kernel),
    covariant_of_check (by decide +kernel)⟩

theorem C93_RDFCCSD :
    RotCovariant Gen.RDFCCSD.energy argSpaces [(chars! "e_cc", [])] ∧
    RotCovariant Gen.RDFCCSD.update_amps argSpaces [(chars! "t1new", [0, 1]), (chars! "t2new", [0, 0, 1, 1])] ∧
    RotCovariant Gen.RDFCCSD.update_lams argSpaces [(chars! "l1new", [1, 0]), (chars! "l2new", [1, 1, 0, 0])] :=
  ⟨covariant_of_check (by decide +kernel),
    covariant_of_check (by decide +kernel),
    covariant_of_check (by decide +kernel)⟩

theorem C93_RDFDCD :
    RotCovariant Gen.RDFDCD.energy argSpaces [(chars! "e_cc", [])] ∧
    RotCovariant Gen.RDFDCD.update_amps argSpaces [(chars! "t2new", [0, 0, 1, 1])] :=
  ⟨covariant_of_check (by decide +kernel),
    covariant_of_check (by decide +kernel)⟩

theorem C93_RDFDCSD :
    RotCovariant Gen.RDFDCSD.energy argSpaces [(chars! "e_cc", [])] ∧
    RotCovariant Gen.RDFDCSD.update_amps argSpaces [(chars! "t1new", [0, 1]), (chars! "t2new", [0, 0, 1, 1])] :=
  ⟨covariant_of_check (by decide +kernel),
    covariant_of_check (by decide +kernel)⟩

theorem C93_RDFLCCD :
    RotCovariant Gen.RDFLCCD.energy argSpaces [(chars! "e_cc", [])] ∧
    RotCovariant Gen.RDFLCCD.update_amps argSpaces [(chars! "t2new", [0, 0, 1, 1])] :=
  ⟨covariant_of_check (by decide +kernel),
    covariant_of_check (by decide +kernel)⟩

theorem C93_RDFLCCSD :
    RotCovariant Gen.RDFLCCSD.energy argSpaces [(chars! "e_cc", [])] ∧
    RotCovariant Gen.RDFLCCSD.update_amps argSpaces [(chars! "t1new", [0, 1]), (chars! "t2new", [0, 0, 1, 1])] :=
  ⟨covariant_of_check (by decide +kernel),
    covariant_of_check (by decide +kernel)⟩

theorem C93_RDFQCISD :
    RotCovariant Gen.RDFQCISD.energy argSpaces [(chars! "e_cc", [])] ∧
    RotCovariant Gen.RDFQCISD.update_amps argSpaces [(chars! "t1new", [0, 1]), (chars! "t2new", [0, 0, 1, 1])] :=
  ⟨covariant_of_check (by decide +kernel),
    covariant_of_check (by decide +kernel)⟩

theorem C93_RLCCD :
    RotCovariant Gen.RLCCD.energy argSpaces [(chars! "e_cc", [])] ∧
    RotCovariant Gen.RLCCD.update_amps argSpaces [(chars! "t2new", [0, 0, 1, 1])] :=
  ⟨covariant_of_check (by decide +kernel),
    covariant_of_check (by decide +kernel)⟩

theorem C93_RLCCSD :
    RotCovariant Gen.RLCCSD.energy argSpaces [(chars! "e_cc", [])] ∧
    RotCovariant Gen.RLCCSD.update_amps argSpaces [(chars! "t1new", [0, 1]), (chars! "t2new", [0, 0, 1, 1])] :=
  ⟨covariant_of_check (by decide +kernel),
    covariant_of_check (by decide +kernel)⟩

theorem C93_RMP2 :
    RotCovariant Gen.RMP2.energy argSpaces [(chars! "e_mp", [])] :=
  covariant_of_check (by decide +kernel)

theorem C93_RQCISD :
    RotCovariant Gen.RQCISD.energy argSpaces [(chars! "e_cc", [])] ∧
    RotCovariant Gen.RQCISD.update_amps argSpaces [(chars! "t1new", [0, 1]), (chars! "t2new", [0, 0, 1, 1])] :=
  ⟨covariant_of_check (by decide +kernel),
    covariant_of_check (by decide +kernel)⟩

theorem C93_RecCC :
    RotCovariant Gen.RecCC.convert_c1_to_t1 argSpaces [(chars! "t1", [0, 1])] ∧
    RotCovariant Gen.RecCC.convert_t1_to_c1 argSpaces [(chars! "c1", [0, 1])] ∧
    RotCovariant Gen.RecCC.convert_c2_to_t2 argSpaces [(chars! "t2", [0, 0, 1, 1])] ∧
    RotCovariant Gen.RecCC.convert_t2_to_c2 argSpaces [(chars! "c2", [0, 0, 1, 1])] ∧
    RotCovariant Gen.RecCC.convert_c3_to_t3 argSpaces [(chars! "t3", [0, 0, 0, 1, 1, 1])] ∧
    RotCovariant Gen.RecCC.convert_t3_to_c3 argSpaces [(chars! "c3", [0, 0, 0, 1, 1, 1])] ∧
    RotCovariant Gen.RecCC.convert_c4_to_t4 argSpaces [(chars! "t4", [0, 0, 0, 0, 1, 1, 1, 1]), (chars! "t4a", [0, 0, 0, 0, 1, 1, 1, 1])] ∧
    RotCovariant Gen.RecCC.convert_t4_to_c4 argSpaces [(chars! "c4", [0, 0, 0, 0, 1, 1, 1, 1]), (chars! "c4a", [0, 0, 0, 0, 1, 1, 1, 1])] :=
  ⟨covariant_of_check (by decide +kernel),
    covariant_of_check (by decide +kernel),
    covariant_of_check (by decide +kernel),
    covariant_of_check (by decide +kernel),
    covariant_of_check (by decide +kernel),
    covariant_of_check (by decide +kernel),
    covariant_of_check (by decide +kernel),
    covariant_of_check (by decide +kernel)⟩

theorem C93_UCC2 :
    RotCovariant Gen.UCC2.energy uArgSpaces [(chars! "e_cc", [])] ∧
    RotCovariant Gen.UCC2.update_amps uArgSpaces [(chars! "t1new.bb", [4, 5]), (chars! "t1new.aa", [0, 1]), (chars! "t2new.bbbb", [4, 4, 5, 5]), (chars! "t2new.abab", [0, 4, 1, 5]), (chars! "t2new.aaaa", [0, 0, 1, 1])] :=
  ⟨covariant_of_check (by decide +kernel),
    covariant_of_check (by decide +kernel)⟩

theorem C93_UCCD :
    RotCovariant Gen.UCCD.energy uArgSpaces [(chars! "e_cc", [])] ∧
    RotCovariant Gen.UCCD.update_amps uArgSpaces [(chars! "t2new.bbbb", [4, 4, 5, 5]), (chars! "t2new.abab", [0, 4, 1, 5]), (chars! "t2new.aaaa", [0, 0, 1, 1])] ∧
    RotCovariant Gen.UCCD.update_lams uArgSpaces [(chars! "l2new.bbbb", [5, 5, 4, 4]), (chars! "l2new.abab", [1, 5, 0, 4]), (chars! "l2new.aaaa", [1, 1, 0, 0])] :=
  ⟨covariant_of_check (by decide +kernel),
    covariant_of_check (by decide +kernel),
    covariant_of_check (by decide +kernel)⟩

theorem C93_UCCSD :
    RotCovariant Gen.UCCSD.energy uArgSpaces [(chars! "e_cc", [])] ∧
    RotCovariant Gen.UCCSD.update_amps uArgSpaces [(chars! "t1new.bb", [4, 5]), (chars! "t1new.aa", [0, 1]), (chars! "t2new.bbbb", [4, 4, 5, 5]), (chars! "t2new.abab", [0, 4, 1, 5]), (chars! "t2new.aaaa", [0, 0, 1, 1])] :=
  ⟨covariant_of_check (by decide +kernel),
    covariant_of_check (by decide +kernel)⟩

theorem C93_UCCSD_SD_1_1 :
    RotCovariant Gen.UCCSD_SD_1_1.energy uArgSpaces [(chars! "e_cc", [])] :=
  covariant_of_check (by decide +kernel)

theorem C93_UCCSD_SD_1_2 :
    RotCovariant Gen.UCCSD_SD_1_2.energy uArgSpaces [(chars! "e_cc", [])] :=
  covariant_of_check (by decide +kernel)

theorem C93_UCCSD_S_1_1 :
    RotCovariant Gen.UCCSD_S_1_1.energy uArgSpaces [(chars! "e_cc", [])] :=
  covariant_of_check (by decide +kernel)

theorem C93_UDCD :
    RotCovariant Gen.UDCD.energy uArgSpaces [(chars! "e_cc", [])] ∧
    RotCovariant Gen.UDCD.update_amps uArgSpaces [(chars! "t2new.bbbb", [4, 4, 5, 5]), (chars! "t2new.abab", [0, 4, 1, 5]), (chars! "t2new.aaaa", [0, 0, 1, 1])] :=
  ⟨covariant_of_check (by decide +kernel),
    covariant_of_check (by decide +kernel)⟩

theorem C93_UDCSD :
    RotCovariant Gen.UDCSD.energy uArgSpaces [(chars! "e_cc", [])] :=
  covariant_of_check (by decide +kernel)

theorem C93_ULCCD :
    RotCovariant Gen.ULCCD.energy uArgSpaces [(chars! "e_cc", [])] ∧
    RotCovariant Gen.ULCCD.update_amps uArgSpaces [(chars! "t2new.aaaa", [0, 0, 1, 1]), (chars! "t2new.abab", [0, 4, 1, 5]), (chars! "t2new.bbbb", [4, 4, 5, 5])] :=
  ⟨covariant_of_check (by decide +kernel),
    covariant_of_check (by decide +kernel)⟩

theorem C93_ULCCSD :
    RotCovariant Gen.ULCCSD.energy uArgSpaces [(chars! "e_cc", [])] ∧
    RotCovariant Gen.ULCCSD.update_amps uArgSpaces [(chars! "t1new.aa", [0, 1]), (chars! "t1new.bb", [4, 5]), (chars! "t2new.aaaa", [0, 0, 1, 1]), (chars! "t2new.abab", [0, 4, 1, 5]), (chars! "t2new.bbbb", [4, 4, 5, 5])] :=
  ⟨covariant_of_check (by decide +kernel),
    covariant_of_check (by decide +kernel)⟩

theorem C93_UMP2 :
    RotCovariant Gen.UMP2.energy uArgSpaces [(chars! "e_mp", [])] :=
  covariant_of_check (by decide +kernel)

theorem C93_UMP3 :
    RotCovariant Gen.UMP3.energy uArgSpaces [(chars! "e_mp", [])] :=
  covariant_of_check (by decide +kernel)

theorem C93_UQCISD :
    RotCovariant Gen.UQCISD.energy uArgSpaces [(chars! "e_cc", [])] ∧
    RotCovariant Gen.UQCISD.update_amps uArgSpaces [(chars! "t1new.bb", [4, 5]), (chars! "t1new.aa", [0, 1]), (chars! "t2new.bbbb", [4, 4, 5, 5]), (chars! "t2new.abab", [0, 4, 1, 5]), (chars! "t2new.aaaa", [0, 0, 1, 1])] :=
  ⟨covariant_of_check (by decide +kernel),
    covariant_of_check (by decide +kernel)⟩

theorem C93_UecCC :
    RotCovariant Gen.UecCC.convert_c1_to_t1 uArgSpaces [(chars! "t1.aa", [0, 1]), (chars! "t1.bb", [4, 5])] ∧
    RotCovariant Gen.UecCC.convert_t1_to_c1 uArgSpaces [(chars! "c1.aa", [0, 1]), (chars! "c1.bb", [4, 5])] ∧
    RotCovariant Gen.UecCC.convert_c2_to_t2 uArgSpaces [(chars! "t2.aaaa", [0, 0, 1, 1]), (chars! "t2.abab", [0, 4, 1, 5]), (chars! "t2.bbbb", [4, 4, 5, 5])] ∧
    RotCovariant Gen.UecCC.convert_t2_to_c2 uArgSpaces [(chars! "c2.aaaa", [0, 0, 1, 1]), (chars! "c2.abab", [0, 4, 1, 5]), (chars! "c2.bbbb", [4, 4, 5, 5])] ∧
    RotCovariant Gen.UecCC.convert_c3_to_t3 uArgSpaces [(chars! "t3.aaaaaa", [0, 0, 0, 1, 1, 1]), (chars! "t3.abaaba", [0, 4, 0, 1, 5, 1]), (chars! "t3.bbbbbb", [4, 4, 4, 5, 5, 5]), (chars! "t3.babbab", [4, 0, 4, 5, 1, 5])] ∧
    RotCovariant Gen.UecCC.convert_t3_to_c3 uArgSpaces [(chars! "c3.aaaaaa", [0, 0, 0, 1, 1, 1]), (chars! "c3.abaaba", [0, 4, 0, 1, 5, 1]), (chars! "c3.bbbbbb", [4, 4, 4, 5, 5, 5]), (chars! "c3.babbab", [4, 0, 4, 5, 1, 5])] :=
  ⟨covariant_of_check (by decide +kernel),
    covariant_of_check (by decide +kernel),
    covariant_of_check (by decide +kernel),
    covariant_of_check (by decide +kernel),
    covariant_of_check (by decide +kernel),
    covariant_of_check (by decide +kernel)⟩

/-- The energies `e_cc` are the same for rotated orbitals. -/
theorem C93_energies :
    ScalarInvariant Gen.GCC2.energy argSpaces (chars! "e_cc") ∧
    ScalarInvariant Gen.GCCD.energy argSpaces (chars! "e_cc") ∧
    ScalarInvariant Gen.GCCSD.energy argSpaces (chars! "e_cc") ∧
    ScalarInvariant Gen.GCCSDT.energy argSpaces (chars! "e_cc") ∧
    ScalarInvariant Gen.GCCSD_SD_1_1.energy argSpaces (chars! "e_cc") ∧
    ScalarInvariant Gen.GCCSD_SD_1_2.energy argSpaces (chars! "e_cc") ∧
    ScalarInvariant Gen.GCCSD_S_1_1.energy argSpaces (chars! "e_cc") ∧
    ScalarInvariant Gen.GLCCD.energy argSpaces (chars! "e_cc") ∧
    ScalarInvariant Gen.GLCCSD.energy argSpaces (chars! "e_cc") ∧
    ScalarInvariant Gen.GQCISD.energy argSpaces (chars! "e_cc") ∧
    ScalarInvariant Gen.RCC2.energy argSpaces (chars! "e_cc") ∧
    ScalarInvariant Gen.RCCD.energy argSpaces (chars! "e_cc") ∧
    ScalarInvariant Gen.RCCSD.energy argSpaces (chars! "e_cc") ∧
    ScalarInvariant Gen.RCCSD_SD_1_1.energy argSpaces (chars! "e_cc") ∧
    ScalarInvariant Gen.RCCSD_SD_1_2.energy argSpaces (chars! "e_cc") ∧
    ScalarInvariant Gen.RCCSD_S_1_1.energy argSpaces (chars! "e_cc") ∧
    ScalarInvariant Gen.RDCD.energy argSpaces (chars! "e_cc") ∧
    ScalarInvariant Gen.RDCSD.energy argSpaces (chars! "e_cc") ∧
    ScalarInvariant Gen.RDFCC2.energy argSpaces (chars! "e_cc") ∧
    ScalarInvariant Gen.RDFCCD.energy argSpaces (chars! "e_cc") ∧
    ScalarInvariant Gen.RDFCCSD.energy argSpaces (chars! "e_cc") ∧
    ScalarInvariant Gen.RDFDCD.energy argSpaces (chars! "e_cc") ∧
    ScalarInvariant Gen.RDFDCSD.energy argSpaces (chars! "e_cc") ∧
    ScalarInvariant Gen.RDFLCCD.energy argSpaces (chars! "e_cc") ∧
    ScalarInvariant Gen.RDFLCCSD.energy argSpaces (chars! "e_cc") ∧
    ScalarInvariant Gen.RDFQCISD.energy argSpaces (chars! "e_cc") ∧
    ScalarInvariant Gen.RLCCD.energy argSpaces (chars! "e_cc") ∧
    ScalarInvariant Gen.RLCCSD.energy argSpaces (chars! "e_cc") ∧
    ScalarInvariant Gen.RQCISD.energy argSpaces (chars! "e_cc") :=
  ⟨C93_scalar C93_GCC2.1,
    C93_scalar C93_GCCD.1,
    C93_scalar C93_GCCSD.1,
    C93_scalar C93_GCCSDT.1,
    C93_scalar C93_GCCSD_SD_1_1.1,
    C93_scalar C93_GCCSD_SD_1_2.1,
    C93_scalar C93_GCCSD_S_1_1.1,
    C93_scalar C93_GLCCD.1,
    C93_scalar C93_GLCCSD.1,
    C93_scalar C93_GQCISD.1,
    C93_scalar C93_RCC2.1,
    C93_scalar C93_RCCD.1,
    C93_scalar C93_RCCSD.1,
    C93_scalar C93_RCCSD_SD_1_1.1,
    C93_scalar C93_RCCSD_SD_1_2.1,
    C93_scalar C93_RCCSD_S_1_1.1,
    C93_scalar C93_RDCD.1,
    C93_scalar C93_RDCSD.1,
    C93_scalar C93_RDFCC2.1,
    C93_scalar C93_RDFCCD.1,
    C93_scalar C93_RDFCCSD.1,
    C93_scalar C93_RDFDCD.1,
    C93_scalar C93_RDFDCSD.1,
    C93_scalar C93_RDFLCCD.1,
    C93_scalar C93_RDFLCCSD.1,
    C93_scalar C93_RDFQCISD.1,
    C93_scalar C93_RLCCD.1,
    C93_scalar C93_RLCCSD.1,
    C93_scalar C93_RQCISD.1⟩

/-- The energies `e_mp` are the same for rotated orbitals. -/
theorem C93_energies_mp :
    ScalarInvariant Gen.GMP2.energy argSpaces (chars! "e_mp") ∧
    ScalarInvariant Gen.GMP3.energy argSpaces (chars! "e_mp") ∧
    ScalarInvariant Gen.RMP2.energy argSpaces (chars! "e_mp") :=
  ⟨C93_scalar C93_GMP2,
    C93_scalar C93_GMP3,
    C93_scalar C93_RMP2⟩

/-- The energies `e_cc` are the same for rotated orbitals, unrestricted. -/
theorem C93_energies_u :
    ScalarInvariant Gen.UCC2.energy uArgSpaces (chars! "e_cc") ∧
    ScalarInvariant Gen.UCCD.energy uArgSpaces (chars! "e_cc") ∧
    ScalarInvariant Gen.UCCSD.energy uArgSpaces (chars! "e_cc") ∧
    ScalarInvariant Gen.UCCSD_SD_1_1.energy uArgSpaces (chars! "e_cc") ∧
    ScalarInvariant Gen.UCCSD_SD_1_2.energy uArgSpaces (chars! "e_cc") ∧
    ScalarInvariant Gen.UCCSD_S_1_1.energy uArgSpaces (chars! "e_cc") ∧
    ScalarInvariant Gen.UDCD.energy uArgSpaces (chars! "e_cc") ∧
    ScalarInvariant Gen.UDCSD.energy uArgSpaces (chars! "e_cc") ∧
    ScalarInvariant Gen.ULCCD.energy uArgSpaces (chars! "e_cc") ∧
    ScalarInvariant Gen.ULCCSD.energy uArgSpaces (chars! "e_cc") ∧
    ScalarInvariant Gen.UQCISD.energy uArgSpaces (chars! "e_cc") :=
  ⟨C93_scalar C93_UCC2.1,
    C93_scalar C93_UCCD.1,
    C93_scalar C93_UCCSD.1,
    C93_scalar C93_UCCSD_SD_1_1,
    C93_scalar C93_UCCSD_SD_1_2,
    C93_scalar C93_UCCSD_S_1_1,
    C93_scalar C93_UDCD.1,
    C93_scalar C93_UDCSD,
    C93_scalar C93_ULCCD.1,
    C93_scalar C93_ULCCSD.1,
    C93_scalar C93_UQCISD.1⟩

/-- The energies `e_mp` are the same for rotated orbitals, unrestricted. -/
theorem C93_energies_mp_u :
    ScalarInvariant Gen.UMP2.energy uArgSpaces (chars! "e_mp") ∧
    ScalarInvariant Gen.UMP3.energy uArgSpaces (chars! "e_mp") :=
  ⟨C93_scalar C93_UMP2,
    C93_scalar C93_UMP3⟩

end Ebcc
