import Verif.Tensor.Density
import Verif.Spec.EomG
import Verif.Lemmas.Rotate
/-!
Excitations as polynomials, and identities for the functions which apply the Hamiltonian.
-/

namespace Ebcc

/-- The symmetries of `r1` and `r2`. -/
def vecSym1 : EomSort → List (List Nat × Bool)
  | .ee => [([0, 1], false)]
  | _ => [([0], false)]

def vecSym2 : EomSort → List (List Nat × Bool)
  | .ee => [([0, 1, 2, 3], false), ([0, 1, 3, 2], true), ([1, 0, 2, 3], true), ([1, 0, 3, 2], false)]
  | _ => [([0, 1, 2], false), ([1, 0, 2], true)]

/-- The symmetries: 64 and 65 are the vector `r`, 66 and 67 the vector `q`. -/
def eSymX (k : EomSort) : TSym
  | 64 => vecSym1 k
  | 65 => vecSym2 k
  | 66 => vecSym1 k
  | 67 => vecSym2 k
  | _ => []

def eSym (k : EomSort) (n : Nat) : List (List Nat × Bool) := bif Nat.blt n 64 then gSym n else eSymX k n

/-- The arguments, and the vectors. -/
def eVals (k : EomSort) : List Char → Option TArg
  | ['r', '1'] => some (blk 64 k.sp1)
  | ['r', '2'] => some (blk 65 k.sp2)
  | ['q', '1'] => some (blk 66 k.sp1)
  | ['q', '2'] => some (blk 67 k.sp2)
  | name => gVals name

/-- The same with zero for `r1`. -/
def eVals0 (k : EomSort) : List Char → Option TArg
  | ['r', '1'] => some (k.sp1, [])
  | name => eVals k name

def eomTags : List Char := ['I', 'M', 'J', 'N', 'A', 'r', 'q', 'i', 'l', 'd']

/-- The arguments of calls with intermediates which have the tag `tag`, and the vector `v`. -/
def eomArg (tag v : Char) : List Char → List Char
  | ['r', '1'] => [v, '1']
  | ['r', '2'] => [v, '2']
  | 'i' :: 'n' :: 't' :: 's' :: '.' :: name => tag :: name
  | name => argBut eomTags name

def eomCalls (I M J N : GenFun) : List TCall :=
  [⟨I, 'I', argBut eomTags⟩, ⟨M, 'M', eomArg 'I' 'r'⟩, ⟨J, 'J', argBut eomTags⟩, ⟨N, 'N', eomArg 'J' 'q'⟩]

/-- The labels of `r1` and `r2`. -/
def EomSort.lab1 : EomSort → List Nat
  | .ip => [0]
  | .ea => [3]
  | .ee => [0, 3]

def EomSort.lab2 : EomSort → List Nat
  | .ip => [0, 1, 3]
  | .ea => [3, 4, 0]
  | .ee => [0, 1, 3, 4]

def EomSort.den : EomSort → Nat
  | .ee => 4
  | _ => 2

def adjTerms (k : EomSort) : List ITerm :=
  [⟨1, 1, [(chars! "q1", k.lab1), (chars! "Mr1new", k.lab1)]⟩, ⟨1, k.den, [(chars! "q2", k.lab2), (chars! "Mr2new", k.lab2)]⟩,
    ⟨-1, 1, [(chars! "r1", k.lab1), (chars! "Nr1new", k.lab1)]⟩,
    ⟨-1, k.den, [(chars! "r2", k.lab2), (chars! "Nr2new", k.lab2)]⟩]

def adjIdent (k : EomSort) (dev : List ITerm) : Ident := ⟨gLabels, 0, [], adjTerms k ++ dev⟩

section
variable {R : Type} [Field R]

def eTensor (h : GHam R) (t l s : GAmps R) {k : EomSort} (x y : EomVec R k) (n : Nat) : List Orb → R :=
  if n < 64 then gTensor h t l s n
  else if n = 64 then fun os => x.x1 (os.map Prod.snd)
  else if n = 65 then fun os => x.x2 (os.map Prod.snd)
  else if n = 66 then fun os => y.x1 (os.map Prod.snd)
  else fun os => y.x2 (os.map Prod.snd)

theorem EomVec.symAt1 {k : EomSort} (x : EomVec R k) (q : List Nat × Bool)
    (hq : q ∈ vecSym1 k) :
    SymAt (fun os => x.x1 (os.map Prod.snd)) q := by
  cases k <;> simp only [vecSym1, vecSym2, List.mem_cons, List.not_mem_nil, or_false] at hq <;> subst hq
  · exact ⟨by decide, forall_length1 fun p => by simp⟩
  · exact ⟨by decide, forall_length1 fun p => by simp⟩
  · exact ⟨by decide, forall_length2 fun p q => by simp⟩

theorem EomVec.symAt2 {k : EomSort} (x : EomVec R k) (q : List Nat × Bool)
    (hq : q ∈ vecSym2 k) :
    SymAt (fun os => x.x2 (os.map Prod.snd)) q := by
  cases k <;> simp only [vecSym1, vecSym2, List.mem_cons, List.not_mem_nil, or_false] at hq
  · rcases hq with rfl | rfl <;> refine ⟨by decide, forall_length3 fun p q r => ?_⟩
    · simp
    · simp [x.anti1 p.2 q.2]
  · rcases hq with rfl | rfl <;> refine ⟨by decide, forall_length3 fun p q r => ?_⟩
    · simp
    · simp [x.anti1 p.2 q.2]
  · rcases hq with rfl | rfl | rfl | rfl <;> refine ⟨by decide, forall_length4 fun p q r s => ?_⟩
    · simp
    · simp [x.anti2 rfl p.2 q.2 r.2 s.2]
    · simp [x.anti1 p.2 q.2]
    · simp [x.anti1 p.2 q.2, x.anti2 rfl p.2 q.2 r.2 s.2]

theorem eSym_symOk (h : GHam R) (t l s : GAmps R) {k : EomSort} (x y : EomVec R k) :
    SymOk (eTensor h t l s x y) (eSym k) := by
  refine ⟨?_, ?_⟩
  · intro n q hq
    change SymAt (eTensor h t l s x y n) q
    unfold eSym at hq
    by_cases hn : n < 64
    · have : Nat.blt n 64 = true := by rw [Nat.blt_eq]; exact hn
      rw [this] at hq
      simp only [eTensor, if_pos hn]
      exact (gSym_symOk h t l s).sym n q hq
    · have : Nat.blt n 64 = false := by
        rw [Bool.eq_false_iff, ne_eq, Nat.blt_eq]; exact hn
      rw [this] at hq
      simp only [cond_false] at hq
      unfold eSymX at hq
      split at hq
      · exact x.symAt1 q hq
      · exact x.symAt2 q hq
      · exact y.symAt1 q hq
      · exact y.symAt2 q hq
      · cases hq
  · exact (gSym_symOk h t l s).delta

/-- The arrays with the names of `eVals`. -/
def eArgs (h : GHam R) (t l s : GAmps R) (sz : Nat → Nat) {k : EomSort} (x y : EomVec R k) :
    List Char → Option (NDArray R)
  | ['r', '1'] => some (x.arr1 sz)
  | ['r', '2'] => some (x.arr2 sz)
  | ['q', '1'] => some (y.arr1 sz)
  | ['q', '2'] => some (y.arr2 sz)
  | name => h.argsD t l s sz name

theorem vec_rep (sz : Nat → Nat) (T : Nat → List Orb → R) (n : Nat) (sp : List Nat) (hs : ∀ s ∈ sp, s < 16)
    (f : List Nat → R) (hT : T n = fun os => f (os.map Prod.snd)) :
    ArgRep sz T (blk n sp) (NDArray.ofFn (sp.map sz) f) := by
  have := blk_rep sz T n sp hs
  have e : blockArr sz (T n) sp = NDArray.ofFn (sp.map sz) f := by
    refine NDArray.ext_get (NDArray.ofFn_wf _ _) (NDArray.ofFn_wf _ _) (by simp [blockArr, NDArray.ofFn_shape]) ?_
    intro idx hidx
    rw [blockArr, NDArray.ofFn_shape] at hidx
    rw [blockArr, NDArray.get_ofFn _ _ hidx, NDArray.get_ofFn _ _ hidx, hT]
    have hl : idx.length = sp.length := by simpa using InBox.length_eq hidx
    show f _ = f _
    rw [List.map_snd_zip (by omega)]
  rwa [e] at this

theorem EomSort.sp1_lt (k : EomSort) : ∀ s ∈ k.sp1, s < 16 := by cases k <;> decide
theorem EomSort.sp2_lt (k : EomSort) : ∀ s ∈ k.sp2, s < 16 := by cases k <;> decide

theorem eVals_rep (sz : Nat → Nat) (h : GHam R) (t l s : GAmps R) {k : EomSort} (x y : EomVec R k) (name : List Char)
    (v : TArg) (hv : eVals k name = some v) :
    ∃ a, eArgs h t l s sz x y name = some a ∧ ArgRep sz (eTensor h t l s x y) v a := by
  have hg : ∀ n < 64, eTensor h t l s x y n = gTensor h t l s n := fun n hn => by simp [eTensor, hn]
  have hh : ∀ n < 16, eTensor h t l s x y n = h.tensor n := by
    intro n hn
    rw [hg n (by omega)]
    simp [gTensor, hn]
  have ht : ∀ n < 16, eTensor h t l s x y (16 + n) = t.tensor n := by
    intro n hn
    have : (16 + n) % 16 = n := by omega
    rw [hg _ (by omega)]
    simp only [gTensor, this]
    rw [if_neg (by omega), if_pos (by omega)]
  have hl : ∀ n < 16, eTensor h t l s x y (32 + n) = l.tensor n := by
    intro n hn
    have : (32 + n) % 16 = n := by omega
    rw [hg _ (by omega)]
    simp only [gTensor, this]
    rw [if_neg (by omega), if_neg (by omega), if_pos (by omega)]
  have hs : ∀ n < 16, eTensor h t l s x y (48 + n) = s.tensor n := by
    intro n hn
    have : (48 + n) % 16 = n := by omega
    rw [hg _ (by omega)]
    simp only [gTensor, this]
    rw [if_neg (by omega), if_neg (by omega), if_neg (by omega), if_pos (by omega)]
  unfold eVals at hv
  unfold eArgs
  split at hv
  · cases hv; exact ⟨_, rfl, vec_rep _ _ _ _ k.sp1_lt _ rfl⟩
  · cases hv; exact ⟨_, rfl, vec_rep _ _ _ _ k.sp2_lt _ rfl⟩
  · cases hv; exact ⟨_, rfl, vec_rep _ _ _ _ k.sp1_lt _ rfl⟩
  · cases hv; exact ⟨_, rfl, vec_rep _ _ _ _ k.sp2_lt _ rfl⟩
  · unfold gVals at hv
    unfold GHam.argsD
    split at hv
    · exact gValsT_rep sz h s l _ 48 hh hs hl _ v hv
    · rename_i hne
      split
      · exact absurd rfl (hne _)
      · exact gValsT_rep sz h t l _ 16 hh ht hl _ v hv

theorem eVals0_rep (sz : Nat → Nat) (h : GHam R) (t l s : GAmps R) {k : EomSort} (x y : EomVec R k)
    (hx : ∀ idx, x.x1 idx = 0) (name : List Char) (v : TArg) (hv : eVals0 k name = some v) :
    ∃ a, eArgs h t l s sz x y name = some a ∧ ArgRep sz (eTensor h t l s x y) v a := by
  unfold eVals0 at hv
  split at hv
  · cases hv
    refine ⟨_, rfl, NDArray.ofFn_shape _ _, NDArray.ofFn_wf _ _, fun idx hidx => ?_⟩
    rw [EomVec.arr1, NDArray.ofFn_shape] at hidx
    rw [EomVec.arr1, NDArray.get_ofFn _ _ hidx, hx]
    rfl
  · exact eVals_rep sz h t l s x y name v hv

/-! ### The arguments of calls -/

theorem args_lam_irrel (h : GHam R) (t l l' : GAmps R) (sz : Nat → Nat) (c : Char) (name : List Char) (hc : c ≠ 'l') :
    h.args t l sz (c :: name) = h.args t l' sz (c :: name) := by
  unfold GHam.args
  split <;> first | rfl | (rename_i heq; cases heq; exact absurd rfl hc)

theorem eArgs_but (h : GHam R) (t l s : GAmps R) (sz : Nat → Nat) {k : EomSort} (x y : EomVec R k)
    (name : List Char) : eArgs h t l s sz x y (argBut eomTags name) = h.args0 t sz name := by
  cases name with
  | nil => rfl
  | cons c name =>
    cases hc : eomTags.contains c with
    | true =>
      simp only [argBut, hc, cond_true]
      simp only [eomTags, List.contains_cons, List.contains_nil, Bool.or_false, Bool.or_eq_true, beq_iff_eq] at hc
      rcases hc with rfl | rfl | rfl | rfl | rfl | rfl | rfl | rfl | rfl | rfl <;> rfl
    | false =>
      simp only [argBut, hc, cond_false]
      unfold eArgs GHam.args0 GHam.argsD
      split
      · rename_i heq; cases heq; cases hc
      · rename_i heq; cases heq; cases hc
      · rename_i heq; cases heq; cases hc
      · rename_i heq; cases heq; cases hc
      split
      · rename_i heq; cases heq; cases hc
      split
      · rename_i heq; cases heq; cases hc
      · refine args_lam_irrel h t l t sz c name ?_
        rintro rfl
        cases hc

/-- The values of the arguments of a call with intermediates. -/
theorem eomArg_val (av : List Char → Option (NDArray R)) (h : GHam R) (t : GAmps R) (sz : Nat → Nat) (tag v : Char)
    (d : Dict (List Char) (NDArray R)) (r1 r2 : NDArray R) (hr1 : av [v, '1'] = some r1) (hr2 : av [v, '2'] = some r2)
    (hd : ∀ name, av (tag :: name) = d.get? name) (h0 : ∀ name, av (argBut eomTags name) = h.args0 t sz name) :
    (fun name => av (eomArg tag v name)) = h.eomArgs t sz d r1 r2 := by
  funext name
  unfold eomArg GHam.eomArgs
  split
  · exact hr1
  · exact hr2
  · exact hd _
  · rename_i n1 n2 n3
    split
    · exact absurd rfl n1
    · exact absurd rfl n2
    · rename_i n4
      exact absurd rfl (n3 n4)
    · exact h0 name

theorem boxTerm_val (sz : Nat → Nat) (ls : List Nat) (hls : ls.Nodup)
    (hdd : einDummies [ls, ls] ([] : List Nat) = ls) (num : Int) (den : Nat) (n1 n2 : List Char)
    (av : List Char → Option (NDArray R)) (a b : NDArray R) (ha : av n1 = some a) (hb : av n2 = some b) :
    ITerm.val sz gLabels 0 av ⟨num, den, [(n1, ls), (n2, ls)]⟩ [] =
      (num : R) / (den : R) * ((box (ls.map fun l => sz (gLabels.getD l 16))).map fun idx => a.get idx * b.get idx).sum := by
  simp only [ITerm.val, einValue, List.map_cons, List.map_nil, List.range_zero, ha, hb, Option.getD_some, hdd]
  rw [sum_box (fun l => sz (gLabels.getD l 16)) ls hls _ (fun l => ([] : List Nat).getD l 0)]
  refine congrArg _ (congrArg (fun F => einSum _ ls F _) ?_)
  funext e
  exact einProd_two _ _ e

theorem dot_val (sz : Nat → Nat) {k : EomSort} (x : EomVec R k) (m : Dict (List Char) (NDArray R))
    (av : List Char → Option (NDArray R)) (n1 n2 m1 m2 : List Char) (hn1 : av n1 = some (x.arr1 sz))
    (hn2 : av n2 = some (x.arr2 sz)) (hm1 : av m1 = m.get? (chars! "r1new")) (hm2 : av m2 = m.get? (chars! "r2new"))
    (h1 : HasResult m sz (chars! "r1new", k.sp1)) (h2 : HasResult m sz (chars! "r2new", k.sp2)) (s : Int) :
    ITerm.val sz gLabels 0 av ⟨s, 1, [(n1, k.lab1), (m1, k.lab1)]⟩ [] +
      ITerm.val sz gLabels 0 av ⟨s, k.den, [(n2, k.lab2), (m2, k.lab2)]⟩ [] = s * x.dot sz m := by
  obtain ⟨a1, ha1, -⟩ := h1
  obtain ⟨a2, ha2, -⟩ := h2
  have e1 : ∀ idx, elemOf m (chars! "r1new") idx = a1.get idx := fun idx => by simp only [elemOf, ha1, Option.getD_some]
  have e2 : ∀ idx, elemOf m (chars! "r2new") idx = a2.get idx := fun idx => by simp only [elemOf, ha2, Option.getD_some]
  rw [boxTerm_val sz k.lab1 (by cases k <;> decide) (by cases k <;> decide) s 1 n1 m1 av _ a1 hn1 (hm1.trans ha1),
    boxTerm_val sz k.lab2 (by cases k <;> decide) (by cases k <;> decide) s k.den n2 m2 av _ a2 hn2 (hm2.trans ha2)]
  have b1 : (k.lab1.map fun l => sz (gLabels.getD l 16)) = k.sp1.map sz := by cases k <;> rfl
  have b2 : (k.lab2.map fun l => sz (gLabels.getD l 16)) = k.sp2.map sz := by cases k <;> rfl
  have c1 : (box (k.sp1.map sz)).map (fun idx => (x.arr1 sz).get idx * a1.get idx) =
      (box (k.sp1.map sz)).map fun idx => x.x1 idx * elemOf m (chars! "r1new") idx :=
    List.map_congr_left fun idx hidx => by rw [EomVec.arr1, NDArray.get_ofFn _ _ (mem_box.1 hidx), e1]
  have c2 : (box (k.sp2.map sz)).map (fun idx => (x.arr2 sz).get idx * a2.get idx) =
      (box (k.sp2.map sz)).map fun idx => x.x2 idx * elemOf m (chars! "r2new") idx :=
    List.map_congr_left fun idx hidx => by rw [EomVec.arr2, NDArray.get_ofFn _ _ (mem_box.1 hidx), e2]
  rw [b1, b2, c1, c2, EomVec.dot]
  have d : (s : R) / (k.den : R) = s * k.weight := by
    cases k <;> simp [EomSort.den, EomSort.weight, div_eq_mul_inv]
  rw [d, Nat.cast_one]
  ring

/-- The sum of the missing terms. -/
def eDevVal (h : GHam R) (t : GAmps R) (sz : Nat → Nat) {k : EomSort} (x y : EomVec R k) (dev : List ITerm) : R :=
  -(dev.map fun c => c.val sz gLabels 0 (eArgs h t t t sz x y) []).sum

/-- The names of arguments. -/
def isEomArg : List Char → Bool
  | c :: _ => !(['I', 'M', 'J', 'N', 'A'].contains c)
  | [] => false

omit [Field R] in
theorem isEomArg_addResA {name : List Char} (hn : isEomArg name = true) (tag : Char)
    (ht : ['I', 'M', 'J', 'N', 'A'].contains tag = true) (r : Dict (List Char) (NDArray R))
    (av : List Char → Option (NDArray R)) : addResA tag r av name = av name := by
  cases name with
  | nil => cases hn
  | cons c name =>
    have : (c == tag) = false := by
      rw [beq_eq_false_iff_ne]
      rintro rfl
      rw [isEomArg, ht] at hn
      cases hn
    simp only [addResA, this, cond_false]

/-- What `checkClaim` shows about the left and right functions. -/
theorem adjoint_sound {I M J N : GenFun} {k : EomSort} {dev : List ITerm} {hints : List Nat}
    {dm : Nat → Option Nat}
    (hc : checkClaim (eSym k) hints (· % 4) (eVals k) (eomCalls I M J N) dm [adjIdent k dev] = true)
    (hdev : (dev.all fun c => c.ops.all fun o => isEomArg o.1) = true) [CharZero R] [DecidableEq R] (h : GHam R)
    (t : GAmps R) (x y : EomVec R k)
    (no nv nb : Nat) (method : ContractMethod)
    (path : List (List Char) → List Char → List (NDArray R) → List Contraction) (hpath : PathOk path) :
    ∃ i m j n : Dict (List Char) (NDArray R),
      I.call method path (spaceSizes no nv nb 0) (h.args0 t (spaceSizes no nv nb 0)) = .ok i ∧
      M.call method path (spaceSizes no nv nb 0) (h.eomArgs t (spaceSizes no nv nb 0) i
        (x.arr1 (spaceSizes no nv nb 0)) (x.arr2 (spaceSizes no nv nb 0))) = .ok m ∧
      J.call method path (spaceSizes no nv nb 0) (h.args0 t (spaceSizes no nv nb 0)) = .ok j ∧
      N.call method path (spaceSizes no nv nb 0) (h.eomArgs t (spaceSizes no nv nb 0) j
        (y.arr1 (spaceSizes no nv nb 0)) (y.arr2 (spaceSizes no nv nb 0))) = .ok n ∧
      HasResult m (spaceSizes no nv nb 0) (chars! "r1new", k.sp1) ∧
      HasResult m (spaceSizes no nv nb 0) (chars! "r2new", k.sp2) ∧
      HasResult n (spaceSizes no nv nb 0) (chars! "r1new", k.sp1) ∧
      HasResult n (spaceSizes no nv nb 0) (chars! "r2new", k.sp2) ∧
      y.dot (spaceSizes no nv nb 0) m = x.dot (spaceSizes no nv nb 0) n +
        eDevVal h t (spaceSizes no nv nb 0) x y dev := by
  have := checkClaim_sound (ι := Unit) (spaceSizes no nv nb 0) (fun _ => eTensor h t t t x y) (eSym k)
    (fun _ => eSym_symOk h t t t x y) method path hpath (spaceSizes no nv nb 0) _ (spaceSizes_mod no nv nb 0)
    (eVals k) (fun _ => eArgs h t t t (spaceSizes no nv nb 0) x y)
    (fun _ => eVals_rep (spaceSizes no nv nb 0) h t t t x y) _ dm _ hints hc
  simp only [eomCalls, CallsOk] at this
  obtain ⟨i, hi, m, hm, j, hj, n, hn, key⟩ := this
  obtain ⟨k1, k2⟩ := key () _ (List.mem_singleton.2 rfl) rfl
  have k2 := k2 [] .nil
  have hi := hi ()
  have hm := hm ()
  have hj := hj ()
  have hn := hn ()
  generalize i () = i at *
  generalize m () = m at *
  generalize j () = j at *
  generalize n () = n at *
  simp only [eArgs_but] at hi
  rw [eomArg_val _ h t (spaceSizes no nv nb 0) 'I' 'r' i (x.arr1 _) (x.arr2 _) rfl rfl (fun _ => rfl)
    (fun name => by rw [argBut_addResA (tags := eomTags) 'I' rfl, eArgs_but])] at hm
  simp only [argBut_addResA (tags := eomTags) 'I' rfl, argBut_addResA (tags := eomTags) 'M' rfl, eArgs_but] at hj
  rw [eomArg_val _ h t (spaceSizes no nv nb 0) 'J' 'q' j (y.arr1 _) (y.arr2 _) rfl rfl (fun _ => rfl)
    (fun name => by rw [argBut_addResA (tags := eomTags) 'J' rfl, argBut_addResA (tags := eomTags) 'M' rfl,
      argBut_addResA (tags := eomTags) 'I' rfl, eArgs_but])] at hn
  have g1 : HasResult m (spaceSizes no nv nb 0) (chars! "r1new", k.sp1) := by
    obtain ⟨a, a1, -, a3⟩ := k1 _ (List.mem_cons_self ..) _ (List.mem_cons_of_mem _ (List.mem_singleton.2 rfl))
    exact ⟨a, a1, a3.trans (by cases k <;> rfl)⟩
  have g2 : HasResult m (spaceSizes no nv nb 0) (chars! "r2new", k.sp2) := by
    obtain ⟨a, a1, -, a3⟩ := k1 _ (List.mem_cons_of_mem _ (List.mem_cons_self ..)) _
      (List.mem_cons_of_mem _ (List.mem_singleton.2 rfl))
    exact ⟨a, a1, a3.trans (by cases k <;> rfl)⟩
  have g3 : HasResult n (spaceSizes no nv nb 0) (chars! "r1new", k.sp1) := by
    obtain ⟨a, a1, -, a3⟩ := k1 _ (List.mem_cons_of_mem _ (List.mem_cons_of_mem _ (List.mem_cons_self ..))) _
      (List.mem_cons_of_mem _ (List.mem_singleton.2 rfl))
    exact ⟨a, a1, a3.trans (by cases k <;> rfl)⟩
  have g4 : HasResult n (spaceSizes no nv nb 0) (chars! "r2new", k.sp2) := by
    obtain ⟨a, a1, -, a3⟩ := k1 _ (List.mem_cons_of_mem _ (List.mem_cons_of_mem _ (List.mem_cons_of_mem _
      (List.mem_cons_self ..)))) _ (List.mem_cons_of_mem _ (List.mem_singleton.2 rfl))
    exact ⟨a, a1, a3.trans (by cases k <;> rfl)⟩
  refine ⟨i, m, j, n, hi, hm, hj, hn, g1, g2, g3, g4, ?_⟩
  simp only [adjIdent, adjTerms, List.cons_append, List.nil_append, List.map_cons, List.sum_cons] at k2
  rw [← add_assoc, ← add_assoc, ← add_assoc] at k2
  rw [dot_val _ y m _ (chars! "q1") (chars! "q2") (chars! "Mr1new") (chars! "Mr2new") rfl rfl rfl rfl g1 g2 1,
    add_assoc (_ * _), dot_val _ x n _ (chars! "r1") (chars! "r2") (chars! "Nr1new") (chars! "Nr2new") rfl rfl rfl rfl
      g3 g4 (-1)] at k2
  have r3 : (dev.map fun c => c.val (spaceSizes no nv nb 0) gLabels 0 (addResA 'N' n (addResA 'J' j (addResA 'M' m
      (addResA 'I' i (eArgs h t t t (spaceSizes no nv nb 0) x y))))) []) =
      dev.map fun c => c.val (spaceSizes no nv nb 0) gLabels 0 (eArgs h t t t (spaceSizes no nv nb 0) x y) [] := by
    apply List.map_congr_left
    intro c hcm
    apply ITerm.val_congr
    intro o ho
    have := List.all_eq_true.1 (List.all_eq_true.1 hdev c hcm) o ho
    rw [isEomArg_addResA this 'N' rfl, isEomArg_addResA this 'J' rfl, isEomArg_addResA this 'M' rfl,
      isEomArg_addResA this 'I' rfl]
  rw [r3] at k2
  unfold eDevVal
  push_cast at k2
  linear_combination k2

end

/-! ### Derivatives -/

/-- The changes of the amplitudes: of the single and double ones `r`. -/
def eDm (n : Nat) : Option Nat := bif Nat.beq n 16 then some 64 else bif Nat.beq n 17 then some 65 else gDm n

theorem eTensor_deriv {R : Type} [NontriviallyNormedField R] [CharZero R] (h : GHam R) (t l s : GAmps R)
    (y : EomVec R .ee) : DerivOk (fun x => eTensor h (t.move s x) l s s.vec y) eDm := by
  intro n os
  by_cases h16 : n = 16
  · subst h16
    have e : s.tensor 0 os = s.vec.x1 (os.map Prod.snd) := by
      match os with
      | [] => rfl
      | [_] => rfl
      | [_, _] => rfl
      | _ :: _ :: _ :: _ => rfl
    have := gTensor_deriv h t l s 16 os
    change HasDerivAt (fun x => (t.move s x).tensor 0 os) (s.tensor 0 os) 0 at this
    rw [e] at this
    exact this
  by_cases h17 : n = 17
  · subst h17
    have e : s.tensor 1 os = s.vec.x2 (os.map Prod.snd) := by
      match os with
      | [] => rfl
      | [_] => rfl
      | [_, _] => rfl
      | [_, _, _] => rfl
      | [_, _, _, _] => rfl
      | _ :: _ :: _ :: _ :: _ :: _ => rfl
    have := gTensor_deriv h t l s 17 os
    change HasDerivAt (fun x => (t.move s x).tensor 1 os) (s.tensor 1 os) 0 at this
    rw [e] at this
    exact this
  have e : eDm n = gDm n := by
    have a : Nat.beq n 16 = false := by
      rw [Bool.eq_false_iff, ne_eq, Nat.beq_eq]; exact h16
    have b : Nat.beq n 17 = false := by
      rw [Bool.eq_false_iff, ne_eq, Nat.beq_eq]; exact h17
    simp [eDm, a, b]
  have := gTensor_deriv h t l s n os
  rw [e]
  by_cases hn : n < 64
  · have e1 : ∀ x, eTensor h (t.move s x) l s s.vec y n os = gTensor h (t.move s x) l s n os := fun x => by
      simp [eTensor, hn]
    simp only [e1]
    convert this using 1
    cases hd : gDm n with
    | none => rfl
    | some d =>
      have : d < 64 := by
        unfold gDm at hd
        cases hb : Nat.ble 16 n && Nat.blt n 32 with
        | false => rw [hb] at hd; cases hd
        | true =>
          rw [hb] at hd
          cases hd
          have := (Bool.and_eq_true _ _ ▸ hb : _ ∧ _).2
          rw [Nat.blt_eq] at this
          omega
      simp [eTensor, this]
  · have hd : gDm n = none := by
      have : Nat.blt n 32 = false := by
        rw [Bool.eq_false_iff, ne_eq, Nat.blt_eq]; omega
      simp [gDm, this]
    have e1 : ∀ x, eTensor h (t.move s x) l s s.vec y n os = eTensor h t l s s.vec y n os := fun x => by
      simp [eTensor, hn]
    simp only [e1, hd]
    exact hasDerivAt_const _ _

/-- The derivative of the residuals of single excitations is the result for them. -/
def jacIdent1 : Ident :=
  ⟨[0, 1], 2, [⟨1, 1, [(chars! "At1new", [0, 1])]⟩], [⟨-1, 1, [(chars! "Mr1new", [0, 1])]⟩]⟩

/-- The same for double excitations. -/
def jacIdent2 (ext : List ITerm) : Ident :=
  ⟨[0, 0, 1, 1], 4, [⟨1, 1, [(chars! "At2new", [0, 1, 2, 3])]⟩], ⟨-1, 1, [(chars! "Mr2new", [0, 1, 2, 3])]⟩ :: ext⟩

/-- The antisymmetric product of `r1` with the residuals of single excitations. -/
def jacExt : List ITerm :=
  [⟨1, 1, [(chars! "r1", [0, 2]), (chars! "At1new", [1, 3])]⟩, ⟨-1, 1, [(chars! "r1", [1, 2]), (chars! "At1new", [0, 3])]⟩,
    ⟨-1, 1, [(chars! "r1", [0, 3]), (chars! "At1new", [1, 2])]⟩, ⟨1, 1, [(chars! "r1", [1, 3]), (chars! "At1new", [0, 2])]⟩]

def jacCalls (A I M : GenFun) : List TCall :=
  [⟨A, 'A', argBut eomTags⟩, ⟨I, 'I', argBut eomTags⟩, ⟨M, 'M', eomArg 'I' 'r'⟩]

/-- What `checkClaim` shows about derivatives. -/
theorem jac_sound {A I M : GenFun} {hints : List Nat} {vals : List Char → Option TArg} {rels : List Ident}
    (hc : checkClaim (eSym .ee) hints (· % 4) vals (jacCalls A I M) eDm rels = true)
    (hsp : ∀ rel ∈ rels, ∀ s ∈ rel.sps.take rel.nf, s < 16)
    {R : Type} [NontriviallyNormedField R] [CharZero R] [DecidableEq R] (h : GHam R) (t s : GAmps R)
    (no nv nb : Nat)
    (hvals : ∀ x name v, vals name = some v →
      ∃ a, eArgs h (t.move s x) t s (spaceSizes no nv nb 0) s.vec s.vec name = some a ∧
        ArgRep (spaceSizes no nv nb 0) (eTensor h (t.move s x) t s s.vec s.vec) v a)
    (method : ContractMethod)
    (path : List (List Char) → List Char → List (NDArray R) → List Contraction) (hpath : PathOk path) :
    ∃ (w : R → Dict (List Char) (NDArray R)) (i m : Dict (List Char) (NDArray R))
      (av : R → List Char → Option (NDArray R)),
      (∀ x, A.call method path (spaceSizes no nv nb 0) (h.args0 (t.move s x) (spaceSizes no nv nb 0)) = .ok (w x)) ∧
      I.call method path (spaceSizes no nv nb 0) (h.args0 t (spaceSizes no nv nb 0)) = .ok i ∧
      M.call method path (spaceSizes no nv nb 0) (h.eomArgs t (spaceSizes no nv nb 0) i
        (s.vec.arr1 (spaceSizes no nv nb 0)) (s.vec.arr2 (spaceSizes no nv nb 0))) = .ok m ∧
      (∀ x n, av x ('A' :: n) = (w x).get? n) ∧ (∀ n, av 0 ('M' :: n) = m.get? n) ∧
      av 0 ['r', '1'] = some (s.vec.arr1 (spaceSizes no nv nb 0)) ∧
      ∀ rel ∈ rels, (∀ x, ∀ t ∈ rel.dterms, t.Ok (spaceSizes no nv nb 0) rel.sps (av x)) ∧
        (∀ t ∈ rel.terms, t.Ok (spaceSizes no nv nb 0) rel.sps (av 0)) ∧
        ∀ idx, InBox ((rel.sps.take rel.nf).map (spaceSizes no nv nb 0)) idx →
          HasDerivAt (fun x => (rel.dterms.map fun t => t.val (spaceSizes no nv nb 0) rel.sps rel.nf (av x) idx).sum)
            (-(rel.terms.map fun t => t.val (spaceSizes no nv nb 0) rel.sps rel.nf (av 0) idx).sum) 0 := by
  have := checkClaim_deriv (spaceSizes no nv nb 0) (fun x => eTensor h (t.move s x) t s s.vec s.vec) (eSym .ee)
    (fun x => eSym_symOk h (t.move s x) t s s.vec s.vec) method path hpath (spaceSizes no nv nb 0) _
    (spaceSizes_mod no nv nb 0) vals (fun x => eArgs h (t.move s x) t s (spaceSizes no nv nb 0) s.vec s.vec)
    hvals _ eDm (eTensor_deriv h t t s s.vec) rels hsp hints hc
  simp only [jacCalls, CallsOk] at this
  obtain ⟨w, hw, i, hi, m, hm, key⟩ := this
  have hi := hi 0
  have hm := hm 0
  simp only [argBut_addResA (tags := eomTags) 'A' rfl, eArgs_but] at hw hi
  rw [eomArg_val _ h (t.move s 0) (spaceSizes no nv nb 0) 'I' 'r' (i 0) (s.vec.arr1 _) (s.vec.arr2 _) rfl rfl
    (fun _ => rfl) (fun name => by rw [argBut_addResA (tags := eomTags) 'I' rfl, argBut_addResA (tags := eomTags) 'A' rfl,
      eArgs_but])] at hm
  rw [t.move_zero] at hi hm
  exact ⟨w, i 0, m 0, _, hw, hi, hm, fun _ _ => rfl, fun _ => rfl, rfl, key⟩

theorem oneTerm2_val {R : Type} [Field R] (sz : Nat → Nat) (sps : List Nat) (num : Int) (n : List Char)
    (av : List Char → Option (NDArray R)) (i a : Nat) :
    ITerm.val sz sps 2 av ⟨num, 1, [(n, [0, 1])]⟩ [i, a] = num * ((av n).getD (NDArray.zeros [])).get [i, a] := by
  simp only [ITerm.val, einValue, List.map_cons, List.map_nil]
  rw [show einDummies [[0, 1]] (List.range 2) = [] by decide]
  simp only [einSum_nil, einProd_one, Nat.cast_one, div_one]
  rfl

theorem oneTerm4_val {R : Type} [Field R] (sz : Nat → Nat) (sps : List Nat) (num : Int) (n : List Char)
    (av : List Char → Option (NDArray R)) (i j a b : Nat) :
    ITerm.val sz sps 4 av ⟨num, 1, [(n, [0, 1, 2, 3])]⟩ [i, j, a, b] =
      num * ((av n).getD (NDArray.zeros [])).get [i, j, a, b] := by
  simp only [ITerm.val, einValue, List.map_cons, List.map_nil]
  rw [show einDummies [[0, 1, 2, 3]] (List.range 4) = [] by decide]
  simp only [einSum_nil, einProd_one, Nat.cast_one, div_one]
  rfl

theorem prodTerm4_val {R : Type} [Field R] (sz : Nat → Nat) (sps : List Nat) (num : Int) (n1 n2 : List Char)
    (av : List Char → Option (NDArray R)) (l1 l2 idx : List Nat) (h : einDummies [l1, l2] (List.range 4) = []) :
    ITerm.val sz sps 4 av ⟨num, 1, [(n1, l1), (n2, l2)]⟩ idx =
      num * (((av n1).getD (NDArray.zeros [])).get (l1.map fun l => idx.getD l 0) *
        ((av n2).getD (NDArray.zeros [])).get (l2.map fun l => idx.getD l 0)) := by
  simp only [ITerm.val, einValue, List.map_cons, List.map_nil]
  rw [h]
  simp only [einSum_nil, einProd_two, Nat.cast_one, div_one]

end Ebcc
