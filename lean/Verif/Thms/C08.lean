import Verif.Lemmas.Symmetrise
import Mathlib.Algebra.Field.Rat

/-!
C08: symmetry of the result of `symmetrise`.
-/

namespace Ebcc

section
variable {κ : Type} [DecidableEq κ]

/-- C08 (partial).  Full claim: for every accepted symmetry string the result changes by the sign
declared for the group under exchange of two of its axes.  That is false of the code for mixed strings
(`C08_mixed_fails`): line 571 takes the decision for all groups from the single character
`symmetry[perm[0]]`.  Proved here: if the string reads `x` on all the axes carrying the first symbol,
the result has the symmetry `x` in every group; in particular the claim holds for the default string
and for all uniform strings. -/
theorem C08_symmetry_partial {K : Type} [Field K] (sub : List κ) (hsub : sub ≠ []) (sz : κ → Nat)
    (a : NDArray K) (ha : a.shape = sub.map sz) (symm : Option (List Char)) (s : κ → Char)
    (hsymm : symm.getD (List.replicate sub.length '-') = blockString sub s) (x : Char)
    (hx : ∀ p, p < sub.length → sub[p]? = sub[0]? →
      (symm.getD (List.replicate sub.length '-'))[p]? = some x) (fac : Bool) :
    ∃ out, symmetrise sub a symm fac = .ok out ∧ out.shape = a.shape ∧ out.WF ∧
      GroupSymmetric sub (fun _ => x) out := by
  have hc : Consistent sub a.shape := ⟨sz, ha⟩
  have hpos : 0 < sub.length := List.length_pos_iff.2 hsub
  have hx' : ∀ p ∈ posOf sub 0, (symm.getD (List.replicate sub.length '-'))[p]? = some x := by
    intro p hp
    obtain ⟨p1, p2⟩ := mem_posOf.1 hp
    have h00 : (canon sub).getD 0 0 = 0 := by
      cases sub with
      | nil => exact absurd rfl hsub
      | cons c l => simp [canon, unique, uniqueLoop, List.idxOf_cons]
    have := (canon_eq_iff sub p 0 p1 hpos).1 (p2.trans h00.symm)
    exact hx p p1 (by simp [p1, hpos, this])
  refine ⟨_, symmetrise_ok sub hsub a hc symm ((unique sub).map s)
    (by rw [hsymm]; exact symmetryLoop_block sub s) x hx' fac, rfl, NDArray.ofFn_wf _ _, ?_⟩
  intro i j c hij hi hj idx hidx
  have hidx' : InBox a.shape idx := hidx
  have hj' : j < sub.length := (List.getElem?_eq_some_iff.1 hj).1
  have hi' : i < sub.length := by omega
  have hxi : sub[i] = c := by simpa [hi'] using hi
  have hxj : sub[j] = c := by simpa [hj'] using hj
  have hsw := swapIdx_inBox hc hi' hj' (hxi.trans hxj.symm) hidx'
  have he := (canon_eq_iff sub i j hi' hj').2 (hxi.trans hxj.symm)
  rw [NDArray.get_ofFn _ _ hsw, NDArray.get_ofFn _ _ hidx',
    permSum_swap (n := sub.length) _ a (if decide (x = '-') then -1 else 1)
      (by split <;> rfl) (nodup_symTerms sub _) (fun ps h => perm_symTerms h) hi' hj'
      (fun ps h => symTerms_swap hij hj' he h) (by rw [hidx'.length_eq, hc.length])]
  unfold charSign
  by_cases hm : x = '-' <;> simp [hm]

/-- C08: uniform symmetry strings (and the default) give the requested symmetry. -/
theorem C08_uniform {K : Type} [Field K] (sub : List κ) (hsub : sub ≠ []) (sz : κ → Nat)
    (a : NDArray K) (ha : a.shape = sub.map sz) (x : Char) (symm : Option (List Char))
    (hsymm : symm.getD (List.replicate sub.length '-') = List.replicate sub.length x) (fac : Bool) :
    ∃ out, symmetrise sub a symm fac = .ok out ∧ out.shape = a.shape ∧ out.WF ∧
      GroupSymmetric sub (fun _ => x) out := by
  apply C08_symmetry_partial sub hsub sz a ha symm (fun _ => x)
    (by rw [hsymm, blockString_const]) x _ fac
  intro p hp _
  rw [hsymm]
  simp [hp]

/-- C08, finding: for the accepted mixed string `"++--"` the second group is symmetrised instead of
antisymmetrised. -/
theorem C08_mixed_fails :
    ∃ (a out : NDArray Rat), symmetrise "iijj".toList a (some "++--".toList) true = .ok out ∧
      blockString "iijj".toList (fun c => if c = 'i' then '+' else '-') = "++--".toList ∧
      ¬ GroupSymmetric "iijj".toList (fun c => if c = 'i' then '+' else '-') out := by
  refine ⟨⟨[1, 1, 2, 2], [1, 0, 0, 0]⟩, ⟨[1, 1, 2, 2], [1, 0, 0, 0]⟩, by decide +kernel, by decide, ?_⟩
  intro h
  have := h 2 3 'j' (by decide) (by decide) (by decide) [0, 0, 0, 0] (by simp [ValidIdx])
  revert this
  decide +kernel

/-- Non-vacuity: the default string on interleaved axes. -/
example : ∃ out, symmetrise "iaia".toList (NDArray.ofFn [2, 3, 2, 3] fun i => ((i.getD 0 0 : Nat) : Rat))
    none true = .ok out ∧ GroupSymmetric "iaia".toList (fun _ => '-') out := by
  obtain ⟨out, h1, _, _, h3⟩ := C08_uniform (K := Rat) "iaia".toList (by decide)
    (fun c => if c = 'i' then 2 else 3) (NDArray.ofFn [2, 3, 2, 3] fun i => ((i.getD 0 0 : Nat) : Rat))
    (by decide) '-' none rfl true
  exact ⟨out, h1, h3⟩

end
end Ebcc
