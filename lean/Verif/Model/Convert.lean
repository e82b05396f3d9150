import Verif.Model.InitAmps
import Verif.Model.Space
import Verif.Model.Strings

/-!
Model of the conversions between spin types: `UEBCC.from_rebcc` (`ebcc/cc/uebcc.py` 107-187) and `GEBCC.from_uebcc`
(`ebcc/cc/gebcc.py` 111-332): the orbital space, the amplitudes and the lambda amplitudes.

Not modelled: the mean-field object, the logger, the options and energies that are passed on unchanged, and the
boson coupling `g` (122 of gebcc.py onwards has the same form as the amplitude blocks).  `orbspin` comes from PySCF
(`get_ghf_orbspin`) and is an arbitrary list of the spins (`'a'` for 0, `'b'` for 1) of the general orbitals.
-/

namespace Ebcc

section
variable {R : Type}

/-! ### Restricted to unrestricted -/

/-- uebcc.py:145-149 and 166-170: one spin block. -/
def convBlock [Field R] (key : List Char) (n : Nat) (tn : NDArray R) (comb : List Char) :
    Except PyErr (NDArray R) := do
  let (subscript, _) ← combineSubscripts [key, comb] []
  symmetrise subscript tn (some (List.replicate (2 * n) '-')) true

/-- uebcc.py:138-149, 162-170: a fermionic amplitude, read from the restricted namespace under `name`.  The restricted
amplitude is read inside the loop; there is always at least one combination. -/
def convFermion [Field R] (limit : Bool) (name : Rank → List Char) (amps : Dict (List Char) (NDArray R)) (r : Rank) :
    Except PyErr (UVal R) := do
  if limit ∧ 3 < r.2.2 then throw PyErr.modelNotImplemented
  let d ← initLoop id (fun comb => do
    let tn ← amps.getItem (name r)
    convBlock r.2.1 r.2.2 tn comb) (generateSpinCombinations r.2.2 false true) []
  pure (.spins d)

/-- uebcc.py:154-158, 176-181: a coupled amplitude, the same array for every spin. -/
def convCoupling (name : (List Char × List Char × Nat × Nat) → List Char) (amps : Dict (List Char) (NDArray R)) (r : List Char × List Char × Nat × Nat) :
    Except PyErr (UVal R) := do
  let d ← initLoop id (fun _ => amps.getItem (name r)) (generateSpinCombinations r.2.2.1 false true) []
  pure (.spins d)

/-- uebcc.py:135-160: the amplitudes of `from_rebcc`. -/
def fromRAmps [Field R] (a : Ansatz) (amps : Dict (List Char) (NDArray R)) :
    Except PyErr (Dict (List Char) (UVal R)) := do
  let fs ← fermionicClusterRanks a.fermionAnsatz .U .t
  let d ← initLoop (fun r => r.1) (convFermion true (fun r => r.1) amps) fs []
  let bs ← bosonicClusterRanks a.bosonAnsatz .t
  let d ← initLoop (fun r => r.1) (fun r : Rank => (amps.getItem r.1).map UVal.array) bs d
  let cs ← couplingClusterRanks a.fermionCouplingRank a.bosonCouplingRank .t
  initLoop (fun r => r.1) (convCoupling (fun r => r.1) amps) cs d

/-- uebcc.py:162-185: the lambda amplitudes of `from_rebcc`. -/
def fromRLams [Field R] (a : Ansatz) (lams : Dict (List Char) (NDArray R)) :
    Except PyErr (Dict (List Char) (UVal R)) := do
  let fs ← fermionicClusterRanks a.fermionAnsatz .U .t
  let d ← initLoop (fun r => lname r.1) (convFermion false (fun r => lname r.1) lams) fs []
  let bs ← bosonicClusterRanks a.bosonAnsatz .t
  let d ← initLoop (fun r => 'l' :: r.1) (fun r : Rank => (lams.getItem ('l' :: r.1)).map UVal.array) bs d
  let cs ← couplingClusterRanks a.fermionCouplingRank a.bosonCouplingRank .t
  initLoop (fun r => 'l' :: r.1) (convCoupling (fun r => 'l' :: r.1) lams) cs d

/-! ### Unrestricted to general: the space -/

/-- `np.where(orbspin == s)[0]`. -/
def whereSpin (orbspin : List Char) (s : Char) : List Nat :=
  (List.range orbspin.length).filter fun i => orbspin.getD i ' ' = s

/-- backend/__init__.py:123-127 `_put(array, indices, values)` for a one-dimensional array: element `indices[i]` is set
to `values[i]`.  `np.put` repeats `values` if they are too few; here the numbers agree, otherwise `ValueError` stands
for whatever follows.  An index out of range raises `IndexError`. -/
def put1 {α : Type} (x : List α) (inds : List Nat) (vals : List α) : Except PyErr (List α) :=
  if inds.length ≠ vals.length then .error .valueError
  else (inds.zip vals).foldlM (fun x p => if p.1 < x.length then .ok (x.set p.1 p.2) else .error .indexError) x

/-- gebcc.py:121-137: the space of the general orbitals. -/
def generalSpace (orbspin : List Char) (sp0 sp1 : Space) : Except PyErr Space := do
  let n := (sp0.nocc + sp1.nocc) + (sp0.nvir + sp1.nvir)
  let sa := whereSpin orbspin 'a'
  let sb := whereSpin orbspin 'b'
  let occ ← put1 (List.replicate n false) sa sp0.occupied
  let occ ← put1 occ sb sp1.occupied
  let fro ← put1 (List.replicate n false) sa sp0.frozen
  let fro ← put1 fro sb sp1.frozen
  let act ← put1 (List.replicate n false) sa sp0.active
  let act ← put1 act sb sp1.active
  Space.new occ fro act

/-- gebcc.py:139-142 `slices[s][k]`.  The dictionaries are built for the keys `oOivVa` only. -/
def spinSlice (orbspin : List Char) (space : Space) (s k : Char) : Except PyErr (List Nat) :=
  if k ∈ "oOivVa".toList ∧ (s = 'a' ∨ s = 'b') then do
    let m ← space.mask k
    pure (whereSpin (selectMask m orbspin) s)
  else .error .keyError

/-! ### Unrestricted to general: the amplitudes -/

/-- `array[np.ix_(*lists)]`. -/
def ixGet [Zero R] (a : NDArray R) (lists : List (List Nat)) : NDArray R :=
  NDArray.ofFn (lists.map List.length) fun idx => a.get (List.zipWith (fun l i => l.getD i 0) lists idx)

/-- `_put(array, np.ix_(*lists), values)` for lists without repetition and values of the right shape. -/
def ixPut [Zero R] (a : NDArray R) (lists : List (List Nat)) (v : NDArray R) : NDArray R :=
  NDArray.ofFn a.shape fun idx =>
    if (List.zipWith (fun (l : List Nat) i => decide (i ∈ l)) lists idx).all id then
      v.get (List.zipWith (fun (l : List Nat) i => l.idxOf i) lists idx)
    else a.get idx

/-- gebcc.py:193-201 (232-244, 271-278, 316-327): add a spin block, antisymmetrised over the permutations that
leave the first half of `comb` unchanged. -/
def spreadBlock [Ring R] (nb n : Nat) (comb : List Char) (mask : List (List Nat)) (amp g : NDArray R) :
    Except PyErr (NDArray R) :=
  (permutationsWithSigns (List.range n)).foldlM (fun g ps => do
    let combp ← permuteString (comb.take n) ps.1
    if combp = comb.take n then do
      let t ← amp.transpose (List.range nb ++ ps.1.map (fun p => p + nb)
        ++ (List.range n).map fun p => p + (nb + n))
      let v ← (ixGet g mask).add (t.map fun x => x * ((ps.2 : Int) : R))
      pure (ixPut g mask v)
    else pure g) g

/-- gebcc.py:179-202: one combination, all permutations of its two halves; `done` is the set of the spin strings seen.
`key` is the key without the bosonic characters. -/
def spreadComb [Ring R] (slices : Char → Char → Except PyErr (List Nat)) (nbos nb n : Nat) (key : List Char)
    (block : List Char → Except PyErr (NDArray R)) (g : NDArray R) (comb : List Char) : Except PyErr (NDArray R) := do
  let perms := permutationsWithSigns (List.range n)
  let (g, _) ← (perms.flatMap fun l => perms.map fun u => (l, u)).foldlM (fun (st : NDArray R × List (List Char)) lu => do
    let comb0 ← permuteString (comb.take n) lu.1.1
    let comb1 ← permuteString (comb.drop n) lu.2.1
    let combn := comb0 ++ comb1
    if combn ∈ st.2 then pure st
    else do
      let sl ← (combn.zip key).mapM fun sk => slices sk.1 sk.2
      let mask := List.replicate nb (List.range nbos) ++ sl
      let b ← block comb
      let t ← b.transpose (List.range nb ++ lu.1.1.map (fun p => p + nb) ++ lu.2.1.map fun p => p + (nb + n))
      let amp := t.map fun x => x * ((lu.1.2 : Int) : R) * ((lu.2.2 : Int) : R)
      let g ← spreadBlock nb n comb mask amp st.1
      pure (g, combn :: st.2)) (g, [])
  pure g

/-- gebcc.py:176-202 and the three further copies: an array of general orbitals from the spin blocks. -/
def spreadSpins [Ring R] (slices : Char → Char → Except PyErr (List Nat)) (size : Char → Except PyErr Nat)
    (nbos nb n : Nat) (uniq : Bool) (key : List Char) (block : List Char → Except PyErr (NDArray R)) :
    Except PyErr (NDArray R) := do
  let shape ← key.mapM size
  (generateSpinCombinations n false uniq).foldlM (spreadComb slices nbos nb n key block)
    (NDArray.zeros (List.replicate nb nbos ++ shape))

/-- gebcc.py:172-247: the amplitudes of `from_uebcc`. -/
def fromUAmps [Ring R] (a : Ansatz) (slices : Char → Char → Except PyErr (List Nat)) (size : Char → Except PyErr Nat)
    (nbos : Nat) (amps : Dict (List Char) (UVal R)) : Except PyErr (Dict (List Char) (NDArray R)) := do
  let fs ← fermionicClusterRanks a.fermionAnsatz .U .t
  let d ← initLoop (fun r => r.1) (fun r : Rank => do
    spreadSpins slices size nbos 0 r.2.2 true r.2.1 fun comb => do
      let v ← amps.getItem r.1
      v.attr comb) fs []
  let bs ← bosonicClusterRanks a.bosonAnsatz .t
  let d ← initLoop (fun r => r.1) (fun r : Rank => do
    let v ← amps.getItem r.1
    v.asArray) bs d
  let cs ← couplingClusterRanks a.fermionCouplingRank a.bosonCouplingRank .t
  initLoop (fun r => r.1) (fun r : List Char × List Char × Nat × Nat => do
    spreadSpins slices size nbos r.2.2.2 r.2.2.1 false (r.2.1.drop r.2.2.2) fun comb => do
      let v ← amps.getItem r.1
      v.attr comb) cs d

/-- gebcc.py:249-330: the lambda amplitudes; `init` is what `gcc.init_lams()` returned. -/
def fromULams [Ring R] (a : Ansatz) (slices : Char → Char → Except PyErr (List Nat)) (size : Char → Except PyErr Nat)
    (nbos : Nat) (lams : Dict (List Char) (UVal R)) (init : Dict (List Char) (NDArray R)) :
    Except PyErr (Dict (List Char) (NDArray R)) := do
  let fs ← fermionicClusterRanks a.fermionAnsatz .U .t
  let d ← initLoop (fun r => lname r.1) (fun r : Rank => do
    spreadSpins slices size nbos 0 r.2.2 true (r.2.1.drop r.2.2 ++ r.2.1.take r.2.2) fun comb => do
      let v ← lams.getItem (lname r.1)
      v.attr comb) fs init
  let bs ← bosonicClusterRanks a.bosonAnsatz .t
  let d ← initLoop (fun r => 'l' :: r.1) (fun r : Rank => do
    let v ← lams.getItem ('l' :: r.1)
    v.asArray) bs d
  let cs ← couplingClusterRanks a.fermionCouplingRank a.bosonCouplingRank .t
  initLoop (fun r => 'l' :: r.1) (fun r : List Char × List Char × Nat × Nat => do
    spreadSpins slices size nbos r.2.2.2 r.2.2.1 true
      (r.2.1.drop (r.2.2.2 + r.2.2.1) ++ (r.2.1.drop r.2.2.2).take r.2.2.1) fun comb => do
        let v ← lams.getItem ('l' :: r.1)
        v.attr comb) cs d

end

end Ebcc
