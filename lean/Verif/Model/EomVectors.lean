import Verif.Model.Vectors
import Verif.Model.Amps

/-!
Model of the conversion between EOM amplitudes and vectors: `ebcc/eom/reom.py` 69-124, 163-218, 257-312,
`ebcc/eom/geom.py` 69-125, 165-221, 261-317 and `ebcc/eom/ueom.py` 72-144, 187-259, 302-374.  In each file the
three classes (ionisation, attachment, excitation) have the same text up to the value of `which`, so `which` is a
parameter.
-/

namespace Ebcc

/-- reom.py:84-91 (and everywhere else): any bosonic or coupled rank raises `ModelNotImplemented`. -/
def eomOnlyFermions (a : Ansatz) (which : Which) : Except PyErr Unit := do
  let bs ← bosonicClusterRanks a.bosonAnsatz which
  if bs ≠ [] then throw PyErr.modelNotImplemented
  let cs ← couplingClusterRanks a.fermionCouplingRank a.bosonCouplingRank which
  if cs ≠ [] then throw PyErr.modelNotImplemented
  pure ()

section
variable {R : Type}

/-- reom.py:69-93 `amplitudes_to_vector`. -/
def rEomToVector (a : Ansatz) (which : Which) (amps : Dict (List Char) (NDArray R)) : Except PyErr (List R) := do
  let fs ← fermionicClusterRanks a.fermionAnsatz .R which
  let v ← ravelBlocks amps (fs.map fun r => r.1)
  eomOnlyFermions a which
  concatenate v

/-- reom.py:95-124 `vector_to_amplitudes`. -/
def rVectorToEom (a : Ansatz) (which : Which) (space : Space) (vector : List R) :
    Except PyErr (Dict (List Char) (NDArray R)) := do
  let fs ← fermionicClusterRanks a.fermionAnsatz .R which
  let st ← fs.foldlM (fun st r => do
    let shape ← r.2.1.mapM space.size
    cutBlock vector st r.1 shape) ([], 0)
  eomOnlyFermions a which
  pure st.1

variable [Ring R]

/-- geom.py:69-93 `amplitudes_to_vector`. -/
def gEomToVector (a : Ansatz) (which : Which) (amps : Dict (List Char) (NDArray R)) : Except PyErr (List R) := do
  let fs ← fermionicClusterRanks a.fermionAnsatz .G which
  let v ← fs.mapM fun r => do
    let x ← amps.getItem r.1
    let c ← compressAxes r.2.1 x false
    pure c.ravel
  eomOnlyFermions a which
  concatenate v

/-- geom.py:110: `{k: self.space.size(k) for k in set(key)}`.  The order of the dictionary does not matter.
-/
def gSizes (space : Space) (key : List Char) : Except PyErr (Dict Char Nat) :=
  (unique key).mapM fun k => do
    let n ← space.size k
    pure (k, n)

/-- geom.py:95-125 `vector_to_amplitudes`. -/
def gVectorToEom (a : Ansatz) (which : Which) (space : Space) (vector : List R) :
    Except PyErr (Dict (List Char) (NDArray R)) := do
  let fs ← fermionicClusterRanks a.fermionAnsatz .G which
  let st ← fs.foldlM (fun (st : Dict (List Char) (NDArray R) × Nat) r => do
    let sizes ← gSizes space r.2.1
    let size ← getCompressedSize r.2.1 sizes
    let shape ← r.2.1.mapM space.size
    let vn ← decompressAxes r.2.1 (vecSlice vector st.2 size) shape false none
    pure (st.1.set r.1 vn, st.2 + size)) ([], 0)
  eomOnlyFermions a which
  pure st.1

/-- The argument `excited` of `generate_spin_combinations`: ueom.py:86, 201 (True), 316 (False). -/
def eomExcited (which : Which) : Bool := which != .ee

/-- ueom.py:72-99 `amplitudes_to_vector`. -/
def uEomToVector (a : Ansatz) (which : Which) (amps : Dict (List Char) (UVal R)) : Except PyErr (List R) := do
  let fs ← fermionicClusterRanks a.fermionAnsatz .U which
  let v ← fs.mapM fun r => do
    let v ← amps.getItem r.1
    (generateSpinCombinations r.2.2 (eomExcited which) true).mapM fun spin => do
      let vn ← v.block spin
      let (subscript, _) ← combineSubscripts [r.2.1, spin] []
      let c ← compressAxes subscript vn false
      pure c.ravel
  eomOnlyFermions a which
  concatenate v.flatten

/-- ueom.py:126-128: `max(spin[:n].count(s) for s in set(spin[:n]))`; `max` of an empty sequence raises
`ValueError`. -/
def eomFactor (n : Nat) (spin : List Char) : Except PyErr Nat :=
  match (unique (spin.take n)).map fun s => (spin.take n).count s with
  | [] => .error .valueError
  | c :: cs => .ok (cs.foldl max c)

end

section
variable {R : Type} [Field R]

/-- ueom.py:119-134: one rank. -/
def uEomCut (sa sb : Space) (sizes : Dict (List Char) Nat) (which : Which) (vector : List R) (i0 : Nat)
    (key : List Char) (n : Nat) : Except PyErr (Dict (List Char) (NDArray R) × Nat) :=
  (generateSpinCombinations n (eomExcited which) true).foldlM (fun st spin => do
    let (subscript, csizes) ← combineSubscripts [key, spin] sizes
    let size ← getCompressedSize subscript csizes
    let shape ← uShape sa sb spin key
    let factor ← eomFactor n spin
    let vn ← decompressAxes subscript (vecSlice vector st.2 size) shape false none
    pure (st.1.set spin (vn.map fun x => x / (factor : R)), st.2 + size)) ([], i0)

/-- ueom.py:101-144 `vector_to_amplitudes`. -/
def uVectorToEom (a : Ansatz) (which : Which) (sa sb : Space) (vector : List R) :
    Except PyErr (Dict (List Char) (UVal R)) := do
  let sizes ← uSizes sa sb
  let fs ← fermionicClusterRanks a.fermionAnsatz .U which
  let st ← fs.foldlM (fun (st : Dict (List Char) (UVal R) × Nat) r => do
    let (d, i0) ← uEomCut sa sb sizes which vector st.2 r.2.1 r.2.2
    pure (st.1.set r.1 (.spins d), i0)) ([], 0)
  eomOnlyFermions a which
  if st.2 = vector.length then pure st.1 else .error .assertionError

end

end Ebcc
