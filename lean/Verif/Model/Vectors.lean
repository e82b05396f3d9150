import Verif.Model.Ansatz
import Verif.Model.Space
import Verif.Model.Compress
import Verif.Model.Spin
import Verif.Model.Subscripts

/-!
Model of the conversion between amplitudes and vectors: `ebcc/cc/rebcc.py` 489-603, `ebcc/cc/gebcc.py`
731-845 (the same text) and `ebcc/cc/uebcc.py` 640-800.  The methods for lambda amplitudes are the same with
`which = "l"`, so `which` is a parameter.

A `Namespace` of amplitudes is a dictionary from names to arrays; in the unrestricted case the fermionic and
coupled amplitudes are themselves namespaces of spin blocks.  The number of bosons is a parameter.
-/

namespace Ebcc

/-- `np.concatenate`; `ValueError` for an empty list. -/
def concatenate {R : Type} (l : List (List R)) : Except PyErr (List R) :=
  if l = [] then .error .valueError else .ok l.flatten

/-- `vector[i : i + n]`. -/
def vecSlice {R : Type} (vector : List R) (i n : Nat) : List R := (vector.drop i).take n

section
variable {R : Type}

/-- rebcc.py:500, 503, 506: the blocks named in a list. -/
def ravelBlocks (amps : Dict (List Char) (NDArray R)) (names : List (List Char)) : Except PyErr (List (List R)) :=
  names.mapM fun name => do
    let a ← amps.getItem name
    pure a.ravel

/-- rebcc.py:489-509 `amplitudes_to_vector` and 543-569 `lambdas_to_vector`; gebcc.py:731-751, 785-811. -/
def amplitudesToVector (a : Ansatz) (spin : SpinType) (which : Which) (amps : Dict (List Char) (NDArray R)) :
    Except PyErr (List R) := do
  let fs ← fermionicClusterRanks a.fermionAnsatz spin which
  let v1 ← ravelBlocks amps (fs.map fun r => r.1)
  let bs ← bosonicClusterRanks a.bosonAnsatz which
  let v2 ← ravelBlocks amps (bs.map fun r => r.1)
  let cs ← couplingClusterRanks a.fermionCouplingRank a.bosonCouplingRank which
  let v3 ← ravelBlocks amps (cs.map fun r => r.1)
  concatenate (v1 ++ v2 ++ v3)

/-- rebcc.py:523-526: cut one block out of the vector. -/
def cutBlock (vector : List R) (st : Dict (List Char) (NDArray R) × Nat) (name : List Char) (shape : List Nat) :
    Except PyErr (Dict (List Char) (NDArray R) × Nat) := do
  let size := prodN shape
  let x ← NDArray.reshape (vecSlice vector st.2 size) shape
  pure (st.1.set name x, st.2 + size)

/-- rebcc.py:536: the shape of a coupled amplitude. -/
def couplingShape (size : Char → Except PyErr Nat) (nbos nb : Nat) (key : List Char) : Except PyErr (List Nat) := do
  let s ← (key.drop nb).mapM size
  pure (List.replicate nb nbos ++ s)

/-- rebcc.py:511-541 `vector_to_amplitudes` and 571-603 `vector_to_lambdas`; gebcc.py:753-783, 813-845. -/
def vectorToAmplitudes (a : Ansatz) (spin : SpinType) (which : Which) (space : Space) (nbos : Nat)
    (vector : List R) : Except PyErr (Dict (List Char) (NDArray R)) := do
  let fs ← fermionicClusterRanks a.fermionAnsatz spin which
  let st ← fs.foldlM (fun st r => do
    let shape ← r.2.1.mapM space.size
    cutBlock vector st r.1 shape) ([], 0)
  let bs ← bosonicClusterRanks a.bosonAnsatz which
  let st ← bs.foldlM (fun st r => cutBlock vector st r.1 (List.replicate r.2.2 nbos)) st
  let cs ← couplingClusterRanks a.fermionCouplingRank a.bosonCouplingRank which
  let st ← cs.foldlM (fun st r => do
    let shape ← couplingShape space.size nbos r.2.2.2 r.2.1
    cutBlock vector st r.1 shape) st
  pure st.1

/-! ### Unrestricted -/

/-- An entry of the amplitudes of an unrestricted calculation. -/
inductive UVal (R : Type) where
  | spins (d : Dict (List Char) (NDArray R))
  | array (a : NDArray R)
deriving DecidableEq, Repr

/-- `amplitudes[name][spin]`; indexing an array with a string raises `IndexError`. -/
def UVal.block : UVal R → List Char → Except PyErr (NDArray R)
  | .spins d, s => d.getItem s
  | .array _, _ => .error .indexError

/-- `np.ravel(amplitudes[name])`; a namespace is no array. -/
def UVal.ravel : UVal R → Except PyErr (List R)
  | .spins _ => .error .typeError
  | .array a => .ok a.ravel

/-- `np.ravel(amplitudes[name].aa)`; a missing attribute raises `AttributeError`. -/
def UVal.attr (v : UVal R) (s : List Char) : Except PyErr (NDArray R) :=
  match v with
  | .spins d =>
    match d.get? s with
    | some a => .ok a
    | none => .error .attributeError
  | .array _ => .error .attributeError

variable [Ring R]

/-- uebcc.py:651-655: one rank of the fermionic amplitudes. -/
def packSpins (v : UVal R) (key : List Char) (n : Nat) : Except PyErr (List (List R)) :=
  (generateSpinCombinations n false true).mapM fun spin => do
    let tn ← v.block spin
    let (subscript, _) ← combineSubscripts [key, spin] []
    let c ← compressAxes subscript tn false
    pure c.ravel

/-- uebcc.py:640-666 `amplitudes_to_vector` and 717-747 `lambdas_to_vector`. -/
def uAmplitudesToVector (a : Ansatz) (which : Which) (amps : Dict (List Char) (UVal R)) :
    Except PyErr (List R) := do
  let fs ← fermionicClusterRanks a.fermionAnsatz .U which
  let v1 ← fs.mapM fun r => do
    let v ← amps.getItem r.1
    packSpins v r.2.1 r.2.2
  let bs ← bosonicClusterRanks a.bosonAnsatz which
  let v2 ← bs.mapM fun r => do
    let v ← amps.getItem r.1
    v.ravel
  let cs ← couplingClusterRanks a.fermionCouplingRank a.bosonCouplingRank which
  let v3 ← cs.mapM fun r => do
    if r.2.2.1 ≠ 1 then throw PyErr.modelNotImplemented
    let v ← amps.getItem r.1
    let aa ← v.attr ['a', 'a']
    let bb ← v.attr ['b', 'b']
    pure [aa.ravel, bb.ravel]
  concatenate (v1.flatten ++ v2 ++ v3.flatten)

/-- uebcc.py:679-681: the sizes of the orbital classes for both spins. -/
def uSizes (sa sb : Space) : Except PyErr (Dict (List Char) Nat) :=
  ("ovOVia".toList.flatMap fun o => [(o, 'a'), (o, 'b')]).mapM fun (o, s) => do
    let n ← (if s = 'a' then sa else sb).size o
    pure ([o, s], n)

/-- uebcc.py:688: the shape of a spin block, `self.space["ab".index(s)].size(k)`. -/
def uShape (sa sb : Space) (spin key : List Char) : Except PyErr (List Nat) :=
  (spin.zip key).mapM fun (s, k) =>
    if s = 'a' then sa.size k else if s = 'b' then sb.size k else .error .valueError

/-- uebcc.py:684-692: one rank of the fermionic amplitudes. -/
def cutSpins (sa sb : Space) (sizes : Dict (List Char) Nat) (vector : List R) (i0 : Nat) (key : List Char)
    (n : Nat) : Except PyErr (Dict (List Char) (NDArray R) × Nat) :=
  (generateSpinCombinations n false true).foldlM (fun st spin => do
    let (subscript, csizes) ← combineSubscripts [key, spin] sizes
    let size ← getCompressedSize subscript csizes
    let shape ← uShape sa sb spin key
    let tn ← decompressAxes subscript (vecSlice vector st.2 size) shape false none
    pure (st.1.set spin tn, st.2 + size)) ([], i0)

/-- uebcc.py:668-715 `vector_to_amplitudes` and 749-800 `vector_to_lambdas`. -/
def uVectorToAmplitudes (a : Ansatz) (which : Which) (sa sb : Space) (nbos : Nat) (vector : List R) :
    Except PyErr (Dict (List Char) (UVal R)) := do
  let sizes ← uSizes sa sb
  let fs ← fermionicClusterRanks a.fermionAnsatz .U which
  let st ← fs.foldlM (fun (st : Dict (List Char) (UVal R) × Nat) r => do
    let (d, i0) ← cutSpins sa sb sizes vector st.2 r.2.1 r.2.2
    pure (st.1.set r.1 (.spins d), i0)) ([], 0)
  let bs ← bosonicClusterRanks a.bosonAnsatz which
  let st ← bs.foldlM (fun st r => do
    let shape := List.replicate r.2.2 nbos
    let size := nbos ^ r.2.2
    let x ← NDArray.reshape (vecSlice vector st.2 size) shape
    pure (st.1.set r.1 (.array x), st.2 + size)) st
  let cs ← couplingClusterRanks a.fermionCouplingRank a.bosonCouplingRank which
  let st ← cs.foldlM (fun st r => do
    if r.2.2.1 ≠ 1 then throw PyErr.modelNotImplemented
    let shape ← couplingShape sa.size nbos r.2.2.2 r.2.1
    let size := prodN shape
    let aa ← NDArray.reshape (vecSlice vector st.2 size) shape
    let i0 := st.2 + size
    let shape ← couplingShape sb.size nbos r.2.2.2 r.2.1
    let size := prodN shape
    let bb ← NDArray.reshape (vecSlice vector i0 size) shape
    pure (st.1.set r.1 (.spins (Dict.set (Dict.set [] ['a', 'a'] aa) ['b', 'b'] bb)), i0 + size)) st
  if st.2 = vector.length then pure st.1 else .error .assertionError

end

end Ebcc
