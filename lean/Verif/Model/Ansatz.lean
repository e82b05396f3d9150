import Verif.Model.Py
import Mathlib.Data.List.Sort

/-!
Model of `ebcc/core/ansatz.py` (all of it but the import of the generated module, 121-127) and of the
string handling in `ebcc/__init__.py:138-173` (`available_models`).

Strings are lists of characters.  Simplification: `c.isalpha() and c.islower()` is modelled for ASCII
letters only.
-/

namespace Ebcc

/-- `s.replace(key, "")` for a non-empty `key`; `skip` counts the characters of an occurrence still to be
dropped. -/
def removeSub (key : List Char) : Nat → List Char → List Char
  | _, [] => []
  | k + 1, _ :: l => removeSub key k l
  | 0, c :: l => if key.isPrefixOf (c :: l) then removeSub key (key.length - 1) l else c :: removeSub key 0 l

/-- `key in s`. -/
def hasSub (key : List Char) : List Char → Bool
  | [] => key.isEmpty
  | c :: l => key.isPrefixOf (c :: l) || hasSub key l

/-- `s.replace(a, b)` for single characters. -/
def replaceChar (a b : Char) (s : List Char) : List Char := s.map fun c => if c = a then b else c

/-- `s.replace(a, b, 1)` for single characters. -/
def replaceFirst (a b : Char) : List Char → List Char
  | [] => []
  | c :: l => if c = a then b :: l else c :: replaceFirst a b l

/-- ansatz.py:36-61 `name_to_identifier`. -/
def nameToIdentifier (name : List Char) : List Char :=
  let iden := name.flatMap fun c => if c.isLower then ['w', c, 'w'] else [c]
  let iden := replaceChar ')' 'x' (replaceChar '(' 'x' iden)
  let iden := replaceChar ']' 'y' (replaceChar '[' 'y' iden)
  let iden := replaceChar '-' '_' iden
  replaceChar '\'' 'p' iden

/-- ansatz.py:85-88: `while a in name: name = name.replace(a, "(", 1).replace(a, ")", 1)`.  Every pass
removes an occurrence of `a`, so the length of the name bounds the number of passes. -/
def bracketLoop (a : Char) : Nat → List Char → List Char
  | 0, s => s
  | k + 1, s => if a ∈ s then bracketLoop a k (replaceFirst a ')' (replaceFirst a '(' s)) else s

/-- ansatz.py:64-90 `identifier_to_name`. -/
def identifierToName (iden : List Char) : List Char :=
  let name := replaceChar '-' '_' iden
  let name := name.filter (· ≠ 'w')
  let name := bracketLoop 'x' name.length name
  let name := bracketLoop 'y' name.length name
  replaceChar 'p' '\'' name

/-- ansatz.py:93-119 `Ansatz`. -/
structure Ansatz where
  fermionAnsatz : List Char
  bosonAnsatz : List Char
  fermionCouplingRank : Nat
  bosonCouplingRank : Nat
  densityFitting : Bool
  moduleName : Option (List Char)
deriving DecidableEq

/-- ansatz.py:14-33 `named_ansatzes`. -/
def namedAnsatzes : List (List Char × List Char × List Char × Nat × Nat) :=
  [("MP2".toList, "MP2".toList, [], 0, 0),
   ("MP3".toList, "MP3".toList, [], 0, 0),
   ("CCD".toList, "CCD".toList, [], 0, 0),
   ("CCSD".toList, "CCSD".toList, [], 0, 0),
   ("CCSDT".toList, "CCSDT".toList, [], 0, 0),
   ("CCSDTQ".toList, "CCSDTQ".toList, [], 0, 0),
   ("CCSD(T)".toList, "CCSD(T)".toList, [], 0, 0),
   ("CC2".toList, "CC2".toList, [], 0, 0),
   ("CC3".toList, "CC3".toList, [], 0, 0),
   ("LCCD".toList, "LCCD".toList, [], 0, 0),
   ("LCCSD".toList, "LCCSD".toList, [], 0, 0),
   ("QCISD".toList, "QCISD".toList, [], 0, 0),
   ("DCD".toList, "DCD".toList, [], 0, 0),
   ("DCSD".toList, "DCSD".toList, [], 0, 0),
   ("CCSDt'".toList, "CCSDt'".toList, [], 0, 0),
   ("CCSD-S-1-1".toList, "CCSD".toList, "S".toList, 1, 1),
   ("CCSD-SD-1-1".toList, "CCSD".toList, "SD".toList, 1, 1),
   ("CCSD-SD-1-2".toList, "CCSD".toList, "SD".toList, 1, 2)]

/-- ansatz.py:129-143 `Ansatz.from_string`. -/
def Ansatz.fromString (s : List Char) (densityFitting : Bool) : Except PyErr Ansatz :=
  match namedAnsatzes.lookup s with
  | some (f, b, fr, br) => .ok ⟨f, b, fr, br, densityFitting, none⟩
  | none => .error .modelNotImplemented

/-- ansatz.py:145-161 `__repr__`, `name`. -/
def Ansatz.name (a : Ansatz) : List Char :=
  (if a.densityFitting then "DF".toList else []) ++ a.fermionAnsatz ++
  (if a.bosonAnsatz ≠ [] then '-' :: a.bosonAnsatz else []) ++
  (if a.fermionCouplingRank ≠ 0 ∨ a.bosonCouplingRank ≠ 0 then
    '-' :: Nat.toDigits 10 a.fermionCouplingRank ++ '-' :: Nat.toDigits 10 a.bosonCouplingRank else [])

/-- ansatz.py:163-172 `has_perturbative_correction`. -/
def Ansatz.hasPerturbativeCorrection (a : Ansatz) : Bool :=
  [a.fermionAnsatz, a.bosonAnsatz].any fun s => decide ('(' ∈ s) && decide (')' ∈ s)

/-- ansatz.py:174-184 `is_one_shot`. -/
def Ansatz.isOneShot (a : Ansatz) : Bool :=
  [a.fermionAnsatz, a.bosonAnsatz].all fun s => "MP".toList.isPrefixOf s || decide (s = [])

/-- The argument `which`. -/
inductive Which where
  | t | l | ip | ea | ee
deriving DecidableEq

/-- The argument `spin_type`. -/
inductive SpinType where
  | R | U | G
deriving DecidableEq

/-- An entry of the list of cluster operators: name, slices, rank. -/
abbrev Rank := List Char × List Char × Nat

/-- ansatz.py:205-215 `_adapt_key` of the fermionic operators. -/
def adaptKey (which : Which) (key : List Char) : List Char :=
  match which with
  | .ip => key.dropLast
  | .ea => key.drop (key.length / 2) ++ key.take (key.length / 2 - 1)
  | .l => key.drop (key.length / 2) ++ key.take (key.length / 2)
  | _ => key

/-- ansatz.py:217 `symbol`. -/
def fermionSymbol : Which → List Char
  | .t => ['t']
  | .l => ['l']
  | _ => ['r']

/-- ansatz.py:218-231 `notations`. -/
def fermionNotations (spin : SpinType) (which : Which) : List (List Char × List Rank) :=
  let sym := fermionSymbol which
  let s : List Rank := [(sym ++ ['1'], adaptKey which "ov".toList, 1)]
  let d : List Rank := [(sym ++ ['2'], adaptKey which "oovv".toList, 2)]
  let t : List Rank := [(sym ++ ['3'], adaptKey which "ooovvv".toList, 3)]
  let tS : List Rank := [(sym ++ ['3'], adaptKey which "ooOvvV".toList, 3)]
  let tP : List Rank := [(sym ++ ['3'], adaptKey which "OOOVVV".toList, 3)]
  let q : List Rank :=
    if spin = .R then [(sym ++ ['4', 'a'], "oooovvvv".toList, 4), (sym ++ ['4', 'b'], "oooovvvv".toList, 4)]
    else [(sym ++ ['4'], "oooovvvv".toList, 4)]
  [(['S'], s), (['D'], d), (['T'], t), (['t'], tS), (['t', '\''], tP), (['Q'], q),
   (['2'], s ++ d), (['3'], s ++ d ++ t), (['4'], s ++ d ++ t ++ q)]

/-- ansatz.py:233-240 and 301-308: removal of perturbative corrections.  One pass of the loop leaves no
`(`: `op[:start]` has none, and the part appended in the second branch is a part of it. `op.index(")")`
raises `ValueError`. -/
def stripPerturbative (op : List Char) : Except PyErr (List Char) :=
  if '(' ∈ op then
    if ')' ∈ op then
      let start := op.idxOf '('
      let stop := op.idxOf ')'
      let op := op.take start
      .ok (if stop + 1 < op.length then op ++ op.drop (stop + 1) else op)
    else .error .valueError
  else .ok op

/-- `ebcc/__init__.py:43` `METHOD_TYPES`. -/
def methodTypes : List (List Char) :=
  ["MP".toList, "CC".toList, "LCC".toList, "QCI".toList, "QCC".toList, "DC".toList]

/-- `sorted(l, key=len)[::-1]`. -/
def sortedByLenRev (l : List (List Char)) : List (List Char) :=
  (l.insertionSort fun a b => a.length ≤ b.length).reverse

/-- ansatz.py:245-248: the method type and the rest of the name.  When no method type fits the loop ends
with the last one it tried. -/
def splitMethod (op : List Char) : List (List Char) → List Char × List Char
  | [] => ([], op)
  | [m] => if m.isPrefixOf op then (m, op.drop m.length) else (m, op)
  | m :: l => if m.isPrefixOf op then (m, op.drop m.length) else splitMethod op l

/-- ansatz.py:259-263: the ranks of all notations contained in `op`. -/
def collectRanks (notations : List (List Char × List Rank)) : List (List Char) → List Char → List Rank
  | [], _ => []
  | key :: keys, op =>
    if hasSub key op then (notations.lookup key).getD [] ++ collectRanks notations keys (removeSub key 0 op)
    else collectRanks notations keys op

/-- ansatz.py:265-270: no duplicates, sorted by rank. -/
def finishRanks (ranks : List Rank) : Except PyErr (List Rank) :=
  if ranks.Nodup then .ok (ranks.insertionSort fun a b => a.2.2 ≤ b.2.2)
  else .error .modelNotImplemented

/-- ansatz.py:186-272 `fermionic_cluster_ranks`. -/
def fermionicClusterRanks (ansatz : List Char) (spin : SpinType) (which : Which) :
    Except PyErr (List Rank) :=
  if ansatz = [] then .ok []
  else
    match stripPerturbative ansatz with
    | .error e => .error e
    | .ok op =>
      let notations := fermionNotations spin which
      let (method, op) := splitMethod op (sortedByLenRev methodTypes)
      let op := if method = "MP".toList ∧ (which = .t ∨ which = .l) then ['D'] else op
      let op := if ansatz = "CCD".toList ∧ (which = .ip ∨ which = .ea ∨ which = .ee) then ['S', 'D'] else op
      finishRanks (collectRanks notations (sortedByLenRev (notations.map Prod.fst)) op)

/-- ansatz.py:290-299 `notations` and `symbol` of the bosonic operators. -/
def bosonNotations (which : Which) : List (List Char × List Rank) :=
  let sym := if which = .t then ['s'] else ['l', 's']
  let s : List Rank := [(sym ++ ['1'], ['b'], 1)]
  let d : List Rank := [(sym ++ ['2'], ['b', 'b'], 2)]
  let t : List Rank := [(sym ++ ['3'], ['b', 'b', 'b'], 3)]
  [(['S'], s), (['D'], d), (['T'], t), (['2'], s ++ d), (['3'], s ++ d ++ t)]

/-- ansatz.py:274-324 `bosonic_cluster_ranks`. -/
def bosonicClusterRanks (ansatz : List Char) (which : Which) : Except PyErr (List Rank) :=
  if ansatz = [] then .ok []
  else
    match stripPerturbative ansatz with
    | .error e => .error e
    | .ok op =>
      let notations := bosonNotations which
      finishRanks (collectRanks notations (sortedByLenRev (notations.map Prod.fst)) op)

/-- ansatz.py:344-354 `_adapt_key` of the coupling operators. -/
def adaptCouplingKey (which : Which) (key : List Char) (nf nb : Nat) : Except PyErr (List Char) :=
  match which with
  | .t => .ok key
  | .l => .ok (key.take nb ++ key.drop (nb + nf) ++ (key.drop nb).take nf)
  | _ => .error .modelNotImplemented

/-- ansatz.py:326-367 `coupling_cluster_ranks`. -/
def couplingClusterRanks (nfmax nbmax : Nat) (which : Which) :
    Except PyErr (List (List Char × List Char × Nat × Nat)) :=
  let sym := if which = .t then ['u'] else ['l', 'u']
  ((List.range nfmax).flatMap fun i => (List.range nbmax).map fun j => (i + 1, j + 1)).mapM fun (nf, nb) => do
    let key ← adaptCouplingKey which
      (List.replicate nb 'b' ++ List.replicate nf 'o' ++ List.replicate nf 'v') nf nb
    pure (sym ++ Nat.toDigits 10 nf ++ Nat.toDigits 10 nb, key, nf, nb)

end Ebcc
