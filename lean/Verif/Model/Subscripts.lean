import Verif.Model.Py
/-!
Model of `ebcc/util/permutations.py` lines 276-321 (`combine_subscripts`).
-/

namespace Ebcc

/-- Local variables of `combine_subscripts` (permutations.py:303-306). -/
structure CombineState where
  charMap : Dict (List Char) Char
  newSub : List Char
  newSizes : Dict Char Nat
  j : Nat

/-- permutations.py:309-314: extend the character map by a new key. -/
def CombineState.addKey (st : CombineState) (key : List Char) : Except PyErr CombineState :=
  if st.charMap.contains key then .ok st
  else if st.j = 91 then .error .valueError
  else .ok { st with
    charMap := st.charMap.set key (Char.ofNat (97 + st.j))
    j := if st.j + 1 = 123 then 65 else st.j + 1 }

/-- permutations.py:307-319: one position of the subscripts. -/
def CombineState.step (sizes : Dict (List Char) Nat) (st : CombineState) (key : List Char) :
    Except PyErr CombineState := do
  let st ← st.addKey key
  let c ← st.charMap.getItem key
  if sizes.isEmpty then
    pure { st with newSub := st.newSub ++ [c] }
  else
    let s ← sizes.getItem key
    pure { st with newSub := st.newSub ++ [c], newSizes := st.newSizes.set c s }

/-- permutations.py:276-321 `combine_subscripts`.  `sizes = None` and the empty dictionary are both
false in line 318, so both are the empty `sizes`.  `chr` is `Char.ofNat` (the code points used,
97 to 187, are valid). -/
def combineSubscripts (subs : List (List Char)) (sizes : Dict (List Char) Nat) :
    Except PyErr (List Char × Dict Char Nat) := do
  match subs with
  | [] => .error .valueError
  | s :: rest =>
    if rest.all (fun t => t.length == s.length) then
      let keys := (List.range s.length).map fun i => subs.map fun t => t.getD i ' '
      let st ← keys.foldlM (fun st k => st.step sizes k) (⟨[], [], [], 0⟩ : CombineState)
      pure (st.newSub, st.newSizes)
    else .error .valueError

end Ebcc
