import Verif.Model.Py
/-!
Model of `ebcc/util/misc.py` lines 186-231 (`argsort`, `regularise_tuple`; `prod` is `prodN` in
`Verif.Model.Array`) and of `unique` (`ebcc/util/permutations.py` lines 615-623).
-/

namespace Ebcc

section
variable {α : Type} [LT α] [DecidableLT α]

/-- Insert behind all entries whose key is not larger. -/
def insertStable (p : α × Nat) : List (α × Nat) → List (α × Nat)
  | [] => [p]
  | q :: qs => if p.1 < q.1 then p :: q :: qs else q :: insertStable p qs

/-- misc.py:194-207 `argsort`: `sorted(range(size), key=values.__getitem__)`.  Python's `sorted` is a
stable sort comparing with `<`; modelled as stable insertion sort of the (value, index) pairs. -/
def argsort (values : List α) : List Nat :=
  (values.zipIdx.foldl (fun acc p => insertStable p acc) []).map Prod.snd
end

/-- permutations.py:615-623 `unique`: keep first occurrences (`done` is the set of elements seen). -/
def uniqueLoop {α : Type} [DecidableEq α] (done : List α) : List α → List α
  | [] => []
  | x :: xs => if x ∈ done then uniqueLoop done xs else x :: uniqueLoop (x :: done) xs

/-- permutations.py:615-623 `unique`. -/
def unique {α : Type} [DecidableEq α] (l : List α) : List α := uniqueLoop [] l

/-- An argument of `regularise_tuple`: a tuple or list, or anything else. -/
inductive TupleArg (α : Type)
  | seq (items : List α)
  | item (a : α)
  deriving DecidableEq, Repr

/-- misc.py:210-231 `regularise_tuple`.  When the first argument is not a sequence the arguments are
returned as they are. -/
def regulariseTuple {α : Type} (items : List (TupleArg α)) : Except PyErr (List (TupleArg α)) :=
  match items with
  | [] => .error .indexError
  | .seq l :: rest => if rest.length + 1 > 1 then .error .valueError else .ok (l.map .item)
  | .item a :: rest => .ok (.item a :: rest)

end Ebcc
