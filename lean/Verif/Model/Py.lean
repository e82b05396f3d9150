/-!
Python run-time vocabulary shared by all models: exceptions as values, and dictionaries as
association lists in insertion order (Python `dict` semantics).
-/

namespace Ebcc

/-- Python exceptions raised by the modelled code, as values. -/
inductive PyErr
  | keyError | indexError | valueError | assertionError | attributeError | typeError
  | modelNotImplemented | notImplementedError | nameError | recursionError | runtimeError | importError
  deriving DecidableEq, Repr

/-- A Python `dict`: keys in insertion order. -/
abbrev Dict (κ ν : Type) := List (κ × ν)

namespace Dict
variable {κ ν : Type} [DecidableEq κ]

/-- `d.get(k)`. -/
def get? : Dict κ ν → κ → Option ν
  | [], _ => none
  | (k', v) :: d, k => if k' = k then some v else get? d k

/-- `d[k]`, raising `KeyError`. -/
def getItem (d : Dict κ ν) (k : κ) : Except PyErr ν :=
  match d.get? k with
  | some v => .ok v
  | none => .error .keyError

/-- `d[k] = v`: an existing key keeps its place, a new key goes to the end. -/
def set : Dict κ ν → κ → ν → Dict κ ν
  | [], k, v => [(k, v)]
  | (k', v') :: d, k, v => if k' = k then (k, v) :: d else (k', v') :: set d k v

/-- `k in d`. -/
def contains (d : Dict κ ν) (k : κ) : Bool := (d.get? k).isSome

/-- `d.pop(k)` without the returned value, for a key that is present. -/
def erase : Dict κ ν → κ → Dict κ ν
  | [], _ => []
  | (k', v') :: d, k => if k' = k then d else (k', v') :: erase d k

/-- `list(d.keys())`. -/
def keys (d : Dict κ ν) : List κ := d.map Prod.fst

end Dict

end Ebcc
