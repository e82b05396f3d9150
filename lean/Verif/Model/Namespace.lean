import Verif.Model.Py
/-!
Model of `ebcc/util/misc.py` lines 53-141 (`Namespace`).  A program using namespaces is a sequence of
operations on a heap of namespace objects; an object is identified by its position in the heap.
-/

namespace Ebcc

/-- The operations that create or change a namespace. -/
inductive NsOp (κ ν : Type)
  | new (kwargs : List (κ × ν))
  | setItem (obj : Nat) (key : κ) (val : ν)
  | setAttr (obj : Nat) (key : κ) (val : ν)
  | delItem (obj : Nat) (key : κ)
  | delAttr (obj : Nat) (key : κ)
  | copy (obj : Nat)
  deriving DecidableEq, Repr

section
variable {κ ν : Type} [DecidableEq κ]

/-- misc.py:65-69 `__init__`. -/
def nsInit (kwargs : List (κ × ν)) : Dict κ ν := kwargs.foldl (fun d kv => d.set kv.1 kv.2) []

/-- misc.py:71-73 `__setitem__`. -/
def nsSetItem (d : Dict κ ν) (k : κ) (v : ν) : Dict κ ν := d.set k v

/-- misc.py:75-77 `__setattr__`. -/
def nsSetAttr (d : Dict κ ν) (k : κ) (v : ν) : Dict κ ν := nsSetItem d k v

/-- misc.py:79-82 `__getitem__`. -/
def nsGetItem (d : Dict κ ν) (k : κ) : Except PyErr ν := d.getItem k

/-- What an attribute access returns: a member, or an attribute of the class or of the instance
dictionary (the methods and `_members`). -/
inductive NsAttr (ν : Type)
  | member (v : ν)
  | builtin
  deriving DecidableEq, Repr

/-- Attribute access `ns.key`.  Python first looks for `key` in the class and in the instance
dictionary (`isBuiltin`: methods, `_members`); only then misc.py:84-91 `__getattr__` is called, which
turns `KeyError` into `AttributeError`. -/
def nsGetAttr (isBuiltin : κ → Bool) (d : Dict κ ν) (k : κ) : Except PyErr (NsAttr ν) :=
  if isBuiltin k then .ok .builtin else
  match nsGetItem d k with
  | .ok v => .ok (.member v)
  | .error .keyError => .error .attributeError
  | .error e => .error e

/-- misc.py:93-95 `__delitem__`: `dict.pop`. -/
def nsDelItem (d : Dict κ ν) (k : κ) : Except PyErr (Dict κ ν) :=
  if d.contains k then .ok (d.erase k) else .error .keyError

/-- misc.py:97-99 `__delattr__`. -/
def nsDelAttr (d : Dict κ ν) (k : κ) : Except PyErr (Dict κ ν) := nsDelItem d k

/-- misc.py:115-117 `__contains__`. -/
def nsContains (d : Dict κ ν) (k : κ) : Bool := d.contains k

/-- misc.py:119-121 `__len__`. -/
def nsLen (d : Dict κ ν) : Nat := d.length

/-- misc.py:101-103, 123-125 `__iter__`, `keys`. -/
def nsKeys (d : Dict κ ν) : List κ := d.keys

/-- misc.py:127-133 `values`. -/
def nsValues (d : Dict κ ν) : List ν := d.map Prod.snd

/-- misc.py:105-109 `__eq__` for two namespaces: equality of dictionaries. -/
def nsEq [DecidableEq ν] (d e : Dict κ ν) : Bool :=
  decide (d.length = e.length) && d.all fun kv => e.get? kv.1 = some kv.2

/-- misc.py:135-137 `copy`: `Namespace(**members)`. -/
def nsCopy (d : Dict κ ν) : Dict κ ν := nsInit d

/-- One operation: the new heap and the exception raised, if any.  An operation on an object that does
not exist leaves the heap alone (there is no such program). -/
def nsExec (heap : List (Dict κ ν)) : NsOp κ ν → List (Dict κ ν) × Option PyErr
  | .new kw => (heap ++ [nsInit kw], none)
  | .setItem o k v =>
    match heap[o]? with
    | some d => (heap.set o (nsSetItem d k v), none)
    | none => (heap, some .nameError)
  | .setAttr o k v =>
    match heap[o]? with
    | some d => (heap.set o (nsSetAttr d k v), none)
    | none => (heap, some .nameError)
  | .delItem o k =>
    match heap[o]? with
    | some d =>
      match nsDelItem d k with
      | .ok d' => (heap.set o d', none)
      | .error e => (heap, some e)
    | none => (heap, some .nameError)
  | .delAttr o k =>
    match heap[o]? with
    | some d =>
      match nsDelAttr d k with
      | .ok d' => (heap.set o d', none)
      | .error e => (heap, some e)
    | none => (heap, some .nameError)
  | .copy o =>
    match heap[o]? with
    | some d => (heap ++ [nsCopy d], none)
    | none => (heap, some .nameError)

/-- Run a history (oldest operation first); exceptions are caught by the caller. -/
def nsRun (ops : List (NsOp κ ν)) : List (Dict κ ν) :=
  ops.foldl (fun h op => (nsExec h op).1) []

end

end Ebcc
