import Verif.Model.Tailor
/-!
Model of the array functions which the backends define themselves: CTF (`ebcc/backend/_ctf.py`), TensorFlow
(`ebcc/backend/_tensorflow.py`), and `_put` and `_inflate` (`ebcc/backend/__init__.py`) for these backends.  Data types
are not modelled; the functions of the libraries (`ctf.zeros`, assignment to slices, `tf.meshgrid`, ...) do what those of
NumPy do.
-/

namespace Ebcc

section
variable {R : Type}

/-- _ctf.py:114-118: `for i, (a, b) in enumerate(zip(shape, arr.shape))`, starting at axis `i`. -/
def ctfAddShape (axis : Nat) : Nat → List Nat → List Nat → Except PyErr (List Nat)
  | i, a :: s, b :: s' =>
    if i = axis then do
      let r ← ctfAddShape axis (i + 1) s s'
      pure ((a + b) :: r)
    else if a ≠ b then .error .valueError
    else do
      let r ← ctfAddShape axis (i + 1) s s'
      pure (a :: r)
  | _, s, _ => .ok s

/-- _ctf.py:124-126: `result[..., start:end, ...] = arr` with the slice at `axis`, where `end` is
`start + arr.shape[axis]`; `ValueError` if the shapes differ. -/
def ctfSetSlice [Zero R] (x : NDArray R) (axis start : Nat) (a : NDArray R) : Except PyErr (NDArray R) :=
  let w := a.shape.getD axis 0
  if a.shape = x.shape.set axis (min (start + w) (x.shape.getD axis 0) - start) then
    .ok (.ofFn x.shape fun idx =>
      if start ≤ idx.getD axis 0 ∧ idx.getD axis 0 < start + w then a.get (idx.set axis (idx.getD axis 0 - start))
      else x.get idx)
  else .error .valueError

/-- _ctf.py:120-127: the loop over the arrays. -/
def ctfFill [Zero R] (axis : Nat) : NDArray R → Nat → List (NDArray R) → Except PyErr (NDArray R)
  | result, _, [] => .ok result
  | result, start, arr :: arrays =>
    if axis < arr.shape.length then do
      let result ← ctfSetSlice result axis start arr
      ctfFill axis result (start + arr.shape.getD axis 0) arrays
    else .error .indexError

/-- _ctf.py:107-129 `concatenate`.  Simplification: an axis that is still negative after line 111 is an `IndexError`. -/
def ctfConcatenate [Zero R] (arrays : List (NDArray R)) (axis : Option Int) : Except PyErr (NDArray R) :=
  match arrays with
  | [] => .error .indexError
  | a :: as => do
    let axis := axis.getD 0
    let axis := if axis < 0 then axis + a.shape.length else axis
    if axis < 0 then .error .indexError
    else
      let shape ← as.foldlM (fun s b => ctfAddShape axis.toNat 0 s b.shape) a.shape
      ctfFill axis.toNat (.zeros shape) 0 (a :: as)

/-- `list.insert(axis, value)`: a negative `axis` counts from the end, and both ends are limits. -/
def pyInsert {α : Type} (l : List α) (axis : Int) (x : α) : List α :=
  let k := if axis < 0 then (axis + l.length).toNat else min axis.toNat l.length
  l.take k ++ x :: l.drop k

/-- _ctf.py:132-138 `stack`. -/
def ctfStack [Zero R] (arrays : List (NDArray R)) (axis : Int := 0) : Except PyErr (NDArray R) := do
  let expanded ← arrays.mapM fun a => NDArray.reshape a.data (pyInsert a.shape axis 1)
  ctfConcatenate expanded (some axis)

/-- _ctf.py:141-156 (_tensorflow.py:21-35) `block`, for a list of lists of arrays, where `_get_max_depth` is two. -/
def ctfBlock [Zero R] (arrays : List (List (NDArray R))) : Except PyErr (NDArray R) := do
  let rows ← arrays.mapM fun row => ctfConcatenate row (some (-1))
  ctfConcatenate rows (some (-2))

/-- _ctf.py:95-96 `bitwise_and`, with `0` and `1` for the truth values. -/
def ctfAnd (a b : List Nat) : List Nat := List.zipWith (· * ·) a b

/-- _ctf.py:99-100 `bitwise_not`. -/
def ctfNot (a : List Nat) : List Nat := List.zipWith (· - ·) (a.map fun _ => 1) a

/-- _ctf.py:103-104 `count_nonzero`. -/
def ctfCount (a : List Nat) : Nat := (a.map fun x => if x ≠ 0 then 1 else 0).sum

/-- `tf.math.cumprod(l, exclusive=True, reverse=True)`: the product of the elements after each. -/
def tfCumprod : List Nat → List Nat
  | [] => []
  | _ :: l => prodN l :: tfCumprod l

/-- _tensorflow.py:38-50 `ravel_multi_index`, for one multi-index. -/
def tfRavel (dims idx : List Nat) : Nat :=
  (List.zipWith (· * ·) idx (tfCumprod (1 :: dims.dropLast))).sum

/-- _tensorflow.py:53-70 `indices(dimensions)`: `tf.meshgrid` of the ranges with `indexing="ij"`, and `tf.stack`. -/
def tfIndices (dims : List Nat) : NDArray Nat :=
  .ofFn (dims.length :: dims) fun
    | k :: idx => (List.range (dims.getD k 0)).getD (idx.getD k 0) 0
    | [] => 0

/-- backend/__init__.py:143-153: `_put` of the backend `tensorflow` with a tuple of arrays of indices (given by their
elements: `tf.meshgrid` ravels them).  `tf.tensor_scatter_nd_update` raises if the numbers of indices and values differ
or an index is out of bounds. -/
def tfPut [Zero R] (x : NDArray R) (lists : List (List Nat)) (v : NDArray R) : Except PyErr (NDArray R) :=
  let idxs := prodL lists
  if lists.length = x.shape.length ∧ idxs.all (fun t => decide (t ∈ box x.shape)) = true ∧ v.data.length = idxs.length then
    .ok ⟨x.shape, (idxs.zip v.data).foldl (fun d p => d.set (ravelIdx x.shape p.1) p.2) x.data⟩
  else .error .valueError

/-- backend/__init__.py:127-133: `_put` of the backend `numpy` with a tuple of lists of indices of the same length, not
a grid: `np.ravel_multi_index` takes one of each. -/
def numpyPutPairs [Zero R] (x : NDArray R) (lists : List (List Nat)) (v : NDArray R) : Except PyErr (NDArray R) :=
  let n := (lists.headD []).length
  let idxs := (List.range n).map fun k => lists.map fun l => l.getD k 0
  if lists.length = x.shape.length ∧ lists.all (fun l => l.length == n) = true ∧
      idxs.all (fun t => decide (t ∈ box x.shape)) = true then
    .ok ⟨x.shape, putFlat x.data (idxs.map (ravelIdx x.shape)) v.data⟩
  else .error .valueError

/-- backend/__init__.py:155-161: `_put` of the backend `ctf`.  For a tuple (`some lists`) line 158 reads the global name
`np`, which backend/__init__.py:34-46 do not define for this backend; the `__getattr__` of the module is not consulted
for global names. -/
def ctfPut [Zero R] (x : NDArray R) (tuple : Bool) (flat : List Nat) (v : NDArray R) : Except PyErr (NDArray R) :=
  if tuple then .error .nameError
  else .ok ⟨x.shape, putFlat x.data flat v.data⟩

end
end Ebcc
