import Verif.Model.Amps

/-!
Model of the post-processing of density matrices and of the boson shift: `make_rdm1_f`, `make_rdm2_f`,
`make_eb_coup_rdm` (`ebcc/cc/rebcc.py` 331-444, `ebcc/cc/gebcc.py` 573-686 with the same text, `ebcc/cc/uebcc.py`
463-595), `make_rdm1_b` (`ebcc/cc/base.py` 721-758), `get_mean_field_G` and `xi` (`rebcc.py` 605-638, `uebcc.py`
802-839, `gebcc.py` 847-880).

The raw density matrices (generated code) are arbitrary arrays.  The contractions are written as sums over the
repeated index; for the contraction code itself see `Verif.Model.Einsum`.  Arithmetic is exact.
-/

namespace Ebcc

section
variable {R : Type}

/-- `(a + b) * 0.5`. -/
def halfSum [Field R] (a b : NDArray R) : Except PyErr (NDArray R) := do
  let s ← a.add b
  pure (s.map fun x => x * 2⁻¹)

/-- rebcc.py:357-360, gebcc.py:599-602; also base.py:750-751 and each of the two spins in uebcc.py:489-491.
`np.transpose(dm)` reverses the axes. -/
def finishRdm1 [Field R] (dm : NDArray R) (hermitise : Bool) : Except PyErr (NDArray R) :=
  if hermitise then do
    let t ← dm.transpose (List.range dm.shape.length).reverse
    halfSum dm t
  else pure dm

/-- uebcc.py:523-525 `transpose1`: `(dm + transpose(dm, (2, 3, 0, 1))) * 0.5`. -/
def transpose1 [Field R] (dm : NDArray R) : Except PyErr (NDArray R) := do
  let t ← dm.transpose [0, 1, 2, 3]
  let u ← dm.transpose [2, 3, 0, 1]
  halfSum t u

/-- uebcc.py:527-529 `transpose2`. -/
def transpose2 [Field R] (dm : NDArray R) : Except PyErr (NDArray R) := do
  let t ← dm.transpose [0, 1, 2, 3]
  let u ← dm.transpose [1, 0, 3, 2]
  halfSum t u

/-- rebcc.py:388-392, gebcc.py:630-634; `aaaa` and `bbbb` in uebcc.py:531-533. -/
def finishRdm2 [Field R] (dm : NDArray R) (hermitise : Bool) : Except PyErr (NDArray R) :=
  if hermitise then do
    let x ← transpose1 dm
    transpose2 x
  else pure dm

/-- uebcc.py:532: the mixed block `aabb`. -/
def finishRdm2Mixed [Field R] (dm : NDArray R) (hermitise : Bool) : Except PyErr (NDArray R) :=
  if hermitise then transpose2 dm else pure dm

/-- `util.einsum("x,ij->xij", xi, dm)`. -/
def outerShift [Mul R] [Zero R] (xi dm : NDArray R) : NDArray R :=
  NDArray.ofFn (xi.shape ++ dm.shape) fun idx => xi.get (idx.take 1) * dm.get (idx.drop 1)

/-- rebcc.py:430-444: the two blocks of the electron-boson density matrix (the first axis of `dm_eb`).  `rdm1` is
`self.make_rdm1_f(hermitise=hermitise)`, the density matrix of the stored amplitudes whatever was passed. -/
def finishEbCoup [Field R] (dm0 dm1 : NDArray R) (hermitise unshifted shift : Bool) (xi : NDArray R)
    (rdm1 : Bool → Except PyErr (NDArray R)) : Except PyErr (NDArray R × NDArray R) := do
  let (x0, x1) ← if hermitise then do
      let t1 ← dm1.transpose [0, 2, 1]
      let y0 ← halfSum dm0 t1
      let t0 ← dm0.transpose [0, 2, 1]
      let y1 ← halfSum dm1 t0
      pure (y0, y1)
    else pure (dm0, dm1)
  if unshifted && shift then do
    let d ← rdm1 hermitise
    let s := (outerShift xi d).map fun x => -x
    let z0 ← x0.add s
    let z1 ← x1.add s
    pure (z0, z1)
  else pure (x0, x1)

/-- base.py:750-758 `make_rdm1_b`.  `sing` is `self.make_sing_b_dm()`, an array of shape `(2, nbos)`. -/
def finishRdm1b [Field R] (dm : NDArray R) (hermitise unshifted shift : Bool) (xi sing : NDArray R) :
    Except PyErr (NDArray R) := do
  let x ← finishRdm1 dm hermitise
  if unshifted && shift then do
    -- util.einsum("ni->i", sing)
    let dmb := fun i => ((List.range (sing.shape.getD 0 0)).map fun n => sing.get [n, i]).sum
    -- util.einsum("ij,i->ij", np.eye(n), xi * dm_b - xi ** 2)
    let n := x.shape.getD 0 0
    let corr := NDArray.ofFn [n, n] fun idx =>
      (if idx.getD 0 0 = idx.getD 1 0 then 1 else 0)
        * (xi.get [idx.getD 0 0] * dmb (idx.getD 0 0) - xi.get [idx.getD 0 0] ^ 2)
    x.add (corr.map fun y => -y)
  else pure x

/-! ### Shift -/

/-- `util.einsum("Iii->I", boo)`. -/
def bosonTrace [AddCommMonoid R] (boo : NDArray R) : NDArray R :=
  NDArray.ofFn [boo.shape.getD 0 0] fun idx =>
    ((List.range (boo.shape.getD 1 0)).map fun p => boo.get [idx.getD 0 0, p, p]).sum

/-- The trace over the occupied orbitals of all spins: rebcc.py:632 (factor two), gebcc.py:874, uebcc.py:832-833. -/
def occTrace [Field R] (spin : SpinType) (boo : List (NDArray R)) : Except PyErr (NDArray R) :=
  match spin, boo with
  | .R, [x] => .ok ((bosonTrace x).map fun y => y * 2)
  | .G, [x] => .ok (bosonTrace x)
  | .U, [x, y] => (bosonTrace x).add (bosonTrace y)
  | _, _ => .error .typeError

/-- rebcc.py:621-638, gebcc.py:863-880, uebcc.py:821-839 `xi`.  `boo` is `none` when `self.g` is `None`. -/
def xiOf [Field R] (spin : SpinType) (shift : Bool) (omega : Option (NDArray R)) (boo : Option (List (NDArray R)))
    (bareG : Option (NDArray R)) : Except PyErr (NDArray R) :=
  match omega with
  | none => .error .assertionError
  | some w =>
    if shift then
      match boo with
      | none => .error .assertionError
      | some boo => do
        let t ← occTrace spin boo
        let x ← t.div w
        match bareG with
        | none => pure x
        | some g => do
          let q ← g.div w
          x.add q
    else pure (NDArray.zeros w.shape)

/-- Elementwise product of arrays of one shape; numpy broadcasts unequal shapes, here they raise `ValueError`. -/
def NDArray.mul [Mul R] (a b : NDArray R) : Except PyErr (NDArray R) :=
  if a.shape = b.shape then .ok ⟨a.shape, List.zipWith (· * ·) a.data b.data⟩ else .error .valueError

/-- rebcc.py:605-619, gebcc.py:847-861, uebcc.py:802-819 `get_mean_field_G` (the unrestricted code asserts the shape
of `bare_G`). -/
def meanFieldG [Field R] (spin : SpinType) (shift : Bool) (omega : Option (NDArray R))
    (boo : Option (List (NDArray R))) (bareG : Option (NDArray R)) : Except PyErr (NDArray R) :=
  match omega, boo with
  | some w, some b => do
    let val ← occTrace spin b
    let x ← xiOf spin shift omega boo bareG
    let xw ← x.mul w
    let val ← val.add (xw.map fun y => -y)
    match bareG with
    | none => pure val
    | some g =>
      if spin = .U ∧ g.shape ≠ val.shape then .error .assertionError
      else val.add g
  | _, _ => .error .assertionError

end

end Ebcc
