import Verif.Model.GenCode
/-!
Equation-of-motion products with intermediates that are kept between calls.

The generated functions `hbar_matvec_*` get the intermediates as a namespace `ints`, and many of them delete its entries
(`del ints.tmp1`).  The namespace belongs to the caller, so that the next product finds what is left.
-/

namespace Ebcc

section
variable {R : Type}

/-- A call of a generated function, with the values of the variables at the end. -/
def GenFun.run [Field R] [DecidableEq R] (g : GenFun) (method : ContractMethod)
    (path : List (List Char) → List Char → List (NDArray R) → List Contraction) (sizes : Nat → Nat)
    (vals : List Char → Option (NDArray R)) : Except PyErr (Dict (List Char) (NDArray R) × GenStore R) := do
  let st ← bindPositional vals g.args 0 (fun _ => none)
  let st ← execAll method path sizes g.body st
  let d ← collect st g.ret
  pure (d, st)

/-- The name of an intermediate as an argument. -/
def intsName (name : List Char) : List Char := chars! "ints." ++ name

/-- The entries of the namespace `ints` that were not deleted (`Namespace.__delattr__`, util/misc.py:93-99). -/
def GenFun.intsLeft (g : GenFun) (st : GenStore R) (ints : Dict (List Char) (NDArray R)) :
    Dict (List Char) (NDArray R) :=
  ints.filter fun p => (List.range g.args.length).all fun k => g.args[k]? != some (intsName p.1) || (st k).isSome

/-- The arguments of a product: integrals and amplitudes `args`, intermediates and excitation amplitudes `r1`, `r2`,
eom/base.py:395-401, cc/base.py:509-553. -/
def eomVals (args : List Char → Option (NDArray R)) (ints exc : Dict (List Char) (NDArray R)) :
    List Char → Option (NDArray R)
  | 'i' :: 'n' :: 't' :: 's' :: '.' :: name => ints.get? name
  | 'r' :: name => exc.get? ('r' :: name)
  | name => args name

/-- `matvec` with the functions `hbar_matvec_*_intermediates` (`I`) and `hbar_matvec_*` (`M`): the results and the
namespace `ints` of the caller afterwards.  An empty namespace (or None) is false, and then the intermediates are calculated
and assigned to a local variable, eom/base.py:392-404, 453-465, 514-526. -/
def eomProduct [Field R] [DecidableEq R] (I M : GenFun) (method : ContractMethod)
    (path : List (List Char) → List Char → List (NDArray R) → List Contraction) (sizes : Nat → Nat)
    (args : List Char → Option (NDArray R)) (exc ints : Dict (List Char) (NDArray R)) :
    Except PyErr (Dict (List Char) (NDArray R) × Dict (List Char) (NDArray R)) :=
  if ints.isEmpty then do
    let new ← I.call method path sizes args
    let r ← M.run method path sizes (eomVals args new exc)
    pure (r.1, ints)
  else do
    let r ← M.run method path sizes (eomVals args ints exc)
    pure (r.1, M.intsLeft r.2 ints)

/-- Products of several vectors one after the other with the same namespace `ints`, as in the eigensolver,
eom/base.py:289-290. -/
def eomProducts [Field R] [DecidableEq R] (I M : GenFun) (method : ContractMethod)
    (path : List (List Char) → List Char → List (NDArray R) → List Contraction) (sizes : Nat → Nat)
    (args : List Char → Option (NDArray R)) :
    List (Dict (List Char) (NDArray R)) → Dict (List Char) (NDArray R) →
      Except PyErr (List (Dict (List Char) (NDArray R)) × Dict (List Char) (NDArray R))
  | [], ints => .ok ([], ints)
  | exc :: l, ints => do
    let r ← eomProduct I M method path sizes args exc ints
    let rs ← eomProducts I M method path sizes args l r.2
    pure (r.1 :: rs.1, rs.2)

end

end Ebcc
