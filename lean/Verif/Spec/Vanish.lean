import Verif.Spec.GenArgsG
import Verif.Lemmas.Array
import Verif.Lemmas.GenEinsum
/-!
Amplitudes of a sort which are zero, and results of two functions which agree.
-/

namespace Ebcc

section
variable {R : Type}

/-- The amplitudes of a sort are zero. -/
def GAmps.Vanish [Ring R] (t : GAmps R) : GSort → Prop
  | .t1 => ∀ i a, t.a1 i a = 0
  | .t2 => ∀ i j a b, t.a2 i j a b = 0
  | .t3 => ∀ i j k a b c, t.a3 i j k a b c = 0
  | .s1 => ∀ x, t.s1 x = 0
  | .s2 => ∀ x y, t.s2 x y = 0
  | .u11 => ∀ x i a, t.u11 x i a = 0
  | .u12 => ∀ x y i a, t.u12 x y i a = 0

/-- A result of one function, a result of another one, the spaces of the first, and for each axis of the second the axis
of the first which it is. -/
structure SameRes where
  name : List Char
  name' : List Char
  sp : List Nat
  perm : List Nat

/-- Both results are there, with the sizes of the spaces, and they are equal up to the order of the axes. -/
def SameRes.Holds [Zero R] (s : SameRes) (sz : Nat → Nat) (r r' : Dict (List Char) (NDArray R)) : Prop :=
  HasResult r sz (s.name, s.sp) ∧ HasResult r' sz (s.name', s.perm.map fun k => s.sp.getD k 0) ∧
    ∀ idx, InBox (s.sp.map sz) idx → elemOf r s.name idx = elemOf r' s.name' (s.perm.map fun k => idx.getD k 0)

/-- The same name and order of axes. -/
def SameRes.plain (x : List Char × List Nat) : SameRes := ⟨x.1, x.1, x.2, List.range x.2.length⟩

end

/-- For all integrals, amplitudes and lambda amplitudes, of which those of the sorts `off` are zero (and without coupling
to bosons if `uncoupled`): both functions return results, which agree. -/
def Reduces91 (F G : GenFun) (off : List GSort) (uncoupled : Bool) (rs : List SameRes) : Prop :=
  ∀ (R : Type) [Field R] [CharZero R] [DecidableEq R] (h : GHam R) (t l : GAmps R) (no nv nb : Nat)
    (method : ContractMethod) (path : List (List Char) → List Char → List (NDArray R) → List Contraction),
    PathOk path → (∀ x ∈ off, t.Vanish x) → (∀ x ∈ off, l.Vanish x) → (uncoupled = true → ∀ x p q, h.g x p q = 0) →
    ∃ a b : Dict (List Char) (NDArray R),
      F.call method path (spaceSizes no nv nb 0) (h.args t l (spaceSizes no nv nb 0)) = .ok a ∧
      G.call method path (spaceSizes no nv nb 0) (h.args t l (spaceSizes no nv nb 0)) = .ok b ∧
      ∀ s ∈ rs, s.Holds (spaceSizes no nv nb 0) a b

end Ebcc
