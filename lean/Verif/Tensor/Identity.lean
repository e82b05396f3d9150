import Verif.Tensor.Engine
/-!
Identities between results of generated functions: sums of products of results and arguments, with
directional derivatives.

`canonDelta` eliminates identity matrices with a summed index.  `polyDeriv` differentiates with respect to
tensors.  `symIdent` computes the two sides of an identity; `IdentitySound.lean` proves that the identity
then holds for the arrays.
-/

namespace Ebcc

noncomputable section

/-! ### Identity matrices -/

/-- The indices of an identity matrix, the first one summed; none if neither is summed. -/
def deltaIxs (ds : List Nat) : List Nat → Option (Nat × Nat)
  | [i, j] =>
    bif Nat.beq i j then none
    else bif Nat.beq (Nat.mod i (nat_lit 16)) (Nat.mod j (nat_lit 16)) then
      bif memB i ds then some (i, j)
      else bif memB j ds then some (j, i)
      else none
    else none
  | _ => none

/-- Takes out the first identity matrix with a summed index. -/
def splitDelta (ds : List Nat) : List TFac → Option ((Nat × Nat) × List TFac)
  | [] => none
  | f :: fs =>
    match bif Nat.beq f.1 (nat_lit 15) then deltaIxs ds f.2 else none with
    | some ij => some (ij, fs)
    | none =>
      match splitDelta ds fs with
      | none => none
      | some (ij, gs) => some (ij, f :: gs)

/-- `j` for `i`. -/
def replaceIx (i j x : Nat) : Nat := bif Nat.beq x i then j else x

def replaceFacs (i j : Nat) (fs : List TFac) : List TFac := mapL (fun f => (f.1, mapL (replaceIx i j) f.2)) fs

/-- Eliminates identity matrices, at most as many as the first argument says. -/
def elimDelta : Nat → TRaw → TRaw
  | 0, r => r
  | fuel + 1, (n, k, ds, fs) =>
    match splitDelta ds fs with
    | none => (n, k, ds, fs)
    | some ((i, j), gs) =>
      match removeNat i ds with
      | none => (n, k, ds, fs)
      | some ds' => elimDelta fuel (n, k, ds', replaceFacs i j gs)

/-- Canonical forms without identity matrices that have a summed index. -/
def canonDelta {σ : Type} (cn : TCanon σ) : TCanon σ := fun r st => cn (elimDelta r.2.2.2.length r) st

/-! ### Derivatives -/

/-- The product rule: `dm t` is the tensor of the changes of the tensor `t`. -/
def derivFacs (dm : Nat → Option Nat) : List TFac → List (List TFac)
  | [] => []
  | f :: fs =>
    match dm f.1 with
    | none => (derivFacs dm fs).map (f :: ·)
    | some dt => ((dt, f.2) :: fs) :: (derivFacs dm fs).map (f :: ·)

def derivRaws (dm : Nat → Option Nat) (p : TPoly) : List TRaw :=
  p.flatMap fun m => (derivFacs dm m.fs).map fun fs => (m.n, m.k, m.ds, fs)

def polyDeriv {σ : Type} (cn : TCanon σ) (dm : Nat → Option Nat) (p : TPoly) (st : σ) : Option (TPoly × σ) :=
  canonAll cn (derivRaws dm p) [] st

/-! ### Sums of products -/

/-- The values of names as polynomials. -/
abbrev TVals (σ : Type) := List Char → σ → Option (TVar × σ)

/-- `num / den` times the product of the elements of named arrays with labels. -/
structure ITerm where
  num : Int
  den : Nat
  ops : List (List Char × List Nat)

/-- An identity.  `sps` are the spaces of the labels and the labels below `nf` are the free ones.  The
derivative of the sum of `dterms`, plus the sum of `terms`, is zero. -/
structure Ident where
  sps : List Nat
  nf : Nat
  dterms : List ITerm
  terms : List ITerm

/-- The operands of a term. -/
def symOps {σ : Type} (vals : TVals σ) (sps : List Nat) :
    List (List Char × List Nat) → σ → Option (List (List Nat × TVar) × σ)
  | [], st => some ([], st)
  | (name, ls) :: l, st =>
    match vals name st with
    | none => none
    | some (v, st) =>
      bif eqNats v.1 (mapL (nthD 16 sps) ls) then
        match symOps vals sps l st with
        | none => none
        | some (r, st) => some ((ls, v) :: r, st)
      else none

/-- Adds terms to a polynomial. -/
def symITerms {σ : Type} (cn : TCanon σ) (vals : TVals σ) (sps : List Nat) (nf : Nat) :
    List ITerm → TPoly → σ → Option (TPoly × σ)
  | [], p, st => some (p, st)
  | t :: l, p, st =>
    match symOps vals sps t.ops st, convCoef t.num t.den with
    | some (vs, st), some c =>
      match symEinV cn vs (List.range nf) st with
      | none => none
      | some (w, st) =>
        bif eqNats w.1 (List.take nf sps) then
          forceSpine (insAll p (scalePoly c.1 c.2 w.2)) fun p => symITerms cn vals sps nf l p st
        else none
    | _, _ => none

/-- The identity holds. -/
def symIdent {σ : Type} (cn : TCanon σ) (vals : TVals σ) (dm : Nat → Option Nat) (rel : Ident) (st : σ) :
    Option σ :=
  match symITerms cn vals rel.sps rel.nf rel.dterms [] st with
  | none => none
  | some (p, st) =>
    match polyDeriv cn dm p st with
    | none => none
    | some (p, st) =>
      forceSpine p fun p =>
      match symITerms cn vals rel.sps rel.nf rel.terms p st with
      | some ([], st) => some st
      | _ => none

/-- All of them hold. -/
def symIdents {σ : Type} (cn : TCanon σ) (vals : TVals σ) (dm : Nat → Option Nat) : List Ident → σ → Bool
  | [], _ => true
  | rel :: l, st =>
    match symIdent cn vals dm rel st with
    | none => false
    | some st => symIdents cn vals dm l st

/-! ### Several functions -/

/-- Calls a function and goes on with its results. -/
def symThen {σ : Type} (f : GenFun) (cn : TCanon σ) (rho : Nat → Nat) (vals : TVals σ) (st : σ)
    (k : Dict (List Char) TVar → σ → Bool) : Bool :=
  match f.sym cn rho vals st with
  | none => false
  | some (r, st) => k r st

/-- Adds results to the named values: `tag :: name` is the result with the name. -/
def addRes {σ : Type} (tag : Char) (r : Dict (List Char) TVar) (vals : TVals σ) : TVals σ
  | [], st => vals [] st
  | c :: name, st =>
    bif c == tag then
      match r.get? name with
      | none => none
      | some v => some (v, st)
    else vals (c :: name) st

end

end Ebcc
