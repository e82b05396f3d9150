import Verif.Tensor.IdentitySound
/-!
Several calls of generated functions, and identities between their results and arguments.
-/

namespace Ebcc

/-- A call: the function, the tag of the names of its results, and for each argument the name of its value. -/
structure TCall where
  f : GenFun
  tag : Char
  arg : List Char → List Char

noncomputable section

/-- Makes calls one after the other; goes on with all values. -/
def symCalls {σ : Type} (cn : TCanon σ) (rho : Nat → Nat) :
    List TCall → TVals σ → σ → (TVals σ → σ → Bool) → Bool
  | [], vals, st, k => k vals st
  | c :: l, vals, st, k =>
    symThen c.f cn rho (fun name => vals (c.arg name)) st fun r st => symCalls cn rho l (addRes c.tag r vals) st k

/-- Calls, and identities. -/
def checkClaim (sy : TSym) (hints : List Nat) (rho : Nat → Nat) (vals : List Char → Option TArg) (calls : List TCall)
    (dm : Nat → Option Nat) (rels : List Ident) : Bool :=
  symCalls (canonDelta (canonByHints sy)) rho calls (baseVals (canonDelta (canonByHints sy)) vals) hints
    fun vals st => symIdents (canonDelta (canonByHints sy)) vals dm rels st

end

section
variable {R : Type} [Field R] {ι : Type}

/-- The calls return results; `P` holds for all values then.  There are values for each element of `ι`. -/
def CallsOk [DecidableEq R] (method : ContractMethod)
    (path : List (List Char) → List Char → List (NDArray R) → List Contraction) (sizes : Nat → Nat) :
    List TCall → (ι → List Char → Option (NDArray R)) → ((ι → List Char → Option (NDArray R)) → Prop) → Prop
  | [], av, P => P av
  | c :: l, av, P => ∃ r : ι → Dict (List Char) (NDArray R),
      (∀ x, c.f.call method path sizes (fun name => av x (c.arg name)) = .ok (r x)) ∧
        CallsOk method path sizes l (fun x => addResA c.tag (r x) (av x)) P

theorem symCalls_sound [CharZero R] [DecidableEq R] {σ : Type} (sz : Nat → Nat)
    (T : ι → Nat → List (Nat × Nat) → R)
    (cn : TCanon σ) (hcn : ∀ x, CanonOk sz (T x) cn) (method : ContractMethod)
    (path : List (List Char) → List Char → List (NDArray R) → List Contraction) (hpath : PathOk path)
    (sizes rho : Nat → Nat) (hsizes : ∀ s, sizes s = sz (rho s)) (calls : List TCall) (vals : TVals σ)
    (av : ι → List Char → Option (NDArray R)) (hvals : ∀ x, ValsRep sz (T x) vals (av x)) (st : σ)
    (k : TVals σ → σ → Bool) (h : symCalls cn rho calls vals st k = true) :
    CallsOk method path sizes calls av fun av' =>
      ∃ vals' st', (∀ x, ValsRep sz (T x) vals' (av' x)) ∧ k vals' st' = true := by
  induction calls generalizing vals av st with
  | nil => exact ⟨vals, st, hvals, h⟩
  | cons c l ih =>
    simp only [symCalls, symThen] at h
    cases h1 : c.f.sym cn rho (fun name => vals (c.arg name)) st with
    | none => rw [h1] at h; cases h
    | some y =>
      obtain ⟨r, st1⟩ := y
      rw [h1] at h
      simp only at h
      have := fun x => GenFun.sym_sound sz (T x) cn (hcn x) method path hpath sizes rho hsizes _ _
        (comp_rep (hvals x) c.arg) c.f st r st1 h1
      choose ra r1 r2 using this
      exact ⟨ra, r1, ih _ _ (fun x => addRes_rep (hvals x) c.tag (r2 x)) st1 h⟩

theorem CallsOk.imp [DecidableEq R] {method : ContractMethod}
    {path : List (List Char) → List Char → List (NDArray R) → List Contraction} {sizes : Nat → Nat}
    {calls : List TCall} {av : ι → List Char → Option (NDArray R)}
    {P Q : (ι → List Char → Option (NDArray R)) → Prop} (h : CallsOk method path sizes calls av P)
    (hPQ : ∀ av, P av → Q av) : CallsOk method path sizes calls av Q := by
  induction calls generalizing av with
  | nil => exact hPQ _ h
  | cons c l ih =>
    obtain ⟨r, h1, h2⟩ := h
    exact ⟨r, h1, ih h2⟩

/-- The identities without derivatives hold. -/
theorem checkClaim_sound [CharZero R] [DecidableEq R] (sz : Nat → Nat) (T : ι → Nat → List (Nat × Nat) → R)
    (sy : TSym) (hsy : ∀ x, SymOk (T x) sy) (method : ContractMethod)
    (path : List (List Char) → List Char → List (NDArray R) → List Contraction) (hpath : PathOk path)
    (sizes rho : Nat → Nat) (hsizes : ∀ s, sizes s = sz (rho s)) (vals : List Char → Option TArg)
    (av : ι → List Char → Option (NDArray R))
    (hvals : ∀ x name v, vals name = some v → ∃ a, av x name = some a ∧ ArgRep sz (T x) v a)
    (calls : List TCall) (dm : Nat → Option Nat) (rels : List Ident) (hints : List Nat)
    (h : checkClaim sy hints rho vals calls dm rels = true) :
    CallsOk method path sizes calls av fun av' => ∀ x, ∀ rel ∈ rels, rel.dterms = [] →
      (∀ t ∈ rel.terms, t.Ok sz rel.sps (av' x)) ∧ ∀ idx, InBox ((rel.sps.take rel.nf).map sz) idx →
        (rel.terms.map fun t => t.val sz rel.sps rel.nf (av' x) idx).sum = 0 := by
  have hcn := fun x => canonDelta_sound sz (T x) _ (canonByHints_sound sz (T x) sy (hsy x))
  refine (symCalls_sound sz T _ hcn method path hpath sizes rho hsizes calls _ av
    (fun x => baseVals_rep sz (T x) _ (hcn x) vals (av x) (hvals x)) hints _ h).imp ?_
  rintro av' ⟨vals', st', hv, hk⟩ x
  exact symIdents_sound sz (T x) _ (hcn x) vals' (av' x) (hv x) dm rels st' hk

end
end Ebcc
