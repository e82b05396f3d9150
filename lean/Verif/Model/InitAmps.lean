import Verif.Model.Amps

/-!
Model of the initial amplitudes: `init_amps` (`ebcc/cc/rebcc.py` 142-187, `ebcc/cc/gebcc.py` 385-429,
`ebcc/cc/uebcc.py` 234-301) and `init_lams` (`rebcc.py` 189-223, `gebcc.py` 431-465 with the same text, `uebcc.py`
303-341).

Integral blocks are given by functions of their key (`self.fock[key]`, `eris[key]`, `self.g[key]`); see the models
of the integral containers for what these return.  Divisions as in `Verif.Model.Amps`.
-/

namespace Ebcc

section
variable {R : Type}

/-- What `init_amps` reads.  `energy key` is `self.energy_sum(key)`. -/
structure InitEnv (R : Type) where
  fock : List Char → Except PyErr (NDArray R)
  eris : List Char → Except PyErr (NDArray R)
  omega : Option (NDArray R)
  G : Option (NDArray R)
  g : Option (List Char → Except PyErr (NDArray R))
  size : Char → Except PyErr Nat
  energy : List Char → Except PyErr (NDArray R)

/-- base.py:1067-1076 `nbos`; `omega` without axes raises `IndexError`. -/
def nbosOf (omega : Option (NDArray R)) : Except PyErr Nat :=
  match omega with
  | none => .ok 0
  | some w =>
    match w.shape with
    | n :: _ => .ok n
    | [] => .error .indexError

/-- `amplitudes[name] = value` for every element of a list. -/
def initLoop {α V : Type} (name : α → List Char) (item : α → Except PyErr V) (l : List α) (d : Dict (List Char) V) :
    Except PyErr (Dict (List Char) V) :=
  l.foldlM (fun d r => do
    let x ← item r
    pure (d.set (name r) x)) d

/-- `key[0] + key[2] + key[1] + key[3]`; further characters are dropped. -/
def chemKey : List Char → Except PyErr (List Char)
  | k0 :: k1 :: k2 :: k3 :: _ => .ok [k0, k2, k1, k3]
  | _ => .error .indexError

/-- rebcc.py:156-163: one fermionic amplitude. -/
def rInitFermion [Field R] (env : InitEnv R) (r : Rank) : Except PyErr (NDArray R) :=
  if r.2.2 = 1 then do
    let f ← env.fock r.2.1
    let e ← env.energy r.2.1
    f.div e
  else if r.2.2 = 2 then do
    let kt ← chemKey r.2.1
    let v ← env.eris kt
    let vt ← v.transpose [0, 2, 1, 3]
    let e ← env.energy r.2.1
    vt.div e
  else do
    let shape ← r.2.1.mapM env.size
    pure (NDArray.zeros shape)

/-- gebcc.py:399-405: one fermionic amplitude. -/
def gInitFermion [Field R] (env : InitEnv R) (r : Rank) : Except PyErr (NDArray R) :=
  if r.2.2 = 1 then do
    let f ← env.fock r.2.1
    let e ← env.energy r.2.1
    f.div e
  else if r.2.2 = 2 then do
    let v ← env.eris r.2.1
    let e ← env.energy r.2.1
    v.div e
  else do
    let shape ← r.2.1.mapM env.size
    pure (NDArray.zeros shape)

/-- rebcc.py:167-173, gebcc.py:409-415, uebcc.py:268-274: one bosonic amplitude. -/
def initBoson [Field R] (omega G : Option (NDArray R)) (r : Rank) : Except PyErr (NDArray R) :=
  match omega, G with
  | some w, some g =>
    if r.2.2 = 1 then (g.map fun x => -x).div w
    else do
      let nbos ← nbosOf (some w)
      pure (NDArray.zeros (List.replicate r.2.2 nbos))
  | _, _ => .error .valueError

/-- rebcc.py:177-185, gebcc.py:419-427: one coupled amplitude.  `first` is the value of the test that selects the
first order amplitude. -/
def initCoupling [Field R] (env : InitEnv R) (first : Except PyErr Bool) (r : List Char × List Char × Nat × Nat) :
    Except PyErr (NDArray R) :=
  match env.omega, env.g with
  | some w, some g => do
    if r.2.2.1 ≠ 1 then throw PyErr.modelNotImplemented
    let b ← first
    if b then do
      let x ← g r.2.1
      let e ← env.energy r.2.1
      x.div e
    else do
      let nbos ← nbosOf (some w)
      let sizes ← (r.2.1.drop r.2.2.2).mapM env.size
      pure (NDArray.zeros (List.replicate r.2.2.2 nbos ++ sizes))
  | _, _ => .error .valueError

/-- rebcc.py:142-187 `init_amps`. -/
def rInitAmps [Field R] (a : Ansatz) (env : InitEnv R) : Except PyErr (Dict (List Char) (NDArray R)) := do
  let fs ← fermionicClusterRanks a.fermionAnsatz .R .t
  let d ← initLoop (fun r => r.1) (rInitFermion env) fs []
  let bs ← bosonicClusterRanks a.bosonAnsatz .t
  let d ← initLoop (fun r => r.1) (initBoson env.omega env.G) bs d
  let cs ← couplingClusterRanks a.fermionCouplingRank a.bosonCouplingRank .t
  initLoop (fun r => r.1) (fun r => initCoupling env (.ok (decide (r.2.2.2 = 1))) r) cs d

/-- The value of the loop variable `n` after the loops over `fs` and `bs`. -/
def staleN (fs bs : List Rank) : Option Nat :=
  match bs.getLast? with
  | some r => some r.2.2
  | none => fs.getLast?.map fun r => r.2.2

/-- gebcc.py:423 `n == 1`: the variable of the earlier loops (`UnboundLocalError`, a `NameError`, if there was no
iteration). -/
def staleTest (fs bs : List Rank) : Except PyErr Bool :=
  match staleN fs bs with
  | some n => .ok (decide (n = 1))
  | none => .error .nameError

/-- gebcc.py:385-429 `init_amps`. -/
def gInitAmps [Field R] (a : Ansatz) (env : InitEnv R) : Except PyErr (Dict (List Char) (NDArray R)) := do
  let fs ← fermionicClusterRanks a.fermionAnsatz .G .t
  let d ← initLoop (fun r => r.1) (gInitFermion env) fs []
  let bs ← bosonicClusterRanks a.bosonAnsatz .t
  let d ← initLoop (fun r => r.1) (initBoson env.omega env.G) bs d
  let cs ← couplingClusterRanks a.fermionCouplingRank a.bosonCouplingRank .t
  initLoop (fun r => r.1) (fun r => initCoupling env (staleTest fs bs) r) cs d

/-! ### Unrestricted -/

/-- What the unrestricted `init_amps` reads; the first argument is the spin. -/
structure UInitEnv (R : Type) where
  fock : List Char → List Char → Except PyErr (NDArray R)
  eris : List Char → List Char → Except PyErr (NDArray R)
  omega : Option (NDArray R)
  G : Option (NDArray R)
  g : Option (List Char → List Char → Except PyErr (NDArray R))
  size : Char → Char → Except PyErr Nat
  /-- `self.energy_sum(key, spins)`, the key first -/
  energy : List Char → List Char → Except PyErr (NDArray R)

/-- uebcc.py:250-263: one spin block. -/
def uInitBlock [Field R] (env : UInitEnv R) (r : Rank) (comb : List Char) : Except PyErr (NDArray R) :=
  if r.2.2 = 1 then do
    let f ← env.fock comb r.2.1
    let e ← env.energy r.2.1 comb
    f.div e
  else if r.2.2 = 2 then do
    let ct ← chemKey comb
    let kt ← chemKey r.2.1
    let v ← env.eris ct kt
    let vt ← v.transpose [0, 2, 1, 3]
    let e ← env.energy r.2.1 comb
    let t ← vt.div e
    if comb = "aaaa".toList ∨ comb = "bbbb".toList then do
      let tt ← t.transpose [1, 0, 2, 3]
      let d ← t.add (tt.map fun x => -x)
      pure (d.map fun x => x * 2⁻¹)
    else pure t
  else do
    let shape ← (comb.zip r.2.1).mapM fun p => env.size p.1 p.2
    pure (NDArray.zeros shape)

/-- uebcc.py:248-264: one rank.  A namespace filled in the order of the combinations. -/
def uInitFermion [Field R] (env : UInitEnv R) (r : Rank) : Except PyErr (UVal R) := do
  let d ← initLoop id (uInitBlock env r) (generateSpinCombinations r.2.2 false true) []
  pure (.spins d)

/-- uebcc.py:278-299: one coupled amplitude. -/
def uInitCoupling [Field R] (env : UInitEnv R) (r : List Char × List Char × Nat × Nat) : Except PyErr (UVal R) :=
  match env.omega, env.g with
  | some w, some g => do
    if r.2.2.1 ≠ 1 then throw PyErr.modelNotImplemented
    if r.2.2.2 = 1 then do
      let xa ← g ['a', 'a'] r.2.1
      let ea ← env.energy r.2.1 "_aa".toList
      let ta ← xa.div ea
      let xb ← g ['b', 'b'] r.2.1
      let eb ← env.energy r.2.1 "_aa".toList
      let tb ← xb.div eb
      pure (.spins [(['a', 'a'], ta), (['b', 'b'], tb)])
    else do
      let nbos ← nbosOf (some w)
      let sizes ← (r.2.1.drop r.2.2.2).mapM (env.size 'a')
      let z := NDArray.zeros (List.replicate r.2.2.2 nbos ++ sizes)
      pure (.spins [(['a', 'a'], z), (['b', 'b'], z)])
  | _, _ => .error .valueError

/-- uebcc.py:234-301 `init_amps`. -/
def uInitAmps [Field R] (a : Ansatz) (env : UInitEnv R) : Except PyErr (Dict (List Char) (UVal R)) := do
  let fs ← fermionicClusterRanks a.fermionAnsatz .U .t
  let d ← initLoop (fun r => r.1) (uInitFermion env) fs []
  let bs ← bosonicClusterRanks a.bosonAnsatz .t
  let d ← initLoop (fun r => r.1) (fun r => (initBoson env.omega env.G r).map UVal.array) bs d
  let cs ← couplingClusterRanks a.fermionCouplingRank a.bosonCouplingRank .t
  initLoop (fun r => r.1) (uInitCoupling env) cs d

/-! ### Lambda amplitudes -/

/-- `name.replace("t", "l")`. -/
def lname (name : List Char) : List Char := name.map fun c => if c = 't' then 'l' else c

/-- `list(range(n, 2 * n)) + list(range(n))`. -/
def lamPerm (n : Nat) : List Nat := (List.range n).map (fun i => i + n) ++ List.range n

/-- `list(range(nb)) + [nb + 1, nb]`. -/
def lamPermC (nb : Nat) : List Nat := List.range nb ++ [nb + 1, nb]

/-- rebcc.py:189-223, gebcc.py:431-465 `init_lams` for given amplitudes. -/
def initLams [Zero R] (a : Ansatz) (spin : SpinType) (amps : Dict (List Char) (NDArray R)) :
    Except PyErr (Dict (List Char) (NDArray R)) := do
  let fs ← fermionicClusterRanks a.fermionAnsatz spin .t
  let d ← initLoop (fun r => lname r.1) (fun r : Rank => do
    let t ← amps.getItem r.1
    t.transpose (lamPerm r.2.2)) fs []
  let bs ← bosonicClusterRanks a.bosonAnsatz .t
  let d ← initLoop (fun r => 'l' :: r.1) (fun r : Rank => amps.getItem r.1) bs d
  let cs ← couplingClusterRanks a.fermionCouplingRank a.bosonCouplingRank .t
  initLoop (fun r => 'l' :: r.1) (fun r : List Char × List Char × Nat × Nat => do
    if r.2.2.1 ≠ 1 then throw PyErr.modelNotImplemented
    let t ← amps.getItem r.1
    t.transpose (lamPermC r.2.2.2)) cs d

/-- uebcc.py:317-322, 335-339: every block of a namespace transposed. -/
def uTransposeAll [Zero R] (v : UVal R) (perm : List Nat) : Except PyErr (UVal R) :=
  match v with
  | .array _ => .error .typeError
  | .spins d => do
    let d' ← initLoop (fun p => p.1) (fun p : List Char × NDArray R => p.2.transpose perm) d []
    pure (.spins d')

/-- uebcc.py:303-341 `init_lams` for given amplitudes. -/
def uInitLams [Zero R] (a : Ansatz) (amps : Dict (List Char) (UVal R)) :
    Except PyErr (Dict (List Char) (UVal R)) := do
  let fs ← fermionicClusterRanks a.fermionAnsatz .U .t
  let d ← initLoop (fun r => lname r.1) (fun r : Rank => do
    let t ← amps.getItem r.1
    uTransposeAll t (lamPerm r.2.2)) fs []
  let bs ← bosonicClusterRanks a.bosonAnsatz .t
  let d ← initLoop (fun r => 'l' :: r.1) (fun r : Rank => amps.getItem r.1) bs d
  let cs ← couplingClusterRanks a.fermionCouplingRank a.bosonCouplingRank .t
  initLoop (fun r => 'l' :: r.1) (fun r : List Char × List Char × Nat × Nat => do
    if r.2.2.1 ≠ 1 then throw PyErr.modelNotImplemented
    let t ← amps.getItem r.1
    uTransposeAll t (lamPermC r.2.2.2)) cs d

end

end Ebcc
