import Verif.Model.Py
import Mathlib.Algebra.Order.Group.Abs
/-!
Model of the mean-field objects of a calculation: `_convert_mf` of the three classes, total energies, and the energies
in the iterations of `BaseBruecknerEBCC.kernel`.  Objects live on a heap, since the code shares them.
-/

namespace Ebcc

/-- The class of a mean-field object, and of a calculation. -/
inductive MfKind
  | restricted
  | unrestricted
  | general
  deriving DecidableEq

/-- A mean-field object of PySCF: its class (Hartree-Fock or Kohn-Sham by the attribute `xc`), orbitals with their
occupations, and `e_tot`. -/
structure MfObj (R O : Type) where
  kind : MfKind
  xc : Bool
  orbitals : O
  eTot : R

/-- Objects by their addresses; `next` is the first address that is not used. -/
structure MfHeap (R O : Type) where
  get : Nat → MfObj R O
  next : Nat

variable {R O : Type}

def MfHeap.set (h : MfHeap R O) (a : Nat) (m : MfObj R O) : MfHeap R O :=
  { h with get := fun b => if b = a then m else h.get b }

def MfHeap.alloc (h : MfHeap R O) (m : MfObj R O) : MfHeap R O × Nat :=
  (⟨fun b => if b = h.next then m else h.get b, h.next + 1⟩, h.next)

/-- What PySCF supplies. -/
structure MfEnv (R O : Type) where
  /-- orbitals in the form of another class -/
  convert : MfKind → O → O
  /-- `energy_tot()`, by whether the object has a functional -/
  energyTot : Bool → O → R

/-- `mf.to_rhf()`, `mf.to_uhf()`, `mf.to_ghf()` of PySCF: a new Hartree-Fock object with the same wave function and the
same `e_tot` ("this conversion only changes the class of the mean-field object"). -/
def MfEnv.toKind (env : MfEnv R O) (k : MfKind) (h : MfHeap R O) (a : Nat) : MfHeap R O × Nat :=
  let m := h.get a
  h.alloc { kind := k, xc := false, orbitals := env.convert k m.orbitals, eTot := m.eTot }

/-- `hf.e_tot = hf.energy_tot()`. -/
def MfEnv.updateEnergy (env : MfEnv R O) (h : MfHeap R O) (a : Nat) : MfHeap R O :=
  let m := h.get a
  h.set a { m with eTot := env.energyTot m.xc m.orbitals }

/-- `_convert_mf`: rebcc.py:96-102; uebcc.py:98-105, where the lines after the first `return` are never reached;
gebcc.py:97-109 (Kohn-Sham objects with general orbitals are instances of `GHF` too). -/
def MfEnv.convertMf (env : MfEnv R O) (spin : MfKind) (h : MfHeap R O) (a : Nat) : MfHeap R O × Nat :=
  match spin with
  | .restricted =>
    let r := env.toKind .restricted h a
    if (h.get a).xc then (env.updateEnergy r.1 r.2, r.2) else r
  | .unrestricted => env.toKind .unrestricted h a
  | .general =>
    if (h.get a).kind = .general then (h, a)
    else
      let u := env.toKind .unrestricted h a
      let g := env.toKind .general u.1 u.2
      if (h.get a).xc then (env.updateEnergy g.1 g.2, g.2) else g

/-- What the Brueckner iterations work with: the heap, the addresses of `self.mf` and `self.cc.mf`, and
`self.cc.e_corr`. -/
structure BruecknerMf (R O : Type) where
  heap : MfHeap R O
  selfMf : Nat
  ccMf : Nat
  eCorr : R

/-- cc/base.py:1078-1086 `e_tot` of `self.cc`. -/
def BruecknerMf.ccTot [Add R] (s : BruecknerMf R O) : R := (s.heap.get s.ccMf).eTot + s.eCorr

/-- cc/base.py:141 and opt/base.py:87: a calculation for the mean-field object at `a`, with correlation energy `e`
after its `kernel`, and a Brueckner object for it. -/
def bruecknerMfInit (env : MfEnv R O) (spin : MfKind) (h : MfHeap R O) (a : Nat) (e : R) : BruecknerMf R O :=
  let r := env.convertMf spin h a
  ⟨r.1, r.2, r.2, e⟩

/-- opt/base.py:157-183, one iteration: new orbitals `o` for `self.mf` with their energy, `e_prev`, the calculation
initialised again with `self.mf` and run, giving the correlation energy `e`; and `de`. -/
def bruecknerMfStep [AddCommGroup R] [LinearOrder R] (env : MfEnv R O) (spin : MfKind) (o : O) (e : R)
    (s : BruecknerMf R O) : BruecknerMf R O × R :=
  let m := s.heap.get s.selfMf
  let h := env.updateEnergy (s.heap.set s.selfMf { m with orbitals := o }) s.selfMf
  let ePrev := ({ s with heap := h } : BruecknerMf R O).ccTot
  let r := env.convertMf spin h s.selfMf
  let s' : BruecknerMf R O := ⟨r.1, s.selfMf, r.2, e⟩
  (s', |ePrev - s'.ccTot|)

/-- The iterations, with the orbitals and correlation energies they come to; the values of `de` are collected. -/
def bruecknerMfRun [AddCommGroup R] [LinearOrder R] (env : MfEnv R O) (spin : MfKind) :
    List (O × R) → BruecknerMf R O → BruecknerMf R O × List R
  | [], s => (s, [])
  | (o, e) :: l, s =>
    let r := bruecknerMfStep env spin o e s
    let t := bruecknerMfRun env spin l r.1
    (t.1, r.2 :: t.2)

end Ebcc
