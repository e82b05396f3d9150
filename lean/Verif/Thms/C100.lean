import Verif.Model.Calc
import Verif.Thms.C97
/-!
C100: a calculation converted to another class has the total energy, the flags, the orbitals and the Fock matrix of the
original.  Energies and flags are proved (`C100_energy`).  Orbitals and the Fock matrix are proved for calculations that use
those of the mean field (`C100_orbitals_partial`) and refuted for calculations that were given `mo_coeff` or `fock`, which
are left out (`C100_orbitals_false`, `C100_fock_false`): then the converted amplitudes belong to other orbitals.
-/

namespace Ebcc

section
variable {R O F : Type}

/-- The mean-field object of a calculation is a Hartree-Fock object if the reference is, or is of another class. -/
theorem C100_mean_field [Zero R] (env : MfEnv R O) (getFock : MfObj R O → O → F) (spin : MfKind) (h : MfHeap R O) (a : Nat)
    (mo : Option O) (fock : Option F) (options : Nat)
    (hk : spin = .general → (h.get a).kind = .general → (h.get a).xc = false) :
    let r := calcInit env getFock spin h a mo fock options
    (r.1.get r.2.mf).xc = false := by
  cases spin with
  | restricted =>
    cases hx : (h.get a).xc <;>
      simp [calcInit, MfEnv.convertMf, hx, MfEnv.toKind, MfEnv.updateEnergy, MfHeap.alloc, MfHeap.set]
  | unrestricted => simp [calcInit, MfEnv.convertMf, MfEnv.toKind, MfHeap.alloc]
  | general =>
    by_cases hg : (h.get a).kind = .general
    · simp [calcInit, MfEnv.convertMf, hg, hk rfl hg]
    · cases hx : (h.get a).xc <;>
        simp [calcInit, MfEnv.convertMf, hg, hx, MfEnv.toKind, MfEnv.updateEnergy, MfHeap.alloc, MfHeap.set]

/-- The total energy, the correlation energy and the flags are those of the original, which is not changed. -/
theorem C100_energy [AddMonoid R] (env : MfEnv R O) (getFock : MfObj R O → O → F) (spin : MfKind) (h : MfHeap R O)
    (c : CalcObj R O F) (hc : c.mf < h.next) (hx : (h.get c.mf).xc = false) :
    let r := calcFrom env getFock spin h c
    r.2.eTot r.1 = c.eTot h ∧ r.2.eCorr = c.eCorr ∧ r.2.converged = c.converged ∧
      r.2.convergedLambda = c.convergedLambda ∧ c.eTot r.1 = c.eTot h ∧ c.orbitals r.1 = c.orbitals h := by
  have hobj := (C97_objects env spin h c.mf hc).1 c.mf hc
  have he : ((env.convertMf spin h c.mf).1.get (env.convertMf spin h c.mf).2).eTot = (h.get c.mf).eTot := by
    cases spin with
    | restricted => simp [MfEnv.convertMf, hx, MfEnv.toKind, MfHeap.alloc]
    | unrestricted => simp [MfEnv.convertMf, MfEnv.toKind, MfHeap.alloc]
    | general =>
      by_cases hg : (h.get c.mf).kind = .general
      · simp [MfEnv.convertMf, hg]
      · simp [MfEnv.convertMf, hg, hx, MfEnv.toKind, MfHeap.alloc]
  simp only [calcFrom, calcInit, CalcObj.eTot, CalcObj.orbitals]
  rw [he, hobj]
  exact ⟨rfl, trivial, trivial, trivial, rfl, rfl⟩

/-- Orbitals of the mean field are converted, and the Fock matrix is that of the new object and its orbitals; from
restricted to unrestricted, `spin`, and from unrestricted to general, through the form they have already. -/
theorem C100_orbitals_partial [Zero R] (env : MfEnv R O) (getFock : MfObj R O → O → F) (h : MfHeap R O) (c : CalcObj R O F)
    (hm : c.moCoeff = none) (hx : (h.get c.mf).xc = false) (hk : (h.get c.mf).kind ≠ .general) :
    let u := calcFrom env getFock .unrestricted h c
    let g := calcFrom env getFock .general h c
    (u.2.orbitals u.1 = env.convert .unrestricted (c.orbitals h) ∧ u.2.fock = getFock (u.1.get u.2.mf) (u.2.orbitals u.1)) ∧
      g.2.orbitals g.1 = env.convert .general (env.convert .unrestricted (c.orbitals h)) ∧
      g.2.fock = getFock (g.1.get g.2.mf) (g.2.orbitals g.1) := by
  simp [calcFrom, calcInit, CalcObj.orbitals, hm, MfEnv.convertMf, hx, hk, MfEnv.toKind, MfHeap.alloc]

/-- The converted calculation has the options object of the original: an option set in one is set in the other. -/
theorem C100_options [Zero R] {V : Type} (env : MfEnv R O) (getFock : MfObj R O → O → F) (spin : MfKind) (h : MfHeap R O)
    (c : CalcObj R O F) (opts : Nat → V) (v : V) :
    let r := calcFrom env getFock spin h c
    let opts' := fun a => if a = r.2.options then v else opts a
    opts' c.options = v := by
  simp [calcFrom, calcInit]

end

/-- A restricted Hartree-Fock object with orbitals `5`. -/
def heap100 : MfHeap Int Int := ⟨fun _ => ⟨.restricted, false, 5, 10⟩, 1⟩

/-- Orbitals given to a calculation are lost. -/
theorem C100_orbitals_false : ¬ ∀ (env : MfEnv Int Int) (getFock : MfObj Int Int → Int → Int) (h : MfHeap Int Int)
    (c : CalcObj Int Int Int), c.mf < h.next → (h.get c.mf).xc = false →
    let r := calcFrom env getFock .unrestricted h c
    r.2.orbitals r.1 = env.convert .unrestricted (c.orbitals h) := by
  intro h
  have := h env97 (fun _ o => o) heap100 ⟨0, some 6, 6, -1, true, false, 0⟩ (by decide) rfl
  revert this
  decide

/-- So is a Fock matrix. -/
theorem C100_fock_false : ¬ ∀ (env : MfEnv Int Int) (getFock : MfObj Int Int → Int → Int) (h : MfHeap Int Int) (a : Nat) (f : Int),
    a < h.next → (h.get a).xc = false →
    let c := calcInit env getFock .restricted h a none (some f) 0
    (calcFrom env getFock .unrestricted c.1 c.2).2.fock = c.2.fock := by
  intro h
  have := h env97 (fun _ o => o) heap100 0 7 (by decide) rfl
  revert this
  decide

example : (calcFrom env97 (fun _ o => o) .unrestricted heap100 ⟨0, some 6, 6, -1, true, false, 0⟩).2.eTot
    (calcFrom env97 (fun _ o => o) .unrestricted heap100 ⟨0, some 6, 6, -1, true, false, 0⟩).1 = 9 := by decide

end Ebcc
