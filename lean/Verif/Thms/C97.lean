import Verif.Model.MeanField
import Mathlib.Algebra.Order.Ring.Int
/-!
C97: total energies are relative to the Hartree-Fock energy of the reference, also if the reference is a Kohn-Sham
calculation.  Proved for the restricted class (`C97_restricted`), for the general class unless the reference has general
orbitals and a functional (`C97_general_partial`), and for the unrestricted class with Hartree-Fock references
(`C97_unrestricted_partial`).  Refuted for the unrestricted class with Kohn-Sham references (`C97_unrestricted_false`):
`_convert_mf` returns before the lines that calculate the energy.
-/

namespace Ebcc

section
variable {R O : Type}

/-- What PySCF's objects satisfy: a Hartree-Fock object has the energy of its orbitals (nothing is assumed of Kohn-Sham
objects), and the same orbitals in the form of another class have the same Hartree-Fock energy. -/
structure MfFacts97 (env : MfEnv R O) (m : MfObj R O) : Prop where
  consistent : m.xc = false → m.eTot = env.energyTot false m.orbitals
  same : ∀ k o, env.energyTot false (env.convert k o) = env.energyTot false o

/-- `e_tot` of the object at `a` is its Hartree-Fock energy and that of the orbitals `o`. -/
def HasHFEnergy97 (env : MfEnv R O) (o : O) (r : MfHeap R O × Nat) : Prop :=
  (r.1.get r.2).eTot = env.energyTot false (r.1.get r.2).orbitals ∧ (r.1.get r.2).eTot = env.energyTot false o

theorem C97_restricted (env : MfEnv R O) (h : MfHeap R O) (a : Nat) (hf : MfFacts97 env (h.get a)) :
    HasHFEnergy97 env (h.get a).orbitals (env.convertMf .restricted h a) := by
  obtain ⟨h1, h2⟩ := hf
  unfold HasHFEnergy97
  cases hx : (h.get a).xc with
  | true => simp [MfEnv.convertMf, hx, MfEnv.toKind, MfEnv.updateEnergy, MfHeap.alloc, MfHeap.set, h2]
  | false => simp [MfEnv.convertMf, hx, MfEnv.toKind, MfHeap.alloc, h2, h1 hx]

theorem C97_general_partial (env : MfEnv R O) (h : MfHeap R O) (a : Nat) (hf : MfFacts97 env (h.get a))
    (hk : (h.get a).kind = .general → (h.get a).xc = false) :
    HasHFEnergy97 env (h.get a).orbitals (env.convertMf .general h a) := by
  obtain ⟨h1, h2⟩ := hf
  unfold HasHFEnergy97
  by_cases hg : (h.get a).kind = .general
  · simp [MfEnv.convertMf, hg, h1 (hk hg)]
  · cases hx : (h.get a).xc with
    | true => simp [MfEnv.convertMf, hg, hx, MfEnv.toKind, MfEnv.updateEnergy, MfHeap.alloc, MfHeap.set, h2]
    | false => simp [MfEnv.convertMf, hg, hx, MfEnv.toKind, MfHeap.alloc, h2, h1 hx]

theorem C97_unrestricted_partial (env : MfEnv R O) (h : MfHeap R O) (a : Nat) (hf : MfFacts97 env (h.get a))
    (hx : (h.get a).xc = false) : HasHFEnergy97 env (h.get a).orbitals (env.convertMf .unrestricted h a) := by
  obtain ⟨h1, h2⟩ := hf
  unfold HasHFEnergy97
  simp [MfEnv.convertMf, MfEnv.toKind, MfHeap.alloc, h2, h1 hx]

/-- In the unrestricted class `e_tot` is that of the reference, whatever it is: a Hartree-Fock object with the energy of a
Kohn-Sham calculation. -/
theorem C97_unrestricted_reference (env : MfEnv R O) (h : MfHeap R O) (a : Nat) :
    let r := env.convertMf .unrestricted h a
    (r.1.get r.2).eTot = (h.get a).eTot ∧ (r.1.get r.2).xc = false := by
  simp [MfEnv.convertMf, MfEnv.toKind, MfHeap.alloc]

/-- An unrestricted calculation for the reference itself, and one for the mean-field object of a restricted calculation
(as `from_rebcc` makes it), have total energies that differ by the energy of the functional minus that of Hartree-Fock. -/
theorem C97_two_ways [AddCommGroup R] (env : MfEnv R O) (h : MfHeap R O) (a : Nat) (hf : MfFacts97 env (h.get a)) (eCorr : R) :
    let u := env.convertMf .unrestricted h a
    let r := env.convertMf .restricted h a
    let ru := env.convertMf .unrestricted r.1 r.2
    ((u.1.get u.2).eTot + eCorr) - ((ru.1.get ru.2).eTot + eCorr) = (h.get a).eTot - env.energyTot false (h.get a).orbitals := by
  simp only
  rw [(C97_unrestricted_reference env h a).1, (C97_unrestricted_reference env _ _).1, (C97_restricted env h a hf).2]
  exact add_sub_add_right_eq_sub _ _ _

/-- The reference is not changed, and no other object; the calculation has an object of its own, except in the general
class with a reference of that class, which is used itself. -/
theorem C97_objects (env : MfEnv R O) (spin : MfKind) (h : MfHeap R O) (a : Nat) (ha : a < h.next) :
    (∀ b < h.next, (env.convertMf spin h a).1.get b = h.get b) ∧
      ((env.convertMf spin h a).2 < h.next ↔ spin = .general ∧ (h.get a).kind = .general) ∧
      ((env.convertMf spin h a).2 < h.next → (env.convertMf spin h a).2 = a) ∧
      ((env.convertMf spin h a).1.get (env.convertMf spin h a).2).kind = spin := by
  have hne : ∀ b < h.next, b ≠ h.next ∧ b ≠ h.next + 1 := fun b hb => by omega
  cases spin with
  | restricted =>
    cases hx : (h.get a).xc <;>
      simp only [MfEnv.convertMf, hx, MfEnv.toKind, MfEnv.updateEnergy, MfHeap.alloc, MfHeap.set, if_true, if_false,
        Bool.false_eq_true] <;>
      exact ⟨fun b hb => by simp [(hne b hb).1], by simp, by simp, by simp⟩
  | unrestricted =>
    simp only [MfEnv.convertMf, MfEnv.toKind, MfHeap.alloc]
    exact ⟨fun b hb => by simp [(hne b hb).1], by simp, by simp, by simp⟩
  | general =>
    by_cases hg : (h.get a).kind = .general
    · simp only [MfEnv.convertMf, if_pos hg]
      exact ⟨fun _ _ => by trivial, by simp [ha, hg], fun _ => by trivial, hg⟩
    · cases hx : (h.get a).xc <;>
        simp only [MfEnv.convertMf, if_neg hg, hx, MfEnv.toKind, MfEnv.updateEnergy, MfHeap.alloc, MfHeap.set, if_true, if_false,
          Bool.false_eq_true] <;>
        exact ⟨fun b hb => by simp [(hne b hb).1, (hne b hb).2], by simp [hg], by simp, by simp⟩

end

/-- Orbitals are a number, the Hartree-Fock energy is twice that, that of the functional is three times. -/
def env97 : MfEnv Int Int := ⟨fun _ o => o, fun xc o => if xc then 3 * o else 2 * o⟩

/-- A heap with a restricted Kohn-Sham object. -/
def heap97 (k : MfKind) : MfHeap Int Int := ⟨fun _ => ⟨k, true, 5, 15⟩, 1⟩

theorem facts97 (k : MfKind) : MfFacts97 env97 ((heap97 k).get 0) := ⟨(fun h => by cases h), fun _ _ => rfl⟩

/-- The property for unrestricted calculations is false. -/
theorem C97_unrestricted_false : ¬ ∀ (env : MfEnv Int Int) (h : MfHeap Int Int) (a : Nat), MfFacts97 env (h.get a) →
    HasHFEnergy97 env (h.get a).orbitals (env.convertMf .unrestricted h a) := by
  intro h
  have := (h env97 (heap97 .restricted) 0 (facts97 _)).2
  revert this
  decide

/-- Also for references with general orbitals and a functional. -/
theorem C97_general_false : ¬ ∀ (env : MfEnv Int Int) (h : MfHeap Int Int) (a : Nat), MfFacts97 env (h.get a) →
    HasHFEnergy97 env (h.get a).orbitals (env.convertMf .general h a) := by
  intro h
  have := (h env97 (heap97 .general) 0 (facts97 _)).2
  revert this
  decide

example : (((env97.convertMf .restricted (heap97 .restricted) 0).1.get 1).eTot,
    ((env97.convertMf .unrestricted (heap97 .restricted) 0).1.get 1).eTot,
    ((env97.convertMf .general (heap97 .restricted) 0).1.get 2).eTot) = (10, 15, 10) := by decide

end Ebcc
