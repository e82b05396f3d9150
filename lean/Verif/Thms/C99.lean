import Verif.Model.Logging
/-!
C99: the header with the versions is logged by the first calculation and by no later one, and making a calculation does not
depend on `git`.  The first part is proved for any sequence of calls (`C99_once`, `C99_first`); if the first logger is
silent the header is never logged (`C99_silent`).  The second is false: without the program `git` no calculation can be
made (`C99_git_false`, `C99_git_missing`), proved otherwise (`C99_no_exception_partial`).
-/

namespace Ebcc

/-- What a logger of level 20 gets. -/
def header99 (git : List Char → Option (List Char)) : List LogMsg :=
  .header :: (["numpy".toList, "pyscf".toList, "ebcc".toList].flatMap fun n => [.package n, .version n, .gitHash n (git n)]) ++
    [.threads]

/-- The hash that is shown. -/
def shown99 : GitResult → Option (List Char)
  | .hash h => some h
  | _ => none

theorem git99 (g : GitResult) (h : g ≠ .missing) : getGitHash g = .ok (shown99 g) := by
  cases g with
  | hash _ => rfl
  | failed => rfl
  | missing => exact absurd rfl h

/-- Nothing is logged once the header has been, and nothing raised. -/
theorem C99_later (calls : List ((List Char → GitResult) × PyLogger)) :
    initLoggings calls true = (true, calls.map fun _ => ([], none)) := by
  induction calls with
  | nil => rfl
  | cons c calls ih => simp [initLoggings, initLogging, ih]

/-- If `git` exists, whether or not it finds a repository, a call does not raise and later ones log nothing, whatever their
loggers. -/
theorem C99_no_exception_partial (git : List Char → GitResult) (hg : ∀ n, git n ≠ .missing) (done : Bool) (l : PyLogger) :
    (initLogging git done l).2.2 = none ∧ (initLogging git done l).1 = true := by
  cases done with
  | true => exact ⟨rfl, rfl⟩
  | false => simp [initLogging, logPackages, logPackage, git99 _ (hg _)]

theorem C99_once (git : List Char → GitResult) (hg : ∀ n, git n ≠ .missing) (l : PyLogger)
    (calls : List ((List Char → GitResult) × PyLogger)) :
    (initLoggings ((git, l) :: calls) false).2 = (initLogging git false l).2 :: calls.map fun _ => ([], none) := by
  simp only [initLoggings]
  rw [(C99_no_exception_partial git hg false l).2, C99_later]

/-- The first call logs the header, the versions and hashes of the three packages and the number of threads. -/
theorem C99_first (git : List Char → GitResult) (hg : ∀ n, git n ≠ .missing) (l : PyLogger) (h1 : 10 < l.level) (h2 : l.level ≤ 20)
    (h3 : l.null = false) : (initLogging git false l).2.1 = header99 fun n => shown99 (git n) := by
  have h20 : ∀ m, l.log 20 m = [m] := fun m => by
    unfold PyLogger.log
    rw [if_neg (by simp [h3]; omega)]
  have h10 : ∀ m, l.log 10 m = [] := fun m => by
    unfold PyLogger.log
    rw [if_pos (.inl h1)]
  simp [initLogging, logPackages, logPackage, git99 _ (hg _), h20, h10, header99]

/-- A silent logger uses up the header: it is not logged by calculations with other loggers after that. -/
theorem C99_silent (git : List Char → GitResult) (hg : ∀ n, git n ≠ .missing) (l : PyLogger) (hl : l.null = true ∨ 20 < l.level)
    (calls : List ((List Char → GitResult) × PyLogger)) :
    ∀ r ∈ (initLoggings ((git, l) :: calls) false).2, r.1 = [] := by
  rw [C99_once git hg l calls]
  have h20 : ∀ m, l.log 20 m = [] := fun m => by
    unfold PyLogger.log
    rw [if_pos hl.symm]
  have h10 : ∀ m, l.log 10 m = [] := fun m => by
    unfold PyLogger.log
    rw [if_pos (hl.symm.imp_left fun h => by omega)]
  intro r hr
  rcases List.mem_cons.1 hr with rfl | hr
  · simp [initLogging, logPackages, logPackage, git99 _ (hg _), h20, h10]
  · obtain ⟨c, -, rfl⟩ := List.mem_map.1 hr
    rfl

/-- Without `git` every call raises, so that no calculation can be made, and every call logs the header again. -/
theorem C99_git_missing (loggers : List PyLogger) :
    initLoggings (loggers.map fun l => (fun _ => .missing, l)) false =
      (false, loggers.map fun l => (l.log 20 .header ++ (l.log 20 (.package "numpy".toList) ++ l.log 20 (.version "numpy".toList)),
        some .osError)) := by
  induction loggers with
  | nil => rfl
  | cons l ls ih => simp only [List.map_cons, initLoggings, initLogging, logPackages, logPackage, getGitHash, Bool.false_eq_true,
      if_false, ih]

/-- The property without the hypothesis on `git` is false. -/
theorem C99_git_false : ¬ ∀ (git : List Char → GitResult) (done : Bool) (l : PyLogger), (initLogging git done l).2.2 = none := by
  intro h
  have := h (fun _ => .missing) false ⟨20, false⟩
  revert this
  decide +kernel

/-- `output` is emitted by loggers of level up to 25. -/
theorem C99_output (l : PyLogger) (m : LogMsg) : l.log 25 m = [m] ↔ l.level ≤ 25 ∧ l.null = false := by
  unfold PyLogger.log
  cases l.null <;> simp

/-- Two calculations, no repositories. -/
example : initLoggings [(fun _ => .failed, ⟨20, false⟩), (fun _ => .failed, ⟨20, false⟩)] false =
    (true, [([.header, .package "numpy".toList, .version "numpy".toList, .gitHash "numpy".toList none, .package "pyscf".toList,
      .version "pyscf".toList, .gitHash "pyscf".toList none, .package "ebcc".toList, .version "ebcc".toList,
      .gitHash "ebcc".toList none, .threads], none), ([], none)]) := by decide +kernel

end Ebcc
