import Verif.Model.Py
/-!
Model of `ebcc/core/logging.py`: levels, `NullLogger`, and `init_logging`, which is called whenever a calculation is made
(cc/base.py:197, opt/base.py:95, ext/tcc.py:94, ext/eccc.py:102).
-/

namespace Ebcc

/-- A logger: its level, and whether it is a `NullLogger`. -/
structure PyLogger where
  level : Nat
  null : Bool

/-- What a message is about. -/
inductive LogMsg
  | header
  | package (name : List Char)
  | version (name : List Char)
  | gitHash (name : List Char) (hash : Option (List Char))
  | threads
  | blank
  deriving DecidableEq

/-- What is emitted by a message of a level, e.g. 10 `debug`, 20 `info`, 25 `output` (logging.py:33-36), 30 `warning`:
nothing below the level of the logger, nothing by a `NullLogger` (logging.py:48-56). -/
def PyLogger.log (l : PyLogger) (level : Nat) (m : LogMsg) : List LogMsg :=
  if level < l.level ∨ l.null = true then [] else [m]

/-- What happens when `git rev-parse` is run for a package. -/
inductive GitResult
  | hash (h : List Char)
  /-- a non-zero exit status, `CalledProcessError` -/
  | failed
  /-- there is no program `git`, `FileNotFoundError` -/
  | missing

/-- `FileNotFoundError` is an `OSError`. -/
inductive LogErr
  | osError
  deriving DecidableEq

/-- logging.py:70-79 `get_git_hash`; `none` is "N/A". -/
def getGitHash : GitResult → Except LogErr (Option (List Char))
  | .hash h => .ok (some h)
  | .failed => .ok none
  | .missing => .error .osError

/-- logging.py:84-94 for one package: what is emitted, and the exception if there is one. -/
def logPackage (l : PyLogger) (git : List Char → GitResult) (name : List Char) : List LogMsg × Option LogErr :=
  let first := l.log 20 (.package name) ++ l.log 20 (.version name)
  match getGitHash (git name) with
  | .ok h => (first ++ l.log 20 (.gitHash name h), none)
  | .error e => (first, some e)

/-- The packages in turn. -/
def logPackages (l : PyLogger) (git : List Char → GitResult) : List (List Char) → List LogMsg × Option LogErr
  | [] => ([], none)
  | name :: names =>
    match logPackage l git name with
    | (out, some e) => (out, some e)
    | (out, none) =>
      let r := logPackages l git names
      (out ++ r.1, r.2)

/-- logging.py:59-101 `init_logging`; `done` is the global variable `_EBCC_LOG_INITIALISED`.  Returned are the new value of
the variable, what is emitted, and the exception.  Simplification: the packages can be imported. -/
def initLogging (git : List Char → GitResult) (done : Bool) (l : PyLogger) : Bool × List LogMsg × Option LogErr :=
  if done then (true, [], none)
  else
    match logPackages l git ["numpy".toList, "pyscf".toList, "ebcc".toList] with
    | (out, some e) => (false, l.log 20 .header ++ out, some e)
    | (out, none) => (true, l.log 20 .header ++ out ++ l.log 20 .threads ++ l.log 10 .blank, none)

/-- A number of calls, with the loggers given and the state of the programs at the time; exceptions are caught by the
caller. -/
def initLoggings : List ((List Char → GitResult) × PyLogger) → Bool → Bool × List (List LogMsg × Option LogErr)
  | [], done => (done, [])
  | (git, l) :: calls, done =>
    let r := initLogging git done l
    let t := initLoggings calls r.1
    (t.1, r.2 :: t.2)

end Ebcc
