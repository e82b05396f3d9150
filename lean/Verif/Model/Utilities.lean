import Verif.Model.Misc
import Verif.Model.Spin

/-!
Model of `factorial` (`ebcc/util/permutations.py` lines 22-27), of `prod` on integers (`ebcc/util/misc.py` lines 186-191)
and of the stop watch `Timer` (`ebcc/util/misc.py` lines 144-162).
-/

namespace Ebcc

/-- permutations.py:22-27 `factorial`.  `fuel` is the depth of the Python stack that is left. -/
def factorialRec : Nat → Int → Except PyErr Int
  | 0, _ => .error .recursionError
  | fuel + 1, n =>
    if n = 0 ∨ n = 1 then .ok 1
    else do
      let m ← factorialRec fuel (n - 1)
      .ok (n * m)

/-- misc.py:186-191 `prod`. -/
def prodLoop (values : List Int) : Int := values.foldl (fun out value => out * value) 1

/-- misc.py:147-151: the three times stored in a `Timer`. -/
structure Timer (T : Type) where
  tInit : T
  tPrev : T
  tCurr : T

/-- The calls of a timer; each reads the clock, which shows the given time.  `lap` is also `__call__` (158). -/
inductive TimerCall (T : Type)
  | lap (now : T)
  | total (now : T)

/-- misc.py:147-151 `Timer.__init__`, which reads the clock three times. -/
def Timer.new {T : Type} (t0 t1 t2 : T) : Timer T := ⟨t0, t1, t2⟩

/-- misc.py:153-162 `lap` and `total`: the number returned and the timer after the call. -/
def Timer.call {T : Type} [Sub T] (s : Timer T) : TimerCall T → T × Timer T
  | .lap now => (now - s.tCurr, { s with tPrev := s.tCurr, tCurr := now })
  | .total now => (now - s.tInit, s)

/-- A sequence of calls: the numbers returned and the timer afterwards. -/
def Timer.run {T : Type} [Sub T] (s : Timer T) : List (TimerCall T) → List T × Timer T
  | [] => ([], s)
  | c :: cs => ((s.call c).1 :: ((s.call c).2.run cs).1, ((s.call c).2.run cs).2)

end Ebcc
