import Mathlib.Data.Rat.Floor

/-!
# Interval timers

`src/ptp/ptpd2/dep/timer.c`: the timers of a port, which count the ticks of 62.5 ms made by
`timerTick`.

Simplified: intervals (`long double`) are rational, so their product with 16 is exact; the count
of ticks `timer_ticks`, which nothing reads, is left out.  A conversion to `int` of a value out of
range is undefined; so is the subtraction below the least `int`.
-/

namespace Verif.Timer

/-- `IntervalTimer` (`src/ptp/ptpd2/datatypes.h:58-62`). -/
structure ITimer where
  interval : Int
  left : Int
  expire : Bool
  deriving DecidableEq, Repr

/-- `TIMER_ARRAY_SIZE` (`src/ptp/ptpd2/constants.h:213-226`). -/
def arraySize : Nat := 12

/-- The timers of a port. -/
abbrev Timers := Nat → ITimer

/-- Assignment to one timer. -/
def put (ts : Timers) (i : Nat) (t : ITimer) : Timers := fun j => if j = i then t else ts j

/-- The body of the loop of `timerTick` (`timer.c:98-104`). -/
def tickOne (t : ITimer) : ITimer :=
  if t.interval > 0 then
    if t.left - 1 ≤ 0 then { t with left := t.interval, expire := true }
    else { t with left := t.left - 1 }
  else t

/-- `timerTick` (`timer.c:83-105`). -/
def tick (ts : Timers) : Timers := fun i => if i < arraySize then tickOne (ts i) else ts i

/-- `timerStop` (`timer.c:107-115`). -/
def stop (ts : Timers) (i : Nat) : Timers :=
  if i ≥ arraySize then ts else put ts i { ts i with interval := 0 }

/-- The conversion of a real number to `int`: towards zero, undefined out of range. -/
def toInt (x : ℚ) : Option Int :=
  let n := if 0 ≤ x then ⌊x⌋ else ⌈x⌉
  if -2147483648 ≤ n ∧ n ≤ 2147483647 then some n else none

/-- `timerStart` (`timer.c:117-151`). -/
def start (ts : Timers) (i : Nat) (x : ℚ) : Option Timers :=
  if i ≥ arraySize then some ts
  else
    match toInt (x * 1000000 / 62500) with
    | none => none
    | some n =>
      let left := if n = 0 then 1 else n
      some (put ts i ⟨left, left, false⟩)

/-- `timerStart_random` (`timer.c:164-172`), with the result of `getRand`. -/
def startRandom (ts : Timers) (i : Nat) (x r : ℚ) : Option Timers := start ts i (r * x * 2)

/-- `timerExpired` (`timer.c:175-190`). -/
def expired (ts : Timers) (i : Nat) : Timers × Bool :=
  if i ≥ arraySize then (ts, false)
  else if !(ts i).expire then (ts, false)
  else (put ts i { ts i with expire := false }, true)

/-- `timerStopped` (`timer.c:193-205`). -/
def stopped (ts : Timers) (i : Nat) : Bool := if i ≥ arraySize then false else (ts i).interval = 0

/-- `timerRunning` (`timer.c:208-221`). -/
def running (ts : Timers) (i : Nat) : Bool :=
  if i ≥ arraySize then false else (ts i).interval ≠ 0 && (ts i).expire = false

/-- The operations on timers. -/
inductive Op
  | tick
  | start (i : Nat) (x : ℚ)
  | stop (i : Nat)
  | expired (i : Nat)
  deriving DecidableEq

/-- One operation. -/
def step (ts : Timers) : Op → Option Timers
  | .tick => some (tick ts)
  | .start i x => start ts i x
  | .stop i => some (stop ts i)
  | .expired i => some (expired ts i).1

/-- A run. -/
def run (ts : Timers) : List Op → Option Timers
  | [] => some ts
  | o :: os => match step ts o with
    | none => none
    | some ts => run ts os

/-- The timers at the start, in memory cleared when the port is created. -/
def init : Timers := fun _ => ⟨0, 0, false⟩

end Verif.Timer
