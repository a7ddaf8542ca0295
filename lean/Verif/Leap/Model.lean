/-!
# Leap seconds

`src/sfptpd_engine.c`: the scheduling of a leap second, the guard interval around it, its
application and its cancellation; `src/sfptpd_clock.c`: what is asked of the kernel and of the
clocks of the network interfaces.

Simplified: times are nanoseconds (`Int`); the arithmetic of `struct sfptpd_timespec` is the
subject of `Verif.Time`.  The guard interval (`long double` seconds) is given in nanoseconds.
The control messages to the instances (`sfptpd_sync_module_control`) and the calls of `adjtimex`
take effect.  The one-shot timer of the thread (`sfptpd_thread_timer_start`) is its expiry time;
starting it may fail.  Log messages are left out.  A failed assertion is `none`.
-/

namespace Verif.Leap

/-- `enum sfptpd_leap_second_type` (`src/include/sfptpd_clock.h`). -/
inductive LType where
  | none
  | l61
  | l59
  deriving DecidableEq, Repr

/-- `enum leap_second_state` (`src/sfptpd_engine.c:186-192`). -/
inductive Phase where
  | idle
  | scheduled
  | pre
  | post
  | test
  deriving DecidableEq, Repr

/-- `enum sfptpd_clock_ctrl` (`src/include/sfptpd_general_config.h:86-93`). -/
inductive Ctrl where
  | slewAndStep
  | stepAtStartup
  | noStep
  | noAdjust
  | stepForward
  | stepOnFirstLock
  deriving DecidableEq, Repr

/-- The two control flags of an instance that matter here: `SYNC_MODULE_TIMESTAMP_PROCESSING`
and `SYNC_MODULE_LEAP_SECOND_GUARD` (`src/include/sfptpd_sync_module.h:58-62`). -/
structure Flags where
  processing : Bool
  guard : Bool
  deriving DecidableEq, Repr

/-- The configuration: `clocks.control` and `test_mode` of the general options, and whether the
system clock is read-only (`struct sfptpd_clock`). -/
structure Cfg where
  ctrl : Ctrl
  testMode : Bool
  readOnly : Bool
  deriving DecidableEq, Repr

/-- `engine->leap_second` (`src/sfptpd_engine.c:210-223`), the leap second timer, and what the
engine controls: the flags of the instances, the leap second announced to the modules and the
leap second flags of the kernel (`kernel_status`). -/
structure St where
  phase : Phase
  type : LType
  time : Int
  guard : Int
  timer : Option Int
  flags : List Flags
  told : LType
  kernel : LType
  deriving DecidableEq, Repr

/-- The start: `memset` of the engine, instances with `SYNC_MODULE_CTRL_FLAGS_DEFAULT`
(`src/include/sfptpd_sync_module.h:69`). -/
def init (instances : Nat) : St :=
  ⟨.idle, .none, 0, 0, none, List.replicate instances ⟨true, false⟩, .none, .none⟩

/-- What happens to the clocks: the clocks of the interfaces are stepped by so many seconds; the
UTC offset of the instances is changed by so many seconds (in tests only). -/
inductive Act where
  | step (seconds : Int)
  | utcOffset (seconds : Int)
  deriving DecidableEq, Repr

/-- Nanoseconds per second. -/
def ns : Int := 1000000000

/-- `SFPTPD_LEAP_SECOND_GUARD_INTERVAL_MIN` and `_MAX` (`src/include/sfptpd_constants.h:73-74`),
enforced at `src/sfptpd_engine.c:1181-1184`. -/
def clampGuard (g : Int) : Int :=
  let g := if g < 2 * ns then 2 * ns else g
  if g > 10 * ns then 10 * ns else g

/-- `sfptpd_clock_schedule_leap_second` (`src/sfptpd_clock.c:1923-1975`): the flags `STA_INS` and
`STA_DEL` of the kernel, unless the system clock is read-only. -/
def kernelSchedule (c : Cfg) (s : St) (t : LType) : St :=
  if c.readOnly then s else { s with kernel := t }

/-- `sfptpd_clock_leap_second_now` (`src/sfptpd_clock.c:1978-2006`): each clock of an interface
is stepped. -/
def leapNow (t : LType) : List Act :=
  match t with
  | .l59 => [.step 1]
  | .l61 => [.step (-1)]
  | .none => []

/-- `change_sync_instance_flags` (`src/sfptpd_engine.c:366-387`) for the flag of timestamp
processing. -/
def setProcessing (s : St) (b : Bool) : St :=
  { s with flags := s.flags.map fun f => { f with processing := b } }

/-- The same for the flag of the guard interval. -/
def setGuard (s : St) (b : Bool) : St :=
  { s with flags := s.flags.map fun f => { f with guard := b } }

/-- The part of `on_cancel_leap_second` common to all states but idle
(`src/sfptpd_engine.c:1146-1162`). -/
def tidy (s : St) : St :=
  { setProcessing (setGuard { s with timer := none, phase := .idle } false) true with
    told := .none }

/-- `on_cancel_leap_second` (`src/sfptpd_engine.c:1128-1163`). -/
def cancel (c : Cfg) (s : St) : St :=
  match s.phase with
  | .pre => s
  | .scheduled => tidy (kernelSchedule c s .none)
  | .post => tidy (kernelSchedule c s .none)
  | .test => tidy s
  | .idle => s

/-- The moment of the leap second: the end of the day, one second earlier for a deleted second
(`src/sfptpd_engine.c:1206-1211`, `1309-1315`).  `%` of C is that of the truncating division. -/
def dayEnd (t : LType) (now : Int) : Int :=
  let sec := now / ns
  let e := sec - sec.tmod 86400 + 86400
  let e := if t = .l59 then e - 1 else e
  e * ns

/-- Whether the kernel is told (`src/sfptpd_engine.c:1236-1238`). -/
def kernelPolicy (c : Cfg) (t : LType) : Bool :=
  c.ctrl = .slewAndStep || (c.ctrl = .stepForward && t = .l61)

/-- Whether the clocks of the interfaces are stepped (`src/sfptpd_engine.c:1383-1385`). -/
def stepPolicy (c : Cfg) (t : LType) : Bool :=
  c.ctrl = .slewAndStep || (c.ctrl = .stepForward && t = .l59)

/-- `on_schedule_leap_second` from the moment at which the time of the leap second is worked out
(`src/sfptpd_engine.c:1200-1252`).  `now` is `none` if the clock cannot be read. -/
def scheduleAt (c : Cfg) (s : St) (t : LType) (g : Int) (now : Option Int) (timerOk : Bool) : St :=
  match now with
  | none => s
  | some n =>
    let s := { s with time := dayEnd t n, type := t, guard := g }
    if !timerOk then s
    else
      let s := { s with timer := some (s.time - s.guard) }
      let s := if kernelPolicy c t then kernelSchedule c s t else s
      { s with told := t, phase := .scheduled }

/-- `on_schedule_leap_second` (`src/sfptpd_engine.c:1166-1253`). -/
def schedule (c : Cfg) (s : St) (t : LType) (g : Int) (now : Option Int) (timerOk : Bool) :
    Option St :=
  if t = .none ∨ g ≤ 0 then none
  else
    match s.phase with
    | .pre => some s
    | .post => some s
    | .scheduled => some (scheduleAt c (cancel c s) t (clampGuard g) now timerOk)
    | .test => some (scheduleAt c (cancel c s) t (clampGuard g) now timerOk)
    | .idle => some (scheduleAt c s t (clampGuard g) now timerOk)

/-- The end of `on_test_leap_second` (`src/sfptpd_engine.c:1303-1342`). -/
def testAt (s : St) (t : LType) (now : Option Int) (timerOk : Bool) : St :=
  match now with
  | none => s
  | some n =>
    let s := { s with time := dayEnd t n, type := t }
    if !timerOk then s
    else { s with timer := some s.time, told := t, phase := .test }

/-- `on_test_leap_second` (`src/sfptpd_engine.c:1273-1343`). -/
def test (c : Cfg) (s : St) (t : LType) (now : Option Int) (timerOk : Bool) : St :=
  if !c.testMode then s
  else
    match s.phase with
    | .idle => if t = .none then s else testAt s t now timerOk
    | .test =>
      let s := cancel c s
      if t = .none then s else testAt s t now timerOk
    | _ => s

/-- The cases `LOCAL_LEAP_SECOND_*` of `on_configure_test_mode`
(`src/sfptpd_engine.c:2105-2115`), with a guard interval of 12 s; the request passes through
`sfptpd_engine_schedule_leap_second` (`2942-2962`), which makes the same assertions. -/
def testLocal (c : Cfg) (s : St) (t : LType) (now : Option Int) (timerOk : Bool) : Option St :=
  if !c.testMode then some s else schedule c s t (12 * ns) now timerOk

/-- `on_leap_second_timer` (`src/sfptpd_engine.c:1346-1442`): the one-shot timer has expired. -/
def expired (c : Cfg) (s : St) (timerOk : Bool) : St × List Act :=
  let s := { s with timer := none }
  match s.phase with
  | .scheduled =>
    if !timerOk then ({ s with phase := .idle }, [])
    else
      (setGuard (setProcessing { s with timer := some s.time, phase := .pre } false) true, [])
  | .pre =>
    let acts := if stepPolicy c s.type then leapNow s.type else []
    let s := { s with type := .none, told := .none }
    if !timerOk then ({ s with phase := .idle }, acts)
    else ({ s with timer := some (s.time + s.guard), phase := .post }, acts)
  | .post => (cancel c s, [])
  | .test => (cancel c s, [.utcOffset (if s.type = .l61 then 1 else -1)])
  | .idle => (s, [])

/-- What the engine receives.  `ok` says whether the timer can be started. -/
inductive Ev where
  | schedule (t : LType) (g : Int) (now : Option Int) (ok : Bool)
  | cancel
  | test (t : LType) (now : Option Int) (ok : Bool)
  | testLocal (t : LType) (now : Option Int) (ok : Bool)
  | timer (ok : Bool)
  deriving DecidableEq, Repr

/-- One event handled by the engine's thread (`src/sfptpd_engine.c:2590-2640`, timers at `311`).
A timer that is not armed does not expire. -/
def step (c : Cfg) (s : St) (e : Ev) : Option (St × List Act) :=
  match e with
  | .schedule t g now ok => (schedule c s t g now ok).map fun s => (s, [])
  | .cancel => some (cancel c s, [])
  | .test t now ok => some (test c s t now ok, [])
  | .testLocal t now ok => (testLocal c s t now ok).map fun s => (s, [])
  | .timer ok => if s.timer = none then some (s, []) else some (expired c s ok)

/-- A history: the acts of all events, in order. -/
def run (c : Cfg) (s : St) : List Ev → Option (St × List Act)
  | [] => some (s, [])
  | e :: es =>
    match step c s e with
    | none => none
    | some (s', a) =>
      match run c s' es with
      | none => none
      | some (s'', b) => some (s'', a ++ b)

/-- The synchronization of the servos and the log of statistics do their work (`src/sfptpd_engine.c:1665-1669`,
`1741-1745`). -/
def active (s : St) : Bool :=
  match s.phase with
  | .pre => false
  | .post => false
  | _ => true

end Verif.Leap
