import Verif.Filter.Model
import Verif.Stats.Model

/-!
# Model of the local clock servo

Models `src/sfptpd_servo.c` (creation, setting of clocks, stepping, the
synchronisation run, failure tracking, saving of state) on top of the part of
`src/sfptpd_clock.c` that adjusts clocks (1442-1520, 1740-1914, 2142-2180).

Simplifications: floating point numbers are rationals; times and differences are
exact nanoseconds; the alarm word is a record of the three alarms the servo uses;
the comparison through the clock feed (modelled in `Verif.Feed`) and the answers of
the kernel are inputs; statistics, real-time statistics and messages are left out.
`none` is a failed assertion or other undefined behaviour.
-/

namespace Verif.Servo
open Verif.Time Verif.Filter Verif.Stats

/-! ## Clocks -/

/-- `roundl`: to the nearest integer, halves away from zero. -/
def roundl (x : Rat) : Int := if 0 ≤ x then (x + 1 / 2).floor else -((-x + 1 / 2).floor)

/-- `struct sfptpd_clock_system` (lines 161-180) as filled in on creation (lines
627-633): ticks per second and the largest frequency adjustment the kernel
allows. -/
structure Sys where
  hz : Rat
  maxFreq : Rat
deriving DecidableEq, Repr

/-- `tick_resolution_ppb` (line 629). -/
def Sys.tickRes (s : Sys) : Rat := s.hz * 1000

/-- `max_tick` (line 631); `min_tick` is its opposite (line 630). -/
def Sys.maxTick (s : Sys) : Rat := 100000 / s.hz

/-- The fields of `struct sfptpd_clock` used in adjusting: `sys` is present for the
system clock. -/
structure Clock where
  sys : Option Sys
  hasPhc : Bool
  readOnly : Bool
  blocked : Nat
  freqCorr : Rat
  maxFreq : Rat
  beenLocked : Bool
deriving DecidableEq, Repr

/-- What is asked of the kernel with `clock_adjtime`: to shift the time, or to set
the tick length (microseconds) and frequency (2^-16 ppm). -/
inductive KCall where
  | offset (ns : Rat)
  | rate (tick : Option Int) (freq : Int)
deriving DecidableEq, Repr

/-- `sfptpd_clock_adjust_time` (lines 1751-1812); `k` is the error of the kernel, 0
for success. -/
def Clock.adjustTime (c : Clock) (ns : Rat) (k : Int) : Int × List KCall :=
  if c.sys = none ∧ c.hasPhc = false then (19, [])
  else if c.readOnly then (0, [])
  else if c.blocked > 0 then (0, [])
  else (k, [.offset ns])

/-- Lines 1856-1859: saturation to the limit of the clock. -/
def limit (m x : Rat) : Rat :=
  let x := if x > m then m else x
  if x < -m then -m else x

/-- Lines 1874-1884: the part of an adjustment made through the tick length, and
what remains. -/
def Sys.ticks (s : Sys) (f : Rat) : Rat × Rat :=
  if f > s.maxFreq then
    let tick : Rat := roundl ((f - s.maxFreq) / s.tickRes)
    let tick := if tick > s.maxTick then s.maxTick else tick
    (tick, f - tick * s.tickRes)
  else if f < -s.maxFreq then
    let tick : Rat := -(roundl ((-f - s.maxFreq) / s.tickRes))
    let tick := if tick < -s.maxTick then -s.maxTick else tick
    (tick, f - tick * s.tickRes)
  else (0, f)

/-- Lines 1887-1890. -/
def Sys.clamp (s : Sys) (f : Rat) : Rat := if f > s.maxFreq then s.maxFreq else if f < -s.maxFreq then -s.maxFreq else f

/-- Lines 1870-1890: how the system clock divides an adjustment between the tick
length and the frequency. -/
def Sys.split (s : Sys) (f : Rat) : Rat × Rat := ((s.ticks f).1, s.clamp (s.ticks f).2)

/-- `sfptpd_clock_adjust_frequency` (lines 1815-1914). -/
def Clock.adjustFreq (c : Clock) (f : Rat) (k : Int) : Int × List KCall :=
  if c.sys = none ∧ c.hasPhc = false then (19, [])
  else if c.readOnly then (0, [])
  else if c.blocked > 0 then (0, [])
  else
    let f := limit c.maxFreq f
    match c.sys with
    | some s =>
      (k, [.rate (some (roundl ((s.split f).1 + 1000000 / s.hz))) (roundl ((s.split f).2 * (65536 / 1000)))])
    | none => (k, [.rate none (roundl (f * (65536 / 1000)))])

/-- `sfptpd_clock_load_freq_correction` (lines 1424-1476): `use` is the
configuration, `file` what is read from the file if it can be read. Yields the
clock, the result and what is asked of the kernel. -/
def Clock.load (c : Clock) (use : Bool) (file : Option Rat) (k : Int) : Clock × Int × List KCall :=
  let (x, rc) : Rat × Int := if use then (match file with | some x => (x, 0) | none => (0, 61)) else (0, 0)
  let (x, rc) : Rat × Int := if x > c.maxFreq ∨ x < -c.maxFreq then (0, 61) else (x, rc)
  let c := { c with freqCorr := x }
  (c, rc, (c.adjustFreq x k).2)

/-- `sfptpd_clock_save_freq_correction` (lines 1479-1511). -/
def Clock.save (c : Clock) (x : Rat) : Clock :=
  if x > c.maxFreq ∨ x < -c.maxFreq then c else { c with freqCorr := x }

/-- `sfptpd_clock_set_time` (lines 2142-2180) to the time of the system clock, as
the servo calls it: `cmp` is the difference found, or the error. -/
def Clock.setTime (c : Clock) (cmp : Except Int Rat) (k : Int) : Int × List KCall :=
  if c.sys.isSome then (0, [])
  else
    match cmp with
    | .error e => (e, [])
    | .ok d => c.adjustTime d k

/-! ## The servo -/

/-- `enum sfptpd_clock_ctrl` (`sfptpd_general_config.h:86-93`). -/
inductive Ctrl where
  | slewAndStep | stepAtStartup | noStep | noAdjust | stepForward | stepOnFirstLock
deriving DecidableEq, Repr

/-- `enum sfptpd_epoch_guard_config` (`sfptpd_general_config.h:96-100`). -/
inductive Guard where
  | alarmOnly | preventSync | correctClock
deriving DecidableEq, Repr

/-- The alarms of the servo (`sfptpd_sync_module.h:111-119`). -/
structure Alarms where
  ctrl : Bool
  epoch : Bool
  sustained : Bool
deriving DecidableEq, Repr

/-- State of failure tracking. -/
inductive Track where
  | ok | failed | alarmed
deriving DecidableEq, Repr

/-- `struct sfptpd_servo` (lines 45-127). -/
structure Servo where
  ctrl : Ctrl
  guard : Guard
  fir : Fir
  pid : Pid
  freqCorr : Rat
  freqAdj : Rat
  freqMax : Rat
  offset : Rat
  threshold : Rat
  active : Bool
  steppedLocked : Bool
  synchronized : Bool
  track : Track
  failBegin : Rat
  alarms : Alarms
  conv : Conv

/-- A servo with its clocks. -/
structure World where
  servo : Servo
  master : Clock
  slave : Clock

/-- `sfptpd_servo_reset` (lines 239-250). -/
def Servo.reset (s : Servo) : Servo :=
  { s with fir := s.fir.reset, pid := s.pid.reset, freqAdj := s.freqCorr, offset := 0 }

/-- `sfptpd_servo_pid_adjust` (lines 253-265). -/
def Servo.pidAdjust (s : Servo) (kp ki kd : Option Rat) (reset : Bool) : Servo :=
  { s with pid := s.pid.adjust kp ki kd reset }

/-- The configuration used by `sfptpd_servo_create`. -/
structure Cfg where
  ctrl : Ctrl
  guard : Guard
  threshold : Rat
  stiffness : Nat
  kp : Rat
  ki : Rat
  interval : Rat
  convPeriod : Int
  convOffset : Rat

/-- `sfptpd_servo_create` (lines 147-222): the stiffness is limited to
`SFPTPD_SERVO_FILTER_STIFFNESS_MIN` and `_MAX` (lines 176-179). -/
def create (c : Cfg) (delta : List Rat) : Option Servo :=
  let stiffness := if c.stiffness < 1 then 1 else if c.stiffness > 16 then 16 else c.stiffness
  match Fir.init stiffness delta with
  | none => none
  | some fir =>
    let s : Servo := ⟨c.ctrl, c.guard, fir, Pid.init c.kp c.ki 0 c.interval, 0, 0, 0, 0, c.threshold, false, false, false,
      .ok, 0, ⟨false, false, false⟩, ⟨c.convPeriod, c.convOffset, 0, 0, 0⟩⟩
    some s.reset

/-- `sfptpd_servo_set_clocks` (lines 279-335), with clocks other than the present
ones; the subscriptions are not part of this model. -/
def setClocks (s : Servo) (master slave : Clock) (k : Int) : Option (World × List KCall) :=
  let s := { s with freqCorr := slave.freqCorr, freqMax := slave.maxFreq }
  match s.pid.setIMax s.freqMax with
  | none => none
  | some pid =>
    let s := { s with pid := pid }
    let (rc, calls) := slave.adjustFreq s.freqCorr k
    let s := { s with alarms := { s.alarms with ctrl := decide (rc ≠ 0) } }
    some (⟨s.reset, master, slave⟩, calls)

/-- `sfptpd_servo_step_clock` (lines 338-377): `k1` and `k2` are the answers of the
kernel to the two calls. -/
def stepClock (w : World) (offset : Rat) (k1 k2 : Int) : Int × World × List KCall :=
  let (rc1, c1) := w.slave.adjustTime (0 - offset) k1
  let s := { w.servo with alarms := { w.servo.alarms with ctrl := decide (rc1 ≠ 0) }, freqCorr := w.slave.freqCorr }
  let (rc2, c2) := w.slave.adjustFreq s.freqCorr k2
  let s := if rc2 ≠ 0 then { s with alarms := { s.alarms with ctrl := true } } else s
  (rc2, { w with servo := s.reset }, c1 ++ c2)

/-- The test for a time near the epoch (lines 415, 461). -/
def nearEpoch (ns : Rat) : Bool := decide (ns < 10 ^ 16) || decide (ns > 0xFFFC0000 * 10 ^ 9)

/-- What a run of the servo finds: the comparison of the slave to the master clock
(difference, master's time, slave's time) or its error, the comparison and answer
when a clock is set, answers of the kernel to a step and a frequency adjustment,
the time of the run, and the monotonic time read afterwards, in seconds. -/
structure In where
  cmp : Except Int (Rat × Rat × Rat)
  setCmp : Except Int Rat
  kSet : Int
  kStep : Int
  kFreq : Int
  time : Ts
  now : Rat

/-- Which clock is asked. -/
inductive Who where
  | master | slave
deriving DecidableEq, Repr

/-- Lines 514-520: whether the policy allows a step. -/
def mayStep (w : World) (diff : Rat) : Bool :=
  (w.servo.ctrl = .slewAndStep) ∨
  ((w.servo.ctrl = .stepAtStartup ∨ w.servo.ctrl = .stepOnFirstLock) ∧ w.servo.active = false) ∨
  (w.servo.ctrl = .stepOnFirstLock ∧ w.servo.steppedLocked = false ∧ w.master.beenLocked = true) ∨
  (w.servo.ctrl = .stepForward ∧ diff < 0)

/-- Lines 522-533 and 570-573: marking the servo active. -/
def markActive (w : World) : World :=
  { w with servo := { w.servo with active := true,
                                   steppedLocked := if w.master.beenLocked then true else w.servo.steppedLocked } }

/-- Lines 535-583: filters and frequency adjustment. -/
def slew (w : World) (diff : Rat) (i : In) : Option (Int × World × List (Who × KCall)) :=
  match w.servo.fir.update diff with
  | none => none
  | some (fir, mean) =>
    match w.servo.pid.update mean (some i.time) with
    | none => none
    | some (pid, adj) =>
      let f := w.servo.freqCorr + adj
      let f := if f > w.servo.freqMax then w.servo.freqMax else if f < -w.servo.freqMax then -w.servo.freqMax else f
      let (rc, calls) := w.slave.adjustFreq f i.kFreq
      let (conv, sync) := w.servo.conv.update i.time.sec mean
      let s := { w.servo with fir := fir, pid := pid, offset := mean, freqAdj := f, conv := conv, synchronized := sync,
                              alarms := { w.servo.alarms with ctrl := decide (rc ≠ 0) } }
      some (rc, markActive { w with servo := s }, calls.map (Who.slave, ·))

/-- Lines 461-485: noting whether the slave's time is near the epoch. -/
def noteSlave (w : World) (near : Bool) : World :=
  { w with servo := { w.servo with alarms := { w.servo.alarms with epoch := near },
                                   active := if near then true else w.servo.active } }

/-- Lines 461-583: the test of the slave's time, then stepping or slewing. -/
def guardSlave (w : World) (diff slaveTime : Rat) (i : In) : Option (Int × World × List (Who × KCall)) :=
  let w := noteSlave w (nearEpoch slaveTime)
  if nearEpoch slaveTime = true ∧ w.servo.guard = .correctClock then
    some (11, w, ((w.slave.setTime i.setCmp i.kSet).2).map (Who.slave, ·))
  else if mayStep w diff = true ∧ (diff ≤ -w.servo.threshold ∨ diff ≥ w.servo.threshold) then
    let (rc, w, calls) := stepClock w diff i.kStep i.kFreq
    some (rc, markActive w, calls.map (Who.slave, ·))
  else slew w diff i

/-- `do_servo_synchronize` (lines 380-584). -/
def doSync (w : World) (i : In) : Option (Int × World × List (Who × KCall)) :=
  match i.cmp with
  | .error e => some (e, w, [])
  | .ok (diff, masterTime, slaveTime) =>
    if nearEpoch masterTime then
      let fresh := !w.servo.alarms.epoch && decide (w.servo.guard ≠ .correctClock)
      let w := { w with servo := { w.servo with alarms := { w.servo.alarms with epoch := true }, active := true,
                                                offset := if fresh then diff else w.servo.offset } }
      match w.servo.guard with
      | .preventSync => some (11, { w with servo := { w.servo with offset := diff } }, [])
      | .correctClock => some (11, w, ((w.master.setTime i.setCmp i.kSet).2).map (Who.master, ·))
      | .alarmOnly => guardSlave w diff slaveTime i
    else
      guardSlave { w with servo := { w.servo with alarms := { w.servo.alarms with epoch := false } } } diff slaveTime i

/-- Failure tracking of `sfptpd_servo_synchronize` (lines 597-631). -/
def track (s : Servo) (rc : Int) (now : Rat) : Servo :=
  match s.track with
  | .ok => if rc ≠ 0 then { s with track := .failed, failBegin := now } else s
  | .failed =>
    if rc = 0 then { s with track := .ok }
    else if now - s.failBegin ≥ 30 then
      { s with track := .alarmed, alarms := { s.alarms with sustained := true }, synchronized := false }
    else s
  | .alarmed =>
    if rc = 0 then { s with track := .ok, alarms := { s.alarms with sustained := false } } else s

/-- `sfptpd_servo_synchronize` (lines 587-634). -/
def sync (w : World) (i : In) : Option (Int × World × List (Who × KCall)) :=
  match doSync w i with
  | none => none
  | some (rc, w, calls) => some (rc, { w with servo := track w.servo rc i.now }, calls)

/-- `sfptpd_servo_save_state` (lines 679-724): only the saving of the frequency
correction. -/
def saveState (w : World) : World :=
  if w.servo.synchronized then { w with slave := w.slave.save w.servo.freqAdj } else w

end Verif.Servo
