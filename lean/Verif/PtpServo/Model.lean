import Verif.Servo.Model
import Verif.Tsd.Model

/-!
# The servo of a PTP port

Models `src/ptp/ptpd2/dep/servo.c`: initialisation and reset, the intake of timestamps, the
control flags, steps of the clock and the update of the clock after a measurement, on top of the
data set of timestamps (`Verif.Tsd`) and of the clock (`Verif.Servo.Clock`).

Simplified: the chain of filters (smallest, Peirce, FIR) is any function of the data sets given to
it since it was reset; the output of the PID controller, the verdict of the clustering guard and
the answers of the kernel are inputs.  Floating point numbers are rationals.  Messages to the
operator, the limit of the integral term and the record in the log are left out.  `none` is
signed overflow in the arithmetic of timestamps.
-/

namespace Verif.PtpServo

open Verif.Servo (Clock Ctrl KCall)
open Verif.Tsd (Tsd)

/-- The configuration: `clock_ctrl`, `step_threshold` (ns), and the filters: the verdict on the
data sets since the reset, newest first; `none` is an outlier, otherwise offset and path delay
(ns). -/
structure Cfg where
  ctrl : Ctrl
  threshold : Rat
  filter : List Tsd → Option (Rat × Rat)

/-- `ptp_servo_t` (`src/ptp/ptpd2/datatypes.h`) and the clock it controls. -/
structure S where
  /-- `SYNC_MODULE_TIMESTAMP_PROCESSING` of `ctrl_flags`. -/
  proc : Bool
  /-- `SYNC_MODULE_CLOCK_CTRL` of `ctrl_flags`. -/
  ctl : Bool
  firstUpdated : Bool
  ts : Tsd
  seen : List Tsd
  offset : Rat
  delay : Rat
  freqCorr : Rat
  freqAdj : Rat
  /-- `CLOCK_CTRL_FAILURE`. -/
  failAlarm : Bool
  /-- `CLUSTERING_THRESHOLD_EXCEEDED`. -/
  clusterAlarm : Bool
  outliers : Nat
  samples : Nat
  steps : Nat
  /-- Alarms recorded by `sfptpd_clock_stats_record_clustering_alarm`. -/
  recorded : Nat
  clock : Clock

/-- What the clock is asked for, and on which occasion: a measurement, the command to step, or
a reset of the servo. -/
inductive Src where
  | measured
  | command
  | reset
  deriving DecidableEq, Repr

abbrev Acts := List (Src × KCall)

/-- `servo_adjust_frequency` (lines 588-600). -/
def adjust (s : S) (src : Src) (f : Rat) (k : Int) : S × Acts :=
  let r := s.clock.adjustFreq f k
  ({ s with failAlarm := decide (r.1 ≠ 0) }, r.2.map fun x => (src, x))

/-- `servo_reset_filters` (lines 200-215). -/
def resetFilters (s : S) : S := { s with offset := 0, delay := 0, seen := [] }

/-- `servo_reset_freq_adjustment` (lines 237-248). -/
def resetFreq (s : S) (src : Src) (k : Int) : S × Acts :=
  let r := adjust { s with freqCorr := s.clock.freqCorr } src s.clock.freqCorr k
  ({ r.1 with freqAdj := r.1.freqCorr }, r.2)

/-- `servo_reset` (lines 177-187). -/
def reset (s : S) (k : Int) : S × Acts :=
  let r := resetFreq (resetFilters { s with ts := Tsd.init }) .reset k
  ({ r.1 with failAlarm := false, clusterAlarm := false }, r.2)

/-- `servo_set_slave_clock` (lines 251-266). -/
def setClock (s : S) (c : Clock) (k : Int) : S × Acts := resetFreq { s with clock := c } .reset k

/-- The cleared structure of `servo_init` (lines 90-101), with the default flags. -/
def blank (c : Clock) : S :=
  ⟨true, false, false, Tsd.init, [], 0, 0, 0, 0, false, false, 0, 0, 0, 0, c⟩

/-- `servo_init` (lines 71-152). -/
def init (c : Clock) (k1 k2 : Int) : S × Acts :=
  let r := setClock (blank c) c k1
  let q := reset r.1 k2
  (q.1, r.2 ++ q.2)

/-- `servo_update` (lines 345-382). -/
def update (c : Cfg) (s : S) : S × Bool :=
  let s := { s with seen := s.ts :: s.seen, samples := s.samples + 1 }
  match c.filter s.seen with
  | none => ({ s with outliers := s.outliers + 1 }, false)
  | some (o, d) => ({ s with offset := o, delay := d }, true)

/-- The common end of the three functions that take timestamps: the data set has been updated. -/
def taken (c : Cfg) (s : S) (r : Option (Tsd × Bool)) : Option (S × Bool) :=
  match r with
  | none => none
  | some (t, false) => some ({ s with ts := t }, false)
  | some (t, true) => some (update c { s with ts := t })

/-- `servo_provide_s2m_ts` (lines 406-427). -/
def provideS2M (c : Cfg) (s : S) (tx rx corr : Time.Ts) : Option (S × Bool) :=
  if s.proc = false then some ({ s with ts := Tsd.clearS2M s.ts }, false)
  else taken c s (Tsd.setS2M s.ts tx rx corr)

/-- `servo_provide_p2p_ts` (lines 430-456). -/
def provideP2P (c : Cfg) (s : S) (a b d e corr : Time.Ts) : Option (S × Bool) :=
  if s.proc = false then some ({ s with ts := Tsd.clearP2P s.ts }, false)
  else taken c s (Tsd.setP2P s.ts a b d e corr)

/-- `servo_provide_m2s_ts` (lines 459-482). -/
def provideM2S (c : Cfg) (s : S) (tx rx corr : Time.Ts) : Option (S × Bool) :=
  if s.proc = false then some ({ s with ts := Tsd.clearM2S s.ts }, false)
  else taken c s (Tsd.setM2S s.ts tx rx corr)

/-- `servo_control` (lines 485-510). -/
def control (s : S) (proc ctl : Bool) : S :=
  let s := if s.ctl && !ctl then { s with freqCorr := s.clock.freqCorr } else s
  let s := if s.proc && !proc then { s with ts := Tsd.init } else s
  { s with proc := proc, ctl := ctl }

/-- `servo_step_clock` (lines 513-548), `offset` in nanoseconds. -/
def stepClock (c : Cfg) (s : S) (src : Src) (offset : Rat) (k1 k2 : Int) : S × Acts :=
  if c.ctrl = .noAdjust then (s, [])
  else
    let r := s.clock.adjustTime (-offset) k1
    let s := { s with failAlarm := decide (r.1 ≠ 0), steps := s.steps + 1, ts := Tsd.init }
    let q := resetFreq (resetFilters s) src k2
    (q.1, (r.2.map fun x => (src, x)) ++ q.2)

/-- The test of lines 654-657: may the clock be stepped? -/
def mayStep (c : Cfg) (s : S) : Bool :=
  match c.ctrl with
  | .slewAndStep => true
  | .stepAtStartup => !s.firstUpdated
  | .stepOnFirstLock => !s.firstUpdated
  | .stepForward => decide (s.offset < 0)
  | .noStep => false
  | .noAdjust => false

/-- What `servo_update_clock` is given: the verdict of the clustering guard, the output of the PID
controller, and the answers of the kernel. -/
structure In where
  out : Bool
  pid : Rat
  k1 : Int
  k2 : Int
  deriving DecidableEq, Repr

/-- `fabs`. -/
def absR (x : Rat) : Rat := if x < 0 then -x else x

/-- The mark of lines 675-676 and 716-717. -/
def mark (s : S) : S :=
  { s with firstUpdated := true, clock := { s.clock with beenLocked := true } }

/-- The branch for large offsets (lines 640-676). -/
def bigJump (c : Cfg) (s : S) (i : In) : S × Acts :=
  if s.ctl = false then (s, [])
  else if mayStep c s then
    let r := stepClock c s .measured s.offset i.k1 i.k2
    (mark r.1, r.2)
  else if c.ctrl ≠ .noAdjust then
    let f := if s.offset < 0 then s.clock.maxFreq else -s.clock.maxFreq
    let r := adjust { s with freqAdj := f } .measured f i.k2
    (mark r.1, r.2)
  else (mark s, [])

/-- The branch for small offsets (lines 677-719). -/
def slew (s : S) (i : In) : S × Acts :=
  let s := { s with freqAdj := s.freqCorr }
  if s.ctl then
    let f := s.freqAdj + i.pid
    let f := if f > s.clock.maxFreq then s.clock.maxFreq
      else if f < -s.clock.maxFreq then -s.clock.maxFreq else f
    let r := adjust { s with freqAdj := f } .measured f i.k2
    (mark r.1, r.2)
  else (s, [])

/-- `servo_update_clock` (lines 603-727). -/
def updateClock (c : Cfg) (s : S) (i : In) : S × Acts :=
  if i.out then
    if s.clusterAlarm then (s, [])
    else ({ s with clusterAlarm := true, recorded := s.recorded + 1 }, [])
  else
    let s := { s with clusterAlarm := false }
    if absR s.offset ≥ c.threshold then bigJump c s i else slew s i

/-- What happens to a servo.  A measurement from a Sync or Follow_Up message is followed by the
update of the clock (`src/ptp/ptpd2/protocol.c:1999-2004`, `2244-2249`); the others are not. -/
inductive Ev where
  | m2s (tx rx corr : Time.Ts) (i : In)
  | s2m (tx rx corr : Time.Ts)
  | p2p (a b d e corr : Time.Ts)
  | missM2S
  | missS2M
  | missP2P
  /-- `ptpd_control` (`ptpd_lib.c:463-479`). -/
  | control (proc ctl : Bool)
  /-- `m1` and `ptpd_change_interface` (`bmc.c:165`, `ptpd_lib.c:654`). -/
  | reset (k : Int)
  /-- `ptpd_change_interface` (`ptpd_lib.c:649`). -/
  | setClock (c : Clock) (k : Int)
  /-- `doInitPort` (`protocol.c:543`) and the flags restored (`ptpd_lib.c:442`). -/
  | reinit (k1 k2 : Int)
  /-- `ptpd_step_clock` (`ptpd_lib.c:569-578`). -/
  | command (offset : Rat) (k1 k2 : Int)
  /-- `sfptpd_clock_save_freq_correction`, by the module. -/
  | save (x : Rat)

def step (c : Cfg) (s : S) : Ev → Option (S × Acts)
  | .m2s tx rx corr i =>
    match provideM2S c s tx rx corr with
    | none => none
    | some (s', false) => some (s', [])
    | some (s', true) => some (updateClock c s' i)
  | .s2m tx rx corr => (provideS2M c s tx rx corr).map fun r => (r.1, [])
  | .p2p a b d e corr => (provideP2P c s a b d e corr).map fun r => (r.1, [])
  | .missM2S => some ({ s with ts := Tsd.clearM2S s.ts }, [])
  | .missS2M => some ({ s with ts := Tsd.clearS2M s.ts }, [])
  | .missP2P => some ({ s with ts := Tsd.clearP2P s.ts }, [])
  | .control proc ctl => some (control s proc ctl, [])
  | .reset k => some (reset s k)
  | .setClock cl k => some (setClock s cl k)
  | .reinit k1 k2 =>
    let r := init s.clock k1 k2
    some (control r.1 s.proc s.ctl, r.2)
  | .command offset k1 k2 => some (stepClock c s .command offset k1 k2)
  | .save x => some ({ s with clock := s.clock.save x }, [])

def run (c : Cfg) (s : S) : List Ev → Option (S × Acts)
  | [] => some (s, [])
  | e :: es =>
    match step c s e with
    | none => none
    | some (s', a) =>
      match run c s' es with
      | none => none
      | some (s'', b) => some (s'', a ++ b)

end Verif.PtpServo
