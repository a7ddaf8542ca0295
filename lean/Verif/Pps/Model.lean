import Verif.Filter.Model

/-!
# Model of the PPS sync module

Models `src/pps/sfptpd_pps_module.c`: the servo (lines 722-881), convergence
(1199-1231), statistics (1255-1311), the state machine (1314-1404, 1453-1582),
the time of day (1585-1688), polling (1691-1845), control (1919-1972) and saving
of the state (1986-2056), for a module with any number of instances.

Simplifications: times are whole nanoseconds, the seconds of a time being its
floor; floating point is replaced by the rationals; `sfclock_gettime` succeeds
and one reading serves a whole event; the clock functions have no result; the
clustering score is an input; real-time statistics are posted for the instance
that has a new sample, not for its fellows; bogus events of the test mode are
events like others.  The flags `SELECTED` and `CLUSTERING_DETERMINANT` are not
modelled.  `pps_on_timer` is divided into its steps: `tick` (lines 1811-1831 and
1837-1842) and, for an instance without a descriptor, `poll`s; `pps_on_user_fds`
is a `poll`.  `none` is a failed assertion or undefined behaviour.
-/

namespace Verif.Pps
open Verif.Filter Verif.Stats

/-- Nanoseconds in a second. -/
def sec : Int := 1000000000

/-- `SYNC_MODULE_STATE_...`, those used by an instance. -/
inductive St where
  | listening | slave | faulty
deriving DecidableEq, Repr

/-- State of the source of the time of day, as far as it matters. -/
inductive TodSt where
  | slave | selection | other
deriving DecidableEq, Repr

/-- `SYNC_MODULE_ALARM_...`, those used by an instance. -/
structure Alarms where
  noSignal : Bool
  seqNum : Bool
  noTod : Bool
  badSignal : Bool
deriving DecidableEq, Repr

/-- `alarms = 0`. -/
def Alarms.none : Alarms := ⟨false, false, false, false⟩

/-- `alarms != 0`. -/
def Alarms.any (a : Alarms) : Bool := a.noSignal || a.seqNum || a.noTod || a.badSignal

/-- `enum sfptpd_clock_ctrl` (`sfptpd_general_config.h`). -/
inductive ClockCtrl where
  | slewAndStep | stepAtStartup | noStep | stepForward
deriving DecidableEq, Repr

/-- The control flags modelled. -/
structure Flags where
  clockCtrl : Bool
  tsProc : Bool
deriving DecidableEq, Repr

/-- Configuration and clock of an instance; `fd` says that `poll_fd` is not -1. -/
structure Conf where
  ctrl : ClockCtrl
  prop : Rat
  freqMax : Rat
  fd : Bool
deriving DecidableEq, Repr

/-- `struct sfptpd_pps_instance` (lines 91-218). `saved` is the frequency
correction stored with the clock; `started` merges `instance_has_started` and
`instance_started_time`; the counters are those of lines 196-208. -/
structure Inst where
  conf : Conf
  state : St
  prevState : St
  alarms : Alarms
  prevAlarms : Alarms
  good : Nat
  stamp : Int
  seq : Nat
  period : Rat
  lastPps : Int
  notch : Notch
  fir : Fir
  pid : Pid
  outlier : Option Peirce
  base : Rat
  adj : Rat
  offset : Rat
  saved : Rat
  stepped : Bool
  active : Bool
  synced : Bool
  conv : Conv
  started : Option Int
  checked : Bool
  flags : Flags
  nSteps : Nat
  nSeq : Nat
  nBad : Nat
  nOutliers : Nat
  score : Int
  prevScore : Int
deriving DecidableEq, Repr

/-- `pps->time_of_day` (lines 76-85), shared by all instances; `source` says
that `source.module` is not NULL. -/
structure Tod where
  source : Bool
  next : Int
  state : TodSt
  offset : Int
deriving DecidableEq, Repr

/-- Counts given to the statistics by `pps_stats_update`. -/
structure Counts where
  synced : Bool
  steps : Nat
  noSignal : Nat
  seq : Nat
  tod : Nat
  bad : Nat
  outliers : Nat
deriving DecidableEq, Repr

/-- Effects outside the module. -/
inductive Out where
  /-- `sfptpd_clock_adjust_time`. -/
  | adjustTime (by_ : Int)
  /-- `sfptpd_clock_adjust_frequency`. -/
  | adjustFreq (ppb : Rat)
  /-- `sfptpd_sync_module_step_clock` to the source of the time of day. -/
  | stepTod
  /-- `sfptpd_engine_post_rt_stats`. -/
  | sample (offset : Rat) (synced : Bool) (alarms : Alarms)
  /-- `sfptpd_engine_sync_instance_state_changed`. -/
  | told (st : St) (alarms : Alarms) (score : Int)
  /-- `sfptpd_stats_collection_update_...`. -/
  | stats (c : Counts)
  /-- `sfptpd_clock_save_freq_correction`. -/
  | saveFreq (ppb : Rat)
deriving DecidableEq, Repr

/-- Result of a step: shared and own state, and effects. -/
abbrev Res := Option (Tod × Inst × List Out)

/-! ## The servo -/

/-- `pps_servo_reset` (lines 722-742). -/
def servoReset (t : Tod) (i : Inst) : Tod × Inst :=
  ({ t with offset := 0 },
   { i with fir := i.fir.reset, pid := i.pid.reset, base := i.saved, adj := i.saved, offset := 0,
            stamp := 0, period := 0 })

/-- `pps_servo_step_clock` (lines 745-785). Sending to a NULL thread fails an
assertion (`sfptpd_thread.c:1164`). -/
def stepClock (t : Tod) (i : Inst) (offset : Int) : Res :=
  let (t, i) := servoReset t i
  if t.source then some (t, { i with stepped := true }, [.adjustTime (-offset), .adjustFreq i.saved, .stepTod])
  else none

/-- Lines 806-815: the seconds from the time of day and the rest from the pulse. -/
def pulseDiff (tod time : Int) : Int :=
  let s := tod / sec
  let s := if tod % sec ≥ 500000000 then s + 1 else s
  let n := time % sec
  let s := if n ≥ 500000000 then s - 1 else s
  s * sec + n

/-- Lines 829-831. -/
def mayStep (i : Inst) (d : Rat) : Bool :=
  i.conf.ctrl = .slewAndStep || (i.conf.ctrl = .stepAtStartup && !i.active) || (i.conf.ctrl = .stepForward && d < 0)

/-- Lines 864-868. -/
def limit (m x : Rat) : Rat := if x > m then m else if x < -m then -m else x

/-- `pps_servo_update` (lines 788-881). -/
def servoUpdate (t : Tod) (i : Inst) (time : Int) : Res :=
  let diff := pulseDiff t.offset time
  let d : Rat := diff - i.conf.prop
  if mayStep i d ∧ (d ≤ -500000000 ∨ d ≥ 500000000) then
    if i.flags.clockCtrl then
      match stepClock t i diff with
      | none => none
      | some (t, i, outs) => some (t, { i with nSteps := i.nSteps + 1, active := true }, outs)
    else some (t, i, [])
  else
    match i.fir.update d with
    | none => none
    | some (fir, mean) =>
      let i := { i with fir := fir, offset := mean, adj := i.base }
      if i.flags.clockCtrl then
        match i.pid.update mean none with
        | none => none
        | some (pid, f) =>
          let adj := limit i.conf.freqMax (i.base + f)
          some (t, { i with pid := pid, adj := adj, active := true }, [.adjustFreq adj])
      else some (t, i, [])

/-! ## The state machine -/

/-- `pps_state_machine_reset` (lines 1314-1330). -/
def reset (i : Inst) : Inst :=
  { i with state := .listening, prevState := .listening, alarms := .none, prevAlarms := .none,
           good := 0, stamp := 0, seq := 0, period := 0, outlier := i.outlier.map Peirce.reset }

/-- `pps_on_no_pps_event` (lines 1333-1376). -/
def onNone (i : Inst) (now : Int) : Inst :=
  match i.state with
  | .listening => i
  | .slave =>
    let interval := now - i.lastPps
    if interval ≥ 60 * sec then reset i
    else if interval ≥ 1100000000 ∧ ¬ i.alarms.noSignal then
      { i with alarms := { i.alarms with noSignal := true } }
    else i
  | .faulty => reset i

/-- `pps_on_pps_error` (lines 1379-1404). -/
def onError (i : Inst) : Inst :=
  match i.state with
  | .faulty => i
  | _ => { reset i with state := .faulty }

/-- Lines 1473-1489: alarms and the sequence number. -/
def checkSeq (i : Inst) (seq : Nat) : Inst :=
  if seq ≠ 4294967295 ∧ seq ≠ (i.seq + 1) % 4294967296 then
    { i with alarms := { i.alarms with noSignal := false, seqNum := true }, nSeq := i.nSeq + 1 }
  else { i with alarms := { i.alarms with noSignal := false, seqNum := false } }

/-- Lines 1503-1523: the period. -/
def checkPeriod (i : Inst) (time : Int) : Inst :=
  if i.stamp / sec ≠ 0 then
    let p : Rat := (time - i.stamp : Int)
    if i.notch.update p then { i with period := p, good := i.good + 1 }
    else { i with period := p, good := 0, nBad := i.nBad + 1, alarms := { i.alarms with badSignal := true } }
  else i

/-- Lines 1536-1548: the outlier filter; whether the sample may be used. -/
def checkOutlier (i : Inst) : Option (Inst × Bool) :=
  match i.outlier with
  | none => some (i, true)
  | some p =>
    match p.update i.period with
    | none => none
    | some (p, out) =>
      if out then some ({ i with outlier := some p, nOutliers := i.nOutliers + 1 }, false)
      else some ({ i with outlier := some p }, true)

/-- Lines 1525-1567: the servo, if the pulses may be trusted. -/
def trusted (t : Tod) (i : Inst) (time : Int) (score : Int) : Res :=
  if i.good ≥ 3 then
    match checkOutlier { i with alarms := { i.alarms with badSignal := false } } with
    | none => none
    | some (i, ok) =>
      if ok then
        match servoUpdate t i time with
        | none => none
        | some (t, i, outs) => some (t, { i with score := score }, outs ++ [.sample i.offset i.synced i.alarms])
      else some (t, i, [])
  else some (t, i, [])

/-- Lines 1472-1568: an event in the slave state. -/
def onSlavePulse (t : Tod) (i : Inst) (seq : Nat) (time : Int) (score : Int) : Res :=
  let i := checkSeq i seq
  if ¬ i.flags.tsProc then some (t, i, [])
  else if i.stepped then some (t, { i with stepped := false, stamp := 0 }, [])
  else trusted t (checkPeriod i time) time score

/-- `pps_on_pps_event` (lines 1453-1582). -/
def onPulse (t : Tod) (i : Inst) (now : Int) (seq : Nat) (time : Int) (score : Int) : Res :=
  let r : Res :=
    match i.state with
    | .slave => onSlavePulse t i seq time score
    | _ => some (t, { i with state := .slave, period := 0 }, [])
  match r with
  | none => none
  | some (t, i, outs) =>
    some (t, { i with seq := seq, lastPps := now, stamp := if i.flags.tsProc then time else i.stamp }, outs)

/-! ## Polling -/

/-- What `pps_time_of_day_poll` finds: whether a source appears
(`pps_time_of_day_init`), the status it gives and the difference from the system
clock to the clock of the instance. -/
structure TodReply where
  found : Bool
  status : Option (TodSt × Int)
  compare : Option Int
deriving DecidableEq, Repr

/-- Lines 1634-1642 with `pps_time_of_day_init` (1585-1614). -/
def todFind (t : Tod) (now : Int) (r : TodReply) : Tod :=
  if t.source then t
  else if r.found then ⟨true, now, .other, 0⟩
  else t

/-- Lines 1644-1671. -/
def todAsk (t : Tod) (r : TodReply) : Tod :=
  if t.source then
    match r.status with
    | none => t
    | some (st, off) =>
      if off ≠ 0 then
        match r.compare with
        | some d => { t with state := st, offset := off + d }
        | none => { t with state := st, offset := off }
      else { t with state := st, offset := off }
  else t

/-- `pps_time_of_day_poll` (lines 1617-1688). -/
def todPoll (t : Tod) (i : Inst) (now : Int) (r : TodReply) : Tod × Inst :=
  if t.next - now ≥ 0 then (t, i)
  else
    let t := todAsk (todFind { t with next := t.next + sec } now r) r
    (t, { i with alarms := { i.alarms with noTod := if t.state = .slave ∨ t.state = .selection then false else true } })

/-- `pps_convergence_update` (lines 1199-1231). -/
def convUpdate (i : Inst) (now : Int) : Inst :=
  if i.state ≠ .slave then { i with synced := false, conv := i.conv.reset }
  else if i.alarms.any ∨ ¬ i.flags.tsProc then i
  else
    let r := i.conv.update (now / sec) i.offset
    { i with conv := r.1, synced := r.2 }

/-- Lines 1724-1741: whether the engine must be told. -/
def changed (i : Inst) : Bool :=
  i.state ≠ i.prevState || (i.state = .slave && i.alarms.any ≠ i.prevAlarms.any) || i.score ≠ i.prevScore

/-- `pps_stats_update` (lines 1255-1311): the counts. -/
def counts (i : Inst) : Counts :=
  ⟨i.synced, i.nSteps, if i.prevAlarms.noSignal ∧ ¬ i.alarms.noSignal then 1 else 0, i.nSeq,
   if i.prevAlarms.noTod ∧ ¬ i.alarms.noTod then 1 else 0, i.nBad, i.nOutliers⟩

/-- Lines 1718-1794: what follows the event in `pps_do_poll`. -/
def finish (t : Tod) (i : Inst) (now : Int) (r : TodReply) : Tod × Inst × List Out :=
  let (t, i) := todPoll t i now r
  let i := convUpdate i now
  let tell := if changed i then [Out.told i.state i.alarms i.score] else []
  (t, { i with nSteps := 0, nSeq := 0, nBad := 0, nOutliers := 0, prevState := i.state,
               prevAlarms := i.alarms, prevScore := i.score },
   .stats (counts i) :: tell)

/-- Result of `sfptpd_clock_pps_get`. -/
inductive Got where
  | nothing
  | error
  | pulse (seq : Nat) (time : Int)
deriving DecidableEq, Repr

/-- Lines 1710-1716. -/
def onGot (t : Tod) (i : Inst) (now : Int) (score : Int) : Got → Res
  | .nothing => some (t, onNone i now, [])
  | .error => some (t, onError i, [])
  | .pulse seq time => onPulse t i now seq time score

/-- `pps_do_poll` (lines 1691-1797). -/
def poll (t : Tod) (i : Inst) (now : Int) (g : Got) (r : TodReply) (score : Int) : Res :=
  match onGot t i now score g with
  | none => none
  | some (t, i, outs) =>
    let (t, i, outs') := finish t i now r
    some (t, i, outs ++ outs')

/-- Lines 1811-1831: the check of the first pulses. -/
def pulseCheck (i : Inst) (now : Int) : Inst :=
  match i.started with
  | none => { i with started := some now }
  | some t0 =>
    if ¬ i.checked ∧ now - t0 ≥ 8 * sec then
      if i.good < 3 then { i with checked := true, alarms := { i.alarms with noSignal := true } }
      else { i with checked := true }
    else i

/-- `pps_on_timer` (lines 1800-1845) for an instance, apart from its polls. -/
def tick (i : Inst) (now : Int) : Inst :=
  let i := pulseCheck i now
  if i.conf.fd then onNone i now else i

/-! ## Messages -/

/-- `pps_on_control` (lines 1919-1955). -/
def control (i : Inst) (mask flags : Flags) : Inst :=
  let f : Flags := ⟨if mask.clockCtrl then flags.clockCtrl else i.flags.clockCtrl,
                    if mask.tsProc then flags.tsProc else i.flags.tsProc⟩
  { i with pid := if i.flags.clockCtrl ∧ ¬ f.clockCtrl then i.pid.reset else i.pid,
           stamp := if i.flags.tsProc ∧ ¬ f.tsProc then 0 else i.stamp,
           flags := f }

/-- Lines 2047-2052 of `pps_on_save_state`. -/
def save (i : Inst) : Inst × List Out :=
  if i.synced ∧ i.flags.clockCtrl then ({ i with saved := i.adj }, [.saveFreq i.adj]) else (i, [])

/-- Events of an instance. -/
inductive Ev where
  | tick (now : Int)
  | poll (now : Int) (g : Got) (r : TodReply) (score : Int)
  | control (mask flags : Flags)
  /-- `pps_on_step_clock` (lines 1958-1972). -/
  | step (offset : Int)
  | save
  /-- `on_servo_pid_adjust` (lines 2275-2298). -/
  | pid (kp ki kd : Option Rat) (reset : Bool)
deriving DecidableEq, Repr

/-- An event of an instance. -/
def step (t : Tod) (i : Inst) : Ev → Res
  | .tick now => some (t, tick i now, [])
  | .poll now g r score => poll t i now g r score
  | .control mask flags => some (t, control i mask flags, [])
  | .step offset => stepClock t i offset
  | .save => some (t, (save i).1, (save i).2)
  | .pid kp ki kd rs => some (t, { i with pid := i.pid.adjust kp ki kd rs }, [])

/-! ## Start -/

/-- The rest of the configuration: sizes and constants of the filters, threshold
and time of convergence, and the correction stored with the clock. -/
structure Setup where
  conf : Conf
  firSize : Nat
  garbage : List Rat
  kp : Rat
  ki : Rat
  outlier : Option (Nat × Rat)
  minPeriod : Int
  maxOffset : Rat
  saved : Rat
deriving DecidableEq, Repr

/-- Lines 2205-2216. -/
def startOutlier : Option (Nat × Rat) → Option (Option Peirce)
  | none => some none
  | some (n, w) => (Peirce.create n w).map some

/-- `pps_start_instance` (lines 2169-2235) with `calloc` (line 983) before. -/
def start (s : Setup) : Option Inst :=
  match Notch.init 1000000000 100000000, Fir.init s.firSize s.garbage,
      (Pid.init s.kp s.ki 0 1).setIMax s.conf.freqMax, startOutlier s.outlier with
  | some notch, some fir, some pid, some outlier =>
    some { conf := s.conf, state := .listening, prevState := .listening, alarms := .none, prevAlarms := .none,
           good := 0, stamp := 0, seq := 0, period := 0, lastPps := 0, notch := notch, fir := fir, pid := pid,
           outlier := outlier, base := s.saved, adj := s.saved, offset := 0, saved := s.saved,
           stepped := false, active := false, synced := false, conv := ⟨s.minPeriod, s.maxOffset, 0, 0, 0⟩,
           started := none, checked := false, flags := ⟨false, true⟩, nSteps := 0, nSeq := 0, nBad := 0,
           nOutliers := 0, score := 0, prevScore := 0 }
  | _, _, _, _ => none

/-! ## The module -/

/-- `struct sfptpd_pps_module` (lines 68-88). -/
structure Mod where
  tod : Tod
  insts : List Inst
deriving DecidableEq, Repr

/-- What is seen of an event: the instance, the event and its effects. -/
structure Entry where
  idx : Nat
  ev : Ev
  outs : List Out
deriving DecidableEq, Repr

/-- An event of instance `k` (none, if there is no such instance). -/
def Mod.step (m : Mod) (k : Nat) (e : Ev) : Option (Mod × List Out) :=
  match m.insts[k]? with
  | none => some (m, [])
  | some i =>
    match Pps.step m.tod i e with
    | none => none
    | some (t, i, outs) => some (⟨t, m.insts.set k i⟩, outs)

/-- A sequence of events. -/
def Mod.run (m : Mod) : List (Nat × Ev) → Option (Mod × List Entry)
  | [] => some (m, [])
  | (k, e) :: es =>
    match m.step k e with
    | none => none
    | some (m, outs) =>
      match m.run es with
      | none => none
      | some (m, tr) => some (m, ⟨k, e, outs⟩ :: tr)

/-- The instances of `pps_on_startup` (lines 2316-2319). -/
def startAll : List Setup → Option (List Inst)
  | [] => some []
  | s :: ss =>
    match start s, startAll ss with
    | some i, some is => some (i :: is)
    | _, _ => none

/-- `pps_on_startup` (lines 2301-2339): the time of day from `calloc`, or with a source. -/
def Mod.start (ss : List Setup) (source : Option Int) : Option Mod :=
  match startAll ss with
  | none => none
  | some is =>
    match source with
    | none => some ⟨⟨false, 0, .other, 0⟩, is⟩
    | some now => some ⟨⟨true, now, .other, 0⟩, is⟩

end Verif.Pps
