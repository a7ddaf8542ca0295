/-
# Model: the GPS sync module

`gps_do_io`, `gps_state_machine`, `gps_parse_state`, `update_state` and what they call, of
`src/gps/sfptpd_gps_module.c`, for one instance.

Simplifications.
* Times, offsets and the accuracy are whole nanoseconds of any size instead of `long double` and
  `sfptpd_timespec`; no infinities and no NaN.
* What `gps_read` finds is an input, with the monotonic clock at that time (`none`: it cannot be read) and
  the system clock.
* Clustering, statistics, texts, satellites' names and traces are left out.
-/

namespace Verif.Gps

/-- `sfptpd_sync_module_state_t`, `include/sfptpd_sync_module.h` lines 72-81. -/
inductive St
  | listening | slave | master | passive | disabled | faulty | selection
deriving DecidableEq

/-- `struct gps_state`, lines 60-119. `offId` is `offset_id_tuple`, `none` if not valid. -/
structure S where
  st : St
  alarms : Nat
  offId : Option Int
  offset : Int
  acc : Int
  fix : Bool
  used : Int
  seen : Int
  stratum : Nat
  offUnsafe : Bool
  gpsTs : Int
  ts : Int
  sync : Bool
deriving DecidableEq

/-- `struct sfptpd_stats_convergence`, with `latest_time` left out. -/
structure Conv where
  num : Nat
  start : Int
  maxOffset : Int
deriving DecidableEq

/-- The parts of `sfptpd_sync_instance_status_t` that depend on the state. -/
structure Status where
  st : St
  alarms : Nat
  offset : Int
  remote : Bool
  /-- `SFPTPD_CLOCK_CLASS_LOCKED`, otherwise `SFPTPD_CLOCK_CLASS_FREERUNNING` -/
  locked : Bool
  /-- `SFPTPD_TIME_SOURCE_GPS`, otherwise the internal oscillator -/
  gps : Bool
  steps : Nat
deriving DecidableEq

/-- An instance. `tsp` is `SYNC_MODULE_TIMESTAMP_PROCESSING` in `ctrl_flags`; `told` is the last status
sent to the engine. -/
structure Inst where
  s : S
  conv : Conv
  tsp : Bool
  told : Option Status
deriving DecidableEq

/-- What `gps_read` has put in `gps_data`: satellites used and visible (`SATELLITE_SET`); mode, error of time
in nanoseconds and time (`STATUS_SET`); real and clock (`TOFF_SET`). -/
structure Report where
  sats : Option (Int × Int)
  status : Option (Int × Int × Int)
  toff : Option (Int × Int)
deriving DecidableEq

/-- `gps_parse_state`, lines 425-477. `rc` is not an error only if 0; `ENOPROTOOPT` is 92 and `EAGAIN` 11. -/
def parseState (rc : Int) (offUnsafe : Bool) (s : S) : S :=
  let s := if rc ≠ 0 then
      { s with st := if rc = 92 then .disabled else if rc = 11 then .listening else .faulty, offId := none }
    else s
  let s := if s.fix && !offUnsafe then { s with offId := some s.ts } else { s with offId := none }
  if s.fix && !offUnsafe then { s with st := .slave }
  else { s with st := if s.seen > 0 then .selection else .listening, gpsTs := 0, ts := 0, offset := 0, stratum := 0 }

/-- Lines 1119-1124. -/
def useSats (r : Report) (s : S) : S :=
  match r.sats with
  | some (u, v) => { s with used := u, seen := v }
  | none => s

/-- Lines 1126-1138. `MODE_2D` is 2. -/
def useStatus (r : Report) (s : S) : S :=
  match r.status with
  | some (mode, ept, t) => { s with fix := decide (mode ≥ 2), acc := ept, gpsTs := t }
  | none => s

/-- Lines 1140-1158. -/
def useToff (r : Report) (s : S) : S :=
  match r.toff with
  | some (real, clock) => if s.fix then { s with gpsTs := real, ts := clock, offset := clock - real } else s
  | none => s

/-- `gps_state_machine`, lines 1094-1166: the next state, and whether to go on. -/
def machine (s : S) (rc : Int) (r : Report) : S × Bool :=
  if rc < 0 then
    let n := parseState rc s.offUnsafe s
    (n, decide (n.st ≠ s.st))
  else
    let n := useToff r (useStatus r (useSats r s))
    let n := parseState rc n.offUnsafe n
    (n, decide (n.st ≠ s.st ∨ n.used ≠ s.used ∨ n.seen ≠ s.seen ∨ n.offset ≠ s.offset))

/-- `gps_handle_state_change`, lines 800-885: the status to send if it has changed. -/
def stateChange (old new : S) : Option Status :=
  if new.st ≠ old.st ∨ new.alarms ≠ old.alarms ∨ new.stratum ≠ old.stratum ∨
      (new.offset ≠ 0 ∧ old.offset = 0) then
    let sl := decide (new.st = .slave)
    some ⟨new.st, new.alarms, new.offset, sl, sl, sl, new.stratum⟩
  else none

/-- `sfptpd_stats_convergence_reset`, `sfptpd_statistics.c` lines 141-148. -/
def convReset (c : Conv) : Conv := { c with num := 0, start := 0 }

/-- `sfptpd_stats_convergence_update`, `sfptpd_statistics.c` lines 151-182, with the period of 60 s of
`include/sfptpd_statistics.h` line 24. -/
def convUpdate (c : Conv) (t offset : Int) : Conv × Bool :=
  if offset < -c.maxOffset ∨ offset > c.maxOffset then (convReset c, false)
  else if t < c.start then ({ c with num := 1, start := t }, false)
  else
    let start := if c.num = 0 then t else c.start
    ({ c with num := c.num + 1, start := start }, decide (t ≥ start + 60))

/-- `gps_convergence_update`, lines 322-356. The offset given is 0 (line 352). -/
def convergence (c : Conv) (tsp : Bool) (t : Option Int) (s : S) : Conv × Bool :=
  match t with
  | none => (convReset c, false)
  | some t =>
    if s.st ≠ .slave then (convReset c, false)
    else if s.alarms ≠ 0 ∨ tsp = false then (c, false)
    else convUpdate c t 0

/-- `gps_on_offset_id_change`, lines 544-553; `now` is the system clock. -/
def offIdChange (now : Int) (s : S) : S :=
  if s.offUnsafe && s.offId.isNone then { s with offUnsafe := false, ts := now } else s

/-- `update_state`, lines 888-934. -/
def updateState (i : Inst) (n : S) (t : Option Int) (now : Int) : Inst :=
  let status := stateChange i.s n
  let c := convergence i.conv i.tsp t n
  let n := { n with sync := c.2 }
  let n := if n.offId ≠ i.s.offId then offIdChange now n else n
  { i with s := n, conv := c.1, told := match status with | some x => some x | none => i.told }

/-- What happens to an instance. -/
inductive Ev
  /-- `gps_read` fails with this value of `errno` (positive) -/
  | fail (errno : Nat) (t : Option Int) (now : Int)
  /-- `gps_read` returns a number of bytes -/
  | data (bytes : Nat) (r : Report) (t : Option Int) (now : Int)
  /-- the clock is stepped by the engine -/
  | stepClock
  /-- timestamp processing is switched -/
  | control (tsp : Bool)

/-- `gps_do_io`, lines 1169-1191 (line 1177 compares `errno` with negative numbers); `gps_on_step_clock`, lines
646-656; `gps_on_control`, lines 623-643. `gps_read` returns -1 on failure. -/
def step (i : Inst) : Ev → Inst
  | .fail e t now =>
    if (e : Int) = -11 ∨ (e : Int) = -4 then i
    else
      let m := machine i.s (-1) ⟨none, none, none⟩
      if m.2 then updateState i m.1 t now else i
  | .data b r t now =>
    let m := machine i.s b r
    if m.2 then updateState i m.1 t now else i
  | .stepClock => i
  | .control tsp => { i with tsp := tsp }

/-- An instance just created (allocated with zeros), lines 954-984; the threshold is from `gps_convergence_init`,
lines 299-319. -/
def init (threshold : Int) : Inst :=
  { s := ⟨.listening, 0, none, 0, 0, false, 0, 0, 0, false, 0, 0, false⟩
    conv := ⟨0, 0, if threshold = 0 then 10000000 else threshold⟩, tsp := true, told := none }

/-- A life of an instance. -/
def run (threshold : Int) (es : List Ev) : Inst := es.foldl step (init threshold)

/-- `gps_on_get_status`, lines 570-620. -/
def query (i : Inst) : Status :=
  if i.s.st = .slave then ⟨i.s.st, i.s.alarms, i.s.offset, true, true, true, i.s.stratum⟩
  else ⟨i.s.st, i.s.alarms, i.s.offset, false, false, false, 0⟩

/-- `master.accuracy` in the answer of `gps_on_get_status`, lines 599-617; `none` is infinity. -/
def queryAcc (i : Inst) : Option Int := if i.s.st = .slave then some i.s.acc else none

end Verif.Gps
