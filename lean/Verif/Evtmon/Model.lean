import Verif.Time.Model

/-!
# Model of the monitoring events reported by a slave

Models `src/ptp/ptpd2/evtmon.c` (lines 65-454), the parsing of the interval between samples
(`src/ptp/sfptpd_ptp_config.c:1179-1245`), and the translation of alarms to and from the form
used in messages (`src/ptp/ptpd2/ptpd_lib.c:858-968`, `src/ptp/sfptpd_ptp_monitor.c:556-575,
836-892`).

A message is the identity, and for transmission the type, put before its records, and the
records; how these are encoded is C57. The arrays of records are memory indexed from 0. The
records of the three types of transmitted messages are in one array of two dimensions, of
which indices beyond the row lead into the next row. The offset and the path delay of the
computed data come from outside, already scaled. Sending to each destination and its counters
are left out.
-/

namespace Verif.Evtmon
open Verif.Time

/-- `SlaveEventMonitoringConfig` (`src/ptp/ptpd2/datatypes.h:453-466`); the numbers are
`Integer16`. -/
structure Config where
  logging : Bool
  tlv : Bool
  skip : Int
  perTlv : Int
deriving DecidableEq, Repr

/-- The default (`src/ptp/ptpd2/ptpd_lib.c:106-119`); there is no option for the number of
events in a message. -/
def defaultConfig : Config := ⟨false, false, 0, 8⟩

/-- The conversion of an `int` to an `Integer16`. -/
def s16 (v : Int) : Int := (v + 32768) % 65536 - 32768

/-- `parse_mon_rx_sync_timing_data` and its two companions
(`src/ptp/sfptpd_ptp_config.c:1179-1245`): the parameter, if there is one, is an `int`. -/
def parse (param : Option Int) (c : Config) : Config :=
  { c with logging := true, tlv := true, skip := match param with | some n => s16 n | none => c.skip }

/-- `SlaveEventMonitoringState` (`datatypes.h:468-474`); a port identity is a number. -/
structure State where
  skipCount : Int
  num : Nat
  source : Nat
deriving DecidableEq, Repr

/-- The state of a new port, in memory obtained by `calloc`. -/
def State.init : State := ⟨0, 0, 0⟩

/-- A message: the identity put before the records, and the records. -/
structure Msg (R : Type) where
  source : Nat
  records : List R
deriving DecidableEq, Repr

/-- An array of records in memory. -/
abbrev Mem (R : Type) := Nat → R

/-- Assignment at an index. -/
def put {I A : Type} [DecidableEq I] (f : I → A) (i : I) (a : A) : I → A := fun j => if j = i then a else f j

/-- `flushSlaveRxSyncTimingData`, `flushSlaveRxSyncComputedData` and
`flushSlaveTxEventTimestamps` (lines 116-183, 306-340), given the identity they put before the
records and where the records are. `none` is the failed assertion. -/
def flush {R : Type} (c : Config) (base label : Nat) (m : Mem R) (s : State) : Option (State × List (Msg R)) :=
  if c.tlv then
    if (s.num : Int) ≤ c.perTlv then
      some ({ s with num := 0 }, [⟨label, (List.range s.num).map fun i => m (base + i)⟩])
    else none
  else some (s, [])

/-- What is done when the parent has changed (lines 205-217, 261-271, 365-376 of the monitors
below). -/
def changeSource {R : Type} (c : Config) (base : Nat) (label : Nat → Nat) (parent : Nat) (m : Mem R) (s : State) :
    Option (State × List (Msg R)) :=
  if parent ≠ s.source then
    if s.num ≠ 0 then
      match flush c base (label s.source) m s with
      | some (s, out) => some ({ s with num := 0, source := parent }, out)
      | none => none
    else some ({ s with source := parent }, [])
  else some (s, [])

/-- What is done for an event that is not skipped (lines 201-235, 254-288, 360-400). The place of
the record is determined first. -/
def sample {R : Type} (c : Config) (base size : Nat) (label : Nat → Nat) (parent : Nat) (fill : R → Option R)
    (m : Mem R) (s : State) : Option (Mem R × State × List (Msg R)) :=
  let i := base + s.num
  match changeSource c base label parent m s with
  | none => none
  | some (s, out₁) =>
    if i < size then
      match fill (m i) with
      | none => none
      | some r =>
        let m' := put m i r
        let s := { s with num := s.num + 1 }
        if (s.num : Int) = c.perTlv then
          match flush c base (label s.source) m' s with
          | some (s, out₂) => some (m', { s with num := 0 }, out₁ ++ out₂)
          | none => none
        else some (m', s, out₁)
    else none

/-- The counting of events (lines 237-241, 290-294, 402-406); `none` is the overflow of an
`int`. -/
def advance (c : Config) (s : State) : Option State :=
  if s.skipCount = c.skip then some { s with skipCount := 0 }
  else if s.skipCount < 2147483647 then some { s with skipCount := s.skipCount + 1 }
  else none

/-- `rxSyncTimingDataMonitor`, `rxSyncComputedDataMonitor` and `egressEventMonitor` (lines
186-243, 246-296, 343-408), which differ in where the records are (`base`, in an array of
`size`), in the identity put before them (`label`, given the recorded one), and in how a record is
filled in (`fill`, given what the memory held; it may overflow). `none` is an access outside the
array, the overflow of a counter or a failed assertion. -/
def monitor {R : Type} (c : Config) (base size : Nat) (label : Nat → Nat) (parent : Nat) (fill : R → Option R)
    (m : Mem R) (s : State) : Option (Mem R × State × List (Msg R)) :=
  if c.logging then
    match if s.skipCount = 0 then sample c base size label parent fill m s else some (m, s, []) with
    | none => none
    | some (m, s, out) =>
      match advance c s with
      | none => none
      | some s => some (m, s, out)
  else some (m, s, [])

/-- A `Timestamp` in memory after `fromInternalTime`, whose result is not looked at: the old
value stays when the time is before the epoch. -/
def stamp (t : Ts) (old : Wire) : Wire := match fromInternalTime t with | some (w, _) => w | none => old

/-- `SlaveRxSyncTimingDataElement`, without `cumulativeScaledRateOffset`, which is 0. -/
structure Timing where
  seq : Nat
  origin : Wire
  correction : Int
  ingress : Wire
deriving DecidableEq, Repr

/-- What the timing data of a Sync message are made of: `recvSyncSequenceId`,
`sync_send_time`, `sync_receive_time` and `sync_correction_field`. -/
structure SyncTimes where
  seq : Nat
  send : Ts
  receive : Ts
  correction : Ts
deriving DecidableEq, Repr

/-- Lines 219-228; `none` is an overflow in `sfptpd_time_to_ns16`. -/
def fillTiming (e : SyncTimes) (old : Timing) : Option Timing :=
  (toNs16 e.correction).map fun corr => ⟨e.seq, stamp e.send old.origin, corr, stamp e.receive old.ingress⟩

/-- `rxSyncTimingDataMonitor` (lines 186-243), called with each Sync of a slave. -/
def rxTiming (c : Config) (parent : Nat) (e : SyncTimes) (m : Mem Timing) (s : State) :
    Option (Mem Timing × State × List (Msg Timing)) :=
  monitor c 0 10 id parent (fillTiming e) m s

/-- `SlaveRxSyncComputedDataElement`, without `scaledNeighbourRateRatio`, which is 0. -/
structure Computed where
  seq : Nat
  offset : Int
  delay : Int
deriving DecidableEq, Repr

/-- `rxSyncComputedDataMonitor` (lines 246-296). -/
def rxComputed (c : Config) (parent : Nat) (e : Computed) (m : Mem Computed) (s : State) :
    Option (Mem Computed × State × List (Msg Computed)) :=
  monitor c 0 10 id parent (fun _ => some e) m s

/-- `SlaveTxEventTimestampsElement`. -/
structure TxStamp where
  seq : Nat
  egress : Wire
deriving DecidableEq, Repr

/-- The message types of `ptpd_slave_tx_ts_msg_e` (`src/ptp/ptpd2/constants.h:516-521`). -/
inductive TxType where
  | delayReq
  | pdelayReq
  | pdelayResp
deriving DecidableEq, Repr

/-- The value of the enumeration. -/
def TxType.toNat : TxType → Nat
  | .delayReq => 0
  | .pdelayReq => 1
  | .pdelayResp => 2

/-- A transmission: its type, sequence number and time. -/
structure Sent where
  type : TxType
  seq : Nat
  time : Ts
deriving DecidableEq, Repr

/-- `slave_tx_event_timestamps_records` and `slave_tx_event_timestamps_state`
(`datatypes.h:1100-1101`). The array has 10 rows of 3; the row is chosen by the type. -/
structure TxState where
  mem : Mem TxStamp
  st : TxType → State

/-- `egressEventMonitor` (lines 343-408) of the port `own`. The messages carry their type
(`eventMessageType`, line 321). -/
def egress (c : Config) (own parent : Nat) (e : Sent) (t : TxState) : Option (TxState × List (TxType × Msg TxStamp)) :=
  match monitor c (3 * e.type.toNat) 30 (fun _ => own) parent (fun old => some ⟨e.seq, stamp e.time old.egress⟩) t.mem (t.st e.type) with
  | none => none
  | some (m, s, out) => some (⟨m, put t.st e.type s⟩, out.map fun x => (e.type, x))

/-- A history of calls of a monitor, with the messages of all calls. -/
def runMonitor {E S O : Type} (step : E → S → Option (S × List O)) : List E → S → Option (S × List O)
  | [], s => some (s, [])
  | e :: es, s =>
    match step e s with
    | none => none
    | some (s, o) =>
      match runMonitor step es s with
      | none => none
      | some (s, os) => some (s, o ++ os)

/-- The memory and the state of a monitor as one. -/
def paired {R : Type} (step : Mem R → State → Option (Mem R × State × List (Msg R))) (x : Mem R × State) :
    Option ((Mem R × State) × List (Msg R)) :=
  match step x.1 x.2 with
  | none => none
  | some (m, s, out) => some ((m, s), out)

/-- Calls of `rxSyncTimingDataMonitor`, with the parent at each. -/
def timings (c : Config) : List (Nat × SyncTimes) → Mem Timing × State → Option ((Mem Timing × State) × List (Msg Timing)) :=
  runMonitor fun e => paired (rxTiming c e.1 e.2)

/-- Calls of `rxSyncComputedDataMonitor`, with the parent at each. -/
def computeds (c : Config) : List (Nat × Computed) → Mem Computed × State → Option ((Mem Computed × State) × List (Msg Computed)) :=
  runMonitor fun e => paired (rxComputed c e.1 e.2)

/-- Calls of `egressEventMonitor`, with the parent at each. -/
def egresses (c : Config) (own : Nat) : List (Nat × Sent) → TxState → Option (TxState × List (TxType × Msg TxStamp)) :=
  runMonitor fun e => egress c own e.1 e.2

/-- Bits of `sfptpd_sync_module_alarms_t` (`src/include/sfptpd_sync_module.h:87-119`) that have a
message type (`TRANSLATE_ALARM_TO_MSG_TYPE`, `ptpd_lib.c:867-871`), with that type. -/
def msgTypeAlarms : List (Nat × Nat) := [(0, 0), (1, 8), (2, 9), (3, 3), (4, 10)]

/-- Those that have a bit in `otherAlarms` (`TRANSLATE_ALARM_TO_PROTO`, `ptpd_lib.c:912-915`),
with that bit. -/
def otherAlarms : List (Nat × Nat) := [(5, 0), (6, 1), (11, 2), (12, 3)]

/-- A word of `int` width with one bit set. -/
def bit (i : Nat) : BitVec 32 := 1#32 <<< i

/-- The four translations (`ptpd_lib.c:858-937`), each a list of tests: of the bits of the word
given, those translated are cleared in it and set in the result. -/
def translate : List (Nat × Nat) → BitVec 32 → BitVec 32 → BitVec 32 × BitVec 32
  | [], w, r => (w, r)
  | (i, j) :: l, w, r => if w &&& bit i ≠ 0 then translate l (w &&& ~~~ bit i) (r ||| bit j) else translate l w r

/-- The opposite table. -/
def flip (l : List (Nat × Nat)) : List (Nat × Nat) := l.map Prod.swap

/-- The fields of `SlaveStatus` made by `ptpd_publish_status` (`ptpd_lib.c:940-968`). Each is
sent as sixteen bits. -/
structure Status where
  missing : BitVec 16
  other : BitVec 16
  events : BitVec 16
  flags : BitVec 16
deriving DecidableEq, Repr

/-- `ptpd_publish_status` (`ptpd_lib.c:940-968`) and the assignments of `slaveStatusMonitor`
(`evtmon.c:437-441`). -/
def publish (alarms : BitVec 32) (selected inSync bondChanged : Bool) : Status :=
  let (w, missing) := translate msgTypeAlarms alarms 0
  let (w, other) := translate otherAlarms w 0
  let other := if w ≠ 0 then other ||| bit 4 else other
  let events := if bondChanged then bit 0 else 0
  let flags := (if inSync then bit 0 else 0) ||| (if selected then bit 1 else 0)
  ⟨missing.setWidth 16, other.setWidth 16, events.setWidth 16, flags.setWidth 16⟩

/-- What `monitor_write_json_slave_status` (`sfptpd_ptp_monitor.c:836-892`) prints of a status:
bond-changed, selected, in-sync, and the alarms in `msg-alarms` and `alarms`, as bits of
`sfptpd_sync_module_alarms_t`. -/
structure Json where
  bondChanged : Bool
  selected : Bool
  inSync : Bool
  msgAlarms : BitVec 32
  alarms : BitVec 32
deriving DecidableEq, Repr

/-- `sfptpd_ptp_monitor.c:858-889`. -/
def json (s : Status) : Json where
  bondChanged := s.events.setWidth 32 &&& bit 0 ≠ 0
  selected := s.flags.setWidth 32 &&& bit 1 ≠ 0
  inSync := s.flags.setWidth 32 &&& bit 0 ≠ 0
  msgAlarms := (translate (flip msgTypeAlarms) (s.missing.setWidth 32) 0).2
  alarms := (translate (flip otherAlarms) (s.other.setWidth 32) 0).2

/-- The letters of the text table (`sfptpd_ptp_monitor.c:556-575`) for other alarms, in the order
of the columns: unknown, servo, interface, receive and transmit timestamps. -/
def letters (s : Status) : List Bool :=
  [4, 3, 2, 1, 0].map fun i => s.other.setWidth 32 &&& bit i ≠ 0

end Verif.Evtmon
