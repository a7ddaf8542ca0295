import Verif.Time.Model

/-!
# Model of the measurements made by a slave

Models, in `src/ptp/ptpd2/protocol.c`: `isFromCurrentParent` (855-864),
the conversion of receive times in `processPortMessage` (1138-1168),
`processTxTimestamp` for Delay_Req (1539-1637), `handleSync` (1860-2063),
`stash_message` (2114-2147), `handleFollowUp` (2150-2265),
`processDelayReqFromSelf` (2338-2370), `handleDelayResp` (2374-2534),
`issueDelayReq` (3581-3648), `applyUtcOffset` (4022-4036), the parts of
`toState` (211-458) and of `doTimerTick` (580-850) that concern Sync and
Delay_Resp, and the parent data set written by `m1`, `p1` and `s1`
(`src/ptp/ptpd2/bmc.c:155-345`).

A history is a list of events: messages that have been unpacked, transmit
timestamps, timer expiries, decisions of the best master algorithm, changes by
management.  What is provided to the servo is the list of outputs of each event.

Simplifications.  Message intervals and the lengths of timers are left out;
a timer is only running or stopped.  The test modes (bad timestamps, emulated
transparent clock) are off.  Foreign master records, event monitors and
diagnostics do not affect the state modelled.  Adding the UTC offset to the
seconds of a time is not checked for overflow.  `none` stands for undefined
behaviour in the time arithmetic.
-/

namespace Verif.Slave

open Verif.Time

/-- `PortIdentity` (`src/ptp/ptpd2/datatypes.h`). -/
structure PortId where
  clock : Nat
  port : Nat
deriving DecidableEq, Repr

/-- `ptpd_state_e` (`src/ptp/ptpd2/constants.h`). -/
inductive PState where
  | uninitialized | initializing | faulty | disabled | listening | preMaster
  | master | passive | uncalibrated | slave
deriving DecidableEq, Repr

/-- `delayMechanism` (`src/ptp/ptpd2/constants.h`). -/
inductive Mech where
  | e2e | p2p | disabled
deriving DecidableEq, Repr

/-- The fields of `MsgHeader` that the handlers read: `sourcePortIdentity`,
`sequenceId`, the two-step bit of `flagField0` and `correctionField`. -/
structure Hdr where
  src : PortId
  seq : Nat
  twoStep : Bool
  corr : Int
deriving DecidableEq, Repr

/-- `struct sfptpd_ts_ticket` (`src/ptp/ptpd2/datatypes.h`): slot and sequence. -/
structure Ticket where
  slot : Nat
  seq : Nat
deriving DecidableEq, Repr

/-- The fields of `timePropertiesDS` used by `applyUtcOffset`, and
`fakeUtcAdjustment`. -/
structure Utc where
  valid : Bool
  offset : Int
  fake : Int
  timescale : Bool
deriving DecidableEq, Repr

/-- Options of the port: its identity, `delay_resp_ignore_port_id`,
`inboundLatency`, `outboundLatency`, `alwaysRespectUtcOffset`,
`missingInterfaceTolerance`, and the size of the payload of a stash slot. -/
structure Cfg where
  self : PortId
  ignorePort : Bool
  inbound : Ts
  outbound : Ts
  alwaysUtc : Bool
  tolerant : Bool
  stashSize : Nat
deriving Repr

/-- The fields of `PtpClock` and, last three lines, of `PtpInterface` that are
involved.  `cacheHdr`, `cacheBody` are `outOfOrderFollowUpHeader`/`Payload`;
`stash` is `msg_cache.packet[PTPD_MSG_DELAY_RESP]` when valid; `tmpTime` and
`tmpReq` are the first timestamp and the requesting port identity found in the
union `msgTmp`. -/
structure State where
  port : PState
  mech : Mech
  parent : PortId
  utc : Utc
  recvTime : Ts
  sendTime : Ts
  corrField : Ts
  recvSeq : Nat
  waiting : Bool
  cacheHdr : Hdr
  cacheBody : Wire
  firstSync : Bool
  sentSeq : Nat
  txPending : Bool
  rxPending : Bool
  ticket : Option Ticket
  dSend : Ts
  stash : Option (Hdr × Nat × Wire)
  reqTimer : Bool
  respTimer : Bool
  alarmRxTs : Bool
  alarmSync : Bool
  alarmFollowUp : Bool
  discarded : Nat
  mismatch : Nat
  formatErrors : Nat
  syncReceived : Nat
  followUpReceived : Nat
  delayRespReceived : Nat
  outOfOrder : Nat
  tmpTime : Wire
  tmpReq : PortId
deriving DecidableEq, Repr

/-- What is given to the servo: `servo_provide_m2s_ts`, `servo_provide_s2m_ts`,
`servo_missing_m2s_ts`, `servo_missing_s2m_ts` (`src/ptp/ptpd2/dep/servo.c`). -/
inductive Out where
  | m2s (send recv corr : Ts)
  | s2m (send recv corr : Ts)
  | missM2s
  | missS2m
deriving DecidableEq, Repr

/-- `isFromCurrentParent` (`protocol.c:855-864`). -/
def isParent (s : State) (h : Hdr) : Bool := decide (h.src = s.parent)

/-- `applyUtcOffset` (`protocol.c:4022-4036`). -/
def applyUtc (c : Cfg) (s : State) (t : Ts) : Ts :=
  if (s.port ≠ .master ∧ (s.utc.valid ∨ c.alwaysUtc)) ∨
     (s.port = .master ∧ s.utc.valid ∧ s.utc.timescale) then
    { t with sec := t.sec + s.utc.offset - s.utc.fake }
  else t

/-- The receive time given to the handlers (`protocol.c:1140-1142, 1166-1168`). -/
def rxTime (c : Cfg) (s : State) (t : Ts) : Option Ts :=
  if (applyUtc c s t).sec > 0 then subtract (applyUtc c s t) c.inbound
  else some (applyUtc c s t)

/-- The states in which a message concerning a slave is discarded and counted
(`protocol.c:1882-1889`, 2172-2179, 2247-2251 for a Follow_Up). -/
def idle (p : PState) : Bool :=
  decide (p = .initializing ∨ p = .faulty ∨ p = .disabled ∨ p = .listening)

/-- `handleFollowUp` (`protocol.c:2150-2265`).  Note that the body cached is the
one in `msgTmp`, not the one given (2201). -/
def handleFollowUp (s : State) (h : Hdr) (len : Nat) (w : Wire) (deferred : Bool) :
    Option (State × List Out) :=
  if len < 44 then some ({ s with formatErrors := s.formatErrors + 1 }, [])
  else if idle s.port ∨ s.port = .master ∨ s.port = .passive then
    some ({ s with discarded := s.discarded + 1, followUpReceived := s.followUpReceived + 1 }, [])
  else if s.port = .uncalibrated ∨ s.port = .slave then
    if ¬ isParent s h then
      some ({ s with discarded := s.discarded + 1,
                     followUpReceived := s.followUpReceived + 1 }, [])
    else
      let s := if s.cacheHdr.seq ≠ 0 ∧ ¬ deferred then
          { s with cacheHdr := { s.cacheHdr with seq := 0 }, discarded := s.discarded + 1 }
        else s
      if ¬ s.waiting then
        some ({ s with cacheHdr := h, cacheBody := s.tmpTime,
                       followUpReceived := s.followUpReceived + 1 }, [])
      else if s.recvSeq ≠ h.seq then
        some ({ s with mismatch := s.mismatch + 1,
                       followUpReceived := s.followUpReceived + 1 }, [])
      else do
        let corr ← fromNs16 h.corr
        some ({ s with alarmFollowUp := false, waiting := false,
                       sendTime := toInternalTime w, corrField := corr,
                       followUpReceived := s.followUpReceived + 1 },
              [.m2s (toInternalTime w) s.recvTime corr])
  else some ({ s with followUpReceived := s.followUpReceived + 1 }, [])

/-- The part of `handleSync` that records a timestamped Sync of the parent
(`protocol.c:1903-2005`). -/
def recordSync (s : State) (h : Hdr) (t : Ts) (w : Wire) (corr : Ts) : State × List Out :=
  ({ s with
      alarmRxTs := false
      alarmSync := false
      firstSync := false
      reqTimer := s.reqTimer || (s.firstSync && decide (s.mech = .e2e))
      recvTime := t
      alarmFollowUp := s.alarmFollowUp || s.waiting
      corrField := corr
      recvSeq := h.seq
      waiting := h.twoStep
      sendTime := if h.twoStep then s.sendTime else toInternalTime w },
   (if s.waiting then [.missM2s] else []) ++
     (if h.twoStep then [] else [.m2s (toInternalTime w) t corr]))

/-- The use of a cached Follow_Up at the end of `handleSync`
(`protocol.c:2030-2047`). -/
def useCached (s : State) : Option (State × List Out) :=
  if s.cacheHdr.seq = 0 then some (s, [])
  else if s.cacheHdr.seq = s.recvSeq then do
    let (s, o) ← handleFollowUp s s.cacheHdr 44 s.cacheBody true
    some ({ s with outOfOrder := s.outOfOrder + 1, cacheHdr := { s.cacheHdr with seq := 0 } }, o)
  else
    some ({ s with discarded := s.discarded + 1, cacheHdr := { s.cacheHdr with seq := 0 } }, [])

/-- `handleSync` (`protocol.c:1860-2063`); `t` is the receive time, `none` when
there is no valid timestamp. -/
def handleSync (s : State) (h : Hdr) (len : Nat) (w : Wire) (t : Option Ts) :
    Option (State × List Out) :=
  if len < 44 then some ({ s with formatErrors := s.formatErrors + 1 }, [])
  else if idle s.port ∨ s.port = .master then
    some ({ s with discarded := s.discarded + 1, syncReceived := s.syncReceived + 1 }, [])
  else if s.port = .uncalibrated ∨ s.port = .slave then
    if isParent s h then
      match t with
      | none => some ({ s with alarmRxTs := true }, [])
      | some t => do
        let corr ← fromNs16 h.corr
        let (s, o) := recordSync s h t w corr
        let (s, o') ← useCached s
        some ({ s with syncReceived := s.syncReceived + 1 }, o ++ o')
    else
      some ({ s with discarded := s.discarded + 1, syncReceived := s.syncReceived + 1 }, [])
  else some (s, [])

/-- `stash_message` (`protocol.c:2114-2147`) for a Delay_Resp. -/
def stashMessage (c : Cfg) (s : State) (h : Hdr) (plen : Nat) : State :=
  let s := if s.stash.isSome then { s with stash := none, discarded := s.discarded + 1 } else s
  if plen > c.stashSize then { s with discarded := s.discarded + 1 }
  else { s with stash := some (h, plen, s.tmpTime) }

/-- `handleDelayResp` (`protocol.c:2374-2534`).  Note that the requesting port
is read from `msgTmp` (2411-2415), also when a stashed message is handled. -/
def handleDelayResp (c : Cfg) (s : State) (h : Hdr) (len : Nat) (w : Wire) (deferred : Bool) :
    Option (State × List Out) :=
  if len < 54 then some ({ s with formatErrors := s.formatErrors + 1 }, [])
  else if s.mech ≠ .e2e then some ({ s with discarded := s.discarded + 1 }, [])
  else if idle s.port ∨ s.port = .uncalibrated then
    some ({ s with discarded := s.discarded + 1,
                   delayRespReceived := s.delayRespReceived + 1 }, [])
  else if s.port = .slave then
    if c.self = s.tmpReq ∧ (isParent s h ∨ c.ignorePort) then
      if ¬ deferred ∧ s.rxPending ∧ s.txPending then
        some ({ stashMessage c s h (len - 34) with rxPending := false }, [])
      else if ¬ deferred ∧ ¬ s.rxPending then
        some ({ s with discarded := s.discarded + 1,
                       delayRespReceived := s.delayRespReceived + 1 }, [])
      else if s.sentSeq ≠ h.seq then
        some ({ s with discarded := s.discarded + 1, mismatch := s.mismatch + 1,
                       delayRespReceived := s.delayRespReceived + 1 }, [])
      else do
        let corr ← fromNs16 h.corr
        some ({ s with rxPending := false, respTimer := false, reqTimer := true,
                       delayRespReceived := s.delayRespReceived + 1 },
              [.s2m s.dSend (toInternalTime w) corr])
    else
      some ({ s with discarded := s.discarded + 1,
                     delayRespReceived := s.delayRespReceived + 1 }, [])
  else some ({ s with delayRespReceived := s.delayRespReceived + 1 }, [])

/-- `processDelayReqFromSelf` (`protocol.c:2338-2370`). -/
def fromSelf (c : Cfg) (s : State) (t : Ts) : Option (State × List Out) := do
  let d ← add t c.outbound
  if ¬ s.txPending then some ({ s with dSend := d }, [])
  else if ¬ s.rxPending then
    match s.stash with
    | some (h, plen, w) =>
      handleDelayResp c { s with dSend := d, txPending := false, stash := none } h (plen + 34) w true
    | none => some ({ s with dSend := d, txPending := false }, [])
  else some ({ s with dSend := d, txPending := false }, [])

/-- `toState` (`protocol.c:211-458`).  `uninitialized` and `preMaster` are not
recognised and leave the state as it is. -/
def toState (s : State) (p : PState) : State :=
  { s with
      reqTimer := false
      respTimer := false
      alarmRxTs := false
      alarmSync := false
      alarmFollowUp := false
      waiting := s.waiting && decide (p ≠ .slave)
      txPending := s.txPending && decide (p ≠ .slave)
      rxPending := s.rxPending && decide (p ≠ .slave)
      firstSync := s.firstSync || decide (p = .slave)
      port := if p = .uninitialized ∨ p = .preMaster then s.port else p }

/-- How the sending of a Delay_Req ends (`protocol.c:3602-3628`): no common
capability, failure of `netSendEvent`, or sent, with the ticket given by
`netExpectTimestamp` if it gave one. -/
inductive Sent where
  | noCaps
  | failed
  | sent (ticket : Option Ticket)
deriving DecidableEq, Repr

/-- `issueDelayReq` (`protocol.c:3581-3648`) with `handleSendFailure` (468-480). -/
def issueDelayReq (c : Cfg) (s : State) (o : Sent) : State :=
  let s := { s with sentSeq := (s.sentSeq + 1) % 65536, rxPending := false, txPending := false }
  match o with
  | .noCaps => s
  | .failed => toState s (if c.tolerant then .listening else .faulty)
  | .sent t =>
    { s with ticket := t.or s.ticket, reqTimer := false, respTimer := true,
             rxPending := true, txPending := true }

/-- The states whose timers are those of a slave (`protocol.c:645-650`). -/
def slaveLike (p : PState) : Bool :=
  decide (p = .listening ∨ p = .uncalibrated ∨ p = .slave ∨ p = .passive)

/-- The events of the life of a port.  Messages carry the length used, the
body and, for Sync, the receive time taken by the interface.  A transmit
timestamp carries the ticket and the sequence number of the packet matched;
`loop` tells that it was found by the looping back of the packet, with system
timestamps (`protocol.c:1147-1158`). -/
inductive Event where
  | sync (h : Hdr) (len : Nat) (origin : Wire) (time : Option Ts)
  | followUp (h : Hdr) (len : Nat) (origin : Wire)
  | delayResp (h : Hdr) (len : Nat) (recv : Wire) (requesting : PortId)
  | otherMsg (first : Wire) (requesting : PortId)
  | txTime (loop : Bool) (seq : Nat) (ticket : Ticket) (time : Ts)
  | reqExpired (o : Sent)
  | respExpired
  | syncExpired
  | bmc (parent : PortId) (p : PState)
  | goto (p : PState)
  | setMech (m : Mech)
  | setUtc (u : Utc)
  | reinit
deriving DecidableEq, Repr

/-- One event.  Messages looped back are not handled (`protocol.c:1160-1163`).
Unpacking a message overwrites the beginning of `msgTmp` (1193-1245); the body
of a Sync or Follow_Up ends before the place of the requesting port.
`bmc`: `protocol.c:588-610` with `m1`, `p1`, `s1`.  `reinit`: the tickets are
reset (`bmc.c:135-139`). -/
def step (c : Cfg) (s : State) : Event → Option (State × List Out)
  | .sync h len w t =>
    if h.src = c.self then some (s, [])
    else match t with
      | none => handleSync { s with tmpTime := w } h len w none
      | some t => do
        let t ← rxTime c s t
        handleSync { s with tmpTime := w } h len w (some t)
  | .followUp h len w =>
    if h.src = c.self then some (s, [])
    else handleFollowUp { s with tmpTime := w } h len w false
  | .delayResp h len w r =>
    if h.src = c.self then some (s, [])
    else handleDelayResp c { s with tmpTime := w, tmpReq := r } h len w false
  | .otherMsg w r => some ({ s with tmpTime := w, tmpReq := r }, [])
  | .txTime loop seq tk t =>
    if s.ticket = some tk ∧ seq = s.sentSeq then do
      let t := if loop then applyUtc c s t else t
      let (s, o) ← fromSelf c s (applyUtc c s t)
      some ({ s with ticket := none }, o)
    else some (s, [])
  | .reqExpired o =>
    if slaveLike s.port ∧ s.mech = .e2e ∧ s.reqTimer then some (issueDelayReq c s o, [])
    else some (s, [])
  | .respExpired =>
    if slaveLike s.port ∧ s.respTimer then
      some ({ s with respTimer := false, reqTimer := true }, [.missS2m])
    else some (s, [])
  | .syncExpired =>
    if slaveLike s.port then some ({ s with alarmSync := true }, [.missM2s])
    else some (s, [])
  | .bmc q p =>
    if s.port = .listening ∨ s.port = .passive ∨ s.port = .slave ∨ s.port = .master then
      some (if p ≠ s.port then toState { s with parent := q } p else { s with parent := q }, [])
    else some (s, [])
  | .goto p => some (toState s p, [])
  | .setMech m => some ({ s with mech := m }, [])
  | .setUtc u => some ({ s with utc := u }, [])
  | .reinit => some ({ s with ticket := none }, [])

/-- A step of a history: the state before, the event and the outputs. -/
structure Entry where
  before : State
  ev : Event
  outs : List Out

/-- Running a list of events, keeping the history. -/
def run (c : Cfg) (s : State) : List Event → Option (State × List Entry)
  | [] => some (s, [])
  | e :: es => do
    let (s', o) ← step c s e
    let (s'', tr) ← run c s' es
    some (s'', { before := s, ev := e, outs := o } :: tr)

/-- A port that has been created: nothing is pending (`calloc` of the
`PtpClock` in `src/ptp/ptpd2/ptpd_lib.c` and `initData`). -/
def init (mech : Mech) (parent self : PortId) : State where
  port := .initializing
  mech := mech
  parent := parent
  utc := ⟨false, 0, 0, false⟩
  recvTime := null
  sendTime := null
  corrField := null
  recvSeq := 0
  waiting := false
  cacheHdr := ⟨⟨0, 0⟩, 0, false, 0⟩
  cacheBody := ⟨0, 0⟩
  firstSync := false
  sentSeq := 0
  txPending := false
  rxPending := false
  ticket := none
  dSend := null
  stash := none
  reqTimer := false
  respTimer := false
  alarmRxTs := false
  alarmSync := false
  alarmFollowUp := false
  discarded := 0
  mismatch := 0
  formatErrors := 0
  syncReceived := 0
  followUpReceived := 0
  delayRespReceived := 0
  outOfOrder := 0
  tmpTime := ⟨0, 0⟩
  tmpReq := self

end Verif.Slave
