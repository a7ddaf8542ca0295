import Verif.Slave.Model

/-!
# Model of the messages a port sends and of the peer delay mechanism

Models, of `src/ptp/ptpd2/protocol.c`: `issueAnnounce` (3399-3428), `issueSync`
(3432-3483), `issueFollowup` (3540-3562), `issuePDelayReq` (3651-3705),
`issuePDelayResp` (3708-3768), `issueDelayResp` (3772-3840),
`issuePDelayRespFollowUp` (3905-3934), `handleDelayReq` (2268-2336),
`handlePDelayReq` (2538-2601), `processPDelayReqFromSelf` (2604-2619),
`handlePDelayResp` (2622-2760), `processPDelayRespFromSelf` (2763-2776),
`handlePDelayRespFollowUp` (2779-2881), `processSyncFromSelf` (2087-2098),
`processTxTimestamp` (1539-1636), `applyUtcOffset` (4022-4036), and the parts
of `toState` (211-458), `handleSendFailure` (468-480) and `doTimerTick`
(645-850) that concern these messages.

Simplifications.  Times are exact numbers of units of `2^-32` ns, as the time
functions were shown to be exact in `Verif.Time`; correction fields are in the
same unit.  Timers are only running or stopped.  The test modes are off.  A
transmit timestamp is given by its ticket; the kind of packet and its sequence
number are found in the list of packets sent, as `netMatchPacketToTsCache`
does (`Verif.TxCache`).  `netExpectTimestamp` always gives a ticket
(`src/ptp/ptpd2/dep/net.c:2285-2341`).  The looking at the error queue that
follows the sending of an event message is a later event.  The second UTC
shift of packets read back from the wire is modelled in `Verif.Slave`.
-/

namespace Verif.Peer

open Verif.Slave (PortId PState Mech Utc Ticket)

/-- The fields of `MsgHeader` that the handlers read. -/
structure Hdr where
  src : PortId
  seq : Nat
  twoStep : Bool
  unicast : Bool
  corr : Int
deriving DecidableEq, Repr

/-- The kinds of packets with a transmit timestamp (`src/ptp/ptpd2/datatypes.h`,
`TS_SYNC`, `TS_PDELAY_REQ`, `TS_PDELAY_RESP`; others are those of a slave). -/
inductive Kind where
  | sync | preq | presp
deriving DecidableEq, Repr

/-- The messages sent.  A Delay_Resp goes to a port identity, by unicast to an
address or by multicast. -/
inductive Msg where
  | announce (seq : Nat)
  | sync (seq : Nat)
  | followUp (seq : Nat) (time : Int)
  | delayResp (to : PortId) (seq : Nat) (time corr : Int) (addr : Option Nat)
  | preq (seq : Nat)
  | presp (to : PortId) (seq : Nat) (time : Int)
  | prespFollowUp (to : PortId) (seq : Nat) (time corr : Int)
deriving DecidableEq, Repr

/-- What a port does: send a message, give a measurement to the servo
(`servo_provide_p2p_ts`) or report one missing (`servo_missing_p2p_ts`). -/
inductive Out where
  | send (m : Msg)
  | measure (t1 t2 t3 t4 corr : Int)
  | missing
deriving DecidableEq, Repr

/-- Options of the port. -/
structure Cfg where
  self : PortId
  mech : Mech
  inbound : Int
  outbound : Int
  alwaysUtc : Bool
  tolerant : Bool

/-- The fields of `PtpClock` involved.  `unicastOk`, `multicastOk`: the bits of
`effective_comm_caps.delayRespCapabilities`.  `cache`: the packets whose
transmit timestamp may come, latest first.  The last lines are counters of
messages sent, as in `src/ptp/ptpd2/datatypes.h:120-145`. -/
structure State where
  port : PState
  mech : Mech
  utc : Utc
  unicastOk : Bool
  multicastOk : Bool
  cache : List (Ticket × Kind × Nat)
  syncSeq : Nat
  syncTicket : Option Ticket
  annSeq : Nat
  reqSeq : Nat
  reqTicket : Option Ticket
  waitResp : Bool
  waitFollow : Bool
  respSeq : Nat
  t1 : Int
  t2 : Int
  t3 : Int
  t4 : Int
  corr : Int
  reqTimer : Bool
  respTimer : Bool
  preqHdr : Hdr
  prespTicket : Option Ticket
  nAnnounce : Nat
  nSync : Nat
  nFollowUp : Nat
  nDelayResp : Nat
  nPreq : Nat
  nPresp : Nat
  nPrespFollowUp : Nat
deriving DecidableEq

/-- One second, in the units of times. -/
def second : Int := 4294967296000000000

/-- `applyUtcOffset` (`protocol.c:4022-4036`). -/
def applyUtc (c : Cfg) (s : State) (t : Int) : Int :=
  if (s.port ≠ .master ∧ (s.utc.valid ∨ c.alwaysUtc)) ∨
     (s.port = .master ∧ s.utc.valid ∧ s.utc.timescale) then
    t + (s.utc.offset - s.utc.fake) * second
  else t

/-- The receive time given to the handlers (`protocol.c:1140-1142, 1166-1168`). -/
def rxTime (c : Cfg) (s : State) (t : Int) : Int :=
  if applyUtc c s t ≥ second then applyUtc c s t - c.inbound else applyUtc c s t

/-- `toState` (`protocol.c:211-458`): the timers of the peer delay mechanism.
The effective capabilities become those configured, for a slave also those of
the master; they are given. -/
def toState (s : State) (p : PState) (uni multi : Bool) : State :=
  let stop := decide (p = .initializing ∨ p = .faulty ∨ p = .disabled)
  let start := decide (p = .listening ∨ p = .master ∨ p = .passive ∨ p = .slave) &&
    decide (s.mech = .p2p)
  { s with
      unicastOk := uni
      multicastOk := multi
      reqTimer := if stop then false else s.reqTimer || start
      respTimer := if stop then false else s.respTimer
      port := if p = .uninitialized ∨ p = .preMaster then s.port else p }

/-- How the sending of a message ends. -/
inductive Sent where
  | failed
  | sent (ticket : Ticket)
deriving DecidableEq, Repr

/-- `handleSendFailure` (`protocol.c:468-480`). -/
def failure (c : Cfg) (s : State) : State :=
  toState s (if c.tolerant then .listening else .faulty) s.unicastOk s.multicastOk

/-- `netExpectTimestamp` (`src/ptp/ptpd2/dep/net.c:2285-2341`). -/
def expect (s : State) (tk : Ticket) (k : Kind) (seq : Nat) : State :=
  { s with cache := (tk, k, seq) :: s.cache }

/-- The next sequence number. -/
def next (n : Nat) : Nat := (n + 1) % 65536

/-- `issueAnnounce` (`protocol.c:3399-3428`). -/
def issueAnnounce (c : Cfg) (s : State) (ok : Bool) : State × List Out :=
  if ok then
    ({ s with annSeq := next s.annSeq, nAnnounce := s.nAnnounce + 1 }, [.send (.announce s.annSeq)])
  else (failure c s, [])

/-- `issueSync` (`protocol.c:3432-3483`). -/
def issueSync (c : Cfg) (s : State) (o : Sent) : State × List Out :=
  let s := { s with syncSeq := next s.syncSeq }
  match o with
  | .failed => (failure c s, [])
  | .sent tk =>
    (expect { s with nSync := s.nSync + 1, syncTicket := some tk } tk .sync s.syncSeq,
      [.send (.sync s.syncSeq)])

/-- `issueFollowup` (`protocol.c:3540-3562`). -/
def issueFollowup (c : Cfg) (s : State) (t : Int) (seq : Nat) (ok : Bool) : State × List Out :=
  if ok then ({ s with nFollowUp := s.nFollowUp + 1 }, [.send (.followUp seq t)])
  else (failure c s, [])

/-- `issuePDelayReq` (`protocol.c:3651-3705`). -/
def issuePDelayReq (c : Cfg) (s : State) (o : Sent) : State × List Out :=
  let s := { s with reqSeq := next s.reqSeq, waitResp := false, waitFollow := false }
  match o with
  | .failed => (failure c s, [])
  | .sent tk =>
    (expect { s with reqTicket := some tk, nPreq := s.nPreq + 1, reqTimer := false,
                     respTimer := true } tk .preq s.reqSeq,
      [.send (.preq s.reqSeq)])

/-- `issuePDelayResp` (`protocol.c:3708-3768`). -/
def issuePDelayResp (c : Cfg) (s : State) (h : Hdr) (t : Int) (o : Sent) : State × List Out :=
  match o with
  | .failed => (failure c s, [])
  | .sent tk =>
    (expect { s with prespTicket := some tk, nPresp := s.nPresp + 1 } tk .presp h.seq,
      [.send (.presp h.src h.seq t)])

/-- `issuePDelayRespFollowUp` (`protocol.c:3905-3934`). -/
def issuePDelayRespFollowUp (c : Cfg) (s : State) (h : Hdr) (t : Int) (seq : Nat) (ok : Bool) :
    State × List Out :=
  if ok then
    ({ s with nPrespFollowUp := s.nPrespFollowUp + 1 }, [.send (.prespFollowUp h.src seq t h.corr)])
  else (failure c s, [])

/-- `issueDelayResp` (`protocol.c:3772-3840`); note the counter. -/
def issueDelayResp (c : Cfg) (s : State) (h : Hdr) (t : Int) (addr : Nat) (ok : Bool) :
    State × List Out :=
  if h.unicast ∧ s.unicastOk then
    if ok then
      ({ s with nPresp := s.nPresp + 1 }, [.send (.delayResp h.src h.seq t h.corr (some addr))])
    else (failure c s, [])
  else if ¬ s.multicastOk then (s, [])
  else if ok then
    ({ s with nPresp := s.nPresp + 1 }, [.send (.delayResp h.src h.seq t h.corr none)])
  else (failure c s, [])

/-- `handleDelayReq` (`protocol.c:2268-2336`). -/
def handleDelayReq (c : Cfg) (s : State) (h : Hdr) (len : Nat) (t : Option Int) (addr : Nat)
    (ok : Bool) : State × List Out :=
  if len < 44 then (s, [])
  else if s.mech ≠ .e2e then (s, [])
  else if s.port = .master then
    match t with
    | none => (s, [])
    | some t => issueDelayResp c s h t addr ok
  else (s, [])

/-- `handlePDelayReq` (`protocol.c:2538-2601`). -/
def handlePDelayReq (c : Cfg) (s : State) (h : Hdr) (len : Nat) (t : Option Int) (o : Sent) :
    State × List Out :=
  if len < 54 then (s, [])
  else if s.mech ≠ .p2p then (s, [])
  else if s.port = .listening ∨ s.port = .slave ∨ s.port = .master ∨ s.port = .passive then
    match t with
    | none => (s, [])
    | some t => issuePDelayResp c { s with preqHdr := h } h t o
  else (s, [])

/-- `handlePDelayResp` (`protocol.c:2622-2760`). -/
def handlePDelayResp (c : Cfg) (s : State) (h : Hdr) (len : Nat) (t2 : Int) (requesting : PortId)
    (t : Option Int) : State × List Out :=
  if len < 54 then (s, [])
  else if s.mech ≠ .p2p then (s, [])
  else if s.port = .listening ∨ s.port = .slave ∨ s.port = .master then
    if requesting = c.self then
      match t with
      | none => (s, [])
      | some t =>
        if ¬ s.waitResp then (s, [])
        else if s.reqSeq ≠ h.seq then (s, [])
        else
          let s := { s with waitResp := false, t2 := t2, t4 := t, corr := h.corr, respSeq := h.seq }
          if h.twoStep then ({ s with waitFollow := true }, [])
          else
            ({ s with respTimer := false, reqTimer := true, t3 := s.t2 },
              [.measure s.t1 s.t2 s.t2 s.t4 s.corr])
    else (s, [])
  else (s, [])

/-- `handlePDelayRespFollowUp` (`protocol.c:2779-2881`). -/
def handlePDelayRespFollowUp (c : Cfg) (s : State) (h : Hdr) (len : Nat) (t3 : Int)
    (requesting : PortId) : State × List Out :=
  if len < 54 then (s, [])
  else if s.mech ≠ .p2p then (s, [])
  else if s.port = .listening ∨ s.port = .slave ∨ s.port = .master then
    if requesting = c.self then
      if ¬ s.waitFollow then (s, [])
      else if h.seq ≠ s.reqSeq ∨ h.seq ≠ s.respSeq then (s, [])
      else
        ({ s with waitFollow := false, respTimer := false, reqTimer := true, t3 := t3,
                  corr := h.corr },
          [.measure s.t1 s.t2 t3 s.t4 h.corr])
    else (s, [])
  else (s, [])

/-- What was sent under a ticket. -/
def lookup (tk : Ticket) : List (Ticket × Kind × Nat) → Option (Kind × Nat)
  | [] => none
  | (a, k, n) :: r => if a = tk then some (k, n) else lookup tk r

/-- `processTxTimestamp` (`protocol.c:1539-1636`) with the `process...FromSelf`
functions (2087-2098, 2604-2619, 2763-2776).  `ok`: whether a message sent in
consequence could be sent. -/
def txTime (c : Cfg) (s : State) (tk : Ticket) (raw : Int) (ok : Bool) : State × List Out :=
  match lookup tk s.cache with
  | none => (s, [])
  | some (.sync, n) =>
    if s.syncTicket = some tk ∧ n = s.syncSeq then
      let r := issueFollowup c s (applyUtc c s raw + c.outbound) n ok
      ({ r.1 with syncTicket := none }, r.2)
    else (s, [])
  | some (.preq, n) =>
    if s.reqTicket = some tk ∧ n = s.reqSeq then
      ({ s with waitResp := true, waitFollow := false, t1 := applyUtc c s raw + c.outbound,
                reqTicket := none }, [])
    else (s, [])
  | some (.presp, n) =>
    if s.prespTicket = some tk then
      let r := issuePDelayRespFollowUp c s s.preqHdr (applyUtc c s raw + c.outbound) n ok
      ({ r.1 with prespTicket := none }, r.2)
    else (s, [])

/-- The events of the life of a port.  Messages received carry the receive
time taken by the interface, if any. -/
inductive Event where
  | delayReq (h : Hdr) (len : Nat) (time : Option Int) (addr : Nat) (ok : Bool)
  | preq (h : Hdr) (len : Nat) (time : Option Int) (o : Sent)
  | presp (h : Hdr) (len : Nat) (t2 : Int) (requesting : PortId) (time : Option Int)
  | prespFollowUp (h : Hdr) (len : Nat) (t3 : Int) (requesting : PortId)
  | txTime (ticket : Ticket) (time : Int) (ok : Bool)
  | syncExpired (o : Sent)
  | announceExpired (ok : Bool)
  | reqExpired (o : Sent)
  | respExpired
  | goto (p : PState) (uni multi : Bool)
  | setMech (m : Mech)
  | setUtc (u : Utc)
  | reinit
deriving DecidableEq

/-- The states in which the timers of the peer delay mechanism are looked at
(`protocol.c:645-800` and 803-850). -/
def active (p : PState) : Bool :=
  decide (p = .listening ∨ p = .uncalibrated ∨ p = .slave ∨ p = .passive ∨ p = .master)

/-- One event.  Messages of our own are not handled (`protocol.c:1158-1161`);
the tickets and the delay mechanism are reset when the port is initialised
(`ptpd_lib.c:430-442`, `bmc.c:132-139`).  The
timers for Sync and Announce run in the master state only. -/
def step (c : Cfg) (s : State) : Event → State × List Out
  | .delayReq h len t addr ok =>
    if h.src = c.self then (s, [])
    else handleDelayReq c s h len (t.map (rxTime c s)) addr ok
  | .preq h len t o =>
    if h.src = c.self then (s, [])
    else handlePDelayReq c s h len (t.map (rxTime c s)) o
  | .presp h len t2 r t =>
    if h.src = c.self then (s, [])
    else handlePDelayResp c s h len t2 r (t.map (rxTime c s))
  | .prespFollowUp h len t3 r =>
    if h.src = c.self then (s, [])
    else handlePDelayRespFollowUp c s h len t3 r
  | .txTime tk t ok => txTime c s tk t ok
  | .syncExpired o => if s.port = .master then issueSync c s o else (s, [])
  | .announceExpired ok => if s.port = .master then issueAnnounce c s ok else (s, [])
  | .reqExpired o =>
    if active s.port ∧ s.mech = .p2p ∧ s.reqTimer then issuePDelayReq c s o else (s, [])
  | .respExpired =>
    if active s.port ∧ s.respTimer then
      ({ s with respTimer := false, reqTimer := true }, [.missing])
    else (s, [])
  | .goto p uni multi => (toState s p uni multi, [])
  | .setMech m => ({ s with mech := m }, [])
  | .setUtc u => ({ s with utc := u }, [])
  | .reinit =>
    if s.port = .initializing then
      ({ s with mech := c.mech, syncTicket := none, reqTicket := none, prespTicket := none }, [])
    else (s, [])

/-- A step of a history: the state before, the event and the outputs. -/
structure Entry where
  before : State
  ev : Event
  outs : List Out

/-- Running a list of events, keeping the history. -/
def run (c : Cfg) (s : State) : List Event → State × List Entry
  | [] => (s, [])
  | e :: es =>
    let r := step c s e
    let q := run c r.1 es
    (q.1, { before := s, ev := e, outs := r.2 } :: q.2)

/-- A port that has been created: nothing is pending (`calloc` of the
`PtpClock` in `src/ptp/ptpd2/ptpd_lib.c` and `initData`). -/
def init (c : Cfg) : State where
  port := .initializing
  mech := c.mech
  utc := ⟨false, 0, 0, false⟩
  unicastOk := false
  multicastOk := true
  cache := []
  syncSeq := 0
  syncTicket := none
  annSeq := 0
  reqSeq := 0
  reqTicket := none
  waitResp := false
  waitFollow := false
  respSeq := 0
  t1 := 0
  t2 := 0
  t3 := 0
  t4 := 0
  corr := 0
  reqTimer := false
  respTimer := false
  preqHdr := ⟨c.self, 0, false, false, 0⟩
  prespTicket := none
  nAnnounce := 0
  nSync := 0
  nFollowUp := 0
  nDelayResp := 0
  nPreq := 0
  nPresp := 0
  nPrespFollowUp := 0

end Verif.Peer
