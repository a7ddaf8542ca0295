/-!
# Transmit timestamps

The cache of messages awaiting their transmit timestamp (`src/ptp/ptpd2/dep/net.c`), the use of
timestamps retrieved (`src/ptp/ptpd2/protocol.c`) and the alarm for those which are missing.

Simplified: times are integers, in units of 2⁻³² ns, and monotonic times are given by the events;
the comparison and subtraction of times are those proved exact in `Verif.Time`.  The two sets of
statistics (`stats_periodic`, `stats_adhoc`) are updated alike, and one is modelled; its counters
are unbounded, and so is the sequence number of requests (64 bits in the code).  The bytes of
messages are natural numbers.  Printing is left out, except for the reads it makes out of bounds.
-/

namespace Verif.TxCache

/-- The types of event message (`src/ptp/ptpd2/datatypes.h:744-752`). -/
inductive Kind
  | sync | delayReq | pdelayReq | pdelayResp | monitoringSync
  deriving DecidableEq, Repr

/-- `struct sfptpd_ts_user` (`datatypes.h:743-753`). -/
structure User where
  port : Nat
  kind : Kind
  seqId : Nat
  deriving DecidableEq, Repr

/-- `struct sfptpd_ts_ticket` (`datatypes.h:756-759`). -/
structure Ticket where
  slot : Nat
  seq : Nat
  deriving DecidableEq, Repr

/-- `struct sfptpd_ts_pkt` (`datatypes.h:765-777`); `data` holds the `len` bytes stored. -/
structure Pkt where
  data : List Nat
  trailer : Nat
  user : User
  sent : Int
  seq : Nat
  caused : Bool
  deriving DecidableEq, Repr

/-- `struct sfptpd_ts_stats` (`datatypes.h:795-802`), without the bounds, which never change. -/
structure Stats where
  resolved : List Nat
  evicted : Nat
  total : Nat
  deriving DecidableEq, Repr

/-- `struct sfptpd_ts_cache` (`datatypes.h:807-825`). Slot `s` is bit `31 - s` of `free`. -/
structure Cache where
  packet : Nat → Pkt
  free : BitVec 32
  seq : Nat
  stats : Stats
  lastSat : Int

/-- `TS_MAX_PDU` (`datatypes.h:761`), the length of a PDelay_Req. -/
def maxPdu : Nat := 54

/-- One second. -/
def second : Int := 1000000000 * 4294967296

/-- `quantile_bounds` (`net.c:1785-1796`): powers of ten from 100 us to 10 s, and the largest
time.  Those below a second are rounded by the code, here to 2⁻³² ns. -/
def bounds : List Int :=
  [second / 10000, second / 1000, second / 100, second / 10, second, 10 * second,
   9223372036854775808 * second]

/-- `sfptpd_ts_stats_init` (`net.c:1785-1797`) and the end of `netCheckTimestampStats`
(`net.c:1408-1415`). -/
def noStats : Stats := ⟨[0, 0, 0, 0, 0, 0, 0], 0, 0⟩

/-- The contents of a slot never used. -/
def blank : Pkt := ⟨[], 0, ⟨0, .sync, 0⟩, 0, 0, false⟩

/-- `sfptpd_ts_cache_init` (`net.c:1799-1810`). -/
def Cache.init : Cache := ⟨fun _ => blank, BitVec.allOnes 32, 0, noStats, 0⟩

/-- `__builtin_clz` of an `unsigned int`; the result for zero is never used (`net.c:231`). -/
def clz (x : BitVec 32) : Nat := ((List.range 32).find? fun s => x.getLsbD (31 - s)).getD 32

/-- `1 << ts_cache_bit(slot)` (`net.c:235-238`); also `~((unsigned int) INT_MAX) >> slot`. -/
def slotBit (s : Nat) : BitVec 32 := 1#32 <<< (31 - s)

/-- The slots visited by the iterator of `TS_CACHE_FOREACH` (`net.c:217-251`).  There are at most
32, which is the fuel. -/
def slotsFrom : Nat → BitVec 32 → List Nat
  | 0, _ => []
  | n + 1, it => if it = 0 then [] else clz it :: slotsFrom n (it &&& ~~~ slotBit (clz it))

/-- `TS_CACHE_FOREACH` (`net.c:247-251`): the iterator is a copy of the complement of
`free_bitmap`, so the body of the loop does not change the slots visited. -/
def Cache.slots (c : Cache) : List Nat := slotsFrom 32 (~~~ c.free)

/-- Assignment to an element of the array. -/
def put (f : Nat → Pkt) (s : Nat) (p : Pkt) : Nat → Pkt := fun i => if i = s then p else f i

/-- The comparison made by `netMatchPacketToTsCache` (`net.c:1143-1157`). -/
def matchPdu (p : Pkt) (pkt : List Nat) : Bool :=
  if pkt.length < p.data.length + p.trailer then false
  else (pkt.drop (pkt.length - p.data.length - p.trailer)).take p.data.length == p.data

/-- The quantile of an elapsed time (`net.c:1171-1178`), if there is one. -/
def quantile (elapsed : Int) : Option Nat := bounds.findIdx? fun b => elapsed < b

/-- `resolved_quantile[q]++` (`net.c:1174`). -/
def Stats.resolve (st : Stats) (elapsed : Int) : Stats :=
  match quantile elapsed with
  | none => st
  | some q => { st with resolved := st.resolved.set q (st.resolved.getD q 0 + 1) }

/-- `netMatchPacketToTsCache` (`net.c:1126-1188`). -/
def Cache.match (c : Cache) (pkt : List Nat) (now : Int) : Cache × Option (Ticket × User) :=
  match c.slots.find? fun s => matchPdu (c.packet s) pkt with
  | none => (c, none)
  | some s =>
    ({ c with
        free := c.free ||| slotBit s
        lastSat := if c.lastSat ≤ (c.packet s).sent then (c.packet s).sent else c.lastSat
        stats := c.stats.resolve (now - (c.packet s).sent) },
     some (⟨s, (c.packet s).seq % 4294967296⟩, (c.packet s).user))

/-- The search for the oldest request when the cache is full (`net.c:2298-2306`).  The element
compared is `cache->packet->seq`, which is that of slot 0 whatever the slot. -/
def oldestSlot (c : Cache) : Nat :=
  ((List.range 32).foldl
    (fun (a : Nat × Nat) slot => if (c.packet 0).seq < a.1 then ((c.packet 0).seq, slot) else a)
    (18446744073709551615, 0)).2

/-- Eviction of the oldest request when the cache is full (`net.c:2296-2312`), before which
`packet[32]`, which does not exist, is read (`net.c:2307`); the second component tells. -/
def Cache.makeRoom (c : Cache) : Cache × Bool :=
  if c.free = 0 then
    ({ c with free := c.free ||| slotBit (oldestSlot c)
              stats := { c.stats with evicted := c.stats.evicted + 1 } }, true)
  else (c, false)

/-- The rest of `netExpectTimestamp` (`net.c:2314-2341`). -/
def Cache.store (c : Cache) (user : User) (pdu : List Nat) (trailer : Nat) (now : Int) :
    Cache × Ticket :=
  ({ c with
      packet := put c.packet (clz c.free) ⟨pdu.take maxPdu, trailer, user, now, c.seq, false⟩
      free := c.free &&& ~~~ slotBit (clz c.free)
      seq := c.seq + 1
      stats := { c.stats with total := c.stats.total + 1 } },
   ⟨clz c.free, c.seq % 4294967296⟩)

/-- `netExpectTimestamp` (`net.c:2285-2342`); the last component tells whether it read out of
bounds. -/
def Cache.expect (c : Cache) (user : User) (pdu : List Nat) (trailer : Nat) (now : Int) :
    Cache × Ticket × Bool :=
  let r := c.makeRoom.1.store user pdu trailer now
  (r.1, r.2, c.makeRoom.2)

/-- `enum sfptpd_tristate` (`datatypes.h:27-31`). -/
inductive Tristate
  | on | off | z
  deriving DecidableEq, Repr

/-- The value of the enumerator. -/
def Tristate.val : Tristate → Nat
  | .on => 0
  | .off => 1
  | .z => 2

/-- The first part of the loop of `netCheckTimestampAlarms` (`net.c:1443-1457`). The test
`alarm != 1` excludes `TRISTATE_OFF`, the value at the start. -/
def alarmSlot (now : Int) (x : Cache × Tristate) (s : Nat) : Cache × Tristate :=
  if second ≤ now - (x.1.packet s).sent ∧ x.1.lastSat ≤ (x.1.packet s).sent ∧ x.2.val ≠ 1 then
    if (x.1.packet s).caused then (x.1, .z)
    else ({ x.1 with packet := put x.1.packet s { x.1.packet s with caused := true } }, .on)
  else x

/-- The second part (`net.c:1459-1470`): requests of more than ten seconds are dropped. -/
def evictSlot (now : Int) (c : Cache) (s : Nat) : Cache :=
  if 10 * second ≤ now - (c.packet s).sent then
    { c with free := c.free ||| slotBit s
             stats := { c.stats with evicted := c.stats.evicted + 1 } }
  else c

/-- The body of the loop (`net.c:1439-1471`). -/
def checkSlot (port : Nat) (now : Int) (x : Cache × Tristate) (s : Nat) : Cache × Tristate :=
  if (x.1.packet s).user.port = port then
    let y := alarmSlot now x s
    (evictSlot now y.1 s, y.2)
  else x

/-- `netCheckTimestampAlarms` (`net.c:1418-1475`). -/
def Cache.check (c : Cache) (port : Nat) (now : Int) : Cache × Tristate :=
  c.slots.foldl (checkSlot port now) (c, .off)

/-- The ports of an interface with its cache: the tickets and sequence numbers of the latest
messages and the alarm `NO_TX_TIMESTAMPS` of each port. -/
structure State where
  cache : Cache
  ticket : Nat → Kind → Option Ticket
  lastId : Nat → Kind → Nat
  alarm : Nat → Bool

/-- What happens on an interface.  `send`: an event message is packed and sent, and its timestamp
is expected; the sequence number is that of the message to be answered, where it is not counted.
`attempt`: a message is not sent, but its number is used.  `tx`: a packet is read from the error
queue, with a suitable timestamp or not.  `loop`: a message of our own is received, with a
timestamp made by the kernel.  `check`: `TIMESTAMP_CHECK_TIMER`.  `reinit`: a port is
initialised.  `report`: the statistics are printed and reset. -/
inductive Event
  | send (port : Nat) (kind : Kind) (reqId : Nat) (pdu : List Nat) (trailer : Nat) (now : Int)
  | attempt (port : Nat) (kind : Kind)
  | tx (pkt : List Nat) (now : Int) (ts : Option Int)
  | loop (pkt : List Nat) (now : Int) (ts : Int)
  | check (port : Nat) (now : Int)
  | reinit (port : Nat)
  | report
  deriving DecidableEq, Repr

/-- What follows: a timestamp is used for the message with the given sequence number
(`processSyncFromSelf` and the like); a timestamp is discarded; the timestamp found is of the
wrong kind; memory is read beyond the array, or an uninitialised variable is. -/
inductive Out
  | stamp (port : Nat) (kind : Kind) (seqId : Nat) (ts : Int)
  | discard
  | unsuitable (port : Nat)
  | beyond
  | uninitialised
  | quiet
  deriving DecidableEq, Repr

/-- Whether the messages are numbered by the sender, by `sentSyncSequenceId`,
`sentDelayReqSequenceId` or `sentPDelayReqSequenceId` (`protocol.c:3438,3587,3657`). -/
def Kind.counted : Kind → Bool
  | .sync => true
  | .delayReq => true
  | .pdelayReq => true
  | .pdelayResp => false
  | .monitoringSync => false

/-- Assignment of a value for a port and a type of message. -/
def put2 {A : Type} (f : Nat → Kind → A) (p : Nat) (k : Kind) (a : A) : Nat → Kind → A :=
  fun p' k' => if p' = p ∧ k' = k then a else f p' k'

/-- Assignment of a value for a port. -/
def put1 {A : Type} (f : Nat → A) (p : Nat) (a : A) : Nat → A := fun p' => if p' = p then a else f p'

/-- `++ptpClock->sentSyncSequenceId` and the like, 16 bits (`protocol.c:3438,3587,3657`). -/
def State.number (s : State) (port : Nat) (kind : Kind) : State :=
  if kind.counted then
    { s with lastId := put2 s.lastId port kind ((s.lastId port kind + 1) % 65536) }
  else s

/-- The sequence number of a message (`protocol.c:3438,3498,3587,3657,3722`). -/
def State.seqId (s : State) (port : Nat) (kind : Kind) (reqId : Nat) : Nat :=
  if kind.counted then s.lastId port kind else reqId

/-- `issueSync`, `issueSyncForMonitoring`, `issueDelayReq`, `issuePDelayReq` and `issuePDelayResp`
when the message is sent (`protocol.c:3433-3535,3580-3780`). -/
def State.send (s₀ : State) (port : Nat) (kind : Kind) (reqId : Nat) (pdu : List Nat)
    (trailer : Nat) (now : Int) : State × Out :=
  let s := s₀.number port kind
  let r := s.cache.expect ⟨port, kind, s.seqId port kind reqId⟩ pdu trailer now
  ({ s with cache := r.1, ticket := put2 s.ticket port kind (some r.2.1) },
   if r.2.2 then .beyond else .quiet)

/-- `processTxTimestamp` (`protocol.c:1539-1637`) with a valid ticket. -/
def State.process (s : State) (t : Ticket) (u : User) (ts : Int) : State × Out :=
  if s.ticket u.port u.kind = some t ∧ u.seqId = s.seqId u.port u.kind u.seqId then
    ({ s with alarm := put1 s.alarm u.port false
              ticket := put2 s.ticket u.port u.kind none },
     .stamp u.port u.kind u.seqId ts)
  else (s, .discard)

/-- One event: `doHandleSocketsError` (`protocol.c:1639-1668`), `processMessage`
(`protocol.c:1146-1158`), the timer (`protocol.c:618-632`), `initDataPort` (`bmc.c:135-139`). -/
def step (s : State) : Event → State × Out
  | .send port kind reqId pdu trailer now => s.send port kind reqId pdu trailer now
  | .attempt port kind => (s.number port kind, .quiet)
  | .tx pkt now ts =>
    let r := s.cache.match pkt now
    let s' := { s with cache := r.1 }
    match r.2, ts with
    | none, _ => (s', .quiet)
    | some (_, u), none => ({ s' with alarm := put1 s.alarm u.port true }, .unsuitable u.port)
    | some (t, u), some v => s'.process t u v
  | .loop pkt now v =>
    let r := s.cache.match pkt now
    let s' := { s with cache := r.1 }
    match r.2 with
    | none => (s', .uninitialised)
    | some (t, u) => s'.process t u v
  | .check port now =>
    let r := s.cache.check port now
    ({ s with cache := r.1
              alarm := match r.2 with
                | .on => put1 s.alarm port true
                | .off => put1 s.alarm port false
                | .z => s.alarm }, .quiet)
  | .reinit port => ({ s with ticket := fun p k => if p = port then none else s.ticket p k }, .quiet)
  | .report => ({ s with cache := { s.cache with stats := noStats } }, .quiet)

/-- The start. -/
def State.init : State := ⟨.init, fun _ _ => none, fun _ _ => 0, fun _ => false⟩

/-- A run, with the outcome of each event. -/
def run (s : State) : List Event → State × List (Event × Out)
  | [] => (s, [])
  | e :: es => ((run (step s e).1 es).1, (e, (step s e).2) :: (run (step s e).1 es).2)

end Verif.TxCache
