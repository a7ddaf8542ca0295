import Verif.Time.Model

/-!
# Encoding and decoding of PTP messages

Model of `src/ptp/ptpd2/dep/msg.c` and of the tables `src/ptp/ptpd2/def/**/*.def`
included there: the types (lines 84-317, 1154-1242), the header, management and
signaling layouts (1429-1530), the messages (1560-2072), the TLV headers (2330-2399)
and the slave event TLVs (2605-3024). Byte order is that of a little-endian host with
`flip16/32/64` swapping.

Memory is a function from addresses to bytes, so that accesses beyond the length or
the space given are not an error of the model; instead every operation gives the end
of the memory it touched. Values are unsigned; signed fields are their two's
complement. `none` is a value left unset. Not modelled: display functions, and the
fields of variable length of management TLVs.
-/

namespace Verif.Codec

abbrev Byte := BitVec 8

abbrev Mem := Nat → Byte

/-- `n` bytes from `a` on. -/
def load (m : Mem) (a n : Nat) : List Byte := (List.range n).map (fun i => m (a + i))

/-- Bytes written at `a`. -/
def store (m : Mem) (a : Nat) (l : List Byte) : Mem := fun i => if a ≤ i ∧ i < a + l.length then l.getD (i - a) 0 else m i

/-- Value of bytes in network order. -/
def ofBE (l : List Byte) : Nat := l.foldl (fun v b => v * 256 + b.toNat) 0

/-- The low `n` bytes of a value in network order. -/
def toBE : Nat → Nat → List Byte
  | 0, _ => []
  | n + 1, v => toBE n (v / 256) ++ [BitVec.ofNat 8 v]

/-! ## Fields -/

/-- Outcome of decoding: result, the bytes counted, values, and the end of what was
read. -/
structure Got where
  ok : Bool
  size : Nat
  vals : List (Option Nat)
  hi : Nat

/-- Outcome of encoding: result, the bytes counted, memory, and the end of what was
accessed. -/
structure Put where
  ok : Bool
  size : Nat
  mem : Mem
  hi : Nat

/-- A type of field: the number of values it has, `unpack` given memory, address and
length, `pack` given values, memory, address and space. -/
structure Ty where
  arity : Nat
  unpack : Mem → Nat → Nat → Got
  pack : List Nat → Mem → Nat → Nat → Put

/-- `PACK_SIMPLE` and `PACK_ENDIAN` (lines 84-107) of `n` bytes. -/
def uint (n : Nat) : Ty where
  arity := 1
  unpack m a _ := ⟨true, n, [some (ofBE (load m a n))], a + n⟩
  pack v m a _ := ⟨true, n, store m a (toBE n (v.headD 0)), a + n⟩

/-- `PACK_LOWER_AND_UPPER`, upper nibble (lines 117-136). -/
def upper : Ty where
  arity := 1
  unpack m a _ := ⟨true, 1, [some ((m a >>> 4).toNat)], a + 1⟩
  pack v m a _ := ⟨true, 1, store m a [(m a &&& 0x0F#8) ||| (BitVec.ofNat 8 (v.headD 0) <<< 4)], a + 1⟩

/-- `PACK_LOWER_AND_UPPER`, lower nibble (lines 109-130). -/
def lower : Ty where
  arity := 1
  unpack m a _ := ⟨true, 1, [some ((m a &&& 0x0F#8).toNat)], a + 1⟩
  pack v m a _ := ⟨true, 1, store m a [(m a &&& 0xF0#8) ||| BitVec.ofNat 8 (v.headD 0)], a + 1⟩

/-- `unpackUInteger48`, `packUInteger48` and those of 24 bits (lines 253-317), and
clock identities (1154-1176): `n` bytes if they fit. -/
def checked (n : Nat) : Ty where
  arity := 1
  unpack m a length := if n ≤ length then ⟨true, n, [some (ofBE (load m a n))], a + n⟩ else ⟨false, 0, [none], a⟩
  pack v m a space := if n ≤ space then ⟨true, n, store m a (toBE n (v.headD 0)), a + n⟩ else ⟨false, 0, m, a⟩

/-- A row of a table: size and type. -/
structure Field where
  size : Nat
  ty : Ty

/-- The decoding macro (e.g. lines 1188-1191) from offset `off` on: the result of the
field's own function is not looked at. -/
def unpackFields (m : Mem) (a length : Nat) : List Field → Nat → Nat → Got
  | [], _, n => ⟨true, n, [], a⟩
  | f :: fs, off, n =>
    if off + f.size > length then ⟨false, n, [], a⟩
    else
      let g := f.ty.unpack m (a + off) (length - off)
      let r := unpackFields m a length fs (off + f.size) (n + f.size)
      ⟨r.ok, r.size, g.vals ++ r.vals, max g.hi r.hi⟩

/-- `STANDARD_PACKING_OPERATION` (lines 224-227) from offset `off` on. -/
def packFields (a space : Nat) : List Field → List Nat → Mem → Nat → Nat → Put
  | [], _, m, _, n => ⟨true, n, m, a⟩
  | f :: fs, v, m, off, n =>
    if off + f.size > space then ⟨false, n, m, a⟩
    else
      let p := f.ty.pack (v.take f.ty.arity) m (a + off) (space - off)
      let r := packFields a space fs (v.drop f.ty.arity) p.mem (off + f.size) (n + f.size)
      ⟨r.ok, r.size, r.mem, max p.hi r.hi⟩

/-- The functions of a table. -/
def table (fs : List Field) : Ty where
  arity := (fs.map (fun f => f.ty.arity)).sum
  unpack m a length := unpackFields m a length fs 0 0
  pack v m a space := packFields a space fs v m 0 0

/-- `def/derivedData/portIdentity.def`. -/
def portIdentity : List Field := [⟨8, checked 8⟩, ⟨2, uint 2⟩]

/-- `def/derivedData/timestamp.def`. -/
def timestamp : List Field := [⟨6, checked 6⟩, ⟨4, uint 4⟩]

/-- `def/derivedData/clockQuality.def`. -/
def clockQuality : List Field := [⟨1, uint 1⟩, ⟨1, uint 1⟩, ⟨2, uint 2⟩]

/-- `def/message/header.def`. -/
def header : List Field :=
  [⟨0, upper⟩, ⟨1, lower⟩, ⟨0, upper⟩, ⟨1, lower⟩, ⟨2, uint 2⟩, ⟨1, uint 1⟩, ⟨1, uint 1⟩, ⟨1, uint 1⟩, ⟨1, uint 1⟩, ⟨8, uint 8⟩,
    ⟨4, uint 4⟩, ⟨10, table portIdentity⟩, ⟨2, uint 2⟩, ⟨1, uint 1⟩, ⟨1, uint 1⟩]

/-- `def/message/signaling.def`. -/
def signaling : List Field := [⟨34, table header⟩, ⟨10, table portIdentity⟩]

/-- `def/message/management.def`. -/
def management : List Field :=
  [⟨34, table header⟩, ⟨10, table portIdentity⟩, ⟨1, uint 1⟩, ⟨1, uint 1⟩, ⟨0, upper⟩, ⟨1, lower⟩, ⟨1, uint 1⟩]

/-- `def/managementTLV/managementTLV.def`. -/
def managementTLV : List Field := [⟨2, uint 2⟩, ⟨2, uint 2⟩, ⟨2, uint 2⟩]

/-- `def/managementTLV/defaultDataSet.def`. -/
def defaultDataSet : List Field :=
  [⟨1, uint 1⟩, ⟨1, uint 1⟩, ⟨2, uint 2⟩, ⟨1, uint 1⟩, ⟨4, table clockQuality⟩, ⟨1, uint 1⟩, ⟨8, checked 8⟩, ⟨1, uint 1⟩, ⟨1, uint 1⟩]

/-- `def/optional/slave_rx_sync_timing_data.def`. -/
def rxTiming : List Field := [⟨10, table portIdentity⟩]

/-- `def/optional/slave_rx_sync_timing_data_element.def`. -/
def rxTimingElement : List Field := [⟨2, uint 2⟩, ⟨10, table timestamp⟩, ⟨8, uint 8⟩, ⟨4, uint 4⟩, ⟨10, table timestamp⟩]

/-- `def/optional/slave_rx_sync_computed_data.def`. -/
def rxComputed : List Field := [⟨10, table portIdentity⟩, ⟨1, uint 1⟩, ⟨1, uint 1⟩]

/-- `def/optional/slave_rx_sync_computed_data_element.def`. -/
def rxComputedElement : List Field := [⟨2, uint 2⟩, ⟨8, uint 8⟩, ⟨8, uint 8⟩, ⟨4, uint 4⟩]

/-- `def/optional/slave_tx_event_timestamps.def`. -/
def txTimestamps : List Field := [⟨10, table portIdentity⟩, ⟨1, lower⟩, ⟨0, upper⟩, ⟨1, uint 1⟩]

/-- `def/optional/slave_tx_event_timestamps_element.def`. -/
def txTimestampsElement : List Field := [⟨2, uint 2⟩, ⟨10, table timestamp⟩]

/-- `def/optional/port_communication_capabilities.def`. -/
def capabilities : List Field := [⟨1, lower⟩, ⟨1, lower⟩]

/-- `def/sfc/slave_status.def`. -/
def slaveStatus : List Field :=
  [⟨8, checked 8⟩, ⟨10, table timestamp⟩, ⟨2, uint 2⟩, ⟨2, uint 2⟩, ⟨2, uint 2⟩, ⟨2, uint 2⟩, ⟨1, uint 1⟩]

/-! ## Messages with explicit offsets -/

/-- A sequence of writes at offsets from the start of the buffer. -/
def write (m : Mem) : List (Nat × List Byte) → Mem
  | [] => m
  | w :: ws => write (store m w.1 w.2) ws

/-- The end of the writes. -/
def writeEnd : List (Nat × List Byte) → Nat
  | [] => 0
  | w :: ws => max (w.1 + w.2.length) (writeEnd ws)

/-- Zero bytes (`memset`). -/
def zeros (n : Nat) : List Byte := List.replicate n 0

/-- The parts of `PtpClock` used by the packing functions. -/
structure Clock where
  versionMinor : Nat
  domain : Nat
  twoStep : Bool
  identity : Nat
  port : Nat
  syncSeq : Nat
  announceSeq : Nat
  delayReqSeq : Nat
  pdelayReqSeq : Nat
  logSync : Nat
  logAnnounce : Nat
  logMinDelayReq : Nat
  utcOffset : Nat
  priority1 : Nat
  clockClass : Nat
  accuracy : Nat
  variance : Nat
  priority2 : Nat
  grandmaster : Nat
  steps : Nat
  timeSource : Nat
  leap59 : Bool
  leap61 : Bool
  utcValid : Bool
  ptpTimescale : Bool
  timeTraceable : Bool
  freqTraceable : Bool
deriving DecidableEq, Repr

/-- `MsgHeader`. -/
structure Header where
  majorSdoId : Nat
  messageType : Nat
  minorVersion : Nat
  version : Nat
  messageLength : Nat
  domain : Nat
  minorSdoId : Nat
  flag0 : Nat
  flag1 : Nat
  correction : Nat
  typeSpecific : Nat
  identity : Nat
  port : Nat
  sequenceId : Nat
  control : Nat
  logInterval : Nat
deriving DecidableEq, Repr

/-- A byte. -/
def b (v : Nat) : List Byte := [BitVec.ofNat 8 v]

/-- Bytes in the order of the host, without `flip`. -/
def ofLE (l : List Byte) : Nat := ofBE l.reverse

/-- `msgUnpackHeader` (lines 1547-1576): `none` is an error; and the end of what was
read. -/
def msgUnpackHeader (m : Mem) (length : Nat) : Option Header × Nat :=
  if 0 + 34 > length then (none, 0)
  else
    (some {
      majorSdoId := (m 0 >>> 4).toNat
      messageType := (m 0 &&& 0x0F#8).toNat
      minorVersion := (m 1 >>> 4).toNat
      version := (m 1 &&& 0x0F#8).toNat
      messageLength := ofBE (load m 2 2)
      domain := ofBE (load m 4 1)
      minorSdoId := ofBE (load m 5 1)
      flag0 := ofBE (load m 6 1)
      flag1 := ofBE (load m 7 1)
      correction := ofBE (load m 8 8)
      typeSpecific := ofLE (load m 16 4)
      identity := ofBE (load m 20 8)
      port := ofBE (load m 28 2)
      sequenceId := ofBE (load m 30 2)
      control := ofBE (load m 32 1)
      logInterval := ofBE (load m 33 1) }, 34)

/-- `msgPackHeader` (lines 1579-1614): the writes, or an error. -/
def msgPackHeader (space : Nat) (c : Clock) (messageType : Nat) : Option (List (Nat × List Byte)) :=
  if 0 + 34 > space then none
  else some [(0, [BitVec.ofNat 8 messageType]), (1, [(BitVec.ofNat 8 c.versionMinor <<< 4) ||| 2#8]), (2, b 0), (3, b 0), (4, b c.domain),
    (5, b 0), (6, b (if (messageType = 0 ∨ messageType = 3) ∧ c.twoStep then 2 else 0)), (7, b 0), (8, zeros 12), (20, toBE 8 c.identity),
    (28, toBE 2 c.port), (30, b 0), (31, b 0), (32, b 0), (33, b 0x7F)]

/-- `msgUpdateHeaderSequenceId` (lines 1616-1621). -/
def updateSequenceId (m : Mem) (v : Nat) : Mem := store m 30 (toBE 2 v)

/-- `msgUpdateHeaderFlags` (lines 1624-1631). -/
def updateFlags (m : Mem) (mask value : Byte) : Mem := store m 6 [(m 6 &&& mask) ||| value]

/-- Outcome of a packing function: failed assertion, error after the writes, or
success with the writes. -/
inductive Packed where
  | assertion
  | error (ws : List (Nat × List Byte))
  | done (ws : List (Nat × List Byte))

/-- The common start of the packing functions: the header, then
`CHECK_OUTPUT_LENGTH(34, n, ...)`, which asserts that the header was packed. -/
def withHeader (space : Nat) (c : Clock) (messageType n : Nat) (k : List (Nat × List Byte) → Packed) : Packed :=
  match msgPackHeader space c messageType with
  | none => .assertion
  | some ws => if 34 + n > space then .error ws else k ws

/-- `msgPackSync` (lines 1636-1658). -/
def msgPackSync (space : Nat) (c : Clock) : Packed :=
  withHeader space c 0 10 fun ws =>
    .done (ws ++ [(2, toBE 2 44), (30, toBE 2 c.syncSeq), (32, b 0), (33, b c.logSync), (8, zeros 8), (34, zeros 2), (36, zeros 4), (40, zeros 4)])

/-- `msgPackDelayReq` (lines 1851-1875). -/
def msgPackDelayReq (space : Nat) (c : Clock) : Packed :=
  withHeader space c 1 10 fun ws =>
    .done (ws ++ [(2, toBE 2 44), (30, toBE 2 c.delayReqSeq), (32, b 1), (33, b 0x7F), (8, zeros 8), (34, zeros 2), (36, zeros 4), (40, zeros 4)])

/-- `msgPackPDelayReq` (lines 1821-1848). -/
def msgPackPDelayReq (space : Nat) (c : Clock) : Packed :=
  withHeader space c 2 10 fun ws =>
    .done (ws ++ [(2, toBE 2 54), (30, toBE 2 c.pdelayReqSeq), (32, b 5), (33, b 0x7F), (8, zeros 8), (34, zeros 2), (36, zeros 4), (40, zeros 4),
      (44, zeros 10)])

/-- The second flag octet of an Announce message (lines 1704-1715). -/
def announceFlags (c : Clock) : Nat :=
  c.leap61.toNat + 2 * c.leap59.toNat + 4 * c.utcValid.toNat + 8 * c.ptpTimescale.toNat + 16 * c.timeTraceable.toNat + 32 * c.freqTraceable.toNat

/-- `msgPackAnnounce` (lines 1676-1718). Octet 46 is not written. -/
def msgPackAnnounce (space : Nat) (c : Clock) : Packed :=
  withHeader space c 11 30 fun ws =>
    .done (ws ++ [(2, toBE 2 64), (30, toBE 2 c.announceSeq), (32, b 5), (33, b c.logAnnounce), (34, zeros 10), (44, toBE 2 c.utcOffset),
      (47, b c.priority1), (48, b c.clockClass), (49, b c.accuracy), (50, toBE 2 c.variance), (52, b c.priority2), (53, toBE 8 c.grandmaster),
      (61, toBE 2 c.steps), (63, b c.timeSource), (7, b (announceFlags c))])

/-- `msgSetPreciseTimestamp` (lines 1757-1779) with space for it: `junk` is what the
variables hold when the time cannot be converted. The sum of the corrections wraps
as gcc's `-fwrapv` or the machine would have it; in C it is undefined. -/
def preciseTimestamp (t : Time.Ts) (subtract : Bool) (extra : Nat) (junk : Nat × Nat × Nat) : Bool × List (Nat × List Byte) :=
  match Time.fromInternalTime t with
  | none => (false, [(34, toBE 6 junk.1), (40, toBE 4 junk.2.1), (8, toBE 8 junk.2.2)])
  | some (w, corr) =>
    (true, [(34, toBE 6 w.seconds.toNat), (40, toBE 4 w.nanos.toNat),
      (8, toBE 8 (((if subtract then -corr else corr) + extra) % 18446744073709551616).toNat)])

/-- `msgPackFollowUp` (lines 1782-1805). -/
def msgPackFollowUp (space : Nat) (c : Clock) (t : Time.Ts) (seq : Nat) (junk : Nat × Nat × Nat) : Packed :=
  withHeader space c 8 10 fun ws =>
    let p := preciseTimestamp t false 0 junk
    let ws := ws ++ [(2, toBE 2 44), (30, toBE 2 seq), (32, b 2), (33, b c.logSync)] ++ p.2
    if p.1 then .done ws else .error ws

/-- `msgPackDelayResp` (lines 1878-1914). -/
def msgPackDelayResp (space : Nat) (c : Clock) (h : Header) (t : Time.Ts) (junk : Nat × Nat × Nat) : Packed :=
  withHeader space c 9 20 fun ws =>
    let p := preciseTimestamp t true h.correction junk
    let ws := ws ++ [(2, toBE 2 54), (4, b h.domain), (8, zeros 8), (30, toBE 2 h.sequenceId), (32, b 3), (33, b c.logMinDelayReq)] ++ p.2 ++
      [(44, toBE 8 h.identity), (52, toBE 2 h.port)]
    if p.1 then .done ws else .error ws

/-- `msgPackPDelayResp` (lines 1921-1955). -/
def msgPackPDelayResp (space : Nat) (c : Clock) (h : Header) (t : Time.Ts) (junk : Nat × Nat × Nat) : Packed :=
  withHeader space c 3 20 fun ws =>
    let p := preciseTimestamp t true 0 junk
    let ws := ws ++ [(2, toBE 2 54), (4, b h.domain), (8, zeros 8), (30, toBE 2 h.sequenceId), (32, b 5), (33, b 0x7F)] ++ p.2 ++
      [(44, toBE 8 h.identity), (52, toBE 2 h.port)]
    if p.1 then .done ws else .error ws

/-- `msgPackPDelayRespFollowUp` (lines 2022-2056). -/
def msgPackPDelayRespFollowUp (space : Nat) (c : Clock) (h : Header) (t : Time.Ts) (seq : Nat) (junk : Nat × Nat × Nat) : Packed :=
  withHeader space c 10 20 fun ws =>
    let p := preciseTimestamp t false h.correction junk
    let ws := ws ++ [(2, toBE 2 54), (30, toBE 2 seq), (32, b 5), (33, b 0x7F)] ++ p.2 ++
      [(44, toBE 8 h.identity), (52, toBE 2 h.port)]
    if p.1 then .done ws else .error ws

/-- `MsgSync`, `MsgFollowUp`, `MsgDelayReq`, `MsgPDelayReq`: a timestamp. -/
structure Stamp where
  seconds : Nat
  nanos : Nat
deriving DecidableEq, Repr

/-- `MsgDelayResp`, `MsgPDelayResp`, `MsgPDelayRespFollowUp`: a timestamp and the
requesting port. -/
structure Resp where
  stamp : Stamp
  identity : Nat
  port : Nat
deriving DecidableEq, Repr

/-- `MsgAnnounce`. -/
structure Announce where
  origin : Stamp
  utcOffset : Nat
  priority1 : Nat
  clockClass : Nat
  accuracy : Nat
  variance : Nat
  priority2 : Nat
  grandmaster : Nat
  steps : Nat
  timeSource : Nat
deriving DecidableEq, Repr

/-- `msgUnpackSync`, `msgUnpackFollowUp`, `msgUnpackDelayReq` and `msgUnpackPDelayReq`
(lines 1660-1670, 1807-1817, 1959-1969, 1973-1983), which are alike. -/
def msgUnpackStamp (m : Mem) (length : Nat) : Option Stamp × Nat :=
  if 34 + 10 > length then (none, 0) else (some ⟨ofBE (load m 34 6), ofBE (load m 40 4)⟩, 44)

/-- `msgUnpackDelayResp`, `msgUnpackPDelayResp` and `msgUnpackPDelayRespFollowUp`
(lines 1987-2018, 2059-2073), which are alike. -/
def msgUnpackResp (m : Mem) (length : Nat) : Option Resp × Nat :=
  if 34 + 20 > length then (none, 0)
  else (some ⟨⟨ofBE (load m 34 6), ofBE (load m 40 4)⟩, ofBE (load m 44 8), ofBE (load m 52 2)⟩, 54)

/-- `msgUnpackAnnounce` (lines 1723-1748). -/
def msgUnpackAnnounce (m : Mem) (length : Nat) : Option Announce × Nat :=
  if 34 + 30 > length then (none, 0)
  else (some ⟨⟨ofBE (load m 34 6), ofBE (load m 40 4)⟩, ofBE (load m 44 2), ofBE (load m 47 1), ofBE (load m 48 1), ofBE (load m 49 1),
    ofBE (load m 50 2), ofBE (load m 52 1), ofBE (load m 53 8), ofBE (load m 61 2), ofBE (load m 63 1)⟩, 64)

/-! ## TLVs -/

/-- `msgUnpackTLVHeader` (lines 2330-2348): type and length, those read; whether it
succeeded; and the end of what was read. -/
def msgUnpackTLVHeader (m : Mem) (a length : Nat) : Option Nat × Option Nat × Bool × Nat :=
  if 0 + 2 > length then (none, none, false, a)
  else
    let type := ofBE (load m a 2)
    if type = 0 ∧ length < 4 then (some type, some 0, false, a + 2)
    else if 2 + 2 > length then (some type, none, false, a + 2)
    else (some type, some (ofBE (load m (a + 2) 2)), true, a + 4)

/-- `msgUnpackOrgTLVSubHeader` (lines 2364-2376). -/
def msgUnpackOrgTLVSubHeader (m : Mem) (a length : Nat) : Option (Nat × Nat) × Nat :=
  if 0 + 6 > length then (none, a) else (some (ofBE (load m a 3), ofBE (load m (a + 3) 3)), a + 6)

/-- `getHeaderLength` (lines 1443-1445). -/
def getHeaderLength (m : Mem) (a : Nat) : Nat := ofBE (load m (a + 2) 2)

/-- `setHeaderLength` (lines 1447-1449). -/
def setHeaderLength (m : Mem) (a v : Nat) : Mem := store m (a + 2) (toBE 2 v)

/-- The loop packing the elements of a TLV (e.g. lines 2690-2694): a failure makes the
offset one less. The end is that of what was accessed. -/
def packElements (fs : List Field) (space : Nat) : List (List Nat) → Mem → Int → Nat → Mem × Int × Nat
  | [], m, off, hi => (m, off, hi)
  | v :: vs, m, off, hi =>
    let p := packFields off.toNat (space - off.toNat) fs v m 0 0
    packElements fs space vs p.mem (off + (if p.ok then (p.size : Int) else -1)) (max hi p.hi)

/-- The end of the append functions (e.g. lines 2696-2708): padding and lengths. The
result is the length of the TLV, `none` when padding did not fit, in which case the
lengths are set all the same. -/
def finishTLV (m : Mem) (start : Nat) (off : Int) (hi space : Nat) : Mem × Option Int × Nat :=
  if off % 2 ≠ 0 then
    if off + 1 > space then
      (setHeaderLength (setHeaderLength m start (off - start - 4).toNat) 0 off.toNat, some (off - start), max hi 4)
    else
      let m := store m off.toNat (b 0)
      (setHeaderLength (setHeaderLength m start (off + 1 - start - 4).toNat) 0 (off + 1).toNat, some (off + 1 - start), max hi (off.toNat + 1))
  else (setHeaderLength (setHeaderLength m start (off - start - 4).toNat) 0 off.toNat, some (off - start), max hi 4)

/-- `TLV_BOUNDARY_CHECK` (lines 230-234). -/
def boundaryOk (off space : Nat) : Bool := space > 4 ∧ off < space ∧ off % 2 = 0 ∧ space % 2 = 0

/-- `appendSlaveRxSyncTimingDataTLV`, `appendSlaveRxSyncComputedDataTLV` and
`appendSlaveTxEventTimestampsTLV` (lines 2664-2709, 2792-2838, 2921-2967): header,
preamble, elements. `none` is a failed assertion; the first asserts that the preamble
fits, the others return the error. The length in the header is uninitialised
(`junk`) until set. -/
def appendTLV (type : Nat) (pre el : List Field) (strict : Bool) (junk : Nat) (preVals : List Nat) (els : List (List Nat)) (m : Mem)
    (space : Nat) : Option (Mem × Option Int × Nat) :=
  let start := getHeaderLength m 0
  if boundaryOk start space = false then none
  else if 4 > space - start then none
  else
    let m := store m start (toBE 2 type ++ toBE 2 junk)
    let p := packFields (start + 4) (space - (start + 4)) pre preVals m 0 0
    if p.ok = false then (if strict then none else some (p.mem, none, max (start + 4) p.hi))
    else
      let q := packElements el space els p.mem (start + 4 + p.size) (max (start + 4) p.hi)
      some (finishTLV q.1 start q.2.1 q.2.2 space)

/-- `appendSlaveStatusTLV` (lines 2994-3024), with `msgPackOrgTLVHeader` (2379-2399). -/
def appendStatusTLV (vals : List Nat) (m : Mem) (space : Nat) : Option (Mem × Option Int × Nat) :=
  let start := getHeaderLength m 0
  if boundaryOk start space = false then none
  else if 10 > space - start then none
  else
    let m := store m start (toBE 2 0x8000 ++ toBE 2 6 ++ toBE 3 0x000F53 ++ toBE 3 1)
    let p := packFields (start + 10) (space - (start + 10)) slaveStatus vals m 0 0
    if p.ok = false then none
    else some (finishTLV p.mem start (start + 10 + p.size) (max (start + 10) p.hi) space)

/-- The loop of the TLV decoders (e.g. lines 2651-2661). -/
def unpackElements (fs : List Field) (m : Mem) (a length : Nat) : Nat → Nat → Option (List (List (Option Nat)) × Nat)
  | 0, _ => some ([], a)
  | n + 1, off =>
    let g := unpackFields m (a + off) (length - off) fs 0 0
    if g.ok = false then none
    else (unpackElements fs m a length n (off + g.size)).map (fun x => (g.vals :: x.1, max g.hi x.2))

/-- `unpackSlaveRxSyncTimingDataTLV`, `unpackSlaveRxSyncComputedDataTLV` and
`unpackSlaveTxEventTimestampsTLV` (lines 2634-2662, 2762-2790, 2879-2907): the outer
`none` is the failed assertion that the preamble was read, the inner an error. -/
def unpackTLV (pre el : List Field) (m : Mem) (a length : Nat) : Option (Option (List (Option Nat) × List (List (Option Nat)) × Nat)) :=
  let g := unpackFields m a length pre 0 0
  if g.ok = false then none
  else
    let n := (length - g.size) / (el.map (·.size)).sum
    some ((unpackElements el m a length n g.size).map (fun x => (g.vals, x.1, max g.hi x.2)))

end Verif.Codec
