import Verif.Codec.Model

/-!
# Model of management messages

Models `src/ptp/ptpd2/dep/msg.c`: `unpackMM*` (lines 320-1126), `unpackManagementTLV`
(1464-1481), `freeManagementTLV` (1496-1513), `freeMM*`, `msgUnpackManagement`
(2295-2318); `src/ptp/ptpd2/protocol.c`: `acceptManagementMessage` (2886-2899) and
`handleManagement` (2902-3293); and `src/ptp/ptpd2/management.c`: the handlers (149-1145),
`managementInitOutgoingMsg` (105-146) and `handleErrorManagementMessage` (1155-1183).

The datagram is in memory from address 0 on; what lies beyond it is what the buffer held
before. Allocation does not fail. A pointer is null, to live memory or to freed memory, and
any access through one of the last kind is a fault. Not modelled: display functions, the
answers giving whole data sets (a parameter), the encoding of the answer (C44) and its
transmission, and the interval of the servo, which follows `logSyncInterval`.
-/

namespace Verif.Management
open Verif.Codec

/-- Undefined behaviour: access to or release of freed memory; access to a data field or a
text that is not there; release of a pointer never set. -/
inductive Fault where
  | freed
  | noData
  | noText
  | wild
deriving DecidableEq, Repr

/-- What a pointer refers to. -/
inductive Ptr (α : Type) where
  | null
  | live (a : α)
  | freed
deriving DecidableEq, Repr

/-- `PTPText.textField`: null, a copy of the text, or never set. -/
inductive Text where
  | null
  | live (l : List Byte)
  | unset
deriving DecidableEq, Repr

/-- The data field of a management TLV: the values of a table, a single text, or a clock
description, whose contents are not used. -/
inductive Data where
  | values (vs : List (Option Nat))
  | text (length : Nat) (t : Text)
  | description
deriving DecidableEq, Repr

/-- `ManagementTLV`. -/
structure Tlv where
  type : Nat
  length : Nat
  id : Nat
  data : Ptr Data
deriving DecidableEq, Repr

/-- `MsgManagement`, the fields used. -/
structure Msg where
  messageLength : Nat
  flag0 : Nat
  source : Nat × Nat
  sequenceId : Nat
  target : Nat × Nat
  startingHops : Nat
  hops : Nat
  action : Nat
  tlv : Ptr Tlv
deriving DecidableEq, Repr

/-- `unpackManagementTLV` (msg.c lines 1464-1481): on failure the memory is freed and the
pointer left. -/
def unpackManagementTLV (m : Mem) (length : Nat) : Ptr Tlv :=
  let g := unpackFields m 0 length managementTLV 48 0
  let v k := (g.vals.getD k none).getD 0
  if g.ok then .live ⟨v 0, v 1, v 2, .null⟩ else .freed

/-- The values of `management.def` as a message: `tlv` given the length the message claims. -/
def toMsg (vs : List (Option Nat)) (tlv : Nat → Ptr Tlv) : Msg :=
  let v k := (vs.getD k none).getD 0
  ⟨v 4, v 7, (v 11, v 12), v 13, (v 16, v 17), v 18, v 19, v 21, tlv (v 4)⟩

/-- `msgUnpackManagement` (msg.c lines 2295-2318). -/
def msgUnpackManagement (m : Mem) (length : Nat) : Option Msg :=
  let g := (table management).unpack m 0 length
  if g.ok then some (toMsg g.vals fun n => if n > 48 then unpackManagementTLV m length else .null) else none

/-- `PACK_SIMPLE(Boolean)` (msg.c line 138): a `Boolean` is an enumeration (dep/datatypes_dep.h line 16),
of four bytes, little-endian. -/
def boolean : Ty where
  arity := 1
  unpack m a _ := ⟨true, 4, [some (ofLE (load m a 4))], a + 4⟩
  pack v m a _ := ⟨true, 4, store m a (toBE 4 (v.headD 0)).reverse, a + 4⟩

/-- Two bytes (the tables of priorities, intervals etc.). -/
def pair : List Field := [⟨1, uint 1⟩, ⟨1, uint 1⟩]

/-- The tables of the data fields, `def/managementTLV/*.def`, except those with texts. -/
def dataTable (id : Nat) : Option (List Field) :=
  if id = 0x0005 then some [⟨2, uint 2⟩]
  else if id = 0x2000 then some defaultDataSet
  else if id = 0x2001 then some [⟨2, uint 2⟩, ⟨8, uint 8⟩, ⟨8, uint 8⟩]
  else if id = 0x2002 then some
    [⟨10, table portIdentity⟩, ⟨1, boolean⟩, ⟨1, uint 1⟩, ⟨2, uint 2⟩, ⟨4, uint 4⟩, ⟨1, uint 1⟩, ⟨4, table clockQuality⟩, ⟨1, uint 1⟩, ⟨8, checked 8⟩]
  else if id = 0x2003 then some [⟨2, uint 2⟩, ⟨1, uint 1⟩, ⟨1, uint 1⟩]
  else if id = 0x2004 then some
    [⟨10, table portIdentity⟩, ⟨1, uint 1⟩, ⟨1, uint 1⟩, ⟨8, uint 8⟩, ⟨1, uint 1⟩, ⟨1, uint 1⟩, ⟨1, uint 1⟩, ⟨1, uint 1⟩, ⟨1, uint 1⟩, ⟨0, upper⟩, ⟨1, lower⟩]
  else if id = 0x2008 then some [⟨1, boolean⟩, ⟨1, uint 1⟩]
  else if id = 0x200C then some [⟨0, upper⟩, ⟨1, lower⟩, ⟨1, uint 1⟩]
  else if id = 0x200F then some [⟨10, table timestamp⟩]
  else if id = 0x2011 then some [⟨2, uint 2⟩, ⟨1, uint 1⟩, ⟨1, uint 1⟩]
  else if id = 0x2005 ∨ id = 0x2006 ∨ id = 0x2007 ∨ id = 0x2009 ∨ id = 0x200A ∨ id = 0x200B ∨ id = 0x2010 ∨ id = 0x2012 ∨ id = 0x6000 ∨ id = 0x6001 then
    some pair
  else none

/-- `unpackPTPText` (msg.c lines 1333-1350) at `a`, `length` bytes being left, into memory
holding `old`. The failure to read the text is not noticed by the callers. -/
def unpackText (m : Mem) (a length : Nat) (old : Text) : Data :=
  let n := (m a).toNat
  .text n (if n = 0 then .null else if 1 + n > length then old else .live (load m (a + 1) n))

/-- The rows of `clockDescription.def`: those of a fixed size, and those with a length of
so many bytes, at an offset, after which the contents follow. -/
inductive Row where
  | fixed (n : Nat)
  | counted (skip n : Nat)

/-- The decoding of a clock description from `off` on: whether it succeeds. Lengths are 0
when the sizes are checked, the memory having been cleared. -/
def describe (m : Mem) (length : Nat) : List Row → Nat → Bool
  | [], _ => true
  | .fixed n :: rows, off => if off + n > length then false else describe m length rows (off + n)
  | .counted skip n :: rows, off =>
    if off + (skip + n) > length then false
    else describe m length rows (off + (skip + n) + ofBE (load m (off + skip) n))

/-- `clockDescription.def`. -/
def descriptionRows : List Row :=
  [.fixed 1, .fixed 1, .counted 0 1, .counted 0 2, .counted 2 2, .fixed 1, .fixed 1, .fixed 1, .fixed 1, .counted 0 1, .counted 0 1, .counted 0 1,
    .fixed 1, .fixed 1, .fixed 1, .fixed 1, .fixed 1, .fixed 1]

/-- `unpackMM*` (msg.c lines 320-1105): the data field, freed on failure with the pointer
left. Identifiers without data: the pointer stays null. -/
def unpackData (m : Mem) (length id : Nat) : Ptr Data :=
  match dataTable id with
  | some fs =>
    let g := unpackFields m 0 length fs 54 0
    if g.ok then .live (.values g.vals) else .freed
  | none =>
    if id = 1 then (if describe m length descriptionRows 54 then .live .description else .freed)
    else if id = 2 then (if 54 + 1 > length then .freed else .live (unpackText m 54 (length - 54) .null))
    else .null

/-- `unpackMMErrorStatus` (msg.c lines 1109-1126): the memory is not cleared, so that
`junk` is taken as the length of the text when the size is checked. -/
def unpackErrorStatus (m : Mem) (length junk : Nat) : Ptr Data :=
  if 54 + 2 > length then .freed
  else if 56 + 4 > length then .freed
  else if 60 + (1 + junk) > length then .freed
  else .live (unpackText m 60 (length - 60) .unset)

/-- `freeManagementTLV` (msg.c lines 1496-1513). -/
def freeManagementTLV : Ptr Tlv → Except Fault (Ptr Tlv)
  | .null => .ok .null
  | .freed => .error .freed
  | .live t =>
    match t.data with
    | .freed => .error .freed
    | .live (.text _ .unset) => .error .wild
    | _ => .ok .null

/-- The parts of the port that management messages read or change. Booleans are those
stored; signed values are their two's complement. -/
structure Clock where
  identity : Nat
  port : Nat
  slaveOnly : Bool
  priority1 : Nat
  priority2 : Nat
  domain : Nat
  logAnnounce : Nat
  timeout : Nat
  logSync : Nat
  accuracy : Nat
  utcOffset : Nat
  utcValid : Bool
  leap59 : Bool
  leap61 : Bool
  frequencyTraceable : Bool
  timeTraceable : Bool
  delayMechanism : Nat
  logMinPdelay : Nat
  user : List Byte
  state : Nat
  update : Bool
deriving DecidableEq, Repr

/-- `PTPD_INITIALIZING`, `PTPD_DISABLED`, `PTPD_SLAVE` (constants.h lines 419-428). -/
def initializing : Nat := 1
def disabled : Nat := 3
def slave : Nat := 9

/-- What a handler gives: return code, the clock, action and values of the answer. -/
structure Out where
  rc : Nat
  clock : Clock
  action : Nat
  values : List Nat
deriving DecidableEq, Repr

/-- Value `k` of the data field. -/
def value (d : Ptr Data) (k : Nat) : Except Fault Nat :=
  match d with
  | .live (.values vs) => .ok ((vs.getD k none).getD 0)
  | .freed => .error .freed
  | _ => .error .noData

/-- The handlers of attributes that may be read and set: `refuse` if they may not be set
now. -/
def attr (c : Clock) (action : Nat) (refuse : Bool) (set : Except Fault Clock) (get : Clock → List Nat) : Except Fault Out :=
  if action = 1 then
    if refuse then .ok ⟨6, c, 0, []⟩
    else set.map fun c' => ⟨0, c', 2, get c'⟩
  else if action = 0 then .ok ⟨0, c, 2, get c⟩
  else .ok ⟨6, c, 0, []⟩

/-- `IS_SET` (ptpd.h line 84). -/
def isSet (v bit : Nat) : Bool := v.testBit bit

/-- `SET_FIELD` (ptpd.h line 87). -/
def setField (b : Bool) (bit : Nat) : Nat := b.toNat * 2 ^ bit

/-- `handleMMUserDescription`, the action SET (management.c lines 307-322). -/
def setUser (c : Clock) (d : Ptr Data) : Except Fault (Option Clock) :=
  match d with
  | .live (.text n t) =>
    if n ≤ 128 then
      match t with
      | .live l => .ok (some { c with user := l })
      | .null => if n = 0 then .ok (some { c with user := [] }) else .error .noText
      | .unset => .error .wild
    else .ok none
  | .freed => .error .freed
  | _ => .error .noData

/-- The handlers (management.c lines 149-1145). -/
def handle (c : Clock) (query : Nat → Clock → List Nat) (id action : Nat) (d : Ptr Data) : Except Fault Out :=
  let master := c.slaveOnly = true ∨ c.state = slave
  let u (v : Clock → Nat → Clock) : Except Fault Clock := (value d 0).map fun x => { v c x with update := true }
  if id = 0x0000 then
    .ok (if action = 0 ∨ action = 1 then ⟨0, c, 2, []⟩ else if action = 3 then ⟨0, c, 4, []⟩ else ⟨6, c, 0, []⟩)
  else if id = 0x0001 ∨ id = 0x2000 ∨ id = 0x2001 ∨ id = 0x2002 ∨ id = 0x2003 ∨ id = 0x2004 ∨ id = 0x200C then
    .ok (if action = 0 then ⟨0, c, 2, query id c⟩ else ⟨6, c, 0, []⟩)
  else if id = 0x0002 then
    if action = 1 then
      (setUser c d).map fun
        | some c' => ⟨0, c', 2, (c'.user.takeWhile (· ≠ 0)).map (·.toNat)⟩
        | none => ⟨3, c, 0, []⟩
    else .ok (if action = 0 then ⟨0, c, 2, (c.user.takeWhile (· ≠ 0)).map (·.toNat)⟩ else ⟨6, c, 0, []⟩)
  else if id = 0x0005 then
    if action = 3 then (value d 0).map fun key => ⟨0, if key = 0 then { c with state := initializing } else c, 4, [key]⟩
    else .ok ⟨6, c, 0, []⟩
  else if id = 0x2005 then attr c action false (u fun c x => { c with priority1 := x }) fun c => [c.priority1]
  else if id = 0x2006 then attr c action false (u fun c x => { c with priority2 := x }) fun c => [c.priority2]
  else if id = 0x2007 then attr c action false (u fun c x => { c with domain := x }) fun c => [c.domain]
  else if id = 0x2008 then attr c action false (u fun c x => { c with slaveOnly := x ≠ 0 }) fun c => [c.slaveOnly.toNat]
  else if id = 0x2009 then attr c action false (u fun c x => { c with logAnnounce := x }) fun c => [c.logAnnounce]
  else if id = 0x200A then attr c action false (u fun c x => { c with timeout := x }) fun c => [c.timeout]
  else if id = 0x200B then attr c action false (u fun c x => { c with logSync := x }) fun c => [c.logSync]
  else if id = 0x200D then
    .ok (if action = 3 then ⟨0, if c.state = disabled then { c with state := initializing } else c, 4, []⟩ else ⟨6, c, 0, []⟩)
  else if id = 0x200E then .ok (if action = 3 then ⟨0, { c with state := disabled }, 4, []⟩ else ⟨6, c, 0, []⟩)
  else if id = 0x200F then attr c action master (.ok c) fun c => query id c
  else if id = 0x2010 then attr c action master (u fun c x => { c with accuracy := x }) fun c => [c.accuracy]
  else if id = 0x2011 then
    attr c action master
      (do
        let x ← value d 0
        let f ← value d 1
        return { c with utcOffset := x, utcValid := isSet f 2, leap59 := isSet f 1, leap61 := isSet f 0, update := true })
      fun c => [c.utcOffset, setField c.utcValid 2 + setField c.leap59 1 + setField c.leap61 0]
  else if id = 0x2012 then
    attr c action master (u fun c x => { c with frequencyTraceable := isSet x 5, timeTraceable := isSet x 4 })
      fun c => [setField c.frequencyTraceable 5 + setField c.timeTraceable 4]
  else if id = 0x6000 then attr c action false (u fun c x => { c with delayMechanism := x }) fun c => [c.delayMechanism]
  else if id = 0x6001 then attr c action false (u fun c x => { c with logMinPdelay := x }) fun c => [c.logMinPdelay]
  else if (3 ≤ id ∧ id ≤ 7) ∨ (0x2013 ≤ id ∧ id ≤ 0x2021) ∨ (0x4000 ≤ id ∧ id ≤ 0x4002) then .ok ⟨6, c, 0, []⟩
  else .ok ⟨2, c, 0, []⟩

/-- Options. -/
structure Opts where
  enabled : Bool
  setEnable : Bool
deriving DecidableEq, Repr

/-- An answer: TLV type, its identifier (the error for an error status) and the values
of its data, action, sequence number, the port addressed, hops and whether it is sent to
the sender only. -/
structure Reply where
  type : Nat
  id : Nat
  values : List Nat
  action : Nat
  sequenceId : Nat
  target : Nat × Nat
  hops : Nat
  unicast : Bool
deriving DecidableEq, Repr

/-- What becomes of a message: the clock, counters of messages received, discarded and in
error, the answer, and `msgTmp.manage.tlv` on return. -/
structure Result where
  clock : Clock
  received : Nat
  discarded : Nat
  errors : Nat
  reply : Option Reply
  left : Ptr Tlv
deriving DecidableEq, Repr

/-- `acceptManagementMessage` (protocol.c lines 2886-2899). -/
def acceptManagementMessage (c : Clock) (target : Nat × Nat) : Bool :=
  (target.1 = c.identity || target.1 = 2 ^ 64 - 1) && (target.2 = c.port || target.2 = 0xFFFF)

/-- The answer and the release of the message (protocol.c lines 3256-3292), `d` being the
data field. -/
def finish (msg : Msg) (t : Tlv) (o : Out) (d : Ptr Data) : Except Fault Result :=
  let hops := (msg.startingHops + 256 - msg.hops) % 256
  let unicast := msg.flag0.testBit 2
  let reply :=
    if o.rc = 0 then ⟨1, t.id, o.values, o.action, msg.sequenceId, msg.source, hops, unicast⟩
    else ⟨2, o.rc, [t.id], if msg.action = 0 ∨ msg.action = 1 then 2 else if msg.action = 3 then 4 else 0, msg.sequenceId, msg.source, hops, unicast⟩
  (freeManagementTLV (.live { t with data := d })).map fun p => ⟨o.clock, 1, 0, 0, some reply, p⟩

/-- The rest of `handleManagement` once the message is accepted (protocol.c lines
2969-3293): the data field is decoded for actions other than GET. -/
def answer (opts : Opts) (c : Clock) (query : Nat → Clock → List Nat) (m : Mem) (length : Nat) (msg : Msg) (t : Tlv) : Except Fault Result :=
  if opts.setEnable = false ∧ (msg.action = 1 ∨ msg.action = 3) then finish msg t ⟨6, c, 0, []⟩ t.data
  else
    let d := if msg.action = 0 then t.data else unpackData m length t.id
    if d = .freed then finish msg t ⟨3, c, 0, []⟩ d
    else
      match handle c query t.id msg.action d with
      | .error f => .error f
      | .ok o => finish msg t o d

/-- `handleManagement` (protocol.c lines 2902-3293). -/
def handleManagement (opts : Opts) (c : Clock) (query : Nat → Clock → List Nat) (m : Mem) (length junk : Nat) (msg : Msg) : Except Fault Result :=
  let discard := (freeManagementTLV msg.tlv).map fun p => (⟨c, 0, 1, 0, none, p⟩ : Result)
  if opts.enabled = false then discard
  else
    match msg.tlv with
    | .null => .ok ⟨c, 0, 0, 1, none, .null⟩
    | .freed => if acceptManagementMessage c msg.target then .error .freed else discard
    | .live t =>
      if acceptManagementMessage c msg.target = false then discard
      else if t.type = 2 then
        match unpackErrorStatus m length junk with
        | .freed => .ok ⟨c, 0, 0, 1, none, .live { t with data := .freed }⟩
        | d => (freeManagementTLV (.live { t with data := d })).map fun p => ⟨c, 1, 0, 0, none, p⟩
      else if t.type ≠ 1 then discard
      else if msg.action = 2 ∨ msg.action = 4 then discard
      else answer opts c query m length msg t

/-- A management message given to a port: `none` if it is malformed. -/
def receive (opts : Opts) (c : Clock) (query : Nat → Clock → List Nat) (m : Mem) (length junk : Nat) : Option (Except Fault Result) :=
  (msgUnpackManagement m length).map (handleManagement opts c query m length junk)

end Verif.Management
