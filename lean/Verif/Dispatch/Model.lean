import Verif.Codec.Model

/-!
# Model of the reception of messages

Models `src/ptp/ptpd2/protocol.c`: the table of TLV handlers (lines 144-208),
`processMessage` (966-1068), `processPortMessage` (1070-1184), `unpackPortMessage`
(1186-1255) and `processTLVs` (1257-1468).

The received datagram is in memory from address 0 on. Handlers are parameters acting
on a state. Access control is a parameter giving the decision for each mask of lists;
that the decisions taken for one message agree with each other is C53. Timestamps,
counters (except the reason for discarding) and the display of packets are left out.
-/

namespace Verif.Dispatch
open Verif.Codec

/-- `struct tlv_handling`: `id` is the position in the table. The masks of permitted
message types are taken modulo 2^16, there being 16 message types. -/
structure Handler where
  id : Nat
  type : Nat
  org : Nat
  sub : Nat
  messages : Nat
  acl : Nat
  pass1 : Bool
  pass2 : Bool
deriving DecidableEq, Repr

/-- `tlv_handlers` (lines 144-208). -/
def tlvHandlers : List Handler :=
  [⟨0, 0x21FE, 0, 0, 0x0002, 6, false, true⟩, ⟨1, 0x2200, 0, 0, 0x0002, 6, true, false⟩, ⟨2, 0x8008, 0, 0, 0xFFFF, 0, false, false⟩,
    ⟨3, 0x8004, 0, 0, 0x1000, 4, false, true⟩, ⟨4, 0x8005, 0, 0, 0x1000, 4, false, true⟩, ⟨5, 0x8006, 0, 0, 0x1000, 4, false, true⟩,
    ⟨6, 0x8000, 0x000F53, 1, 0x1000, 4, false, true⟩, ⟨7, 0x8002, 0, 0, 0x0800, 0, true, false⟩]

/-- What a handler is given of a TLV: `type`, where its header is, where its value is,
and `lengthField`. -/
structure Tlv where
  type : Nat
  offset : Nat
  value : Nat
  length : Nat
deriving DecidableEq, Repr

/-- `enum ptpd_tlv_result`. -/
inductive Result where
  | cont
  | drop
  | error
deriving DecidableEq, Repr

/-- The message's type, decisions of access control, and handlers. -/
structure Env (σ : Type) where
  messageType : Nat
  permitted : Nat → Bool
  run1 : Handler → Tlv → σ → σ × Result
  run2 : Handler → Tlv → σ → σ × Result

/-- Local variables of `processTLVs`: the state handlers act on, `tlvs`,
`all_tlvs_result`, and, for the statements, the TLVs looked up so far. -/
structure Acc (σ : Type) where
  state : σ
  entries : List (Handler × Tlv)
  drop : Bool
  seen : List Tlv

/-- `org_ext` (lines 1317-1319). -/
def orgExt (type : Nat) : Bool := type = 0x0003 || type = 0x4000 || type = 0x8000

/-- The search for a handler (lines 1333-1343). -/
def lookup (type : Nat) (org : Option (Nat × Nat)) : Option Handler :=
  tlvHandlers.find? fun h => h.type = type && (match org with | none => true | some (o, s) => o = h.org && s = h.sub)

/-- What is done with a handler found (lines 1351-1412): whether to go on. `length` is
a `UInteger16`. -/
def accept {σ : Type} (env : Env σ) (h : Handler) (t : Tlv) (a : Acc σ) : Bool × Acc σ :=
  if env.permitted h.acl = false then (true, a)
  else if h.messages.testBit env.messageType = false then (true, a)
  else if a.entries.length = 32 then (false, a)
  else
    let saved := if orgExt t.type then { t with length := (t.length + 65536 - 6) % 65536 } else t
    let a := { a with entries := a.entries ++ [(h, saved)] }
    if h.pass1 then
      let r := env.run1 h t a.state
      match r.2 with
      | .error => (false, { a with state := r.1 })
      | .drop => (true, { a with state := r.1, drop := true })
      | .cont => (true, { a with state := r.1 })
    else (true, a)

/-- One TLV whose header has been read (lines 1307-1426): the next offset, or `none` to
return false. -/
def oneTLV {σ : Type} (env : Env σ) (m : Mem) (safe off type length : Nat) (a : Acc σ) : Option Nat × Acc σ :=
  if length > safe - (off + 4) then (none, a)
  else if orgExt type then
    match (msgUnpackOrgTLVSubHeader m (off + 4) (safe - (off + 4))).1 with
    | none => (none, a)
    | some org =>
      let t : Tlv := ⟨type, off, off + 4 + 6, length⟩
      let a := { a with seen := a.seen ++ [t] }
      match lookup type (some org) with
      | none => (some (off + 4 + 6 + length), a)
      | some h =>
        let r := accept env h t a
        (if r.1 then some (off + 4 + 6 + length) else none, r.2)
  else
    let t : Tlv := ⟨type, off, off + 4, length⟩
    let a := { a with seen := a.seen ++ [t] }
    match lookup type none with
    | none => (some (off + 4 + length), a)
    | some h =>
      let r := accept env h t a
      (if r.1 then some (off + 4 + length) else none, r.2)

/-- The first pass (lines 1281-1427): whether to go on. `junk` is what the uninitialised
type holds when fewer than two bytes remain. `none`: out of fuel. -/
def walk {σ : Type} (env : Env σ) (m : Mem) (safe junk : Nat) : Nat → Nat → Acc σ → Option (Bool × Acc σ)
  | 0, _, _ => none
  | fuel + 1, off, a =>
    if off < safe then
      match msgUnpackTLVHeader m off (safe - off) with
      | (some type, some length, true, _) =>
        match oneTLV env m safe off type length a with
        | (none, a) => some (false, a)
        | (some off, a) => walk env m safe junk fuel off a
      | (type, _, _, _) => some (type.getD junk = 0, a)
    else some (true, a)

/-- The second pass (lines 1434-1465). -/
def secondPass {σ : Type} (env : Env σ) : List (Handler × Tlv) → σ → Bool → Bool × σ
  | [], s, drop => (!drop, s)
  | (h, t) :: es, s, drop =>
    if h.pass2 then
      let r := env.run2 h t s
      match r.2 with
      | .error => (false, r.1)
      | .drop => secondPass env es r.1 true
      | .cont => secondPass env es r.1 drop
    else secondPass env es s drop

/-- `processTLVs` (lines 1257-1468) from `off` on: whether the message is to be handled,
the state, and the TLVs looked up. -/
def processTLVs {σ : Type} (env : Env σ) (m : Mem) (safe off junk : Nat) (s : σ) : Option (Bool × σ × List Tlv) :=
  let first := if env.messageType = 13 then some (true, ⟨s, [], false, []⟩) else walk env m safe junk (safe + 1) off ⟨s, [], false, []⟩
  first.map fun r =>
    if r.1 = false then (false, r.2.state, r.2.seen)
    else if r.2.drop then (false, r.2.state, r.2.seen)
    else
      let q := secondPass env r.2.entries r.2.state false
      (q.1, q.2, r.2.seen)

/-! ## Reception -/

/-- The parts of a port and its options used for reception. -/
structure Port where
  domain : Nat
  monitor : Bool
  identity : Nat
  number : Nat
deriving DecidableEq, Repr

/-- The choice of a port (lines 1031-1042): its position. -/
def choose (domain : Nat) : List Port → Nat → Option Nat → Option Nat
  | [], _, mon => mon
  | p :: ps, i, mon =>
    let mon := if p.monitor then some i else mon
    if p.domain = domain then some i else choose domain ps (i + 1) mon

/-- `unpackPortMessage` (lines 1186-1255): the size of the body, `none` for an error or
an unknown type. For management messages the size is not used. -/
def unpackPortMessage (m : Mem) (type safe : Nat) : Option Nat :=
  if type = 11 then (msgUnpackAnnounce m safe).1.map fun _ => 30
  else if type = 0 ∨ type = 8 ∨ type = 1 ∨ type = 2 then (msgUnpackStamp m safe).1.map fun _ => 10
  else if type = 9 ∨ type = 3 ∨ type = 10 then (msgUnpackResp m safe).1.map fun _ => 20
  else if type = 13 then (if ((table management).unpack m 0 safe).ok then some 14 else none)
  else if type = 12 then (if ((table signaling).unpack m 0 safe).ok then some 10 else none)
  else none

/-- What becomes of a datagram: failed assertion; discarded for the stated reason; from
the port itself; or given to a port's TLV processing with the safe length and the
offset of the TLVs. -/
inductive Fate where
  | assertion
  | short
  | refused
  | version
  | domain
  | own
  | malformed
  | deliver (port safe off : Nat) (h : Header)
deriving DecidableEq, Repr

/-- `processPortMessage` (lines 1070-1184). -/
def processPortMessage (p : Port) (i : Nat) (h : Header) (m : Mem) (length : Nat) : Fate :=
  if ¬ (h.domain = p.domain ∨ p.monitor) then .assertion
  else
    let safe := if h.messageLength < length then h.messageLength else length
    if p.number = h.port ∧ h.identity = p.identity then .own
    else
      match unpackPortMessage m h.messageType safe with
      | none => .malformed
      | some n => .deliver i safe (34 + n) h

/-- `processMessage` (lines 966-1068): `gate mgmt` is the decision of access control for
management and for other messages, as modelled by `Acl.gate`. -/
def processMessage (ports : List Port) (gate : Bool → Bool) (m : Mem) (length : Nat) : Fate :=
  if length < 34 then .short
  else
    match (msgUnpackHeader m length).1 with
    | none => .short
    | some h =>
      if gate (h.messageType = 13) = false then .refused
      else if h.version ≠ 2 then .version
      else
        match choose h.domain ports 0 none with
        | none => .domain
        | some i =>
          match ports[i]? with
          | none => .assertion
          | some p => processPortMessage p i h m length

end Verif.Dispatch
