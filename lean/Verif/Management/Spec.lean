import Verif.Management.Model
import Verif.Codec.Spec

/-!
# Specification of management messages

The positions of fields in the message and what management of a clock means, from
IEEE 1588-2019 clause 15, without reference to the functions of the model.
-/

namespace Verif.Management.Spec
open Verif.Codec Verif.Codec.Spec

/-- The number in `n` octets at `a`. -/
def num (m : Mem) (a n : Nat) : Nat := number (slice m a n)

/-- The fields of a message used below. -/
def messageLength (m : Mem) : Nat := num m 2 2
def action (m : Mem) : Nat := num m 46 1 % 16
def tlvType (m : Mem) : Nat := num m 48 2
def managementId (m : Mem) : Nat := num m 52 2

/-- The message has a management TLV of the buffer's length. -/
def HasTlv (m : Mem) (length : Nat) : Prop := 48 < messageLength m ∧ 54 ≤ length

/-- The target is this port of this clock, all its ports, or all clocks. -/
def Addressed (c : Clock) (m : Mem) : Prop :=
  (num m 34 8 = c.identity ∨ slice m 34 8 = List.replicate 8 0xFF#8) ∧ (num m 42 2 = c.port ∨ slice m 42 2 = List.replicate 2 0xFF#8)

/-- A request to this port: a management TLV and an action GET, SET or COMMAND (or one
not defined). -/
def Request (opts : Opts) (c : Clock) (m : Mem) (length : Nat) : Prop :=
  opts.enabled = true ∧ HasTlv m length ∧ Addressed c m ∧ tlvType m = 1 ∧ action m ≠ 2 ∧ action m ≠ 4

/-- Length of the data of identifiers with data of a fixed length. -/
def sizes : List (Nat × Nat) :=
  [(0x0005, 2), (0x2000, 20), (0x2001, 18), (0x2002, 32), (0x2003, 4), (0x2004, 26), (0x2005, 2), (0x2006, 2), (0x2007, 2), (0x2008, 2), (0x2009, 2),
    (0x200A, 2), (0x200B, 2), (0x200C, 2), (0x200F, 10), (0x2010, 2), (0x2011, 4), (0x2012, 2), (0x6000, 2), (0x6001, 2)]

/-- The message has all the data of its identifier: for a clock description, all of its
texts and addresses. -/
def Complete (m : Mem) (length : Nat) : Prop :=
  (∀ n, (managementId m, n) ∈ sizes → 54 + n ≤ length) ∧
  (managementId m = 2 → 55 + num m 54 1 ≤ length) ∧
  (managementId m = 1 → ∃ p q r s t u, p = num m 56 1 ∧ q = num m (57 + p) 2 ∧ r = num m (61 + p + q) 2 ∧ s = num m (67 + p + q + r) 1 ∧
    t = num m (68 + p + q + r + s) 1 ∧ u = num m (69 + p + q + r + s + t) 1 ∧ 76 + p + q + r + s + t + u ≤ length)

/-- An error status with all its data, also if its text were of `junk` octets. -/
def CompleteStatus (m : Mem) (length junk : Nat) : Prop := 61 + junk ≤ length ∧ 61 + num m 60 1 ≤ length

/-- The identifiers of attributes that can be read and set, apart from the description and
the time. -/
def attributes : List Nat :=
  [0x2005, 0x2006, 0x2007, 0x2008, 0x2009, 0x200A, 0x200B, 0x2010, 0x2011, 0x2012, 0x6000, 0x6001]

/-- Those that belong to a grandmaster and cannot be set in a slave. -/
def ofMaster : List Nat := [0x2010, 0x2011, 0x2012]

/-- The clock is or is going to be a slave. -/
def Slave (c : Clock) : Prop := c.slaveOnly = true ∨ c.state = slave

/-- The value of an attribute, as an octet or number and octet of flags. -/
def get (id : Nat) (c : Clock) : List Nat :=
  if id = 0x2005 then [c.priority1]
  else if id = 0x2006 then [c.priority2]
  else if id = 0x2007 then [c.domain]
  else if id = 0x2008 then [if c.slaveOnly then 1 else 0]
  else if id = 0x2009 then [c.logAnnounce]
  else if id = 0x200A then [c.timeout]
  else if id = 0x200B then [c.logSync]
  else if id = 0x2010 then [c.accuracy]
  else if id = 0x2011 then [c.utcOffset, (if c.leap61 then 1 else 0) + (if c.leap59 then 2 else 0) + (if c.utcValid then 4 else 0)]
  else if id = 0x2012 then [(if c.timeTraceable then 16 else 0) + (if c.frequencyTraceable then 32 else 0)]
  else if id = 0x6000 then [c.delayMechanism]
  else if id = 0x6001 then [c.logMinPdelay]
  else []

/-- Bit `k` of an octet. -/
def flag (x : BitVec 8) (k : Nat) : Bool := x.toNat / 2 ^ k % 2 = 1

/-- The clock after the octets `d` were set as the value of an attribute. -/
def set (id : Nat) (d : List (BitVec 8)) (c : Clock) : Clock :=
  let o k := d.getD k 0
  let x := (o 0).toNat
  if id = 0x2005 then { c with priority1 := x, update := true }
  else if id = 0x2006 then { c with priority2 := x, update := true }
  else if id = 0x2007 then { c with domain := x, update := true }
  else if id = 0x2008 then { c with slaveOnly := x ≠ 0, update := true }
  else if id = 0x2009 then { c with logAnnounce := x, update := true }
  else if id = 0x200A then { c with timeout := x, update := true }
  else if id = 0x200B then { c with logSync := x, update := true }
  else if id = 0x2010 then { c with accuracy := x, update := true }
  else if id = 0x2011 then
    { c with utcOffset := x * 256 + (o 1).toNat, utcValid := flag (o 2) 2, leap59 := flag (o 2) 1, leap61 := flag (o 2) 0, update := true }
  else if id = 0x2012 then { c with timeTraceable := flag (o 0) 4, frequencyTraceable := flag (o 0) 5, update := true }
  else if id = 0x6000 then { c with delayMechanism := x, update := true }
  else if id = 0x6001 then { c with logMinPdelay := x, update := true }
  else c

/-- An answer to the sender of the message: to its port, with its sequence number, the
hops it took, and to the sender alone if the message was sent to this port alone. -/
structure Answers (m : Mem) (a : Reply) : Prop where
  sequence : a.sequenceId = num m 30 2
  clock : a.target.1 = num m 20 8
  port : a.target.2 = num m 28 2
  hops : num m 45 1 ≤ num m 44 1 → a.hops = num m 44 1 - num m 45 1
  unicast : a.unicast = true ↔ num m 6 1 / 4 % 2 = 1

/-- A refusal for the reason `e`: an error status naming the request. -/
structure Refusal (m : Mem) (e : Nat) (a : Reply) : Prop where
  type : a.type = 2
  reason : a.id = e
  names : a.values = [managementId m]
  answers : Answers m a

/-- An answer with values, to a GET or SET. -/
structure Response (m : Mem) (values : List Nat) (a : Reply) : Prop where
  type : a.type = 1
  id : a.id = managementId m
  action : a.action = 2
  values : a.values = values
  answers : Answers m a

/-- The state of the port after a command: INITIALIZE with key 0, ENABLE_PORT or
DISABLE_PORT. -/
def command (id key state : Nat) : Nat :=
  if id = 5 then (if key = 0 then initializing else state)
  else if id = 0x200D then (if state = disabled then initializing else state)
  else if id = 0x200E then disabled
  else state

end Verif.Management.Spec
