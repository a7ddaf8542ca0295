import Verif.Codec.Model
import Mathlib.Data.List.Forall2

/-!
# Specification of wire formats

A message is a number written most significant byte first, and its fields are groups
of bits of that number, in order. Nothing here refers to the functions of the model.
-/

namespace Verif.Codec.Spec

/-- The number bytes stand for, most significant byte first. -/
def number : List (BitVec 8) → Nat
  | [] => 0
  | x :: xs => x.toNat * 256 ^ xs.length + number xs

/-- Values that fit bit fields of the given widths. -/
def Fits (ws vs : List Nat) : Prop := List.Forall₂ (fun w v => v < 2 ^ w) ws vs

/-- The number whose bit fields of the given widths, from the most significant on, are
the given values. -/
def joined : List Nat → List Nat → Nat
  | _ :: ws, v :: vs => v * 2 ^ ws.sum + joined ws vs
  | _, _ => 0

/-- The bytes hold the given values in bit fields of the given widths. -/
def Holds (ws vs : List Nat) (bytes : List (BitVec 8)) : Prop :=
  Fits ws vs ∧ ws.sum = 8 * bytes.length ∧ number bytes = joined ws vs

/-- The bytes of a memory from `a` to `a + n`. -/
def slice (m : Nat → BitVec 8) (a n : Nat) : List (BitVec 8) := (List.range n).map (fun i => m (a + i))

/-- The memories agree except from `a` to `a + n`. -/
def SameOutside (m m' : Nat → BitVec 8) (a n : Nat) : Prop := ∀ i, i < a ∨ a + n ≤ i → m' i = m i

/-- The common header (IEEE 1588-2019 table 35): majorSdoId, messageType,
minorVersionPTP, versionPTP, messageLength, domainNumber, minorSdoId, two octets of
flags, correctionField, messageTypeSpecific, sourcePortIdentity (clock, port),
sequenceId, controlField, logMessageInterval. -/
def headerBits : List Nat := [4, 4, 4, 4, 16, 8, 8, 8, 8, 64, 32, 64, 16, 16, 8, 8]

/-- A 64 bit number as a signed one. -/
def signed64 (v : Nat) : Int := if v < 9223372036854775808 then v else (v : Int) - 18446744073709551616

end Verif.Codec.Spec

namespace Verif.Codec

/-- The fields of a header in the order of the wire, with `t` for the type-specific
octets. -/
def Header.fields (h : Header) (t : Nat) : List Nat :=
  [h.majorSdoId, h.messageType, h.minorVersion, h.version, h.messageLength, h.domain, h.minorSdoId, h.flag0, h.flag1, h.correction, t, h.identity,
    h.port, h.sequenceId, h.control, h.logInterval]

/-- The ranges of the values of a clock. -/
structure Clock.Ranged (c : Clock) : Prop where
  versionMinor : c.versionMinor < 16
  domain : c.domain < 256
  identity : c.identity < 2 ^ 64
  port : c.port < 65536
  syncSeq : c.syncSeq < 65536
  announceSeq : c.announceSeq < 65536
  delayReqSeq : c.delayReqSeq < 65536
  pdelayReqSeq : c.pdelayReqSeq < 65536
  logSync : c.logSync < 256
  logAnnounce : c.logAnnounce < 256
  logMinDelayReq : c.logMinDelayReq < 256
  utcOffset : c.utcOffset < 65536
  priority1 : c.priority1 < 256
  clockClass : c.clockClass < 256
  accuracy : c.accuracy < 256
  variance : c.variance < 65536
  priority2 : c.priority2 < 256
  grandmaster : c.grandmaster < 2 ^ 64
  steps : c.steps < 65536
  timeSource : c.timeSource < 256

end Verif.Codec
