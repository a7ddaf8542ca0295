import Verif.Slave.Model
import Verif.Time.Lemmas

/-!
# What a slave promises about its measurements

Relations over histories.  A time is read as a number of units of `2^-32` ns
(`Verif.Time.val`); nothing here uses the functions of the model.
-/

namespace Verif.Slave

open Verif.Time

/-- The seconds between the local timescale and that of the master, as seen in
a state: the UTC offset when it is to be respected, corrected by the
adjustment made when a leap second is being faked. -/
def utcShift (c : Cfg) (s : State) : Int :=
  if s.port = .master then
    if s.utc.valid && s.utc.timescale then s.utc.offset - s.utc.fake else 0
  else if s.utc.valid || c.alwaysUtc then s.utc.offset - s.utc.fake else 0

/-- `t` is the local time `raw` moved to the timescale of the master and
corrected by the inbound latency (which is not done before 1970). -/
def Received (c : Cfg) (s : State) (raw t : Ts) : Prop :=
  val t = val raw + utcShift c s * 1000000000 * 4294967296
    - (if raw.sec + utcShift c s > 0 then val c.inbound else 0)

/-- `t` is the local time `raw` moved `n` times to the timescale of the master
and corrected by the outbound latency. -/
def Transmitted (c : Cfg) (s : State) (n : Int) (raw t : Ts) : Prop :=
  val t = val raw + n * utcShift c s * 1000000000 * 4294967296 + val c.outbound

/-- `t` is the time written in a message. -/
def Written (w : Wire) (t : Ts) : Prop := t.sec = w.seconds ∧ t.nsec = w.nanos ∧ t.frac = 0

/-- `t` is a correction field, in units of `2^-16` ns. -/
def Correction (x : Int) (t : Ts) : Prop := val t = x * 65536

/-- A Sync, with a timestamp, of the parent of the moment, received by a slave
or a port that is to become one. -/
def AcceptedSync (c : Cfg) (e : Entry) : Prop :=
  match e.ev with
  | .sync h len _ (some _) =>
    h.src = e.before.parent ∧ h.src ≠ c.self ∧ 44 ≤ len ∧
      (e.before.port = .slave ∨ e.before.port = .uncalibrated)
  | _ => False

instance (c : Cfg) (e : Entry) : Decidable (AcceptedSync c e) := by
  unfold AcceptedSync; split <;> infer_instance

/-- An attempt to send a Delay_Req, made because its timer expired; `o` tells
how it ended. -/
def Attempted (e : Entry) (o : Sent) : Prop :=
  e.ev = .reqExpired o ∧ e.before.reqTimer = true ∧ e.before.mech = .e2e ∧
    (e.before.port = .listening ∨ e.before.port = .uncalibrated ∨ e.before.port = .slave ∨
     e.before.port = .passive)

instance (e : Entry) (o : Sent) : Decidable (Attempted e o) := by
  unfold Attempted; infer_instance

/-- A Delay_Req was sent, with or without a ticket for its timestamp. -/
def Requested (e : Entry) (t : Option Ticket) : Prop := Attempted e (.sent t)

/-- A Delay_Req was sent. -/
def IsRequest (e : Entry) : Bool :=
  match e.ev with
  | .reqExpired (.sent t) => decide (Attempted e (.sent t))
  | _ => false

/-- `y` is a two-step Sync and `f` a Follow_Up that go together to make the
measurement of a Sync sent at `send` and received at `recv`: the sequence
numbers agree, `send` is the time written in the Follow_Up and `recv` the time
of reception of the Sync. -/
def Pair (c : Cfg) (y f : Entry) (send recv : Ts) : Prop :=
  ∃ h len w raw h' len' w', y.ev = .sync h len w (some raw) ∧ h.twoStep = true ∧
    f.ev = .followUp h' len' w' ∧ h'.seq = h.seq ∧ Received c y.before raw recv ∧ Written w' send

/-- `y` is a one-step Sync that makes the whole measurement. -/
def Single (c : Cfg) (y : Entry) (send recv corr : Ts) : Prop :=
  ∃ h len w raw, y.ev = .sync h len w (some raw) ∧ h.twoStep = false ∧
    Received c y.before raw recv ∧ Written w send ∧ Correction h.corr corr

/-- The source of the message of an event. -/
def source : Event → Option PortId
  | .sync h .. => some h.src
  | .followUp h .. => some h.src
  | .delayResp h .. => some h.src
  | _ => none

/-- The correction field of the message of an event, in units of `2^-16` ns. -/
def correction : Event → Int
  | .sync h .. => h.corr
  | .followUp h .. => h.corr
  | .delayResp h .. => h.corr
  | _ => 0

/-- The sequence number that a Delay_Req of this entry carries. -/
def requestSeq (q : Entry) : Nat := (q.before.sentSeq + 1) % 65536

/-- A message that is no response to this port. -/
def NotForUs (c : Cfg) : Event → Prop
  | .sync .. => True
  | .followUp .. => True
  | .otherMsg .. => True
  | .delayResp _ _ _ r => r ≠ c.self
  | _ => False

/-- A Sync or a Follow_Up. -/
def SyncLike : Event → Prop
  | .sync .. => True
  | .followUp .. => True
  | _ => False

/-- A message or a timestamp that is no Sync or Follow_Up of the clock `p`. -/
def Unrelated (p : PortId) : Event → Prop
  | .sync h .. => h.src ≠ p
  | .followUp h .. => h.src ≠ p
  | .otherMsg .. => True
  | .delayResp .. => True
  | .txTime .. => True
  | _ => False

/-- Number of measurements of a direction in the outputs of a history. -/
def measurements (p : Out → Bool) (tr : List Entry) : Nat :=
  (tr.map fun e => e.outs.countP p).sum

/-- Times and latencies that the arithmetic can handle: normalised, and far
from the limits of 64 bits. -/
def SaneTs (t : Ts) : Prop := Norm t ∧ -2305843009213693952 < t.sec ∧ t.sec < 2305843009213693952

/-- Configured latencies that are sane. -/
def SaneCfg (c : Cfg) : Prop := SaneTs c.inbound ∧ SaneTs c.outbound

/-- A correction field of 64 bits. -/
def Corr64 (h : Hdr) : Prop := -9223372036854775808 ≤ h.corr ∧ h.corr < 9223372036854775808

/-- Events whose local times are sane, whose correction fields have 64 bits and
whose UTC offsets fit 32 bits. -/
def SaneEvent : Event → Prop
  | .sync h _ _ (some t) => Corr64 h ∧ SaneTs t
  | .followUp h _ _ => Corr64 h
  | .delayResp h _ _ _ => Corr64 h
  | .txTime _ _ _ t => SaneTs t
  | .setUtc u => -2147483648 ≤ u.offset ∧ u.offset < 2147483648 ∧
      -2147483648 ≤ u.fake ∧ u.fake < 2147483648
  | _ => True

end Verif.Slave
