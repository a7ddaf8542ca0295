import Verif.Peer.Model

/-!
# What a port promises about the messages it sends and the peer delay

Relations over histories of events and what was done at them.
-/

namespace Verif.Peer

open Verif.Slave (PortId PState Mech Utc Ticket)

/-- The number of seconds between the local timescale and that of the messages,
as seen in a state. -/
def shift (c : Cfg) (s : State) : Int :=
  if s.port = .master then
    if s.utc.valid && s.utc.timescale then s.utc.offset - s.utc.fake else 0
  else if s.utc.valid || c.alwaysUtc then s.utc.offset - s.utc.fake else 0

/-- A number of seconds as a time. -/
def secs (n : Int) : Int := n * 1000000000 * 4294967296

/-- At `e` a message was sent that satisfies `P`. -/
def Sends (P : Msg → Prop) (e : Entry) : Prop := ∃ m, Out.send m ∈ e.outs ∧ P m

/-- At `e` a Pdelay_Req was sent. -/
def Asks : Entry → Prop := Sends (fun m => match m with | .preq _ => True | _ => False)

/-- At `e` a measurement was given to the servo. -/
def Measured (e : Entry) : Prop := ∃ t1 t2 t3 t4 corr, Out.measure t1 t2 t3 t4 corr ∈ e.outs

/-- At `e` an exchange begins or ends. -/
def Turns (e : Entry) : Prop := Asks e ∨ Measured e

/-- At `e` a Pdelay_Req with number `n` was sent under ticket `tk`. -/
def Asked (e : Entry) (n : Nat) (tk : Ticket) : Prop :=
  e.ev = .reqExpired (.sent tk) ∧ Out.send (.preq n) ∈ e.outs

/-- At `e` the transmit timestamp of the packet with ticket `tk` arrived; `t` is
that time in the timescale of the messages. -/
def Stamped (c : Cfg) (e : Entry) (tk : Ticket) (t : Int) : Prop :=
  ∃ raw ok, e.ev = .txTime tk raw ok ∧ t = raw + secs (shift c e.before) + c.outbound

/-- `t` is the local receive time `raw` in the timescale of the messages. -/
def Received (c : Cfg) (s : State) (raw t : Int) : Prop :=
  t = raw + secs (shift c s) - (if raw + secs (shift c s) ≥ secs 1 then c.inbound else 0)

/-- At `e` a Pdelay_Resp for us arrived. -/
def Answer (c : Cfg) (e : Entry) (h : Hdr) (t2 t4 : Int) : Prop :=
  ∃ len raw, e.ev = .presp h len t2 c.self (some raw) ∧ 54 ≤ len ∧ Received c e.before raw t4

/-- At `e` a Pdelay_Resp_Follow_Up for us arrived. -/
def Completes (c : Cfg) (e : Entry) (h : Hdr) (t3 : Int) : Prop :=
  ∃ len, e.ev = .prespFollowUp h len t3 c.self ∧ 54 ≤ len

/-- A history begins with the sending of Pdelay_Req number `n`, the arrival of
its transmit time `t1`; after that come the entries `m`.  No other request is
sent and no measurement is made meanwhile. -/
def Open (c : Cfg) (pre : List Entry) (n : Nat) (t1 : Int) (m : List Entry) : Prop :=
  ∃ a r b x tk, pre = a ++ r :: (b ++ x :: m) ∧ Asked r n tk ∧ Stamped c x tk t1 ∧
    (∀ e ∈ b, ¬ Turns e) ∧ ∀ e ∈ m, ¬ Turns e

/-- It is of that kind. -/
def isAnnounce : Msg → Bool
  | .announce _ => true
  | _ => false

/-- It is of that kind. -/
def isSync : Msg → Bool
  | .sync _ => true
  | _ => false

/-- It is of that kind. -/
def isFollowUp : Msg → Bool
  | .followUp .. => true
  | _ => false

/-- It is of that kind. -/
def isPreq : Msg → Bool
  | .preq _ => true
  | _ => false

/-- It is of that kind. -/
def isPresp : Msg → Bool
  | .presp .. => true
  | _ => false

/-- It is of that kind. -/
def isPrespFollowUp : Msg → Bool
  | .prespFollowUp .. => true
  | _ => false

/-- It is of that kind. -/
def isDelayResp : Msg → Bool
  | .delayResp .. => true
  | _ => false

/-- The number of messages of a sort sent in a history. -/
def count (P : Msg → Bool) (tr : List Entry) : Nat :=
  (tr.flatMap (·.outs)).countP (fun o => match o with | .send m => P m | _ => false)

/-- A Sync or a Follow_Up was sent. -/
def SyncTurns : Entry → Prop :=
  Sends (fun m => match m with | .sync _ => True | .followUp .. => True | _ => False)

/-- A Pdelay_Resp or a follow-up of one was sent. -/
def RespTurns : Entry → Prop :=
  Sends (fun m => match m with | .presp .. => True | .prespFollowUp .. => True | _ => False)

/-- A response that could not be sent. -/
def RespFails (e : Entry) : Prop := ∃ h len t, e.ev = .preq h len t .failed

/-- Where a port handles the answers to its requests. -/
def Hears (s : State) : Prop :=
  s.mech = .p2p ∧ (s.port = .listening ∨ s.port = .slave ∨ s.port = .master)

/-- Within the exchange that ends at `e`, the request's transmit time arrived at
`x` and the answer for us at `p`; `raw1` and `raw4` are the local times of
both. -/
def Exchange (c : Cfg) (pre : List Entry) (e x p : Entry) (t2 raw1 raw4 : Int) : Prop :=
  ∃ a r b m n tk ok h len, pre = a ++ r :: (b ++ x :: m) ∧ Asked r n tk ∧
    x.ev = .txTime tk raw1 ok ∧ p ∈ m ++ [e] ∧ p.ev = .presp h len t2 c.self (some raw4) ∧ h.seq = n

/-- The latency taken off a receive time. -/
def taken (c : Cfg) (s : State) (raw : Int) : Int :=
  if raw + secs (shift c s) ≥ secs 1 then c.inbound else 0

/-- Events that neither begin, end nor disturb an exchange under ticket `tk`. -/
def Calm (tk : Ticket) (e : Entry) : Prop :=
  match e.ev with
  | .reqExpired _ | .reinit | .presp .. | .prespFollowUp .. => False
  | .txTime t _ _ | .preq _ _ _ (.sent t) | .syncExpired (.sent t) => t ≠ tk
  | _ => True

/-- Events that do not disturb a Sync sent under ticket `tk`. -/
def CalmS (tk : Ticket) (e : Entry) : Prop :=
  match e.ev with
  | .syncExpired _ | .reinit => False
  | .txTime t _ _ | .preq _ _ _ (.sent t) | .reqExpired (.sent t) => t ≠ tk
  | _ => True

end Verif.Peer
