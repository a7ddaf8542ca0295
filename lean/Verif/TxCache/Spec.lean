import Verif.TxCache.Model

/-!
# What is expected of transmit timestamps

Stated on the events of an interface and their outcomes, in order; of the model only the types of
events and outcomes are used.
-/

namespace Verif.TxCache

/-- A second, in units of 2⁻³² ns. -/
def sec : Int := 10 ^ 9 * 2 ^ 32

/-- A packet carries a message: the message, or as much of it as is compared, is followed by the
trailer. -/
def Carries (pkt pdu : List Nat) (trailer : Nat) : Prop :=
  ∃ a b, pkt = a ++ pdu.take 54 ++ b ∧ b.length = trailer

/-- The event uses up a sequence number of the port for a type of message. -/
def Event.numbers (p : Nat) (k : Kind) : Event → Bool
  | .send p' k' _ _ _ _ => p' = p && k' = k
  | .attempt p' k' => p' = p && k' = k
  | _ => false

/-- The event sends a message of the type from the port. -/
def Event.sends (p : Nat) (k : Kind) : Event → Bool
  | .send p' k' _ _ _ _ => p' = p && k' = k
  | _ => false

/-- The event sends a message. -/
def Event.isSend : Event → Bool
  | .send _ _ _ _ _ _ => true
  | _ => false

/-- The sequence number of the latest message of the port, the first being 1. -/
def numberOf (tr : List (Event × Out)) (p : Nat) (k : Kind) : Nat :=
  tr.countP (fun x => x.1.numbers p k) % 65536

/-- The sequence number of a message sent after the events `tr`. -/
def idOf (tr : List (Event × Out)) (p : Nat) (k : Kind) (reqId : Nat) : Nat :=
  match k with
  | .pdelayResp => reqId
  | .monitoringSync => reqId
  | _ => (tr.countP (fun x => x.1.numbers p k) + 1) % 65536

/-- The outcome uses a timestamp for a message of the type from the port. -/
def Out.stamps (p : Nat) (k : Kind) : Out → Bool
  | .stamp p' k' _ _ => p' = p && k' = k
  | _ => false

/-- The packet read and the timestamp got with it. -/
def Event.reads : Event → Option (List Nat × Option Int)
  | .tx pkt _ ts => some (pkt, ts)
  | .loop pkt _ ts => some (pkt, some ts)
  | _ => none

/-- A request was found for the packet read. -/
def Out.found : Out → Bool
  | .stamp _ _ _ _ => true
  | .discard => true
  | .unsuitable _ => true
  | _ => false

/-- The latest of the events that matter to the alarm of a port leaves it raised: a timestamp of
the wrong kind raises it; a timestamp used, or a check, clears it. -/
def alarmAfter (p : Nat) : List (Event × Out) → Bool
  | tr => tr.foldl (fun a x =>
      match x with
      | (_, .unsuitable p') => if p' = p then true else a
      | (_, .stamp p' _ _ _) => if p' = p then false else a
      | (.check p' _, _) => if p' = p then false else a
      | _ => a) false

/-- The time of an event. -/
def Event.time : Event → Option Int
  | .send _ _ _ _ _ t => some t
  | .tx _ t _ => some t
  | .loop _ t _ => some t
  | .check _ t => some t
  | _ => none

/-- The number of requests held. -/
def Cache.held (c : Cache) : Nat := (List.range 32).countP fun s => !c.free.getLsbD (31 - s)

/-- The least time of a class of the statistics: none for the first, then 100 us, 1 ms, ... -/
def leastOf (q : Nat) : Option Int := if q = 0 then none else some (10 ^ (q - 1) * (10 ^ 5 * 2 ^ 32))

end Verif.TxCache
