/-
Specifications for the PTP sync module, stated without the functions of the
model.
-/
import Verif.PtpMod.Model

namespace Verif.PtpMod

/-- The bound in nanoseconds that IEEE 1588-2008 table 6 gives to a clock
accuracy code: 25 ns and 100 ns, multiplied by ten every two codes, up to one
second; then ten seconds.  All other codes have no bound. -/
def ieeeBound (e : Nat) : Option Rat :=
  if 0x20 ≤ e ∧ e < 0x30 then
    some ((if e % 2 = 0 then 25 else 100) * 10 ^ ((e - 0x20) / 2))
  else if e = 0x30 then some (10 ^ 10)
  else none

/-- The class of clock that a value of clockClass stands for (IEEE 1588-2008
table 5): the primary reference and application specific variants, the
holdover ones, and the degraded, default and slave-only ones. -/
def ieeeClass (n : Nat) (c : Class) : Prop :=
  match c with
  | .locked => n ∈ [6, 13]
  | .holdover => n ∈ [7, 14]
  | .freerunning => n ∈ [52, 58, 187, 193, 248, 255]
  | .unknown => n ∉ [6, 13, 7, 14, 52, 58, 187, 193, 248, 255]

/-- Two configurations are for the same interface and transport. -/
def SameIf (a b : Conf) : Prop := a.iface = b.iface ∧ a.af = b.af

/-- Two configurations cannot both be used. -/
def Conflict (a b : Conf) : Prop := SameIf a b ∧ a.domain = b.domain

instance (a b : Conf) : Decidable (SameIf a b) := inferInstanceAs (Decidable (_ ∧ _))
instance (a b : Conf) : Decidable (Conflict a b) := inferInstanceAs (Decidable (_ ∧ _))

/-- `d` is `c` with the profile and version dependent defaults. -/
structure Defaulted (c d : Conf) : Prop where
  id : d.id = c.id
  iface : d.iface = c.iface
  af : d.af = c.af
  domain : d.domain = c.domain
  p2p : d.p2p = c.p2p
  minor : d.minor = c.minor
  mcast : d.mcast = c.mcast
  profile : d.profile =
    if c.profile = .undef then (if c.p2p = true then .defaultP2P else .defaultE2E) else c.profile
  caps : d.capsTlv = (c.capsTlv && decide (1 ≤ c.minor))

/-- The status the engine should hold for an instance, given the port's state
`s`, its local alarms, clock, priority and clustering score: everything but the
offset and the traceability flags. -/
structure Agrees (v : Status) (s : Snap) (alarms : BitVec 32) (clock prio : Nat) (score : Int) :
    Prop where
  slave : v.state = .slave ↔ s.state = .slave
  master : v.state = .master ↔ s.state = .master
  passive : v.state = .passive ↔ s.state = .passive
  disabled : v.state = .disabled ↔ s.state = .disabled
  listening : v.state = .listening ↔ s.state = .listening ∨ s.state = .initializing
  alarms : ∀ k, v.alarms.getLsbD k = (alarms.getLsbD k || s.alarms.getLsbD k)
  clock : v.clock = clock
  prio : v.prio = prio
  score : v.score = score
  gmId : v.gmId = s.parent.gmId
  remote : v.remote = decide (s.state = .slave)
  cls : ieeeClass s.parent.gmClass v.cls
  source : v.timeSource = s.parent.timeSource
  acc : v.acc = ieeeBound s.parent.gmAcc
  var : v.var = if s.state = .slave then some s.parent.gmVar else none
  steps : v.steps = s.steps

/-- The leap second that the master announces. -/
def announced (s : Snap) : Option Nat :=
  if s.leap59 = true then some 59 else if s.leap61 = true then some 61 else none

/-- The leap second that the engine has scheduled after hearing the messages. -/
def scheduled (init : Option Nat) (outs : List Out) : Option Nat :=
  outs.foldl (fun a o => match o with
    | .schedule k _ => some k
    | .cancel => none
    | _ => a) init

/-- A flag of the control word: bit 0 selected, bit 1 timestamp processing,
bit 4 clustering determinant. -/
def flag (w : BitVec 32) (k : Nat) : Bool := w.getLsbD k

/-- The event does not take the selected flag away. -/
def KeepsSelected : Ev → Prop
  | .ctrl f m => m.getLsbD 0 = true → f.getLsbD 0 = true
  | _ => True

/-- The port is a slave in this event, if it is a tick. -/
def SlaveTick : Ev → Prop
  | .tick e => e.snap.state = .slave
  | _ => True

/-- The socket of ptpd is in the epoll set, and nothing else is. -/
def Polled (s : Socks) : Prop :=
  (∀ c, s.cur = some c → c ∈ s.polled) ∧ (∀ p ∈ s.polled, s.cur = some p)

/-- Whenever the socket is reopened during the update of the instances, the new
one gets the number of the old one. -/
def SameNumbers : Socks → List SockEv → Prop
  | _, [] => True
  | s, e :: es =>
    (match e with
      | .table _ => True
      | .tick none c inner => c = true → ∀ n, inner = some n → n = s.cur.map (·.1)
      | .tick (some r) _ inner => ∀ n, inner = some n → n = r)
    ∧ SameNumbers (s.step e) es

end Verif.PtpMod
