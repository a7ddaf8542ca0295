import Verif.Ntp.Model

/-!
# Specification for the NTP module

Everything is read off the effects in order: what ntpd answered, what it was asked to do, what the engine was told.
-/

namespace Verif.Ntp

/-- Parts of effects. -/
def Out.telling : Out → Option Status
  | .told s => some s
  | _ => none

def Out.trying : Out → Option (Bool × Nat)
  | .attempt on _ rc => some (on, rc)
  | _ => none

def Out.asked : Out → Option Int
  | .sys t _ => some t
  | _ => none

/-- What the engine was last told. -/
def lastTold (o : List Out) : Option Status := (o.filterMap Out.telling).getLast?

/-- The times of the polls. -/
def polls (o : List Out) : List Int := o.filterMap Out.asked

/-- The attempts to switch ntpd's control of the clock. -/
def attempts (o : List Out) : List (Bool × Nat) := o.filterMap Out.trying

/-- The peers that ntpd last listed; an error forgets them. -/
def latest (o : List Out) : List Peer :=
  o.foldl (fun l x => match x with
    | .sys _ (.error _) => []
    | .peers (.error _) => []
    | .peers (.ok k) => k
    | _ => l) []

/-- The last answer: `none` before the first, otherwise its error if it was one. -/
def lastCode (o : List Out) : Option (Option Nat) :=
  o.foldl (fun c x => match x with
    | .sys _ (.error rc) => some (some rc)
    | .sys _ (.ok _) => some none
    | .peers (.error rc) => some (some rc)
    | .peers (.ok _) => some none
    | _ => c) none

/-- The peer ntpd follows. -/
def chosen (l : List Peer) : Option Peer := l.find? fun p => p.selected && !p.self

/-- The documented rules (comment in `ntp_parse_state`): without any protocol the daemon does not run (`ENOPROTOOPT` is
92), an answer that is late (`EAGAIN` is 11) says nothing, any other error is a fault, then the peers decide. -/
def ruled (code : Option (Option Nat)) (l : List Peer) : St :=
  match code with
  | none => .listening
  | some none =>
    if (chosen l).isSome then .slave
    else if ∃ p ∈ l, p.self = false ∧ (p.candidate = true ∨ p.shortlist = true) then .selection
    else .listening
  | some (some 92) => .disabled
  | some (some 11) => .listening
  | some (some _) => .faulty

/-- Whether the engine wants ntpd to discipline the clock, by the control messages so far. -/
def wanted (es : List Ev) : Bool :=
  es.foldl (fun b e => match e with | .control _ mask v => if mask.clockCtrl then v.clockCtrl else b | _ => b) false

/-- The time of an event that reads the clock. -/
def Ev.time : Ev → Option Int
  | .run e => some e.now
  | .timer e => some e.now
  | _ => none

/-- ntpd lists at most 32 peers. -/
def Ev.fits : Ev → Prop
  | .timer e => ∀ p l, e.peers p = .ok l → l.length ≤ 32
  | _ => True

/-- From a successful start through some events. -/
def Life (c : Conf) (e : StartEnv) (es : List Ev) (m : Mod) (o : List Out) : Prop :=
  (start c e).1 = 0 ∧ ∃ o', run es (start c e).2.1 = .ok (m, o') ∧ o = (start c e).2.2 ++ o'

end Verif.Ntp
