import Verif.Crny.Model

/-!
# Specification for the chrony module

What is seen from outside: effects in order, and a chronyd that answers every request truthfully.
-/

namespace Verif.Crny

/-- All effects of a run, from the start. -/
def effects (first : List Out) (tr : List Entry) : List Out := first ++ tr.flatMap Entry.outs

/-- Parts of effects. -/
def Out.blocking : Out → Option Bool
  | .block b => some b
  | _ => none

def Out.seen : Out → Option Proc
  | .saw p => some p
  | _ => none

def Out.telling : Out → Option (St × Bool × Bool)
  | .told s m c => some (s, m, c)
  | _ => none

def Out.request : Out → Option (Nat × Nat × Nat)
  | .sent c s i => some (c, s, i)
  | _ => none

/-- Whether the system clock is blocked after these effects. -/
def blockedBy (o : List Out) : Bool := (o.filterMap Out.blocking).getLast?.getD false

/-- How chronyd was last seen to run. -/
def lastSeen (o : List Out) : Option Proc := (o.filterMap Out.seen).getLast?

/-- How chronyd was first seen to run. -/
def firstSeen (o : List Out) : Option Proc := (o.filterMap Out.seen).head?

/-- What the engine was last told. -/
def lastTold (o : List Out) : Option (St × Bool × Bool) := (o.filterMap Out.telling).getLast?

/-- The state the engine has for the module: what it was told, or had at the start. -/
def reported (st : St) (o : List Out) : St := ((lastTold o).map Prod.fst).getD st

/-- The last request sent. -/
def lastSent (o : List Out) : Option (Nat × Nat × Nat) := (o.filterMap Out.request).getLast?

/-- Whether the engine wants chronyd to discipline the clock, by the control messages so far. -/
def wanted (es : List Ev) : Bool :=
  es.foldl (fun b e => match e with | .control mask flags _ => if mask.clockCtrl then flags.clockCtrl else b | _ => b) false

/-- A poll of chronyd. -/
def Ev.poll : Ev → Bool
  | .tick _ => true
  | .traffic _ _ => true
  | _ => false

/-- A source of chronyd's. -/
structure Source where
  /-- It is the one that chronyd is synchronised to. -/
  selected : Bool
  /-- It is combined with the selected one. -/
  combined : Bool
  refClock : Bool
  /-- It has no address yet. -/
  unresolved : Bool
  /-- It answers as a server. -/
  server : Bool
  meas : Nat
deriving DecidableEq, Repr

/-- The source's state in chronyd's reports: 0 selected, 4 combined, 1 otherwise. -/
def Source.code (s : Source) : Nat := if s.selected then 0 else if s.combined then 4 else 1

/-- The true answer of a chronyd with these sources to a request (`candm.h`: tracking 33 is answered by 5, number of
sources 14 by 2, source data 15 by 3, source statistics 34 by 6, NTP data 57 by 16). -/
def answer (srcs : List Source) (q : Nat × Nat × Nat) : Reply :=
  let blank : Reply := ⟨0, q.2.1, 0, q.1, 0, 0, 0, false, 0, 0⟩
  match q.1 with
  | 33 => { blank with packet := 5 }
  | 14 => { blank with packet := 2, count := srcs.length }
  | c =>
    match srcs[q.2.2]? with
    | none => { blank with status := 7 }
    | some s =>
      match c with
      | 15 => { blank with packet := 3, srcState := s.code, srcMode := if s.refClock then 2 else 0, noAddr := s.unresolved }
      | 34 => { blank with packet := 6, meas := s.meas }
      | 57 => { blank with packet := 16, meas := s.meas, ntpMode := if s.server then 4 else 3 }
      | _ => { blank with status := 2 }

/-- A conversation with such a chronyd: the request among the last effects is answered, and so on, in these circumstances. -/
def talk (srcs : List Source) : Mod → List Out → List Env → Option (Mod × List Out)
  | m, o, [] => some (m, o)
  | m, o, e :: es =>
    match lastSent o with
    | none => some (m, o)
    | some q =>
      match step m (.traffic e (answer srcs q)) with
      | none => none
      | some (m', o') => talk srcs m' o' es

/-- Circumstances in which messages go through and chronyd keeps running the same way. -/
def Steady (p : Proc) (e : Env) : Prop := e.send = .ok ∧ e.look .next = p

end Verif.Crny
