import Verif.Freerun.Model

/-!
# What the freerun module is for

Specification of the search for a clock, of the start of the instances and of the
messages. Of the model only the data types are used.
-/

namespace Verif.Freerun

/-- The last of a list that has a property. -/
def LastWith {α : Type} (P : α → Prop) (rows : List α) (o : α) : Prop :=
  ∃ pre post, rows = pre ++ o :: post ∧ P o ∧ ∀ x ∈ post, ¬ P x

/-- A VLAN leads to what the link below it leads to, any other link to itself. -/
inductive Leads (rows : List Link) : Link → Link → Prop
  | plain {l} : l.vlan = false → Leads rows l l
  | inner {l o p} : l.vlan = true → LastWith (fun x => x.index = l.lower) rows o → Leads rows o p →
      Leads rows l p

/-- The interface of this link has a clock of its own. -/
def HasClock (e : Env) (l : Link) (c : Nat) : Prop :=
  ∃ i, e.intf l.index = some i ∧ e.clock i = some c ∧ c ≠ e.sys

mutual
/-- The links with clocks below a link, in the order of the table: the one it leads to
if that has a clock, those below its members otherwise. -/
inductive Below (e : Env) : Link → List (Link × Nat) → Prop
  | clock {l p c} : Leads e.rows l p → HasClock e p c → Below e l [(p, c)]
  | members {l p cs} : Leads e.rows l p → (∀ c, ¬ HasClock e p c) → Members e p.index e.rows cs →
      Below e l cs
/-- The links with clocks below those links of a list whose master has this index. -/
inductive Members (e : Env) : Int → List Link → List (Link × Nat) → Prop
  | nil {i} : Members e i [] []
  | skip {i o os cs} : o.master ≠ i → Members e i os cs → Members e i (o :: os) cs
  | take {i o os cs ds} : o.master = i → Below e o cs → Members e i os ds →
      Members e i (o :: os) (cs ++ ds)
end

/-- The better clock: it drifts less, or is more accurate, or of a lower stratum. -/
def Better (a b : Grade) : Prop :=
  a.holdover < b.holdover ∨
  a.holdover = b.holdover ∧ (a.accuracy < b.accuracy ∨ a.accuracy = b.accuracy ∧ a.stratum < b.stratum)

/-- The first of the best ones. -/
def FirstBest (grade : Nat → Grade) (cs : List (Link × Nat)) (p : Link) (c : Nat) : Prop :=
  ∃ pre post, cs = pre ++ (p, c) :: post ∧ (∀ x ∈ pre, Better (grade c) (grade x.2)) ∧
    ∀ x ∈ post, ¬ Better (grade x.2) (grade c)

/-- The clock of an interface: the system clock, or the best clock below the link of
that name. -/
def ClockOf (e : Env) : IfName → Nat → Prop
  | .empty, _ => False
  | .system, c => c = e.sys
  | .named x, c => ∃ l cs p, LastWith (fun r => r.name = x) e.rows l ∧ Below e l cs ∧
      FirstBest e.grade cs p c

/-- There is no clock for an interface. -/
def NoClock (e : Env) : IfName → Prop
  | .empty => False
  | .system => False
  | .named x => (∀ r ∈ e.rows, r.name ≠ x) ∨
      ∃ l, LastWith (fun r => r.name = x) e.rows l ∧ Below e l []

/-- A hierarchy of links: the link below a VLAN is in the table, and nothing is below
itself. -/
def Hierarchy (rows : List Link) : Prop :=
  ∃ rank : Link → Nat,
    (∀ l ∈ rows, l.vlan = true → ∃ o, LastWith (fun x => x.index = l.lower) rows o ∧ rank o < rank l) ∧
    (∀ o ∈ rows, ∀ p ∈ rows, o.master = p.index → rank o < rank p)

/-- Whether the sender of a message waits for it. -/
def Awaited : Msg → Prop
  | .getStatus _ | .control _ _ _ | .step _ _ | .topology _ => True
  | _ => False

/-- The instance a message is about. -/
def About : Msg → Option (Option Nat)
  | .getStatus h | .control h _ _ | .step h _ | .topology h => some h
  | _ => none

/-- What the messages say about a flag of an instance: the last one that covers it. -/
inductive FlagSays (k b : Nat) : List Msg → Bool → Prop
  | last {ms f m} : m.getLsbD b = true → FlagSays k b (ms ++ [.control (some k) f m]) (f.getLsbD b)
  | more {ms x v} : FlagSays k b ms v →
      (∀ f m, x = .control (some k) f m → m.getLsbD b = false) → FlagSays k b (ms ++ [x]) v

/-- The messages say nothing about a flag of an instance. -/
def FlagSilent (k b : Nat) (ms : List Msg) : Prop :=
  ∀ f m, Msg.control (some k) f m ∈ ms → m.getLsbD b = false

/-- The steps that messages ask for, given the clocks of the instances. -/
def stepsAsked (clocks : List Nat) : List Msg → List (Nat × Int)
  | [] => []
  | .step (some k) off :: ms =>
    (match clocks[k]? with
      | some c => [(c, off)]
      | none => []) ++ stepsAsked clocks ms
  | _ :: ms => stepsAsked clocks ms

end Verif.Freerun
