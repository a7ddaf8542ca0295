import Verif.Engine.Model

/-!
# What is expected of the selection of sync instances

Nothing here uses the functions of the model, only its states, events and the
election as a parameter.
-/

namespace Verif.Engine.Spec

open Verif.Engine

variable {δ : Type}

/-- The election names an existing record. -/
def Valid (choose : List (Rec δ) → Nat) : Prop := ∀ l, l ≠ [] → choose l < l.length

/-- The election prefers the record marked by the operator, as long as the
statuses satisfy `P`. -/
def HonoursManual (P : Status δ → Prop) (choose : List (Rec δ) → Nat) : Prop :=
  ∀ (l : List (Rec δ)) (i : Nat), i < l.length → (∀ r ∈ l, P r.status) →
    (∀ j r, l[j]? = some r → (r.manual = true ↔ j = i)) → choose l = i

/-- The statuses reported satisfy `P`. -/
def Reports (P : Status δ → Prop) : Ev δ → Prop
  | .state _ st _ => P st
  | _ => True

/-- The same grandmaster, as far as the fields compared between two statuses
go. -/
structure SameGm (a b : Gm) : Prop where
  id : a.id = b.id
  cls : a.cls = b.cls
  src : a.src = b.src
  acc : a.acc = b.acc
  allan : a.allan = b.allan
  steps : a.steps = b.steps

/-- The servos slave each active clock to be disciplined, other than the
reference clock, to the reference clock, each by one servo. -/
structure Covers (lrc : Nat) (active : List Clk) (servos : List (Nat × Nat)) : Prop where
  master : ∀ p ∈ servos, p.1 = lrc
  slave : ∀ k, (∃ p ∈ servos, p.2 = k) ↔ k ≠ lrc ∧ ∃ x ∈ active, x.id = k ∧ x.disc = true
  once : (active.map Clk.id).Nodup → (servos.map Prod.snd).Nodup

/-- Number of clocks that may need a servo. -/
def wanted (active : List Clk) : Nat := (active.filter Clk.disc).length

/-- The calls made during an event succeed. -/
def Succeeds : Ev δ → Prop
  | .state _ _ rcs => rcs.desel = true ∧ rcs.sel = true
  | .expire rcs => rcs.desel = true ∧ rcs.sel = true
  | .select _ rcs => rcs.desel = true ∧ rcs.sel = true
  | .hotplug _ _ => True

/-- A change of the clocks is noticed as one of the interfaces. -/
def Noticed : Ev δ → Prop
  | .hotplug _ reconf => reconf = true
  | _ => True

/-- The event names records that exist (of `n`). -/
def Names (n : Nat) : Ev δ → Prop
  | .state i _ _ => i < n
  | .select (some i) _ => i < n
  | _ => True

/-- The clocks fit the servos that were created. -/
def Fits (total : Nat) : Ev δ → Prop
  | .hotplug active _ => wanted active ≤ total
  | _ => True

/-- The selected instance is the elected one. -/
def Best (choose : List (Rec δ) → Nat) (s : Eng δ) : Prop := s.sel = some (choose s.recs)

instance (choose : List (Rec δ) → Nat) (s : Eng δ) : Decidable (Best choose s) :=
  inferInstanceAs (Decidable (_ = _))

/-- An observer of the selection: since when the selected instance has not been
the elected one, and when it last became the elected one again. -/
structure Mon where
  since : Option Nat
  recovered : Option Nat
deriving DecidableEq

/-- The observer at the beginning. -/
def Mon.start (choose : List (Rec δ) → Nat) (t : Nat) (s : Eng δ) : Mon :=
  ⟨if Best choose s then none else some t, none⟩

/-- The observer after an event at `t` that lead from `s` to `s'`. -/
def Mon.next (choose : List (Rec δ) → Nat) (m : Mon) (t : Nat) (s s' : Eng δ) : Mon :=
  if s'.sel = s.sel then
    if Best choose s' then
      match m.since with
      | none => m
      | some _ => ⟨none, some t⟩
    else
      match m.since with
      | none => ⟨some t, m.recovered⟩
      | some _ => m
  else Mon.start choose t s'

/-- The last name given by the operator among the events, starting from the
configured one. -/
def lastNamed : Nat → List (Nat × Ev δ) → Nat
  | i, [] => i
  | _, (_, .select (some j) _) :: r => lastNamed j r
  | i, _ :: r => lastNamed i r

/-- Clock readings less the time of the grandmaster, after one command; `lrc`
is the clock of the selected instance. -/
def stepped (lrc : Nat) (w : Nat → Int) : StepOut → Nat → Int
  | .inst o => fun k => if k = lrc then w k - o else w k
  | .servo c o => fun k => if k = c then w k - o else w k
  | .ntp => w
  | .crny => w

/-- The readings after all commands. -/
def afterwards (lrc : Nat) : (Nat → Int) → List StepOut → Nat → Int
  | w, [] => w
  | w, o :: r => afterwards lrc (stepped lrc w o) r

/-- The engine's view of the offsets is right: the selected instance's clock
against the grandmaster, and each servo's clock against the instance's clock;
every clock has one servo, and the instance's clock none. -/
def Measured (lrc : Nat) (w : Nat → Int) (o : Int) (servos : List (Nat × Int × Bool)) : Prop :=
  o = w lrc ∧ (∀ p ∈ servos, p.2.1 = w p.1 - w lrc ∧ p.1 ≠ lrc) ∧
  servos.Pairwise (fun p q => p.1 ≠ q.1)

/-- The score of an instance whose grandmaster differs by `d` from the
discriminator's, if known. -/
def scoreFor (dflt : Int) (threshold : Rat) : Option Int → Int
  | none => dflt
  | some d => if -threshold < (d : Rat) ∧ (d : Rat) < threshold then 1 else 0

/-- Distance of the two grandmasters, from the readings of the two clocks
against the system clock and the offsets of the clocks from their
grandmasters. -/
def gmDistance (ok : Bool) (d1 d2 : Option Int) (dofm iofm : Int) : Option Int :=
  match ok, d1, d2 with
  | true, some a, some b => some ((a - dofm) - (b - iofm))
  | _, _, _ => none

end Verif.Engine.Spec
