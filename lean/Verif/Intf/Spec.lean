import Verif.Intf.Model

/-!
# What is expected of interfaces
-/

namespace Verif.Intf

/-- The aliases of `k` lead to `m`, in `n` steps; `m` is no alias. -/
inductive Leads (s : St) : Nat → Nat → Nat → Prop
  | here {k : Nat} {o : Intf} : s.objs[k]? = some o → o.canonical = none → Leads s 0 k k
  | next {n k j m : Nat} {o : Intf} :
      s.objs[k]? = some o → o.canonical = some j → Leads s n j m → Leads s (n + 1) k m

/-- The aliases of `k` come to an end. -/
def Ends (s : St) (k : Nat) : Prop := ∃ n m, Leads s n k m

/-- The handle `k` stands for the live interface `o`. -/
def StandsFor (s : St) (k : Nat) (o : Intf) : Prop :=
  ∃ n m, Leads s n k m ∧ s.objs[m]? = some o ∧ o.deleted = false

/-- The handle `k` stands for an interface that is gone. -/
def Gone (s : St) (k : Nat) : Prop :=
  ∃ n m o, Leads s n k m ∧ s.objs[m]? = some o ∧ o.deleted = true

/-- Aliases are of objects. -/
def InRange (s : St) : Prop :=
  ∀ (k : Nat) (o : Intf), s.objs[k]? = some o → ∀ j, o.canonical = some j → j < s.objs.length

/-- If the call returns, `P` holds of what it returns. -/
def Out.All {α : Type} (x : Out α) (P : α → Prop) : Prop := ∀ a, x = .ok a → P a

/-- An event does not bring back, under whatever name, an interface that has become the
alias of another. -/
def NoComeback (s : St) : Ev → Prop
  | .insert l => ∀ (k : Nat) (o : Intf), s.objs[k]? = some o → o.index = l.index → o.canonical = none
  | _ => True

/-- The condition holds at each event of a run. -/
def Along (C : Kern → St → Ev → Prop) : St → List (Kern × Ev) → Prop
  | _, [] => True
  | s, (K, e) :: es => C K s e ∧ ∀ s', step K s e = .ok s' → Along C s' es

/-- The kernel has the names that the table has, but for the interface that the event is
about, which has that of the event, and no other has. -/
def SameNames (K : Kern) (s : St) : Ev → Prop
  | .insert l =>
    (∀ n, K.nameOf l.index = some n → n = l.name) ∧
    ∀ o ∈ s.objs, o.index ≠ l.index → ∀ n, K.nameOf o.index = some n → n = o.name ∧ n ≠ l.name
  | _ => ∀ o ∈ s.objs, ∀ n, K.nameOf o.index = some n → n = o.name

/-- The name of an event is not in use: not by a live interface if an interface is renamed,
by none at all if it is new. -/
def FreeName (s : St) : Ev → Prop
  | .insert l => l.name ≠ 0 ∧
    if l.index ∈ s.objs.map (·.index) then
      ∀ o ∈ s.objs, o.index ≠ l.index → o.deleted = false → o.name ≠ l.name
    else ∀ o ∈ s.objs, o.name ≠ l.name
  | _ => True

/-- No two objects have the same name. -/
def Names (s : St) : Prop :=
  ∀ (i j : Nat) (a b : Intf), s.objs[i]? = some a → s.objs[j]? = some b → a.name = b.name → a.name ≠ 0 → i = j

/-- Each link is inserted once. -/
def Once (s : St) : Ev → Prop
  | .insert l => ∀ o ∈ s.objs, o.index ≠ l.index
  | _ => True

/-- Netlink has told all about a link. -/
def Complete (l : Link) : Prop := l.perm.isSome ∧ l.bus.isSome ∧ l.stats.isSome

/-- Two interfaces are on the same NIC by their numbers exactly if they have the same clock. -/
def OneNic (s : St) : Prop :=
  ∀ a ∈ s.objs, ∀ b ∈ s.objs, a.deleted = false → b.deleted = false → a.ts.phc ≠ -1 → b.ts.phc ≠ -1 →
    (a.nic = b.nic ↔ a.ts.phc = b.ts.phc)

end Verif.Intf
