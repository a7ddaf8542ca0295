import Verif.Bond.Model

/-!
# What is expected of logical interfaces

Stated over link tables and interface objects, without the functions of the model.
-/

namespace Verif.Bond

/-- `l` is the last link of the table with index `i`. -/
def LastWith (t : List Link) (i : Int) (l : Link) : Prop :=
  ∃ a b, t = a ++ l :: b ∧ l.index = i ∧ ∀ x ∈ b, x.index ≠ i

/-- `l` is the last link of the table with name `n`. -/
def Named (t : List Link) (n : Nat) (l : Link) : Prop :=
  ∃ a b, t = a ++ l :: b ∧ l.name = n ∧ ∀ x ∈ b, x.name ≠ n

/-- `q` is the link that VLAN `l` is on. -/
def OnTop (t : List Link) (l q : Link) : Prop :=
  l.type = .vlan ∧ 0 < l.lower ∧ LastWith t l.lower q

/-- `q` is below `l`, through VLANs only. -/
inductive Through (t : List Link) : Link → Link → Prop where
  | here (l : Link) : Through t l l
  | down {l q p : Link} : OnTop t l q → Through t q p → Through t l p

/-- Link `l` is a slave of link `m`. -/
def SlaveOf (m l : Link) : Bool := l.slave && decide (l.master = m.index)

/-- The slaves of `m` for which there is an interface object. -/
def direct (ifs : Ifs) (t : List Link) (m : Link) : List (Link × Nat) :=
  (t.filter (SlaveOf m)).filterMap fun l => (ifs.byIndex l.index).map fun i => (l, i)

/-- The physical interfaces below bond, team or bridge `m`: its slaves, and those of
slaves that are bonds or teams themselves. -/
def below (ifs : Ifs) (t : List Link) (m : Link) : List (Link × Nat) :=
  (t.filter (SlaveOf m)).flatMap fun l =>
    match ifs.byIndex l.index with
    | some i => [(l, i)]
    | none => if l.type = .bond ∨ l.type = .team then direct ifs t l else []

/-- What is recorded about a slave. -/
def record (ifs : Ifs) (x : Link × Nat) : Phys where
  intf := some x.2
  up := x.1.up
  primary := decide (x.1.active = x.1.index)
  hwts := ifs.hw x.2

/-- The slaves that are up. -/
def ups (l : List Phys) : List Phys := l.filter Phys.up

/-- Which of several interfaces is to be used, according to the comments in
`ptp_get_active_intf`: among those that are up the one that received the last Sync
message, or else the primary one, or else the first with hardware timestamps and the
clock in use, or else the first with hardware timestamps, or else the last. -/
def preferred (recv cur : Phys → Bool) (l : List Phys) : Option Phys :=
  let u := ups l
  u.reverse.find? recv
    |>.or (u.reverse.find? Phys.primary)
    |>.or (u.find? fun p => p.hwts && cur p)
    |>.or (u.find? Phys.hwts)
    |>.or u.getLast?

/-- Whether a slave received the last Sync message. -/
def received (ifs : Ifs) (sync : Int) (p : Phys) : Bool :=
  decide ((match p.intf with | some i => ifs.index i | none => 0) = sync)

/-- Whether a slave has the given clock. -/
def hasClock (ifs : Ifs) (c : Nat) (p : Phys) : Bool :=
  decide ((match p.intf with | some i => ifs.clock i | none => ifs.sys) = c)

/-- The entries in use of a record of a logical interface. -/
def Members (b : Info) (l : List Phys) : Prop :=
  l.length = b.num ∧ ∀ k (p : Phys), l[k]? = some p → b.slots k = p

end Verif.Bond
