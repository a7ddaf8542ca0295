import Verif.Netlink.Model

/-! Specification vocabulary for the link tables, independent of the model's helpers. -/

namespace Verif.Netlink

/-- The last link message about an interface. -/
def latest (i : Int) (ms : List Msg) : Option Attrs :=
  (ms.filterMap (fun m => match m with
    | .link a => if a.idx = i then some a else none
    | _ => none)).getLast?

/-- The interface kinds with a type of their own. -/
def kindTable : List (String × Kind) :=
  [("vlan", .vlan), ("macvlan", .macvlan), ("ipvlan", .ipvlan), ("team", .team), ("bond", .bond),
   ("veth", .veth), ("bridge", .bridge), ("tun", .tunnel), ("tap", .tunnel), ("vxlan", .tunnel),
   ("gretap", .tunnel), ("macvtap", .tunnel), ("ip6gretap", .tunnel), ("ipip", .tunnel),
   ("sit", .tunnel), ("gre", .tunnel), ("dummy", .dummy), ("ifb", .other), ("nlmon", .other),
   ("vti", .other), ("vrf", .other), ("gtp", .other), ("ipoib", .other), ("wireguard", .other)]

/-- The kind named in a message. -/
def Attrs.kindName (a : Attrs) : Option String := a.info.bind (·.kind)

/-- The type an announced kind has. -/
def typeFor (k : Option String) : Kind := (k.bind (fun k => kindTable.lookup k)).getD .physical

/-- The master announced; zero when none is. -/
def Attrs.masterIdx (a : Attrs) : Int := a.master.getD 0

/-- The VLAN number announced by a VLAN. -/
def Attrs.vlanId (a : Attrs) : Nat :=
  if a.kindName = some "vlan" then ((a.info.bind (·.data)).bind (·.vlan)).getD 0 else 0

/-- The announcement says the interface is subordinate to another. -/
def Attrs.subordinate (a : Attrs) : Prop :=
  a.flags &&& 0x800 ≠ 0 ∨ 0 < a.masterIdx ∨ (∃ i, a.info = some i ∧ i.slaveKind = true)

/-- A row carries what a message announced. -/
structure Carries (a : Attrs) (r : Link) : Prop where
  idx : r.idx = a.idx
  ifType : r.ifType = a.ifType
  family : r.family = a.family
  flags : r.flags = a.flags
  name : r.name.toList = ((a.name.getD "").toList).take 15
  kind : r.kind.toList = ((a.kindName.getD "").toList).take 15
  type : r.type = typeFor a.kindName
  link : r.link = a.link.getD 0
  bus : r.bus.toList = ((a.bus.getD "").toList).take 31
  vlan : r.vlan = a.vlanId
  slave : r.isSlave = true ↔ a.subordinate

/-- Indices are what the kernel gives out: not negative. -/
def Msg.sane : Msg → Prop
  | .link a => 0 ≤ a.idx
  | _ => True

def Pass.sane (p : Pass) : Prop := ∀ d ∈ p.data, (∀ m ∈ d.msgs, m.sane) ∧ ∀ m ∈ d.junk, m.sane

/-- The rows are in strictly rising order of index, all not negative. -/
def Sorted (rows : List Link) : Prop :=
  rows.Pairwise (fun a b => a.idx < b.idx) ∧ ∀ r ∈ rows, 0 ≤ r.idx

/-- Two versions of an interface differ in something that matters. -/
def Matters (a b : Link) : Prop :=
  a.type ≠ b.type ∨ a.ifType ≠ b.ifType ∨ a.family ≠ b.family ∨ a.bond.master ≠ b.bond.master ∨
  a.bond.mode ≠ b.bond.mode ∨ a.bond.active ≠ b.bond.active ∨ a.isSlave ≠ b.isSlave ∨
  a.vlan ≠ b.vlan ∨ a.name ≠ b.name ∨ a.tsState ≠ b.tsState ∨
  ∃ k ∈ [0, 3, 6, 7, 10, 11, 12, 16], a.flags.getLsbD k ≠ b.flags.getLsbD k

/-- Something that matters distinguishes two tables. -/
def TablesDiffer (old new : List Link) : Prop :=
  (∃ b ∈ new, ∀ a ∈ old, a.idx ≠ b.idx) ∨ (∃ a ∈ old, ∀ b ∈ new, b.idx ≠ a.idx) ∨
  (∃ a ∈ old, ∃ b ∈ new, a.idx = b.idx ∧ Matters a b)

/-- The rows without the event marks of the last comparison. -/
def bare (rows : List Link) : List Link := rows.map (fun l => { l with ev := .none })

/-- The table last published: the one before the table being written. -/
def Nl.published (s : Nl) : Db := s.slot (s.next + 3)

/-- The table being written. -/
def Nl.current (s : Nl) : Db := s.slot s.next

/-- How the tables lie in the ring: the table being written has the highest version given out, those
before it the ones below, as far as there are any. -/
structure Nl.Ring (s : Nl) : Prop where
  count : 1 ≤ s.count
  ver : s.verNext = s.count + 1
  next : s.next = Fin.ofNat 4 (s.count + 3)
  slots : ∀ j : Fin 4, j.val < s.count → (s.slot (s.next - j)).version = s.count - j.val
  unused : ∀ j : Fin 4, s.count ≤ j.val → s.slot (s.next - j) = {}

/-- Messages as the kernel writes them: indices are not negative, messages about team options name the
team, values of options have at least four bytes, bitsets are not of absurd size. -/
def Bitset.wf (b : Bitset) : Prop :=
  (∀ n, b.size = some n → n.toNat ≤ 4294967264) ∧ ∀ p, b.value = some p → p.length < 65536

def Msg.wf : Msg → Prop
  | .link a => 0 ≤ a.idx
  | .ctrl _ => True
  | .team t => t.opts ≠ none →
      (∃ i, t.team = some i ∧ 0 < i) ∧
      ∀ os, t.opts = some os → ∀ o ∈ os, ∀ d, o.data = some d → 4 ≤ d.length
  | .ts t => (∀ b, t.so = some b → b.wf) ∧ (∀ b, t.tx = some b → b.wf) ∧ (∀ b, t.rx = some b → b.wf)
  | .str _ => True

def Pass.wf (p : Pass) : Prop := ∀ d ∈ p.data, (∀ m ∈ d.msgs, m.wf) ∧ ∀ m ∈ d.junk, m.wf

/-- Receiving did not fail. -/
def Pass.fine (p : Pass) : Prop := p.err = none

/-- The rows of the table being written can be compared and extended. -/
structure Nl.Good (s : Nl) : Prop where
  room : s.current.rows.length ≤ s.current.cap
  sorted : Sorted s.current.rows
  prevSorted : Sorted s.published.rows

end Verif.Netlink
