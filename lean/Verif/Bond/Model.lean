/-!
# Logical interfaces of the PTP module

`src/sfptpd_link.c` and the parts of `src/ptp/sfptpd_ptp_module.c` that find the
physical interfaces below a configured one, choose the one whose clock is used,
decide on hardware or software timestamps and follow changes of the link table.

Simplified: an interface object is a number and what `sfptpd_interface.c` knows
about it is a parameter (`Ifs`); a name is a number that orders names as `strcmp`
does, 0 the empty one; `qsort` is a stable sort; the types of link that are treated
alike are one type; log messages are left out. Interfaces are compared by the
fields of `struct sfptpd_ptp_bond_phys_if`, not by its padding.
-/

namespace Verif.Bond

/-- `enum sfptpd_link_type` (`src/include/sfptpd_link.h:29-42`). -/
inductive LinkType where
  | physical | vlan | bond | team | bridge | macvlan | other
deriving DecidableEq, Repr

/-- `enum sfptpd_bond_mode` (`src/include/sfptpd_link.h:51-57`). -/
inductive Mode where
  | none | activeBackup | lacp | unsupported
deriving DecidableEq, Repr

/-- `struct sfptpd_link` (`src/include/sfptpd_link.h:72-103`), reduced. `up` is
`IFF_UP` in `if_flags`, `lower` is `if_link`, `master` and `active` are
`bond.if_master` and `bond.active_slave`. -/
structure Link where
  type : LinkType
  index : Int
  name : Nat
  up : Bool := true
  lower : Int := 0
  master : Int := 0
  mode : Mode := .none
  active : Int := 0
  slave : Bool := false
deriving DecidableEq, Repr

/-- What `src/sfptpd_interface.c` tells about interface objects: how to find them, and
of each its name, index, capabilities (`hw` is `SFPTPD_INTERFACE_TS_CAPS_HW` in
`sfptpd_interface_ptp_caps`, `ptp` is `sfptpd_interface_supports_ptp`), link state
(`none` is an error) and clock. `sys` is the system clock. -/
structure Ifs where
  byIndex : Int → Option Nat
  byName : Nat → Option Nat
  deleted : Nat → Bool
  name : Nat → Nat
  index : Nat → Int
  hw : Nat → Bool
  ptp : Nat → Bool
  link : Nat → Option Bool
  clock : Nat → Nat
  sys : Nat

/-- The errors that occur. -/
inductive Err where
  | noent | nodev | inval | io | notsup
deriving DecidableEq, Repr

/-- `struct sfptpd_ptp_bond_phys_if` (`src/include/sfptpd_ptp_module.h:83-88`). -/
structure Phys where
  intf : Option Nat := none
  up : Bool := false
  primary : Bool := false
  hwts : Bool := false
deriving DecidableEq, Repr

/-- `SFPTP_MAX_PHYSICAL_IFS` (`src/include/sfptpd_constants.h:127`). -/
def maxPhys : Nat := 16

/-- `struct sfptpd_ptp_bond_info` (`src/include/sfptpd_ptp_module.h:63-92`). `slots` is
the array and `num` how much of it is in use; `oob` tells that a store outside it
has happened. -/
structure Info where
  logical : Nat := 0
  bondIf : Nat := 0
  mode : Mode := .none
  bridge : Bool := false
  num : Nat := 0
  slots : Nat → Phys := fun _ => {}
  active : Option Nat := none
  oob : Bool := false

/-- The entries in use. -/
def Info.valid (b : Info) : List Phys := (List.range b.num).map b.slots

/-- `sfptpd_link_by_name` (`src/sfptpd_link.c:106-125`): the last that matches. -/
def byName (t : List Link) (n : Nat) : Option Link :=
  t.foldl (fun r l => if l.name = n then some l else r) none

/-- `sfptpd_link_by_if_index` (`src/sfptpd_link.c:128-147`). -/
def byIndex (t : List Link) (i : Int) : Option Link :=
  t.foldl (fun r l => if l.index = i then some l else r) none

/-- `ptp_is_interface_vlan` (lines 1148-1187): `none` is EINVAL, `some none` no VLAN. -/
def vlanOf (t : List Link) (l : Link) : Option (Option Link) :=
  if l.type ≠ .vlan then some none
  else if l.lower > 0 then
    match byIndex t l.lower with
    | some p => some (some p)
    | none => none
  else none

/-- Where the loop over nested VLANs ends. -/
inductive Walk where
  | found (l : Link) | inval | hang
deriving DecidableEq, Repr

/-- The loop of `ptp_parse_interface_topology` (lines 1559-1566), `n` rounds of it. -/
def walk (t : List Link) : Nat → Link → Walk
  | 0, _ => .hang
  | n + 1, l =>
    match vlanOf t l with
    | none => .inval
    | some none => .found l
    | some (some p) => walk t n p

/-- `physical_ifs[num_physical_ifs] = ...; num_physical_ifs++` (lines 1239-1248 and
1306-1315). -/
def Info.push (b : Info) (p : Phys) : Info :=
  { b with
    slots := fun j => if j = b.num then p else b.slots j
    num := b.num + 1
    oob := b.oob || decide (maxPhys ≤ b.num) }

/-- The entry made for a slave (lines 1240-1247 and 1307-1314). -/
def entry (ifs : Ifs) (l : Link) (i : Nat) : Phys :=
  ⟨some i, l.up, l.active == l.index, ifs.hw i⟩

/-- The loop of `parse_nested_bond` (lines 1224-1251). -/
def nestedLoop (ifs : Ifs) (m : Link) : List Link → Info → Info
  | [], b => b
  | l :: rest, b =>
    if b.num < maxPhys then
      if l.slave && l.master == m.index then
        match ifs.byIndex l.index with
        | none => nestedLoop ifs m rest b
        | some i => nestedLoop ifs m rest (b.push (entry ifs l i))
      else nestedLoop ifs m rest b
    else b

/-- `sfptpd_interface_get_name` as far as `qsort_intfnamecmp` (lines 1190-1197) goes. -/
def nameOf (ifs : Ifs) (p : Phys) : Nat :=
  match p.intf with
  | some i => ifs.name i
  | none => 0

/-- Insertion into a sorted list, part of `qsort`. -/
def insert (ifs : Ifs) (p : Phys) : List Phys → List Phys
  | [] => [p]
  | q :: r => if nameOf ifs p ≤ nameOf ifs q then p :: q :: r else q :: insert ifs p r

/-- `qsort` with `qsort_intfnamecmp`. -/
def sort (ifs : Ifs) : List Phys → List Phys
  | [] => []
  | p :: r => insert ifs p (sort ifs r)

/-- `qsort` of the entries from `first` on (lines 1253-1257 and 1354-1357). -/
def Info.sortFrom (ifs : Ifs) (first : Nat) (b : Info) : Info :=
  { b with
    slots := fun j =>
      if first ≤ j ∧ j < b.num then ((sort ifs (b.valid.drop first))[j - first]?).getD {}
      else b.slots j }

/-- `parse_nested_bond` (lines 1201-1260). -/
def nested (ifs : Ifs) (t : List Link) (m : Link) (b : Info) : Info :=
  let first := b.num
  let b := if m.mode = .activeBackup ∧ m.active > 0 ∧ b.active = none then
      { b with active := ifs.byIndex m.active } else b
  let b := nestedLoop ifs m t b
  if m.type = .team then b.sortFrom ifs first else b

/-- The loop of `parse_bond` (lines 1284-1318). `t` is the whole table. -/
def bondLoop (ifs : Ifs) (t : List Link) (m : Link) : List Link → Info → Info
  | [], b => b
  | l :: rest, b =>
    if b.num < maxPhys then
      if l.slave && l.master == m.index then
        match ifs.byIndex l.index with
        | none =>
          if l.type = .bond ∨ l.type = .team then
            bondLoop ifs t m rest (nested ifs t l b)
          else bondLoop ifs t m rest b
        | some i => bondLoop ifs t m rest (b.push (entry ifs l i))
      else bondLoop ifs t m rest b
    else b

/-- `parse_bond` (lines 1263-1340). -/
def parseBond (ifs : Ifs) (t : List Link) (m : Link) (b : Info) : Info × Option Err :=
  let b := { b with mode := m.mode, active := none }
  let b := if b.mode = .activeBackup ∧ m.active > 0 then
      { b with active := ifs.byIndex m.active } else b
  let b := bondLoop ifs t m t b
  (b, if b.mode = .activeBackup ∨ b.mode = .lacp ∨ b.bridge = true then none else some .inval)

/-- `parse_team` (lines 1343-1360). -/
def parseTeam (ifs : Ifs) (t : List Link) (m : Link) (b : Info) : Info × Option Err :=
  let r := parseBond ifs t m b
  if r.2 = none then (r.1.sortFrom ifs 0, none) else r

/-- The loop that looks for a slave with link up (lines 1449-1461): the one found and
what `rc` is then. -/
def findUp (ifs : Ifs) : List Phys → Option Err → Option Nat × Option Err
  | [], rc => (none, rc)
  | p :: rest, _ =>
    match p.intf.bind ifs.link with
    | some true => (p.intf, none)
    | some false => findUp ifs rest none
    | none => findUp ifs rest (some .inval)

/-- Only interface `i` (lines 1490-1491 and 1509-1510); the flags stay as they are. -/
def Info.single (b : Info) (i : Nat) : Info :=
  { b with
    num := 1
    slots := fun j => if j = 0 then { b.slots 0 with intf := some i } else b.slots j
    active := some i }

/-- An interface that is found and not deleted. -/
def live (ifs : Ifs) (o : Option Nat) : Option Nat := o.filter fun i => !ifs.deleted i

/-- The outcome of code that may fail an assertion. -/
inductive Out (α : Type) where
  | ok (a : α) | abort
deriving DecidableEq, Repr

/-- `ptp_probe_bonding` (lines 1366-1520), from the selection of the active interface
(line 1426) on. -/
def choose (ifs : Ifs) (l : Link) (b : Info) (rc : Option Err) : Out (Info × Option Err) :=
  if b.mode = .activeBackup then
    match b.active with
    | none => .ok (b, some .noent)
    | some a =>
      if b.valid.any (fun p => p.intf == some a) then .ok (b, rc)
      else .ok ({ b with active := none }, some .noent)
  else if b.mode = .lacp ∨ b.bridge = true then
    match findUp ifs b.valid rc with
    | (some a, rc) => .ok ({ b with active := some a }, rc)
    | (none, rc) => .ok ({ b with active := (b.slots 0).intf }, rc)
  else if l.type = .macvlan then
    match (live ifs (ifs.byIndex l.lower)).orElse fun _ => live ifs (ifs.byIndex l.index) with
    | none => .ok ({ b with num := 0 }, some .nodev)
    | some i => .ok (b.single i, rc)
  else if b.mode ≠ .none then .abort
  else
    match live ifs (ifs.byName l.name) with
    | none => .ok ({ b with num := 0 }, some .nodev)
    | some i => .ok (b.single i, rc)

/-- `ptp_probe_bonding` (lines 1366-1520). `b` is what the structure holds before. -/
def probe (ifs : Ifs) (t : List Link) (l : Link) (b : Info) : Out (Info × Option Err) :=
  let b := { b with bondIf := l.name, num := 0, active := none, mode := .none, bridge := false }
  let (found, b, rc) :=
    match l.type with
    | .bond => let r := parseBond ifs t l b; (true, r.1, r.2)
    | .team => let r := parseTeam ifs t l b; (true, r.1, r.2)
    | .bridge => let r := parseBond ifs t l { b with bridge := true }; (true, r.1, r.2)
    | _ => (false, b, none)
  let rc := if found = true ∧ b.num = 0 then some .noent else rc
  if rc ≠ none ∧ rc ≠ some .noent then .ok (b, rc)
  else choose ifs l b rc

/-- The outcome of parsing the topology. -/
inductive Topo where
  | done (b : Info) (rc : Option Err) | hang | abort

/-- `ptp_parse_interface_topology` (lines 1523-1575). The number of rounds is more than
there are links, see `walk_hang`. -/
def topology (ifs : Ifs) (t : List Link) (n : Nat) (b : Info) : Topo :=
  if n = 0 then .done b (some .nodev)
  else
    match byName t n with
    | none => .done b (some .noent)
    | some l =>
      let b := { b with logical := n }
      match walk t (t.length + 2) l with
      | .hang => .hang
      | .inval => .done b (some .inval)
      | .found p =>
        match probe ifs t p b with
        | .abort => .abort
        | .ok (b, rc) => .done b (if rc = some .noent then none else rc)

/-- `sfptpd_interface_get_clock` (`src/sfptpd_interface.c:1706-1716`). -/
def clockOf (ifs : Ifs) : Option Nat → Nat
  | some i => ifs.clock i
  | none => ifs.sys

/-- `sfptpd_interface_get_ifindex` (`src/sfptpd_interface.c:1681-1692`). -/
def indexOf (ifs : Ifs) : Option Nat → Int
  | some i => ifs.index i
  | none => 0

/-- The variables of the loop of `ptp_get_active_intf`. -/
structure Best where
  best : Phys
  sync : Bool := false
  current : Bool := false
deriving DecidableEq, Repr

/-- The body of the loop of `ptp_get_active_intf` (lines 604-646). `clock` and `sync` are
`port->clock` and `port->lastSyncIfindex`. -/
def Best.step (ifs : Ifs) (clock : Nat) (sync : Int) (s : Best) (p : Phys) : Best :=
  let recv := indexOf ifs p.intf == sync
  let cur := clockOf ifs p.intf == clock
  if p.up = false then s
  else
    let s := if recv then { s with best := p, sync := true } else s
    if s.sync then s
    else
      let s := if p.primary then { s with best := p } else s
      if s.best.primary then s
      else if p.hwts || !s.best.hwts then
        if !s.best.hwts || (cur && !s.current) then { s with best := p, current := cur } else s
      else s

/-- `ptp_get_active_intf` (lines 587-649). -/
def active (ifs : Ifs) (clock : Nat) (sync : Int) (b : Info) : Option Nat :=
  if b.num < 1 then none
  else (b.valid.foldl (Best.step ifs clock sync) { best := b.slots 0 }).best.intf

/-- `ptpd_timestamp_type_e` (`src/ptp/ptpd2/ptpd_lib.h`). -/
inductive Ts where
  | auto | sw | hw
deriving DecidableEq, Repr

/-- `ptp_determine_timestamp_type` (lines 1606-1672); `prefs` are the `timestamp_pref` of
the instances. -/
def tsType (ifs : Ifs) (prefs : List Ts) (i : Option Nat) : Except Err Ts :=
  let t := match i with
    | none => Ts.sw
    | some i => if ifs.ptp i then .hw else .sw
  let sw := prefs.any (· == .sw)
  let hw := prefs.any (· == .hw)
  if hw && sw then .error .inval
  else if hw && t == .sw then .error .notsup
  else if sw && t == .hw then .ok .sw
  else .ok t

/-- What `transport.bond_info` points to: the record in `struct sfptpd_ptp_intf` or the
local variable of `ptp_handle_bonding_interface_change`. -/
inductive Ref where
  | own | local
deriving DecidableEq, Repr

/-- An instance and its port: `physIface`, `clock` and `lastSyncIfindex` of
`ptpd_port_private`, `timestamp_pref` and the alarm NO_INTERFACE. -/
structure Port where
  phys : Option Nat
  clock : Nat
  sync : Int := 0
  pref : Ts := .auto
  alarm : Bool := false
deriving DecidableEq, Repr

/-- `struct sfptpd_ptp_intf` (lines 176-217) with what it shares with ptpd: `ts` is
`ifOpts.timestampType` and `ref` is `transport.bond_info`. -/
structure Intf where
  info : Info
  ts : Ts
  ref : Ref := .own
  ports : List Port

/-- A change of timestamping of an interface. -/
inductive Op where
  | enable (i : Nat) | disable (i : Nat)
deriving DecidableEq, Repr

/-- `ptp_is_interface_hw_timestamping` (lines 874-885); `cur` is the type in use. -/
def isHw (ifs : Ifs) (cur : Ts) (i : Nat) (t : Ts) : Bool :=
  (if t = .auto then cur != .sw else t != .sw) && ifs.ptp i

/-- `ptp_timestamp_filtering_reconfigure_all` (lines 1006-1077): the operations. An
operation that enables and fails is followed by one that disables
(`ptp_timestamp_filtering_configure_one`, lines 921-951), which is left out. -/
def reconfigure (ifs : Ifs) (cur : Ts) (old new : Info) (mode : Ts) : List Op :=
  let olds := old.valid.filterMap Phys.intf
  let news := new.valid.filterMap Phys.intf
  (olds.filter fun i => !news.contains i && !ifs.deleted i && isHw ifs cur i .auto).map .disable ++
    (news.filter fun i => isHw ifs cur i (if new.active = some i then mode else .auto)).map .enable

/-- `ptpd_change_interface` (`src/ptp/ptpd2/ptpd_lib.c:598-663`), the port. -/
def Port.change (ifs : Ifs) (p : Port) (i : Option Nat) : Port :=
  { p with phys := i, clock := clockOf ifs i }

/-- The same, what is returned; `net` is the result of `netInit`. -/
def changeRc (i : Option Nat) (net : Bool) : Option Err :=
  if i = none then some .noent else if net then none else some .io

/-- The loop over instances of `ptp_handle_bonding_interface_change` (lines 1808-1849).
`old` is what `intf->bond_info` holds during it. The results: the ports, whether any
was changed, whether any active interface changed, and `rc`. -/
def changePorts (ifs : Ifs) (old : Info) (tsChanged : Bool) (net : Nat → Bool) :
    Nat → List Port → Option Err → List Port × Bool × Bool × Option Err
  | _, [], rc => ([], false, false, rc)
  | n, p :: rest, _ =>
    let a := active ifs p.clock p.sync old
    let ch := a != p.phys
    let (p', rc) := if ch || tsChanged then (p.change ifs a, changeRc a (net n)) else (p, none)
    let r := changePorts ifs old tsChanged net (n + 1) rest rc
    (p' :: r.1, (ch || tsChanged) || r.2.1, ch || r.2.2.1, r.2.2.2)

/-- What a change of the link table led to: the interface, `bond_changed`, what is
returned and the changes of timestamping. -/
structure Change where
  intf : Intf
  changed : Bool
  rc : Option Err
  ops : List Op

/-- From `finish` on (lines 1862-1876). -/
def finish (x : Intf) (changed : Bool) (rc : Option Err) (num : Nat) (ops : List Op) : Change :=
  let a := !(decide (rc = none) && decide (num ≠ 0))
  { intf := { x with ports := x.ports.map fun p => { p with alarm := a } }
    changed := changed
    rc := if rc = some .noent then none else rc
    ops := ops }

/-- `ptp_handle_bonding_interface_change` (lines 1723-1876). -/
def change (ifs : Ifs) (t : List Link) (net : Nat → Bool) (x : Intf) : Out Change :=
  match byName t x.info.bondIf with
  | none => .ok (finish x false (some .noent) 0 [])
  | some l =>
    match probe ifs t l x.info with
    | .abort => .abort
    | .ok (new, rc) =>
      if rc ≠ none ∧ rc ≠ some .noent ∧ rc ≠ some .nodev then
        .ok (finish x false (some .io) new.num [])
      else
        match tsType ifs (x.ports.map Port.pref) new.active with
        | .error e => .ok (finish x false (some e) new.num [])
        | .ok ts =>
          let setCh := decide (new.num ≠ x.info.num) ||
            decide (new.valid ≠ (List.range new.num).map x.info.slots)
          let tsCh := decide (ts ≠ x.ts)
          let r := changePorts ifs x.info tsCh net 0 x.ports none
          let cur := if r.2.1 then ts else x.ts
          let ops := if setCh || r.2.2.1 || tsCh then reconfigure ifs cur x.info new ts else []
          .ok (finish { x with info := new, ts := cur, ports := r.1
                               ref := if r.2.1 then .local else x.ref }
                r.2.1 r.2.2.2 new.num ops)

/-- `ptp_update_instance_state` (lines 1957-2161), the part that chooses the interface
again after the state of a port has changed (lines 2064-2080). -/
def reselect (ifs : Ifs) (x : Intf) (k : Nat) : Intf :=
  match x.ports[k]? with
  | none => x
  | some p =>
    let a := active ifs p.clock p.sync x.info
    if a = p.phys then x
    else
      match tsType ifs (x.ports.map Port.pref) a with
      | .error _ => x
      | .ok ts => { x with ports := x.ports.set k (p.change ifs a), ts := ts, ref := .own }

/-- What happens to an interface: a new link table, a change of the state of a port or
the arrival of a Sync message on physical interface `i`. -/
inductive Ev where
  | table (ifs : Ifs) (t : List Link) (net : Nat → Bool)
  | state (ifs : Ifs) (k : Nat)
  | sync (k : Nat) (i : Int)

/-- One event. `none` is an abort or the end of the thread. -/
def step (x : Intf) : Ev → Option Intf
  | .table ifs t net =>
    match change ifs t net x with
    | .abort => none
    | .ok c => if c.rc = none then some c.intf else none
  | .state ifs k => some (reselect ifs x k)
  | .sync k i =>
    some { x with ports := match x.ports[k]? with
                           | some p => x.ports.set k { p with sync := i }
                           | none => x.ports }

/-- A sequence of events. -/
def run : Intf → List Ev → Option Intf
  | x, [] => some x
  | x, e :: es => (step x e).bind (run · es)

end Verif.Bond
