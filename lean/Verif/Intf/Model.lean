/-!
# Interfaces

`src/sfptpd_interface.c`: which links become interfaces, start-up, hotplug, aliases of
renamed interfaces, NIC numbers, ioctls, capabilities and time stamping.

An interface object is its position in the table, `objs`; the table is an array to which
records are only added, and a search returns the first match
(`src/sfptpd_db.c:592-618`, `src/include/sfptpd_db.h:38`). Names, MAC addresses, bus
addresses (the part that identifies the NIC) and clocks are numbers; 0 is an empty name,
an address not set and an empty bus address.

Simplified: what the kernel and the file system answer is a parameter (`Kern`), constant
during one call; `sfptpd_clock_rescan_interfaces` is the parameter `Kern.clk`, it gives
the clock of each interface; the lock is left out, each function takes it and gives it
back; driver versions, PCI identifiers and the contents of statistics are left out;
the object of an interface is appended before it is initialised, also at start-up.
-/

namespace Verif.Intf

/-- `enum sfptpd_link_type` (`src/include/sfptpd_link.h`). -/
inductive Kind where
  | bridge | bond | team | tunnel | vlan | ipvlan | veth | dummy | other | macvlan | physical
deriving DecidableEq, Repr

/-- `sfptpd_interface_class_t`. -/
inductive Class where
  | sfc | xnet | other
deriving DecidableEq, Repr

/-- `struct ethtool_ts_info`. -/
structure Ts where
  so : BitVec 32 := 0
  tx : BitVec 32 := 0
  rx : BitVec 32 := 0
  phc : Int := 0
deriving DecidableEq, Repr

/-- `ts_info_sw_only` (`sfptpd_interface.c:207-214`): RX_SOFTWARE is bit 3, SOFTWARE is
bit 4; HWTSTAMP_TX_OFF and HWTSTAMP_FILTER_NONE are 0. -/
def swOnly : Ts := { so := 0x18, tx := 1, rx := 1, phc := -1 }

/-- `struct sfptpd_link` (`src/include/sfptpd_link.h:72-103`), reduced. `perm`, `bus`, `ts`
and `stats` are what netlink told; `stats` is whether a statistic that is wanted was found. -/
structure Link where
  index : Int
  name : Nat
  kind : Kind := .physical
  ether : Bool := true
  up : Bool := true
  perm : Option Nat := none
  bus : Option Nat := none
  ts : Option Ts := none
  stats : Option Bool := none
deriving DecidableEq, Repr

/-- `struct sfptpd_interface` (`sfptpd_interface.c:113-194`), as allocated by
`interface_alloc` (`sfptpd_interface.c:1150-1170`). `ethStats` is the bit for ethtool of
`drv_stat_methods`, `blocks` is the number of blocks allocated for `ethtool_stats`. -/
structure Intf where
  index : Int := -1
  name : Nat := 0
  canonical : Option Nat := none
  mac : Nat := 0
  bus : Nat := 0
  ts : Ts := {}
  phcOk : Bool := false
  efx : Bool := false
  deleted : Bool := true
  tsOn : Bool := false
  clock : Option Nat := none
  cls : Class := .other
  nic : Int := -1
  up : Bool := false
  ethStats : Bool := false
  blocks : Nat := 0
deriving DecidableEq, Repr

/-- The table and `sfptpd_next_nic_id` (`sfptpd_interface.c:384`). -/
structure St where
  objs : List Intf := []
  nextNic : Int := 0
deriving DecidableEq, Repr

/-- What the kernel, sysfs, the configuration and the clocks answer. Devices are given by
name, as the ioctls are. `setTs` has the number of the try. `getTs` gives whether
transmit time stamping is on, and the filter. -/
structure Kern where
  nameOf : Int → Option Nat
  perm : Nat → Except Int Nat
  drv : Nat → Int × Nat
  ts : Nat → Except Int Ts
  efx : Nat → Int
  strings : Nat → Bool
  wireless : Nat → Bool
  virt : Nat → Bool
  vendor : Nat → Nat
  device : Nat → Nat
  setTs : Nat → Nat → Int
  getTs : Nat → Except Int (Bool × Nat)
  clk : Nat → Nat
  sys : Nat
  onePhc : Bool
  nonSfc : Bool

/-- What calling a function comes to: it returns, an assertion fails, or it goes on for ever. -/
inductive Out (α : Type) where
  | ok (a : α) | assert | hang
deriving DecidableEq, Repr

/-- One thing after the other. -/
def Out.bind {α β : Type} (x : Out α) (f : α → Out β) : Out β :=
  match x with
  | .ok a => f a
  | .assert => .assert
  | .hang => .hang

/-- Error numbers. -/
def EPERM : Int := 1
/-- Error numbers. -/
def ENOENT : Int := 2
/-- Error numbers. -/
def EAGAIN : Int := 11
/-- Error numbers. -/
def EACCES : Int := 13
/-- Error numbers. -/
def EBUSY : Int := 16
/-- Error numbers. -/
def EEXIST : Int := 17
/-- Error numbers. -/
def ENODEV : Int := 19
/-- Error numbers. -/
def EINVAL : Int := 22
/-- Error numbers. ENOTSUP is the same number. -/
def EOPNOTSUPP : Int := 95

/-- An object. -/
def St.obj (s : St) (k : Nat) : Intf := (s.objs[k]?).getD {}

/-- A change to an object. -/
def St.upd (s : St) (k : Nat) (f : Intf → Intf) : St := { s with objs := s.objs.modify k f }

/-- `interface_find_by_if_index` (`sfptpd_interface.c:1208-1211`). -/
def findIndex (s : St) (i : Int) : Option Nat := s.objs.findIdx? fun o => decide (o.index = i)

/-- `interface_find_by_name` (`sfptpd_interface.c:1214-1217`), which also is
`sfptpd_interface_find_by_name` (`sfptpd_interface.c:1603-1612`). -/
def findName (s : St) (n : Nat) : Option Nat := s.objs.findIdx? fun o => decide (o.name = n)

/-- The loop of `interface_get_canonical_with_lock` (`sfptpd_interface.c:1187-1204`), with
a number of rounds. -/
def canonLoop (s : St) : Nat → Nat → Out (Option Nat)
  | 0, _ => .hang
  | n + 1, k =>
    match (s.obj k).canonical with
    | none => if (s.obj k).deleted then .ok none else .ok (some k)
    | some m => canonLoop s n m

/-- `interface_get_canonical_with_lock` (`sfptpd_interface.c:1187-1204`). A loop that
passes more objects than there are does not end (`canon_hang_iff`). -/
def canon (s : St) (k : Nat) : Out (Option Nat) := canonLoop s s.objs.length k

/-- `interface_handle_rename` (`sfptpd_interface.c:1441-1460`). -/
def handleRename (s : St) (k : Nat) (nm : Nat) : St × Int :=
  match findName s nm with
  | none => (s, 0)
  | some o =>
    if (s.obj o).deleted then (s.upd o fun x => { x with name := 0, canonical := some k }, 0)
    else (s, EEXIST)

/-- `interface_check_hotplug_rename` (`sfptpd_interface.c:1918-1942`). -/
def checkRename (K : Kern) (s : St) (k : Nat) : St :=
  match K.nameOf (s.obj k).index with
  | none => s
  | some nm =>
    if nm = (s.obj k).name then s
    else (handleRename s k nm).1.upd k fun x => { x with name := nm }

/-- `sfptpd_interface_ioctl` (`sfptpd_interface.c:1944-1986`): the name of the device that
the request goes to, `none` if the result is EINVAL. -/
def ioctl (K : Kern) (s : St) (k : Nat) : Out (St × Option Nat) :=
  (canon s k).bind fun
    | none => .ok (s, none)
    | some m => .ok (checkRename K (checkRename K s m) m, some (s.obj m).name)

/-- `interface_check_suitability` (`sfptpd_interface.c:503-591`): SFPTPD_SOLARFLARE_PCI_VENDOR_ID
is 0x1924, SFPTPD_XILINX_PCI_VENDOR_ID is 0x10ee. -/
def suitable (K : Kern) (l : Link) : Option Class :=
  match l.kind with
  | .bridge | .bond | .team | .tunnel | .vlan | .ipvlan | .veth | .dummy | .other => none
  | .macvlan | .physical =>
    if K.wireless l.name then none
    else if l.kind ≠ .macvlan ∧ K.virt l.name then none
    else if !l.ether then none
    else if K.vendor l.name = 0x1924 then some .sfc
    else if K.vendor l.name = 0x10ee ∧ K.device l.name = 0x5084 then some .xnet
    else some .other

/-- The ioctl of `interface_get_hw_address` (`sfptpd_interface.c:630-675`) and the
address from netlink. -/
def hwAddress (K : Kern) (l : Link) (k : Nat) (s : St) : Out (St × Int) :=
  match l.perm with
  | some a => .ok (s.upd k fun x => { x with mac := a }, 0)
  | none => (ioctl K s k).bind fun
    | (s, none) => .ok (s, EINVAL)
    | (s, some d) =>
      match K.perm d with
      | .error rc => .ok (s, rc)
      | .ok a => .ok (s.upd k fun x => { x with mac := a }, 0)

/-- `interface_get_versions` (`sfptpd_interface.c:708-756`). -/
def versions (K : Kern) (l : Link) (k : Nat) (s : St) : Out (St × Int) :=
  if l.bus.isSome ∧ l.stats.isSome then
    .ok (s.upd k fun x => { x with bus := l.bus.getD 0 }, 0)
  else (ioctl K s k).bind fun
    | (s, none) => .ok (s.upd k fun x => { x with bus := l.bus.getD 0 }, EINVAL)
    | (s, some d) => .ok (s.upd k fun x => { x with bus := l.bus.getD (K.drv d).2 }, (K.drv d).1)

/-- `interface_get_ts_info` (`sfptpd_interface.c:759-791`). -/
def tsInfo (K : Kern) (l : Link) (k : Nat) (s : St) : Out St :=
  match l.ts with
  | some t => .ok (s.upd k fun x => { x with ts := t, phcOk := decide (0 ≤ t.phc) })
  | none => (ioctl K s k).bind fun
    | (s, none) => .ok (s.upd k fun x => { x with ts := swOnly, phcOk := false })
    | (s, some d) =>
      match K.ts d with
      | .error _ => .ok (s.upd k fun x => { x with ts := swOnly, phcOk := false })
      | .ok t => .ok (s.upd k fun x => { x with ts := t, phcOk := decide (0 ≤ t.phc) })

/-- `interface_check_efx_support` (`sfptpd_interface.c:794-814`). -/
def efxSupport (K : Kern) (l : Link) (k : Nat) (s : St) : Out St :=
  if ((s.obj k).cls = .sfc ∨ l.kind = .macvlan) ∧ (s.obj k).efx = false then
    (ioctl K s k).bind fun
      | (s, none) => .ok (s.upd k fun x => { x with efx := true })
      | (s, some d) => if K.efx d ≠ EOPNOTSUPP then .ok (s.upd k fun x => { x with efx := true }) else .ok s
  else .ok s

/-- The live interface with the same clock, another interface with the same address, the
live interface at the same bus address: the searches of `interface_assign_nic_id`. -/
def sameClock (s : St) (k : Nat) : Option Nat :=
  s.objs.findIdx? fun o => decide (o.ts.phc = (s.obj k).ts.phc ∧ o.index ≠ (s.obj k).index ∧ o.deleted = false)

/-- See `sameClock`. -/
def sameMac (s : St) (k : Nat) : Option Nat :=
  s.objs.findIdx? fun o => decide (o.mac = (s.obj k).mac ∧ o.index ≠ (s.obj k).index)

/-- See `sameClock`. -/
def sameBus (s : St) (k : Nat) : Option Nat :=
  s.objs.findIdx? fun o => decide (o.bus = (s.obj k).bus ∧ o.index ≠ (s.obj k).index ∧ o.deleted = false)

/-- A new number, end of `interface_assign_nic_id` (`sfptpd_interface.c:1038-1042`). -/
def newNic (s : St) (k : Nat) : St :=
  { s.upd k fun x => { x with nic := s.nextNic } with nextNic := s.nextNic + 1 }

/-- `interface_assign_nic_id` (`sfptpd_interface.c:940-1047`). -/
def assignNic (K : Kern) (k : Nat) (s : St) : St :=
  if (s.obj k).ts.phc ≠ -1 ∧ (s.obj k).nic = -1 then
    match sameClock s k with
    | some o => s.upd k fun x => { x with nic := (s.obj o).nic }
    | none =>
      let byBus : St :=
        if (s.obj k).bus ≠ 0 ∧ K.onePhc then
          match sameBus s k with
          | some o =>
            if (s.obj o).ts.phc ≠ -1 then
              if (s.obj o).phcOk then s.upd k fun x => { x with nic := (s.obj o).nic }
              else s.upd k fun x => { x with nic := (s.obj o).nic, ts.phc := (s.obj o).ts.phc, phcOk := false }
            else newNic s k
          | none => newNic s k
        else newNic s k
      match sameMac s k with
      | some o =>
        if (s.obj o).ts.phc ≠ -1 then s.upd k fun x => { x with nic := (s.obj o).nic } else byBus
      | none => byBus
  else s

/-- `interface_driver_stats_init` (`sfptpd_interface.c:818-913`), the memory only: the
block is allocated if a statistic is read by ethtool, and takes the place of the former. -/
def statsInit (K : Kern) (l : Link) (k : Nat) (s : St) : Out St :=
  let done (s : St) (found : Bool) : St := s.upd k fun x =>
    if x.ethStats || found then { x with ethStats := true, blocks := x.blocks + 1 } else x
  match l.stats with
  | some b => .ok (done s b)
  | none => (ioctl K s k).bind fun
    | (s, none) => .ok (done s false)
    | (s, some d) => .ok (done s (K.strings d))

/-- The start of `interface_init` (`sfptpd_interface.c:1066-1083`). -/
def reset (K : Kern) (l : Link) (c : Class) (k : Nat) (s : St) : St :=
  s.upd k fun x => { x with tsOn := false, cls := c, up := l.up, clock := some K.sys, name := l.name,
                            index := l.index, deleted := false }

/-- `interface_init` (`sfptpd_interface.c:1049-1131`). -/
def init (K : Kern) (l : Link) (c : Class) (k : Nat) (s : St) : Out (St × Int) :=
  (hwAddress K l k (reset K l c k s)).bind fun (s, rc1) =>
  (versions K l k s).bind fun (s, rc2) =>
  (tsInfo K l k s).bind fun s =>
  (efxSupport K l k s).bind fun s =>
  (statsInit K l k (assignNic K k s)).bind fun s =>
  .ok (s, if rc1 = 0 then rc2 else rc1)

/-- `rescan_interfaces` (`sfptpd_interface.c:920-926`) as far as interfaces are changed:
those of `sfptpd_interface_get_active_ptp_snapshot` (`sfptpd_interface.c:1904-1913`) have
their clocks set. -/
def rescan (K : Kern) (s : St) : St :=
  { s with objs := s.objs.mapIdx fun k o =>
      if o.deleted = false ∧ o.nic ≠ -1 then { o with clock := some (K.clk k) } else o }

/-- `interface_delete` without disabling time stamping (`sfptpd_interface.c:1133-1147`). -/
def delete (k : Nat) (s : St) : St :=
  s.upd k fun x => if x.deleted then x else { x with deleted := true, clock := none }

/-- The part of `sfptpd_interface_hotplug_insert` after the object was found or made
(`sfptpd_interface.c:1508-1550`); `rc` and `change` as there. -/
def settle (K : Kern) (l : Link) (k : Nat) (rc : Int) (change : Bool) (s : St) : Out (St × Int) :=
  match suitable K l with
  | none => .ok (rescan K (delete k (s.upd k fun x => { x with name := l.name, index := l.index })), rc)
  | some c =>
    (init K l c k s).bind fun (s, rc) =>
      let s := rescan K (if rc = ENODEV then delete k s else s)
      (canon s k).bind fun _ => .ok (s, if rc = ENODEV ∧ change then 0 else rc)

/-- `sfptpd_interface_hotplug_insert` (`sfptpd_interface.c:1463-1550`); memory is available. -/
def insert (K : Kern) (l : Link) (s : St) : Out (St × Int) :=
  match findIndex s l.index with
  | none => settle K l s.objs.length 0 false { s with objs := s.objs ++ [{}] }
  | some k =>
    if (s.obj k).name ≠ l.name then
      let r := handleRename s k l.name
      settle K l k r.2 false r.1
    else settle K l k 0 true s

/-- `sfptpd_interface_hotplug_remove` (`sfptpd_interface.c:1553-1588`). -/
def remove (K : Kern) (i : Int) (name : Nat) (s : St) : St :=
  match (if 0 ≤ i then findIndex s i else findName s name) with
  | none => s
  | some k => if (s.obj k).deleted then s else rescan K (delete k s)

/-- Bits of `so_timestamping_raw` (`sfptpd_interface.c:216-218`): TX_HARDWARE 0, RX_HARDWARE
2, RAW_HARDWARE 6. -/
def soRaw : BitVec 32 := 0x45

/-- Bits of `so_timestamping_sw` (`sfptpd_interface.c:220-222`): TX_SOFTWARE 1, RX_SOFTWARE
3, SOFTWARE 4. -/
def soSw : BitVec 32 := 0x1a

/-- `rx_filters_min` (`sfptpd_interface.c:203-205`): FILTER_ALL 1, PTP_V2_L4_EVENT 6,
PTP_V2_EVENT 12. -/
def rxMin : BitVec 32 := 0x1042

/-- The filter that is asked for, in `sfptpd_interface_hw_timestamping_enable`
(`sfptpd_interface.c:1999-2006`). -/
def rxFilter (t : Ts) : Nat :=
  if t.rx &&& 2 ≠ 0 then 1 else if t.rx &&& 0x1000 ≠ 0 then 12 else 6

/-- The tries of `sfptpd_interface_hw_timestamping_enable` (`sfptpd_interface.c:2024-2045`):
the last result and the number of tries; `n` are left. -/
def tries (f : Nat → Int) : Nat → Nat → Int → Int × Nat
  | 0, t, rc => (rc, t)
  | n + 1, t, _ =>
    let rc := f t
    if rc = 0 then (0, t + 1)
    else if rc = EBUSY ∨ rc = EAGAIN then tries f n (t + 1) rc
    else (rc, t + 1)

/-- `sfptpd_interface_hw_timestamping_enable` (`sfptpd_interface.c:1989-2071`): the result,
the device and filter of each SIOCSHWTSTAMP. The names of devices do not change within a
call, so every try goes to the same device but the first, which goes to the name that was
known before. -/
def enable (K : Kern) (k : Nat) (s : St) : Out (St × Int × List (Nat × Nat)) :=
  (canon s k).bind fun
  | none => .ok (s, EINVAL, [])
  | some m =>
    if (s.obj m).tsOn then .ok (s, 0, [])
    else
      let d0 := (s.obj m).name
      let s := checkRename K (checkRename K s m) m
      let d := (s.obj m).name
      let dev (t : Nat) : Nat := if t = 0 then d0 else d
      let r := tries (fun t => K.setTs (dev t) t) 5 0 0
      let asked := (List.range r.2).map fun t => (dev t, rxFilter (s.obj m).ts)
      if r.1 = 0 then .ok (s.upd m fun x => { x with tsOn := true }, 0, asked)
      else if r.1 = EOPNOTSUPP ∨ r.1 = EPERM ∨ r.1 = EACCES then
        match K.getTs (dev r.2) with
        | .ok (true, f) =>
          if (1#32 <<< f) &&& rxMin ≠ 0 then .ok (s.upd m fun x => { x with tsOn := true }, 0, asked)
          else .ok (s, r.1, asked)
        | _ => .ok (s, r.1, asked)
      else .ok (s, r.1, asked)

/-- `sfptpd_interface_hw_timestamping_disable` (`sfptpd_interface.c:2074-2095`). -/
def disable (K : Kern) (k : Nat) (s : St) : Out St :=
  (canon s k).bind fun
  | none => .ok s
  | some m => .ok (checkRename K (checkRename K (s.upd m fun x => { x with tsOn := false }) m) m)

/-- `sfptpd_interface_ptp_caps` (`sfptpd_interface.c:1768-1797`) for a live interface:
whether software and hardware time stamping are there. -/
def ptpCaps (t : Ts) : Bool × Bool :=
  (decide (t.so &&& soSw = soSw),
   decide (t.so &&& soRaw = soRaw ∧ t.phc ≠ -1 ∧
     (t.rx &&& 2 ≠ 0 ∨ t.rx &&& 0x1000 ≠ 0 ∨ t.rx &&& 0x40 ≠ 0)))

/-- `sfptpd_interface_rx_ts_caps` (`sfptpd_interface.c:1800-1826`) for a live interface. -/
def rxCaps (t : Ts) : Bool × Bool :=
  (decide (t.so &&& soSw = soSw), decide (t.so &&& soRaw = soRaw ∧ t.phc ≠ -1 ∧ t.rx &&& 2 ≠ 0))

/-- `interface_is_ptp_capable` (`sfptpd_interface.c:594-627`); `interface_init` ignores the
result. -/
def ptpCapable (t : Ts) : Bool :=
  decide (t.phc ≠ -1 ∧ t.so &&& soRaw = soRaw ∧ t.tx &&& 2 ≠ 0 ∧ t.rx &&& rxMin ≠ 0)

/-- The functions that read an interface: `f` of the canonical one, or a fixed answer
(`sfptpd_interface.c:1637-1891`). -/
def read {α : Type} (s : St) (k : Nat) (missing : α) (f : Intf → α) : Out α :=
  (canon s k).bind fun
  | none => .ok missing
  | some m => .ok (f (s.obj m))

/-- `sfptpd_interface_get_name` (`sfptpd_interface.c:1637-1649`); `none` is "(no-interface)". -/
def getName (s : St) (k : Nat) : Out (Option Nat) := read s k none fun o => some o.name
/-- `sfptpd_interface_get_mac_addr` (`sfptpd_interface.c:1652-1663`). -/
def getMac (s : St) (k : Nat) : Out Nat := read s k 0 fun o => o.mac
/-- `sfptpd_interface_get_ifindex` (`sfptpd_interface.c:1681-1692`). -/
def getIndex (s : St) (k : Nat) : Out Int := read s k 0 fun o => o.index
/-- `sfptpd_interface_get_clock` (`sfptpd_interface.c:1706-1716`). -/
def getClock (K : Kern) (s : St) (k : Nat) : Out (Option Nat) := read s k (some K.sys) fun o => o.clock
/-- `sfptpd_interface_get_clock_device_idx` (`sfptpd_interface.c:1719-1740`). -/
def getDevice (s : St) (k : Nat) : Out (Bool × Int × Bool) :=
  read s k (false, -1, false) fun o => (o.phcOk, o.ts.phc, o.efx)
/-- `sfptpd_interface_get_class` (`sfptpd_interface.c:1756-1765`). -/
def getClass (s : St) (k : Nat) : Out Class := read s k .other fun o => o.cls
/-- `sfptpd_interface_ptp_caps` (`sfptpd_interface.c:1768-1797`). -/
def getPtpCaps (s : St) (k : Nat) : Out (Bool × Bool) := read s k (false, false) fun o => ptpCaps o.ts
/-- `sfptpd_interface_rx_ts_caps` (`sfptpd_interface.c:1800-1826`). -/
def getRxCaps (s : St) (k : Nat) : Out (Bool × Bool) := read s k (false, false) fun o => rxCaps o.ts
/-- `sfptpd_interface_supports_ptp` (`sfptpd_interface.c:1829-1853`). -/
def supportsPtp (K : Kern) (s : St) (k : Nat) : Out Bool := read s k false fun o =>
  if o.cls ≠ .sfc ∧ o.cls ≠ .xnet ∧ !K.nonSfc then false else (ptpCaps o.ts).2 && decide (o.ts.phc ≠ -1)
/-- `sfptpd_interface_supports_pps` (`sfptpd_interface.c:1856-1873`). -/
def supportsPps (K : Kern) (s : St) (k : Nat) : Out Bool := read s k false fun o =>
  decide (o.ts.phc ≠ -1) && (o.cls == .sfc || o.cls == .xnet || K.nonSfc)
/-- `sfptpd_interface_is_link_detected` (`sfptpd_interface.c:1876-1889`): the result and
whether the link is up. -/
def linkDetected (s : St) (k : Nat) : Out (Int × Bool) := read s k (EINVAL, false) fun o => (0, o.up)

/-- The loop of `sfptpd_interface_initialise` over the links (`sfptpd_interface.c:1296-1330`).
`interface_free` asserts that the interface is deleted (`sfptpd_interface.c:1173-1180`). -/
def scan (K : Kern) : List Link → St → Out (St × Int)
  | [], s => .ok (s, 0)
  | l :: ls, s =>
    match suitable K l with
    | none => scan K ls s
    | some c =>
      (init K l c s.objs.length { s with objs := s.objs ++ [{}] }).bind fun (s1, rc) =>
        if rc = EOPNOTSUPP then
          if (s1.obj s.objs.length).deleted then scan K ls { s1 with objs := s1.objs.dropLast } else .assert
        else if rc ≠ 0 then .ok (s1, rc)
        else scan K ls (rescan K s1)

/-- The configured time stamping. -/
inductive TsCfg where
  | all | names (l : List Nat)
deriving DecidableEq, Repr

/-- `interface_enable_ts_if_supported` (`sfptpd_interface.c:1242-1251`) for each object. -/
def enableAll (K : Kern) : List Nat → St → Int → Out (St × Int)
  | [], s, rc => .ok (s, rc)
  | k :: ks, s, rc =>
    (getRxCaps s k).bind fun c =>
      if c.2 then (enable K k s).bind fun (s, r, _) => enableAll K ks s (if r ≠ 0 then r else rc)
      else enableAll K ks s rc

/-- The loop over the names configured (`sfptpd_interface.c:1343-1361`). -/
def enableNames (K : Kern) : List Nat → St → Out (St × Int)
  | [], s => .ok (s, 0)
  | n :: ns, s =>
    match findName s n with
    | none => .ok (s, ENOENT)
    | some k =>
      (getRxCaps s k).bind fun c =>
        if c.2 = false then .ok (s, EOPNOTSUPP)
        else (enable K k s).bind fun (s, r, _) => if r ≠ 0 then .ok (s, r) else enableNames K ns s

/-- `sfptpd_interface_initialise` (`sfptpd_interface.c:1258-1368`) after the socket was made. -/
def initialise (K : Kern) (cfg : TsCfg) (ls : List Link) : Out (St × Int) :=
  (scan K ls {}).bind fun (s, rc) =>
    if rc ≠ 0 then .ok (s, rc)
    else match cfg with
      | .all => enableAll K (List.range s.objs.length) s 0
      | .names ns => enableNames K ns s

/-- `sfptpd_interface_shutdown` (`sfptpd_interface.c:1409-1438`), the memory only: the
number of blocks of `ethtool_stats` that stay allocated (`interface_record_free_fn`,
`sfptpd_interface.c:1400-1406`). -/
def leaked (s : St) : Nat := (s.objs.map fun o => o.blocks - 1).sum

/-- What happens to interfaces once the program runs. -/
inductive Ev where
  | insert (l : Link)
  | remove (i : Int) (name : Nat)
  | enable (k : Nat)
  | disable (k : Nat)
  | ioctl (k : Nat)
deriving DecidableEq, Repr

/-- One of these. A handle that is not of an object is not used. -/
def step (K : Kern) (s : St) : Ev → Out St
  | .insert l => (insert K l s).bind fun r => .ok r.1
  | .remove i n => .ok (remove K i n s)
  | .enable k => if k < s.objs.length then (enable K k s).bind fun r => .ok r.1 else .ok s
  | .disable k => if k < s.objs.length then disable K k s else .ok s
  | .ioctl k => if k < s.objs.length then (ioctl K s k).bind fun r => .ok r.1 else .ok s

/-- A run; the answers of the kernel may be others each time. -/
def run : St → List (Kern × Ev) → Out St
  | s, [] => .ok s
  | s, (K, e) :: es => (step K s e).bind fun s => run s es

end Verif.Intf
