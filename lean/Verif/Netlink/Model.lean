import Mathlib.Data.List.Sort

/-!
Model of the link tables kept by `src/sfptpd_netlink.c` and of the way the engine
(`src/sfptpd_engine.c`) consumes them.

Simplifications.
* Netlink messages arrive decoded: the attributes present in a message are `Option` fields.  Messages
  that fail the type checks of the attribute validators are not modelled.
* `realloc` succeeds.
* A query written into the receive buffer while the first message of a datagram is being handled
  replaces the remainder of that datagram by whatever the bytes then parse as (`Dgram.junk`).  A query
  written while a later message is handled only overwrites messages that have already been handled.
* The build has `HAVE_ETHTOOL_NETLINK`, `HAVE_IFLA_PERM_ADDRESS` and `HAVE_IFLA_PARENT_DEV_NAME`.
* Subscription to genetlink multicast groups, log output and the text form of addresses are left out.
-/

namespace Verif.Netlink

/-- `enum sfptpd_link_type` (`src/include/sfptpd_link.h:30-43`). -/
inductive Kind | physical | vlan | bond | team | bridge | macvlan | ipvlan | veth | dummy | tunnel | other
  deriving DecidableEq, Repr

/-- `enum sfptpd_link_event` (`src/include/sfptpd_link.h:45-50`). -/
inductive Ev | none | down | up | change
  deriving DecidableEq, Repr

/-- `enum sfptpd_bond_mode` (`src/include/sfptpd_link.h:52-58`). -/
inductive Mode | none | activeBackup | lacp | unsupported
  deriving DecidableEq, Repr

/-- `enum sfptpd_link_fulfillment_state` (`src/include/sfptpd_link.h:60-65`). -/
inductive Qry | notRequested | requested | nacked | populated
  deriving DecidableEq, Repr

/-- The `bond` member of `struct sfptpd_link` (`src/include/sfptpd_link.h:86-91`). -/
structure BondI where
  master : Int := 0
  mode : Mode := .none
  active : Int := 0
  hash : Nat := 0
  deriving DecidableEq, Repr

/-- The members of `struct ethtool_ts_info` that are filled in. -/
structure TsInfo where
  phc : Int := 0
  so : Nat := 0
  tx : Nat := 0
  rx : Nat := 0
  deriving DecidableEq, Repr

/-- `struct sfptpd_link` (`src/include/sfptpd_link.h:73-106`), without `priv`, which is only used
inside the comparison. -/
structure Link where
  type : Kind := .physical
  ev : Ev := .none
  idx : Int
  ifType : Int := 0
  family : Int := 0
  flags : BitVec 32 := 0
  name : String := ""
  kind : String := ""
  link : Int := 0
  perm : List Nat := []
  bus : String := ""
  bond : BondI := {}
  isSlave : Bool := false
  vlan : Nat := 0
  tsState : Qry := .notRequested
  ts : TsInfo := {}
  drvState : Qry := .notRequested
  drvAll : Int := 0
  drvIds : List Int := List.replicate 16 0
  deriving DecidableEq, Repr

/-- The attributes nested in `IFLA_INFO_DATA` that are looked at. -/
structure InfoData where
  bondMode : Option Nat := none
  active : Option Int := none
  hash : Option Nat := none
  vlan : Option Nat := none
  deriving DecidableEq, Repr

/-- The attributes nested in `IFLA_LINKINFO` that are looked at. -/
structure Info where
  kind : Option String := none
  data : Option InfoData := none
  slaveKind : Bool := false
  deriving DecidableEq, Repr

/-- A decoded `RTM_NEWLINK` or `RTM_DELLINK` message. -/
structure Attrs where
  del : Bool := false
  idx : Int
  ifType : Int := 0
  family : Int := 0
  flags : BitVec 32 := 0
  name : Option String := none
  link : Option Int := none
  master : Option Int := none
  info : Option Info := none
  perm : Option (List Nat) := none
  bus : Option String := none
  deriving DecidableEq, Repr

/-- `sfptpd_strncpy` into an array of `n` characters. -/
def trunc (n : Nat) (s : String) : String := String.ofList (s.toList.take (n - 1))

/-- The link kinds recognised (`src/sfptpd_netlink.c:521-549`); any other leaves the type zero. -/
def kindType (k : String) : Kind :=
  if k = "vlan" then .vlan
  else if k = "macvlan" then .macvlan
  else if k = "ipvlan" then .ipvlan
  else if k = "team" then .team
  else if k = "bond" then .bond
  else if k = "veth" then .veth
  else if k = "bridge" then .bridge
  else if k = "tun" ∨ k = "tap" ∨ k = "vxlan" ∨ k = "gretap" ∨ k = "macvtap" ∨ k = "ip6gretap" ∨
      k = "ipip" ∨ k = "sit" ∨ k = "gre" then .tunnel
  else if k = "dummy" then .dummy
  else if k = "ifb" ∨ k = "nlmon" ∨ k = "vti" ∨ k = "vrf" ∨ k = "gtp" ∨ k = "ipoib" ∨
      k = "wireguard" then .other
  else .physical

/-- The bonding mode of `IFLA_BOND_MODE` (`src/sfptpd_netlink.c:559-571`). -/
def bondMode (m : Nat) : Mode := if m = 1 then .activeBackup else if m = 4 then .lacp else .unsupported

/-- The switch on the link type over `IFLA_INFO_DATA` (`src/sfptpd_netlink.c:552-588`). -/
def applyData (d : InfoData) (l : Link) : Link :=
  match l.type with
  | .bond =>
      { l with bond := { l.bond with
          mode := (d.bondMode.map bondMode).getD l.bond.mode
          active := d.active.getD l.bond.active
          hash := d.hash.getD l.bond.hash } }
  | .vlan => { l with vlan := d.vlan.getD l.vlan }
  | _ => l

/-- A value taken over when the attribute is present. -/
def opt {α β : Type} (o : Option α) (f : α → β → β) (b : β) : β :=
  match o with
  | some x => f x b
  | none => b

/-- The handling of `IFLA_LINKINFO` (`src/sfptpd_netlink.c:518-592`). -/
def applyInfo (i : Info) (l : Link) : Link :=
  let l := opt i.kind (fun k l => { l with type := kindType k, kind := trunc 16 k }) l
  let l := opt i.data applyData l
  { l with isSlave := i.slaveKind || l.isSlave }

/-- The first part of `netlink_handle_link` (`src/sfptpd_netlink.c:477-619`): the link a message
describes. -/
def parse (a : Attrs) : Link :=
  let l : Link := { idx := a.idx, ifType := a.ifType, flags := a.flags, family := a.family
                    ev := if a.del then .down else .none }
  let l := opt a.name (fun n l => { l with name := trunc 16 n }) l
  let l := opt a.link (fun n l => { l with link := n }) l
  let l := opt a.master (fun m l => { l with bond := { l.bond with master := m } }) l
  let l := opt a.info applyInfo l
  let l := opt a.perm (fun p l => if p.length > 10 then l else { l with perm := p }) l
  let l := opt a.bus (fun b l => { l with bus := trunc 32 b }) l
  if l.flags.getLsbD 11 ∨ l.bond.master > 0 then { l with isSlave := true } else l

/-- What can go wrong: a failed assertion, or an access outside an object.  `more` is not an error of
the program: the script of received messages given to the model has run out. -/
inductive Fail | assertion | oob | more
  deriving DecidableEq, Repr

/-- The genetlink families. -/
inductive Grp | ctrl | team | ethtool
  deriving DecidableEq, Repr

/-- Queries sent to the kernel. -/
inductive Query | teamOptions (i : Int) | tsinfo (i : Int) | strings (i : Int)
  deriving DecidableEq, Repr

/-- The part of the state that handling a message can change: the table being written, the flags and
the family numbers (`struct sfptpd_nl_state`, `src/sfptpd_netlink.c:138-155`, and `nl_ge_groups`),
with the queries sent so far. -/
structure Work where
  rows : List Link := []
  cap : Nat := 0
  needTeams : Bool := false
  needEth : Bool := false
  famTeam : Nat := 0
  famEth : Nat := 0
  keys : List String := []
  sent : List Query := []
  deriving DecidableEq, Repr

/-- The environment: whether a query can be sent. -/
abbrev SendOk := Query → Bool

/-- `netlink_send_team_query` (`src/sfptpd_netlink.c:372-399`).  The second result is the return value. -/
def sendTeam (ok : SendOk) (i : Int) (w : Work) : Work × Bool :=
  if w.famTeam > 0 then
    if ok (.teamOptions i) then ({ w with sent := w.sent ++ [.teamOptions i] }, true) else (w, false)
  else (w, false)

/-- `netlink_send_ethtool_query` (`src/sfptpd_netlink.c:402-433`), on a link that is handed over by
reference. -/
def sendEth (ok : SendOk) (l : Link) (w : Work) : Work × Link × Bool :=
  if w.famEth = 0 then (w, l, false)
  else
    let (w, l) := if ok (.tsinfo l.idx) then
        ({ w with sent := w.sent ++ [.tsinfo l.idx] }, { l with tsState := .requested })
      else (w, l)
    let (w, l) := if w.keys ≠ [] ∧ ok (.strings l.idx) then
        ({ w with sent := w.sent ++ [.strings l.idx] }, { l with drvState := .requested })
      else (w, l)
    (w, l, true)

/-- The size to which the table grows (`src/sfptpd_netlink.c:621-642`). -/
def grow (count cap : Nat) : Nat :=
  if count + 1 ≥ cap then (if cap = 0 then 32 else cap * 2) else cap

/-- What a new description keeps of the old one (`src/sfptpd_netlink.c:656-670`). -/
def keep (old new : Link) : Link :=
  let new := if new.type = .team then { new with bond := old.bond } else new
  { new with tsState := old.tsState, ts := old.ts
             drvState := old.drvState, drvAll := old.drvAll, drvIds := old.drvIds }

/-- The loop over the table (`src/sfptpd_netlink.c:644-674`): `none` when no row has the index. -/
def rowsReplace (l : Link) : List Link → Option (List Link)
  | [] => none
  | r :: rs =>
      if r.idx = l.idx then
        some (if l.ev = .down then rs else keep r l :: rs)
      else (rowsReplace l rs).map (r :: ·)

/-- `netlink_handle_link` (`src/sfptpd_netlink.c:477-704`).  The second result says whether a query
was written over the receive buffer.  The ethtool query is made with the local copy of the link, after
the row has been stored. -/
def handleLink (ok : SendOk) (a : Attrs) (w : Work) : Except Fail (Work × Bool) :=
  let l := parse a
  let w := if l.ev = .down then w else { w with cap := grow w.rows.length w.cap }
  match rowsReplace l w.rows with
  | some rows => .ok ({ w with rows := rows }, false)
  | none =>
      if l.ev = .down then .ok (w, false)
      else if ¬ w.rows.length < w.cap then .error .assertion
      else
        let w := { w with rows := w.rows ++ [l] }
        let clob := (l.type = .team ∧ w.famTeam > 0 : Bool)
        let w := if l.type = .team then
            let (w, sent) := sendTeam ok l.idx w
            if sent then w else { w with needTeams := true }
          else w
        if l.tsState = .notRequested then
          let (w', _, sent) := sendEth ok l w
          .ok (if sent then w' else { w' with needEth := true }, clob || decide (w.famEth ≠ 0))
        else .ok (w, clob)

/-- A decoded genetlink control message about a family. -/
structure Ctrl where
  up : Bool
  group : Option Grp
  family : Option Nat
  deriving DecidableEq, Repr

/-- `netlink_handle_genl_ctrl` (`src/sfptpd_netlink.c:755-832`), the family numbers only. -/
def handleCtrl (c : Ctrl) (w : Work) : Work :=
  if c.up then
    match c.group, c.family with
    | some .team, some f => { w with famTeam := f }
    | some .ethtool, some f => { w with famEth := f }
    | _, _ => w
  else w

/-- A nested team option: those attributes that are present. -/
structure TOpt where
  name : Option String := none
  data : Option (List Nat) := none
  changed : Bool := false
  removed : Bool := false
  deriving DecidableEq, Repr

/-- The text a payload holds as a C string. -/
def cstr (b : List Nat) : List Nat := b.takeWhile (· ≠ 0)

/-- The bytes of a text. -/
def bytes (s : String) : List Nat := s.toList.map Char.toNat

/-- `*(uint32_t *)` on a payload, little endian; `none` when it is too short. -/
def u32 : List Nat → Option (BitVec 32)
  | a :: b :: c :: d :: _ => some (BitVec.ofNat 32 (a + 256 * b + 65536 * c + 16777216 * d))
  | _ => none

/-- Apply a function to the first row with an index. -/
def updRow (i : Int) (f : Link → Link) : List Link → List Link
  | [] => []
  | r :: rs => if r.idx = i then f r :: rs else r :: updRow i f rs

/-- `team_opt_apply_mode` (`src/sfptpd_netlink.c:854-876`). -/
def applyMode (value : List Nat) (team : Int) (rows : List Link) : List Link :=
  updRow team (fun l => { l with bond := { l.bond with
    mode := if cstr value = bytes "activebackup" then .activeBackup
            else if cstr value = bytes "loadbalance" then .lacp else .unsupported } }) rows

/-- `team_opt_apply_activeport` (`src/sfptpd_netlink.c:878-895`). -/
def applyActive (value : List Nat) (team : Int) (down : Bool) (rows : List Link) :
    Except Fail (List Link) :=
  if rows.any (·.idx = team) ∧ down = false then
    match u32 value with
    | some v => .ok (updRow team (fun l => { l with bond := { l.bond with
        mode := .activeBackup, active := v.toInt } }) rows)
    | none => .error .oob
  else .ok rows

/-- The variables carried from one nested option to the next: the attribute table `options`, `opt`
and `event` (`src/sfptpd_netlink.c:911-920`). -/
structure TVars where
  name : Option String := none
  data : Option (List Nat) := none
  changed : Bool := false
  removed : Bool := false
  /-- `opt`: none for `CP_TEAM_OPTION_MAX`. -/
  opt : Option Bool := none
  down : Bool := false
  deriving DecidableEq, Repr

/-- The options known (`src/sfptpd_netlink.c:897-907`): `mode` (true) and `activeport` (false). -/
def optOf (n : String) : Option Bool :=
  if n = "mode" then some true else if n = "activeport" then some false else none

/-- What the variables become with the attributes of one option (`src/sfptpd_netlink.c:965-983`). -/
def teamVars (o : TOpt) (v : TVars) : TVars :=
  let v := { v with
    name := o.name.or v.name, data := o.data.or v.data
    changed := o.changed || v.changed, removed := o.removed || v.removed }
  let v := match v.name with | some n => { v with opt := optOf n } | none => v
  if v.removed then { v with down := true } else if v.changed then { v with down := false } else v

/-- One round of the loop over the nested options (`src/sfptpd_netlink.c:963-996`). -/
def teamOpt (team : Int) (o : TOpt) (v : TVars) (rows : List Link) : Except Fail (TVars × List Link) := do
  let v := teamVars o v
  match v.opt, v.data with
  | some true, some d => return (v, applyMode d team rows)
  | some false, some d => do let r ← applyActive d team v.down rows; return (v, r)
  | _, _ => return (v, rows)

/-- The loop over the nested options. -/
def teamOpts (team : Int) : List TOpt → TVars → List Link → Except Fail (List Link)
  | [], _, rows => .ok rows
  | o :: os, v, rows => do
      let (v, rows) ← teamOpt team o v rows
      teamOpts team os v rows

/-- A decoded `TEAM_CMD_OPTIONS_GET` message. -/
structure TeamMsg where
  team : Option Int
  opts : Option (List TOpt)
  deriving DecidableEq, Repr

/-- `netlink_handle_genl_team` (`src/sfptpd_netlink.c:909-1004`), the options command; the port list
command has no effect. -/
def handleTeam (m : TeamMsg) (w : Work) : Except Fail Work :=
  match m.opts with
  | none => .ok w
  | some os =>
      let team := m.team.getD (-1)
      if ¬ team > 0 then .error .assertion
      else (teamOpts team os {} w.rows).map (fun r => { w with rows := r })

/-- A compact bitset attribute: the size if present and the bytes of the value if present. -/
structure Bitset where
  size : Option (BitVec 32) := none
  value : Option (List Nat) := none
  deriving DecidableEq, Repr

/-- `attr_get_bitset32` (`src/sfptpd_netlink.c:1031-1055`): the value, an error number, or a read
outside the payload. -/
def bitset32 (b : Bitset) : Except Fail (Nat ⊕ Nat) :=
  let size := b.size.getD 0
  match b.value with
  | some p =>
      let len := BitVec.ofNat 32 p.length
      if len * 8 < ((size + 31) &&& ~~~(0x1f : BitVec 32)) then .ok (.inr 7)
      else if size > 0 then
        match u32 p with
        | some v => .ok (.inl v.toNat)
        | none => .error .oob
      else .ok (.inr 2)
  | none => .ok (.inr 2)

/-- A decoded `ETHTOOL_MSG_TSINFO_GET_REPLY`. -/
structure TsMsg where
  idx : Option Int
  phc : Option Int := none
  so : Option Bitset := none
  tx : Option Bitset := none
  rx : Option Bitset := none
  deriving DecidableEq, Repr

/-- One bitset of the reply: on an error the handler returns. -/
def tsField (b : Option Bitset) (set : Nat → Link → Link) (l : Link) : Except Fail (Link × Bool) :=
  match b with
  | none => .ok (l, true)
  | some b => do
      match ← bitset32 b with
      | .inl v => return (set v l, true)
      | .inr _ => return (l, false)

/-- The interpretation of a timestamping reply (`src/sfptpd_netlink.c:1110-1134`). -/
def tsApply (m : TsMsg) (l : Link) : Except Fail Link := do
  let l := { l with ts := { l.ts with phc := m.phc.getD (-1) } }
  let (l, go) ← tsField m.so (fun v l => { l with ts := { l.ts with so := v } }) l
  if ¬ go then return l
  let (l, go) ← tsField m.tx (fun v l => { l with ts := { l.ts with tx := v } }) l
  if ¬ go then return l
  let (l, go) ← tsField m.rx (fun v l => { l with ts := { l.ts with rx := v } }) l
  if ¬ go then return l
  return { l with tsState := .populated }

/-- A string of a string set: its index and its text; both present (the table `tuple` is not
initialised, `src/sfptpd_netlink.c:1152`, so a string without them is undefined; the kernel always
sends both). -/
structure EString where
  index : Int
  value : String
  deriving DecidableEq, Repr

/-- A decoded `ETHTOOL_MSG_STRSET_GET_REPLY`: the sets with their identifier, count and strings. -/
structure EStrSet where
  id : Option Nat := none
  count : Option Int := none
  strings : Option (List EString) := none
  deriving DecidableEq, Repr

structure StrMsg where
  idx : Option Int
  sets : Option (List EStrSet) := none
  deriving DecidableEq, Repr

/-- The loop over the strings (`src/sfptpd_netlink.c:1150-1169`); the store is into an array of 16. -/
def strIds (keys : List String) : List EString → List Int → Except Fail (List Int)
  | [], ids => .ok ids
  | s :: ss, ids =>
      let i := keys.findIdx (fun k => k = s.value)
      if i = keys.length then strIds keys ss ids
      else if i < ids.length then strIds keys ss (ids.set i s.index)
      else .error .oob

/-- The interpretation of a string set reply (`src/sfptpd_netlink.c:1135-1174`); `ETH_SS_STATS` is 1. -/
def strApply (keys : List String) : List EStrSet → Link → Except Fail Link
  | [], l => .ok l
  | s :: ss, l =>
      match s.id, s.count, s.strings with
      | some 1, some n, some xs => do
          let ids ← strIds keys xs (List.replicate 16 (-1))
          strApply keys ss { l with drvAll := n, drvIds := ids, drvState := .populated }
      | _, _, _ => strApply keys ss l

/-- Apply a partial function to the first row with an index; `none` when there is none. -/
def updRowM (i : Int) (f : Link → Except Fail Link) : List Link → Except Fail (List Link)
  | [] => .ok []
  | r :: rs => if r.idx = i then do let r ← f r; return r :: rs
               else do let rs ← updRowM i f rs; return r :: rs

/-- `netlink_handle_genl_ethtool` (`src/sfptpd_netlink.c:1057-1177`), timestamping reply. -/
def handleTs (m : TsMsg) (w : Work) : Except Fail Work := do
  let rows ← updRowM (m.idx.getD 0) (tsApply m) w.rows
  return { w with rows := rows }

/-- `netlink_handle_genl_ethtool` (`src/sfptpd_netlink.c:1057-1177`), string set reply. -/
def handleStr (m : StrMsg) (w : Work) : Except Fail Work := do
  match w.keys, m.sets with
  | _ :: _, some sets =>
      let rows ← updRowM (m.idx.getD 0) (strApply w.keys sets) w.rows
      return { w with rows := rows }
  | _, _ => return w

/-- A message. -/
inductive Msg
  | link (a : Attrs) | ctrl (c : Ctrl) | team (t : TeamMsg) | ts (t : TsMsg) | str (t : StrMsg)
  deriving DecidableEq, Repr

/-- `netlink_rt_cb`, `netlink_ge1_cb` and `netlink_ge2_cb` (`src/sfptpd_netlink.c:1180-1251`): errors
of the handlers are logged, processing continues. -/
def handle (ok : SendOk) (m : Msg) (w : Work) : Except Fail (Work × Bool) :=
  match m with
  | .link a => handleLink ok a w
  | .ctrl c => .ok (handleCtrl c w, false)
  | .team t => (handleTeam t w).map (·, false)
  | .ts t => (handleTs t w).map (·, false)
  | .str t => (handleStr t w).map (·, false)

/-- Handle messages in turn. -/
def handleAll (ok : SendOk) : List Msg → Work → Except Fail Work
  | [], w => .ok w
  | m :: ms, w => do
      let (w, _) ← handle ok m w
      handleAll ok ms w

/-- What one `recvfrom` returns: the messages, and what the rest of the buffer parses as once a query
has been written over the first message. -/
structure Dgram where
  msgs : List Msg
  junk : List Msg := []
  deriving DecidableEq, Repr

/-- `mnl_cb_run` over the buffer (`src/sfptpd_netlink.c:1446-1447`): the length of the message just
handled is read again to find the next, after the handler has written its query to the same buffer. -/
def runDgram (ok : SendOk) (d : Dgram) (w : Work) : Except Fail Work :=
  match d.msgs with
  | [] => .ok w
  | m :: ms => do
      let (w, clob) ← handle ok m w
      handleAll ok (if clob then d.junk else ms) w

/-- One call of `netlink_service_fds` (`src/sfptpd_netlink.c:1413-1459`): the datagrams received on the
connections in turn and the error, if any, that ends it. -/
structure Pass where
  data : List Dgram := []
  err : Option Nat := none
  deriving DecidableEq, Repr

/-- Handle datagrams in turn. -/
def runData (ok : SendOk) : List Dgram → Work → Except Fail Work
  | [], w => .ok w
  | d :: ds, w => do
      let w ← runDgram ok d w
      runData ok ds w

/-- `netlink_rescan_teams` (`src/sfptpd_netlink.c:706-722`). -/
def rescanTeams (ok : SendOk) (w : Work) : Work :=
  { (w.rows.foldl (fun w l => if l.type = .team then (sendTeam ok l.idx w).1 else w) w) with
      needTeams := false }

/-- The loop of `netlink_rescan_ethtool`: rows done, rows to do. -/
def rescanEthLoop (ok : SendOk) : List Link → List Link → Work → Work
  | done, [], w => { w with rows := done }
  | done, l :: ls, w =>
      if l.tsState = .notRequested then
        let (w, l, _) := sendEth ok l w
        rescanEthLoop ok (done ++ [l]) ls w
      else rescanEthLoop ok (done ++ [l]) ls w

/-- `netlink_rescan_ethtool` (`src/sfptpd_netlink.c:725-741`). -/
def rescanEth (ok : SendOk) (w : Work) : Work :=
  { rescanEthLoop ok [] w.rows w with needEth := false }

/-- The deferred scans at the start of each round (`src/sfptpd_netlink.c:1615-1621`). -/
def rescans (ok : SendOk) (w : Work) : Work :=
  let w := if w.needTeams ∧ w.famTeam > 0 then rescanTeams ok w else w
  if w.needEth ∧ w.famEth > 0 then rescanEth ok w else w

/-- What the rounds of servicing leave: the work, whether anything was received, the error. -/
structure Served where
  w : Work
  any : Bool := false
  err : Option Nat := none
  deriving DecidableEq, Repr

/-- The loop of rounds (`src/sfptpd_netlink.c:1614-1634`); when no further pass is given the sockets
have nothing more. -/
def rounds (ok : SendOk) : List Pass → Work → Except Fail Served
  | [], w => .ok { w := rescans ok w }
  | p :: ps, w => do
      let w ← runData ok p.data (rescans ok w)
      match p.err with
      | some e => return { w := w, err := some e }
      | none =>
          if p.data ≠ [] then do
            let r ← rounds ok ps w
            return { r with any := true }
          else if w.needTeams ∧ w.famTeam > 0 ∧ w.needEth ∧ w.famEth > 0 then rounds ok ps w
          else return { w := w }

/-- The test of the order (`src/sfptpd_netlink.c:1638-1647`). -/
def ordered : Int → List Link → Bool
  | _, [] => true
  | i, l :: ls => decide (¬ l.idx < i) && ordered l.idx ls

/-- The sort by index (`src/sfptpd_netlink.c:1636-1656`).  Indices are distinct, so any correct sort
gives the same. -/
def sortRows (rows : List Link) : List Link :=
  if ordered 0 rows then rows else rows.insertionSort (fun a b => a.idx ≤ b.idx)

/-- The flags that matter (`src/sfptpd_netlink.c:99-101`). -/
def sigMask : BitVec 32 := 0x1 ||| 0x40 ||| 0x400 ||| 0x800 ||| 0x1000 ||| 0x10000 ||| 0x8 ||| 0x80

/-- The comparison of a link with its former version (`src/sfptpd_netlink.c:1691-1748`). -/
def differs (a b : Link) : Bool :=
  a.type ≠ b.type ∨ a.ifType ≠ b.ifType ∨ a.family ≠ b.family ∨
  (a.flags ≠ b.flags ∧ a.flags &&& sigMask ≠ b.flags &&& sigMask) ∨
  a.bond.master ≠ b.bond.master ∨ a.bond.mode ≠ b.bond.mode ∨ a.bond.active ≠ b.bond.active ∨
  a.isSlave ≠ b.isSlave ∨ a.vlan ≠ b.vlan ∨ a.name ≠ b.name ∨ a.tsState ≠ b.tsState

/-- The search for a link in the old table: its row. -/
def findOld (i : Int) : List Link → Option (Nat × Link)
  | [] => none
  | r :: rs => if r.idx = i then some (0, r) else (findOld i rs).map (fun p => (p.1 + 1, p.2))

/-- A row of the new table with the event found and the row of the old table remembered in `priv`. -/
abbrev Ann := Link × Option Nat

/-- One round of the first comparison loop (`src/sfptpd_netlink.c:1671-1761`). -/
def annotate (prev : List Link) (b : Link) : Ann :=
  match findOld b.idx prev with
  | none => ({ b with ev := .up }, none)
  | some (j, a) => ({ b with ev := if differs a b then .change else .none }, some j)

/-- The second comparison loop (`src/sfptpd_netlink.c:1763-1813`): `j` is the row of the head of the
old rows.  The result is the change flag. -/
def merge : Nat → List Ann → Nat → List Link → Int → Int → Bool → Except Fail Bool
  | 0, _, _, _, _, _, change => .ok change
  | _ + 1, [], _, [], _, _, change => .ok change
  | n + 1, [], j, o :: os, ifi, pifi, _ =>
      if ¬ o.idx > pifi then .error .assertion
      else merge n [] (j + 1) os ifi o.idx true
  | n + 1, (l, _) :: ls, j, [], ifi, pifi, change =>
      if ¬ l.idx > ifi then .error .assertion
      else if l.ev ≠ .up then .error .assertion
      else merge n ls j [] l.idx pifi change
  | n + 1, (l, p) :: ls, j, o :: os, ifi, pifi, change =>
      if ¬ l.idx > ifi ∨ ¬ o.idx > pifi then .error .assertion
      else if l.idx < o.idx then
        if l.ev ≠ .up then .error .assertion
        else merge n ls j (o :: os) l.idx pifi change
      else if o.idx < l.idx then merge n ((l, p) :: ls) (j + 1) os ifi o.idx true
      else if l.ev = .change then
        if p ≠ some j then .error .assertion
        else merge n ls (j + 1) os l.idx o.idx change
      else merge n ls (j + 1) os l.idx o.idx change

/-- Both comparison loops: the rows with their events, and the change flag. -/
def compare (prev cur : List Link) : Except Fail (List Link × Bool) := do
  let anns := cur.map (annotate prev)
  let change := anns.any (fun a => a.1.ev ≠ .none)
  let change ← merge (cur.length + prev.length) anns 0 prev (-1) (-1) change
  return (anns.map Prod.fst, change)

/-- `struct link_db` (`src/sfptpd_netlink.c:112-116`). -/
structure Db where
  rows : List Link := []
  version : Nat := 0
  cap : Nat := 0
  ref : Nat := 0
  deriving DecidableEq, Repr

/-- `struct sfptpd_nl_state` (`src/sfptpd_netlink.c:138-155`).  `exit` records a call of
`sfptpd_thread_exit`. -/
structure Nl where
  slot : Fin 4 → Db
  verNext : Nat
  next : Fin 4
  count : Nat
  needTeams : Bool := false
  needEth : Bool := false
  needService : Bool := false
  famTeam : Nat := 0
  famEth : Nat := 0
  keys : List String := []
  sent : List Query := []
  exit : Option Nat := none

/-- `sfptpd_netlink_init` (`src/sfptpd_netlink.c:1490-1559`). -/
def Nl.init : Nl :=
  { slot := fun k => if k = 0 then { version := 1 } else {}
    verNext := 2, next := 0, count := 1 }

/-- `sfptpd_netlink_set_driver_stats` (`src/sfptpd_netlink.c:2025-2037`). -/
def setDriverStats (keys : List String) (s : Nl) : Nl × Nat :=
  if keys.length > 16 then (s, 28) else ({ s with keys := keys }, 0)

/-- The table being written, as the message handlers see it. -/
def Nl.work (s : Nl) : Work :=
  { rows := (s.slot s.next).rows, cap := (s.slot s.next).cap
    needTeams := s.needTeams, needEth := s.needEth, famTeam := s.famTeam, famEth := s.famEth
    keys := s.keys, sent := s.sent }

/-- Change one table. -/
def Nl.setSlot (s : Nl) (k : Fin 4) (d : Db) : Nl :=
  { s with slot := fun i => if i = k then d else s.slot i }

/-- Store the work back. -/
def Nl.put (s : Nl) (w : Work) : Nl :=
  { s.setSlot s.next { s.slot s.next with rows := w.rows, cap := w.cap } with
      needTeams := w.needTeams, needEth := w.needEth
      famTeam := w.famTeam, famEth := w.famEth, sent := w.sent }

/-- `sfptpd_netlink_service_fds` (`src/sfptpd_netlink.c:1584-1851`). -/
def service (ok : SendOk) (consumers : Nat) (coalescing : Bool) (ps : List Pass) (s : Nl) :
    Except Fail (Nl × Int) :=
  let next := s.next + 1
  let prev := s.next + 3
  if (s.slot next).ref ≠ 0 then .ok ({ s with needService := true }, -11)
  else do
    let s := s.setSlot s.next { s.slot s.next with ref := consumers }
    let r ← rounds ok ps s.work
    let w := if r.any then { r.w with rows := sortRows r.w.rows } else r.w
    let s := s.put w
    match r.err with
    | some e => return (s, -(e : Int))
    | none =>
        if coalescing then return (s, 0)
        else do
          let (rows, change) ← compare (s.slot prev).rows (s.slot s.next).rows
          let s := s.setSlot s.next { s.slot s.next with rows := rows }
          if s.count = 4 ∧ (s.slot next).ref > 0 then return (s, -28)
          else if change then
            if (s.slot next).ref ≠ 0 then .error .assertion
            else
              let cur := s.slot s.next
              let nd := s.slot next
              let s := s.setSlot next
                { rows := cur.rows, version := s.verNext, ref := cur.ref
                  cap := if nd.cap < cur.cap then cur.cap else nd.cap }
              return ({ s with next := next, verNext := s.verNext + 1, count := s.count + 1 },
                      (cur.version : Int))
          else return (s, 0)

/-- `netlink_find_version` (`src/sfptpd_netlink.c:1461-1476`): `n` rounds remain of the loop up to
`db_hist_count`, `i` is the loop variable.  The remainder is that of C: negative for a negative
dividend. -/
def findVersion (s : Nl) (v : Nat) : Nat → Nat → Except Fail (Option (Fin 4))
  | 0, _ => .ok none
  | n + 1, i =>
      let idx := ((s.next.val : Int) + 4 - 1 - i).tmod 4
      if idx < 0 then .error .oob
      else
        let k : Fin 4 := Fin.ofNat 4 idx.toNat
        if (s.slot k).version = v then .ok (some k) else findVersion s v n (i + 1)

/-- `sfptpd_netlink_get_table` (`src/sfptpd_netlink.c:1853-1873`): the table, if any, and the return
value. -/
def getTable (v : Nat) (s : Nl) : Except Fail (Nl × Option (Fin 4) × Int) := do
  match ← findVersion s v s.count 0 with
  | some k =>
      if (s.slot k).ref = 0 then return ({ s with exit := some 13 }, none, -13)
      else return (s, some k, ((s.slot k).rows.length : Int))
  | none => return (s, none, -2)

/-- `sfptpd_netlink_release_table` (`src/sfptpd_netlink.c:1875-1903`). -/
def releaseTable (ok : SendOk) (v : Nat) (consumers : Nat) (ps : List Pass) (s : Nl) :
    Except Fail (Nl × Int) := do
  match ← findVersion s v s.count 0 with
  | some k =>
      if (s.slot k).ref = 0 then return ({ s with exit := some 13 }, -13)
      else
        let s := s.setSlot k { s.slot k with ref := (s.slot k).ref - 1 }
        if s.needService then service ok consumers false ps { s with needService := false }
        else return (s, 0)
  | none => return ({ s with exit := some 2 }, -2)

/-- What `epoll_wait` returns. -/
inductive Wait
  | eintr | error (e : Nat) | timeout | ready (ps : List Pass)
  deriving DecidableEq, Repr

/-- `sfptpd_netlink_table_wait` (`src/sfptpd_netlink.c:1945-2023`): the table found and the value of
`errno` if the function set it.  Waiting ends with the first event; the end of the list is a wait that
has not returned. -/
def tableWait (ok : SendOk) (consumers : Nat) : List Wait → Nl →
    Except Fail (Option (Nl × Option (Fin 4) × Option Nat))
  | [], _ => .ok none
  | .eintr :: ws, s => tableWait ok consumers ws s
  | .error e :: _, s => .ok (some (s, none, some e))
  | .timeout :: _, s => .ok (some (s, none, some 11))
  | .ready ps :: _, s => do
      let (s, rc) ← service ok consumers false ps s
      if rc > 0 then do
        let (s, t, rows) ← getTable rc.toNat s
        if rows < 0 then return some (s, none, some (-rows).toNat)
        else return some (s, t, none)
      else if rc < 0 then return some (s, none, some (-rc).toNat)
      else return some (s, none, none)

/-! ### The engine -/

/-- Notifications about interfaces given to the interface module. -/
inductive Hot | insert (l : Link) | remove (l : Link)
  deriving DecidableEq, Repr

/-- The members of the engine that concern link tables (`src/sfptpd_engine.c:257-261`), with the
tables sent to the subscribers and the interface notifications made.  A pointer to a table is the slot
it lives in. -/
structure Eng where
  nl : Nl
  table : Option (Fin 4) := none
  prev : Option (Fin 4) := none
  subs : Nat := 0
  xoffSpace : Bool := false
  xoffCoalesce : Bool := false
  polling : Bool := true
  coalesceMs : Nat := 0
  /-- The tables sent: subscriber and slot, oldest first. -/
  out : List (Nat × Fin 4) := []
  hot : List Hot := []

/-- Loop bodies of `engine_handle_new_link_table` that notify the interface module
(`src/sfptpd_engine.c:1498-1529`). -/
def hotplug (old new : List Link) : List Hot :=
  (new.filter (fun l => l.ev = .up ∨ l.ev = .change)).map .insert ++
  (old.filter (fun l => ¬ new.any (fun m => m.idx = l.idx))).map .remove

/-- The loop of `engine_handle_new_link_table` (`src/sfptpd_engine.c:1485-1539`): `true` when the loop
was left by the early return.  `pss` holds what servicing receives in each round. -/
def newTableLoop (ok : SendOk) : List (List Pass) → Int → Eng → Except Fail (Eng × Bool)
  | pss, version, e =>
    if ¬ version > 0 then .ok (e, false)
    else match pss with
    | [] => .error .more
    | ps :: pss => do
      let (nl, t, rows) ← getTable version.toNat e.nl
      let prev := e.table
      let e := { e with nl := nl, prev := prev, table := t.or e.table }
      match e.table with
      | none => .error .oob
      | some k =>
          if rows ≠ ((e.nl.slot k).rows.length : Int) then .error .assertion
          else match prev with
          | none => .ok (e, true)
          | some p =>
              if (e.nl.slot k).rows.any (fun l => l.ev = .down) then .error .assertion
              else
                let e := { e with
                  hot := e.hot ++ hotplug (e.nl.slot p).rows (e.nl.slot k).rows }
                let (nl, version) ← releaseTable ok (e.nl.slot p).version (e.subs + 1) ps e.nl
                let e := { e with nl := nl }
                let e := if e.xoffSpace then { e with xoffSpace := false, polling := true } else e
                newTableLoop ok pss version e

/-- `engine_handle_new_link_table` (`src/sfptpd_engine.c:1470-1584`), without the clock feeds and the
reconfiguration of servos. -/
def handleNewTable (ok : SendOk) (pss : List (List Pass)) (version : Int) (e : Eng) :
    Except Fail Eng := do
  let (e, early) ← newTableLoop ok pss version e
  if early then return e
  else if version > 0 then
    match e.table with
    | none => .error .oob
    | some k => return { e with out := e.out ++ (List.range e.subs).map (·, k) }
  else return e

/-- `engine_on_user_fds` (`src/sfptpd_engine.c:1587-1631`). `numFds` is zero when called from the
coalesce timer. -/
def onUserFds (ok : SendOk) (numFds : Nat) (timerOk : Bool) (ps : List Pass) (pss : List (List Pass))
    (e : Eng) : Except Fail Eng := do
  let e :=
    if e.xoffCoalesce = false ∧ e.coalesceMs ≠ 0 then
      if timerOk then { e with xoffCoalesce := true } else e
    else if numFds = 0 then { e with xoffCoalesce := false }
    else e
  let (nl, rc) ← service ok (e.subs + 1) (e.xoffSpace || e.xoffCoalesce) ps e.nl
  let e := { e with nl := nl }
  if rc > 0 then handleNewTable ok pss rc e
  else if rc = -11 then return { e with xoffSpace := true, polling := false }
  else return e

/-- `on_link_table_release` (`src/sfptpd_engine.c:2177-2201`). -/
def onRelease (ok : SendOk) (k : Fin 4) (ps : List Pass) (pss : List (List Pass)) (e : Eng) :
    Except Fail Eng := do
  let (nl, rc) ← releaseTable ok (e.nl.slot k).version (e.subs + 1) ps e.nl
  let e := { e with nl := nl }
  let e ← if rc > 0 then handleNewTable ok pss rc e else pure e
  if e.xoffSpace then return { e with xoffSpace := false, polling := true } else return e

/-- The engine together with the tables its subscribers still hold. -/
structure Sys where
  eng : Eng
  /-- The tables sent to subscribers and not yet given back. -/
  held : List (Nat × Fin 4) := []

/-- Collect what the engine has sent. -/
def collect (e : Eng) (held : List (Nat × Fin 4)) : Sys :=
  { eng := { e with out := [] }, held := held ++ e.out }

/-- What can happen. -/
inductive In
  | fds (timerOk : Bool) (ps : List Pass) (pss : List (List Pass))
  | timer (timerOk : Bool) (ps : List Pass) (pss : List (List Pass))
  | release (h : Nat × Fin 4) (ps : List Pass) (pss : List (List Pass))
  deriving DecidableEq, Repr

/-- One event handled by the engine.  Descriptors are only reported while polled, the timer only while
running, and a subscriber only gives back what it holds. -/
def step (ok : SendOk) (i : In) (s : Sys) : Except Fail Sys :=
  match i with
  | .fds t ps pss =>
      if s.eng.polling then (onUserFds ok 1 t ps pss s.eng).map (collect · s.held) else .ok s
  | .timer t ps pss =>
      if s.eng.xoffCoalesce then (onUserFds ok 0 t ps pss s.eng).map (collect · s.held) else .ok s
  | .release h ps pss =>
      if h ∈ s.held then (onRelease ok h.2 ps pss s.eng).map (collect · (s.held.erase h))
      else .ok s

/-- A run. -/
def run (ok : SendOk) : List In → Sys → Except Fail Sys
  | [], s => .ok s
  | i :: is, s => do
      let s ← step ok i s
      run ok is s

/-- The engine when it starts to poll: `sfptpd_netlink_table_wait` with one consumer
(`src/sfptpd_main.c:465`) has delivered the table in slot `k`. -/
def Sys.start (nl : Nl) (k : Fin 4) (subs coalesceMs : Nat) : Sys :=
  { eng := { nl := nl, table := some k, subs := subs, coalesceMs := coalesceMs } }

end Verif.Netlink
