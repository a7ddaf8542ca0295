/-!
# The chrony sync module

`src/crny/sfptpd_crny_module.c`: the query of chronyd over its command socket, the
state derived from it, and the control of chronyd's own discipline of the system clock.

Simplified: addresses of sources, packet counts and the identity of offsets (lines 589-620)
are left out, as are log files, topology and convergence values; the measurement of a source is
one opaque number. `CLOCK_CONTROL_MIN_INTERVAL` is 0, so the check of lines 1715-1725 passes
unless a monotonic clock goes back. Failure to read `/proc/PID/cmdline` has the effect
of an absent chronyd (lines 810-845) and is not distinguished from it.
-/

namespace Verif.Crny

/-- `SYNC_MODULE_STATE_...`, those used by the module. -/
inductive St where
  | listening | slave | disabled | faulty | selection
deriving DecidableEq, Repr

/-- `struct sfptpd_ntpclient_peer`, reduced (`sfptpd_ntpd_client.h:75-91`). -/
structure Peer where
  selected : Bool
  shortlist : Bool
  candidate : Bool
  self : Bool
  meas : Nat
deriving DecidableEq, Repr

/-- All bytes zero. -/
def Peer.zero : Peer := ⟨false, false, false, false, 0⟩

/-- `SFPTPD_NTP_PEERS_MAX`. -/
def maxPeers : Nat := 32

/-- `struct ntp_state` (lines 91-143), reduced. `meas` stands for offset, root dispersion and
stratum: `none` for all zero bytes, `some none` for zero, infinity and zero. -/
structure State where
  st : St
  cc : Bool
  numPeers : Nat
  peers : List Peer
  sel : Int
  unsafe_ : Bool
  meas : Option (Option Nat)
  synced : Bool
deriving DecidableEq, Repr

/-- `enum ntp_query_state` (lines 64-74). -/
inductive Query where
  | sleepDis | sleepCon | connect | connectWait | sysInfo | count | datum | stats | ntp
deriving DecidableEq, Repr

/-- How chronyd runs, as read from the process table and its command line. -/
inductive Proc where
  | absent | normal | minusX
deriving DecidableEq, Repr

/-- Operations of the clock control script that are asked for. -/
inductive Op where
  | save | enable | disable
deriving DecidableEq, Repr

/-- Places where chronyd's command line is read or the script run. -/
inductive Site where
  | first | save | op | next | save' | op'
deriving DecidableEq, Repr

/-- Outcome of `send` (lines 963-975). -/
inductive Send where
  | ok | dead | fail
deriving DecidableEq, Repr

/-- Outcome of `sfptpd_priv_open_chrony`. -/
inductive Conn where
  | ok | inProgress | error (rc : Nat)
deriving DecidableEq, Repr

/-- What the environment answers during an event: the monotonic time, chronyd's
command line and the result of the script at each place, and the results of calls. -/
structure Env where
  now : Int
  look : Site → Proc
  script : Site → Bool
  conn : Conn
  sockErr : Bool
  send : Send
  rand : Nat
  converged : Bool

/-- A reply (`struct crny_cmd_response`), with the fields of all kinds that are used: number of sources; state,
mode and address family of a source; what its statistics say; mode of its NTP data. -/
structure Reply where
  status : Nat
  seq : Nat
  packet : Nat
  cmd : Nat
  count : Int
  srcState : Nat
  srcMode : Nat
  noAddr : Bool
  meas : Nat
  ntpMode : Nat
deriving DecidableEq, Repr

/-- Configuration: `clock_control`, `poll_interval` in seconds, and whether a conflict at the start is
fatal (discipline of the system clock, critical error not ignored). -/
structure Conf where
  control : Bool
  interval : Nat
  fatal : Bool
deriving DecidableEq, Repr

/-- `SYNC_MODULE_CLOCK_CTRL` and `SYNC_MODULE_CLUSTERING_DETERMINANT`. -/
structure Flags where
  clockCtrl : Bool
  cluster : Bool
deriving DecidableEq, Repr

/-- `struct sfptpd_crny_module` (lines 167-223), reduced. -/
structure Mod where
  conf : Conf
  flags : Flags
  must : Bool
  cannot : Bool
  query : Query
  srcIdx : Nat
  srcMode : Nat
  srcNoAddr : Bool
  nextPoll : Int
  expiry : Int
  state : State
  next : State
  reqCmd : Nat
  reqSeq : Nat
  sock : Bool
  running : Bool
  saved : Bool
  ccAtSave : Bool
  blocked : Bool
  phase : Bool
deriving DecidableEq, Repr

/-- Effects outside the module. -/
inductive Out where
  /-- `/proc` was read. -/
  | saw (p : Proc)
  /-- The clock control script was run. -/
  | script (op : Op) (ok : Bool)
  /-- `sfptpd_clock_set_blocked` of the system clock. -/
  | block (b : Bool)
  /-- `sfptpd_engine_sync_instance_state_changed`: state and constraints. -/
  | told (st : St) (must cannot : Bool)
  /-- `sfptpd_engine_clustering_input`, and whether it is valid but for the value. -/
  | cluster (valid : Bool)
  /-- `sfptpd_engine_post_rt_stats`. -/
  | rtStats (disciplining : Bool)
  /-- `send` of a request: command, sequence number and the source concerned (by its number, or
  its address as the answer for that number gave it). -/
  | sent (cmd seq src : Nat)
  /-- `sfptpd_thread_exit`. -/
  | exit
deriving DecidableEq, Repr

/-! ## Clock control -/

/-- `clock_control_at_launch` (lines 794-882), apart from the command line itself. -/
def look (m : Mod) (p : Proc) : Mod × Bool :=
  ({ m with must := !m.conf.control && p = .normal, cannot := !m.conf.control && p = .minusX,
            running := p ≠ .absent },
   p = .normal)

/-- `block_clock`, `unblock_clock` (lines 773-789). -/
def setBlock (m : Mod) (b : Bool) : Mod × List Out :=
  if m.blocked = b then (m, []) else ({ m with blocked := b }, [.block b])

/-- `do_clock_control` (lines 1676-1763): whether it succeeded. -/
def doControl (m : Mod) (op : Op) (p : Proc) (ok : Bool) : Mod × Bool × List Out :=
  if ¬ m.conf.control then (m, false, [])
  else
    let r := look m p
    let m := r.1
    if (op = .enable ∧ r.2) ∨ (op = .disable ∧ ¬ r.2) then (m, true, [.saw p])
    else
      match op with
      | .save => ({ m with ccAtSave := r.2 }, ok, [.saw p, .script op ok])
      | _ => ({ m with sock := false }, ok, [.saw p, .script op ok])

/-- Lines 1768-1771. -/
def saveState (m : Mod) (p : Proc) (ok : Bool) : Mod × List Out :=
  if m.saved then (m, [])
  else
    let r := doControl m .save p ok
    ({ r.1 with saved := true }, r.2.2)

/-- `crny_clock_control` (lines 1765-1774). -/
def control (m : Mod) (enable : Bool) (p : Proc) (ok : Bool) (p' : Proc) (ok' : Bool) : Mod × Bool × List Out :=
  let s := saveState m p ok
  let r := doControl s.1 (if enable then .enable else .disable) p' ok'
  (r.1, r.2.1, s.2 ++ r.2.2)

/-- Lines 1799-1813: the constraints. -/
def constrain (m : Mod) : Mod :=
  if m.conf.control then m
  else if m.next.cc ∧ ¬ m.flags.clockCtrl then { m with must := true, cannot := false }
  else if ¬ m.next.cc ∧ m.flags.clockCtrl then { m with must := false, cannot := true }
  else m

/-- Lines 1815-1826: put chronyd's clock control back. -/
def putBack (m : Mod) (env : Env) : Mod × List Out :=
  if m.next.cc ≠ m.flags.clockCtrl ∧ m.next.st ≠ .disabled then
    let r := control m m.flags.clockCtrl (env.look .save') (env.script .save') (env.look .op') (env.script .op')
    if r.2.1 then ({ r.1 with next := { r.1.next with cc := r.1.flags.clockCtrl } }, r.2.2) else (r.1, r.2.2)
  else (m, [])

/-- `ntp_on_clock_control_change` (lines 1776-1827); the new state is `next`. -/
def onChange (m : Mod) (env : Env) : Mod × List Out :=
  let b := setBlock m m.next.cc
  let r := putBack (constrain b.1) env
  (r.1, b.2 ++ r.2)

/-! ## The state -/

/-- The loop of lines 711-729: selected peer and whether there are candidates. -/
def scan : List Peer → Nat → Int × Bool → Int × Bool
  | [], _, a => a
  | p :: ps, i, a =>
    if p.self then scan ps (i + 1) a
    else scan ps (i + 1) (if p.selected ∧ a.1 = -1 then (i : Int) else a.1, a.2 || p.candidate || p.shortlist)

/-- `crny_parse_state` (lines 672-760) with a code other than 0: `ENOPROTOOPT` is 92, `EAGAIN` 11. -/
def parseError (s : State) (rc : Nat) : State :=
  { s with st := if rc = 92 then .disabled else if rc = 11 then .listening else .faulty,
           sel := -1, numPeers := 0 }

/-- The measurement of the peer at an index. -/
def peerAt (ps : List Peer) (i : Int) : Option Peer := if i < 0 then none else ps[i.toNat]?

/-- `crny_parse_state` with code 0; an assertion fails if there are too many peers. -/
def parse (s : State) : Option State :=
  if s.numPeers ≤ maxPeers then
    let r := scan (s.peers.take s.numPeers) 0 (-1, false)
    if r.1 ≠ -1 ∧ ¬ s.unsafe_ then
      match peerAt s.peers r.1 with
      | none => none
      | some p => some { s with st := .slave, sel := r.1, meas := some (some p.meas) }
    else
      some { s with st := if r.2 then .selection else .listening, sel := r.1, meas := some none }
  else none

/-- `ntp_send_clustering_input` (lines 1643-1658): reads the peer even if there is none. -/
def clustering (m : Mod) (s : State) : Option (List Out) :=
  if m.flags.cluster then
    match peerAt s.peers s.sel with
    | none => none
    | some _ => some [.cluster (s.st = .slave)]
  else some []

/-- `ntp_send_rt_stats_update` (lines 1620-1641). -/
def rtStats (s : State) : Option (List Out) :=
  if s.st = .slave then
    match peerAt s.peers s.sel with
    | none => none
    | some _ => some [.rtStats s.cc]
  else some []

/-- `ntp_handle_state_change` (lines 1529-1618): the constraints, and the status to tell, if any. -/
def stateChange (m : Mod) : Mod × List Out :=
  let m := if m.next.st ≠ m.state.st ∧ m.next.st = .disabled ∧ ¬ m.conf.control then
      { m with cannot := true, must := false } else m
  (m, if m.next.st ≠ m.state.st ∨ m.next.meas ≠ m.state.meas then [.told m.next.st m.must m.cannot] else [])

/-- `ntp_convergence_update` (lines 549-586). -/
def converge (s : State) (c : Bool) : Option State :=
  if s.st ≠ .slave then some { s with synced := false }
  else if s.sel = -1 then none
  else some { s with synced := c }

/-- The assertions of `crny_stats_update` (lines 643-669). -/
def statsOk (s : State) : Bool :=
  s.st ≠ .slave || (s.sel ≠ -1 && s.sel < maxPeers && s.sel < s.numPeers)

/-- The call of lines 2137-2142. -/
def changeIf (m : Mod) (env : Env) : Mod × List Out :=
  if m.next.cc ≠ m.state.cc then onChange m env else (m, [])

/-- `update_state` (lines 2127-2180). -/
def updateState (m : Mod) (env : Env) : Option (Mod × List Out) :=
  let c := changeIf m env
  let t := stateChange c.1
  match converge t.1.next env.converged with
  | none => none
  | some s =>
    let any : Bool := m.next.cc ≠ m.state.cc || !t.2.isEmpty || s.synced ≠ m.state.synced
    match (if any then rtStats s else some []), (if any then clustering t.1 s else some []) with
    | some o1, some o2 =>
      if statsOk s then some ({ t.1 with next := s, state := s }, c.2 ++ o1 ++ o2 ++ t.2) else none
    | _, _ => none

/-! ## The query -/

/-- `chrony_req_initialize` (lines 622-628). -/
def initReq (m : Mod) (cmd : Nat) (env : Env) : Mod := { m with reqCmd := cmd, reqSeq := env.rand }

/-- `issue_request` (lines 941-978): whether it succeeded. -/
def issue (m : Mod) (env : Env) : Mod × Bool × List Out :=
  if ¬ m.sock then (m, false, [])
  else
    let m := { m with expiry := env.now + 2000000000 }
    match env.send with
    | .ok => (m, true, [.sent m.reqCmd m.reqSeq m.srcIdx])
    | .dead => ({ m with sock := false }, false, [])
    | .fail => (m, false, [])

/-- `check_reply` (lines 981-1020). -/
def valid (m : Mod) (r : Reply) (expect : Nat) : Bool :=
  r.status = 0 && r.seq = m.reqSeq && r.packet = expect && r.cmd = m.reqCmd

/-- `issue_get_sys_info` (lines 1023-1041): `CRNY_REQ_TRACKING_STATE`. -/
def issueSysInfo (m : Mod) (env : Env) : Mod × Bool × List Out :=
  issue (initReq { m with next := m.state } 33 env) env

/-- `chrony_next_clock_control_state` (lines 1102-1109): also whether to update. -/
def nextControl (m : Mod) (p : Proc) : Mod × Bool :=
  let r := look m p
  if r.1.state.cc ≠ r.2 then ({ r.1 with next := { r.1.next with cc := r.2 } }, true) else (r.1, false)

/-- Conversion to `unsigned int`. -/
def toU32 (n : Int) : Nat := (n % 4294967296).toNat

/-- `handle_get_source_count` (lines 1117-1143). -/
def handleCount (m : Mod) (r : Reply) : Mod :=
  if valid m r 2 then
    { m with next := { m.next with numPeers := toU32 (if r.count > 32 then 32 else r.count) } }
  else m

/-- Write a peer of the next state; outside the array is undefined. -/
def setPeer (m : Mod) (i : Nat) (f : Peer → Peer) : Option Mod :=
  match m.next.peers[i]? with
  | none => none
  | some p => some { m with next := { m.next with peers := m.next.peers.set i (f p) } }

/-- `issue_get_source_datum` (lines 1145-1156): `CRNY_REQ_SOURCE_DATA_ITEM`. -/
def issueDatum (m : Mod) (env : Env) : Option (Mod × Bool × List Out) :=
  match setPeer m m.srcIdx (fun _ => .zero) with
  | none => none
  | some m => some (issue (initReq m 15 env) env)

/-- Lines 1179-1183: state 0 is selected, 4 a candidate; mode 2 a reference clock. -/
def mark (r : Reply) (p : Peer) : Peer :=
  { p with selected := r.srcState = 0, shortlist := r.srcState = 4, self := r.srcMode = 2 }

/-- `handle_get_source_datum` (lines 1158-1190). -/
def handleDatum (m : Mod) (r : Reply) : Option (Mod × Bool) :=
  if valid m r 3 then
    match setPeer m m.srcIdx (mark r) with
    | none => none
    | some m => some ({ m with srcMode := r.srcMode, srcNoAddr := r.noAddr }, true)
  else some (m, false)

/-- `issue_get_source_stats` (lines 1192-1201): `CRNY_REQ_SOURCE_STATS`. -/
def issueStats (m : Mod) (env : Env) : Option (Mod × Bool × List Out) :=
  match setPeer m m.srcIdx (fun _ => .zero) with
  | none => none
  | some m => some (issue (initReq m 34 env) env)

/-- `handle_get_source_stats` (lines 1203-1247): whether to go on to `CRNY_REQ_NTP_DATA`. -/
def handleStats (m : Mod) (r : Reply) (env : Env) : Option (Mod × Bool) :=
  if valid m r 6 then
    match setPeer m m.srcIdx (fun p => { p with meas := r.meas }) with
    | none => none
    | some m =>
      if m.srcMode = 2 then some (m, false)
      else some (initReq m 57 env, !m.srcNoAddr)
  else some (m, false)

/-- `handle_get_ntp_datum` (lines 1255-1286); mode 4 is a server. -/
def handleNtp (m : Mod) (r : Reply) : Option Mod :=
  if valid m r 16 then setPeer m m.srcIdx (fun p => { p with candidate := r.ntpMode = 4 }) else some m

/-- Result of the machine: whether to update, and effects. -/
abbrev Res := Option (Mod × Bool × List Out)

/-- Lines 1508-1512. -/
def disconnect (m : Mod) : Mod × Bool := ({ m with sock := false, query := .sleepDis }, true)

/-- End of an issue: on to state `q`, or disconnect. -/
def goOn (upd : Bool) (q : Query) (r : Mod × Bool × List Out) : Mod × Bool × List Out :=
  if r.2.1 then ({ r.1 with query := q }, upd, r.2.2) else ((disconnect r.1).1, true, r.2.2)

/-- Lines 1420-1426, 1440-1446, 1459-1468: the next source, or the end of the query. After the reply with
statistics the machine remains in its state `q` (lines 1445-1446). -/
def nextSource (m : Mod) (env : Env) (q : Query) : Res :=
  let m := { m with srcIdx := m.srcIdx + 1 }
  if m.srcIdx = m.next.numPeers then
    match parse m.next with
    | none => none
    | some s => some ({ m with next := s, query := .sleepCon }, true, [])
  else (issueDatum m env).map (goOn false q)

/-- Events of the machine (`enum ntp_query_event`, lines 76-83). -/
inductive QEv where
  | run | tick | traffic (r : Reply) | timeout
deriving DecidableEq, Repr

/-- Lines 1343-1353: a tick may be a timeout. -/
def QEv.late (m : Mod) (now : Int) (e : QEv) : QEv :=
  if e = .tick ∧ m.query ≠ .connect ∧ m.query ≠ .sleepDis ∧ m.query ≠ .sleepCon ∧ now ≥ m.expiry then .timeout else e

/-- Lines 1356-1369. -/
def atConnect (m : Mod) (env : Env) : Res :=
  if m.sock then none
  else
    match env.conn with
    | .ok => some (goOn false .sysInfo (issueSysInfo { m with sock := true } env))
    | .inProgress => some ({ m with query := .connectWait }, false, [])
    | .error rc => some ({ m with next := parseError m.next rc, query := .sleepDis }, false, [])

/-- Lines 1371-1384. -/
def atWait (m : Mod) (env : Env) : QEv → Res
  | .traffic _ =>
    if env.sockErr then some ((disconnect m).1, true, [])
    else some (goOn false .sysInfo (issueSysInfo m env))
  | .timeout => some ({ m with query := .sleepCon }, false, [])
  | _ => some (m, false, [])

/-- Lines 1386-1397. -/
def atSysInfo (m : Mod) (env : Env) : QEv → Res
  | .traffic _ =>
    let c := nextControl m (env.look .next)
    let r := goOn c.2 .count (issue (initReq c.1 14 env) env)
    some (r.1, r.2.1, .saw (env.look .next) :: r.2.2)
  | .timeout => some ({ m with query := .sleepCon }, false, [])
  | _ => some (m, false, [])

/-- Lines 1399-1414. -/
def atCount (m : Mod) (env : Env) : QEv → Res
  | .traffic r =>
    let m := handleCount m r
    if m.next.numPeers > 0 then (issueDatum { m with srcIdx := 0 } env).map (goOn false .datum)
    else some ({ m with query := .sleepCon }, false, [])
  | .timeout => some ({ m with query := .sleepCon }, false, [])
  | _ => some (m, false, [])

/-- Lines 1416-1434. -/
def atDatum (m : Mod) (env : Env) : QEv → Res
  | .traffic r =>
    match handleDatum m r with
    | none => none
    | some (m, false) => nextSource m env .datum
    | some (m, true) => (issueStats m env).map (goOn false .stats)
  | .timeout => some ({ m with query := .sleepCon }, false, [])
  | _ => some (m, false, [])

/-- Lines 1436-1454. -/
def atStats (m : Mod) (env : Env) : QEv → Res
  | .traffic r =>
    match handleStats m r env with
    | none => none
    | some (m, false) => nextSource m env .stats
    | some (m, true) => some (goOn false .ntp (issue m env))
  | .timeout => some ({ m with query := .sleepCon }, false, [])
  | _ => some (m, false, [])

/-- Lines 1456-1473. -/
def atNtp (m : Mod) (env : Env) : QEv → Res
  | .traffic r =>
    match handleNtp m r with
    | none => none
    | some m => nextSource m env .datum
  | .timeout => some ({ m with query := .sleepCon }, false, [])
  | _ => some (m, false, [])

/-- Lines 1475-1487. -/
def atSleepDis (m : Mod) (env : Env) (e : QEv) : Res :=
  if m.nextPoll < env.now ∨ e = .run then
    let c := nextControl m (env.look .next)
    let m := { c.1 with nextPoll := c.1.nextPoll + c.1.conf.interval * 1000000000 }
    if m.running then some ({ m with query := .connect }, c.2, [.saw (env.look .next)])
    else some ({ m with next := parseError m.next 92 }, c.2, [.saw (env.look .next)])
  else some (m, false, [])

/-- Lines 1489-1501. -/
def atSleepCon (m : Mod) (env : Env) : Res :=
  if m.nextPoll < env.now then
    let r := issueSysInfo m env
    if r.2.1 then
      some ({ r.1 with query := .sysInfo, nextPoll := r.1.nextPoll + r.1.conf.interval * 1000000000 }, false, r.2.2)
    else some ((disconnect r.1).1, true, r.2.2)
  else some (m, false, [])

/-- The switch of `crny_state_machine` (lines 1320-1526). -/
def machine (m : Mod) (env : Env) (e : QEv) : Res :=
  let e := e.late m env.now
  match m.query with
  | .connect => atConnect m env
  | .connectWait => atWait m env e
  | .sysInfo => atSysInfo m env e
  | .count => atCount m env e
  | .datum => atDatum m env e
  | .stats => atStats m env e
  | .ntp => atNtp m env e
  | .sleepDis => atSleepDis m env e
  | .sleepCon => atSleepCon m env

/-- The machine and what follows it (lines 1521-1522, 2247-2248, 2260-2261): the state is updated also if it differs. -/
def advance (m : Mod) (env : Env) (r : Res) : Option (Mod × List Out) :=
  match r with
  | none => none
  | some (m, upd, outs) =>
    if upd ∨ m.next.st ≠ m.state.st then (updateState m env).map (fun x => (x.1, outs ++ x.2))
    else some (m, outs)

/-! ## Messages -/

/-- Lines 2212-2243 of `ntp_on_run`: the clock control at the start. -/
def runControl (m : Mod) (env : Env) : Mod × List Out :=
  let p := env.look .first
  let l := look m p
  if l.2 = m.flags.clockCtrl then (l.1, [.saw p])
  else if m.conf.control then
    let r := control l.1 m.flags.clockCtrl (env.look .save) (env.script .save) (env.look .op) (env.script .op)
    if r.2.1 then (r.1, .saw p :: r.2.2)
    else if m.flags.clockCtrl then
      ({ r.1 with flags := { r.1.flags with clockCtrl := false } }, .saw p :: r.2.2)
    else (r.1, .saw p :: r.2.2 ++ (if m.conf.fatal then [.exit] else []))
  else if m.flags.clockCtrl then
    ({ l.1 with flags := { l.1.flags with clockCtrl := false } }, [.saw p])
  else (l.1, .saw p :: (if m.conf.fatal then [.exit] else []))

/-- Lines 2191-2210 and 2245-2248 of `ntp_on_run` (the timer always starts). -/
def onRun (m : Mod) (env : Env) : Option (Mod × List Out) :=
  let m := { m with phase := true, nextPoll := env.now, query := .sleepDis, state := { m.state with unsafe_ := false } }
  let c := runControl m env
  let m := { c.1 with next := c.1.state }
  (advance m env (machine m env .run)).map (fun x => (x.1, c.2 ++ x.2))

/-- The flags asked for by a control message (lines 1901-1905). -/
def Flags.apply (f mask flags : Flags) : Flags :=
  ⟨if mask.clockCtrl then flags.clockCtrl else f.clockCtrl, if mask.cluster then flags.cluster else f.cluster⟩

/-- `ntp_on_control` (lines 1891-1933). -/
def onControl (m : Mod) (mask flags : Flags) (env : Env) : Mod × List Out :=
  let f := m.flags.apply mask flags
  if m.phase ∧ f.clockCtrl ≠ m.flags.clockCtrl then
    let p := env.look .first
    let l := look m p
    if l.2 = f.clockCtrl then ({ l.1 with flags := f }, [.saw p])
    else if ¬ m.conf.control then ({ l.1 with flags := { f with clockCtrl := m.flags.clockCtrl } }, [.saw p])
    else
      let r := control l.1 f.clockCtrl (env.look .save) (env.script .save) (env.look .op) (env.script .op)
      ({ r.1 with flags := f }, .saw p :: r.2.2)
  else ({ m with flags := f }, [])

/-- Events of the module. -/
inductive Ev where
  /-- `SFPTPD_APP_MSG_RUN`. -/
  | run (env : Env)
  /-- `ntp_on_timer` (lines 2250-2271). -/
  | tick (env : Env)
  /-- `crny_do_io` (lines 2398-2429) with a reply. -/
  | traffic (env : Env) (r : Reply)
  /-- `crny_do_io` with an error. -/
  | lost (env : Env)
  | control (mask flags : Flags) (env : Env)
  /-- `ntp_on_step_clock` (lines 1936-1946). -/
  | step
  /-- `ntp_on_log_stats` (lines 1949-1958). -/
  | log

/-- An event. The message to run comes once, the timer runs afterwards only, and the
socket gives events only while it is open. -/
def step (m : Mod) : Ev → Option (Mod × List Out)
  | .run env => if m.phase then some (m, []) else onRun m env
  | .tick env => if m.phase then advance m env (machine m env .tick) else some (m, [])
  | .traffic env r => if m.sock then advance m env (machine m env (.traffic r)) else some (m, [])
  | .lost env => if m.sock then advance m env (some ((disconnect m).1, true, [])) else some (m, [])
  | .control mask flags env => some (onControl m mask flags env)
  | .step => some ({ m with state := { m.state with unsafe_ := true } }, [])
  | .log =>
    match rtStats m.state, clustering m m.state with
    | some o1, some o2 => some (m, o1 ++ o2)
    | _, _ => none

/-- What is seen of an event: the event and its effects. -/
structure Entry where
  ev : Ev
  outs : List Out

/-- A sequence of events. -/
def run (m : Mod) : List Ev → Option (Mod × List Entry)
  | [] => some (m, [])
  | e :: es =>
    match step m e with
    | none => none
    | some (m', outs) =>
      match run m' es with
      | none => none
      | some (m'', tr) => some (m'', ⟨e, outs⟩ :: tr)

/-- All bytes zero (`calloc`, line 2564). -/
def State.zero : State := ⟨.listening, false, 0, List.replicate maxPeers .zero, 0, false, none, false⟩

/-- `sfptpd_crny_module_create` (lines 2544-2613) and `ntp_on_startup` (lines 2274-2317) with
`crny_configure_ntpd` (884-938), as chronyd runs in the way `p`. -/
def start (c : Conf) (p : Proc) : Mod × List Out :=
  let m0 : Mod := ⟨c, ⟨false, false⟩, false, false, .sleepDis, 0, 0, false, 0, 0, .zero, .zero, 0, 0, false, false, false,
    false, false, false⟩
  let l := look m0 p
  let s := { l.1.state with cc := l.2 }
  let b := if l.2 then setBlock { l.1 with state := s } true else ({ l.1 with state := s }, [])
  let m := b.1
  let s := if m.running then m.state else { m.state with st := .disabled }
  ({ m with state := s, next := s }, .saw p :: b.2)

end Verif.Crny
