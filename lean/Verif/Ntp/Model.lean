/-!
# The NTP sync module

`src/ntp/sfptpd_ntp_module.c` and `src/ntp/sfptpd_ntpd_client.c`: the polling of
ntpd, the state derived from it and the control of ntpd's own discipline of the
system clock.

Simplified: offsets and dispersions are whole nanoseconds (`none` is infinity),
so not-a-number does not occur; the two client protocols are parameters that
answer each call; the address of a peer is a number, 0 where it has none
(`remote_address_len` 0); alarms are always 0 in this module and are left out, as
are log messages, the state file and the statistics kept over time. The array of
peers is its valid part, which has at most 32 entries.
-/

namespace Verif.Ntp

/-- `SYNC_MODULE_STATE_...`, those used by the module; 0 is `listening`. -/
inductive St where
  | listening | slave | disabled | faulty | selection
deriving DecidableEq, Repr

/-- `struct sfptpd_ntpclient_peer` (`src/include/sfptpd_ntpd_client.h:75-91`), reduced. -/
structure Peer where
  addr : Nat
  received : Nat
  selected : Bool
  shortlist : Bool
  candidate : Bool
  self : Bool
  offset : Int
  disp : Int
  stratum : Nat
deriving DecidableEq, Repr

/-- All bytes zero. -/
def Peer.zero : Peer := ⟨0, 0, false, false, false, false, 0, 0, 0⟩

/-- `struct ntp_state` (lines 82-123). `sel` is `selected_peer_idx`, `id` the
`offset_id_tuple` (`none` where it is not valid and all bytes are zero), `cc` is
`clock_control_enabled`. -/
structure State where
  st : St := .listening
  must : Bool := false
  cannot : Bool := false
  id : Option (Nat × Nat) := none
  sel : Int := 0
  cc : Bool := false
  peers : List Peer := []
  offset : Int := 0
  disp : Option Int := some 0
  stratum : Nat := 0
  score : Int := 0
deriving DecidableEq, Repr

/-- `enum ntp_query_state` (lines 68-72). -/
inductive Query where
  | sysInfo | peerInfo | sleep
deriving DecidableEq, Repr

/-- The two protocols of the client. -/
inductive Proto where
  | mode7 | mode6
deriving DecidableEq, Repr

/-- A result or an error. -/
inductive Ans (α : Type) where
  | ok (a : α)
  | error (rc : Nat)
deriving DecidableEq, Repr

/-- The calls of the client in one event. -/
inductive Call where
  | create | sys | peers | control
deriving DecidableEq, Repr

/-- What the environment answers during an event: which protocols answer when
tested, the system information (`none` where it says nothing about the clock), the
peers, the result of a command, the monotonic time in ns, whether the measure of
convergence holds, and the clustering score. -/
structure Env where
  test : Call → Proto → Bool
  sys : Proto → Ans (Option Bool)
  peers : Proto → Ans (List Peer)
  command : Nat
  now : Int
  converged : Bool
  score : Int

/-- The configuration: whether there is an instance, whether it has a key,
`ntp_poll_interval` in seconds, whether the conflict over the clock is ignored, and
whether the program may write to the system clock. -/
structure Conf where
  inst : Bool
  key : Bool
  interval : Nat
  ignore : Bool
  writable : Bool
deriving DecidableEq, Repr

/-- `SYNC_MODULE_CLOCK_CTRL`, `SYNC_MODULE_SELECTED`,
`SYNC_MODULE_CLUSTERING_DETERMINANT` and `SYNC_MODULE_TIMESTAMP_PROCESSING`. -/
structure Flags where
  clockCtrl : Bool
  selected : Bool
  cluster : Bool
  tsProc : Bool
deriving DecidableEq, Repr

/-- `SYNC_MODULE_CTRL_FLAGS_DEFAULT`. -/
def Flags.default : Flags := ⟨false, false, false, true⟩

/-- The flags of a control message (lines 1031-1033). -/
def Flags.update (f mask v : Flags) : Flags :=
  ⟨if mask.clockCtrl then v.clockCtrl else f.clockCtrl, if mask.selected then v.selected else f.selected,
   if mask.cluster then v.cluster else f.cluster, if mask.tsProc then v.tsProc else f.tsProc⟩

/-- `ntp_module_t` (lines 125-168), reduced. `proto` is the protocol selected by
the client. -/
structure Mod where
  conf : Conf
  flags : Flags := .default
  query : Query := .sysInfo
  next : Int := 0
  unsafe_ : Bool := false
  state : State := {}
  proto : Option Proto := none
  synced : Bool := false
deriving DecidableEq, Repr

/-- `ntp->mode == NTP_MODE_ACTIVE`: an instance has been configured
(lines 671-678). -/
def Mod.active (m : Mod) : Bool := m.conf.inst

/-- Ways to fail: an assertion, an access outside an array. -/
inductive Fault where
  | assertion | outside
deriving DecidableEq, Repr

/-- What the engine is told (lines 570-612). `locked` stands for the class, the
source of time and `remote_clock`. -/
structure Status where
  st : St
  must : Bool
  cannot : Bool
  offset : Int
  disp : Option Int
  stratum : Nat
  score : Int
  locked : Bool
deriving DecidableEq, Repr

/-- What is seen from outside: reports to the engine and replies, attempts to switch
ntpd's control of the clock (whether a command was sent, and the result), inputs
for clustering, statistics, and the two queries with what was answered. -/
inductive Out where
  | told (s : Status)
  | reply (s : Status)
  | attempt (on sent : Bool) (rc : Nat)
  | cluster (offset : Int) (valid : Bool)
  | stats (offset : Int) (disciplining synced : Bool)
  | sys (now : Int) (answer : Ans (Option Bool))
  | peers (answer : Ans (List Peer))
deriving DecidableEq, Repr

/-! ## The client -/

/-- `ENOPROTOOPT`. -/
def ENOPROTOOPT : Nat := 92

/-- `select_protocol` (`sfptpd_ntpd_client.c:39-59`): `none` is `ENOPROTOOPT`. -/
def selectProto (env : Env) (c : Call) (p : Option Proto) : Option Proto :=
  match p with
  | some p => some p
  | none => if env.test c .mode7 then some .mode7 else if env.test c .mode6 then some .mode6 else none

/-- `sfptpd_ntpclient_get_sys_info` (`sfptpd_ntpd_client.c:177-196`). -/
def getSys (env : Env) (p : Option Proto) : Option Proto × Ans (Option Bool) :=
  match selectProto env .sys p with
  | none => (none, .error ENOPROTOOPT)
  | some p => (some p, env.sys p)

/-- `sfptpd_ntpclient_get_peer_info` (`sfptpd_ntpd_client.c:198-219`). -/
def getPeers (env : Env) (p : Option Proto) : Option Proto × Ans (List Peer) :=
  match selectProto env .peers p with
  | none => (none, .error ENOPROTOOPT)
  | some p => (some p, env.peers p)

/-- `sfptpd_ntpclient_clock_control` (`sfptpd_ntpd_client.c:221-242`): the
protocols refuse without a key (`EACCES`, `sfptpd_ntpd_client_mode6.c:1450-1451`,
`sfptpd_ntpd_client_mode7.c:1514-1515`) and otherwise send the command. -/
def control (env : Env) (key : Bool) (p : Option Proto) (on : Bool) : Option Proto × Nat × List Out :=
  match selectProto env .control p with
  | none => (none, ENOPROTOOPT, [.attempt on false ENOPROTOOPT])
  | some p =>
    if key then (some p, env.command, [.attempt on true env.command]) else (some p, 13, [.attempt on false 13])

/-! ## The state -/

/-- The index of the first selected peer that is not a reference clock
(lines 509-523), counting from `i`. -/
def firstSelected (i : Nat) : List Peer → Option Nat
  | [] => none
  | p :: rest => if !p.self && p.selected then some i else firstSelected (i + 1) rest

/-- Whether any peer is a candidate or shortlisted (lines 525-527). -/
def anyCandidate (l : List Peer) : Bool := l.any fun p => !p.self && (p.candidate || p.shortlist)

/-- `set_offset_id` (lines 400-413). -/
def offsetId (p : Peer) : Option (Nat × Nat) := if p.addr = 0 then none else some (p.addr, p.received)

/-- What `ntp_parse_state` makes of an error (lines 487-503). -/
def parseError (s : State) (rc : Nat) : State :=
  { s with
    st := if rc = ENOPROTOOPT then .disabled else if rc = 11 then .listening else .faulty
    must := false
    cannot := false
    cc := false
    sel := -1
    peers := []
    id := none }

/-- The peer at an index of the array, zero beyond the valid part. -/
def peerAt (l : List Peer) (i : Nat) : Peer := l.getD i Peer.zero

/-- `ntp_parse_state` with `rc` 0 (lines 505-551). -/
def parseOk (s : State) (bad : Bool) (score : Int) : State :=
  match firstSelected 0 s.peers with
  | some i =>
    if bad then
      { s with
        sel := i, id := offsetId (peerAt s.peers i)
        st := if anyCandidate s.peers then .selection else .listening
        offset := 0, disp := none, stratum := 0, score := score }
    else
      { s with
        sel := i, id := offsetId (peerAt s.peers i), st := .slave
        offset := (peerAt s.peers i).offset
        disp := some (peerAt s.peers i).disp
        stratum := (peerAt s.peers i).stratum
        score := score }
  | none =>
    { s with
      sel := -1, id := none
      st := if anyCandidate s.peers then .selection else .listening
      offset := 0, disp := none, stratum := 0, score := score }

/-- `&peers[selected_peer_idx]`, read. -/
def selPeer (s : State) : Except Fault Peer :=
  match s.sel with
  | .ofNat i => if i < 32 then .ok (peerAt s.peers i) else .error .outside
  | .negSucc _ => .error .outside

/-! ## Messages -/

/-- `ntp_send_instance_status` (lines 570-612). -/
def status (s : State) : Status :=
  ⟨s.st, s.must, s.cannot, s.offset, s.disp, s.stratum, s.score, s.st = .slave⟩

/-- `ntp_on_get_status` (lines 958-1005). -/
def reply (s : State) : Status :=
  if s.st = .slave then ⟨s.st, s.must, s.cannot, s.offset, s.disp, s.stratum, s.score, true⟩
  else ⟨s.st, s.must, s.cannot, s.offset, none, 0, s.score, false⟩

/-- `ntp_send_rt_stats_update` (lines 615-636). -/
def sendStats (m : Mod) : Except Fault (List Out) :=
  if m.active && m.state.st = .slave then
    match selPeer m.state with
    | .error f => .error f
    | .ok p => .ok [.stats p.offset (m.flags.selected && m.state.cc) m.synced]
  else .ok []

/-- `ntp_send_clustering_input` (lines 903-918). -/
def sendCluster (m : Mod) : Except Fault (List Out) :=
  if m.flags.cluster then
    match selPeer m.state with
    | .error f => .error f
    | .ok p => .ok [.cluster p.offset (p.offset ≠ 0 && m.state.st = .slave)]
  else .ok []

/-- Two lists of effects, the first failure counts. -/
def both (a b : Except Fault (List Out)) : Except Fault (List Out) :=
  match a with
  | .error f => .error f
  | .ok x => match b with
    | .error f => .error f
    | .ok y => .ok (x ++ y)

/-- The first part of `ntp_on_offset_id_change` (lines 643-647). -/
def newUnsafe (m : Mod) (new : State) : Bool := if m.unsafe_ && new.id.isNone then false else m.unsafe_

/-- `ntp_on_offset_id_change` (lines 639-654). -/
def idChange (m : Mod) (new : State) : Except Fault (Mod × List Out) :=
  match both (sendStats { m with unsafe_ := newUnsafe m new }) (sendCluster m) with
  | .error f => .error f
  | .ok o => .ok ({ m with unsafe_ := newUnsafe m new }, o)

/-- Whether the engine has to be told (lines 892-899). -/
def differs (a b : State) : Bool :=
  a.st ≠ b.st || a.must ≠ b.must || a.cannot ≠ b.cannot || a.offset ≠ b.offset || a.disp ≠ b.disp || a.stratum ≠ b.stratum

/-- `ntp_handle_state_change` (lines 847-900); the states for which the switch has
an assertion do not occur. -/
def stateChange (m : Mod) (new : State) : Except Fault (List Out) :=
  both (sendCluster m) (.ok (if m.active && differs new m.state then [.told (status new)] else []))

/-- The state after an attempt to restore the control of the clock
(lines 941-954). -/
def restored (new : State) (on : Bool) (rc : Nat) : State :=
  if rc = 0 then { new with cc := on, must := false, cannot := false }
  else if on then { new with cannot := true }
  else { new with must := true }

/-- `ntp_on_clock_control_change` (lines 921-956). -/
def ccChange (env : Env) (m : Mod) (new : State) : Mod × State × List Out :=
  if m.active && new.st ≠ .disabled then
    let r := control env m.conf.key m.proto m.flags.clockCtrl
    ({ m with proto := r.1 }, restored new m.flags.clockCtrl r.2.1, r.2.2)
  else (m, new, [])

/-- `ntp_convergence_update` (lines 357-391) and `ntp_stats_update` (lines
440-463), which fail their assertions without a selected peer. -/
def finish (env : Env) (m : Mod) : Except Fault Mod :=
  if m.state.st = .slave then
    if m.state.sel = -1 then .error .assertion
    else
      match selPeer m.state with
      | .error f => .error f
      | .ok _ => .ok { m with synced := m.flags.tsProc && env.converged }
  else .ok { m with synced := false }

/-- `ntp_stats_update` alone. -/
def statsUpdate (m : Mod) : Except Fault Unit :=
  if m.state.st = .slave then
    if m.state.sel = -1 then .error .assertion
    else
      match selPeer m.state with
      | .error f => .error f
      | .ok _ => .ok ()
  else .ok ()

/-- The rest of `ntp_on_timer` after an answer (lines 1294-1313). -/
def applied (env : Env) (m : Mod) (new : State) : Except Fault (Mod × List Out) :=
  let r1 := if new.cc ≠ m.state.cc then ccChange env m new else (m, new, [])
  let r2 := if r1.2.1.id ≠ r1.1.state.id then idChange r1.1 r1.2.1 else .ok (r1.1, [])
  match r2 with
  | .error f => .error f
  | .ok (m2, o2) =>
    match stateChange m2 r1.2.1 with
    | .error f => .error f
    | .ok o3 =>
      match finish env { m2 with state := r1.2.1 } with
      | .error f => .error f
      | .ok m3 => .ok (m3, r1.2.2 ++ o2 ++ o3)

/-- The state after the answer to the query for system information. -/
def sysState (s : State) (bad : Bool) (score : Int) : Ans (Option Bool) → State
  | .error rc => parseError s rc
  | .ok cc => parseOk { s with cc := cc.getD s.cc } bad score

/-- The state after the answer to the query for the peers. -/
def peerState (s : State) (bad : Bool) (score : Int) : Ans (List Peer) → State
  | .error rc => parseError s rc
  | .ok l => parseOk { s with peers := l } bad score

/-- `ntp_on_timer` (lines 1276-1323) with `ntp_state_machine` (lines 795-844). -/
def timer (env : Env) (m : Mod) : Except Fault (Mod × List Out) :=
  match m.query with
  | .sysInfo =>
    let r := getSys env m.proto
    match applied env { m with proto := r.1, query := .peerInfo } (sysState m.state m.unsafe_ env.score r.2) with
    | .error f => .error f
    | .ok (m', o) => .ok (m', .sys env.now r.2 :: o)
  | .peerInfo =>
    let r := getPeers env m.proto
    match applied env { m with proto := r.1, query := .sleep } (peerState m.state m.unsafe_ env.score r.2) with
    | .error f => .error f
    | .ok (m', o) => .ok (m', .peers r.2 :: o)
  | .sleep =>
    if m.next < env.now then
      .ok ({ m with query := .sysInfo, next := m.next + m.conf.interval * 1000000000 }, [])
    else .ok (m, [])

/-- The constraints after a failed command of the engine (lines 1046-1055). -/
def refused (s : State) (on : Bool) : State :=
  if on = s.cc then s else if on then { s with cannot := true } else { s with must := true }

/-- The effect of a command of the engine on the state (lines 1037-1056). -/
def commanded (s : State) (on : Bool) (rc : Nat) : State :=
  if rc = 0 then { s with cc := on, must := false, cannot := false } else refused s on

/-- `ntp_on_control` (lines 1008-1061). -/
def onControl (env : Env) (m : Mod) (mask v : Flags) : Mod × List Out :=
  if !m.active then (m, [])
  else
    let f := m.flags.update mask v
    if f.clockCtrl ≠ m.flags.clockCtrl then
      let r := control env m.conf.key m.proto f.clockCtrl
      ({ m with flags := f, proto := r.1, state := commanded m.state f.clockCtrl r.2.1 }, r.2.2)
    else ({ m with flags := f }, [])

/-- `ntp_on_run` (lines 1252-1283). -/
def onRun (env : Env) (m : Mod) : Except Fault (Mod × List Out) :=
  let m := { m with next := env.now, query := .sysInfo, unsafe_ := false }
  if m.active then
    match idChange m m.state with
    | .error f => .error f
    | .ok (m, o) =>
      match statsUpdate m with
      | .error f => .error f
      | .ok _ => .ok (m, o ++ [.told (status m.state)])
  else .ok (m, [])

/-- What happens to the module. -/
inductive Ev where
  | run (env : Env)
  | timer (env : Env)
  | control (env : Env) (mask v : Flags)
  | step
  | logStats
  | getStatus
  | saveState
  | topology

/-- Reads the selected peer in the state `slave` (lines 1108-1113). -/
def onSave (m : Mod) : Except Fault (Mod × List Out) :=
  if m.state.st = .slave then
    match selPeer m.state with
    | .error f => .error f
    | .ok _ => .ok (m, [])
  else .ok (m, [])

/-- `ntp_on_write_topology` (lines 1161-1218): the peer is read in every state. -/
def onTopology (m : Mod) : Except Fault (Mod × List Out) :=
  if !m.flags.selected then .error .assertion
  else
    match selPeer m.state with
    | .error f => .error f
    | .ok _ => .ok (m, [])

/-- The handlers. -/
def step (m : Mod) : Ev → Except Fault (Mod × List Out)
  | .run env => onRun env m
  | .timer env => timer env m
  | .control env mask v => .ok (onControl env m mask v)
  | .step => .ok ({ m with unsafe_ := true }, [])
  | .logStats =>
    match both (sendStats m) (sendCluster m) with
    | .error f => .error f
    | .ok o => .ok (m, o)
  | .getStatus => .ok (m, [.reply (reply m.state)])
  | .saveState => onSave m
  | .topology => onTopology m

/-- A sequence of events. -/
def run : List Ev → Mod → Except Fault (Mod × List Out)
  | [], m => .ok (m, [])
  | e :: es, m =>
    match step m e with
    | .error f => .error f
    | .ok (m1, o1) =>
      match run es m1 with
      | .error f => .error f
      | .ok (m2, o2) => .ok (m2, o1 ++ o2)

/-! ## The start -/

/-- What the rest of the start answers: the result of creating the client other
than the choice of a protocol, and whether systemd-timesyncd runs. -/
structure StartEnv where
  env : Env
  create : Nat
  timesyncd : Bool

/-- `ntp_configure_ntpd` for an active instance, from the point at which the peers
are known (lines 742-756): the state, the result and the effects. -/
def takeControl (c : Conf) (env : Env) (p : Option Proto) (s : State) : Nat × Option Proto × State × List Out :=
  if c.inst && s.cc then
    let r := control env c.key p false
    if r.2.1 = 0 then (0, r.1, { s with cc := false }, r.2.2)
    else (if c.ignore then 0 else 22, r.1, { s with must := true }, r.2.2)
  else (0, p, s, [])

/-- The same for a passive instance (lines 768-785). -/
def passiveCheck (c : Conf) (s : State) : Nat × State :=
  if !c.inst && s.cc && c.writable then (if c.ignore then 0 else 16, { s with must := true }) else (0, s)

/-- `ntp_configure_ntpd` with the peers known (lines 737-790). -/
def settled (c : Conf) (env : Env) (p : Proto) (s : State) : Nat × Mod × List Out :=
  let r := takeControl c env (some p) s
  if r.1 ≠ 0 then (r.1, { conf := c, proto := r.2.1, state := r.2.2.1 }, r.2.2.2)
  else
    let k := passiveCheck c r.2.2.1
    if k.1 ≠ 0 then (k.1, { conf := c, proto := r.2.1, state := k.2 }, r.2.2.2)
    else (0, { conf := c, proto := r.2.1, state := parseOk k.2 false env.score }, r.2.2.2)

/-- `ntp_configure_ntpd` after the client has been created (lines 716-793). An error
is never 0. -/
def configured (c : Conf) (env : Env) (p : Proto) : Nat × Mod × List Out :=
  match env.sys p with
  | .error rc => (0, { conf := c, proto := some p, state := parseError { cc := true } rc }, [.sys env.now (.error rc)])
  | .ok cc =>
    match env.peers p with
    | .error rc => (max rc 1, { conf := c, proto := some p }, [.sys env.now (.ok cc), .peers (.error rc)])
    | .ok l =>
      let r := settled c env p { cc := cc.getD true, peers := l }
      (r.1, r.2.1, .sys env.now (.ok cc) :: .peers (.ok l) :: r.2.2)

/-- `ntp_on_startup` with `ntp_configure_ntpd` (lines 657-793, 1326-1366); failures
of timers and statistics are left out. -/
def start (c : Conf) (e : StartEnv) : Nat × Mod × List Out :=
  if c.inst && !c.key && !c.ignore then (22, { conf := c }, [])
  else if e.timesyncd then (93, { conf := c }, [])
  else if e.create ≠ 0 then (e.create, { conf := c }, [])
  else
    match selectProto e.env .create none with
    | none => (0, { conf := c }, [])
    | some p => configured c e.env p

end Verif.Ntp
