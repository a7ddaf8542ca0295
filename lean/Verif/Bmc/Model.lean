import Verif.Foreign.Model
/-!
# Model of the best master clock algorithm and of the port state machine

Models `src/ptp/ptpd2/bmc.c` lines 467-908 (data set comparison, qualification,
deletion of unselected masters, election, state decision), the parts of
`src/ptp/ptpd2/protocol.c` that change the port state (`toState` 211-456,
`handleSendFailure` 468-480, `doInitPort` 489-562, `doTimerTick` 582-853,
`handleAnnounce` 1746-1857), `ptpd_timer_tick`
(`src/ptp/ptpd2/ptpd_lib.c:420-445`) and the state changes made by management
messages (`src/ptp/ptpd2/management.c:274,366,861,886`).

Simplifications: `memcmp` on identities is numeric comparison of the octets read
big-endian; it is assumed to return a value that survives the conversion to
`short` (`bmc.c:504`).  Message sending, logging, the servo and the counters are
left out: of a sending step only whether it failed is kept.  Which timers have
expired, clock readings and the results of initialisation are inputs.
-/

namespace Verif.Bmc
open Verif.Foreign

/-- The fields of `MsgHeader` and `MsgAnnounce` that the comparison reads. -/
structure Ann where
  src : PortId
  utcValid : Bool
  gmId : Nat
  prio1 : Nat
  cls : Nat
  acc : Nat
  var : Nat
  prio2 : Nat
  steps : Nat
  /-- `syncSnapshot.offset` when `have_offset` (kept with the record). -/
  offset : Option Rat
deriving DecidableEq, Repr

/-- The configuration and local data read by the election. -/
structure Local where
  clockId : Nat
  prio1 : Nat
  cls : Nat
  acc : Nat
  var : Nat
  prio2 : Nat
  utcValid : Bool
  preferUtcValid : Bool
  discOffset : Rat
  discThreshold : Rat
deriving DecidableEq, Repr

/-- Three-way comparison as done by each pair of `if`s. -/
def three (a b : Nat) (rest : Int) : Int :=
  if a < b then -1 else if b < a then 1 else rest

/-- `bmcDataSetComparison` (`bmc.c:498-617`).  `parent` is
`ptpClock->parentPortIdentity.clockIdentity`. -/
def compare (prefUtc : Bool) (parent : Nat) (a b : Ann) : Int :=
  if a.gmId = b.gmId then
    if b.steps + 1 < a.steps then 1
    else if a.steps + 1 < b.steps then -1
    else if b.steps < a.steps then three a.src.clock parent 0
    else if a.steps < b.steps then three b.src.clock parent 0
    else three a.src.clock b.src.clock (three a.src.port b.src.port 0)
  else
    three a.prio1 b.prio1
     (let rest :=
        three a.cls b.cls (three a.acc b.acc (three a.var b.var (three a.prio2 b.prio2
          (three a.gmId b.gmId 0))))
      if prefUtc then
        (if a.utcValid && !b.utcValid then -1
         else if !a.utcValid && b.utcValid then 1 else rest)
      else rest)

/-- `enum qualification`. -/
inductive Qual where
  | qualified | byAnnounce | byDiscriminator | bySteps
deriving DecidableEq, Repr

/-- Lines 735-755 of `getQualification`: enabled and no offset known, or an
absolute difference of at least the threshold. -/
def discBad (l : Local) (o : Option Rat) : Bool :=
  if l.discOffset = 0 then false
  else match o with
    | none => true
    | some o =>
      let d := o - l.discOffset
      decide (l.discThreshold ≤ (if d < 0 then -d else d))

/-- `getQualification` (`bmc.c:722-762`). -/
def qualification (l : Local) (thr : Int) (r : Rec Ann) : Qual :=
  if r.tc < threshold ∨ ¬ r.earliestOk thr then .byAnnounce
  else if discBad l r.data.offset then .byDiscriminator
  else if 255 ≤ r.data.steps then .bySteps
  else .qualified

/-- The first loop of `bmc` (`bmc.c:840-851`) from index `i`: the index of the
first qualified record (or `num`) and whether the discriminator disqualified one. -/
def firstQual (l : Local) (thr : Int) : List (Rec Ann) → Nat → Bool → Nat × Bool × Bool
  | [], i, d => (i, false, d)
  | r :: rs, i, d =>
    match qualification l thr r with
    | .qualified => (i, true, d)
    | .byDiscriminator => firstQual l thr rs (i + 1) true
    | _ => firstQual l thr rs (i + 1) d

/-- Loop state of the second loop of `bmc` (`bmc.c:857-891`). -/
structure Scan where
  besti : Nat
  best : Ann
  count : Nat
  hadResult : Bool
  disc : Bool
deriving DecidableEq, Repr

/-- One iteration of the second loop (`bmc.c:858-890`) on record `i`. -/
def scanStep (l : Local) (parent : Nat) (thr : Int) (sc : Scan) (i : Nat) (r : Rec Ann) : Scan :=
  match qualification l thr r with
  | .qualified =>
    let c := compare l.preferUtcValid parent r.data sc.best
    { sc with
      besti := if c < 0 then i else sc.besti
      best := if c < 0 then r.data else sc.best
      count := sc.count + 1
      hadResult := sc.hadResult || decide (c ≠ 0) }
  | .byDiscriminator => { sc with disc := true }
  | _ => sc

/-- The second loop (`bmc.c:857-891`). -/
def scan (l : Local) (parent : Nat) (thr : Int) : List (Rec Ann) → Nat → Scan → Scan
  | [], _, sc => sc
  | r :: rs, i, sc => scan l parent thr rs (i + 1) (scanStep l parent thr sc i r)

/-- Outcome of the election part of `bmc` (`bmc.c:837-895`): the index, if one is
elected, and the discriminator flag. -/
def elect (l : Local) (parent : Nat) (thr : Int) (live : List (Rec Ann)) : Option Nat × Bool :=
  match firstQual l thr live 0 false with
  | (_, false, d) => (none, d)
  | (i, true, d) =>
    match live[i]? with
    | none => (none, d)
    | some r =>
      let sc := scan l parent thr (live.drop (i + 1)) (i + 1)
        { besti := i, best := r.data, count := 1, hadResult := false, disc := d }
      if sc.hadResult ∨ sc.count = 1 then (some sc.besti, sc.disc) else (none, sc.disc)

/-- Loop of `deleteUnselectedMasters` (`bmc.c:781-794`) over the records from
`ri` on; `kept` are the records written so far (slots `0..writeIndex`).  The
writes never overtake the reads, so the loop is a filter. -/
def deleteLoop (l : Local) (thr : Int) : List (Rec Ann) → Nat → List (Rec Ann) → Nat → List (Rec Ann) × Nat
  | [], _, kept, best => (kept, best)
  | r :: rs, ri, kept, best =>
    if qualification l thr r = .qualified then
      if ri = best then deleteLoop l thr rs (ri + 1) (kept ++ [r]) kept.length
      else deleteLoop l thr rs (ri + 1) kept best
    else deleteLoop l thr rs (ri + 1) (kept ++ [r]) best

/-- `deleteUnselectedMasters` (`bmc.c:769-797`); `thr` is its own reading of the
expiry time (line 779).  Slots from `writeIndex` on keep their contents. -/
def deleteUnselected (l : Local) (thr : Int) (s : Ds Ann) : Ds Ann :=
  let (kept, best) := deleteLoop l thr s.live 0 [] s.best
  { recs := kept ++ s.recs.drop kept.length, num := kept.length, wr := kept.length, best := best }

/-- Port states (`ptpd_state_e`, `constants.h:419-430`). -/
inductive PState where
  | initializing | faulty | disabled | listening | preMaster | master | passive
  | uncalibrated | slave
deriving DecidableEq, Repr

/-- `bmcStateDecision` (`bmc.c:619-719`).  `junk` is the port number that
`copyD0` leaves uninitialised (`bmc.c:468-492`). -/
def stateDecision (l : Local) (slaveOnly : Bool) (parent : Nat) (ps : PState) (num : Nat)
    (junk : Nat) (best : Ann) : PState :=
  if slaveOnly then .slave
  else if num = 0 ∧ ps = .listening then .listening
  else
    let d0 : Ann := { src := ⟨l.clockId, junk⟩, utcValid := l.utcValid, gmId := l.clockId,
                      prio1 := l.prio1, cls := l.cls, acc := l.acc, var := l.var,
                      prio2 := l.prio2, steps := 0, offset := none }
    let c := compare l.preferUtcValid parent d0 best
    if l.cls < 128 then
      if c < 0 then .master else if 0 < c then .passive else .faulty
    else
      if c < 0 then .master else if 0 < c then .slave else .faulty

/-- Clock readings and garbage that one call of `bmc` meets. -/
structure BmcEnv where
  thr1 : Int
  thr2 : Int
  junk : Nat
deriving DecidableEq, Repr

/-- `bmc` (`bmc.c:802-908`): the new table, the recommended state and the record
passed to the state decision.  `none`: access outside the array. -/
def bmc (l : Local) (slaveOnly masterOnly : Bool) (parent : Nat) (ps : PState) (e : BmcEnv)
    (s : Ds Ann) : Option (Ds Ann × PState × Option (Rec Ann)) :=
  if s.num = 0 ∨ masterOnly then some (s, ps, none)
  else
    match elect l parent e.thr1 s.live with
    | (some b, _) =>
      let s' := deleteUnselected l e.thr2 { s with best := b }
      match s'.recs[s'.best]? with
      | none => none
      | some r => some (s', stateDecision l slaveOnly parent ps s'.num e.junk r.data, some r)
    | (none, d) => some (s, if d && ps = .slave then .listening else ps, none)

/-! ### Port state machine -/

/-- The part of the port that the state machine reads and writes. -/
structure Port where
  ps : PState
  cfgSlaveOnly : Bool
  masterOnly : Bool
  slaveOnly : Bool
  missingIfTol : Bool
  isClockNode : Bool
  recordUpdate : Bool
  loc : Local
  parent : PortId
  foreign : Ds Ann
deriving DecidableEq, Repr

/-- `toState` (`protocol.c:211-456`): `PRE_MASTER` is not a valid target. -/
def toState (st : PState) (p : Port) : Port :=
  if st = .preMaster then p else { p with ps := st }

/-- `handleSendFailure` (`protocol.c:468-480`). -/
def sendFailure (p : Port) : Port :=
  if p.missingIfTol then toState .listening p else toState .faulty p

/-- `m1` (`bmc.c`, called at 552, 666, 691 and `protocol.c:666`): the parent
becomes the local clock. -/
def m1 (p : Port) : Port := { p with parent := ⟨p.loc.clockId, 0⟩ }

/-- Results of the steps of `doInitPort`. -/
inductive InitResult where
  | netFail | noClock | setTimeFail | servoFail | ok
deriving DecidableEq, Repr

/-- `doInitPort` (`protocol.c:489-562`); `initData` (`bmc.c:110-200`) copies the
configured slave-only setting and resets the foreign master table. -/
def initPort (r : InitResult) (p : Port) : Port :=
  match r with
  | .netFail => p
  | .noClock => toState .faulty p
  | _ =>
    let p := { p with slaveOnly := p.cfgSlaveOnly, foreign := p.foreign.reset }
    match r with
    | .setTimeFail => p
    | .servoFail => toState .faulty p
    | _ => toState (if p.isClockNode then .listening else .disabled) (m1 p)

/-- Inputs of one timer tick: which timers expired, which sends failed and the
clock readings. -/
structure TickEnv where
  init : InitResult
  bmcEnv : BmcEnv
  faultRestart : Bool
  announceReceipt : Bool
  foreignTimer : Bool
  expiryThr : Int
  delayReqFail : Bool
  syncFail : Bool
  announceFail : Bool
  pdelayFail : Bool
deriving DecidableEq, Repr

/-- The parent data set updates of `bmcStateDecision`: `m1` (`bmc.c:666,691`), `p1`
(669) and `s1` (634, 693). -/
def updateParent (st : PState) (best : Option (Rec Ann)) (p : Port) : Port :=
  match best with
  | some r =>
    if st = .master then m1 p
    else if st = .slave ∨ st = .passive then { p with parent := r.data.src } else p
  | none => p

/-- Lines 590-615 of `doTimerTick`: the state decision event. -/
def tickBmc (e : TickEnv) (p : Port) : Option Port :=
  if p.ps = .listening ∨ p.ps = .passive ∨ p.ps = .slave ∨ p.ps = .master then
    if p.recordUpdate then
      match bmc p.loc p.slaveOnly p.masterOnly p.parent.clock p.ps e.bmcEnv p.foreign with
      | none => none
      | some (f, st, best) =>
        let p1 := { p with recordUpdate := false, foreign := f }
        let p2 := updateParent st best p1
        some (if st ≠ p.ps then toState st p2 else p2)
    else some p
  else some p

/-- Lines 634-852 of `doTimerTick`: the timers of each state. -/
def tickTimers (e : TickEnv) (p : Port) : Option Port :=
  match p.ps with
  | .faulty => some (if e.faultRestart then toState .initializing p else p)
  | .listening | .uncalibrated | .slave | .passive =>
    let p :=
      if e.announceReceipt then
        if !p.slaveOnly && p.loc.cls ≠ 255 then toState .master (m1 p) else toState .listening p
      else p
    let f := if e.foreignTimer then p.foreign.expire e.expiryThr else some p.foreign
    match f with
    | none => none
    | some f =>
      let p := { p with foreign := f }
      some (if e.delayReqFail then sendFailure p else p)
  | .master =>
    let p := if e.syncFail then sendFailure p else p
    let p := if e.announceFail then sendFailure p else p
    let p := if e.pdelayFail then sendFailure p else p
    some (if p.slaveOnly || p.loc.cls = 255 then toState .listening p else p)
  | _ => some p

/-- `ptpd_timer_tick` (`ptpd_lib.c:420-445`). -/
def tick (e : TickEnv) (p : Port) : Option Port :=
  if p.ps = .initializing then some (initPort e.init p)
  else
    match tickBmc e p with
    | none => none
    | some p' => tickTimers e p'

/-- `handleAnnounce` (`protocol.c:1746-1857`) after the length and UTC checks. -/
def onAnnounce (pid : PortId) (a : Ann) (now : Int) (p : Port) : Option Port :=
  match p.ps with
  | .initializing | .faulty | .disabled | .preMaster => some p
  | _ =>
    match p.foreign.insert pid a now with
    | none => none
    | some (f, _) => some { p with foreign := f, recordUpdate := true }

/-- Everything that can happen to a port. -/
inductive Ev where
  /-- timer tick -/
  | tick (e : TickEnv)
  /-- announce received from `pid` -/
  | announce (pid : PortId) (a : Ann) (now : Int)
  /-- a send outside the tick failed (`handleDelayReq`, `issueDelayResp`, ...) -/
  | sendFail
  /-- socket or interface failure: `toStateAllPorts(PTPD_FAULTY)` (`protocol.c:1681,1735`, `ptpd_lib.c:659`) -/
  | fault
  /-- management INITIALIZE command (`management.c:366`) -/
  | mgmtInit
  /-- management ENABLE_PORT (`management.c:861`) -/
  | mgmtEnable
  /-- management DISABLE_PORT (`management.c:886`) -/
  | mgmtDisable
  /-- management SLAVE_ONLY SET (`management.c:274`) -/
  | mgmtSlaveOnly (b : Bool)
  /-- any other change of the local data set (management priorities, clock class
  control `ptpd_lib.c:1070`, time properties) -/
  | setLocal (l : Local)
deriving DecidableEq, Repr

/-- One event. -/
def step (p : Port) : Ev → Option Port
  | .tick e => tick e p
  | .announce pid a now => onAnnounce pid a now p
  | .sendFail => some (sendFailure p)
  | .fault => some (toState .faulty p)
  | .mgmtInit => some { p with ps := .initializing }
  | .mgmtEnable => some (if p.ps = .disabled then { p with ps := .initializing } else p)
  | .mgmtDisable => some { p with ps := .disabled }
  | .mgmtSlaveOnly b => some { p with slaveOnly := b, recordUpdate := true }
  | .setLocal l => some { p with loc := l, recordUpdate := true }

/-- A history of events; `none` once an access outside the table happened. -/
def run (p : Port) : List Ev → Option Port
  | [] => some p
  | e :: es => match step p e with
    | none => none
    | some p' => run p' es

end Verif.Bmc
