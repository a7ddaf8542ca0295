/-!
# Model of the selection of sync instances by the engine

Models the part of `src/sfptpd_engine.c` that decides which sync instance
steers the clocks: `reconfigure_servos` (lines 423-460), the holdoff part of
`create_timers` (lines 592-608), `propagate_grandmaster_info` (lines 813-842),
`select_sync_instance` (lines 850-939), the clock part of
`engine_handle_new_link_table` (lines 1541-1574),
`on_selection_holdoff_timer` (lines 1826-1835), `on_step_clocks` (lines
1855-1920), `on_sync_instance_state_changed` (lines 1923-2053),
`on_select_instance` (lines 2056-2078), the selection part of
`engine_on_startup` (lines 2424-2521) and
`sfptpd_engine_calculate_clustering_score` (lines 2853-2924), together with
`sfptpd_sync_module_gm_info_equal` (`src/sfptpd_sync_module.c:269-283`).

Simplifications: an instance is its index in `sync_instances`; a clock is a
number; times are numbers of one unit, the holdoff interval among them; the
election is a parameter `choose` from the records to an index (the election
itself is the area `Bic`; it does not depend on the previous candidate, which
it only uses for logging); whether a call of `sfptpd_sync_module_control`
succeeds is an input.  A failing call leaves the instance as it was.  Starting
and stopping the holdoff timer succeeds.  Logging and the files written are
left out.  `none` is a failed assertion.
-/

namespace Verif.Engine

/-- `struct sfptpd_grandmaster_info` (`src/include/sfptpd_sync_module.h:186`).
`acc` and `allan` are `none` for `NaN`. -/
structure Gm where
  id : Nat
  remote : Bool
  cls : Nat
  src : Nat
  acc : Option Int
  allan : Option Int
  steps : Nat
  timeTr : Bool
  freqTr : Bool
deriving DecidableEq, Repr

/-- C `==` on floating point values. -/
def feq : Option Int → Option Int → Bool
  | some a, some b => a == b
  | _, _ => false

/-- `sfptpd_sync_module_gm_info_equal`
(`src/sfptpd_sync_module.c:269-283`). -/
def gmEqual (a b : Gm) : Bool :=
  a.id == b.id && a.cls == b.cls && a.src == b.src && feq a.acc b.acc &&
    (feq a.allan b.allan || (a.allan.isNone && b.allan.isNone)) && a.steps == b.steps

/-- The part of `sfptpd_sync_instance_status_t` that the engine reads; `data`
is what only the election reads. -/
structure Status (δ : Type) where
  clock : Nat
  gm : Gm
  data : δ

/-- `struct sync_instance_record`; `manual` is its field `selected`. -/
structure Rec (δ : Type) where
  status : Status δ
  manual : Bool

/-- A clock known to the daemon and whether it is to be disciplined. -/
structure Clk where
  id : Nat
  disc : Bool
deriving DecidableEq, Repr

inductive Strategy where
  | automatic | manual | manualStartup
deriving DecidableEq, Repr

/-- The part of `sfptpd_config_general_t` that is read. -/
structure Cfg where
  holdoff : Nat
  strategy : Strategy

/-- The part of `struct sfptpd_engine` that is read or written, together with
what the instances have been told: `ctl i` that instance `i` is selected and
may steer its clock, `told` the grandmaster information last given to all
modules.  `timer` is the expiry time of the holdoff timer. -/
structure Eng (δ : Type) where
  recs : List (Rec δ)
  ctl : Nat → Bool
  sel : Option Nat
  cand : Option Nat
  timer : Option Nat
  lrc : Option Nat
  told : Option Gm
  active : List Clk
  servos : List (Nat × Nat)
  total : Nat

variable {δ : Type}

/-- The loop of `reconfigure_servos` (lines 444-454): the pairs given to
`sfptpd_servo_set_clocks`, from servo `idx` on. -/
def setServos (total lrc : Nat) : Nat → List Clk → Option (List (Nat × Nat))
  | _, [] => some []
  | idx, k :: r =>
    if k.disc = true ∧ k.id ≠ lrc then
      if idx < total then
        match setServos total lrc (idx + 1) r with
        | some l => some ((lrc, k.id) :: l)
        | none => none
      else none
    else setServos total lrc idx r

/-- `reconfigure_servos` (lines 423-460). -/
def reconfigure (s : Eng δ) (clock : Nat) : Option (Eng δ) :=
  match setServos s.total clock 0 s.active with
  | some l => some { s with lrc := some clock, servos := l }
  | none => none

/-- Outcome of the calls to `sfptpd_sync_module_control` for the old and the
new instance. -/
structure Rcs where
  desel : Bool
  sel : Bool

/-- Tell an instance that it is selected or not. -/
def setCtl (s : Eng δ) (i : Nat) (b : Bool) : Eng δ :=
  { s with ctl := fun j => if j = i then b else s.ctl j }

/-- `select_sync_instance` once the old instance has been told (lines
896-917); `lrcChange` was computed before. -/
def selectNew (s : Eng δ) (new : Nat) (r : Rec δ) (lrcChange : Bool) (ok : Bool) :
    Option (Eng δ × Bool) :=
  if ok then
    let s1 := { setCtl { s with sel := some new } new true with told := some r.status.gm }
    if lrcChange then
      match reconfigure s1 r.status.clock with
      | some s2 => some (s2, true)
      | none => none
    else some (s1, true)
  else some ({ s with sel := some new }, false)

/-- `select_sync_instance` (lines 850-939).  The flag is whether it returned
zero. -/
def select (s : Eng δ) (new : Nat) (rcs : Rcs) : Option (Eng δ × Bool) :=
  match s.recs[new]? with
  | none => none
  | some r =>
    if s.sel = some new then some (s, true)
    else
      let lrcChange := decide (s.lrc ≠ some r.status.clock)
      match s.sel with
      | none => selectNew s new r lrcChange rcs.sel
      | some old =>
        if rcs.desel then selectNew (setCtl s old false) new r lrcChange rcs.sel
        else some (s, false)

/-- The part of `on_sync_instance_state_changed` for the selected instance
(lines 1944-1968). -/
def refresh (s : Eng δ) (old new : Status δ) : Option (Eng δ) :=
  let s1 := if gmEqual old.gm new.gm then s else { s with told := some new.gm }
  if s1.lrc ≠ some new.clock then reconfigure s1 new.clock else some s1

/-- `on_sync_instance_state_changed` after the records have been updated
(lines 1993-2053). -/
def evaluate (c : Cfg) (choose : List (Rec δ) → Nat) (now : Nat) (s : Eng δ) (rcs : Rcs) :
    Option (Eng δ) :=
  let new := choose s.recs
  if s.sel = some new ∧ s.cand = none then some s
  else if s.cand = some new then some s
  else if c.holdoff = 0 then
    match select s new rcs with
    | some (s', _) => some s'
    | none => none
  else if s.cand = none ∨ s.sel = some new then
    some { s with timer := some (now + c.holdoff), cand := some new }
  else some { s with cand := some new }

/-- `on_sync_instance_state_changed` (lines 1923-2053). -/
def stateChanged (c : Cfg) (choose : List (Rec δ) → Nat) (now : Nat) (s : Eng δ) (i : Nat)
    (st : Status δ) (rcs : Rcs) : Option (Eng δ) :=
  match s.recs[i]? with
  | none => none
  | some r =>
    match (if s.sel = some i then refresh s r.status st else some s) with
    | none => none
    | some s1 => evaluate c choose now { s1 with recs := s1.recs.set i { r with status := st } } rcs

/-- `on_selection_holdoff_timer` (lines 1826-1835). -/
def holdoffExpired (s : Eng δ) (rcs : Rcs) : Option (Eng δ) :=
  match s.cand with
  | none => some s
  | some k =>
    match select s k rcs with
    | some (s', _) => some { s' with cand := none }
    | none => none

/-- `sfptpd_bic_select_instance` (`src/sfptpd_bic.c:418-429`). -/
def markManual (l : List (Rec δ)) (i : Nat) : List (Rec δ) :=
  l.zipIdx.map fun p => { p.1 with manual := p.2 == i }

/-- `on_select_instance` (lines 2056-2078); `name` is the result of looking the
name up. -/
def selectInstance (c : Cfg) (s : Eng δ) (name : Option Nat) (rcs : Rcs) : Option (Eng δ) :=
  if c.strategy = .manual then
    match name with
    | none => some s
    | some i =>
      match select { s with recs := markManual s.recs i } i rcs with
      | some (s', _) => some s'
      | none => none
  else some s

/-- The end of `engine_handle_new_link_table` (lines 1572-1575): the clocks
have changed and, if an interface was inserted or removed, the servos are
configured again. -/
def hotplug (s : Eng δ) (active : List Clk) (reconf : Bool) : Option (Eng δ) :=
  let s1 := { s with active := active }
  if reconf then
    match s1.sel with
    | none => none
    | some i =>
      match s1.recs[i]? with
      | none => none
      | some r => reconfigure s1 r.status.clock
  else some s1

/-- Events of the engine's thread. -/
inductive Ev (δ : Type) where
  | state (i : Nat) (st : Status δ) (rcs : Rcs)
  | expire (rcs : Rcs)
  | select (name : Option Nat) (rcs : Rcs)
  | hotplug (active : List Clk) (reconf : Bool)

/-- One event at time `now`.  The timer goes off only when due; it is a
one-shot timer. -/
def step (c : Cfg) (choose : List (Rec δ) → Nat) (s : Eng δ) (now : Nat) :
    Ev δ → Option (Eng δ)
  | .state i st rcs => stateChanged c choose now s i st rcs
  | .expire rcs =>
    match s.timer with
    | some d => if d ≤ now then holdoffExpired { s with timer := none } rcs else some s
    | none => some s
  | .select name rcs => selectInstance c s name rcs
  | .hotplug active reconf => hotplug s active reconf

/-- A run over timed events. -/
def run (c : Cfg) (choose : List (Rec δ) → Nat) : Eng δ → List (Nat × Ev δ) → Option (Eng δ)
  | s, [] => some s
  | s, (t, e) :: r =>
    match step c choose s t e with
    | some s' => run c choose s' r
    | none => none

/-- What `engine_on_startup` finds: the statuses, `none` for a record without
a handle; the clocks; the number of servos created; the configured initial
instance, `none` if there is none of that name. -/
structure Found (δ : Type) where
  recs : List (Option (Status δ))
  active : List Clk
  total : Nat
  initial : Option Nat

/-- The engine before any selection. -/
def blank (l : List (Rec δ)) (f : Found δ) : Eng δ :=
  { recs := l, ctl := fun _ => false, sel := none, cand := none, timer := none, lrc := none,
    told := none, active := f.active, servos := [], total := f.total }

/-- Result of `engine_on_startup`: the return code and the engine, `none` if it
was shut down. -/
structure Started (δ : Type) where
  rc : Nat
  eng : Option (Eng δ)

/-- `ENOENT`. -/
def enoent : Nat := 2
/-- Some error of the message queue. -/
def eio : Nat := 5

/-- `engine_on_startup` from the gathering of the statuses on (lines
2435-2533).  `rc` is zero when the loop meets a record without a handle (line
2440). -/
def startup (c : Cfg) (choose : List (Rec δ) → Nat) (f : Found δ) (rcs : Rcs) :
    Option (Started δ) :=
  if f.recs = [] then some ⟨enoent, none⟩
  else
    match f.recs.mapM id with
    | none => some ⟨0, none⟩
    | some l =>
      let recs := l.map fun st => ({ status := st, manual := false } : Rec δ)
      let bic := choose recs
      match c.strategy with
      | .automatic =>
        match select (blank recs f) bic rcs with
        | none => none
        | some (s, true) => some ⟨0, some s⟩
        | some (_, false) => some ⟨eio, none⟩
      | strat =>
        match f.initial with
        | none => some ⟨enoent, none⟩
        | some i =>
          let recs' := if strat = .manual then markManual recs i else recs
          match select (blank recs' f) i rcs with
          | none => none
          | some (_, false) => some ⟨eio, none⟩
          | some (s, true) =>
            if bic ≠ i ∧ strat = .manualStartup then some ⟨0, some { s with cand := some bic }⟩
            else some ⟨0, some s⟩

/-- `on_run` and the holdoff part of `create_timers` (lines 592-608). -/
def begin_ (c : Cfg) (now : Nat) (s : Eng δ) : Eng δ :=
  if c.holdoff ≠ 0 ∧ c.strategy = .manualStartup ∧ s.cand ≠ s.sel then
    { s with timer := some (now + c.holdoff) }
  else s

/-! ## Clock feeds after a change of the interfaces -/

/-- The merge of `engine_handle_new_link_table` (lines 1541-1564) over the two
snapshots, clocks being their addresses.  The first list are the clocks taken
out of the feed, the second the clocks put in. -/
def merge : List Nat → List Nat → List Nat × List Nat
  | [], [] => ([], [])
  | a :: as, [] =>
    let p := merge as []
    (a :: p.1, p.2)
  | [], b :: bs =>
    let p := merge [] bs
    (p.1, b :: p.2)
  | a :: as, b :: bs =>
    if a < b then
      let p := merge as (b :: bs)
      (a :: p.1, p.2)
    else if b < a then
      let p := merge (a :: as) bs
      (p.1, b :: p.2)
    else merge as bs
termination_by l r => l.length + r.length

/-! ## The command to step the clocks -/

/-- What the command reads: whether adjusting is forbidden, the selected
instance's offset (`none`: no selected instance or its status could not be
read), the active servos with their offset and the alarm
`CLOCK_NEAR_EPOCH`, and which of the modules NTP and chrony exist. -/
structure StepIn where
  noAdjust : Bool
  offset : Option Int
  servos : List (Nat × Int × Bool)
  ntp : Bool
  crny : Bool

/-- What the command does. -/
inductive StepOut where
  /-- The selected instance steps its clock back by the offset. -/
  | inst (o : Int)
  /-- A servo steps its clock back by the offset. -/
  | servo (clock : Nat) (o : Int)
  /-- An NTP module is told. -/
  | ntp
  | crny
deriving DecidableEq, Repr

/-- The loop over the servos (lines 1891-1908). -/
def stepServos (o : Int) : List (Nat × Int × Bool) → List StepOut
  | [] => []
  | (k, so, near) :: r => if near then stepServos o r else .servo k (so + o) :: stepServos o r

/-- `on_step_clocks` (lines 1855-1920).  Telling a module that does not exist
fails the assertion of `sfptpd_msg_send_wait`
(`src/sfptpd_thread.c:1164`). -/
def stepClocks (i : StepIn) : Option (List StepOut) :=
  if i.noAdjust then some []
  else
    match i.offset with
    | none => some []
    | some o =>
      if i.ntp then
        if i.crny then some (.inst o :: stepServos o i.servos ++ [.ntp, .crny]) else none
      else none

/-! ## The clustering score -/

/-- What `sfptpd_engine_calculate_clustering_score` reads.  `isDisc`: the
instance is the discriminator.  `cmp` is what `sfptpd_clock_compare` leaves in
its result, whatever it returns: zero if one of the clocks cannot be compared
at all, the first clock against the system clock if only the second comparison
failed (`src/sfptpd_clock.c:2053-2120`).  Offsets are in nanoseconds. -/
structure Score where
  enabled : Bool
  isDisc : Bool
  dflt : Int
  discValid : Bool
  discOffset : Int
  instOffset : Int
  cmp : Int
  threshold : Rat

/-- `sfptpd_engine_calculate_clustering_score` (lines 2853-2924). -/
def score (i : Score) : Int :=
  if !i.enabled then 0
  else if i.isDisc then 1
  else if !i.discValid then i.dflt
  else if i.instOffset = 0 then i.dflt
  else
    let diff := i.cmp - i.discOffset + i.instOffset
    if ((diff.natAbs : Nat) : Rat) < i.threshold then 1 else 0

/-- The comparison of two clocks (`src/sfptpd_clock.c:2039-2147`) as left in
the result: `d1`, `d2` are the readings against the system clock, `none` for a
failing comparison, and zero for the system clock itself; `ok` that neither
clock is deleted nor without a PHC. -/
def compareClocks (ok : Bool) (d1 d2 : Option Int) : Int × Bool :=
  if ok then
    match d1 with
    | none => (0, false)
    | some a =>
      match d2 with
      | none => (a, false)
      | some b => (a - b, true)
  else (0, false)

/-- `sfptpd_engine_compare_clustering_guard_threshold` (lines 2930-2937). -/
def guardExceeded (enabled : Bool) (score threshold : Int) : Bool :=
  if enabled then decide (score < threshold) else false

end Verif.Engine
