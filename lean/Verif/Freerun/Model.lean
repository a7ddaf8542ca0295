import Mathlib.Order.WithBot
import Mathlib.Algebra.Order.Ring.Rat

/-!
# The freerun sync module

`src/freerun/sfptpd_freerun_module.c`: finding the clock below a configured
interface, starting the instances, handling messages, creating the module.

Simplified: a name is a number; a clock and an interface object are numbers; a
`long double` is a rational or infinite; what `sfptpd_interface.c` and
`sfptpd_clock.c` answer is a parameter (`Env`); log messages are left out. A loop
that need not end takes a number of rounds, and `none` says that it has not ended
within them.
-/

namespace Verif.Freerun

/-- `struct sfptpd_link` (`src/include/sfptpd_link.h:72-103`), reduced: `vlan` is
`type == SFPTPD_LINK_VLAN`, `lower` is `if_link`, `master` is `bond.if_master`. -/
structure Link where
  index : Int
  name : Nat
  vlan : Bool := false
  lower : Int := 0
  master : Int := 0
deriving DecidableEq, Repr

/-- What `sfptpd_clock_get_accuracy` tells (`src/sfptpd_clock.c`). -/
structure Grade where
  holdover : WithTop ℚ
  accuracy : WithTop ℚ
  stratum : Nat
deriving DecidableEq

/-- The link table of the module and what interfaces and clocks are like:
`sfptpd_interface_find_by_if_index`, `sfptpd_interface_get_clock` (`none` is NULL),
`sfptpd_clock_get_accuracy`, the system clock and the result of
`sfptpd_clock_set_time` for each clock. -/
structure Env where
  rows : List Link
  intf : Int → Option Nat
  clock : Nat → Option Nat
  grade : Nat → Grade
  sys : Nat
  setRc : Nat → Int

/-- `sfptpd_link_by_if_index` (`src/sfptpd_link.c:128-147`): the last match. -/
def byIndex (rows : List Link) (i : Int) : Option Link :=
  rows.foldl (fun a l => if l.index = i then some l else a) none

/-- `sfptpd_link_by_name` (`src/sfptpd_link.c:106-125`): the last match. -/
def byName (rows : List Link) (n : Nat) : Option Link :=
  rows.foldl (fun a l => if l.name = n then some l else a) none

/-- `struct phy_search_result` (`sfptpd_freerun_module.c:293-300`); the interface
object is left out, nothing reads it. -/
structure Found where
  link : Option Link := none
  clock : Option Nat := none
  grade : Grade := ⟨⊤, ⊤, 5⟩
deriving DecidableEq

/-- The loop that resolves VLANs, in `freerun_find_physical_link`
(`sfptpd_freerun_module.c:316-327`). A missing inner link leaves the candidate as it is. -/
def resolve (e : Env) : Nat → Link → Option Link
  | 0, _ => none
  | n + 1, l =>
    if l.vlan then
      match byIndex e.rows l.lower with
      | none => resolve e n l
      | some o => resolve e n o
    else some l

/-- The hardware clock of a link, in `freerun_find_physical_link`
(`sfptpd_freerun_module.c:329-345`). -/
def hwClock (e : Env) (l : Link) : Option Nat :=
  match e.intf l.index with
  | none => none
  | some i =>
    match e.clock i with
    | none => none
    | some c => if c ≠ e.sys then some c else none

/-- Whether a candidate replaces the best so far, in `freerun_find_physical_link`
(`sfptpd_freerun_module.c:357-372`). -/
def pick (best cand : Found) : Found :=
  if cand.link.isSome then
    if cand.grade.holdover < best.grade.holdover ∨
       (cand.grade.holdover = best.grade.holdover ∧ cand.grade.accuracy < best.grade.accuracy) ∨
       (cand.grade.holdover = best.grade.holdover ∧ cand.grade.accuracy = best.grade.accuracy ∧
        cand.grade.stratum < best.grade.stratum) ∨
       (cand.clock.isSome ∧ best.clock = none)
    then cand else best
  else best

/-- `freerun_find_physical_link` (`sfptpd_freerun_module.c:302-380`), called with a link. -/
def find (e : Env) : Nat → Link → Option Found
  | 0, _ => none
  | n + 1, l =>
    match resolve e (n + 1) l with
    | none => none
    | some p =>
      match hwClock e p with
      | some c => some { link := some p, clock := some c, grade := e.grade c }
      | none =>
        e.rows.foldlM
          (fun best o => if o.master = p.index then (find e n o).map (pick best) else some best) {}

/-- `interface_name` of `struct sfptpd_freerun_module_config`. -/
inductive IfName where
  | empty | system | named (n : Nat)
deriving DecidableEq, Repr

/-- `struct freerun_instance` (`sfptpd_freerun_module.c:53-68`) with the parts of its
configuration that are used. -/
structure Inst where
  iface : IfName
  prio : Nat := 128
  clkClass : Nat := 2
  timeTrace : Bool := false
  freqTrace : Bool := false
  flags : BitVec 32 := 0
  clock : Option Nat := none
deriving DecidableEq, Repr

/-- Error numbers. -/
def EINVAL : Int := 22
/-- Error numbers. -/
def ENODEV : Int := 19
/-- Error numbers. -/
def EBUSY : Int := 16
/-- Error numbers. -/
def ENOMEM : Int := 12

/-- `SYNC_MODULE_CTRL_FLAGS_DEFAULT` (`src/include/sfptpd_sync_module.h:69`). -/
def flagsDefault : BitVec 32 := 2

/-- The candidate for the clock of an instance, first part of `freerun_select_clock`
(`sfptpd_freerun_module.c:398-412`). The outer `none` is a search that has not
ended, an error is the one returned. -/
def candidate (e : Env) (n : Nat) : IfName → Option (Except Int (Option Nat))
  | .system => some (.ok (some e.sys))
  | .empty => some (.error EINVAL)
  | .named x =>
    match byName e.rows x with
    | none => some (.ok none)
    | some l => (find e n l).map fun f => .ok f.clock

/-- `freerun_find_instance_by_clock` (`sfptpd_freerun_module.c:206-216`), whether there is one. -/
def inUse (is : List Inst) (c : Nat) : Bool := is.any fun i => i.clock == some c

/-- `freerun_select_clock` (`sfptpd_freerun_module.c:383-455`) for the instance `i`
between `pre` and `post`. The result is the code, the instance and the clocks set
from the system clock. -/
def selectClock (e : Env) (n : Nat) (pre : List Inst) (i : Inst) (post : List Inst) :
    Option (Int × Inst × List Nat) :=
  match candidate e n i.iface with
  | none => none
  | some (.error rc) => some (rc, i, [])
  | some (.ok none) => some (ENODEV, i, [])
  | some (.ok (some c)) =>
    if inUse (pre ++ i :: post) c then some (EBUSY, i, [])
    else some (e.setRc c, { i with flags := flagsDefault, clock := some c }, [c])

/-- `freerun_on_startup` (`sfptpd_freerun_module.c:597-614`); `pre` are the instances
that have been dealt with. -/
def startup (e : Env) (n : Nat) : List Inst → List Inst → Option (Int × List Inst × List Nat)
  | pre, [] => some (0, pre, [])
  | pre, i :: post =>
    match selectClock e n pre i post with
    | none => none
    | some (rc, i, set) =>
      if rc ≠ 0 then some (rc, pre ++ i :: post, set)
      else
        match startup e n (pre ++ [i]) post with
        | none => none
        | some (rc, is, set') => some (rc, is, set ++ set')

/-- The messages a sync module is sent (`src/include/sfptpd_sync_module.h`); the handle
of an instance is its position or NULL. -/
inductive Msg where
  | run
  | getStatus (h : Option Nat)
  | control (h : Option Nat) (flags mask : BitVec 32)
  | updateGm
  | leap
  | step (h : Option Nat) (off : Int)
  | logStats
  | saveState
  | topology (h : Option Nat)
  | endPeriod
  | testMode
  | other (id : Nat)
deriving DecidableEq, Repr

/-- `struct sfptpd_sync_instance_status` as filled in by `freerun_on_get_status`. -/
structure Status where
  state : Nat
  alarms : Nat
  clock : Option Nat
  offset : Int
  prio : Nat
  remote : Bool
  clkClass : Nat
  source : Nat
  steps : Nat
  timeTrace : Bool
  freqTrace : Bool
deriving DecidableEq, Repr

/-- What happens to a message: it is replied to, or freed. -/
inductive Disposal where
  | reply | free
deriving DecidableEq, Repr

/-- What handling a message does: where the message goes, the status returned, the
clocks stepped, the instances whose state or topology is written. -/
structure Did where
  disposal : Disposal
  status : Option Status := none
  stepped : List (Nat × Int) := []
  saved : List Nat := []
  drawn : List Nat := []
deriving DecidableEq, Repr

/-- The instance of a handle, with the assertions that it is in the list
(`freerun_is_instance_in_list`, `sfptpd_freerun_module.c:218-230`). -/
def lookup (is : List Inst) : Option Nat → Option (Nat × Inst)
  | none => none
  | some k => (is[k]?).map fun i => (k, i)

/-- `freerun_on_get_status` (`sfptpd_freerun_module.c:458-490`):
`SYNC_MODULE_STATE_SLAVE` is 1, `SFPTPD_TIME_SOURCE_INTERNAL_OSCILLATOR` is 0xA0. -/
def statusOf (i : Inst) : Status :=
  { state := 1, alarms := 0, clock := i.clock, offset := 0, prio := i.prio, remote := false,
    clkClass := i.clkClass, source := 0xA0, steps := 0, timeTrace := i.timeTrace,
    freqTrace := i.freqTrace }

/-- `freerun_on_save_state` (`sfptpd_freerun_module.c:533-563`), the clocks whose state
is written; `none` is the assertion that there is one. -/
def saveAll : List Inst → Option (List Nat)
  | [] => some []
  | i :: is =>
    match i.clock, saveAll is with
    | some c, some cs => some (c :: cs)
    | _, _ => none

/-- `freerun_on_message` (`sfptpd_freerun_module.c:630-694`) with the functions it
calls: `freerun_on_get_status`, `freerun_on_control`
(`sfptpd_freerun_module.c:493-510`), `freerun_on_step_clock`
(`sfptpd_freerun_module.c:513-530`), `freerun_on_save_state` and
`freerun_on_write_topology` (`sfptpd_freerun_module.c:566-594`). `none` is an
assertion that fails. -/
def onMessage (is : List Inst) : Msg → Option (List Inst × Did)
  | .run | .updateGm | .leap | .endPeriod | .testMode | .other _ => some (is, { disposal := .free })
  | .logStats => some (is, { disposal := .reply })
  | .getStatus h => (lookup is h).map fun (_, i) => (is, { disposal := .reply, status := some (statusOf i) })
  | .control h f m => (lookup is h).map fun (k, i) =>
      (is.set k { i with flags := (i.flags &&& ~~~ m) ||| (f &&& m) }, { disposal := .reply })
  | .step h off =>
    match lookup is h with
    | none => none
    | some (_, i) =>
      match i.clock with
      | none => none
      | some c => some (is, { disposal := .reply, stepped := [(c, off)] })
  | .saveState => (saveAll is).map fun cs => (is, { disposal := .free, saved := cs })
  | .topology h =>
    match lookup is h with
    | none => none
    | some (_, i) =>
      match i.clock with
      | none => none
      | some c => if i.flags &&& 1 ≠ 0 then some (is, { disposal := .reply, drawn := [c] }) else none

/-- A run of the module: the messages in the order they arrive. -/
def runMsgs : List Inst → List Msg → Option (List Inst × List Did)
  | is, [] => some (is, [])
  | is, m :: ms =>
    match onMessage is m with
    | none => none
    | some (is, d) => (runMsgs is ms).map fun (is, ds) => (is, d :: ds)

/-- The blocks of memory the module holds. -/
structure Mem where
  module : Nat := 0
  table : Nat := 0
  insts : Nat := 0
deriving DecidableEq, Repr

/-- An entry of the buffer `struct sfptpd_sync_instance_info`; `none` is zeroed. -/
abbrev Info := Option (Nat × Nat)

/-- `freerun_create_instances` (`sfptpd_freerun_module.c:246-290`): one allocation for
each configured instance, in order; when one fails those made are freed. -/
def createInstances : List Bool → Nat → Except Int Nat
  | [], k => .ok k
  | true :: os, k => createInstances os (k + 1)
  | false :: _, _ => .error ENOMEM

/-- The loop that fills the buffer, in `sfptpd_freerun_module_create`
(`sfptpd_freerun_module.c:849-863`); `k` counts instances. -/
def fill (num : Nat) : Nat → Nat → List Info
  | _, 0 => []
  | k, n + 1 => (if k < num then some (k, k) else none) :: fill num (k + 1) n

/-- `sfptpd_freerun_module_create` (`sfptpd_freerun_module.c:803-872`): whether memory is
available for the module, the copy of the table and each instance, and the result of
creating the thread, which runs `freerun_on_startup`. An instance is its number. -/
def create (modOk tblOk : Bool) (instOk : List Bool) (thread : Int) (entries : Option Nat) :
    Int × Mem × Option (List Info) :=
  if !modOk then (ENOMEM, {}, none)
  else if !tblOk then (ENOMEM, {}, none)
  else
    match createInstances instOk 0 with
    | .error rc => (rc, {}, none)
    | .ok k =>
      if thread ≠ 0 then (thread, { module := 0, table := 0, insts := k }, none)
      else (0, { module := 1, table := 1, insts := k }, entries.map (fill k 0))

/-- `freerun_on_shutdown` (`sfptpd_freerun_module.c:617-627`) with
`freerun_destroy_instances` (`sfptpd_freerun_module.c:232-244`). -/
def shutdown (m : Mem) : Mem := { module := m.module - 1, table := m.table - 1, insts := 0 }

/-- The words of the options. -/
inductive Word where
  | time | freq | locked | holdover | freerunning | unknownWord
deriving DecidableEq, Repr

/-- `parse_clock_traceability` (`sfptpd_freerun_module.c:140-161`). -/
def parseTrace (i : Inst) (ws : List Word) : Int × Inst :=
  ws.foldl (fun (rc, i) w =>
    match w with
    | .time => (rc, { i with timeTrace := true })
    | .freq => (rc, { i with freqTrace := true })
    | _ => (EINVAL, i)) (0, { i with timeTrace := false, freqTrace := false })

/-- `parse_clock_class` (`sfptpd_freerun_module.c:100-118`); `SFPTPD_CLOCK_CLASS_LOCKED`,
`HOLDOVER` and `FREERUNNING` are 0, 1, 2. -/
def parseClass (i : Inst) : Word → Int × Inst
  | .locked => (0, { i with clkClass := 0 })
  | .holdover => (0, { i with clkClass := 1 })
  | .freerunning => (0, { i with clkClass := 2 })
  | _ => (EINVAL, i)

end Verif.Freerun
