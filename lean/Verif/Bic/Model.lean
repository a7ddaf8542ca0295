/-!
# Model of the best instance clock election

Models all of `src/sfptpd_bic.c` (lines 52-430).

Simplifications: floating point values are rationals extended with `+inf` and
`NaN`; `NaN` is kept because the daemon itself puts `NAN` into the Allan
variance of every source that is not a remote PTP clock
(`src/ntp/sfptpd_ntp_module.c:588`, `src/pps/sfptpd_pps_module.c:1773`,
`src/ptp/sfptpd_ptp_module.c:503`, ...).  Tracing and the text of the log are
left out.  `qsort_r` is a parameter.
-/

namespace Verif.Bic

/-- Floating point value: a number, positive infinity or `NaN`. -/
inductive F where
  | fin (q : Rat)
  | inf
  | nan
deriving DecidableEq, Repr

/-- C `<` on floating point values: false as soon as one side is `NaN`. -/
def F.lt : F → F → Bool
  | .fin a, .fin b => decide (a < b)
  | .fin _, .inf => true
  | _, _ => false

/-- C `+`. -/
def F.add : F → F → F
  | .nan, _ => .nan
  | _, .nan => .nan
  | .inf, _ => .inf
  | _, .inf => .inf
  | .fin a, .fin b => .fin (a + b)

/-- `enum sync_module_state` values used by the priorities. -/
inductive SyncState where
  | listening | slave | master | passive | disabled | faulty | selection
deriving DecidableEq, Repr

/-- `enum sfptpd_selection_rule` (`src/include/sfptpd_bic.h:24-44`). -/
inductive Rule where
  | tieBreak | manual | extConstraints | state | noAlarms | userPriority | clustering
  | clockClass | totalAccuracy | allanVariance | stepsRemoved
deriving DecidableEq, Repr

/-- The part of `struct sync_instance_record` that the election reads.  The
address of the record stands for its identity. -/
structure Inst where
  addr : Nat
  selected : Bool
  mustBe : Bool
  cannotBe : Bool
  state : SyncState
  alarms : Nat
  userPriority : Nat
  clusteringScore : Int
  clockClass : Nat
  masterAccuracy : F
  localAccuracy : F
  allanVariance : F
  stepsRemoved : Nat
deriving DecidableEq, Repr

/-- `sfptpd_state_priorities` (lines 87-95). -/
def statePriority : SyncState → Int
  | .listening => 1
  | .slave => 0
  | .master => 2
  | .passive => 2
  | .disabled => 3
  | .faulty => 3
  | .selection => 1

/-- `ext_constraint_priority` (lines 120-128). -/
def extConstraintPriority (i : Inst) : Int :=
  if i.mustBe then -1 else if i.cannotBe then 1 else 0

/-- Outcome of one rule: which of the two arguments it chooses, if any. -/
inductive Choice where
  | a | b | undecided
deriving DecidableEq, Repr

/-- One pass of the `switch` (lines 179-316). -/
def applyRule (r : Rule) (x y : Inst) : Choice :=
  match r with
  | .manual =>
    if x.selected then .a else if y.selected then .b else .undecided
  | .extConstraints =>
    let d := extConstraintPriority x - extConstraintPriority y
    if d < 0 then .a else if d > 0 then .b else .undecided
  | .state =>
    if statePriority x.state < statePriority y.state then .a
    else if statePriority x.state > statePriority y.state then .b
    else .undecided
  | .noAlarms =>
    if x.alarms = 0 ∧ y.alarms ≠ 0 then .a
    else if x.alarms ≠ 0 ∧ y.alarms = 0 then .b
    else .undecided
  | .userPriority =>
    if x.userPriority < y.userPriority then .a
    else if x.userPriority > y.userPriority then .b
    else .undecided
  | .clustering =>
    if x.clusteringScore > y.clusteringScore then .a
    else if x.clusteringScore < y.clusteringScore then .b
    else .undecided
  | .clockClass =>
    if x.clockClass < y.clockClass then .a
    else if x.clockClass > y.clockClass then .b
    else .undecided
  | .totalAccuracy =>
    let ta := x.masterAccuracy.add x.localAccuracy
    let tb := y.masterAccuracy.add y.localAccuracy
    if ta.lt tb then .a else if tb.lt ta then .b else .undecided
  | .allanVariance =>
    if x.allanVariance.lt y.allanVariance then .a
    else if y.allanVariance.lt x.allanVariance then .b
    else .undecided
  | .stepsRemoved =>
    if x.stepsRemoved < y.stepsRemoved then .a
    else if x.stepsRemoved > y.stepsRemoved then .b
    else .undecided
  | .tieBreak => if x.addr < y.addr then .a else .b

/-- `sfptpd_bic_select` (lines 141-337): the chosen record and the decisive
rule index; `none` if the rule array ends without a decision (reading past
the array in C). -/
def select (x y : Inst) : List Rule → Nat → Option (Inst × Nat)
  | [], _ => none
  | r :: rs, idx =>
    match applyRule r x y with
    | .a => some (x, idx)
    | .b => some (y, idx)
    | .undecided => select x y rs (idx + 1)

/-- `ordered_instance_compar` (lines 340-350); pointers are compared, i.e.
addresses. -/
def compar (rules : List Rule) (x y : Inst) : Option Int :=
  (select x y rules 0).map fun c => if c.1.addr = x.addr then -1 else 1

/-- `sfptpd_bic_choose` (lines 357-416) with the sorting function a parameter:
the chosen record and the ranks written into the records. -/
def choose (sort : List Inst → List Inst) (l : List Inst) : Option Inst × List (Nat × Nat) :=
  match l with
  | [] => (none, [])
  | [x] => (some x, [])
  | l =>
    let s := sort l
    (s.head?, s.zipIdx.map fun p => (p.1.addr, p.2 + 1))

/-- `sfptpd_bic_select_instance` (lines 418-429). -/
def selectInstance (l : List Inst) (sel : Option Nat) : List Inst :=
  l.map fun i => { i with selected := decide (sel = some i.addr) }

/-- `sfptpd_default_selection_policy` (lines 52-69). -/
def defaultRules : List Rule :=
  [.manual, .extConstraints, .state, .noAlarms, .userPriority, .clustering, .clockClass,
   .totalAccuracy, .allanVariance, .stepsRemoved, .tieBreak]

end Verif.Bic
