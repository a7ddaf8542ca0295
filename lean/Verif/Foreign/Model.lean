/-!
# Model of the foreign master data set

Models `src/ptp/ptpd2/foreign.c` lines 73-271 and 485-519 and the record layout
of `src/ptp/ptpd2/datatypes.h:76-108`.

Simplifications: times are integers (nanoseconds of `CLOCK_MONOTONIC`), the
exactness of the timespec comparison is C02's subject.  The communication
capabilities and the sender address are carried in the opaque `data` type
parameter together with the announce message.  The array `records` is a list of
exactly `max` slots, including the slots beyond `num` that hold stale data.
Any access outside the array is the distinct outcome `none`.
-/

namespace Verif.Foreign

/-- `FOREIGN_MASTER_THRESHOLD` (`src/ptp/ptpd2/constants.h`). -/
def threshold : Nat := 2

/-- `PortIdentity`: the eight identity octets as a big-endian number (so that
`memcmp` is numeric comparison) and the port number. -/
structure PortId where
  clock : Nat
  port : Nat
deriving DecidableEq, Repr, Inhabited

/-- `ForeignMasterRecord` (`datatypes.h:76-100`): identity, the payload copied
from the last announce, and the ring of announce times. -/
structure Rec (α : Type) where
  pid : PortId
  data : α
  times : List Int
  tw : Nat
  tc : Nat
deriving DecidableEq, Repr

/-- A `calloc`ed record (`foreign.c:159-160`). -/
def Rec.blank {α : Type} (d : α) : Rec α :=
  { pid := ⟨0, 0⟩, data := d, times := List.replicate threshold 0, tw := 0, tc := 0 }

/-- `recordForeignMasterAnnounce` (`foreign.c:104-113`); `now` is the clock read. -/
def Rec.announce {α : Type} (r : Rec α) (now : Int) : Rec α :=
  { r with
    times := r.times.set r.tw now
    tw := if r.tw + 1 = threshold then 0 else r.tw + 1
    tc := if r.tc < threshold then r.tc + 1 else r.tc }

/-- The ring index `(i < 0) ? i + THRESHOLD : i` of `foreign.c:120-122,138-140`. -/
def ringIdx (i : Int) : Nat := (if i < 0 then i + threshold else i).toNat

/-- `doesForeignMasterLatestAnnounceQualify` (`foreign.c:116-131`). -/
def Rec.latestOk {α : Type} (r : Rec α) (thr : Int) : Bool :=
  if r.tc ≠ 0 then decide (thr ≤ r.times.getD (ringIdx ((r.tw : Int) - 1)) 0) else false

/-- `doesForeignMasterEarliestAnnounceQualify` (`foreign.c:134-149`). -/
def Rec.earliestOk {α : Type} (r : Rec α) (thr : Int) : Bool :=
  if r.tc ≠ 0 then decide (thr ≤ r.times.getD (ringIdx ((r.tw : Int) - r.tc)) 0) else false

/-- `ForeignMasterDS` (`datatypes.h:102-108`); `max_records` is `recs.length`. -/
structure Ds (α : Type) where
  recs : List (Rec α)
  num : Nat
  wr : Nat
  best : Nat
deriving DecidableEq, Repr

/-- `initForeignMasterDS` (`foreign.c:152-168`), allocation assumed to succeed. -/
def Ds.init {α : Type} (d : α) (max : Nat) : Ds α :=
  { recs := List.replicate max (Rec.blank d), num := 0, wr := 0, best := 0 }

/-- `resetForeignMasterDS` (`foreign.c:171-181`): the slots keep their contents. -/
def Ds.reset {α : Type} (s : Ds α) : Ds α := { s with num := 0, wr := 0, best := 0 }

/-- The loop of `findForeignMasterRecord` (`foreign.c:86-99`) with `fuel`
iterations left.  `none`: read outside the array. -/
def findLoop {α : Type} (recs : List (Rec α)) (num : Nat) (pid : PortId) : Nat → Nat → Option (Option Nat)
  | 0, _ => some none
  | fuel + 1, j =>
    match recs[j]? with
    | none => none
    | some r => if r.pid = pid then some (some j)
                else findLoop recs num pid fuel ((j + 1) % num)

/-- `findForeignMasterRecord` (`foreign.c:73-101`). -/
def Ds.find {α : Type} (s : Ds α) (pid : PortId) : Option (Option Nat) :=
  findLoop s.recs s.num pid s.num s.best

/-- `insertIntoForeignMasterDS` (`foreign.c:198-271`): returns the table and the
index of the record.  `none`: access outside the array. -/
def Ds.insert {α : Type} (s : Ds α) (pid : PortId) (d : α) (now : Int) : Option (Ds α × Nat) :=
  match s.find pid with
  | none => none
  | some (some j) =>
    match s.recs[j]? with
    | none => none
    | some r => some ({ s with recs := s.recs.set j ({ r with data := d }.announce now) }, j)
  | some none =>
    let max := s.recs.length
    let w := if s.wr < s.num ∧ s.wr = s.best then (s.wr + 1) % max else s.wr
    let num := if s.num < max then s.num + 1 else s.num
    match s.recs[w]? with
    | none => none
    | some r =>
      let r' := { r with pid := pid, data := d, tw := 0, tc := 0 }.announce now
      some ({ s with recs := s.recs.set w r', num := num, wr := (w + 1) % max }, w)

/-- The `memmove` of `foreign.c:498-500` on slot granularity: it moves
`sizeof *record * num - i - 1` bytes starting at slot `i + 1` down one slot.
That is all of `num` slots except the last `i + 1` bytes; as a record is larger
than the capacity the last slot is modelled as moved whole.  The source range
ends inside the array exactly when `i + 1 + num ≤ max`, otherwise the outcome is
`none` (read and write beyond the allocation). -/
def shift {α : Type} (recs : List (Rec α)) (i num : Nat) : Option (List (Rec α)) :=
  if i + 1 + num ≤ recs.length then
    some (recs.take i ++ (recs.drop (i + 1)).take num ++ recs.drop (i + num))
  else none

/-- The loop of `expireForeignMasterRecords` (`foreign.c:492-516`). -/
def expireLoop {α : Type} (thr : Int) : Nat → Ds α → Nat → Option (Ds α)
  | 0, s, _ => some s
  | fuel + 1, s, i =>
    if i < s.num then
      match s.recs[i]? with
      | none => none
      | some r =>
        if r.latestOk thr then expireLoop thr fuel s (i + 1)
        else
          match shift s.recs i s.num with
          | none => none
          | some recs =>
            expireLoop thr fuel
              { recs := recs, num := s.num - 1
                wr := if i < s.wr then s.wr - 1 else s.wr
                best := if i < s.best then s.best - 1 else s.best } i
    else some s

/-- `expireForeignMasterRecords` (`foreign.c:485-519`); every iteration advances
`i` or removes a record, so `num` iterations are enough. -/
def Ds.expire {α : Type} (s : Ds α) (thr : Int) : Option (Ds α) := expireLoop thr s.num s 0

/-- What an observer of the table sees (`bmc.c:251`, `bmc.c:840-891`,
`display.c:654`): the first `number_records` slots. -/
def Ds.live {α : Type} (s : Ds α) : List (Rec α) := s.recs.take s.num

end Verif.Foreign
