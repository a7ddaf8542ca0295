import Verif.Time.Model

/-!
# Model of the statistics

Models `src/sfptpd_statistics.c`: the convergence measure (lines 113-182), the
standard deviation measure (189-236), range and count measures (288-374), their
histories (382-470, 626-658, 679-764, 852-873) and the statistics collection
(894-1275).

Simplifications: `long double` is replaced by the rationals (no rounding, no
NaN, no infinity); `unsigned long` counters are naturals; memory allocation
succeeds; `sqrtl` is not modelled, the value under the root is returned.  The
log and JSON writers (473-623, 767-849, 1278-1379) are left out.
-/

namespace Verif.Stats
open Verif.Time

/-! ## Convergence measure -/

/-- `struct sfptpd_stats_convergence` (`sfptpd_statistics.h:62-69`). -/
structure Conv where
  minPeriod : Int
  maxOffset : Rat
  numSamples : Nat
  startTime : Int
  latestTime : Int
deriving DecidableEq, Repr

/-- `sfptpd_stats_convergence_reset` (lines 141-148). -/
def Conv.reset (c : Conv) : Conv := { c with numSamples := 0, startTime := 0, latestTime := 0 }

/-- `sfptpd_stats_convergence_update` (lines 151-182). -/
def Conv.update (c : Conv) (time : Int) (offset : Rat) : Conv × Bool :=
  if offset < -c.maxOffset ∨ offset > c.maxOffset then (c.reset, false)
  else if time < c.startTime then
    ({ c with numSamples := 1, startTime := time, latestTime := time }, false)
  else
    let start := if c.numSamples = 0 then time else c.startTime
    ({ c with startTime := start, numSamples := c.numSamples + 1, latestTime := time },
      decide (time ≥ start + c.minPeriod))

/-! ## Standard deviation measure -/

/-- `struct sfptpd_stats_std_dev` (`sfptpd_statistics.h:78-82`). -/
structure StdDev where
  num : Nat
  sum : Rat
  sumSq : Rat
deriving DecidableEq, Repr

/-- `sfptpd_stats_std_dev_init` (lines 189-196). -/
def StdDev.init : StdDev := ⟨0, 0, 0⟩

/-- `sfptpd_stats_std_dev_add_sample` (lines 198-206). -/
def StdDev.add (s : StdDev) (x : Rat) : StdDev := ⟨s.num + 1, s.sum + x, s.sumSq + x * x⟩

/-- `sfptpd_stats_std_dev_remove_sample` (lines 208-217); `none` is the failed
assertion of line 212. -/
def StdDev.remove (s : StdDev) (x : Rat) : Option StdDev :=
  if s.num > 0 then some ⟨s.num - 1, s.sum - x, s.sumSq - x * x⟩ else none

/-- `sfptpd_stats_std_dev_get` (lines 219-236): the mean and the value whose
square root is returned; `none` is the failed assertion of line 225. -/
def StdDev.get (s : StdDev) : Option (Rat × Rat) :=
  if s.num > 0 then
    let m := s.sum / s.num
    some (m, s.sumSq / s.num - m * m)
  else none

/-! ## Range and count measures -/

/-- `struct sfptpd_stats_range` (`sfptpd_statistics.h:145-156`); the flag
`valid` is represented by `Option` in the histories. -/
structure Range where
  num : Nat
  total : Rat
  totalSq : Rat
  min : Rat
  max : Rat
  qualified : Bool
  minTime : Ts
  maxTime : Ts
deriving DecidableEq, Repr

/-- The constant `1.0e100` of lines 295-296. -/
def big : Rat := 10 ^ 100

/-- `sfptpd_stats_range_init` (lines 288-300). -/
def Range.init : Range := ⟨0, 0, 0, big, -big, true, ⟨0, 0, 0⟩, ⟨0, 0, 0⟩⟩

/-- A sample as passed to `sfptpd_stats_collection_update_range`. -/
structure Sample where
  value : Rat
  time : Ts
  qualified : Bool
deriving DecidableEq, Repr

/-- `sfptpd_stats_range_update` (lines 303-324). -/
def Range.update (r : Range) (s : Sample) : Range :=
  if s.qualified then
    { num := r.num + 1
      total := r.total + s.value
      totalSq := r.totalSq + s.value * s.value
      min := if s.value < r.min then s.value else r.min
      minTime := if s.value < r.min then s.time else r.minTime
      max := if s.value > r.max then s.value else r.max
      maxTime := if s.value > r.max then s.time else r.maxTime
      qualified := r.qualified }
  else { r with qualified := false }

/-- `sfptpd_stats_range_add` (lines 327-345). -/
def Range.add (dst src : Range) : Range :=
  { num := dst.num + src.num
    total := dst.total + src.total
    totalSq := dst.totalSq + src.totalSq
    min := if src.min < dst.min then src.min else dst.min
    minTime := if src.min < dst.min then src.minTime else dst.minTime
    max := if src.max > dst.max then src.max else dst.max
    maxTime := if src.max > dst.max then src.maxTime else dst.maxTime
    qualified := if !src.qualified then false else dst.qualified }

/-- `struct sfptpd_stats_count` (`sfptpd_statistics.h:165-170`). -/
structure Count where
  num : Nat
  total : Nat
deriving DecidableEq, Repr

/-- `sfptpd_stats_count_init` (lines 348-354). -/
def Count.init : Count := ⟨0, 0⟩

/-- `sfptpd_stats_count_update` (lines 357-364). -/
def Count.update (c : Count) (sample numSamples : Nat) : Count := ⟨c.num + numSamples, c.total + sample⟩

/-- `sfptpd_stats_count_add` (lines 367-374). -/
def Count.add (dst src : Count) : Count := ⟨dst.num + src.num, dst.total + src.total⟩

/-! ## Histories -/

/-- `struct stats_range_history` and `struct stats_count_history` (lines
40-62): the active measure and four entries (current, 1, 2, 3) for each of the
five periods; `none` is an entry that is not valid. -/
structure Hist (T : Type) where
  active : T
  history : List (List (Option T))
deriving DecidableEq, Repr

/-- `stats_range_history_alloc`, `stats_count_history_alloc` (lines 382-411,
679-709). -/
def Hist.alloc {T} (init : T) : Hist T :=
  ⟨init, List.replicate 5 [some init, none, none, none]⟩

/-- Lines 450-455 and 744-749: the active statistics are added to the current
entry of a period. -/
def addCurrent {T} (add : T → T → T) (active : T) : List (Option T) → List (Option T)
  | [] => []
  | e :: es => e.map (add · active) :: es

/-- Lines 464-469 and 758-763: `memmove` of the first three entries by one
place, current entry initialised. -/
def shift {T} (init : T) (es : List (Option T)) : List (Option T) := some init :: es.take 3

/-- `stats_range_history_end_period`, `stats_count_history_end_period` (lines
438-470, 732-764). -/
def Hist.endPeriod {T} (init : T) (add : T → T → T) (h : Hist T) (period : Nat) : Hist T :=
  let h := if period = 0 then
      { active := init, history := h.history.map (addCurrent add h.active) }
    else h
  { h with history := h.history.modify period (shift init) }

/-- A statistics item with its type. -/
inductive Item where
  | range (h : Hist Range)
  | count (h : Hist Count)
deriving DecidableEq, Repr

/-- `item->ops->end_period`. -/
def Item.endPeriod (p : Nat) : Item → Item
  | .range h => .range (h.endPeriod Range.init Range.add p)
  | .count h => .count (h.endPeriod Count.init Count.add p)

/-! ## Collection -/

/-- `struct sfptpd_stats_time_interval` (`sfptpd_statistics.h:279-286`). -/
structure Interval where
  seq : Nat
  startTime : Option Ts
  endTime : Option Ts
deriving DecidableEq, Repr

/-- `struct sfptpd_stats_collection` (`sfptpd_statistics.h:305-312`). -/
structure Coll where
  elapsed : List Nat
  intervals : List (List Interval)
  items : List (Option Item)
deriving DecidableEq, Repr

/-- `enum sfptpd_stats_type`. -/
inductive Ty where
  | range
  | count
deriving DecidableEq, Repr

/-- The type of an item. -/
def Item.ty : Item → Ty
  | .range _ => .range
  | .count _ => .count

/-- Error returns. -/
inductive Err where
  | enoent
  | erange
  | einval
  | eexist
deriving DecidableEq, Repr

/-- The period lengths in seconds (lines 69-76). -/
def periodLength : List Nat := [60, 60 * 10, 60 * 60, 60 * 60 * 24, 60 * 60 * 24 * 7]

/-- `sfptpd_stats_collection_alloc` (lines 894-930). -/
def Coll.alloc (time : Ts) : Coll :=
  { elapsed := List.replicate 5 0
    intervals := List.replicate 5 [⟨0, some time, none⟩, ⟨0, none, none⟩, ⟨0, none, none⟩, ⟨0, none, none⟩]
    items := [none] }

/-- Lines 1006-1007: `1 << (32 - __builtin_clz(id))` for `id > 0`. -/
def nextSize (id : Nat) : Nat := 2 ^ (Nat.log2 id + 1)

/-- `stats_range_history_alloc` or `stats_count_history_alloc` (1034-1045). -/
def Item.alloc : Ty → Item
  | .range => .range (Hist.alloc Range.init)
  | .count => .count (Hist.alloc Count.init)

/-- `sfptpd_stats_collection_add` (lines 988-1052); the identifier is asserted
to be less than 256 (`none` otherwise; `none` also for `__builtin_clz(0)`,
which is undefined). -/
def Coll.add (c : Coll) (id : Nat) (ty : Ty) : Option (Option Err × Coll) :=
  if id ≥ 256 ∨ (id = 0 ∧ c.items.length = 0) then none
  else
    let c := if id ≥ c.items.length then
        { c with items := c.items ++ List.replicate (nextSize id - c.items.length) none }
      else c
    match c.items[id]? with
    | none => none
    | some (some _) => some (some .eexist, c)
    | some none => some (none, { c with items := c.items.set id (some (Item.alloc ty)) })

/-- `stats_collection_type_check` (lines 1055-1090); `ty = none` stands for
`SFPTPD_STATS_TYPE_MAX`.  The outer `none` is the failed assertion. -/
def Coll.typeCheck (c : Coll) (id : Nat) (ty : Option Ty) : Option (Except Err Item) :=
  if id ≥ 256 then none
  else if id ≥ c.items.length then some (.error .erange)
  else match c.items[id]? with
    | none => none
    | some none => some (.error .enoent)
    | some (some item) =>
      match ty with
      | none => some (.ok item)
      | some ty => if item.ty ≠ ty then some (.error .einval) else some (.ok item)

/-- `sfptpd_stats_collection_update_range` (lines 1093-1126, 421-435). -/
def Coll.updateRange (c : Coll) (id : Nat) (s : Sample) : Option (Option Err × Coll) :=
  match c.typeCheck id (some .range) with
  | none => none
  | some (.error e) => some (some e, c)
  | some (.ok (.range h)) =>
    some (none, { c with items := c.items.set id (some (.range { h with active := h.active.update s })) })
  | some (.ok (.count _)) => none

/-- `sfptpd_stats_collection_update_count_samples` (lines 1137-1144, 1093-1115,
719-729): the number of samples is passed but `stats_count_history_update` does
not read it and counts one. -/
def Coll.updateCountSamples (c : Coll) (id sample _numSamples : Nat) : Option (Option Err × Coll) :=
  match c.typeCheck id (some .count) with
  | none => none
  | some (.error e) => some (some e, c)
  | some (.ok (.count h)) =>
    some (none, { c with items := c.items.set id (some (.count { h with active := h.active.update sample 1 })) })
  | some (.ok (.range _)) => none

/-- `sfptpd_stats_collection_update_count` (lines 1129-1134). -/
def Coll.updateCount (c : Coll) (id sample : Nat) : Option (Option Err × Coll) :=
  c.updateCountSamples id sample 1

/-- Lines 1171-1192: the interval records of a period that has ended. -/
def endInterval (time : Ts) : List Interval → List Interval
  | [] => []
  | i :: is =>
    let i' := { i with endTime := some time }
    ⟨i'.seq + 1, some time, none⟩ :: (i' :: is).take 3

/-- One pass of the loop of `sfptpd_stats_collection_end_period`
(lines 1160-1194). -/
def Coll.endPeriodStep (time : Ts) (c : Coll) (p : Nat) : Coll :=
  let e := c.elapsed.getD p 0 + 60
  if e ≥ periodLength.getD p 0 then
    { elapsed := c.elapsed.set p 0
      intervals := c.intervals.modify p (endInterval time)
      items := c.items.map (Option.map (Item.endPeriod p)) }
  else { c with elapsed := c.elapsed.set p e }

/-- `sfptpd_stats_collection_end_period` (lines 1148-1195). -/
def Coll.endPeriod (c : Coll) (time : Ts) : Coll :=
  [0, 1, 2, 3, 4].foldl (Coll.endPeriodStep time) c

/-- `stats_range_history_get` (lines 626-658) through
`sfptpd_stats_collection_get_range` (1223-1240): the entry, from which mean
(`total / num`), minimum, maximum, times and qualification are copied. -/
def Coll.getRange (c : Coll) (id p h : Nat) : Option (Except Err Range) :=
  match c.typeCheck id (some .range) with
  | none => none
  | some (.error e) => some (.error e)
  | some (.ok (.count _)) => none
  | some (.ok (.range hist)) =>
    match hist.history[p]? with
    | none => none
    | some es =>
      match es[h]? with
      | none => none
      | some none => some (.error .enoent)
      | some (some r) => some (.ok r)

/-- `stats_count_history_get` (lines 852-873) through
`sfptpd_stats_collection_get_count` (1243-1256).  The C function copies only
the total; the whole entry is returned here. -/
def Coll.getCount (c : Coll) (id p h : Nat) : Option (Except Err Count) :=
  match c.typeCheck id (some .count) with
  | none => none
  | some (.error e) => some (.error e)
  | some (.ok (.range _)) => none
  | some (.ok (.count hist)) =>
    match hist.history[p]? with
    | none => none
    | some es =>
      match es[h]? with
      | none => none
      | some none => some (.error .enoent)
      | some (some r) => some (.ok r)

/-- `sfptpd_stats_collection_get_interval` (lines 1259-1275). -/
def Coll.getInterval (c : Coll) (p h : Nat) : Option (Except Err Interval) :=
  match c.typeCheck 0 none with
  | none => none
  | some (.error e) => some (.error e)
  | some (.ok _) =>
    match c.intervals[p]? with
    | none => none
    | some is => (is[h]?).map .ok

end Verif.Stats
