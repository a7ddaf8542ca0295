/-!
# Model of the clock feed

Models `src/sfptpd_clockfeed.c`: sampling (334-385), comparison (865-1040), and
the handling of sources and subscribers (296-321, 452-653).

Simplifications: times are exact integers (nanoseconds); the 64-bit counters, and
the `int` copies of them, are unbounded; the offsets of clocks and the times of
sampling are parameters. Statistics and log messages are not modelled.
-/

namespace Verif.Feed

/-- `MAX_CLOCK_SAMPLES` (line 68). -/
def maxSamples : Nat := 16

/-- `struct sfptpd_clockfeed_sample`. -/
structure Sample where
  seq : Nat
  rc : Int
  mono : Int
  system : Int
  snapshot : Int
deriving DecidableEq, Repr

/-- `struct clockfeed_shm`: the ring of samples and the count of those written,
and from the source: whether it is inactive and its clock active. -/
structure Shm where
  samples : Nat → Sample
  writeCounter : Nat
  sourceInactive : Bool
  clockActive : Bool

/-- One sample taken by `clockfeed_on_timer` (lines 350-379): `rc` and `diff` come
from comparing the clock to the system clock, `mono` and `system` from the clocks. -/
def onSample (shm : Shm) (rc diff mono system : Int) : Shm :=
  { shm with
    samples := fun i =>
      if i = shm.writeCounter % maxSamples then
        ⟨shm.writeCounter, rc, mono, system, if rc = 0 then system + diff else 0⟩
      else shm.samples i,
    writeCounter := shm.writeCounter + 1 }

/-- The fields of `struct sfptpd_clockfeed_sub` used in comparisons. -/
structure Sub where
  readCounter : Int
  minCounter : Int
  maxAge : Option Int
  maxAgeDiff : Option Int
deriving DecidableEq, Repr

/-- A new subscription (lines 563-567). -/
def newSub : Sub := ⟨-1, -1, none, none⟩

/-- `sfptpd_clockfeed_require_fresh` (lines 1006-1018). -/
def requireFresh (s : Sub) : Sub := { s with minCounter := s.readCounter + 1 }

/-- `sfptpd_clockfeed_set_max_age` (lines 1020-1029). -/
def setMaxAge (s : Sub) (age : Int) : Sub := { s with maxAge := some age }

/-- `sfptpd_clockfeed_set_max_age_diff` (lines 1031-1040). -/
def setMaxAgeDiff (s : Sub) (age : Int) : Sub := { s with maxAgeDiff := some age }

/-- What `clockfeed_compare_to_sys` yields on success. -/
structure Found where
  diff : Int
  t1 : Int
  t2 : Int
  mono : Int
deriving DecidableEq, Repr

/-- `clockfeed_compare_to_sys` (lines 865-941). The feed is read while the clock
feed thread may write: `shm` is as seen by the first read of the counter, `shmA`
by the reads of the sample before the second read of the counter, `shmB` by that
read and `shmC` by later reads. `now` is the monotonic time, if it can be read.
Yields an error, or what was found, and the subscription. Error numbers:
EOWNERDEAD 130, ENOENT 2, EAGAIN 11, ENODATA 61, ESTALE 116. -/
def compareToSys (shm shmA shmB shmC : Shm) (now : Option Int) (s : Sub) : Except Int Found × Sub :=
  let writer1 := shm.writeCounter
  if shm.sourceInactive then (.error 130, s)
  else if shm.clockActive = false then (.error 2, s)
  else if writer1 = 0 then (.error 11, s)
  else
    let index := (writer1 - 1) % maxSamples
    if (shmA.samples index).rc ≠ 0 then (.error (shmA.samples index).rc, s)
    else
      let diff := (shmA.samples index).snapshot - (shmA.samples index).system
      let writer2 := shmB.writeCounter
      if writer2 ≥ writer1 + maxSamples - 1 then (.error 61, s)
      else if (writer1 : Int) < s.minCounter then (.error 116, s)
      else
        let sample := shmC.samples index
        let tooOld : Bool := match s.maxAge, now with
          | some limit, some now => decide (now - sample.mono > limit)
          | _, _ => false
        if tooOld then (.error 116, s)
        else if sample.rc = 0 then (.ok ⟨diff, sample.snapshot, sample.system, sample.mono⟩, { s with readCounter := writer1 })
        else (.error sample.rc, s)

/-- Result of a comparison of two clocks. -/
structure Compared where
  diff : Int
  t1 : Option Int
  t2 : Option Int
  mono : Option Int
deriving DecidableEq, Repr

/-- The limit used for the difference in age (lines 962-966). -/
def ageDiffLimit (s1 s2 : Sub) : Option Int :=
  match s1.maxAgeDiff, s2.maxAgeDiff with
  | none, l => l
  | l, none => l
  | some l1, some l2 => if l1 ≥ l2 then some l2 else some l1

/-- A subscription, and what is read of its feed. -/
structure View where
  sub : Sub
  shm : Shm
  shmA : Shm
  shmB : Shm
  shmC : Shm

/-- `clockfeed_compare_to_sys` for a view. -/
def View.compare (v : View) (now : Option Int) : Except Int Found × Sub :=
  compareToSys v.shm v.shmA v.shmB v.shmC now v.sub

/-- `sfptpd_clockfeed_compare` (lines 943-1004) of two subscriptions, either of
which may be absent for the system clock; `mono0` is what the caller's variable
for the monotonic time contains before, if the caller asked for it. `now1`, `now2`
are the times at the two reads. Yields the result and the subscriptions. -/
def compare (v1 v2 : Option View) (mono0 : Option Int) (now1 now2 : Option Int) :
    Except Int Compared × Option Sub × Option Sub :=
  match v1, v2 with
  | none, none => (.ok ⟨0, none, none, mono0⟩, none, none)
  | some v1, none =>
    match v1.compare now1 with
    | (.error e, s1) => (.error e, some s1, none)
    | (.ok f, s1) => (.ok ⟨f.diff, some f.t1, some f.t2, mono0.map (fun _ => f.mono)⟩, some s1, none)
  | none, some v2 =>
    match v2.compare now2 with
    | (.error e, s2) => (.error e, none, some s2)
    | (.ok f, s2) =>
      (.ok ⟨0 - f.diff, some f.t2, some f.t1, mono0.map (fun m => if m ≥ f.mono then f.mono else m)⟩, none, some s2)
  | some v1, some v2 =>
    let limit := ageDiffLimit v1.sub v2.sub
    match v1.compare now1 with
    | (.error e, s1) => (.error e, some s1, some v2.sub)
    | (.ok f1, s1) =>
      match v2.compare now2 with
      | (.error e, s2) => (.error e, some s1, some s2)
      | (.ok f2, s2) =>
        let mono := if f1.mono ≥ f2.mono then f2.mono else f1.mono
        let ageDiff := if f2.mono ≥ mono then f2.mono - mono else mono - f2.mono
        let bad : Bool := match limit with
          | some l => decide (ageDiff ≥ l)
          | none => false
        if bad then (.error 116, some s1, some s2)
        else (.ok ⟨f1.diff - f2.diff, some f1.t1, some f2.t1, mono0.map (fun _ => mono)⟩, some s1, some s2)

/-! ## Sources and subscribers -/

/-- `struct clockfeed_source`: its clock, subscribers and whether it is inactive. -/
structure Src where
  clock : Nat
  subs : List Nat
  inactive : Bool
deriving DecidableEq, Repr

/-- Memory: sources and subscriptions by address, `none` if not allocated (or
freed), and the lists of active and inactive sources. -/
structure Heap where
  src : Nat → Option Src
  sub : Nat → Option Nat
  active : List Nat
  zombies : List Nat

/-- `f` with the value at `a` replaced. -/
def put {α : Type} (f : Nat → α) (a : Nat) (b : α) : Nat → α := fun x => if x = a then b else f x

/-- `clockfeed_reap_zombies` (lines 296-321). `none` is access to freed memory or
a failed assertion. -/
def reap (h : Heap) (s : Nat) : Option Heap :=
  match h.src s with
  | none => none
  | some x =>
    if x.inactive ∧ x.subs = [] then
      if s ∈ h.zombies then some { h with src := put h.src s none, zombies := h.zombies.erase s }
      else none
    else some h

/-- `clockfeed_on_add_clock` (lines 452-490): `n` is the address of the new source. -/
def onAdd (h : Heap) (n clock : Nat) : Option Heap :=
  some { h with src := put h.src n (some ⟨clock, [], false⟩), active := n :: h.active }

/-- Search of a list of sources for a clock: fault, not found, or found. -/
def findClock (h : Heap) (clock : Nat) : List Nat → Option (Option Nat)
  | [] => some none
  | s :: ss =>
    match h.src s with
    | none => none
    | some x => if x.clock = clock then some (some s) else findClock h clock ss

/-- `clockfeed_on_remove_clock` (lines 492-527). -/
def onRemove (h : Heap) (clock : Nat) : Option Heap :=
  match findClock h clock h.active with
  | none => none
  | some none => some h
  | some (some s) =>
    match h.src s with
    | none => none
    | some x =>
      reap { h with src := put h.src s (some { x with inactive := true }), active := h.active.erase s, zombies := s :: h.zombies } s

/-- `clockfeed_on_subscribe` (lines 529-574): `n` is the address of the new
subscription, if one is made. -/
def onSubscribe (h : Heap) (n clock : Nat) : Option (Option Nat × Heap) :=
  let go (s : Nat) : Option (Option Nat × Heap) :=
    match h.src s with
    | none => none
    | some x => some (some n, { h with src := put h.src s (some { x with subs := n :: x.subs }), sub := put h.sub n (some s) })
  match findClock h clock h.active with
  | none => none
  | some (some s) => go s
  | some none =>
    match findClock h clock h.zombies with
    | none => none
    | some (some s) => go s
    | some none => some (none, h)

/-- `clockfeed_on_unsubscribe` (lines 576-606). -/
def onUnsubscribe (h : Heap) (k : Nat) : Option Heap :=
  match h.sub k with
  | none => none
  | some s =>
    match h.src s with
    | none => none
    | some x =>
      match reap { h with src := put h.src s (some { x with subs := x.subs.erase k }) } s with
      | none => none
      | some h => some { h with sub := put h.sub k none }

/-- The last loop of `clockfeed_on_shutdown` (lines 638-640): after reaping a
source its successor is read from it. -/
def reapAll : Heap → List Nat → Option Heap
  | h, [] => some h
  | h, s :: ss =>
    match reap h s with
    | none => none
    | some h =>
      match h.src s with
      | none => none
      | some _ => reapAll h ss

/-- Marking sources inactive (lines 624-632). -/
def markAll : Heap → List Nat → Option Heap
  | h, [] => some h
  | h, s :: ss =>
    match h.src s with
    | none => none
    | some x => if x.inactive then none else markAll { h with src := put h.src s (some { x with inactive := true }) } ss

/-- `clockfeed_on_shutdown` (lines 608-653) on sources. -/
def onShutdown (h : Heap) : Option Heap :=
  match markAll h h.active with
  | none => none
  | some h' =>
    let l := h.active ++ h'.zombies
    reapAll { h' with active := [], zombies := l } l

end Verif.Feed
