import Verif.Pps.Model

/-!
# Specification of the PPS sync module

Notions over what is seen of an instance: its events and their effects.
-/

namespace Verif.Pps

/-- The events of instance `k`. -/
def own (k : Nat) (tr : List Entry) : List Entry := tr.filter (fun e => e.idx = k)

/-- The effect changes the clock or posts a measurement. -/
def Out.acts : Out → Bool
  | .adjustTime _ => true
  | .adjustFreq _ => true
  | .sample .. => true
  | _ => false

/-- The effect is a step of the clock. -/
def Out.isStep : Out → Bool
  | .adjustTime _ => true
  | _ => false

/-- The time by the clock and the number of the pulse of an event. -/
def Ev.pulse? : Ev → Option (Nat × Int)
  | .poll _ (.pulse s t) _ _ => some (s, t)
  | _ => none

/-- The event switches the processing of timestamps off. -/
def Ev.switchesOff : Ev → Bool
  | .control mask flags => mask.tsProc && !flags.tsProc
  | _ => false

/-- A period of a pulse is good if between 0.9 and 1.1 seconds. -/
def GoodPeriod (p : Int) : Prop := 900000000 ≤ p ∧ p ≤ 1100000000

instance (p : Int) : Decidable (GoodPeriod p) := inferInstanceAs (Decidable (_ ∧ _))

/-- What an observer of the pulses knows: whether timestamps are processed, the
latest pulse if it can be compared with the next, and the number of good periods
since the last bad one. -/
structure Watch where
  proc : Bool
  last : Option Int
  run : Nat

/-- The watch after an event: pulses are compared with their predecessor, unless
the clock was stepped or the processing switched off between the two. -/
def Watch.next (w : Watch) (e : Entry) : Watch :=
  match e.ev with
  | .poll _ (.pulse _ t) _ _ =>
    if w.proc then
      let run := match w.last with
        | some p => if GoodPeriod (t - p) then w.run + 1 else 0
        | none => w.run
      ⟨w.proc, if e.outs.any Out.isStep then none else some t, run⟩
    else w
  | .control mask flags =>
    if mask.tsProc then ⟨flags.tsProc, if flags.tsProc then w.last else none, w.run⟩ else w
  | .step _ => { w with last := none }
  | _ => w

/-- The watch after a history of an instance. -/
def watch (tr : List Entry) : Watch := tr.foldl Watch.next ⟨true, none, 0⟩

/-- What the engine knows after an effect: state, whether there is an alarm, and score. -/
def hear (v : St × Bool × Int) : Out → St × Bool × Int
  | .told s a c => (s, a.noSignal || a.seqNum || a.noTod || a.badSignal, c)
  | _ => v

/-- What the engine was last told. -/
def view (tr : List Entry) : St × Bool × Int :=
  (tr.flatMap (fun e => e.outs)).foldl hear (.listening, false, 0)

/-- Time of an event by the monotonic clock. -/
def Ev.time? : Ev → Option Int
  | .tick now => some now
  | .poll now .. => some now
  | _ => none

/-- When the latest pulse came and whether a minute passed, as seen at some later
event. -/
def Quiet.next (q : Option (Int × Bool)) (e : Entry) : Option (Int × Bool) :=
  match e.ev with
  | .poll now (.pulse ..) _ _ => some (now, false)
  | .poll now _ _ _ => q.map (fun x => (x.1, x.2 || decide (now ≥ x.1 + 60000000000)))
  | .tick now => q.map (fun x => (x.1, x.2 || decide (now ≥ x.1 + 60000000000)))
  | _ => q

/-- The same after a history. -/
def lastPulse (tr : List Entry) : Option (Int × Bool) := tr.foldl Quiet.next none

/-- Number of the latest pulse. -/
def lastSeq (tr : List Entry) : Option Nat :=
  tr.foldl (fun q e => (e.ev.pulse?.map Prod.fst).or q) none

/-- The time is not in the first second of the epoch, which the code takes for
"no time". -/
def EntryTimeOk (e : Ev) : Prop := ∀ s t, e.pulse? = some (s, t) → ¬ (0 ≤ t ∧ t < 1000000000)

/-- Whether the instance was told to control its clock. -/
def granted (tr : List Entry) : Bool :=
  tr.foldl (fun b e => match e.ev with
    | .control mask flags => if mask.clockCtrl then flags.clockCtrl else b
    | _ => b) false

/-- The effect sets the frequency. -/
def Out.isFreq : Out → Bool
  | .adjustFreq _ => true
  | _ => false

/-- The instance acted on its clock because of a pulse. -/
def acted (tr : List Entry) : Bool := tr.any (fun e => e.ev.pulse?.isSome && e.outs.any Out.isFreq)

/-- The difference between the true time and the clock of the instance, by the answer of
the source of the time of day. A difference of zero means "unknown". -/
def TodReply.value (r : TodReply) : Option Int :=
  match r.status with
  | none => none
  | some (_, off) => some (if off = 0 then 0 else off + r.compare.getD 0)

/-- When the source of the time of day is next asked, and its latest answer with the
instance that asked. -/
structure Seen where
  due : Int
  val : Option (Nat × Int)

/-- The answer after an event. A step of a clock makes the answer void. -/
def Seen.next (s : Seen) (e : Entry) : Seen :=
  let s := if e.outs.any Out.isStep then { s with val := none } else s
  match e.ev with
  | .poll now _ r _ =>
    if s.due < now then ⟨s.due + 1000000000, match r.value with | some v => some (e.idx, v) | none => s.val⟩ else s
  | _ => s

/-- The same after a history that starts at `t0`. -/
def seen (t0 : Int) (tr : List Entry) : Seen := tr.foldl Seen.next ⟨t0, none⟩

/-- The latest answer that instance `k` got itself. -/
def seenBy (k : Nat) (t0 : Int) (tr : List Entry) : Seen × Option Int :=
  tr.foldl (fun s e =>
    (s.1.next e,
     if e.idx = k then
       let v := if e.outs.any Out.isStep then none else s.2
       match e.ev with
       | .poll now _ r _ => if s.1.due < now then r.value.or v else v
       | _ => v
     else s.2)) (⟨t0, none⟩, none)

/-- `D` is the difference of a clock from the true time: pulses are sent at whole seconds. -/
def Shows (time D : Int) : Prop := ∃ T : Int, time = T * 1000000000 + D

/-- The time of day `v` determines the second in which the difference `D` lies: `D` is `d`
away from a whole second, and `v` errs by less than what is left to half a second. -/
def Clear (v D : Int) : Prop :=
  ∃ W d : Int, D = W * 1000000000 + d ∧ d.natAbs + (v - D).natAbs < 500000000

/-- The event is a poll. -/
def Ev.isPoll : Ev → Bool
  | .poll .. => true
  | _ => false

/-- The counts given to the statistics. -/
def Out.counts? : Out → Option Counts
  | .stats c => some c
  | _ => none

/-- A configuration allowed by the parsers of the options. -/
structure Setup.Valid (s : Setup) : Prop where
  fir : 1 ≤ s.firSize ∧ s.firSize ≤ 128
  array : s.garbage.length = 128
  freq : 0 ≤ s.conf.freqMax
  outlier : ∀ n w, s.outlier = some (n, w) → 0 < n ∧ n ≤ 60 ∧ 0 ≤ w ∧ w ≤ 1
  saved : -s.conf.freqMax ≤ s.saved ∧ s.saved ≤ s.conf.freqMax

/-- `m` is reached from a start with the configurations `ss` by the events seen in `tr`. -/
def Reach (ss : List Setup) (source : Option Int) (m : Mod) (tr : List Entry) : Prop :=
  ∃ m0 es, Mod.start ss source = some m0 ∧ Mod.run m0 es = some (m, tr)

/-- The history is followed by an event of instance `k`, in state `i`, that leaves it in state `i'`. -/
def Next (m : Mod) (k : Nat) (i : Inst) (e : Ev) (outs : List Out) (i' : Inst) (m' : Mod) : Prop :=
  m.insts[k]? = some i ∧ m.step k e = some (m', outs) ∧ m'.insts[k]? = some i'

end Verif.Pps
