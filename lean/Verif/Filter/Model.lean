import Verif.Time.Model
import Verif.Stats.Model

/-!
# Model of the filters

Models `src/sfptpd_filter.c`: FIR (lines 80-122), PID (129-270), notch
(277-297), Peirce (304-416) and smallest filter (423-527), and
`servo_get_outlier_threshold` (`src/ptp/ptpd2/dep/servo.c:318-327`).

Simplifications: `long double` is replaced by the rationals; memory allocation
succeeds; `sqrtl` is not modelled, comparisons with a multiple of the standard
deviation are made on squares.  `none` is undefined behaviour, a failed
assertion or a value that is not a number.
-/

namespace Verif.Filter
open Verif.Time Verif.Stats

/-! ## FIR filter -/

/-- `sfptpd_fir_filter_t` (`sfptpd_filter.h:26-31`); the array has 128 elements. -/
structure Fir where
  stiffness : Nat
  num : Nat
  w : Nat
  delta : List Rat
deriving DecidableEq, Repr

/-- `sfptpd_fir_filter_reset` (lines 92-98). -/
def Fir.reset (f : Fir) : Fir := { f with num := 0, w := 0 }

/-- `sfptpd_fir_filter_init` (lines 80-89): only the upper limit of the
stiffness is asserted. `delta` is the uninitialised array. -/
def Fir.init (stiffness : Nat) (delta : List Rat) : Option Fir :=
  if stiffness ≤ 128 then some (Fir.reset ⟨stiffness, 0, 0, delta⟩) else none

/-- `sfptpd_fir_filter_update` (lines 101-122). -/
def Fir.update (f : Fir) (x : Rat) : Option (Fir × Rat) :=
  if f.w ≥ f.delta.length then none
  else
    let delta := f.delta.set f.w x
    let w := if f.w + 1 = f.stiffness then 0 else f.w + 1
    let num := if f.num < f.stiffness then f.num + 1 else f.num
    if num = 0 then none
    else some (⟨f.stiffness, num, w, delta⟩, (delta.take num).foldl (· + ·) 0 / num)

/-! ## PID filter -/

/-- `sfptpd_pid_filter_t` (`sfptpd_filter.h:49-80`). -/
structure Pid where
  kp : Rat
  ki : Rat
  kd : Rat
  p : Rat
  i : Rat
  d : Rat
  freqAdjust : Rat
  last : Ts
  iMax : Rat
  avg : Rat
  conf : Rat
deriving DecidableEq, Repr

/-- `sfptpd_pid_filter_reset` (lines 163-174). -/
def Pid.reset (s : Pid) : Pid := { s with p := 0, i := 0, d := 0, freqAdjust := 0, last := ⟨0, 0, 0⟩, avg := s.conf }

/-- `sfptpd_pid_filter_init` (lines 129-142). -/
def Pid.init (kp ki kd interval : Rat) : Pid :=
  Pid.reset ⟨kp, ki, kd, 0, 0, 0, 0, ⟨0, 0, 0⟩, 0, 0, interval⟩

/-- `sfptpd_pid_filter_set_i_term_max` (lines 145-151). -/
def Pid.setIMax (s : Pid) (m : Rat) : Option Pid := if 0 ≤ m then some { s with iMax := m } else none

/-- `sfptpd_pid_filter_set_interval` (lines 154-160). -/
def Pid.setInterval (s : Pid) (x : Rat) : Option Pid := if 0 < x then some { s with conf := x } else none

/-- `sfptpd_pid_filter_adjust` (lines 177-195); NaN is `none`. -/
def Pid.adjust (s : Pid) (kp ki kd : Option Rat) (reset : Bool) : Pid :=
  let s := { s with kp := kp.getD s.kp, ki := ki.getD s.ki, kd := kd.getD s.kd }
  if reset then s.reset else s

/-- `sfptpd_time_timespec_to_float_s` (`sfptpd_time.h:119-125`). -/
def floatS (t : Ts) : Rat := t.sec + t.nsec / 1000000000 + t.frac / (1000000000 * 4294967296)

/-- `sfptpd_time_is_zero`. -/
def isZero (t : Ts) : Bool := t.sec = 0 ∧ t.nsec = 0 ∧ t.frac = 0

/-- Lines 213-218: the interval limited to between half and double the average. -/
def limitInterval (avg x : Rat) : Rat :=
  if x < 1 / 2 * avg then 1 / 2 * avg else if x > 2 * avg then 2 * avg else x

/-- Lines 206-227: the interval to use and the updated interval state. -/
def Pid.interval (s : Pid) : Option Ts → Option (Rat × Pid)
  | none => some (s.conf, s)
  | some t =>
    if isZero s.last then some (s.conf, { s with last := t })
    else
      match subtract t s.last with
      | none => none
      | some diff =>
        let x := limitInterval s.avg (floatS diff)
        some (x, { s with avg := ((16 - 1) * s.avg + x) / 16, last := t })

/-- Lines 244-249: saturation of the integral term. -/
def saturate (m x : Rat) : Rat := if m > 0 then (if x > m then m else if x < -m then -m else x) else x

/-- `sfptpd_pid_filter_update` (lines 198-252). -/
def Pid.update (s : Pid) (delta : Rat) (time : Option Ts) : Option (Pid × Rat) :=
  match s.interval time with
  | none => none
  | some (x, s) =>
    let p := s.kp * delta
    let f := 0 - p - s.i - s.d
    some ({ s with p := p, freqAdjust := f, i := saturate s.iMax (s.i + s.ki * x * delta) }, f)

/-! ## Notch filter -/

/-- `sfptpd_notch_filter_t`. -/
structure Notch where
  min : Rat
  max : Rat
deriving DecidableEq, Repr

/-- `sfptpd_notch_filter_init` (lines 277-285). -/
def Notch.init (mid width : Rat) : Option Notch := if width > 0 then some ⟨mid - width, mid + width⟩ else none

/-- `sfptpd_notch_filter_update` (lines 288-297); the result is whether 0 is
returned rather than `ERANGE`. -/
def Notch.update (n : Notch) (x : Rat) : Bool := if x ≥ n.min ∧ x ≤ n.max then true else false

/-! ## Peirce filter -/

/-- `peirce_criterion_table` (lines 58-73), in millionths. -/
def peirceTable : List Nat :=
  [0, 1000000, 1216262, 1382943, 1509276,
   1609828, 1692841, 1763236, 1824156, 1877719,
   1925417, 1968339, 2007300, 2042929, 2075718,
   2106060, 2134273, 2160620, 2185316, 2208544,
   2230458, 2251190, 2270853, 2289546, 2307353,
   2324351, 2340604, 2356171, 2371105, 2385452,
   2399253, 2412545, 2425364, 2437739, 2449698,
   2461267, 2472468, 2483323, 2493852, 2504072,
   2514000, 2523651, 2533039, 2542178, 2551079,
   2559753, 2568212, 2576465, 2584522, 2592390,
   2600079, 2607595, 2614946, 2622138, 2629178,
   2636072, 2642825, 2649442, 2655929, 2662291]

/-- `peirce_filter_get_criterion` (lines 304-310); `num_samples` 0 wraps to a
large index and fails the assertion. -/
def criterion (num : Nat) : Option Rat :=
  if num = 0 then none else (peirceTable[num - 1]?).map (fun n => (n : Rat) / 1000000)

/-- `struct sfptpd_peirce_filter` (`sfptpd_filter.h:89-107`). -/
structure Peirce where
  max : Nat
  weight : Rat
  sd : StdDev
  num : Nat
  w : Nat
  data : List Rat
deriving DecidableEq, Repr

/-- `sfptpd_peirce_filter_reset` (lines 345-351). -/
def Peirce.reset (f : Peirce) : Peirce := { f with sd := StdDev.init, num := 0, w := 0 }

/-- `sfptpd_peirce_filter_create` (lines 313-335). -/
def Peirce.create (max : Nat) (weight : Rat) : Option Peirce :=
  if 0 < max ∧ max ≤ 60 ∧ 0 ≤ weight ∧ weight ≤ 1 then
    some (Peirce.reset ⟨max, weight, StdDev.init, 0, 0, List.replicate max 0⟩)
  else none

/-- Lines 363-391: whether the sample is an outlier and the sample to store.
`|deviation| > criterion * sd` is decided on the squares. -/
def Peirce.judge (f : Peirce) (x : Rat) : Option (Bool × Rat) :=
  if f.num ≥ 5 then
    match f.sd.get, criterion f.num with
    | some (mean, var), some c =>
      let dev := x - mean
      if dev * dev > c * c * var then some (true, mean + dev * f.weight) else some (false, x)
    | _, _ => none
  else some (false, x)

/-- `sfptpd_peirce_filter_update` (lines 354-416); the result is whether
`ERANGE` is returned. -/
def Peirce.update (f : Peirce) (x : Rat) : Option (Peirce × Bool) :=
  match f.judge x with
  | none => none
  | some (rc, x) =>
    let sd := if f.num ≥ f.max then (f.data[f.w]?).bind f.sd.remove else some f.sd
    match sd with
    | none => none
    | some sd =>
      if f.w ≥ f.data.length then none
      else
        let w := if f.w + 1 ≥ f.max then 0 else f.w + 1
        let num := if f.num < f.max then f.num + 1 else f.num
        some ({ f with sd := sd.add x, data := f.data.set f.w x, w := w, num := num }, rc)

/-- `servo_get_outlier_threshold` (`dep/servo.c:318-327`), squared: the
criterion is stored in an `int`, which drops its fraction. -/
def Peirce.threshold (f : Peirce) : Option Rat :=
  if f.num = 0 then some 0
  else match f.sd.get, peirceTable[f.num - 1]? with
    | some (_, var), some n => some (((n / 1000000 : Nat) : Rat) * ((n / 1000000 : Nat) : Rat) * var)
    | _, _ => none

/-! ## Smallest filter -/

/-- What the smallest filter uses of a `sfptpd_ptp_tsd_t`: the monotonic time
and the path delay (ns); `tag` stands for the rest of the sample. -/
structure DelaySample where
  mono : Ts
  delay : Rat
  tag : Nat
deriving DecidableEq, Repr

/-- `struct sfptpd_smallest_filter` (lines 32-50). -/
structure Smallest where
  max : Nat
  ageing : Rat
  num : Nat
  w : Nat
  timeout : Ts
  data : List DelaySample
deriving DecidableEq, Repr

/-- `sfptpd_smallest_filter_reset` (lines 467-472). -/
def Smallest.reset (f : Smallest) : Smallest := { f with w := 0, num := 0 }

/-- `sfptpd_smallest_filter_create` (lines 423-448); `calloc` clears the array. -/
def Smallest.create (max : Nat) (ageing : Rat) (timeout : Int) : Option Smallest :=
  if 0 < max ∧ 0 < timeout then
    some (Smallest.reset ⟨max, ageing, 0, 0, ⟨timeout, 0, 0⟩, List.replicate max ⟨⟨0, 0, 0⟩, 0, 0⟩⟩)
  else none

/-- `sfptpd_smallest_filter_set_timeout` (lines 458-464). -/
def Smallest.setTimeout (f : Smallest) (timeout : Int) : Smallest := { f with timeout := ⟨timeout, 0, 0⟩ }

/-- The loop of lines 497-519, over the samples held, with the best sample so
far and its aged delay. -/
def smallestLoop (now timeout : Ts) (ageing : Rat) :
    List DelaySample → Option (DelaySample × Rat) → Option (Option (DelaySample × Rat))
  | [], best => some best
  | s :: rest, best =>
    match subtract now s.mono with
    | none => none
    | some age =>
      if age.sec < 0 then none
      else
        let aged := s.delay + ageing * floatS age
        match isGe timeout age with
        | none => none
        | some fresh =>
          let better : Bool := match best with
            | none => true
            | some (_, b) => decide (aged < b)
          smallestLoop now timeout ageing rest
            (if fresh ∧ s.delay ≥ 0 ∧ better then some (s, aged) else best)

/-- `sfptpd_smallest_filter_update` (lines 475-527). -/
def Smallest.update (f : Smallest) (s : DelaySample) : Option (Smallest × DelaySample) :=
  if f.w ≥ f.data.length then none
  else
    let data := f.data.set f.w s
    let w := if f.w + 1 ≥ f.max then 0 else f.w + 1
    let num := if f.num < f.max then f.num + 1 else f.num
    match smallestLoop s.mono f.timeout f.ageing (data.take num) none with
    | none => none
    | some none => some ({ f with data := data, w := w, num := num }, s)
    | some (some (b, _)) => some ({ f with data := data, w := w, num := num }, b)

end Verif.Filter
