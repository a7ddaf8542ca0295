import Verif.PtpServo.Model

/-!
# What a PTP servo may do to its clock

Independent of the functions of the servo.
-/

namespace Verif.PtpServo.Spec

open Verif.PtpServo
open Verif.Servo (Clock Ctrl KCall)

/-- The policy for a step by `x` ns, `updated` saying whether the clock has been adjusted by
measurements before. -/
def Permitted (ctrl : Ctrl) (updated : Bool) (x : Rat) : Prop :=
  match ctrl with
  | .slewAndStep => True
  | .stepForward => 0 < x
  | .stepAtStartup => updated = false
  | .stepOnFirstLock => updated = false
  | .noStep => False
  | .noAdjust => False

/-- The policies that step the clock once. -/
def Once (ctrl : Ctrl) : Prop := ctrl = .stepAtStartup ∨ ctrl = .stepOnFirstLock

/-- The steps made because of measurements. -/
def measuredSteps (a : Acts) : List Rat :=
  a.filterMap fun x => match x with
    | (.measured, .offset y) => some y
    | _ => none

/-- The magnitude of `x` is at least `t`. -/
def Large (t x : Rat) : Prop := t ≤ x ∨ t ≤ -x

/-- A clock that can be controlled. -/
def Writable (c : Clock) : Prop :=
  (c.sys.isSome = true ∨ c.hasPhc = true) ∧ c.readOnly = false ∧ c.blocked = 0

/-- `y` is the number nearest to `x` between `-m` and `m`. -/
def IsClamp (m x y : Rat) : Prop :=
  -m ≤ y ∧ y ≤ m ∧ (-m ≤ x → x ≤ m → y = x) ∧ (m < x → y = m) ∧ (x < -m → y = -m)

/-- A clock whose saved correction is within its range. -/
def Sound (c : Clock) : Prop := -c.maxFreq ≤ c.freqCorr ∧ c.freqCorr ≤ c.maxFreq

/-- No timestamps. -/
def Empty (t : Tsd.Tsd) : Prop :=
  t.m2s.valid = false ∧ t.s2m.valid = false ∧ t.s2p.valid = false ∧ t.p2s.valid = false

/-- The timestamps of `t` were all provided by events of `h`. -/
def From (h : List Ev) (t : Tsd.Tsd) : Prop :=
  (t.m2s.valid = true → ∃ tx rx corr i, Ev.m2s tx rx corr i ∈ h ∧ t.m2s = ⟨true, tx, rx, corr⟩) ∧
  (t.s2m.valid = true → ∃ tx rx corr, Ev.s2m tx rx corr ∈ h ∧ t.s2m = ⟨true, tx, rx, corr⟩) ∧
  (t.s2p.valid = true ∨ t.p2s.valid = true → ∃ a b d e corr, Ev.p2p a b d e corr ∈ h ∧
    t.s2p = ⟨true, a, b, Time.null⟩ ∧ t.p2s = ⟨true, d, e, corr⟩)

/-- The events after which older measurements are of no use: the time has jumped, or the servo has
been reset. -/
def Discards (c : Cfg) : Ev → Prop
  | .reset _ => True
  | .reinit _ _ => True
  | .command _ _ _ => c.ctrl ≠ .noAdjust
  | _ => False

end Verif.PtpServo.Spec
