import Verif.Clock.Model

/-!
# Clocks: what is asked of them

These definitions do not use the functions of the model, only its data.
-/

namespace Verif.Clock

/-- A call that moves a clock or changes its rate. -/
def Write.isTiming : Write → Bool
  | .step .. => true
  | .freq .. => true
  | _ => false

/-- The rate of the system clock, in ppb, that the kernel derives from a tick length in
microseconds and a frequency in 2^-16 ppm. -/
def rate (hz : Nat) (tick freq : Int) : Rat :=
  ((tick : Rat) * hz - 1000000) * 1000 + (freq : Rat) * 1000 / 65536

/-- The nearest value to `f` between `-m` and `m`. -/
def limited (m f : Rat) : Rat := max (-m) (min m f)

/-- What the kernel accepts and what the configuration allows: the tick of the system
clock within a tenth of its nominal length and its frequency within the tolerance, the
frequency of a NIC clock within the configured limit (the last half unit is rounding). -/
def Sane (cfg : Cfg) : Write → Prop
  | .freq _ (some t) f _ =>
      900000 ≤ t * cfg.hz ∧ t * cfg.hz ≤ 1100000 ∧ -cfg.tol ≤ f ∧ f ≤ cfg.tol
  | .freq _ none f _ =>
      (f : Rat) ≤ cfg.limit * 65536 / 1000 + 1 / 2 ∧
      -(cfg.limit * 65536 / 1000 + 1 / 2) ≤ (f : Rat)
  | _ => True

/-- A configuration that makes sense: a limit that is not negative, and a tick frequency
that divides 100000 (USER_HZ is 100 on Linux). -/
structure Usual (cfg : Cfg) : Prop where
  limit : 0 ≤ cfg.limit
  hz : 0 < cfg.hz
  divides : cfg.hz ∣ 100000
  tol : 0 ≤ cfg.tol

/-- The comparisons of an operation tell the difference that the devices really have. -/
def Accurate (e : Env) (w : World) : Prop :=
  ∀ i, e.diff1 i = .ok (w.time i - w.time 0) ∧ e.diff2 i = .ok (w.time i - w.time 0)

/-- One nanosecond in the units of the model. -/
def nanosecond : Int := 2 ^ 32

/-- Two times differ by less than a nanosecond. -/
def Close (a b : Int) : Prop := a - b < nanosecond ∧ b - a < nanosecond

instance (a b : Int) : Decidable (Close a b) := by unfold Close; infer_instance

end Verif.Clock
