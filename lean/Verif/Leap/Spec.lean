import Verif.Leap.Model

/-!
# What a leap second is

Independent of the engine: the moment of a leap second, its direction, and which requests ask
for one.
-/

namespace Verif.Leap.Spec

open Verif.Leap

/-- A second, a day, in nanoseconds. -/
def second : Int := 10 ^ 9
def day : Int := 86400 * second

/-- `x` is the moment of the leap second of the day of `n`: the end of that day if a second is
inserted, one second before it if a second is deleted. -/
def IsMoment (t : LType) (n x : Int) : Prop :=
  ∃ k : Int, k * day ≤ n ∧ n < (k + 1) * day ∧
    x = (k + 1) * day - (if t = .l59 then second else 0)

/-- What a clock has to be moved by: a deleted second puts it forward. -/
def shift : LType → Int
  | .l59 => 1
  | .l61 => -1
  | .none => 0

/-- `g` kept between two and ten seconds. -/
def IsGuard (g x : Int) : Prop :=
  2 * second ≤ x ∧ x ≤ 10 * second ∧
    (2 * second ≤ g → g ≤ 10 * second → x = g) ∧
    (g < 2 * second → x = 2 * second) ∧ (10 * second < g → x = 10 * second)

/-- A request for a leap second: its type, the guard interval, the time at which it is made, and
whether the timer can be started.  The request of the test command has 12 s. -/
def request (testMode : Bool) : Ev → Option (LType × Int × Option Int × Bool)
  | .schedule t g n ok => some (t, g, n, ok)
  | .testLocal t n ok => if testMode then some (t, 12 * second, n, ok) else none
  | _ => none

/-- The timer expires. -/
def isTimer : Ev → Bool
  | .timer _ => true
  | _ => false

/-- Nothing that concerns the leap second happens: no request, no cancellation, no expiry. -/
def Quiet (testMode : Bool) (h : List Ev) : Prop :=
  ∀ e ∈ h, request testMode e = none ∧ e ≠ .cancel ∧ isTimer e = false

/-- The timer does not expire. -/
def NoTimer (h : List Ev) : Prop := ∀ e ∈ h, isTimer e = false

/-- The timer can be started whenever it has to be. -/
def timerWorks : Ev → Bool
  | .schedule _ _ _ ok => ok
  | .test _ _ ok => ok
  | .testLocal _ _ ok => ok
  | .timer ok => ok
  | .cancel => true

/-- The requests of a history. -/
def requests (testMode : Bool) (h : List Ev) : Nat :=
  (h.filter fun e => (request testMode e).isSome).length

/-- The steps of the clocks of the interfaces among the acts. -/
def steps (a : List Act) : List Int :=
  a.filterMap fun x => match x with
    | .step k => some k
    | .utcOffset _ => none

/-- An instance that works normally, and one that is suspended around a leap second. -/
def normal : Flags := ⟨true, false⟩
def suspended : Flags := ⟨false, true⟩

/-- Whether the configured control of the clocks lets the clocks be stepped over the leap
second. -/
def mayStep (ctrl : Ctrl) (t : LType) : Bool :=
  match ctrl with
  | .slewAndStep => true
  | .stepForward => decide (0 < shift t)
  | _ => false

end Verif.Leap.Spec
