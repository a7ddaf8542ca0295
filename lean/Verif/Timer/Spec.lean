import Verif.Timer.Model

/-!
# What is expected of timers

Counts over the operations since the timer was started.
-/

namespace Verif.Timer

/-- A timer started for `x` seconds takes `n` ticks of 1/16 s: as many as fit, at least one. -/
def Ticks (x : ℚ) (n : Nat) : Prop :=
  (n : ℚ) ≤ 16 * x ∧ 16 * x < n + 1 ∧ 0 < n ∨ 16 * x < 1 ∧ n = 1

/-- The ticks counted by timer `i`, which end when it is stopped. -/
def ticksOf (i : Nat) : List Op → Nat
  | [] => 0
  | .tick :: os => ticksOf i os + 1
  | .stop j :: os => if j = i then 0 else ticksOf i os
  | _ :: os => ticksOf i os

/-- The operations up to the last question whether timer `i` has expired, if there was one. -/
def upToLast (i : Nat) : List Op → List Op
  | [] => []
  | o :: os => if Op.expired i ∈ o :: os then o :: upToLast i os else []

/-- A tick is the `n`-th, `2n`-th, ... of those since the start and later than the last question. -/
def Due (n t q : Nat) : Prop := ∃ m, q < m * n ∧ m * n ≤ t

end Verif.Timer
