import Verif.Control.Model

/-!
# Specification of the control commands
-/

namespace Verif.Control.Spec

open Verif.Control

variable {ν : Type}

/-- The test modes, in the order of their identifiers. -/
def modes : List String :=
  ["leap_second_61", "leap_second_59", "leap_second_cancel", "local_leap_second_61",
   "local_leap_second_59", "local_leap_second_cancel", "utc_offset", "timestamp_jitter",
   "transparent_clock", "boundary_clock_change", "grandmaster_clock_change", "no_sync_pkts",
   "no_follow_ups", "no_delay_resps", "bogus_pps_events", "adjust_frequency", "no_announce_pkts"]

/-- Value of decimal digits, most significant first. -/
def value : List Nat → Nat
  | [] => 0
  | d :: r => d * 10 ^ r.length + value r

/-- The character of a decimal digit. -/
def numeral (d : Nat) : Char :=
  match d with
  | 0 => '0' | 1 => '1' | 2 => '2' | 3 => '3' | 4 => '4'
  | 5 => '5' | 6 => '6' | 7 => '7' | 8 => '8' | _ => '9'

/-- Digits of a decimal number without leading zeros. -/
def Decimal (ds : List Nat) : Prop := (∀ d ∈ ds, d < 10) ∧ (ds = [0] ∨ ∃ d r, ds = d :: r ∧ d ≠ 0)

/-- The text is the number, written in decimal; it fits an `int`. -/
inductive IsInt : List Char → Int → Prop
  | pos (ds : List Nat) (h : Decimal ds) (hr : value ds ≤ 2147483647) :
      IsInt (ds.map numeral) (value ds)
  | neg (ds : List Nat) (h : Decimal ds) (hr : value ds ≤ 2147483648) :
      IsInt ('-' :: ds.map numeral) (-(value ds : Int))

/-- The servos concerned: local 1, PTP 2, PPS 4; all if none is named. -/
def servos (ks : List (List Char)) : Nat :=
  if "local".toList ∈ ks ∨ "ptp".toList ∈ ks ∨ "pps".toList ∈ ks then
    (if "local".toList ∈ ks then 1 else 0) + (if "ptp".toList ∈ ks then 2 else 0) +
      (if "pps".toList ∈ ks then 4 else 0)
  else 7

/-- The keywords of `pid_adjust`. -/
def keyword : List (List Char) :=
  ["local".toList, "ptp".toList, "pps".toList, "reset".toList]

/-- Fields put after a text, with commas. -/
def fields (l : List (List Char)) : List Char := l.flatMap (fun t => ',' :: t)

/-- A coefficient: left out, or a number. -/
def Coefficient (isNum : List Char → ν → Prop) (t : List Char) (v : Option ν) : Prop :=
  (t = [] ∧ v = none) ∨ (t ≠ [] ∧ ',' ∉ t ∧ ∃ q, isNum t q ∧ v = some q)

/-- Parameters padded with zeros. -/
def padded (ps : List (List Char × Int)) (i : Nat) : Int :=
  match ps[i]? with
  | some p => p.2
  | none => 0

/-- The text is a well-formed command with that meaning. -/
inductive Says (isNum : List Char → ν → Prop) : List Char → Action ν → Prop
  | exit : Says isNum "exit".toList .exit
  | logrotate : Says isNum "logrotate".toList .logrotate
  | stepclocks : Says isNum "stepclocks".toList .stepclocks
  | dumptables : Says isNum "dumptables".toList .dumptables
  | select (n : List Char) (h : '=' ∉ n) (hl : n.length ≤ 63) :
      Says isNum ("selectinstance=".toList ++ n) (.select n)
  | test (id : Nat) (n : String) (ps : List (List Char × Int))
      (hn : modes[id]? = some n) (hp : ps.length ≤ 3) (hv : ∀ p ∈ ps, IsInt p.1 p.2) :
      Says isNum ("testmode=".toList ++ n.toList ++ fields (ps.map (·.1)))
        (.test id (padded ps 0) (padded ps 1) (padded ps 2))
  | pid (a b c : List Char) (p q r : Option ν) (ks : List (List Char))
      (ha : Coefficient isNum a p) (hb : Coefficient isNum b q) (hc : Coefficient isNum c r)
      (hk : ∀ k ∈ ks, k ∈ keyword) :
      Says isNum ("pid_adjust=".toList ++ a ++ fields (b :: c :: ks))
        (.pid p q r (servos ks) (decide ("reset".toList ∈ ks)))

/-- What `strtod` must do: read numbers, and give zero for a text that does not
begin like a number. -/
structure Reads (isNum : List Char → ν → Prop) (zero : ν) (strtod : List Char → Option ν) :
    Prop where
  num : ∀ t q, isNum t q → strtod t = some q
  word : strtod "ptp".toList = some zero

/-- The command word of a datagram: what comes before the first `=` or NUL, in
the first 127 bytes. -/
def Word (b : List Char) (w : List Char) : Prop :=
  '=' ∉ w ∧ '\x00' ∉ w ∧
  (b.take 127 = w ∨ ∃ r, b.take 127 = w ++ '=' :: r ∨ b.take 127 = w ++ '\x00' :: r)

/-- The last value given for a coefficient. -/
def latest (v : Option ν) : List (Option ν) → Option ν
  | [] => v
  | some w :: r => latest (some w) r
  | none :: r => latest v r

end Verif.Control.Spec
