import Verif.GenConf.Model
import Verif.PtpConf.Spec

/-
# Specification for the general options
-/

namespace Verif.GenConf.Spec

open Verif.GenConf
open Verif.PtpConf (Text)

/-- The modules that have a trace level, and their levels. -/
def traced : List (Text × (Levels → Nat)) :=
  [("general".toList, Levels.general), ("threading".toList, Levels.threading), ("bic".toList, Levels.bic),
   ("netlink".toList, Levels.netlink), ("ntp".toList, Levels.ntp), ("servo".toList, Levels.servo),
   ("clocks".toList, Levels.clocks)]

/-- The outcome is an answer: the option is accepted or refused. -/
def Answered {α : Type} (r : Res α) : Prop := (∃ a, r = .ok a) ∨ (∃ n, r = .err n)

/-- A database gives, for a number, only records with that number. -/
def Honest (db : Db) : Prop := ∀ u rc r, db.pwuid u = (rc, some r) → r.uid = u

/-- The name has no record, and the lookup says so. -/
def Nameless (db : Db) (t : Text) : Prop := db.pwnam t = (0, none)

/-- The lookups of users answer with a record, or that there is none; they do not fail otherwise. -/
def Working (db : Db) : Prop :=
  (∀ t, (∃ r, db.pwnam t = (0, some r)) ∨ db.pwnam t = (0, none)) ∧
  (∀ u, (∃ r, db.pwuid u = (0, some r)) ∨ db.pwuid u = (0, none))

/-- The hexadecimal digits. -/
def hexDigits : List Char := ['0', '1', '2', '3', '4', '5', '6', '7', '8', '9', 'a', 'b', 'c', 'd', 'e', 'f']

/-- Octets written with two digits each, separated by colons. -/
inductive Octets : Text → List Nat → Prop
  | one (a b : Nat) (x y : Char) : hexDigits[a]? = some x → hexDigits[b]? = some y →
      Octets [x, y] [16 * a + b]
  | more (a b : Nat) (x y : Char) (t : Text) (os : List Nat) : hexDigits[a]? = some x →
      hexDigits[b]? = some y → Octets t os → Octets (x :: y :: ':' :: t) ((16 * a + b) :: os)

/-- The sync modules and their categories. -/
def modules : List (Text × Nat) :=
  [("freerun".toList, 1), ("ptp".toList, 2), ("pps".toList, 3), ("ntp".toList, 4), ("crny".toList, 5), ("gps".toList, 6)]

/-- The instances asked for by a line: the names after the module. -/
inductive Asked : List Text → List (Text × Nat) → Prop
  | mk (m : Text) (k : Nat) (ns : List Text) : (m, k) ∈ modules → Asked (m :: ns) (ns.map fun n => (n, k))

/-- The instances asked for by the lines of a file. -/
inductive AskedAll : List (List Text) → List (Text × Nat) → Prop
  | nil : AskedAll [] []
  | cons (ps : List Text) (file : List (List Text)) (a b : List (Text × Nat)) :
      Asked ps a → AskedAll file b → AskedAll (ps :: file) (a ++ b)

/-- The instances of a configuration. -/
def instances (c : Conf) : List (Text × Nat) := (c.secs.filter fun s => s.isInst).map fun s => (s.name, s.category)

end Verif.GenConf.Spec
