import Verif.Phc.Model
import Mathlib.Algebra.Order.Field.Rat
import Mathlib.Data.Rat.Cast.Order

/-!
# Specification for the hardware clock devices

Nothing here uses a function of the model; only its types.
-/

namespace Verif.Phc

open Verif.Time (Ts)

/-- The names of the comparison methods as documented. -/
def methodNames : List (String × Method) :=
  [("sys-offset-precise", .precise), ("efx", .efx), ("pps", .pps), ("sys-offset-ext", .extended),
   ("sys-offset", .sysOffset), ("read-time", .readTime)]

/-- The names of the PPS input methods as documented. -/
def ppsNames : List (String × PpsMethod) := [("devpps", .devPps), ("devptp", .devPtp)]

/-- `params` are documented names and stand for the methods `ms`. -/
def Names {α : Type} (table : List (String × α)) (params : List String) (ms : List α) : Prop :=
  List.Forall₂ (fun s m => (s, m) ∈ table) params ms

/-- The methods in effect: those before the end mark. -/
def inEffect {α : Type} [DecidableEq α] (sentinel : α) (l : List α) : List α := l.takeWhile (· ≠ sentinel)

/-- A time in nanoseconds, as a rational number. -/
def ns (t : Ts) : Rat := (t.sec * 1000000000 + t.nsec : Int) + (t.frac : Rat) / 4294967296

/-- A time with its parts in their ranges. -/
def Normal (t : Ts) : Prop :=
  0 ≤ t.nsec ∧ t.nsec < 1000000000 ∧ 0 ≤ t.frac ∧ t.frac < 4294967296

instance (t : Ts) : Decidable (Normal t) := inferInstanceAs (Decidable (_ ∧ _))

/-- A reading by the kernel has no fraction of a nanosecond. -/
def Whole (s : Sample) : Prop := s.before.frac = 0 ∧ s.device.frac = 0 ∧ s.after.frac = 0

instance (s : Sample) : Decidable (Whole s) := inferInstanceAs (Decidable (_ ∧ _))

/-- The time between the two readings of the system clock. -/
def window (s : Sample) : Rat := ns s.after - ns s.before

/-- `d` is the device minus the middle of the window, for a sample with the
smallest positive window. -/
def Best (l : List Sample) (d : Ts) : Prop :=
  ∃ s ∈ l, 0 < window s ∧ (∀ t ∈ l, 0 < window t → window s ≤ window t) ∧
    ns d = ns s.device - (ns s.before + ns s.after) / 2

/-- The device is `δ` ns ahead of the system clock at some moment between the
two readings. -/
def Ahead (δ : Rat) (s : Sample) : Prop :=
  ns s.before ≤ ns s.device - δ ∧ ns s.device - δ ≤ ns s.after

/-! ### Choice of the method -/

/-- White space of the C library. -/
def blank (c : Char) : Prop := c ∈ [' ', '\n', '\t', '\r', '\x0b', '\x0c']

/-- The first word of a text. -/
def FirstWord (text word : List Char) : Prop :=
  ∃ lead rest, text = lead ++ word ++ rest ∧ (∀ c ∈ lead, blank c) ∧ (∀ c ∈ word, ¬ blank c) ∧ word ≠ [] ∧
    (∀ c ∈ rest.head?, blank c)

/-- The names of PPS devices fit into the buffer they are read into. -/
def ShortNames (env : Env) : Prop :=
  ∀ t l, env.listing t = .entries l → ∀ e text word, (e, some text) ∈ l → FirstWord text word → word.length < 16

/-- The kernel gives an errno with every failure. -/
structure Errnos (env : Env) : Prop where
  openDev : ∀ t n e, env.openDev t n = .error e → e ≠ 0
  enable : ∀ t e, env.enable t = some e → e ≠ 0
  efx : ∀ t e, env.efx t = .error e → e ≠ 0
  fetch : ∀ t e, env.fetch t = .error e → e ≠ 0
  precise : ∀ t e, env.precise t = .error e → e ≠ 0
  extended : ∀ t e, env.extended t = .error e → e ≠ 0
  sysOffset : ∀ t e, env.sysOffset t = .error e → e ≠ 0
  real : ∀ t e, env.real t = .error e → e ≠ 0
  device : ∀ t e, env.device t = .error e → e ≠ 0

/-- Listing the PPS devices leaves an errno if it fails. -/
def Listed (env : Env) : Prop := ∀ t, env.listing t ≠ .failed 0

/-- The PPS device of a hardware clock can be used: it is the first one that
carries the name of the clock, it can be opened, and pulses can be enabled. -/
def PpsUsable (env : Env) (name : List Char) (t : Nat) : Prop :=
  ∃ pre entry text post fd, env.listing t = .entries (pre ++ (entry, some text) :: post) ∧ FirstWord text name ∧
    (∀ e x, (e, some x) ∈ pre → ¬ FirstWord x name) ∧ env.openDev (t + 1) entry = .ok fd ∧ env.enable (t + 2) = none

/-- The name of a hardware clock. -/
def clockName (idx : Nat) : List Char := ['p', 't', 'p'] ++ Nat.toDigits 10 idx

/-- A method can be used when it is tried. -/
def Accepts (env : Env) (p : Phc) (t : Nat) : Method → Prop
  | .precise => p.caps.cross = true
  | .efx => p.efx = true ∧ ∃ d, env.efx t = .ok d
  | .pps => p.caps.pps = true ∧ PpsUsable env (clockName p.idx) t
  | .extended => ∃ l, env.extended t = .ok l
  | .sysOffset => env.sysProbe t = 14
  | .readTime => True
  | .max => False

/-- The methods have been tried one after the other in vain. -/
inductive Tried (env : Env) (p : Phc) : Nat → List Method → Nat → Prop
  | nil {t} : Tried env p t [] t
  | cons {t t' t'' m rest} (h : ¬ Accepts env p t m) (ht : t ≤ t') (hr : Tried env p t' rest t'') :
      Tried env p t (m :: rest) t''

/-- A table of methods as the options produce it: none listed twice, and where
all six are listed one is that which can always be used. -/
structure GoodTable (ms : List Method) : Prop where
  length : ms.length = 7
  nodup : (inEffect .max ms).Nodup
  ends : (inEffect .max ms).length < 6 ∨ .readTime ∈ inEffect .max ms

/-- The operations turn the device `w` into the devices of the list, one after
the other. -/
inductive Run (env : Env) : World → List World → Prop
  | nil {w} : Run env w []
  | cons {w w' l} (op : Op) (h : step env w op = .ok w') (hr : Run env w' l) : Run env w (w' :: l)

/-- Some operations lead from the first device to the second. -/
inductive Later (env : Env) : World → World → Prop
  | refl {w} : Later env w w
  | step {w w' w''} (op : Op) (h : Later env w w') (hs : step env w' op = .ok w'') : Later env w w''

/-- How often the comparison by pulses is given up. -/
def leaves : Method → List Method → Nat
  | _, [] => 0
  | m, m' :: rest => (if m = .pps ∧ m' ≠ .pps then 1 else 0) + leaves m' rest

/-! ### File descriptors -/

/-- How often something was done. -/
def times (log : List Ev) (e : Ev) : Nat := log.count e

end Verif.Phc
