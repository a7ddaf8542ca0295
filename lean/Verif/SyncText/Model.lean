import Mathlib.Order.WithBot
import Mathlib.Algebra.Order.Ring.Rat

/-!
# Texts of sync module masks and comparison of grandmasters

`src/sfptpd_sync_module.c`: names of alarms, constraints and control flags as text and
as JSON, and when information on a grandmaster counts as changed.

A buffer is a list of characters as long as the array; a store outside it is `none`.
-/

namespace Verif.SyncText

/-- `struct sync_module_bitmask_to_text_map` (`sfptpd_sync_module.c:46-49`). -/
abbrev Map := List (BitVec 32 × List Char)

/-- `alarm_texts` (`sfptpd_sync_module.c:75-93`) with the values of
`src/include/sfptpd_sync_module.h:87-119`. -/
def alarmTexts : Map :=
  [(1#32 <<< 7, "pps-no-signal".toList), (1#32 <<< 8, "pps-seq-num-error".toList),
   (1#32 <<< 9, "no-time-of-day".toList), (1#32 <<< 10, "pps-bad-signal".toList),
   (1#32 <<< 0, "no-sync-pkts".toList), (1#32 <<< 1, "no-follow-ups".toList),
   (1#32 <<< 2, "no-delay-resps".toList), (1#32 <<< 3, "no-pdelay-resps".toList),
   (1#32 <<< 4, "no-pdelay-resp-follow-ups".toList), (1#32 <<< 5, "no-tx-timestamps".toList),
   (1#32 <<< 6, "no-rx-timestamps".toList), (1#32 <<< 11, "no-interface".toList),
   (1#32 <<< 12, "clock-ctrl-failure".toList), (1#32 <<< 13, "clock-near-epoch".toList),
   (1#32 <<< 14, "caps-mismatch ".toList), (1#32 <<< 15, "clustering-guard".toList),
   (1#32 <<< 16, "sustained-sync-failure".toList)]

/-- `constraint_texts` (`sfptpd_sync_module.c:98-102`). -/
def constraintTexts : Map :=
  [(1#32 <<< 0, "must-be-selected".toList), (1#32 <<< 1, "cannot-be-selected".toList)]

/-- The map of `sfptpd_sync_module_ctrl_flags_text` (`sfptpd_sync_module.c:231-244`). -/
def flagTexts : Map :=
  [(1#32 <<< 0, "selected".toList), (1#32 <<< 1, "timestamp-processing".toList),
   (1#32 <<< 2, "clock-ctrl".toList), (1#32 <<< 3, "leap-second-guard".toList),
   (1#32 <<< 4, "clustering-determinant".toList)]

/-- A store into an array. -/
def put (buf : List Char) (pos : Nat) (s : List Char) : Option (List Char) :=
  if pos + s.length ≤ buf.length then some (buf.take pos ++ s ++ buf.drop (pos + s.length)) else none

/-- `snprintf` of a text of which `avail` characters fit, the terminating one included:
the array and the length of the text. -/
def snprintf (buf : List Char) (pos avail : Nat) (s : List Char) : Option (List Char × Nat) :=
  if avail = 0 then some (buf, s.length)
  else (put buf pos (s.take (avail - 1) ++ ['\x00'])).map (·, s.length)

/-- The loop of `sync_module_bitmask_to_text` (`sfptpd_sync_module.c:148-157`): the
array, `len` and `truncated`. -/
def loop (mask : BitVec 32) (size : Nat) : Map → List Char × Nat × Bool → Option (List Char × Nat × Bool)
  | [], s => some s
  | (bit, text) :: ms, (buf, len, trunc) =>
    if mask &&& bit ≠ 0 then
      match snprintf buf len (size - len) (text ++ [' ']) with
      | none => none
      | some (buf, r) =>
        if len + r ≥ size then loop mask size ms (buf, size, true)
        else loop mask size ms (buf, len + r, trunc)
    else loop mask size ms (buf, len, trunc)

/-- `sync_module_bitmask_to_text` (`sfptpd_sync_module.c:125-168`). `none` is a store
outside the array or the assertion that its size is at least 4. -/
def toText (mask : BitVec 32) (buf : List Char) (map : Map) : Option (List Char) :=
  let size := buf.length
  if size < 4 then none
  else
    let r :=
      if mask = 0 then
        match snprintf buf 0 size "none".toList with
        | none => none
        | some (buf, n) => if n ≥ size then some (buf, size, true) else some (buf, n, false)
      else loop mask size map (buf, 0, false)
    match r with
    | none => none
    | some (buf, _, trunc) =>
      if trunc then (snprintf buf (size - 4) 4 "...".toList).map Prod.fst else some buf

/-- The string in an array: up to the first zero. -/
def cstr (buf : List Char) : List Char := buf.takeWhile (· ≠ '\x00')

/-- `sfptpd_sync_module_alarms_stream` (`sfptpd_sync_module.c:247-264`): what is written
and the length returned, when writing does not fail. -/
def stream (mask : BitVec 32) (separator : List Char) (map : Map) : List Char × Nat :=
  let r := map.foldl (fun (s : List Char × Nat × List Char) m =>
    if mask &&& m.1 ≠ 0 then
      let t := s.2.2 ++ '"' :: (m.2 ++ ['"'])
      (s.1 ++ t, s.2.1 + t.length, separator)
    else s) ([], 0, [])
  (r.1, r.2.1)

/-- A `long double`: not a number, or a number or infinite. -/
inductive Fl where
  | nan
  | val (x : WithTop ℚ)
deriving DecidableEq

/-- `==` of floating point numbers. -/
def Fl.eq : Fl → Fl → Bool
  | .val x, .val y => decide (x = y)
  | _, _ => false

/-- `isnan`. -/
def Fl.isNan : Fl → Bool
  | .nan => true
  | .val _ => false

/-- `struct sfptpd_grandmaster_info` (`src/include/sfptpd_sync_module.h:186-196`). -/
structure Gm where
  clockId : Nat
  remote : Bool
  clkClass : Nat
  source : Nat
  accuracy : Fl
  variance : Fl
  steps : Nat
  timeTrace : Bool
  freqTrace : Bool
deriving DecidableEq

/-- `sfptpd_sync_module_gm_info_equal` (`sfptpd_sync_module.c:290-303`). -/
def gmEqual (a b : Gm) : Bool :=
  a.clockId == b.clockId && a.clkClass == b.clkClass && a.source == b.source && a.accuracy.eq b.accuracy &&
    (a.variance.eq b.variance || (a.variance.isNan && b.variance.isNan)) && a.steps == b.steps

/-- Whether new information of the selected instance is passed on, in
`on_sync_instance_state_changed` (`src/sfptpd_engine.c:1944-1951`). -/
def passedOn (selected : Bool) (old new : Gm) : Bool := selected && !gmEqual old new

end Verif.SyncText
