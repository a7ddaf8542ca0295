import Verif.Common.CInt
import Verif.Common.CStr

/-!
# Model of the control socket

Models `sfptpd_control_socket_get_action` (`src/sfptpd_control.c:141-260`),
`sfptpd_servo_get_type_flag` (`src/sfptpd_servo.c:784-793`), the test modes of
`src/include/sfptpd_test.h:90-109`, the message written by
`sfptpd_engine_select_instance` (`src/sfptpd_engine.c:2778-2793`) and the
handling of new controller coefficients by a PTP port (`ptpd_pid_adjust`,
`src/ptp/ptpd2/ptpd_lib.c:581-587`; `servo_pid_adjust` and the initialisation
of the controller in `servo_init`, `src/ptp/ptpd2/dep/servo.c:131-134`, 218-235)
and by other servos (`sfptpd_servo_pid_adjust`, `src/sfptpd_servo.c:253-265`).

Simplifications: strings are lists of characters without the terminating NUL;
`strtod` is a parameter giving `none` for `NaN`.  Logging is left out.
-/

namespace Verif.Control

open CInt

/-- A string constant as list. -/
abbrev str (s : String) : List Char := s.toList

/-- `strsep` (C library) with one delimiter: the token, `none` for NULL, and
the remaining string. -/
def strsep (d : Char) : Option (List Char) → Option (List Char) × Option (List Char)
  | none => (none, none)
  | some s =>
    (some (s.takeWhile (fun c => c != d)),
      if d ∈ s then some ((s.dropWhile (fun c => c != d)).drop 1) else none)

/-- Value of a digit, `none` if it is not one in the base. -/
def digit (base : Nat) (c : Char) : Option Nat :=
  let v : Option Nat :=
    if '0' ≤ c ∧ c ≤ '9' then some (c.toNat - 48)
    else if 'a' ≤ c ∧ c ≤ 'f' then some (c.toNat - 87)
    else if 'A' ≤ c ∧ c ≤ 'F' then some (c.toNat - 55)
    else none
  match v with
  | some n => if n < base then some n else none
  | none => none

/-- The digits in front of the text, as a number. -/
def digits (base : Nat) : Nat → List Char → Nat
  | acc, [] => acc
  | acc, c :: r =>
    match digit base c with
    | some v => digits base (base * acc + v) r
    | none => acc

/-- The value of an unsigned number with the prefixes of C. -/
def magnitude (s : List Char) : Nat :=
  match s with
  | '0' :: x :: h :: _ =>
    if (x == 'x' || x == 'X') && (digit 16 h).isSome then digits 16 0 (s.drop 2)
    else digits 8 0 s
  | '0' :: _ => digits 8 0 s
  | _ => digits 10 0 s

/-- `strtol(s, NULL, 0)` (C library); `none` stands for `errno = ERANGE`. -/
def strtol0 (s : List Char) : Option Int :=
  let s := s.dropWhile CStr.isSpace
  let neg := s.head? == some '-'
  let s := if s.head? == some '-' || s.head? == some '+' then s.drop 1 else s
  let v : Nat := magnitude s
  let i : Int := if neg then -(v : Int) else v
  if i > 9223372036854775807 ∨ i < -9223372036854775808 then none else some i

/-- `SFPTPD_TESTS_ARRAY` (`src/include/sfptpd_test.h:90-108`); the identifiers
are the values of `enum sfptpd_test_id`. -/
def testModes : List (String × Nat) :=
  [("leap_second_61", 0), ("leap_second_59", 1), ("leap_second_cancel", 2),
   ("local_leap_second_61", 3), ("local_leap_second_59", 4), ("local_leap_second_cancel", 5),
   ("utc_offset", 6), ("timestamp_jitter", 7), ("transparent_clock", 8),
   ("boundary_clock_change", 9), ("grandmaster_clock_change", 10), ("no_sync_pkts", 11),
   ("no_follow_ups", 12), ("no_delay_resps", 13), ("bogus_pps_events", 14),
   ("adjust_frequency", 15), ("no_announce_pkts", 16)]

/-- `enum sfptpd_control_action` with its parameters; coefficients are `none`
for `NaN`. -/
inductive Action (ν : Type) where
  | nop | error | exit | logrotate | stepclocks | dumptables
  | select (name : List Char)
  | test (id : Nat) (p0 p1 p2 : Int)
  | pid (kp ki kd : Option ν) (mask : Nat) (reset : Bool)
deriving DecidableEq

variable {ν : Type}

/-- The loop over the parameters of a test mode (lines 204-216): `n` are left. -/
def testParams : Nat → Option (List Char) → Option (List Int)
  | 0, _ => some []
  | n + 1, o =>
    match strsep ',' o with
    | (none, _) => some (List.replicate (n + 1) 0)
    | (some t, o') =>
      match strtol0 t with
      | none => none
      | some v =>
        match testParams n o' with
        | none => none
        | some l => some (s32 v :: l)

/-- `sfptpd_servo_get_type_flag` (`src/sfptpd_servo.c:784-793`). -/
def typeFlag (t : List Char) : Nat :=
  if t = str "local" then 1 else if t = str "ptp" then 2 else if t = str "pps" then 4 else 0

/-- The loop over the keywords (lines 240-249), `fuel` bounding its passes. -/
def keywords : Nat → Option (List Char) → Nat → Bool → Option (Nat × Bool)
  | 0, _, _, _ => none
  | fuel + 1, o, mask, reset =>
    match strsep ',' o with
    | (none, _) => some (mask, reset)
    | (some t, o') =>
      if typeFlag t ≠ 0 then keywords fuel o' (mask ||| typeFlag t) reset
      else if t = str "reset" then keywords fuel o' mask true
      else none

/-- One of the three coefficients (lines 230-237). -/
def coefficient (strtod : List Char → Option ν) : Option (List Char) → Option ν
  | none => none
  | some [] => none
  | some t => strtod t

/-- The command `pid_adjust` (lines 218-254). -/
def pidAdjust (strtod : List Char → Option ν) (opts : Option (List Char)) : Action ν :=
  let (t1, o1) := strsep ',' opts
  let (t2, o2) := strsep ',' o1
  let (t3, o3) := strsep ',' o2
  match keywords 130 o3 0 false with
  | none => .error
  | some (mask, reset) =>
    .pid (coefficient strtod t1) (coefficient strtod t2) (coefficient strtod t3)
      (if mask = 0 then 7 else mask) reset

/-- The command `testmode` (lines 184-217). -/
def testMode (opts : Option (List Char)) : Action ν :=
  match strsep ',' opts with
  | (none, _) => .error
  | (some t, o) =>
    match testModes.find? (fun m => t = str m.1) with
    | none => .error
    | some m =>
      match testParams 3 o with
      | some [a, b, c] => .test m.2 a b c
      | _ => .error

/-- What is in the buffer: 127 bytes are read, and the string ends at the
first NUL (lines 151-159). -/
def received (b : List Char) : List Char := (b.take 127).takeWhile (fun c => c != '\x00')

/-- `sfptpd_control_socket_get_action` (lines 141-260); the datagram is `none`
if reading fails. -/
def getAction (strtod : List Char → Option ν) (datagram : Option (List Char)) : Action ν :=
  match datagram with
  | none => .error
  | some b =>
    match strsep '=' (some (received b)) with
    | (none, _) => .nop
    | (some command, opts) =>
      if command = str "exit" then .exit
      else if command = str "logrotate" then .logrotate
      else if command = str "stepclocks" then .stepclocks
      else if command = str "dumptables" then .dumptables
      else if command = str "selectinstance" then
        match strsep '=' opts with
        | (none, _) => .error
        | (some opt, _) => .select (opt.take 63)
      else if command = str "testmode" then testMode opts
      else if command = str "pid_adjust" then pidAdjust strtod opts
      else .nop

/-- The name as the engine reads it from the message of
`sfptpd_engine_select_instance` (`src/sfptpd_engine.c:2778-2793`):
`strncpy` fills 63 of the 64 bytes; `stale` is what the last byte holds from
earlier use of the message.  `none`: the string does not end within the field. -/
def selectMsg (stale : Char) (name : List Char) : Option (List Char) :=
  if name.length < 63 then some name
  else if stale = '\x00' then some (name.take 63)
  else none

/-! ## Controller coefficients -/

/-- Three coefficients, `none` for `NaN`. -/
structure Coef (ν : Type) where
  kp : Option ν
  ki : Option ν
  kd : Option ν
deriving DecidableEq

/-- `sfptpd_pid_filter_adjust` (`src/sfptpd_filter.c:177-193`). -/
def adjust (pid msg : Coef ν) : Coef ν :=
  { kp := if msg.kp.isSome then msg.kp else pid.kp
    ki := if msg.ki.isSome then msg.ki else pid.ki
    kd := if msg.kd.isSome then msg.kd else pid.kd }

/-- The coefficients of a PTP port: its options and its controller. -/
structure Port (ν : Type) where
  opts : Coef ν
  pid : Coef ν

/-- What happens to a PTP port. -/
inductive PortEv (ν : Type) where
  /-- `ptpd_pid_adjust`. -/
  | adjust (msg : Coef ν)
  /-- `servo_init`, when the port is initialised again. -/
  | init

/-- `ptpd_pid_adjust` (`src/ptp/ptpd2/ptpd_lib.c:581-587`) and the controller
part of `servo_init` (`src/ptp/ptpd2/dep/servo.c:131-134`). -/
def portStep (p : Port ν) : PortEv ν → Port ν
  | .adjust m => { opts := m, pid := adjust p.pid m }
  | .init => { p with pid := p.opts }

/-- A port configured with `c` after some events. -/
def portRun (c : Coef ν) (evs : List (PortEv ν)) : Port ν := evs.foldl portStep ⟨c, c⟩

/-- A servo of the engine or of a PPS instance after some commands
(`src/sfptpd_servo.c:253-265`). -/
def servoRun (c : Coef ν) (msgs : List (Coef ν)) : Coef ν := msgs.foldl adjust c

end Verif.Control
