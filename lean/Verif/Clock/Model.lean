import Mathlib.Data.Rat.Floor
import Mathlib.Algebra.Order.Floor.Ring

/-!
# Clocks (src/sfptpd_clock.c)

The clock objects, what they write to the kernel, how they are configured and
how they follow the interfaces of the machine.

A clock is known by a number which stands for its pointer; number 0 is
`sfptpd_clock_system`.  Times are integers in units of 2^-32 ns, the resolution
of `struct sfptpd_timespec`; `long double` frequencies are rationals.

The answers of the kernel, of the PHC layer and of the file system are
parameters (`Env`).  Not modelled: log messages, statistics, locking, the text
of the names (a parameter of the configuration), PPS, and the bookkeeping of
which configuration entries were applied (it is only used in messages).
-/

namespace Verif.Clock

/-- `sfptpd_clock_type_t` (include/sfptpd_clock.h). -/
inductive Kind
  | system | sfc | xnet | nonSfc
  deriving DecidableEq, Repr

/-- The bits of `kernel_status` that this file sets (STA_UNSYNC, STA_INS, STA_DEL). -/
structure KStatus where
  unsync : Bool
  ins : Bool
  del : Bool
  deriving DecidableEq, Repr

/-- `enum sfptpd_leap_second_type`. -/
inductive Leap
  | none | del59 | ins61
  deriving DecidableEq, Repr

/-- `struct sfptpd_clock`, 181-245.  `phc` is the index of the PHC device that is
open, `none` for `u.nic.phc == NULL`; `stepped` is `phc->stepped_since_sample`. -/
structure Clk where
  kind : Kind
  nic : Nat := 0
  deleted : Bool := false
  discipline : Bool := false
  readOnly : Bool := false
  blocked : Int := 0
  corr : Rat := 0
  maxAdj : Rat := 0
  phc : Option Nat := Option.none
  devIdx : Int := 0
  done : Bool := false
  good : Nat := 0
  reports : Bool := false
  hwid : List Nat := [0, 0, 0, 0, 0, 0, 0, 0]
  names : List String := []
  stepped : Bool := false
  deriving DecidableEq, Repr

/-- What is used of an entry of the interface table: name, NIC, `clock_supports_phc`,
`ts_info.phc_index`, class and MAC address. -/
structure Intf where
  name : String
  nic : Nat
  hasPhc : Bool
  phcIdx : Int
  cls : Kind
  mac : List Nat
  deriving DecidableEq, Repr

/-- What is used of `struct sfptpd_config_general`.  `naming` gives the short name,
the long name and the hardware id string of a clock from its device index and id;
`hz` is sysconf(_SC_CLK_TCK) and `tol` the tolerance that adjtimex reports. -/
structure Cfg where
  noAdjust : Bool := false
  nonSfc : Bool := false
  rtcAdjust : Bool := false
  persistent : Bool := true
  disciplineAll : Bool := true
  always : Bool := false
  avoidEfx : Bool := false
  legacy : Bool := false
  bits : List Nat := [0, 0, 0, 0, 0, 0, 0, 0]
  limit : Rat := 100000000
  readonlyNames : List String := []
  listNames : List String := []
  hz : Nat := 100
  tol : Int := 32768000
  naming : Int → List Nat → List String := fun _ _ => []

/-- A call of the kernel or of the driver: clock_adjtime() with ADJ_SETOFFSET,
clock_adjtime() with ADJ_FREQUENCY, adjtimex() with ADJ_STATUS, and the private
ioctl that reports the synchronization status. -/
inductive Write
  | step (i : Nat) (ns : Int) (st : Option KStatus)
  | freq (i : Nat) (tick : Option Int) (f : Int) (st : Option KStatus)
  | status (st : KStatus)
  | sync (i : Nat) (b : Bool) (timeout : Nat)
  deriving DecidableEq, Repr

/-- The clock that a call acts on. -/
def Write.target : Write → Nat
  | .step i _ _ => i
  | .freq i _ _ _ => i
  | .status _ => 0
  | .sync i _ _ => i

/-- The whole state: the linked list of clocks, head first; the clock objects; the
next unused pointer; `u.system.kernel_status`; the time each device shows less
true time; the frequency correction files (in 10^-6 ppb); the active PTP interfaces
in the order of `sfptpd_interface_get_active_ptp_snapshot`; and the calls made. -/
structure World where
  ids : List Nat
  clk : Nat → Clk
  next : Nat
  kst : KStatus
  time : Nat → Int
  files : Nat → Option Int
  ifs : List Intf
  writes : List Write

/-- The answers of the world outside during one operation.  `adjT`, `adjF` and `adjS`
are what clock_adjtime()/adjtimex() return for a step, a frequency and a status;
`errno` goes with a negative value.  `diff1`, `diff2` are the results of the first
and second `sfptpd_phc_compare_to_sys_clk` of a comparison. -/
structure Env where
  adjT : Nat → Int := fun _ => 0
  adjF : Nat → Int := fun _ => 0
  adjS : Int := 0
  errno : Nat := 22
  diff1 : Nat → Except Nat Int := fun _ => .ok 0
  diff2 : Nat → Except Nat Int := fun _ => .ok 0
  getFails : Nat → Bool := fun _ => false
  base : Int := 0
  canWrite : Bool := true
  openRc : Int → Nat := fun _ => 0
  startRc : Int → Nat := fun _ => 0
  devMax : Nat → Nat := fun _ => 100000000
  ioctlRc : Nat → Nat := fun _ => 0

/-- How an operation may end without returning: a failed assertion, or the clocks
freed by `sfptpd_clock_shutdown` while they are still in use. -/
inductive Fault
  | assertion | dangling
  deriving DecidableEq, Repr

def ENOENT : Nat := 2
def EIO : Nat := 5
def ENODEV : Nat := 19
def EINVAL : Nat := 22
def ERANGE : Nat := 34
def ENOSYS : Nat := 38
def ENODATA : Nat := 61
def EOPNOTSUPP : Nat := 95

/-- Replace the clock object `i`. -/
def World.set (w : World) (i : Nat) (c : Clk) : World :=
  { w with clk := fun j => if j = i then c else w.clk j }

/-- Add a call to the log. -/
def World.log (w : World) (x : Write) : World := { w with writes := w.writes ++ [x] }

/-- A NIC clock without a PHC device. -/
def noPhc (c : Clk) : Bool := c.kind != .system && c.phc.isNone

/-- `roundl`: to the nearest integer, halves away from zero. -/
def roundl (x : Rat) : Int := if 0 ≤ x then ⌊x + 1 / 2⌋ else - ⌊-x + 1 / 2⌋

/-! ## Steps -/

/-- `clock_record_step`, 1091-1102, with the assertion of `sfptpd_phc_record_step`
(src/sfptpd_phc.c, 1346-1351). -/
def recordStep (w : World) : Except Fault World :=
  if w.ids.any (fun i => noPhc (w.clk i)) then .error .assertion
  else .ok { w with
    clk := fun j => if j ∈ w.ids ∧ (w.clk j).kind ≠ .system
      then { w.clk j with stepped := true } else w.clk j }

/-- The status that goes with an adjustment of the system clock when the
configuration has `rtc_adjust`. -/
def statusFor (cfg : Cfg) (w : World) (i : Nat) : Option KStatus :=
  if (w.clk i).kind = .system ∧ cfg.rtcAdjust = true then some w.kst else none

/-- `sfptpd_clock_adjust_time`, 1751-1812.  The fraction of a nanosecond of the
offset is dropped: `tv_usec` is `nsec`. -/
def adjustTime (cfg : Cfg) (e : Env) (w : World) (i : Nat) (off : Int) :
    Except Fault (World × Nat) :=
  if noPhc (w.clk i) then .ok (w, ENODEV)
  else if (w.clk i).readOnly then .ok (w, 0)
  else if 0 < (w.clk i).blocked then .ok (w, 0)
  else
    let w1 := w.log (.step i (off / 4294967296) (statusFor cfg w i))
    if e.adjT i < 0 then .ok (w1, e.errno)
    else
      match recordStep { w1 with
          time := fun j => if j = i then w.time j + off / 4294967296 * 4294967296
            else w.time j } with
      | .error f => .error f
      | .ok w2 => .ok (w2, 0)

/-! ## Frequency -/

/-- `system->max_freq_adj`, 628: the tolerance in ppb. -/
def sysMax (cfg : Cfg) : Rat := (cfg.tol : Rat) / (65536 / 1000)

/-- `tick_resolution_ppb`, 629. -/
def tickRes (cfg : Cfg) : Rat := (cfg.hz : Rat) * 1000

/-- `max_tick`, 630-631 (`min_tick` is its negative). -/
def maxTick (cfg : Cfg) : Rat := 100000 / (cfg.hz : Rat)

/-- The limits on a frequency adjustment, 1855-1859. -/
def saturate (m f : Rat) : Rat :=
  let f1 := if m < f then m else f
  if f1 < -m then -m else f1

/-- The tick adjustment and the rest of the frequency for the system clock,
1871-1885. -/
def split (cfg : Cfg) (f : Rat) : Rat × Rat :=
  let m := sysMax cfg
  if m < f then
    let t0 : Rat := roundl ((f - m) / tickRes cfg)
    let t := if maxTick cfg < t0 then maxTick cfg else t0
    (t, f - t * tickRes cfg)
  else if f < -m then
    let t0 : Rat := -(roundl ((-f - m) / tickRes cfg) : Rat)
    let t := if t0 < -maxTick cfg then -maxTick cfg else t0
    (t, f - t * tickRes cfg)
  else (0, f)

/-- The second saturation, 1887-1891. -/
def satRest (cfg : Cfg) (f : Rat) : Rat :=
  if sysMax cfg < f then sysMax cfg
  else if f < -sysMax cfg then -sysMax cfg else f

/-- `t.tick`, 1894. -/
def tickOf (cfg : Cfg) (f : Rat) : Int := roundl ((split cfg f).1 + 1000000 / (cfg.hz : Rat))

/-- `t.freq`, 1905. -/
def freqField (f : Rat) : Int := roundl (f * (65536 / 1000))

/-- The call that an adjustment makes, 1855-1905. -/
def freqWrite (cfg : Cfg) (w : World) (i : Nat) (f : Rat) : Write :=
  let g := saturate (w.clk i).maxAdj f
  if (w.clk i).kind = .system then
    .freq i (some (tickOf cfg g)) (freqField (satRest cfg (split cfg g).2)) (statusFor cfg w i)
  else .freq i none (freqField g) none

/-- `sfptpd_clock_adjust_frequency`, 1815-1920. -/
def adjustFreq (cfg : Cfg) (e : Env) (w : World) (i : Nat) (f : Rat) : World × Nat :=
  if noPhc (w.clk i) then (w, ENODEV)
  else if (w.clk i).readOnly then (w, 0)
  else if 0 < (w.clk i).blocked then (w, 0)
  else
    (w.log (freqWrite cfg w i f), if e.adjF i < 0 then e.errno else 0)

/-! ## Comparing and setting -/

/-- One of the two comparisons of a clock with the system clock, 2072-2134; nothing is
measured for the system clock. -/
def measure (r : Except Nat Int) (w : World) (i : Nat) : World × Except Nat Int :=
  if (w.clk i).kind = .system then (w, .ok 0)
  else match r with
    | .error n => (w.set i { w.clk i with good := 0 }, .error n)
    | .ok d => (w.set i { w.clk i with good := (w.clk i).good + 1 }, .ok d)

/-- `sfptpd_clock_compare`, 2039-2146: the state, the result code and what `diff` is
left with.  The call of `sfptpd_thread_error` for EOPNOTSUPP is left out. -/
def compare (e : Env) (w : World) (a b : Nat) : World × Nat × Int :=
  if (w.clk a).deleted || (w.clk b).deleted then (w, ENOENT, 0)
  else if noPhc (w.clk a) || noPhc (w.clk b) then (w, ENOSYS, 0)
  else
    match measure (e.diff1 a) w a with
    | (w1, .error n) => (w1, n, 0)
    | (w1, .ok d1) =>
      match measure (e.diff2 b) w1 b with
      | (w2, .error n) => (w2, n, d1)
      | (w2, .ok d2) => (w2, 0, d1 - d2)

/-- `sfptpd_clock_set_time`, 2149-2183. -/
def setTime (cfg : Cfg) (e : Env) (w : World) (dst src : Nat) (thr : Option Int)
    (initial : Bool) : Except Fault (World × Nat) :=
  if dst = src ∨ (initial = true ∧ (w.clk dst).done = true) then .ok (w, 0)
  else
    let r := compare e w src dst
    if r.2.1 = 0 ∧ (thr.isNone = true ∨ thr.getD 0 ≤ r.2.2) then
      match adjustTime cfg e r.1 dst r.2.2 with
      | .error f => .error f
      | .ok (w2, rc) =>
        if rc = 0 ∧ initial = true then
          .ok (w2.set dst { w2.clk dst with done := true }, 0)
        else .ok (w2, rc)
    else .ok (r.1, r.2.1)

/-! ## Saved frequency corrections -/

/-- What `fprintf("%Lf\n")` leaves in the file (sfptpd_log_write_freq_correction,
src/sfptpd_logging.c, 806-825): six decimals. -/
def toFile (f : Rat) : Int := roundl (f * 1000000)

/-- What is read back (828-860). -/
def ofFile (n : Int) : Rat := (n : Rat) / 1000000

/-- The correction to use and the result code so far, 1438-1455. -/
def savedCorr (cfg : Cfg) (w : World) (i : Nat) : Rat × Nat :=
  if cfg.persistent then
    match w.files i with
    | some n => (ofFile n, 0)
    | none => (0, ENODATA)
  else (0, 0)

/-- A correction out of range: 0 is used and the file is deleted, 1463-1466. -/
def rejectCorr (w : World) (i : Nat) : World :=
  { w.set i { w.clk i with corr := 0 } with
    files := fun j => if j = i then none else w.files j }

/-- The correction is remembered. -/
def keepCorr (w : World) (i : Nat) (v : Rat) : World := w.set i { w.clk i with corr := v }

/-- `sfptpd_clock_load_freq_correction`, 1425-1476. -/
def loadFreq (cfg : Cfg) (e : Env) (w : World) (i : Nat) : World × Nat :=
  let v := savedCorr cfg w i
  if (w.clk i).maxAdj < v.1 ∨ v.1 < -(w.clk i).maxAdj then
    ((adjustFreq cfg e (rejectCorr w i) i 0).1, ENODATA)
  else ((adjustFreq cfg e (keepCorr w i v.1) i v.1).1, v.2)

/-- `sfptpd_clock_save_freq_correction`, 1479-1511. -/
def saveFreq (e : Env) (w : World) (i : Nat) (f : Rat) : World × Nat :=
  let c := w.clk i
  if c.maxAdj < f ∨ f < -c.maxAdj then (w, ERANGE)
  else
    let w1 := if e.canWrite then { w with
      files := fun j => if j = i then some (toFile f) else w.files j } else w
    (w1.set i { c with corr := f }, if e.canWrite then 0 else EIO)

/-- Clocks that this program steps of its own accord, 2344-2346 and 1997-1999. -/
def eligible (cfg : Cfg) (k : Kind) : Bool :=
  k == .sfc || k == .xnet || (k == .nonSfc && cfg.nonSfc)

/-- The seconds that `sfptpd_clock_get_time` (2009-2036) returns for clock `i`. -/
def secondsOf (e : Env) (w : World) (i : Nat) : Int :=
  (e.base + w.time i) / (4294967296 * 1000000000)

/-- `sfptpd_clock_correct_new`, 2333-2364; the threshold is
SFPTPD_NIC_TIME_VALID_THRESHOLD (include/sfptpd_constants.h, 78). -/
def correctNew (cfg : Cfg) (e : Env) (w : World) (i : Nat) : Except Fault World :=
  let w1 := (loadFreq cfg e w i).1
  if eligible cfg (w1.clk i).kind then
    if noPhc (w1.clk i) || e.getFails i then .ok w1
    else if secondsOf e w1 i < 157680000 ∨ cfg.always = true then
      match setTime cfg e w1 i 0 none true with
      | .error f => .error f
      | .ok (w2, _) => .ok w2
    else .ok w1
  else .ok w1

/-! ## Leap seconds and status -/

/-- The flags for a leap second, 1946-1960. -/
def leapStatus (k : KStatus) : Leap → KStatus
  | .none => { k with ins := false, del := false }
  | .del59 => { k with ins := false, del := true }
  | .ins61 => { k with ins := true, del := false }

/-- `sfptpd_clock_schedule_leap_second`, 1923-1975.  What adjtimex returns is what
the function returns. -/
def scheduleLeap (e : Env) (w : World) (t : Leap) : World × Int :=
  if (w.clk 0).readOnly then (w, 0)
  else
    let k := leapStatus w.kst t
    let w1 := { w with kst := k }.log (.status k)
    (w1, if e.adjS < 0 then (e.errno : Int) else e.adjS)

/-- One turn of the loop of `sfptpd_clock_leap_second_now`, 1996-2002. -/
def leapOne (cfg : Cfg) (e : Env) (off : Int) (w : World) (i : Nat) : Except Fault World :=
  if eligible cfg (w.clk i).kind then
    match adjustTime cfg e w i off with
    | .error f => .error f
    | .ok (w1, _) => .ok w1
  else .ok w

/-- The loop over the clocks. -/
def leapAll (cfg : Cfg) (e : Env) (off : Int) : List Nat → World → Except Fault World
  | [], w => .ok w
  | i :: is, w =>
    match leapOne cfg e off w i with
    | .error f => .error f
    | .ok w1 => leapAll cfg e off is w1

/-- One second in the units of this model. -/
def second : Int := 4294967296 * 1000000000

/-- `sfptpd_clock_leap_second_now`, 1978-2006. -/
def leapNow (cfg : Cfg) (e : Env) (w : World) (t : Leap) : Except Fault (World × Nat) :=
  match t with
  | .none => .ok (w, EINVAL)
  | .del59 =>
    match leapAll cfg e second w.ids w with
    | .error f => .error f
    | .ok w1 => .ok (w1, 0)
  | .ins61 =>
    match leapAll cfg e (-second) w.ids w with
    | .error f => .error f
    | .ok w1 => .ok (w1, 0)

/-- `sfptpd_clock_set_sync_status`, 2186-2247. -/
def setSync (cfg : Cfg) (e : Env) (w : World) (i : Nat) (b : Bool) (timeout : Nat) :
    World × Nat :=
  if (w.clk i).readOnly then (w, 0)
  else if (w.clk i).kind = .system ∧ cfg.rtcAdjust = true then
    ({ w with kst := { w.kst with unsync := !b } }, 0)
  else if (w.clk i).kind ≠ .sfc ∧ (w.clk i).kind ≠ .xnet then (w, ENOSYS)
  else if (w.clk i).reports = false then (w, EOPNOTSUPP)
  else
    let w1 := w.log (.sync i b timeout)
    if e.ioctlRc i = EOPNOTSUPP then
      (w1.set i { w.clk i with reports := false }, EOPNOTSUPP)
    else (w1, e.ioctlRc i)

/-- `sfptpd_clock_set_blocked`, 1542-1548; the result is whether the clock is now
blocked. -/
def setBlocked (w : World) (i : Nat) (b : Bool) : World × Bool :=
  let n := (w.clk i).blocked + (if b then 1 else -1)
  (w.set i { w.clk i with blocked := n }, decide (0 < n))

/-- `sfptpd_clock_is_blocked`, 1550-1553. -/
def isBlocked (w : World) (i : Nat) : Bool := decide (0 < (w.clk i).blocked)

/-- `sfptpd_clock_is_writable`, 1533-1538. -/
def isWritable (w : World) (i : Nat) : Bool :=
  (w.clk i).discipline && !(w.clk i).readOnly && decide ((w.clk i).blocked < 1)

/-! ## Configuration -/

/-- `check_clock_in_config`, 450-459, with `sfptpd_check_clock_interfaces`
(src/sfptpd_interface.c, 444-449). -/
def inConfig (w : World) (i : Nat) (name : String) : Bool :=
  (w.clk i).names.contains name ||
    (i != 0 && (w.clk i).kind != .system &&
      w.ifs.any (fun f => decide (f.phcIdx = (w.clk i).devIdx) && decide (f.name = name)))

/-- `configure_clock_readonly`, 461-476, for every entry of the list (511-513, 534-536). -/
def configReadonly (w : World) (i : Nat) : List String → World
  | [] => w
  | n :: ns =>
    configReadonly
      (if inConfig w i n then w.set i { w.clk i with discipline := false, readOnly := true }
       else w) i ns

/-- `configure_clock_list`, 479-500. -/
def configList (cfg : Cfg) (w : World) (i : Nat) (name : String) : World × Nat :=
  if (w.clk i).readOnly = false ∧ inConfig w i name = true then
    if (w.clk i).discipline then (w, 0)
    else if (w.clk i).kind = .nonSfc ∧ cfg.nonSfc = false then (w, EINVAL)
    else (w.set i { w.clk i with discipline := true }, 0)
  else (w, 0)

/-- The loop of 523-525 over the entries: `rc` is that of the last entry. -/
def configAll (cfg : Cfg) (w : World) (i : Nat) (rc : Nat) : List String → World × Nat
  | [] => (w, rc)
  | n :: ns => configAll cfg (configList cfg w i n).1 i (configList cfg w i n).2 ns

/-- `configure_new_clock`, 502-529. -/
def configureNew (cfg : Cfg) (w : World) (i : Nat) : World × Nat :=
  let w1 := configReadonly w i cfg.readonlyNames
  if (w1.clk i).readOnly then (w1, 0)
  else if cfg.disciplineAll then
    if (w1.clk i).kind ≠ .nonSfc ∨ cfg.nonSfc = true then
      (w1.set i { w1.clk i with discipline := true }, 0)
    else (w1, 0)
  else configAll cfg w1 i 0 cfg.listNames

/-- `fixup_clock`, 531-549. -/
def fixupClock (cfg : Cfg) (e : Env) (w : World) (i : Nat) : Except Fault World :=
  let w1 := configReadonly w i cfg.readonlyNames
  let w2 := (configAll cfg w1 i 0 cfg.listNames).1
  correctNew cfg e w2 i

/-- `fixup_readonly_and_clock_lists`, 551-569: the loop over the clocks. -/
def fixupAll (cfg : Cfg) (e : Env) : List Nat → World → Except Fault World
  | [], w => .ok w
  | i :: is, w =>
    if (w.clk i).readOnly then fixupAll cfg e is w
    else match fixupClock cfg e w i with
      | .error f => .error f
      | .ok w1 => fixupAll cfg e is w1

/-! ## Following the interfaces -/

/-- The search for the primary interface of a NIC, 764-781: the last one looked at. -/
def primary (nic : Nat) : List Intf → Option Intf → Option Intf
  | [], acc => acc
  | f :: fs, acc =>
    if acc.any (fun p => p.hasPhc) then acc
    else if f.nic = nic then primary nic fs (some f)
    else primary nic fs acc

/-- The hardware id from the MAC address, 867-878. -/
def hwidOf (cfg : Cfg) (mac : List Nat) : List Nat :=
  if cfg.legacy = true ∧ mac.length = 6 then
    mac.take 3 ++ [0xff, 0xfe] ++ mac.drop 3
  else mac.take 8 ++ cfg.bits.drop mac.length

/-- `clock_determine_max_freq_adj`, 679-717. -/
def maxAdjOf (cfg : Cfg) (e : Env) (idx : Nat) : Rat :=
  if cfg.limit < (e.devMax idx : Rat) then cfg.limit else (e.devMax idx : Rat)

/-- The end of `renew_clock` for a clock with an interface: ids, names and limits,
867-890. -/
def describe (cfg : Cfg) (e : Env) (c : Clk) (f : Intf) : Clk :=
  { c with
    hwid := hwidOf cfg f.mac
    names := cfg.naming c.devIdx (hwidOf cfg f.mac)
    maxAdj := maxAdjOf cfg e (c.phc.getD 0) }

/-- `renew_clock`, 735-932.  The index of the PHC device is given to
`sfptpd_phc_open` only when no device is open.  The names of a clock whose PHC could
not be opened are left as they were (the short name is in fact updated). -/
def renew (cfg : Cfg) (e : Env) (w : World) (i : Nat) : World × Nat :=
  let c := w.clk i
  if c.kind = .system then (w, 0)
  else
    match primary c.nic w.ifs none with
    | some f =>
      if f.hasPhc then
        let c1 := { c with deleted := false, devIdx := f.phcIdx, reports := !cfg.avoidEfx }
        match c1.phc with
        | none =>
          if e.openRc f.phcIdx ≠ 0 then
            (w.set i { c1 with devIdx := -1 }, e.openRc f.phcIdx)
          else
            (w.set i (describe cfg e { c1 with phc := some f.phcIdx.toNat, stepped := false } f),
             e.startRc f.phcIdx)
        | some _ => (w.set i (describe cfg e c1 f), 0)
      else
        (w.set i { c with deleted := true, reports := false, devIdx := -1, phc := none,
                          names := ["(deleted)"], hwid := [0, 0, 0, 0, 0, 0, 0, 0] }, 0)
    | none =>
      (w.set i { c with deleted := true, reports := false, devIdx := -1, phc := none,
                        names := ["(deleted)"], hwid := [0, 0, 0, 0, 0, 0, 0, 0] }, 0)

/-- `sfptpd_clock_find_by_nic_id`, 996-1011. -/
def findByNic (w : World) (nic : Nat) : Option Nat :=
  w.ids.find? (fun i => (w.clk i).kind != .system && decide ((w.clk i).nic = nic))

/-- The type of a clock from the class of the interface, 1045-1054. -/
def kindOf : Kind → Kind
  | .sfc => .sfc
  | .xnet => .xnet
  | _ => .nonSfc

/-- `clock_init_common` (401-438) and `new_nic_clock` (935-978) up to the renewal. -/
def freshClk (cfg : Cfg) (f : Intf) : Clk :=
  { kind := kindOf f.cls, nic := f.nic, readOnly := cfg.noAdjust }

/-- `sfptpd_clock_init_interface`, 1014-1088. -/
def initInterface (cfg : Cfg) (e : Env) (w : World) (f : Intf) : Except Fault World :=
  match findByNic w f.nic with
  | none =>
    if f.phcIdx < 0 then .ok w
    else
      let i := w.next
      let r := renew cfg e (w.set i (freshClk cfg f)) i
      if r.2 ≠ 0 then .ok w
      else
        let w1 := { r.1 with ids := i :: r.1.ids, next := i + 1 }
        let r2 := configureNew cfg w1 i
        if r2.2 ≠ 0 then .error .dangling else .ok r2.1
  | some i =>
    if (w.clk i).deleted then correctNew cfg e w i else .ok w

/-- The first loop of `sfptpd_clock_rescan_interfaces`, 1167-1177. -/
def initAll (cfg : Cfg) (e : Env) : List Intf → World → Except Fault World
  | [], w => .ok w
  | f :: fs, w =>
    match initInterface cfg e w f with
    | .error x => .error x
    | .ok w1 => initAll cfg e fs w1

/-- The second loop, 1179-1186. -/
def renewAll (cfg : Cfg) (e : Env) : List Nat → World → World
  | [], w => w
  | i :: is, w => renewAll cfg e is (renew cfg e w i).1

/-- `sfptpd_clock_rescan_interfaces`, 1156-1192, after the interfaces became `ifs`. -/
def rescan (cfg : Cfg) (e : Env) (w : World) (ifs : List Intf) : Except Fault World :=
  match initAll cfg e ifs { w with ifs := ifs } with
  | .error f => .error f
  | .ok w1 => .ok (renewAll cfg e w1.ids w1)

/-- The clock that an interface is linked to by `sfptpd_interface_set_clock`. -/
def clockOf (w : World) : Option Intf → Nat
  | some f => (findByNic w f.nic).getD 0
  | none => 0

/-- An interface event (src/sfptpd_interface.c, 1528-1538): the interfaces are scanned
and the clock of the interface is "corrected". -/
def linkEvent (cfg : Cfg) (e : Env) (w : World) (ifs : List Intf) (f : Option Intf) :
    Except Fault World :=
  match rescan cfg e w ifs with
  | .error x => .error x
  | .ok w1 => correctNew cfg e w1 (clockOf w1 f)

/-- `sfptpd_clock_find_by_hw_id`, 1341-1355.  The third argument of memcmp is
`sizeof(clock->hw_id) == 0`, that is 0: no byte is compared, and memcmp returns 0. -/
def findByHwid (w : World) (hw : List Nat) : Option Nat :=
  w.ids.find? (fun i => (w.clk i).hwid.take 0 != hw.take 0)

/-- `sfptpd_clock_get_hw_id`, 1662-1676: the id, and 0 or ENODATA. -/
def getHwid (w : World) (i : Nat) : List Nat × Nat :=
  ((w.clk i).hwid,
    if (w.clk i).deleted = false ∧ (w.clk i).hwid ≠ [0, 0, 0, 0, 0, 0, 0, 0] then 0
    else ENODATA)

/-! ## Whole executions -/

/-- The system clock as `new_system_clock` (591-652) makes it, given the state of the
devices and the files. -/
def bootWorld (cfg : Cfg) (time : Nat → Int) (files : Nat → Option Int) : World :=
  { ids := [0]
    clk := fun _ => { kind := .system, readOnly := cfg.noAdjust, names := ["system"],
                      maxAdj := maxTick cfg * tickRes cfg + sysMax cfg }
    next := 1, kst := ⟨true, false, false⟩, time := time, files := files
    ifs := [], writes := [] }

/-- The end of `new_system_clock` and `sfptpd_clock_initialise` (1124-1153): the state
after start-up. -/
def boot (cfg : Cfg) (e : Env) (time : Nat → Int) (files : Nat → Option Int) :
    Except Fault World :=
  correctNew cfg e (configureNew cfg (bootWorld cfg time files) 0).1 0

/-- The operations that the rest of the program may call; `hw` stands for the devices
themselves: a clock drifts, or is reset. -/
inductive Op
  | adjTime (i : Nat) (off : Int)
  | adjFreq (i : Nat) (f : Rat)
  | setTime (dst src : Nat) (thr : Option Int) (initial : Bool)
  | compare (a b : Nat)
  | block (i : Nat) (b : Bool)
  | leapSchedule (t : Leap)
  | leapNow (t : Leap)
  | sync (i : Nat) (b : Bool) (timeout : Nat)
  | load (i : Nat)
  | save (i : Nat) (f : Rat)
  | rescan (ifs : List Intf)
  | link (ifs : List Intf) (f : Option Intf)
  | fixup
  | hw (time : Nat → Int)

/-- The clocks that an operation is given pointers to. -/
def Op.uses : Op → List Nat
  | .adjTime i _ => [i]
  | .adjFreq i _ => [i]
  | .setTime dst src _ _ => [dst, src]
  | .compare a b => [a, b]
  | .block i _ => [i]
  | .sync i _ _ => [i]
  | .load i => [i]
  | .save i _ => [i]
  | _ => []

/-- One operation, without its result code. -/
def execOp (cfg : Cfg) (e : Env) (w : World) : Op → Except Fault World
  | .adjTime i off =>
    match adjustTime cfg e w i off with
    | .error f => .error f
    | .ok (w1, _) => .ok w1
  | .adjFreq i f => .ok (adjustFreq cfg e w i f).1
  | .setTime dst src thr initial =>
    match Verif.Clock.setTime cfg e w dst src thr initial with
    | .error f => .error f
    | .ok (w1, _) => .ok w1
  | .compare a b => .ok (Verif.Clock.compare e w a b).1
  | .block i b => .ok (setBlocked w i b).1
  | .leapSchedule t => .ok (scheduleLeap e w t).1
  | .leapNow t =>
    match Verif.Clock.leapNow cfg e w t with
    | .error f => .error f
    | .ok (w1, _) => .ok w1
  | .sync i b timeout => .ok (setSync cfg e w i b timeout).1
  | .load i => .ok (loadFreq cfg e w i).1
  | .save i f => .ok (saveFreq e w i f).1
  | .rescan ifs => Verif.Clock.rescan cfg e w ifs
  | .link ifs f => linkEvent cfg e w ifs f
  | .fixup => fixupAll cfg e w.ids w
  | .hw time => .ok { w with time := time }

/-- One operation; a pointer that is not one of a clock of the list is an error. -/
def exec (cfg : Cfg) (e : Env) (w : World) (o : Op) : Except Fault World :=
  if o.uses.all (fun i => decide (i ∈ w.ids)) then execOp cfg e w o else .error .dangling

/-- A sequence of operations, each with the answers it meets. -/
def run (cfg : Cfg) : World → List (Op × Env) → Except Fault World
  | w, [] => .ok w
  | w, (o, e) :: os =>
    match exec cfg e w o with
    | .error f => .error f
    | .ok w1 => run cfg w1 os

end Verif.Clock
