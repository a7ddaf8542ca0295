import Verif.Common.CInt

/-!
# Model of the timestamp arithmetic

Models `src/sfptpd_time.c` lines 48-135 and the integer inline functions of
`src/include/sfptpd_time.h` lines 178-375, and the wire timestamp conversions
`src/ptp/ptpd2/arith.c:63-89` and `src/ptp/ptpd2/ptpd.h:109-114`.

`none` stands for undefined behaviour (signed 64-bit overflow).
-/

namespace Verif.Time

open Verif.CInt

/-- `struct sfptpd_timespec` (`src/include/sfptpd_time.h`): seconds are an
`int64_t`, `nsec` and `frac` are `uint32_t` bit patterns (kept in `Int`). -/
structure Ts where
  sec  : Int
  nsec : Int
  frac : Int
deriving DecidableEq, Repr

/-- `sfptpd_time_normalise` (`src/sfptpd_time.c:48-61`).  The nanoseconds are
re-read as a signed 32-bit integer; `/` is C division truncating towards 0. -/
def normalise (t : Ts) : Option Ts := do
  let n := s32 t.nsec
  let sec ← chk64 (t.sec + n.tdiv 1000000000)
  let n' := n - n.tdiv 1000000000 * 1000000000
  if n' < 0 then
    let sec ← chk64 (sec - 1)
    pure { sec := sec, nsec := u32 (n' + 1000000000), frac := t.frac }
  else
    pure { sec := sec, nsec := u32 n', frac := t.frac }

/-- `sfptpd_time_add` (`src/sfptpd_time.c:63-84`): unsigned 64-bit fixed-point
sum of the nanoseconds, then normalise. -/
def add (a b : Ts) : Option Ts := do
  let fp := u64 (u64 (a.nsec * 4294967296) + u64 (b.nsec * 4294967296) + a.frac + b.frac)
  let sec ← chk64 (a.sec + b.sec)
  normalise { sec := sec, nsec := u32 (fp / 4294967296), frac := u32 fp }

/-- `sfptpd_time_subtract` (`src/sfptpd_time.c:86-99`): signed 64-bit
fixed-point difference; `>> 32` of a negative number is an arithmetic shift
(floor division). The bitwise or at 90-91 is an addition as the operands have
disjoint bits. -/
def subtract (a b : Ts) : Option Ts := do
  let afp := s64 (a.nsec * 4294967296 + a.frac)
  let bfp := s64 (b.nsec * 4294967296 + b.frac)
  let cfp ← chk64 (afp - bfp)
  let sec ← chk64 (a.sec - b.sec)
  normalise { sec := sec, nsec := u32 (cfp / 4294967296), frac := u32 cfp }

/-- `SFPTPD_NULL_TIME` (`src/sfptpd_time.c:36-41`). -/
def null : Ts := ⟨0, 0, 0⟩

/-- `sfptpd_time_negate` (`src/sfptpd_time.c:119-122`). -/
def negate (b : Ts) : Option Ts := subtract null b

/-- `sfptpd_time_cmp` (`src/sfptpd_time.c:101-117`). -/
def cmp (a b : Ts) : Int :=
  if a.sec < b.sec then -1
  else if a.sec > b.sec then 1
  else if a.nsec < b.nsec then -1
  else if a.nsec > b.nsec then 1
  else if a.frac < b.frac then -1
  else if a.frac > b.frac then 1
  else 0

/-- `sfptpd_time_is_greater_or_equal` (`src/sfptpd_time.c:124-135`). -/
def isGe (a b : Ts) : Option Bool := do
  let c ← subtract a b
  pure (decide (c.sec ≥ 0))

/-- `sfptpd_time_from_ns` (`src/include/sfptpd_time.h:184-197`): the absolute
value is stored in the 32-bit nanosecond field, i.e. truncated mod 2^32. -/
def fromNs (ns : Int) : Option Ts := do
  let neg := decide (ns < 0)
  let m ← if neg then chk64 (-ns) else some ns
  let t : Ts := { sec := 0, nsec := u32 m, frac := 0 }
  let t ← if ns ≥ 1000000000 then normalise t else some t
  if neg then negate t else some t

/-- `sfptpd_time_from_ns16` (`src/include/sfptpd_time.h:204-220`).
`uint64_t << 16` stored into a `uint32_t`: bits 16..31 of the result are bits
0..15 of the magnitude. -/
def fromNs16 (x : Int) : Option Ts := do
  let neg := decide (x < 0)
  let mag ← if neg then chk64 (-x) else some x
  let ns := mag / 65536
  let frac := u32 (u64 (mag * 65536))
  let t : Ts :=
    if ns ≥ 1000000000 then
      { sec := ns / 1000000000, nsec := u32 (ns - ns / 1000000000 * 1000000000), frac := frac }
    else
      { sec := 0, nsec := u32 ns, frac := frac }
  if neg then negate t else some t

/-- `sfptpd_time_to_ns16` (`src/include/sfptpd_time.h:222-239`).  Note that the
saturation limit is `2^48 / 10^9` seconds while the result has only
`2^47 / 10^9` seconds of range. `ts.sec` is compared as `uint64_t`. -/
def toNs16 (t : Ts) : Option Int := do
  let neg := decide (t.sec < 0)
  let t ← if neg then negate t else some t
  if u64 t.sec ≥ 281474 then
    pure (if neg then -9223372036854775808 else 9223372036854775807)
  else
    let m := u64 (t.frac / 65536 + u64 (u64 (u64 (t.sec) * 1000000000 + t.nsec) * 65536))
    pure (s64 (if neg then u64 (-m) else m))

/-- `struct timespec` of POSIX as used by the conversions below. -/
structure StdTs where
  tvSec : Int
  tvNsec : Int
deriving DecidableEq, Repr

/-- `sfptpd_time_to_std_nearest` (`src/include/sfptpd_time.h:269-275`). -/
def toStdNearest (t : Ts) : StdTs :=
  { tvSec := t.sec, tvNsec := if t.frac ≥ 2147483648 then t.nsec + 1 else t.nsec }

/-- `sfptpd_time_to_std_floor` (`src/include/sfptpd_time.h:292-296`). -/
def toStdFloor (t : Ts) : StdTs := { tvSec := t.sec, tvNsec := t.nsec }

/-- `sfptpd_time_from_std_floor` (`src/include/sfptpd_time.h:302-307`). -/
def fromStdFloor (t : StdTs) : Ts := { sec := t.tvSec, nsec := u32 t.tvNsec, frac := 0 }

/-- `Timestamp` of the PTP wire format: 48-bit seconds held in a `UInteger48`
(a `uint64_t` in memory), 32-bit nanoseconds. -/
structure Wire where
  seconds : Int
  nanos   : Int
deriving DecidableEq, Repr

/-- `fromInternalTime` (`src/ptp/ptpd2/arith.c:63-89`): `none` is the `ERANGE`
return; otherwise the wire timestamp and the correction remainder in units of
`2^-16` ns. -/
def fromInternalTime (t : Ts) : Option (Wire × Int) :=
  if t.sec < 0 then none
  else some ({ seconds := t.sec, nanos := t.nsec }, t.frac / 65536)

/-- `toInternalTime` (`src/ptp/ptpd2/ptpd.h:109-114`). -/
def toInternalTime (w : Wire) : Ts := { sec := w.seconds, nsec := w.nanos, frac := 0 }

end Verif.Time
