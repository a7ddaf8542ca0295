import Verif.Time.Model

/-!
# Model of the PTP timestamp data set

Models all of `src/ptp/sfptpd_ptp_timestamp_dataset.c` (lines 37-246).

Simplification: the floating point type `sfptpd_time_t` (80-bit long double)
is replaced by the rationals, i.e. rounding is not modelled.  The recorded
monotonic time, an external clock reading, is left out.
-/

namespace Verif.Tsd
open Verif.Time

/-- `struct sfptpd_ptp_tsd_timestamps`-like pair of timestamps
(`src/include/sfptpd_ptp_timestamp_dataset.h`). -/
structure Meas where
  valid : Bool
  tx : Ts
  rx : Ts
  corr : Ts
deriving DecidableEq, Repr

/-- `struct sfptpd_ptp_tsd` without the monotonic time. -/
structure Tsd where
  complete : Bool
  timeProtocol : Ts
  pathDelay : Rat
  offset : Rat
  m2s : Meas
  s2m : Meas
  s2p : Meas
  p2s : Meas
deriving DecidableEq, Repr

/-- `sfptpd_time_timespec_to_float_ns` (`src/include/sfptpd_time.h:136-142`)
without rounding. -/
def toFloatNs (t : Ts) : Rat := (t.sec : Rat) * 1000000000 + (t.nsec : Rat) + (t.frac : Rat) / 4294967296

/-- `sfptpd_ptp_tsd_update` (lines 37-100).  Returns the new state and the
boolean result; `none` is signed overflow in the timestamp arithmetic. -/
def update (t : Tsd) : Option (Tsd × Bool) :=
  if t.m2s.valid && t.s2m.valid then do
    let s2m ← subtract t.s2m.rx t.s2m.tx
    let m2s ← subtract t.m2s.rx t.m2s.tx
    let rt ← add s2m m2s
    let pd := (toFloatNs rt - toFloatNs t.s2m.corr - toFloatNs t.m2s.corr) / 2
    finish t pd
  else if t.m2s.valid && t.s2p.valid && t.p2s.valid then do
    let s2p ← subtract t.s2p.rx t.s2p.tx
    let p2s ← subtract t.p2s.rx t.p2s.tx
    let rt ← add s2p p2s
    let pd := (toFloatNs rt - toFloatNs t.p2s.corr) / 2
    finish t pd
  else
    some ({ t with complete := false }, false)
where
  /-- Lines 60/78 and 85-99. -/
  finish (t : Tsd) (pd : Rat) : Option (Tsd × Bool) := do
    let m2s ← subtract t.m2s.rx t.m2s.tx
    let off := toFloatNs m2s - toFloatNs t.m2s.corr - pd
    pure ({ t with pathDelay := pd, offset := off, complete := true }, true)

def nullMeas : Meas := ⟨false, null, null, null⟩

/-- `sfptpd_ptp_tsd_init` (lines 107-117). -/
def init : Tsd := ⟨false, null, 0, 0, nullMeas, nullMeas, nullMeas, nullMeas⟩

/-- `sfptpd_ptp_tsd_clear_m2s` (lines 119-124). -/
def clearM2S (t : Tsd) : Tsd := { t with m2s := { t.m2s with valid := false }, complete := false }

/-- `sfptpd_ptp_tsd_clear_s2m` (lines 126-131). -/
def clearS2M (t : Tsd) : Tsd := { t with s2m := { t.s2m with valid := false }, complete := false }

/-- `sfptpd_ptp_tsd_clear_p2p` (lines 133-139). -/
def clearP2P (t : Tsd) : Tsd :=
  { t with s2p := { t.s2p with valid := false }, p2s := { t.p2s with valid := false },
           complete := false }

/-- `sfptpd_ptp_tsd_set_m2s` (lines 141-160). -/
def setM2S (t : Tsd) (tx rx corr : Ts) : Option (Tsd × Bool) :=
  update { t with timeProtocol := rx, m2s := ⟨true, tx, rx, corr⟩ }

/-- `sfptpd_ptp_tsd_set_s2m` (lines 162-186). -/
def setS2M (t : Tsd) (tx rx corr : Ts) : Option (Tsd × Bool) :=
  update { t with s2p := { t.s2p with valid := false }, p2s := { t.p2s with valid := false },
                  timeProtocol := rx, s2m := ⟨true, tx, rx, corr⟩ }

/-- `sfptpd_ptp_tsd_set_p2p` (lines 188-219). -/
def setP2P (t : Tsd) (s2pTx s2pRx p2sTx p2sRx corr : Ts) : Option (Tsd × Bool) :=
  update { t with s2m := { t.s2m with valid := false }, timeProtocol := p2sRx,
                  s2p := ⟨true, s2pTx, s2pRx, null⟩, p2s := ⟨true, p2sTx, p2sRx, corr⟩ }

/-- `sfptpd_ptp_tsd_get_offset_from_master` (lines 221-226): `none` is the
failing assertion. -/
def getOffset (t : Tsd) : Option Rat := if t.complete then some t.offset else none

/-- `sfptpd_ptp_tsd_get_path_delay` (lines 228-233). -/
def getPathDelay (t : Tsd) : Option Rat := if t.complete then some t.pathDelay else none

/-- The operations of the public interface. -/
inductive Op where
  | setM2S (tx rx corr : Ts)
  | setS2M (tx rx corr : Ts)
  | setP2P (s2pTx s2pRx p2sTx p2sRx corr : Ts)
  | clearM2S
  | clearS2M
  | clearP2P
deriving DecidableEq, Repr

/-- One operation; the boolean result of the setters is kept separately. -/
def step (t : Tsd) : Op → Option Tsd
  | .setM2S tx rx c => (setM2S t tx rx c).map (·.1)
  | .setS2M tx rx c => (setS2M t tx rx c).map (·.1)
  | .setP2P a b c d e => (setP2P t a b c d e).map (·.1)
  | .clearM2S => some (clearM2S t)
  | .clearS2M => some (clearS2M t)
  | .clearP2P => some (clearP2P t)

/-- A history of operations from the initial state, oldest first. -/
def run (t : Tsd) : List Op → Option Tsd
  | [] => some t
  | o :: os => (step t o).bind (run · os)

end Verif.Tsd
