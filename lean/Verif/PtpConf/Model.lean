/-
# Model: the options of PTP instances

`src/ptp/sfptpd_ptp_config.c`, the defaults of `src/ptp/ptpd2/ptpd_lib.c`
(lines 22-177), the way `src/sfptpd_config.c` (lines 325-400) applies an option
to the global section and to the instances, and the adjustments made when an
instance is created (`src/ptp/sfptpd_ptp_module.c` lines 3582-3594).

Simplifications.
* A handler that fails ends the configuration (the daemon does not start), so
  the state it leaves behind is not modelled: it gives an error number only.
* The checks `assert(num_params == n)` hold by the arity check made before; the
  handlers read missing parameters as empty texts.
* `sscanf("%i")` and `"%u")` are modelled as in the GNU C library on a 64 bit
  system: digits are collected, converted like `strtol`/`strtoul` with base
  detection, and the result is truncated to 32 bits. `sscanf("%Lf")` and
  `getaddrinfo` are parameters.
* Long doubles are rational numbers, infinities or not a number.
* Latencies keep their nanoseconds only; the clock quality, step threshold and
  test settings, which no option of this file changes, are left out.
* Sections of other categories and the messages are left out; an instance is
  known by its number.
-/

namespace Verif.PtpConf

abbrev Text := List Char

def eINVAL : Nat := 22
def eRANGE : Nat := 34
def e2BIG : Nat := 7
def eNOENT : Nat := 2

/-! ## Conversion of numbers -/

/-- `isspace` in the C locale. -/
def isSpace (c : Char) : Bool := c = ' ' || c = '\t' || c = '\n' || c = '\x0b' || c = '\x0c' || c = '\r'

/-- The value of a digit in the base, if it is one. -/
def digit (base : Nat) (c : Char) : Option Nat :=
  let v := if '0' ≤ c ∧ c ≤ '9' then some (c.toNat - 48)
    else if 'a' ≤ c ∧ c ≤ 'f' then some (c.toNat - 87)
    else if 'A' ≤ c ∧ c ≤ 'F' then some (c.toNat - 55)
    else none
  v.bind fun d => if d < base then some d else none

/-- Digits after the first: reading stops at the first other character. -/
def readDigits (base : Nat) : Nat → Text → Nat
  | acc, [] => acc
  | acc, c :: r => match digit base c with
    | some d => readDigits base (acc * base + d) r
    | none => acc

/-- A number of at least one digit. -/
def scanNat (base : Nat) : Text → Option Nat
  | [] => none
  | c :: r => (digit base c).map fun d => readDigits base d r

/-- An optional sign: whether it is negative, and the rest. -/
def sign : Text → Bool × Text
  | '-' :: r => (true, r)
  | '+' :: r => (false, r)
  | r => (false, r)

/-- The magnitude with the base given by the prefix. -/
def magnitude (t : Text) : Option Nat :=
  match t with
  | '0' :: x :: r =>
    if (x = 'x' ∨ x = 'X') ∧ (r.head?.bind (digit 16)).isSome then scanNat 16 r
    else scanNat 8 ('0' :: x :: r)
  | t => scanNat 10 t

/-- `strtol`: values outside 64 bits are replaced by the limit. -/
def clamp64 (v : Int) : Int :=
  if v > 9223372036854775807 then 9223372036854775807
  else if v < -9223372036854775808 then -9223372036854775808
  else v

/-- The low 32 bits as a signed number. -/
def toInt32 (v : Int) : Int := (v + 2147483648) % 4294967296 - 2147483648

/-- `sscanf(t, "%i", &x)`. -/
def scanI (t : Text) : Option Int :=
  let (neg, r) := sign (t.dropWhile isSpace)
  (magnitude r).map fun (m : Nat) => toInt32 (clamp64 (if neg then -(m : Int) else m))

/-- `sscanf(t, "%u", &x)`. -/
def scanU (t : Text) : Option Nat :=
  let (neg, r) := sign (t.dropWhile isSpace)
  (scanNat 10 r).map fun m =>
    let v := if m ≥ 18446744073709551616 then 18446744073709551615
      else if neg then (18446744073709551616 - m) % 18446744073709551616 else m
    v % 4294967296

/-! ## State -/

/-- A long double. -/
inductive FV
  | nan
  | ninf
  | pinf
  | num (q : Rat)
deriving DecidableEq

/-- `x < q` for a number `q`: false for not-a-number. -/
def FV.lt (x : FV) (q : Rat) : Bool :=
  match x with
  | .nan => false
  | .ninf => true
  | .pinf => false
  | .num p => decide (p < q)

/-- `x > q` for a number `q`: false for not-a-number. -/
def FV.gt (x : FV) (q : Rat) : Bool :=
  match x with
  | .nan => false
  | .ninf => false
  | .pinf => true
  | .num p => decide (q < p)

/-- Multiplication by a positive number. -/
def FV.scale (x : FV) (q : Rat) : FV :=
  match x with
  | .num p => .num (p * q)
  | x => x

inductive Profile
  | defaultE2E
  | defaultP2P
  | enterprise
deriving DecidableEq

/-- `PTPD_DELAY_MECHANISM_E2E` and `PTPD_DELAY_MECHANISM_P2P`. -/
inductive Mech
  | e2e
  | p2p
deriving DecidableEq

/-- `sfptpd_int_range_t`. -/
structure Range where
  min : Int
  max : Int
  dflt : Int

/-- `sfptpd_ptp_profile_def` (`datatypes.h` lines 42-52), without the texts. -/
structure ProfileDef where
  announce : Range
  sync : Range
  delayReq : Range
  timeout : Range
  mechs : List Mech

/-- `ptp_profiles` (lines 32-73). -/
def profileDef : Profile → ProfileDef
  | .defaultE2E => { announce := ⟨-4, 4, 1⟩, sync := ⟨-4, 4, 0⟩, delayReq := ⟨-4, 5, 0⟩,
                     timeout := ⟨2, 127, 6⟩, mechs := [.e2e] }
  | .defaultP2P => { announce := ⟨-4, 4, 1⟩, sync := ⟨-4, 4, 0⟩, delayReq := ⟨-4, 5, 0⟩,
                     timeout := ⟨2, 127, 6⟩, mechs := [.p2p] }
  | .enterprise => { announce := ⟨0, 0, 0⟩, sync := ⟨-4, 4, 0⟩, delayReq := ⟨-4, 5, 0⟩,
                     timeout := ⟨3, 3, 3⟩, mechs := [.e2e] }

/-- `sfptpd_ptp_get_profile_def` (lines 80-88); `none` is
`SFPTPD_PTP_PROFILE_UNDEF`. -/
def getProfileDef (p : Option Profile) : ProfileDef := profileDef (p.getD .defaultE2E)

inductive AclOrder
  | allowDeny
  | denyAllow
deriving DecidableEq

/-- The settings of an access control list. -/
structure Acl where
  enabled : Bool
  allow : Text
  deny : Text
  order : AclOrder
deriving DecidableEq

/-- Settings of a kind of slave event monitoring. -/
structure EvtCfg where
  logging : Bool
  tlv : Bool
  skip : Int
deriving DecidableEq

/-- Timestamping preference. -/
inductive TsPref
  | hw
  | sw
  | auto
deriving DecidableEq

/-- The intervals and limits of the messages. -/
structure Timing where
  announce : Int
  sync : Int
  delayReq : Int
  pdelayReq : Int
  ignoreMaster : Bool
  announceTimeout : Int
  syncTimeout : Int
  delayRespTimeout : Int
  alarmThreshold : Int
  hybridThreshold : Int
deriving DecidableEq

/-- The handling of UTC. -/
structure Utc where
  offset : Int
  offsetValid : Bool
  override : Bool
  overrideSecs : Int
  always : Bool
  prefer : Bool
  require : Bool
  timescale : Bool
deriving DecidableEq

/-- The role of the port. -/
structure Role where
  slaveOnly : Bool
  masterOnly : Bool
  monitorNode : Bool
deriving DecidableEq

/-- The coefficients and sizes of the filters. -/
structure Filters where
  kp : FV
  ki : FV
  outlierSize : Int
  adaption : FV
  mpdSize : Int
  ageing : FV
  firSize : Int
deriving DecidableEq

/-- Monitoring by and of slaves. -/
structure Mon (α : Type) where
  remote : Bool
  dests : List α
  rxTiming : EvtCfg
  rxComputed : EvtCfg
  txEvent : EvtCfg
  netSync : Bool
  slaveStatus : Bool
deriving DecidableEq

/-- The settings made by other options. -/
structure Misc where
  interfaceName : Text
  ipv6 : Bool
  linkLocal : Bool
  priority : Nat
  threshold : FV
  tsPref : TsPref
  displayPackets : Bool
  ppsLog : Bool
  txLatency : Int
  rxLatency : Int
  respMulticast : Bool
  respUnicast : Bool
  ttl : Int
  trace : Nat
  ignorePortId : Bool
  onload : Bool
  bypassSockpool : Bool
  bypassCmsg : Bool
  discName : Text
  discThreshold : FV
  alarmTrace : Bool
deriving DecidableEq

/-- `sfptpd_ptp_module_config_t`; `α` are the addresses of monitoring stations. -/
structure Cfg (α : Type) where
  profile : Option Profile
  minor : Nat
  commCaps : Bool
  mech : Mech
  role : Role
  timing : Timing
  utc : Utc
  domain : Int
  mgmtEnabled : Bool
  mgmtSet : Bool
  timingAcl : Acl
  mgmtAcl : Acl
  monAcl : Acl
  maxForeign : Int
  priority1 : Int
  priority2 : Int
  filters : Filters
  mon : Mon α
  misc : Misc
deriving DecidableEq

/-- An access control list at the start. -/
def Acl.init : Acl := { enabled := false, allow := [], deny := [], order := .allowDeny }
/-- Slave event monitoring at the start. -/
def EvtCfg.init : EvtCfg := { logging := false, tlv := false, skip := 0 }

/-- `ptp_config_create` without a source (lines 1735-1748),
`ptpd_config_port_initialise` and `ptpd_config_intf_initialise`
(`ptpd_lib.c` lines 22-177). -/
def Cfg.init (α : Type) : Cfg α where
  profile := none
  minor := 0
  commCaps := true
  mech := .e2e
  role := { slaveOnly := true, masterOnly := false, monitorNode := false }
  timing := { announce := 1, sync := 0, delayReq := 0, pdelayReq := 1, ignoreMaster := false,
              announceTimeout := 6, syncTimeout := 6, delayRespTimeout := -2,
              alarmThreshold := 5, hybridThreshold := 3 }
  utc := { offset := 0, offsetValid := false, override := false, overrideSecs := 0,
           always := false, prefer := false, require := false, timescale := false }
  domain := 0
  mgmtEnabled := false
  mgmtSet := false
  timingAcl := .init
  mgmtAcl := .init
  monAcl := .init
  maxForeign := 16
  priority1 := 128
  priority2 := 128
  filters := { kp := .num (2 / 10), ki := .num (3 / 1000), outlierSize := 60, adaption := .num 1,
               mpdSize := 8, ageing := .num 2, firSize := 1 }
  mon := { remote := false, dests := [], rxTiming := .init, rxComputed := .init, txEvent := .init,
           netSync := false, slaveStatus := false }
  misc := { interfaceName := [], ipv6 := false, linkLocal := true, priority := 128, threshold := .num 0,
            tsPref := .auto, displayPackets := false, ppsLog := false, txLatency := 0, rxLatency := 0,
            respMulticast := true, respUnicast := true, ttl := 64, trace := 0, ignorePortId := false,
            onload := true, bypassSockpool := false, bypassCmsg := false, discName := [],
            discThreshold := .num 0, alarmTrace := false }

/-- The C library: `sscanf("%Lf")` and `getaddrinfo` (family IPv6 or not, node,
service). -/
structure Env (α : Type) where
  scanF : Text → Option FV
  resolve : Bool → Text → Option Text → Option α

/-! ## Handlers -/

/-- The first parameter. -/
def p0 (ps : List Text) : Text := ps.headD []
/-- The second parameter. -/
def p1 (ps : List Text) : Text := (ps.drop 1).headD []

/-- An integer option with limits: the pattern of lines 482-493. -/
def intIn (lo hi : Int) (t : Text) : Except Nat Int :=
  match scanI t with
  | none => .error eINVAL
  | some v => if v < lo ∨ v > hi then .error eRANGE else .ok v

/-- A word choosing between on and off. -/
def onOff (t : Text) : Except Nat Bool :=
  if t = "off".toList then .ok false else if t = "on".toList then .ok true else .error eINVAL

/-- A number between zero and one: the pattern of lines 949-956. -/
def unitFloat {α : Type} (env : Env α) (t : Text) : Except Nat FV :=
  match env.scanF t with
  | none => .error eINVAL
  | some v => if v.lt 0 || v.gt 1 then .error eRANGE else .ok v

/-- `parse_ptp_profile` (lines 95-122). -/
def parseProfile {α : Type} (c : Cfg α) (ps : List Text) : Except Nat (Cfg α) :=
  let p := if p0 ps = "default-e2e".toList then some Profile.defaultE2E
    else if p0 ps = "default-p2p".toList then some Profile.defaultP2P
    else if p0 ps = "enterprise".toList then some Profile.enterprise
    else none
  match p with
  | none => .error eINVAL
  | some p =>
    let d := profileDef p
    .ok { c with
      profile := some p
      timing :=
        { c.timing with
          announce := d.announce.dflt, sync := d.sync.dflt, delayReq := d.delayReq.dflt,
          pdelayReq := d.delayReq.dflt, announceTimeout := d.timeout.dflt } }

/-- `parse_ptp_version` (lines 124-140). -/
def parseVersion {α : Type} (c : Cfg α) (ps : List Text) : Except Nat (Cfg α) :=
  if p0 ps = "2.0".toList then .ok { c with minor := 0 }
  else if p0 ps = "2.1".toList then .ok { c with minor := 1 }
  else .error eINVAL

/-- `parse_ptp_mode` (lines 142-170). -/
def parseMode {α : Type} (c : Cfg α) (ps : List Text) : Except Nat (Cfg α) :=
  if p0 ps = "slave".toList then .ok { c with role := ⟨true, false, false⟩ }
  else if p0 ps = "master".toList then .ok { c with role := ⟨false, false, false⟩ }
  else if p0 ps = "master-only".toList then .ok { c with role := ⟨false, true, false⟩ }
  else if p0 ps = "monitor".toList then .ok { c with role := ⟨false, false, true⟩ }
  else .error eINVAL

/-- `sfptpd_strncpy` into `IF_NAMESIZE` characters (`sfptpd_misc.c` lines 57-65). -/
def ifName (t : Text) : Text := t.take 15

/-- `parse_interface` (lines 172-180). -/
def parseInterface {α : Type} (c : Cfg α) (ps : List Text) : Except Nat (Cfg α) :=
  .ok { c with misc := { c.misc with interfaceName := ifName (p0 ps) } }

/-- `parse_transport` (lines 182-198). -/
def parseTransport {α : Type} (c : Cfg α) (ps : List Text) : Except Nat (Cfg α) :=
  if p0 ps = "ipv4".toList then .ok { c with misc := { c.misc with ipv6 := false } }
  else if p0 ps = "ipv6".toList then .ok { c with misc := { c.misc with ipv6 := true } }
  else .error eINVAL

/-- `parse_scope` (lines 200-216). -/
def parseScope {α : Type} (c : Cfg α) (ps : List Text) : Except Nat (Cfg α) :=
  if p0 ps = "link-local".toList then .ok { c with misc := { c.misc with linkLocal := true } }
  else if p0 ps = "global".toList then .ok { c with misc := { c.misc with linkLocal := false } }
  else .error eINVAL

/-- `parse_priority` (lines 218-231). -/
def parsePriority {α : Type} (c : Cfg α) (ps : List Text) : Except Nat (Cfg α) :=
  match scanU (p0 ps) with
  | none => .error eINVAL
  | some v => .ok { c with misc := { c.misc with priority := v } }

/-- `parse_sync_threshold` (lines 233-247). -/
def parseThreshold {α : Type} (env : Env α) (c : Cfg α) (ps : List Text) : Except Nat (Cfg α) :=
  match env.scanF (p0 ps) with
  | none => .error eINVAL
  | some v => .ok { c with misc := { c.misc with threshold := v } }

/-- `parse_timestamping` (lines 249-267). -/
def parseTimestamping {α : Type} (c : Cfg α) (ps : List Text) : Except Nat (Cfg α) :=
  if p0 ps = "sw".toList then .ok { c with misc := { c.misc with tsPref := .sw } }
  else if p0 ps = "hw".toList then .ok { c with misc := { c.misc with tsPref := .hw } }
  else if p0 ps = "auto".toList then .ok { c with misc := { c.misc with tsPref := .auto } }
  else .error eINVAL

/-- `parse_tx_latency` (lines 285-300). -/
def parseTxLatency {α : Type} (c : Cfg α) (ps : List Text) : Except Nat (Cfg α) :=
  match scanI (p0 ps) with
  | none => .error eINVAL
  | some v => .ok { c with misc := { c.misc with txLatency := v } }

/-- `parse_rx_latency` (lines 302-316). -/
def parseRxLatency {α : Type} (c : Cfg α) (ps : List Text) : Except Nat (Cfg α) :=
  match scanI (p0 ps) with
  | none => .error eINVAL
  | some v => .ok { c with misc := { c.misc with rxLatency := v } }

/-- `parse_delay_mechanism` (lines 318-342). -/
def parseMechanism {α : Type} (c : Cfg α) (ps : List Text) : Except Nat (Cfg α) :=
  let m := if p0 ps = "end-to-end".toList then some Mech.e2e
    else if p0 ps = "peer-to-peer".toList then some Mech.p2p
    else none
  match m with
  | none => .error eINVAL
  | some m =>
    if m ∉ (getProfileDef c.profile).mechs ∧ c.profile ≠ none then .error eINVAL
    else .ok { c with mech := m }

/-- `parse_network_mode` (lines 344-364). -/
def parseNetworkMode {α : Type} (c : Cfg α) (ps : List Text) : Except Nat (Cfg α) :=
  if p0 ps = "multicast".toList then
    .ok { c with misc := { c.misc with respMulticast := true, respUnicast := false } }
  else if p0 ps = "hybrid".toList then
    .ok { c with misc := { c.misc with respMulticast := true, respUnicast := true } }
  else if p0 ps = "hybrid-no-fallback".toList then
    .ok { c with misc := { c.misc with respMulticast := false, respUnicast := true } }
  else .error eINVAL

/-- `parse_multicast_ttl` (lines 366-378). -/
def parseTtl {α : Type} (c : Cfg α) (ps : List Text) : Except Nat (Cfg α) :=
  match scanI (p0 ps) with
  | none => .error eINVAL
  | some v => .ok { c with misc := { c.misc with ttl := v } }

/-- `parse_utc_offset` (lines 380-400). -/
def parseUtcOffset {α : Type} (c : Cfg α) (ps : List Text) : Except Nat (Cfg α) :=
  match intIn (-32768) 32767 (p0 ps) with
  | .error e => .error e
  | .ok v => .ok { c with utc := { c.utc with offset := v, offsetValid := true } }

/-- `parse_utc_valid_handling` (lines 402-453). -/
def parseUtcHandling {α : Type} (c : Cfg α) (ps : List Text) : Except Nat (Cfg α) :=
  if p0 ps = "override".toList then
    if ps.length ≠ 2 then .error eINVAL
    else match scanI (p1 ps) with
      | none => .error eINVAL
      | some v =>
        let u := { c.utc with override := true, overrideSecs := v }
        .ok { c with utc := { u with always := false, prefer := false, require := false } }
  else if ps.length ≠ 1 then .error eINVAL
  else
    let u := { c.utc with override := false, overrideSecs := 0 }
    if p0 ps = "default".toList then .ok { c with utc := { u with always := false, prefer := false, require := false } }
    else if p0 ps = "ignore".toList then .ok { c with utc := { u with always := true, prefer := false, require := false } }
    else if p0 ps = "prefer".toList then .ok { c with utc := { u with always := false, prefer := true, require := false } }
    else if p0 ps = "require".toList then .ok { c with utc := { u with always := false, prefer := false, require := true } }
    else .error eINVAL

/-- `parse_ptp_timescale` (lines 456-472). -/
def parseTimescale {α : Type} (c : Cfg α) (ps : List Text) : Except Nat (Cfg α) :=
  if p0 ps = "tai".toList then .ok { c with utc := { c.utc with timescale := true } }
  else if p0 ps = "utc".toList then .ok { c with utc := { c.utc with timescale := false } }
  else .error eINVAL

/-- `parse_ptp_domain` (lines 475-494). -/
def parseDomain {α : Type} (c : Cfg α) (ps : List Text) : Except Nat (Cfg α) :=
  match intIn 0 255 (p0 ps) with
  | .error e => .error e
  | .ok v => .ok { c with domain := v }

/-- `parse_ptp_mgmt_msgs` (lines 496-514). -/
def parseMgmt {α : Type} (c : Cfg α) (ps : List Text) : Except Nat (Cfg α) :=
  if p0 ps = "disabled".toList then .ok { c with mgmtEnabled := false, mgmtSet := false }
  else if p0 ps = "read-only".toList then .ok { c with mgmtEnabled := true, mgmtSet := false }
  else .error eINVAL

/-- `sizeof` the texts of the access control lists (`PATH_MAX`). -/
def aclSize : Nat := 4096

/-- The loop of `parse_ptp_acl_list` (lines 527-534): `acl` is the text so far,
`len` the sum of what `snprintf` returned. When nothing is left of the buffer
(`acl_size - len` is zero) `snprintf` writes nothing. -/
def aclLoop : List Text → (acl : Text) → (len : Nat) → Except Nat Text
  | [], acl, _ => .ok acl
  | p :: ps, acl, len =>
    let s := p ++ [' ']
    let acl' := acl ++ s.take (aclSize - len - 1)
    let len' := len + s.length
    if len' > aclSize then .error e2BIG else aclLoop ps acl' len'

/-- `parse_ptp_acl_list` (lines 516-537). -/
def parseAclList (ps : List Text) : Except Nat Text := aclLoop ps [] 0

/-- `parse_ptp_timing_acl_allow` (lines 539-548). -/
def parseTimingAllow {α : Type} (c : Cfg α) (ps : List Text) : Except Nat (Cfg α) :=
  match parseAclList ps with
  | .error e => .error e
  | .ok t => .ok { c with timingAcl := { c.timingAcl with enabled := true, allow := t } }

/-- `parse_ptp_timing_acl_deny` (lines 550-559). -/
def parseTimingDeny {α : Type} (c : Cfg α) (ps : List Text) : Except Nat (Cfg α) :=
  match parseAclList ps with
  | .error e => .error e
  | .ok t => .ok { c with timingAcl := { c.timingAcl with enabled := true, deny := t } }

/-- `parse_ptp_mgmt_acl_allow` (lines 561-570). -/
def parseMgmtAllow {α : Type} (c : Cfg α) (ps : List Text) : Except Nat (Cfg α) :=
  match parseAclList ps with
  | .error e => .error e
  | .ok t => .ok { c with mgmtAcl := { c.mgmtAcl with enabled := true, allow := t } }

/-- `parse_ptp_mgmt_acl_deny` (lines 572-581). -/
def parseMgmtDeny {α : Type} (c : Cfg α) (ps : List Text) : Except Nat (Cfg α) :=
  match parseAclList ps with
  | .error e => .error e
  | .ok t => .ok { c with mgmtAcl := { c.mgmtAcl with enabled := true, deny := t } }

/-- `parse_ptp_mon_acl_allow` (lines 583-592). -/
def parseMonAllow {α : Type} (c : Cfg α) (ps : List Text) : Except Nat (Cfg α) :=
  match parseAclList ps with
  | .error e => .error e
  | .ok t => .ok { c with monAcl := { c.monAcl with enabled := true, allow := t } }

/-- `parse_ptp_mon_acl_deny` (lines 594-603). -/
def parseMonDeny {α : Type} (c : Cfg α) (ps : List Text) : Except Nat (Cfg α) :=
  match parseAclList ps with
  | .error e => .error e
  | .ok t => .ok { c with monAcl := { c.monAcl with enabled := true, deny := t } }

/-- `parse_ptp_acl_order` (lines 605-630). -/
def parseOrder (t : Text) : Except Nat AclOrder :=
  if t = "allow-deny".toList then .ok .allowDeny
  else if t = "deny-allow".toList then .ok .denyAllow
  else if t = "permit-deny".toList then .ok .denyAllow
  else if t = "deny-permit".toList then .ok .allowDeny
  else .error eINVAL

/-- `parse_ptp_timing_acl_order` (lines 632-639). -/
def parseTimingOrder {α : Type} (c : Cfg α) (ps : List Text) : Except Nat (Cfg α) :=
  match parseOrder (p0 ps) with
  | .error e => .error e
  | .ok o => .ok { c with timingAcl := { c.timingAcl with order := o } }

/-- `parse_ptp_mgmt_acl_order` (lines 641-648). -/
def parseMgmtOrder {α : Type} (c : Cfg α) (ps : List Text) : Except Nat (Cfg α) :=
  match parseOrder (p0 ps) with
  | .error e => .error e
  | .ok o => .ok { c with mgmtAcl := { c.mgmtAcl with order := o } }

/-- `parse_ptp_mon_acl_order` (lines 650-658). -/
def parseMonOrder {α : Type} (c : Cfg α) (ps : List Text) : Except Nat (Cfg α) :=
  match parseOrder (p0 ps) with
  | .error e => .error e
  | .ok o => .ok { c with monAcl := { c.monAcl with enabled := true, order := o } }

/-- `parse_announce_pkt_interval` (lines 668-689). -/
def parseAnnounce {α : Type} (c : Cfg α) (ps : List Text) : Except Nat (Cfg α) :=
  let d := getProfileDef c.profile
  match intIn d.announce.min d.announce.max (p0 ps) with
  | .error e => .error e
  | .ok v => .ok { c with timing := { c.timing with announce := v } }

/-- `parse_announce_pkt_timeout` (lines 691-712). -/
def parseAnnounceTimeout {α : Type} (c : Cfg α) (ps : List Text) : Except Nat (Cfg α) :=
  let d := getProfileDef c.profile
  match intIn d.timeout.min d.timeout.max (p0 ps) with
  | .error e => .error e
  | .ok v => .ok { c with timing := { c.timing with announceTimeout := v } }

/-- `parse_sync_pkt_interval` (lines 714-738). -/
def parseSync {α : Type} (c : Cfg α) (ps : List Text) : Except Nat (Cfg α) :=
  let d := getProfileDef c.profile
  match intIn d.sync.min d.sync.max (p0 ps) with
  | .error e => .error e
  | .ok v => .ok { c with timing := { c.timing with sync := v } }

/-- `parse_sync_pkt_timeout` (lines 740-760). -/
def parseSyncTimeout {α : Type} (c : Cfg α) (ps : List Text) : Except Nat (Cfg α) :=
  match intIn (-128) 127 (p0 ps) with
  | .error e => .error e
  | .ok v => .ok { c with timing := { c.timing with syncTimeout := v } }

/-- `parse_delayreq_pkt_interval` (lines 762-789). -/
def parseDelayReq {α : Type} (c : Cfg α) (ps : List Text) : Except Nat (Cfg α) :=
  let d := getProfileDef c.profile
  match intIn d.delayReq.min d.delayReq.max (p0 ps) with
  | .error e => .error e
  | .ok v => .ok { c with timing := { c.timing with delayReq := v, ignoreMaster := true, pdelayReq := v } }

/-- `parse_delayresp_pkt_timeout` (lines 791-811). -/
def parseDelayRespTimeout {α : Type} (c : Cfg α) (ps : List Text) : Except Nat (Cfg α) :=
  match intIn (-128) 127 (p0 ps) with
  | .error e => .error e
  | .ok v => .ok { c with timing := { c.timing with delayRespTimeout := v } }

/-- `parse_max_missing_delayresps` (lines 813-840). -/
def parseMissing {α : Type} (c : Cfg α) (ps : List Text) : Except Nat (Cfg α) :=
  match intIn 0 127 (p0 ps) with
  | .error e => .error e
  | .ok a => match intIn 0 127 (p1 ps) with
    | .error e => .error e
    | .ok b => .ok { c with timing := { c.timing with alarmThreshold := a, hybridThreshold := b } }

/-- `parse_max_foreign_records` (lines 842-862). -/
def parseMaxForeign {α : Type} (c : Cfg α) (ps : List Text) : Except Nat (Cfg α) :=
  match intIn 1 32767 (p0 ps) with
  | .error e => .error e
  | .ok v => .ok { c with maxForeign := v }

/-- `parse_bmc_priority1` (lines 864-884). -/
def parsePriority1 {α : Type} (c : Cfg α) (ps : List Text) : Except Nat (Cfg α) :=
  match intIn 0 255 (p0 ps) with
  | .error e => .error e
  | .ok v => .ok { c with priority1 := v }

/-- `parse_bmc_priority2` (lines 886-906). -/
def parsePriority2 {α : Type} (c : Cfg α) (ps : List Text) : Except Nat (Cfg α) :=
  match intIn 0 255 (p0 ps) with
  | .error e => .error e
  | .ok v => .ok { c with priority2 := v }

/-- `parse_trace_level` (lines 908-921). -/
def parseTrace {α : Type} (c : Cfg α) (ps : List Text) : Except Nat (Cfg α) :=
  match scanU (p0 ps) with
  | none => .error eINVAL
  | some v => .ok { c with misc := { c.misc with trace := v } }

/-- `parse_ptp_delay_resp_ignore_port_id` (lines 923-939). -/
def parseIgnorePort {α : Type} (c : Cfg α) (ps : List Text) : Except Nat (Cfg α) :=
  match onOff (p0 ps) with
  | .error e => .error e
  | .ok b => .ok { c with misc := { c.misc with ignorePortId := b } }

/-- `parse_pid_filter_kp` (lines 941-960). -/
def parseKp {α : Type} (env : Env α) (c : Cfg α) (ps : List Text) : Except Nat (Cfg α) :=
  match unitFloat env (p0 ps) with
  | .error e => .error e
  | .ok v => .ok { c with filters := { c.filters with kp := v } }

/-- `parse_pid_filter_ki` (lines 962-981). -/
def parseKi {α : Type} (env : Env α) (c : Cfg α) (ps : List Text) : Except Nat (Cfg α) :=
  match unitFloat env (p0 ps) with
  | .error e => .error e
  | .ok v => .ok { c with filters := { c.filters with ki := v } }

/-- `parse_outlier_filter_size` (lines 983-1003). -/
def parseOutlierSize {α : Type} (c : Cfg α) (ps : List Text) : Except Nat (Cfg α) :=
  match intIn 5 60 (p0 ps) with
  | .error e => .error e
  | .ok v => .ok { c with filters := { c.filters with outlierSize := v } }

/-- `parse_outlier_filter_adaption` (lines 1005-1025). -/
def parseAdaption {α : Type} (env : Env α) (c : Cfg α) (ps : List Text) : Except Nat (Cfg α) :=
  match unitFloat env (p0 ps) with
  | .error e => .error e
  | .ok v => .ok { c with filters := { c.filters with adaption := v } }

/-- `parse_mpd_filter_size` (lines 1027-1047). -/
def parseMpdSize {α : Type} (c : Cfg α) (ps : List Text) : Except Nat (Cfg α) :=
  match intIn 1 25 (p0 ps) with
  | .error e => .error e
  | .ok v => .ok { c with filters := { c.filters with mpdSize := v } }

/-- `parse_mpd_filter_ageing` (lines 1049-1068). -/
def parseAgeing {α : Type} (env : Env α) (c : Cfg α) (ps : List Text) : Except Nat (Cfg α) :=
  match env.scanF (p0 ps) with
  | none => .error eINVAL
  | some v => if v.lt 0 then .error eRANGE else .ok { c with filters := { c.filters with ageing := v } }

/-- `parse_fir_filter_size` (lines 1070-1090). -/
def parseFirSize {α : Type} (c : Cfg α) (ps : List Text) : Except Nat (Cfg α) :=
  match intIn 1 128 (p0 ps) with
  | .error e => .error e
  | .ok v => .ok { c with filters := { c.filters with firSize := v } }

/-- `MAX_SLAVE_EVENT_DESTS` (`constants.h` line 98). -/
def maxDests : Nat := 6

/-- The rest of `^\[(.*)](:([^:]*))?$` after the opening bracket, the first
group being as long as possible (lines 1123, 1136). -/
def quotedTail : Text → Option (Text × Option Text)
  | [] => none
  | c :: r => match quotedTail r with
    | some (n, s) => some (c :: n, s)
    | none =>
      if c = ']' then
        match r with
        | [] => some ([], none)
        | d :: s => if d = ':' ∧ ':' ∉ s then some ([], some s) else none
      else none

/-- `^([^:]*)(:([^:]*))?$` (lines 1124, 1138). -/
def unquoted (t : Text) : Option (Text × Option Text) :=
  match t.dropWhile (· ≠ ':') with
  | [] => some (t, none)
  | _ :: s => if ':' ∈ s then none else some (t.takeWhile (· ≠ ':'), some s)

/-- Node and service of an address (lines 1135-1152). -/
def splitAddr (t : Text) : Option (Text × Option Text) :=
  let q := match t with
    | '[' :: r => quotedTail r
    | _ => none
  match q with
  | some x => some x
  | none => unquoted t

/-- The loop of `parse_mon_monitor_address` (lines 1126-1167). -/
def monLoop {α : Type} (env : Env α) (ipv6 : Bool) : List Text → List α → Except Nat (List α)
  | [], ds => .ok ds
  | t :: ts, ds =>
    if ds.length ≥ maxDests then .error e2BIG
    else match splitAddr t with
      | none => .error eINVAL
      | some (n, s) => match env.resolve ipv6 n s with
        | none => .error eINVAL
        | some a => monLoop env ipv6 ts (ds ++ [a])

/-- `parse_mon_monitor_address` (lines 1104-1176). -/
def parseMonAddr {α : Type} (env : Env α) (c : Cfg α) (ps : List Text) : Except Nat (Cfg α) :=
  match monLoop env c.misc.ipv6 ps c.mon.dests with
  | .error e => .error e
  | .ok ds => .ok { c with mon := { c.mon with dests := ds } }

/-- The common part of the three options for slave events (lines 1185-1198). -/
def evt (e : EvtCfg) (ps : List Text) : Except Nat EvtCfg :=
  match ps with
  | [] => .ok { e with logging := true, tlv := true }
  | [p] => match scanI p with
    | none => .error eINVAL
    | some v => .ok { logging := true, tlv := true, skip := v }
  | _ => .error eINVAL

/-- `parse_mon_rx_sync_timing_data` (lines 1179-1199). -/
def parseRxTiming {α : Type} (c : Cfg α) (ps : List Text) : Except Nat (Cfg α) :=
  match evt c.mon.rxTiming ps with
  | .error e => .error e
  | .ok v => .ok { c with mon := { c.mon with rxTiming := v } }

/-- `parse_mon_rx_sync_computed_data` (lines 1202-1222). -/
def parseRxComputed {α : Type} (c : Cfg α) (ps : List Text) : Except Nat (Cfg α) :=
  match evt c.mon.rxComputed ps with
  | .error e => .error e
  | .ok v => .ok { c with mon := { c.mon with rxComputed := v } }

/-- `parse_mon_tx_event_timestamps` (lines 1225-1245). -/
def parseTxEvent {α : Type} (c : Cfg α) (ps : List Text) : Except Nat (Cfg α) :=
  match evt c.mon.txEvent ps with
  | .error e => .error e
  | .ok v => .ok { c with mon := { c.mon with txEvent := v } }

/-- `parse_announce_comm_caps` (lines 1258-1282). -/
def parseCommCaps {α : Type} (c : Cfg α) (ps : List Text) : Except Nat (Cfg α) :=
  match onOff (p0 ps) with
  | .error e => .error e
  | .ok b => if c.minor = 0 ∧ b then .error eINVAL else .ok { c with commCaps := b }

/-- `parse_onload_ext` (lines 1284-1299). -/
def parseOnload {α : Type} (c : Cfg α) (ps : List Text) : Except Nat (Cfg α) :=
  match onOff (p0 ps) with
  | .error e => .error e
  | .ok b => .ok { c with misc := { c.misc with onload := b } }

/-- `SFPTPD_CONFIG_SECTION_NAME_MAX` (`sfptpd_config.h` line 450). -/
def nameMax : Nat := 64

/-- `parse_bmc_discriminator` (lines 1301-1325). -/
def parseDiscriminator {α : Type} (env : Env α) (c : Cfg α) (ps : List Text) : Except Nat (Cfg α) :=
  if (p0 ps).length ≥ nameMax then .error eRANGE
  else match env.scanF (p1 ps) with
    | none => .error eINVAL
    | some v => .ok { c with misc := { c.misc with discName := p0 ps, discThreshold := v.scale 1000000 } }

/-- `parse_lacp_bypass` (lines 1327-1346). -/
def parseBypass {α : Type} (c : Cfg α) (ps : List Text) : Except Nat (Cfg α) :=
  if p0 ps = "off".toList then .ok { c with misc := { c.misc with bypassSockpool := false, bypassCmsg := false } }
  else if p0 ps = "sockpool".toList then
    .ok { c with misc := { c.misc with bypassSockpool := true, bypassCmsg := false } }
  else if p0 ps = "cmsg".toList then
    .ok { c with misc := { c.misc with bypassSockpool := false, bypassCmsg := true } }
  else if p0 ps = "both".toList then
    .ok { c with misc := { c.misc with bypassSockpool := true, bypassCmsg := true } }
  else .error eINVAL

/-! ## Options -/

/-- The parse functions named in the table. -/
inductive Fn
  | profile | version | mode | interface | transport | scope | priority | threshold | timestamping
  | pktDump | ppsLog | txLatency | rxLatency | mechanism | networkMode | ttl | utcOffset | utcHandling
  | timescale | domain | mgmt | timingAllow | timingDeny | timingOrder | mgmtAllow | mgmtDeny | mgmtOrder
  | monAllow | monDeny | monOrder | announce | announceTimeout | sync | syncTimeout | delayReq
  | delayRespTimeout | missing | maxForeign | priority1 | priority2 | trace | ignorePort | kp | ki
  | outlierSize | adaption | mpdSize | ageing | firSize | remoteMonitor | monAddr | rxTiming | rxComputed
  | txEvent | netSync | slaveStatus | discriminator | commCaps | onload | bypass | alarmTrace
deriving DecidableEq

/-- The call of a parse function. The functions without a definition of their
own are `parse_pkt_dump` (lines 269-275), `parse_pps_log` (lines 277-283),
`parse_mon_meinberg_netsync` (lines 660-666), `parse_remote_monitor`
(lines 1093-1101), `parse_mon_slave_status` (lines 1248-1256) and
`parse_on_alarm_trace_ptp` (lines 1348-1354). -/
def parse {α : Type} (env : Env α) (f : Fn) (c : Cfg α) (ps : List Text) : Except Nat (Cfg α) :=
  match f with
  | .profile => parseProfile c ps
  | .version => parseVersion c ps
  | .mode => parseMode c ps
  | .interface => parseInterface c ps
  | .transport => parseTransport c ps
  | .scope => parseScope c ps
  | .priority => parsePriority c ps
  | .threshold => parseThreshold env c ps
  | .timestamping => parseTimestamping c ps
  | .pktDump => .ok { c with misc := { c.misc with displayPackets := true } }
  | .ppsLog => .ok { c with misc := { c.misc with ppsLog := true } }
  | .txLatency => parseTxLatency c ps
  | .rxLatency => parseRxLatency c ps
  | .mechanism => parseMechanism c ps
  | .networkMode => parseNetworkMode c ps
  | .ttl => parseTtl c ps
  | .utcOffset => parseUtcOffset c ps
  | .utcHandling => parseUtcHandling c ps
  | .timescale => parseTimescale c ps
  | .domain => parseDomain c ps
  | .mgmt => parseMgmt c ps
  | .timingAllow => parseTimingAllow c ps
  | .timingDeny => parseTimingDeny c ps
  | .timingOrder => parseTimingOrder c ps
  | .mgmtAllow => parseMgmtAllow c ps
  | .mgmtDeny => parseMgmtDeny c ps
  | .mgmtOrder => parseMgmtOrder c ps
  | .monAllow => parseMonAllow c ps
  | .monDeny => parseMonDeny c ps
  | .monOrder => parseMonOrder c ps
  | .announce => parseAnnounce c ps
  | .announceTimeout => parseAnnounceTimeout c ps
  | .sync => parseSync c ps
  | .syncTimeout => parseSyncTimeout c ps
  | .delayReq => parseDelayReq c ps
  | .delayRespTimeout => parseDelayRespTimeout c ps
  | .missing => parseMissing c ps
  | .maxForeign => parseMaxForeign c ps
  | .priority1 => parsePriority1 c ps
  | .priority2 => parsePriority2 c ps
  | .trace => parseTrace c ps
  | .ignorePort => parseIgnorePort c ps
  | .kp => parseKp env c ps
  | .ki => parseKi env c ps
  | .outlierSize => parseOutlierSize c ps
  | .adaption => parseAdaption env c ps
  | .mpdSize => parseMpdSize c ps
  | .ageing => parseAgeing env c ps
  | .firSize => parseFirSize c ps
  | .remoteMonitor => .ok { c with mon := { c.mon with remote := true } }
  | .monAddr => parseMonAddr env c ps
  | .rxTiming => parseRxTiming c ps
  | .rxComputed => parseRxComputed c ps
  | .txEvent => parseTxEvent c ps
  | .netSync => .ok { c with mon := { c.mon with netSync := true } }
  | .slaveStatus => .ok { c with mon := { c.mon with slaveStatus := true } }
  | .discriminator => parseDiscriminator env c ps
  | .commCaps => parseCommCaps c ps
  | .onload => parseOnload c ps
  | .bypass => parseBypass c ps
  | .alarmTrace => .ok { c with misc := { c.misc with alarmTrace := true } }

/-- `sfptpd_config_option_t`: name, number of parameters (a negative number is
the complement of the least number), whether it is a global option. -/
structure Opt where
  name : Text
  arity : Int
  isGlobal : Bool
  fn : Fn
deriving DecidableEq

/-- `ptp_config_options` (lines 1357-1691). -/
def options : List Opt :=
  [⟨"ptp_profile".toList, 1, true, .profile⟩,
   ⟨"ptp_version".toList, 1, true, .version⟩,
   ⟨"ptp_mode".toList, 1, false, .mode⟩,
   ⟨"interface".toList, 1, false, .interface⟩,
   ⟨"transport".toList, 1, false, .transport⟩,
   ⟨"scope".toList, 1, true, .scope⟩,
   ⟨"priority".toList, 1, false, .priority⟩,
   ⟨"sync_threshold".toList, 1, false, .threshold⟩,
   ⟨"timestamping".toList, 1, false, .timestamping⟩,
   ⟨"ptp_pkt_dump".toList, 0, false, .pktDump⟩,
   ⟨"ptp_pps_log".toList, 0, false, .ppsLog⟩,
   ⟨"ptp_tx_latency".toList, 1, false, .txLatency⟩,
   ⟨"ptp_rx_latency".toList, 1, false, .rxLatency⟩,
   ⟨"ptp_delay_mechanism".toList, 1, false, .mechanism⟩,
   ⟨"ptp_network_mode".toList, 1, false, .networkMode⟩,
   ⟨"ptp_ttl".toList, 1, false, .ttl⟩,
   ⟨"ptp_utc_offset".toList, 1, false, .utcOffset⟩,
   ⟨"ptp_utc_valid_handling".toList, -2, false, .utcHandling⟩,
   ⟨"ptp_timescale".toList, 1, false, .timescale⟩,
   ⟨"ptp_domain".toList, 1, false, .domain⟩,
   ⟨"ptp_mgmt_msgs".toList, 1, true, .mgmt⟩,
   ⟨"ptp_timing_acl_allow".toList, -2, false, .timingAllow⟩,
   ⟨"ptp_timing_acl_permit".toList, -2, false, .timingAllow⟩,
   ⟨"ptp_timing_acl_deny".toList, -2, false, .timingDeny⟩,
   ⟨"ptp_timing_acl_order".toList, 1, false, .timingOrder⟩,
   ⟨"ptp_mgmt_acl_allow".toList, -2, false, .mgmtAllow⟩,
   ⟨"ptp_mgmt_acl_permit".toList, -2, false, .timingAllow⟩,
   ⟨"ptp_mgmt_acl_deny".toList, -2, false, .mgmtDeny⟩,
   ⟨"ptp_mgmt_acl_order".toList, 1, false, .mgmtOrder⟩,
   ⟨"ptp_mon_acl_allow".toList, -2, false, .monAllow⟩,
   ⟨"ptp_mon_acl_deny".toList, -2, false, .monDeny⟩,
   ⟨"ptp_mon_acl_order".toList, 1, false, .monOrder⟩,
   ⟨"ptp_announce_interval".toList, 1, false, .announce⟩,
   ⟨"ptp_announce_timeout".toList, 1, false, .announceTimeout⟩,
   ⟨"ptp_sync_pkt_interval".toList, 1, false, .sync⟩,
   ⟨"ptp_sync_pkt_timeout".toList, 1, false, .syncTimeout⟩,
   ⟨"ptp_delayreq_interval".toList, 1, false, .delayReq⟩,
   ⟨"ptp_delayresp_timeout".toList, 1, false, .delayRespTimeout⟩,
   ⟨"max_missing_delayresps".toList, 2, false, .missing⟩,
   ⟨"ptp_max_foreign_records".toList, 1, true, .maxForeign⟩,
   ⟨"ptp_bmc_priority1".toList, 1, false, .priority1⟩,
   ⟨"ptp_bmc_priority2".toList, 1, false, .priority2⟩,
   ⟨"ptp_trace".toList, 1, false, .trace⟩,
   ⟨"ptp_delay_resp_ignore_port_id".toList, 1, false, .ignorePort⟩,
   ⟨"pid_filter_p".toList, 1, false, .kp⟩,
   ⟨"pid_filter_i".toList, 1, false, .ki⟩,
   ⟨"outlier_filter_size".toList, 1, false, .outlierSize⟩,
   ⟨"outlier_filter_adaption".toList, 1, false, .adaption⟩,
   ⟨"mpd_filter_size".toList, 1, false, .mpdSize⟩,
   ⟨"mpd_filter_ageing".toList, 1, false, .ageing⟩,
   ⟨"fir_filter_size".toList, 1, false, .firSize⟩,
   ⟨"remote_monitor".toList, 0, true, .remoteMonitor⟩,
   ⟨"mon_monitor_address".toList, -2, false, .monAddr⟩,
   ⟨"mon_rx_sync_timing_data".toList, -1, false, .rxTiming⟩,
   ⟨"mon_rx_sync_computed_data".toList, -1, false, .rxComputed⟩,
   ⟨"mon_tx_event_timestamps".toList, -1, false, .txEvent⟩,
   ⟨"mon_meinberg_netsync".toList, 0, false, .netSync⟩,
   ⟨"mon_slave_status".toList, 0, false, .slaveStatus⟩,
   ⟨"bmc_discriminator".toList, 2, false, .discriminator⟩,
   ⟨"announce_comm_caps".toList, 1, false, .commCaps⟩,
   ⟨"onload_ext".toList, 1, true, .onload⟩,
   ⟨"lacp_bypass".toList, 1, true, .bypass⟩,
   ⟨"on_alarm_trace_ptp".toList, 0, true, .alarmTrace⟩]

/-- The option of a name: the first that matches (`sfptpd_config.c` lines 325-329). -/
def lookup (name : Text) : Option Opt := options.find? (fun o => decide (name = o.name))

/-- The number of parameters (`sfptpd_config.c` lines 341-345). -/
def arityOk (arity : Int) (n : Nat) : Bool :=
  let exact := decide (arity ≥ 0)
  let reqd : Int := if exact then arity else -arity - 1
  !((exact && decide ((n : Int) ≠ reqd)) || (!exact && decide ((n : Int) < reqd)))

/-! ## Configuration -/

/-- The global section and the instances. -/
structure Conf (α : Type) where
  glob : Cfg α
  insts : List (Cfg α)

/-- What becomes of the configuration: it goes on, an error, or a failed
assertion. -/
inductive Out (α : Type)
  | ok (c : Conf α)
  | err (rc : Nat)
  | abort

/-- What is configured: `-D` and `-i` on the command line, the creation of an
instance, an option in the global section (`none`) or of an instance. -/
inductive Line
  | cliDomain (d : Int)
  | cliInterface (t : Text)
  | inst
  | opt (sec : Option Nat) (name : Text) (ps : List Text)

/-- The option for all instances (`sfptpd_config.c` lines 380-393): an error
fails the assertion. -/
def applyInsts {α : Type} (env : Env α) (f : Fn) (ps : List Text) : List (Cfg α) → Option (List (Cfg α))
  | [] => some []
  | c :: cs => match parse env f c ps with
    | .error _ => none
    | .ok c' => (applyInsts env f ps cs).map (c' :: ·)

/-- An option in the global section (`sfptpd_config.c` lines 340-395). -/
def globalOption {α : Type} (env : Env α) (o : Opt) (ps : List Text) (c : Conf α) : Out α :=
  if !arityOk o.arity ps.length then .err eINVAL
  else match parse env o.fn c.glob ps with
    | .error e => .err e
    | .ok g => match applyInsts env o.fn ps c.insts with
      | none => .abort
      | some is => .ok { glob := g, insts := is }

/-- An option in the section of an instance (`sfptpd_config.c` lines 330-370). -/
def instOption {α : Type} (env : Env α) (o : Opt) (ps : List Text) (i : Nat) (c : Conf α) : Out α :=
  match c.insts[i]? with
  | none => .err eNOENT
  | some s =>
    if o.isGlobal then .err eINVAL
    else if !arityOk o.arity ps.length then .err eINVAL
    else match parse env o.fn s ps with
      | .error e => .err e
      | .ok s' => .ok { c with insts := c.insts.set i s' }

/-- One step: `sfptpd_ptp_module_set_default_domain` (lines 1802-1817),
`sfptpd_ptp_module_set_default_interface` (lines 1789-1799),
`ptp_config_create` with a source (lines 1732-1734) and `config_parse_option`
(`sfptpd_config.c` lines 296-401). -/
def step {α : Type} (env : Env α) (c : Conf α) : Line → Out α
  | .cliDomain d =>
    if d < 0 ∨ d > 255 then .ok c else .ok { c with glob := { c.glob with domain := d } }
  | .cliInterface t => .ok { c with glob := { c.glob with misc := { c.glob.misc with interfaceName := ifName t } } }
  | .inst => .ok { c with insts := c.insts ++ [c.glob] }
  | .opt sec name ps =>
    match lookup name with
    | none => .err eNOENT
    | some o => match sec with
      | none => globalOption env o ps c
      | some i => instOption env o ps i c

/-- A configuration. -/
def run {α : Type} (env : Env α) (c : Conf α) : List Line → Out α
  | [] => .ok c
  | l :: ls => match step env c l with
    | .ok c' => run env c' ls
    | .err e => .err e
    | .abort => .abort

/-- Before any option. -/
def Conf.init (α : Type) : Conf α := { glob := .init α, insts := [] }

/-- The settings an instance is created with: default profile and
communication capabilities (`sfptpd_ptp_module.c` lines 3582-3594). -/
def created {α : Type} (c : Cfg α) : Cfg α :=
  let c := match c.profile with
    | none => { c with profile := some (if c.mech = .p2p then Profile.defaultP2P else Profile.defaultE2E) }
    | some _ => c
  if c.minor < 1 then { c with commCaps := false } else c

end Verif.PtpConf
