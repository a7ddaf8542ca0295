import Verif.PtpConf.Model

/-
# Specification: the options of PTP instances

What the options are documented to accept and to set, and what the settings of
an instance must satisfy, without the helpers of the model.
-/

namespace Verif.PtpConf

/-- An option line is accepted for a section with settings `c` and leaves `c'`. -/
def Accepts {α : Type} (env : Env α) (name : Text) (ps : List Text) (c c' : Cfg α) : Prop :=
  ∃ o, lookup name = some o ∧ arityOk o.arity ps.length = true ∧ parse env o.fn c ps = .ok c'

/-! ## Limits -/

/-- The intervals and the timeout allowed by a profile. -/
def Allowed : Profile → (announce sync delayReq pdelayReq timeout : Int) → Prop
  | .enterprise, a, s, d, p, t =>
    a = 0 ∧ (-4 ≤ s ∧ s ≤ 4) ∧ (-4 ≤ d ∧ d ≤ 5) ∧ (-4 ≤ p ∧ p ≤ 5) ∧ t = 3
  | _, a, s, d, p, t =>
    (-4 ≤ a ∧ a ≤ 4) ∧ (-4 ≤ s ∧ s ≤ 4) ∧ (-4 ≤ d ∧ d ≤ 5) ∧ (-4 ≤ p ∧ p ≤ 5) ∧ 2 ≤ t ∧ t ≤ 127

/-- The delay mechanisms of a profile. -/
inductive Supports : Profile → Mech → Prop
  | e2e : Supports .defaultE2E .e2e
  | p2p : Supports .defaultP2P .p2p
  | enterprise : Supports .enterprise .e2e

/-- The numbers fit the fields of the messages and the sizes of the filters. -/
structure Fits {α : Type} (c : Cfg α) : Prop where
  domain : 0 ≤ c.domain ∧ c.domain ≤ 255
  priority1 : 0 ≤ c.priority1 ∧ c.priority1 ≤ 255
  priority2 : 0 ≤ c.priority2 ∧ c.priority2 ≤ 255
  maxForeign : 1 ≤ c.maxForeign ∧ c.maxForeign ≤ 32767
  utc : -32768 ≤ c.utc.offset ∧ c.utc.offset ≤ 32767
  syncTimeout : -128 ≤ c.timing.syncTimeout ∧ c.timing.syncTimeout ≤ 127
  respTimeout : -128 ≤ c.timing.delayRespTimeout ∧ c.timing.delayRespTimeout ≤ 127
  alarm : 0 ≤ c.timing.alarmThreshold ∧ c.timing.alarmThreshold ≤ 127
  hybrid : 0 ≤ c.timing.hybridThreshold ∧ c.timing.hybridThreshold ≤ 127
  outlier : 5 ≤ c.filters.outlierSize ∧ c.filters.outlierSize ≤ 60
  mpd : 1 ≤ c.filters.mpdSize ∧ c.filters.mpdSize ≤ 25
  fir : 1 ≤ c.filters.firSize ∧ c.filters.firSize ≤ 128
  dests : c.mon.dests.length ≤ 6
  name : c.misc.interfaceName.length < 16
  disc : c.misc.discName.length < 64
  priority : c.misc.priority < 4294967296

/-- The settings of a created instance are within the limits of its profile. -/
def Sound {α : Type} (c : Cfg α) : Prop :=
  (∃ p, c.profile = some p ∧
    Allowed p c.timing.announce c.timing.sync c.timing.delayReq c.timing.pdelayReq c.timing.announceTimeout) ∧ Fits c

/-- A number of the unit interval. -/
def InUnit (x : FV) : Prop := ∃ q : Rat, x = .num q ∧ 0 ≤ q ∧ q ≤ 1

/-! ## Numerals -/

/-- The decimal digits. -/
def decimal : List Char := ['0', '1', '2', '3', '4', '5', '6', '7', '8', '9']

/-- A decimal numeral without superfluous zeros and its value. -/
inductive Numeral : Text → Nat → Prop
  | digit (d : Nat) (c : Char) : decimal[d]? = some c → Numeral [c] d
  | more (t : Text) (n d : Nat) (c : Char) : Numeral t n → 0 < n → decimal[d]? = some c → Numeral (t ++ [c]) (10 * n + d)

/-- The text of an integer. -/
inductive IntText : Text → Int → Prop
  | pos (t : Text) (n : Nat) : Numeral t n → IntText t n
  | neg (t : Text) (n : Nat) : Numeral t n → 0 < n → IntText ('-' :: t) (-(n : Int))

/-! ## Meaning of the options -/

/-- The modes of a port. -/
inductive IsMode : Role → Prop
  | slave : IsMode { slaveOnly := true, masterOnly := false, monitorNode := false }
  | master : IsMode { slaveOnly := false, masterOnly := false, monitorNode := false }
  | masterOnly : IsMode { slaveOnly := false, masterOnly := true, monitorNode := false }
  | monitor : IsMode { slaveOnly := false, masterOnly := false, monitorNode := true }

/-- A keyword option: its name, a keyword, and what it sets. -/
structure Word (α : Type) where
  name : Text
  word : Text
  sets : Cfg α → Prop

/-- The keywords of all options with keywords. -/
def words (α : Type) : List (Word α) :=
  [⟨"ptp_profile".toList, "default-e2e".toList, fun c => c.profile = some .defaultE2E⟩,
   ⟨"ptp_profile".toList, "default-p2p".toList, fun c => c.profile = some .defaultP2P⟩,
   ⟨"ptp_profile".toList, "enterprise".toList, fun c => c.profile = some .enterprise⟩,
   ⟨"ptp_version".toList, "2.0".toList, fun c => c.minor = 0⟩,
   ⟨"ptp_version".toList, "2.1".toList, fun c => c.minor = 1⟩,
   ⟨"ptp_mode".toList, "slave".toList, fun c => c.role.slaveOnly = true ∧ c.role.masterOnly = false ∧ c.role.monitorNode = false⟩,
   ⟨"ptp_mode".toList, "master".toList, fun c => c.role.slaveOnly = false ∧ c.role.masterOnly = false ∧ c.role.monitorNode = false⟩,
   ⟨"ptp_mode".toList, "master-only".toList, fun c => c.role.slaveOnly = false ∧ c.role.masterOnly = true ∧ c.role.monitorNode = false⟩,
   ⟨"ptp_mode".toList, "monitor".toList, fun c => c.role.slaveOnly = false ∧ c.role.masterOnly = false ∧ c.role.monitorNode = true⟩,
   ⟨"transport".toList, "ipv4".toList, fun c => c.misc.ipv6 = false⟩,
   ⟨"transport".toList, "ipv6".toList, fun c => c.misc.ipv6 = true⟩,
   ⟨"scope".toList, "link-local".toList, fun c => c.misc.linkLocal = true⟩,
   ⟨"scope".toList, "global".toList, fun c => c.misc.linkLocal = false⟩,
   ⟨"timestamping".toList, "hw".toList, fun c => c.misc.tsPref = .hw⟩,
   ⟨"timestamping".toList, "sw".toList, fun c => c.misc.tsPref = .sw⟩,
   ⟨"timestamping".toList, "auto".toList, fun c => c.misc.tsPref = .auto⟩,
   ⟨"ptp_delay_mechanism".toList, "end-to-end".toList, fun c => c.mech = .e2e⟩,
   ⟨"ptp_delay_mechanism".toList, "peer-to-peer".toList, fun c => c.mech = .p2p⟩,
   ⟨"ptp_network_mode".toList, "multicast".toList, fun c => c.misc.respMulticast = true ∧ c.misc.respUnicast = false⟩,
   ⟨"ptp_network_mode".toList, "hybrid".toList, fun c => c.misc.respMulticast = true ∧ c.misc.respUnicast = true⟩,
   ⟨"ptp_network_mode".toList, "hybrid-no-fallback".toList, fun c => c.misc.respMulticast = false ∧ c.misc.respUnicast = true⟩,
   ⟨"ptp_timescale".toList, "tai".toList, fun c => c.utc.timescale = true⟩,
   ⟨"ptp_timescale".toList, "utc".toList, fun c => c.utc.timescale = false⟩,
   ⟨"ptp_mgmt_msgs".toList, "disabled".toList, fun c => c.mgmtEnabled = false ∧ c.mgmtSet = false⟩,
   ⟨"ptp_mgmt_msgs".toList, "read-only".toList, fun c => c.mgmtEnabled = true ∧ c.mgmtSet = false⟩,
   ⟨"ptp_timing_acl_order".toList, "allow-deny".toList, fun c => c.timingAcl.order = .allowDeny⟩,
   ⟨"ptp_timing_acl_order".toList, "deny-allow".toList, fun c => c.timingAcl.order = .denyAllow⟩,
   ⟨"ptp_timing_acl_order".toList, "deny-permit".toList, fun c => c.timingAcl.order = .allowDeny⟩,
   ⟨"ptp_timing_acl_order".toList, "permit-deny".toList, fun c => c.timingAcl.order = .denyAllow⟩,
   ⟨"ptp_mgmt_acl_order".toList, "allow-deny".toList, fun c => c.mgmtAcl.order = .allowDeny⟩,
   ⟨"ptp_mgmt_acl_order".toList, "deny-allow".toList, fun c => c.mgmtAcl.order = .denyAllow⟩,
   ⟨"ptp_mgmt_acl_order".toList, "deny-permit".toList, fun c => c.mgmtAcl.order = .allowDeny⟩,
   ⟨"ptp_mgmt_acl_order".toList, "permit-deny".toList, fun c => c.mgmtAcl.order = .denyAllow⟩,
   ⟨"ptp_mon_acl_order".toList, "allow-deny".toList, fun c => c.monAcl.order = .allowDeny⟩,
   ⟨"ptp_mon_acl_order".toList, "deny-allow".toList, fun c => c.monAcl.order = .denyAllow⟩,
   ⟨"ptp_mon_acl_order".toList, "deny-permit".toList, fun c => c.monAcl.order = .allowDeny⟩,
   ⟨"ptp_mon_acl_order".toList, "permit-deny".toList, fun c => c.monAcl.order = .denyAllow⟩,
   ⟨"ptp_delay_resp_ignore_port_id".toList, "on".toList, fun c => c.misc.ignorePortId = true⟩,
   ⟨"ptp_delay_resp_ignore_port_id".toList, "off".toList, fun c => c.misc.ignorePortId = false⟩,
   ⟨"announce_comm_caps".toList, "on".toList, fun c => c.commCaps = true⟩,
   ⟨"announce_comm_caps".toList, "off".toList, fun c => c.commCaps = false⟩,
   ⟨"onload_ext".toList, "on".toList, fun c => c.misc.onload = true⟩,
   ⟨"onload_ext".toList, "off".toList, fun c => c.misc.onload = false⟩,
   ⟨"lacp_bypass".toList, "off".toList, fun c => c.misc.bypassSockpool = false ∧ c.misc.bypassCmsg = false⟩,
   ⟨"lacp_bypass".toList, "sockpool".toList, fun c => c.misc.bypassSockpool = true ∧ c.misc.bypassCmsg = false⟩,
   ⟨"lacp_bypass".toList, "cmsg".toList, fun c => c.misc.bypassSockpool = false ∧ c.misc.bypassCmsg = true⟩,
   ⟨"lacp_bypass".toList, "both".toList, fun c => c.misc.bypassSockpool = true ∧ c.misc.bypassCmsg = true⟩]

/-- The keywords by option. -/
def keywords : List (Text × Text) :=
  [("ptp_profile", ["default-e2e", "default-p2p", "enterprise"]), ("ptp_version", ["2.0", "2.1"]),
   ("ptp_mode", ["slave", "master", "master-only", "monitor"]), ("transport", ["ipv4", "ipv6"]),
   ("scope", ["link-local", "global"]), ("timestamping", ["hw", "sw", "auto"]),
   ("ptp_delay_mechanism", ["end-to-end", "peer-to-peer"]),
   ("ptp_network_mode", ["multicast", "hybrid", "hybrid-no-fallback"]), ("ptp_timescale", ["tai", "utc"]),
   ("ptp_mgmt_msgs", ["disabled", "read-only"]),
   ("ptp_timing_acl_order", ["allow-deny", "deny-allow", "deny-permit", "permit-deny"]),
   ("ptp_mgmt_acl_order", ["allow-deny", "deny-allow", "deny-permit", "permit-deny"]),
   ("ptp_mon_acl_order", ["allow-deny", "deny-allow", "deny-permit", "permit-deny"]),
   ("ptp_delay_resp_ignore_port_id", ["on", "off"]), ("announce_comm_caps", ["on", "off"]),
   ("onload_ext", ["on", "off"]), ("lacp_bypass", ["off", "sockpool", "cmsg", "both"])].flatMap
    fun p => p.2.map fun w => (p.1.toList, w.toList)

/-- An option with one integer: name, limits for the given profile, setting. -/
structure Num (α : Type) where
  name : Text
  lo : Option Profile → Int
  hi : Option Profile → Int
  get : Cfg α → Int

/-- The options with one integer with limits. -/
def nums (α : Type) : List (Num α) :=
  [⟨"ptp_domain".toList, fun _ => 0, fun _ => 255, fun c => c.domain⟩,
   ⟨"ptp_bmc_priority1".toList, fun _ => 0, fun _ => 255, fun c => c.priority1⟩,
   ⟨"ptp_bmc_priority2".toList, fun _ => 0, fun _ => 255, fun c => c.priority2⟩,
   ⟨"ptp_max_foreign_records".toList, fun _ => 1, fun _ => 32767, fun c => c.maxForeign⟩,
   ⟨"ptp_utc_offset".toList, fun _ => -32768, fun _ => 32767, fun c => c.utc.offset⟩,
   ⟨"ptp_announce_interval".toList, fun p => if p = some .enterprise then 0 else -4,
     fun p => if p = some .enterprise then 0 else 4, fun c => c.timing.announce⟩,
   ⟨"ptp_announce_timeout".toList, fun p => if p = some .enterprise then 3 else 2,
     fun p => if p = some .enterprise then 3 else 127, fun c => c.timing.announceTimeout⟩,
   ⟨"ptp_sync_pkt_interval".toList, fun _ => -4, fun _ => 4, fun c => c.timing.sync⟩,
   ⟨"ptp_sync_pkt_timeout".toList, fun _ => -128, fun _ => 127, fun c => c.timing.syncTimeout⟩,
   ⟨"ptp_delayreq_interval".toList, fun _ => -4, fun _ => 5, fun c => c.timing.delayReq⟩,
   ⟨"ptp_delayreq_interval".toList, fun _ => -4, fun _ => 5, fun c => c.timing.pdelayReq⟩,
   ⟨"ptp_delayresp_timeout".toList, fun _ => -128, fun _ => 127, fun c => c.timing.delayRespTimeout⟩,
   ⟨"outlier_filter_size".toList, fun _ => 5, fun _ => 60, fun c => c.filters.outlierSize⟩,
   ⟨"mpd_filter_size".toList, fun _ => 1, fun _ => 25, fun c => c.filters.mpdSize⟩,
   ⟨"fir_filter_size".toList, fun _ => 1, fun _ => 128, fun c => c.filters.firSize⟩,
   ⟨"ptp_ttl".toList, fun _ => -2147483648, fun _ => 2147483647, fun c => c.misc.ttl⟩,
   ⟨"ptp_tx_latency".toList, fun _ => -2147483648, fun _ => 2147483647, fun c => c.misc.txLatency⟩,
   ⟨"ptp_rx_latency".toList, fun _ => -2147483648, fun _ => 2147483647, fun c => c.misc.rxLatency⟩]

/-- An option and what it may change: `own c c'` are the settings `c'` with the
setting of the option put back to its value in `c`. -/
structure Owner (α : Type) where
  name : Text
  own : Cfg α → Cfg α → Cfg α

/-- What each option may change. -/
def owners (α : Type) : List (Owner α) :=
  [⟨"ptp_profile".toList, fun c c' => { c' with
      profile := c.profile
      timing := { c'.timing with
        announce := c.timing.announce
        sync := c.timing.sync
        delayReq := c.timing.delayReq
        pdelayReq := c.timing.pdelayReq
        announceTimeout := c.timing.announceTimeout } }⟩,
   ⟨"ptp_version".toList, fun c c' => { c' with minor := c.minor }⟩,
   ⟨"ptp_mode".toList, fun c c' => { c' with role := c.role }⟩,
   ⟨"interface".toList, fun c c' => { c' with misc := { c'.misc with interfaceName := c.misc.interfaceName } }⟩,
   ⟨"transport".toList, fun c c' => { c' with misc := { c'.misc with ipv6 := c.misc.ipv6 } }⟩,
   ⟨"scope".toList, fun c c' => { c' with misc := { c'.misc with linkLocal := c.misc.linkLocal } }⟩,
   ⟨"priority".toList, fun c c' => { c' with misc := { c'.misc with priority := c.misc.priority } }⟩,
   ⟨"sync_threshold".toList, fun c c' => { c' with misc := { c'.misc with threshold := c.misc.threshold } }⟩,
   ⟨"timestamping".toList, fun c c' => { c' with misc := { c'.misc with tsPref := c.misc.tsPref } }⟩,
   ⟨"ptp_pkt_dump".toList, fun c c' => { c' with misc := { c'.misc with displayPackets := c.misc.displayPackets } }⟩,
   ⟨"ptp_pps_log".toList, fun c c' => { c' with misc := { c'.misc with ppsLog := c.misc.ppsLog } }⟩,
   ⟨"ptp_tx_latency".toList, fun c c' => { c' with misc := { c'.misc with txLatency := c.misc.txLatency } }⟩,
   ⟨"ptp_rx_latency".toList, fun c c' => { c' with misc := { c'.misc with rxLatency := c.misc.rxLatency } }⟩,
   ⟨"ptp_delay_mechanism".toList, fun c c' => { c' with mech := c.mech }⟩,
   ⟨"ptp_network_mode".toList, fun c c' => { c' with misc := { c'.misc with
      respMulticast := c.misc.respMulticast
      respUnicast := c.misc.respUnicast } }⟩,
   ⟨"ptp_ttl".toList, fun c c' => { c' with misc := { c'.misc with ttl := c.misc.ttl } }⟩,
   ⟨"ptp_utc_offset".toList, fun c c' => { c' with utc := { c'.utc with
      offset := c.utc.offset
      offsetValid := c.utc.offsetValid } }⟩,
   ⟨"ptp_utc_valid_handling".toList, fun c c' => { c' with utc := { c'.utc with
      override := c.utc.override
      overrideSecs := c.utc.overrideSecs
      always := c.utc.always
      prefer := c.utc.prefer
      require := c.utc.require } }⟩,
   ⟨"ptp_timescale".toList, fun c c' => { c' with utc := { c'.utc with timescale := c.utc.timescale } }⟩,
   ⟨"ptp_domain".toList, fun c c' => { c' with domain := c.domain }⟩,
   ⟨"ptp_mgmt_msgs".toList, fun c c' => { c' with
      mgmtEnabled := c.mgmtEnabled
      mgmtSet := c.mgmtSet }⟩,
   ⟨"ptp_timing_acl_allow".toList, fun c c' => { c' with timingAcl := { c'.timingAcl with
      enabled := c.timingAcl.enabled
      allow := c.timingAcl.allow } }⟩,
   ⟨"ptp_timing_acl_permit".toList, fun c c' => { c' with timingAcl := { c'.timingAcl with
      enabled := c.timingAcl.enabled
      allow := c.timingAcl.allow } }⟩,
   ⟨"ptp_timing_acl_deny".toList, fun c c' => { c' with timingAcl := { c'.timingAcl with
      enabled := c.timingAcl.enabled
      deny := c.timingAcl.deny } }⟩,
   ⟨"ptp_timing_acl_order".toList, fun c c' => { c' with timingAcl := { c'.timingAcl with order := c.timingAcl.order } }⟩,
   ⟨"ptp_mgmt_acl_allow".toList, fun c c' => { c' with mgmtAcl := { c'.mgmtAcl with
      enabled := c.mgmtAcl.enabled
      allow := c.mgmtAcl.allow } }⟩,
   ⟨"ptp_mgmt_acl_deny".toList, fun c c' => { c' with mgmtAcl := { c'.mgmtAcl with
      enabled := c.mgmtAcl.enabled
      deny := c.mgmtAcl.deny } }⟩,
   ⟨"ptp_mgmt_acl_order".toList, fun c c' => { c' with mgmtAcl := { c'.mgmtAcl with order := c.mgmtAcl.order } }⟩,
   ⟨"ptp_mon_acl_allow".toList, fun c c' => { c' with monAcl := { c'.monAcl with
      enabled := c.monAcl.enabled
      allow := c.monAcl.allow } }⟩,
   ⟨"ptp_mon_acl_deny".toList, fun c c' => { c' with monAcl := { c'.monAcl with
      enabled := c.monAcl.enabled
      deny := c.monAcl.deny } }⟩,
   ⟨"ptp_mon_acl_order".toList, fun c c' => { c' with monAcl := { c'.monAcl with
      enabled := c.monAcl.enabled
      order := c.monAcl.order } }⟩,
   ⟨"ptp_announce_interval".toList, fun c c' => { c' with timing := { c'.timing with announce := c.timing.announce } }⟩,
   ⟨"ptp_announce_timeout".toList, fun c c' =>
      { c' with timing := { c'.timing with announceTimeout := c.timing.announceTimeout } }⟩,
   ⟨"ptp_sync_pkt_interval".toList, fun c c' => { c' with timing := { c'.timing with sync := c.timing.sync } }⟩,
   ⟨"ptp_sync_pkt_timeout".toList, fun c c' => { c' with timing := { c'.timing with syncTimeout := c.timing.syncTimeout } }⟩,
   ⟨"ptp_delayreq_interval".toList, fun c c' => { c' with timing := { c'.timing with
      delayReq := c.timing.delayReq
      pdelayReq := c.timing.pdelayReq
      ignoreMaster := c.timing.ignoreMaster } }⟩,
   ⟨"ptp_delayresp_timeout".toList, fun c c' =>
      { c' with timing := { c'.timing with delayRespTimeout := c.timing.delayRespTimeout } }⟩,
   ⟨"max_missing_delayresps".toList, fun c c' => { c' with timing := { c'.timing with
      alarmThreshold := c.timing.alarmThreshold
      hybridThreshold := c.timing.hybridThreshold } }⟩,
   ⟨"ptp_max_foreign_records".toList, fun c c' => { c' with maxForeign := c.maxForeign }⟩,
   ⟨"ptp_bmc_priority1".toList, fun c c' => { c' with priority1 := c.priority1 }⟩,
   ⟨"ptp_bmc_priority2".toList, fun c c' => { c' with priority2 := c.priority2 }⟩,
   ⟨"ptp_trace".toList, fun c c' => { c' with misc := { c'.misc with trace := c.misc.trace } }⟩,
   ⟨"ptp_delay_resp_ignore_port_id".toList, fun c c' =>
      { c' with misc := { c'.misc with ignorePortId := c.misc.ignorePortId } }⟩,
   ⟨"pid_filter_p".toList, fun c c' => { c' with filters := { c'.filters with kp := c.filters.kp } }⟩,
   ⟨"pid_filter_i".toList, fun c c' => { c' with filters := { c'.filters with ki := c.filters.ki } }⟩,
   ⟨"outlier_filter_size".toList, fun c c' => { c' with filters := { c'.filters with outlierSize := c.filters.outlierSize } }⟩,
   ⟨"outlier_filter_adaption".toList, fun c c' => { c' with filters := { c'.filters with adaption := c.filters.adaption } }⟩,
   ⟨"mpd_filter_size".toList, fun c c' => { c' with filters := { c'.filters with mpdSize := c.filters.mpdSize } }⟩,
   ⟨"mpd_filter_ageing".toList, fun c c' => { c' with filters := { c'.filters with ageing := c.filters.ageing } }⟩,
   ⟨"fir_filter_size".toList, fun c c' => { c' with filters := { c'.filters with firSize := c.filters.firSize } }⟩,
   ⟨"remote_monitor".toList, fun c c' => { c' with mon := { c'.mon with remote := c.mon.remote } }⟩,
   ⟨"mon_monitor_address".toList, fun c c' => { c' with mon := { c'.mon with dests := c.mon.dests } }⟩,
   ⟨"mon_rx_sync_timing_data".toList, fun c c' => { c' with mon := { c'.mon with rxTiming := c.mon.rxTiming } }⟩,
   ⟨"mon_rx_sync_computed_data".toList, fun c c' => { c' with mon := { c'.mon with rxComputed := c.mon.rxComputed } }⟩,
   ⟨"mon_tx_event_timestamps".toList, fun c c' => { c' with mon := { c'.mon with txEvent := c.mon.txEvent } }⟩,
   ⟨"mon_meinberg_netsync".toList, fun c c' => { c' with mon := { c'.mon with netSync := c.mon.netSync } }⟩,
   ⟨"mon_slave_status".toList, fun c c' => { c' with mon := { c'.mon with slaveStatus := c.mon.slaveStatus } }⟩,
   ⟨"bmc_discriminator".toList, fun c c' => { c' with misc := { c'.misc with
      discName := c.misc.discName
      discThreshold := c.misc.discThreshold } }⟩,
   ⟨"announce_comm_caps".toList, fun c c' => { c' with commCaps := c.commCaps }⟩,
   ⟨"onload_ext".toList, fun c c' => { c' with misc := { c'.misc with onload := c.misc.onload } }⟩,
   ⟨"lacp_bypass".toList, fun c c' => { c' with misc := { c'.misc with
      bypassSockpool := c.misc.bypassSockpool
      bypassCmsg := c.misc.bypassCmsg } }⟩,
   ⟨"on_alarm_trace_ptp".toList, fun c c' => { c' with misc := { c'.misc with alarmTrace := c.misc.alarmTrace } }⟩]

/-- The alias of the list of management clients. -/
def mgmtPermit (α : Type) : Owner α :=
  ⟨"ptp_mgmt_acl_permit".toList, fun c c' => { c' with mgmtAcl := { c'.mgmtAcl with
      enabled := c.mgmtAcl.enabled
      allow := c.mgmtAcl.allow } }⟩

/-! ## Lists and addresses -/

/-- The words of a text: what stands between blanks. -/
inductive Words : Text → List Text → Prop
  | done : Words [] []
  | blank (t ws) : Words t ws → Words (' ' :: t) ws
  | last (w) : w ≠ [] → ' ' ∉ w → Words w [w]
  | word (w t ws) : w ≠ [] → ' ' ∉ w → Words t ws → Words (w ++ ' ' :: t) (w :: ws)

/-- The ways to write the address of a monitoring station. -/
inductive Addr : Text → Text → Option Text → Prop
  | quoted (n) : ']' ∉ n → Addr ('[' :: n ++ [']']) n none
  | quotedPort (n s) : ']' ∉ n → ']' ∉ s → ':' ∉ s → Addr ('[' :: n ++ ']' :: ':' :: s) n (some s)
  | plain (n) : ':' ∉ n → '[' ∉ n → Addr n n none
  | plainPort (n s) : ':' ∉ n → '[' ∉ n → ':' ∉ s → Addr (n ++ ':' :: s) n (some s)

end Verif.PtpConf
