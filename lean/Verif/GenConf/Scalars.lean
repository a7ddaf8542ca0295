import Verif.GenConf.Model

/-
# Model: the general options with single values

The remaining handlers of `src/sfptpd_general_config.c` that set words, numbers
and names.

Simplifications.
* As in `Verif.GenConf.Model`. `sscanf("%Lf")` and `sscanf("%f")` are one parameter;
  rounding to `float` is left out. `sscanf("%d")` is a parameter too.
* The name of a log file, and the initial instance, are part of the value they belong
  to: the code keeps an old name, but reads it only with the value that has a name.
* Names of files and paths and the options `daemon`, `test_mode`,
  `hotplug_detection_mode` and `json_…` are left out.
-/

namespace Verif.GenConf

open Verif.PtpConf (Text scanI FV)

/-- The options with the words `on` and `off`. -/
inductive Flag
  | lock | persistent | nonSfc | onePhc | avoidEfx | disableOnExit | rtc | legacy
deriving DecidableEq

inductive Ctrl
  | slewAndStep | stepAtStartup | noStep | noAdjust | stepForward | stepOnFirstLock
deriving DecidableEq

inductive Guard
  | alarmOnly | preventSync | correctClock
deriving DecidableEq

inductive Corr
  | always | ifUnset
deriving DecidableEq

inductive MsgLog
  | syslog | stderr | file (name : Text)
deriving DecidableEq

inductive StatsLog
  | off | stdout | file (name : Text)
deriving DecidableEq

inductive Policy
  | automatic | manual (name : Text) | manualStartup (name : Text)
deriving DecidableEq

/-- `enum sfptpd_critical_error`. -/
inductive Crit
  | noPtpClock | noPtpSubsystem | clockControlConflict
deriving DecidableEq

/-- The settings. -/
structure Opts where
  flag : Flag → Bool
  ctrl : Ctrl
  guard : Guard
  corr : Corr
  msgLog : MsgLog
  statsLog : StatsLog
  policy : Policy
  syncInterval : Int
  holdoff : Int
  rescan : Int
  coalesce : Int
  convergence : FV
  step : FV
  kp : FV
  ki : FV
  limitFreq : FV
  saveState : FV
  logStats : FV
  cluster : Option (Text × FV × Int)
  guardOn : Bool
  guardThreshold : Int
  ignore : Crit → Bool
  formats : Text × Text × Text × Text

/-- The conversions of numbers. -/
structure Conv where
  float : Text → Option FV
  dec : Text → Option Int

/-- The handlers for the words `on` and `off`, for instance `parse_lock`, lines 832-847;
the others are at lines 1075-1144, 1181-1196, 1545-1560 and 1625-1640. -/
def parseFlag (f : Flag) (t : Text) (o : Opts) : Res Opts :=
  if t = "off".toList then .ok { o with flag := fun g => if g = f then false else o.flag g }
  else if t = "on".toList then .ok { o with flag := fun g => if g = f then true else o.flag g }
  else .err eINVAL

/-- `parse_clock_control`, lines 916-941. -/
def parseCtrl (t : Text) (o : Opts) : Res Opts :=
  if t = "slew-and-step".toList then .ok { o with ctrl := .slewAndStep }
  else if t = "step-at-startup".toList then .ok { o with ctrl := .stepAtStartup }
  else if t = "no-step".toList then .ok { o with ctrl := .noStep }
  else if t = "no-adjust".toList then .ok { o with ctrl := .noAdjust }
  else if t = "step-forward".toList then .ok { o with ctrl := .stepForward }
  else if t = "step-on-first-lock".toList then .ok { o with ctrl := .stepOnFirstLock }
  else .err eINVAL

/-- `parse_epoch_guard`, lines 966-985. -/
def parseGuard (t : Text) (o : Opts) : Res Opts :=
  if t = "alarm-only".toList then .ok { o with guard := .alarmOnly }
  else if t = "prevent-sync".toList then .ok { o with guard := .preventSync }
  else if t = "correct-clock".toList then .ok { o with guard := .correctClock }
  else .err eINVAL

/-- `parse_initial_clock_correction`, lines 987-1004. -/
def parseCorr (t : Text) (o : Opts) : Res Opts :=
  if t = "always".toList then .ok { o with corr := .always }
  else if t = "if-unset".toList then .ok { o with corr := .ifUnset }
  else .err eINVAL

/-- `parse_message_log`, lines 651-668 (`PATH_MAX` is 4096). -/
def parseMsgLog (t : Text) (o : Opts) : Res Opts :=
  if t = "syslog".toList then .ok { o with msgLog := .syslog }
  else if t = "stderr".toList then .ok { o with msgLog := .stderr }
  else .ok { o with msgLog := .file (t.take 4095) }

/-- `parse_stats_log`, lines 671-690. -/
def parseStatsLog (t : Text) (o : Opts) : Res Opts :=
  if t = "off".toList then .ok { o with statsLog := .off }
  else if t = "stdout".toList then .ok { o with statsLog := .stdout }
  else .ok { o with statsLog := .file (t.take 4095) }

/-- `parse_selection_policy`, lines 472-504. -/
def parsePolicy (ps : List Text) (o : Opts) : Res Opts :=
  match ps with
  | [] => .abort
  | m :: r =>
    if m = "automatic".toList then .ok { o with policy := .automatic }
    else if m = "manual".toList ∨ m = "manual-startup".toList then
      match r with
      | [] => .err eRANGE
      | n :: _ =>
        if n.length ≥ 64 then .err eRANGE
        else if m = "manual".toList then .ok { o with policy := .manual n }
        else .ok { o with policy := .manualStartup n }
    else .err eINVAL

/-- `parse_sync_interval`, lines 876-896. -/
def parseSyncInterval (t : Text) (o : Opts) : Res Opts :=
  match scanI t with
  | none => .err eINVAL
  | some v => if v > 3 ∨ v < -5 then .err eRANGE else .ok { o with syncInterval := v }

/-- `parse_selection_holdoff_interval`, lines 628-648. -/
def parseHoldoff (t : Text) (o : Opts) : Res Opts :=
  match scanI t with
  | none => .err eINVAL
  | some v => if v < 0 then .err eRANGE else .ok { o with holdoff := v }

/-- `parse_netlink_rescan_interval`, lines 1388-1408. -/
def parseRescan (t : Text) (o : Opts) : Res Opts :=
  match scanI t with
  | none => .err eINVAL
  | some v => if v < 0 then .err eRANGE else .ok { o with rescan := v }

/-- `parse_netlink_coalesce_ms`, lines 1411-1431. -/
def parseCoalesce (t : Text) (o : Opts) : Res Opts :=
  match scanI t with
  | none => .err eINVAL
  | some v => if v < 0 then .err eRANGE else .ok { o with coalesce := v }

/-- `parse_sync_threshold`, lines 899-913. -/
def parseConvergence (cv : Conv) (t : Text) (o : Opts) : Res Opts :=
  match cv.float t with
  | none => .err eINVAL
  | some x => .ok { o with convergence := x }

/-- `parse_step_threshold`, lines 943-964. The setting is in nanoseconds. -/
def parseStep (cv : Conv) (t : Text) (o : Opts) : Res Opts :=
  match cv.float t with
  | none => .err eINVAL
  | some x => if x.lt (1 / 10) || x.gt 10 then .err eRANGE else .ok { o with step := x.scale 1000000000 }

/-- `parse_pid_filter_kp`, lines 1199-1219. -/
def parseKp (cv : Conv) (t : Text) (o : Opts) : Res Opts :=
  match cv.float t with
  | none => .err eINVAL
  | some x => if x.lt 0 || x.gt 1 then .err eRANGE else .ok { o with kp := x }

/-- `parse_pid_filter_ki`, lines 1222-1242. -/
def parseKi (cv : Conv) (t : Text) (o : Opts) : Res Opts :=
  match cv.float t with
  | none => .err eINVAL
  | some x => if x.lt 0 || x.gt 1 then .err eRANGE else .ok { o with ki := x }

/-- `parse_limit_freq_adj`, lines 1504-1518. -/
def parseLimitFreq (cv : Conv) (t : Text) (o : Opts) : Res Opts :=
  match cv.float t with
  | none => .err eINVAL
  | some x => .ok { o with limitFreq := x }

/-- The loop of `parse_reporting_intervals`, lines 1362-1382. -/
def intervals (cv : Conv) : List Text → Opts → Res Opts
  | k :: t :: r, o => match cv.float t with
    | none => .err eINVAL
    | some x =>
      if x.lt 0 then .err eRANGE
      else if k = "save_state".toList then intervals cv r { o with saveState := x }
      else if k = "stats_log".toList then intervals cv r { o with logStats := x }
      else .err eINVAL
  | _, o => .ok o

/-- `parse_reporting_intervals`, lines 1350-1385. -/
def parseIntervals (cv : Conv) (ps : List Text) (o : Opts) : Res Opts :=
  if ps.length < 2 then .abort
  else if ps.length % 2 = 1 then .err eINVAL
  else intervals cv ps o

/-- `parse_clustering`, lines 1434-1470. -/
def parseCluster (cv : Conv) (ps : List Text) (o : Opts) : Res Opts :=
  match ps with
  | [m, n, t, s] =>
    if m ≠ "discriminator".toList then .err eRANGE
    else if n.length ≥ 64 then .err eRANGE
    else match cv.float t with
      | none => .err eINVAL
      | some x => match cv.dec s with
        | none => .err eINVAL
        | some v => .ok { o with cluster := some (n, x, v) }
  | _ => .abort

/-- `parse_clustering_guard_threshold`, lines 1473-1501. -/
def parseClusterGuard (cv : Conv) (ps : List Text) (o : Opts) : Res Opts :=
  match ps with
  | [m, t] =>
    if m = "off".toList ∨ m = "on".toList then
      match cv.dec t with
      | none => .err eINVAL
      | some v =>
        if v ≠ 1 then .err eRANGE
        else .ok { o with guardOn := decide (m = "on".toList), guardThreshold := v }
    else .err eINVAL
  | _ => .abort

/-- The words of `parse_ignore_critical`. -/
def critWord (t : Text) : Option Crit :=
  if t = "no-ptp-clock".toList then some .noPtpClock
  else if t = "no-ptp-subsystem".toList then some .noPtpSubsystem
  else if t = "clock-control-conflict".toList then some .clockControlConflict
  else none

/-- The loop of `parse_ignore_critical`, lines 1530-1539: the settings and whether a word was unknown. -/
def critLoop : List Text → (Crit → Bool) × Bool → (Crit → Bool) × Bool
  | [], s => s
  | t :: r, s => match critWord t with
    | some c => critLoop r (fun d => if d = c then true else s.1 d, s.2)
    | none => critLoop r (s.1, true)

/-- `parse_ignore_critical`, lines 1521-1542. -/
def parseIgnore (ps : List Text) (o : Opts) : Res Opts :=
  if ps = [] then .abort
  else
    let s := critLoop ps (o.ignore, false)
    if s.2 then .err eINVAL else .ok { o with ignore := s.1 }

/-- `parse_clock_display_fmts`, lines 1563-1585 (each format has room for 16 characters). -/
def parseFormats (ps : List Text) (o : Opts) : Res Opts :=
  match ps with
  | [a, b, c, d] =>
    if a.length ≥ 16 ∨ b.length ≥ 16 ∨ c.length ≥ 16 ∨ d.length ≥ 16 then .err eNOSPC
    else .ok { o with formats := (a, b, c, d) }
  | _ => .abort

/-- An option of one parameter; the number of parameters has been checked
(`src/sfptpd_config.c` lines 341-346). -/
def one (f : Text → Opts → Res Opts) (ps : List Text) (o : Opts) : Res Opts :=
  match ps with
  | [t] => f t o
  | _ => .err eINVAL

/-- An option with exactly `n` parameters. -/
def exact (n : Nat) (f : List Text → Opts → Res Opts) (ps : List Text) (o : Opts) : Res Opts :=
  if ps.length = n then f ps o else .err eINVAL

/-- An option with at least `n` parameters. -/
def least (n : Nat) (f : List Text → Opts → Res Opts) (ps : List Text) (o : Opts) : Res Opts :=
  if ps.length ≥ n then f ps o else .err eINVAL

/-- The table of options, lines 135-390: the name, and the handler after the check
of the number of parameters. -/
def table (cv : Conv) : List (Text × (List Text → Opts → Res Opts)) :=
  [("lock".toList, one (parseFlag .lock)),
   ("persistent_clock_correction".toList, one (parseFlag .persistent)),
   ("non_solarflare_nics".toList, one (parseFlag .nonSfc)),
   ("non_xilinx_nics".toList, one (parseFlag .nonSfc)),
   ("assume_one_phc_per_nic".toList, one (parseFlag .onePhc)),
   ("avoid_efx_ioctl".toList, one (parseFlag .avoidEfx)),
   ("timestamping_disable_on_exit".toList, one (parseFlag .disableOnExit)),
   ("rtc_adjust".toList, one (parseFlag .rtc)),
   ("legacy_clockids".toList, one (parseFlag .legacy)),
   ("clock_control".toList, one parseCtrl),
   ("epoch_guard".toList, one parseGuard),
   ("initial_clock_correction".toList, one parseCorr),
   ("message_log".toList, one parseMsgLog),
   ("stats_log".toList, one parseStatsLog),
   ("selection_policy".toList, least 1 parsePolicy),
   ("sync_interval".toList, one parseSyncInterval),
   ("selection_holdoff_interval".toList, one parseHoldoff),
   ("netlink_rescan_interval".toList, one parseRescan),
   ("netlink_coalesce_ms".toList, one parseCoalesce),
   ("local_sync_threshold".toList, one (parseConvergence cv)),
   ("step_threshold".toList, one (parseStep cv)),
   ("pid_filter_p".toList, one (parseKp cv)),
   ("pid_filter_i".toList, one (parseKi cv)),
   ("limit_freq_adj".toList, one (parseLimitFreq cv)),
   ("reporting_intervals".toList, least 2 (parseIntervals cv)),
   ("clustering".toList, exact 4 (parseCluster cv)),
   ("clustering_guard".toList, exact 2 (parseClusterGuard cv)),
   ("ignore_critical".toList, least 1 parseIgnore),
   ("clock_display_fmts".toList, exact 4 parseFormats)]

/-- One line of the section. -/
def apply (cv : Conv) (name : Text) (ps : List Text) (o : Opts) : Res Opts :=
  match (table cv).find? (fun p => p.1 = name) with
  | some p => p.2 ps o
  | none => .err eNOENT

/-- The lines of the section. -/
def applyAll (cv : Conv) : List (Text × List Text) → Opts → Res Opts
  | [], o => .ok o
  | l :: r, o => match apply cv l.1 l.2 o with
    | .ok o' => applyAll cv r o'
    | e => e

/-- The defaults, lines 1706-1770. -/
def defaults : Opts where
  flag f := match f with | .lock | .persistent | .disableOnExit | .rtc => true | _ => false
  ctrl := .slewAndStep
  guard := .correctClock
  corr := .always
  msgLog := .stderr
  statsLog := .off
  policy := .automatic
  syncInterval := -4
  holdoff := 10
  rescan := 31
  coalesce := 50
  convergence := .num 0
  step := .num 900000000
  kp := .num (2 / 5)
  ki := .num (3 / 100)
  limitFreq := .num 1000000000
  saveState := .num 60
  logStats := .num 1
  cluster := none
  guardOn := false
  guardThreshold := 1
  ignore _ := false
  formats := ("phc%P".toList, "phc%P(%I)".toList, "%C:".toList, "%C:".toList)

end Verif.GenConf
