import Verif.GenConf.Props3
import Verif.PtpConf.Spec
import Verif.PtpConf.Names

/-
# Properties of the general options with single values: what they set
-/

set_option linter.unusedSimpArgs false
set_option linter.unusedVariables false

namespace Verif.GenConf

open Verif.PtpConf (Text scanI FV IntText Numeral scanI_text)

/-! ## C370: options with a number -/

/-- An option with a whole number: name, limits, setting. -/
structure WholeOpt where
  name : Text
  lo : Int
  hi : Int
  set : Int → Opts → Opts

/-- The options with a whole number. -/
def wholes : List WholeOpt :=
  [⟨"sync_interval".toList, -5, 3, fun v o => { o with syncInterval := v }⟩,
   ⟨"selection_holdoff_interval".toList, 0, 2147483647, fun v o => { o with holdoff := v }⟩,
   ⟨"netlink_rescan_interval".toList, 0, 2147483647, fun v o => { o with rescan := v }⟩,
   ⟨"netlink_coalesce_ms".toList, 0, 2147483647, fun v o => { o with coalesce := v }⟩]

/-- An option with a real number: name, numbers allowed, setting. -/
structure RealOpt where
  name : Text
  allowed : Rat → Prop
  set : Rat → Opts → Opts

/-- The options with a real number. The step threshold is given in seconds and kept in nanoseconds. -/
def reals : List RealOpt :=
  [⟨"local_sync_threshold".toList, fun _ => True, fun q o => { o with convergence := .num q }⟩,
   ⟨"step_threshold".toList, fun q => 1 / 10 ≤ q ∧ q ≤ 10, fun q o => { o with step := .num (q * 1000000000) }⟩,
   ⟨"pid_filter_p".toList, fun q => 0 ≤ q ∧ q ≤ 1, fun q o => { o with kp := .num q }⟩,
   ⟨"pid_filter_i".toList, fun q => 0 ≤ q ∧ q ≤ 1, fun q o => { o with ki := .num q }⟩,
   ⟨"limit_freq_adj".toList, fun _ => True, fun q o => { o with limitFreq := .num q }⟩]

theorem out_of {lo hi q : Rat} : (FV.lt (.num q) lo || FV.gt (.num q) hi) = true ↔ ¬ (lo ≤ q ∧ q ≤ hi) := by
  simp only [FV.lt, FV.gt, Bool.or_eq_true, decide_eq_true_eq]
  constructor
  · rintro (h | h) ⟨h1, h2⟩ <;> linarith
  · intro h
    by_contra hc
    push Not at hc
    exact h hc

/-- C370: an option with a number accepts exactly the numbers within its limits (those outside give
`ERANGE`), sets its setting to the number written, and nothing else. -/
theorem C370_numbers (cv : Conv) (o : Opts) :
    (∀ e ∈ wholes, ∀ t v, IntText t v → -2147483648 ≤ v → v ≤ 2147483647 →
      (e.lo ≤ v ∧ v ≤ e.hi → apply cv e.name [t] o = .ok (e.set v o)) ∧
      (¬ (e.lo ≤ v ∧ v ≤ e.hi) → apply cv e.name [t] o = .err 34)) ∧
    (∀ e ∈ reals, ∀ t q, cv.float t = some (.num q) →
      (e.allowed q → apply cv e.name [t] o = .ok (e.set q o)) ∧
      (¬ e.allowed q → apply cv e.name [t] o = .err 34)) := by
  refine ⟨?_, ?_⟩
  · simp only [wholes, List.forall_mem_cons, List.not_mem_nil, false_imp_iff, implies_true, and_true]
    refine ⟨?_, ?_, ?_, ?_⟩
    · intro t v ht h1 h2
      have e : apply cv "sync_interval".toList [t] o = parseSyncInterval t o := rfl
      rw [e]
      simp only [parseSyncInterval, scanI_text ht h1 h2]
      exact ⟨fun h => if_neg (by omega), fun h => if_pos (by omega)⟩
    · intro t v ht h1 h2
      have e : apply cv "selection_holdoff_interval".toList [t] o = parseHoldoff t o := rfl
      rw [e]
      simp only [parseHoldoff, scanI_text ht h1 h2]
      exact ⟨fun h => if_neg (by omega), fun h => if_pos (by omega)⟩
    · intro t v ht h1 h2
      have e : apply cv "netlink_rescan_interval".toList [t] o = parseRescan t o := rfl
      rw [e]
      simp only [parseRescan, scanI_text ht h1 h2]
      exact ⟨fun h => if_neg (by omega), fun h => if_pos (by omega)⟩
    · intro t v ht h1 h2
      have e : apply cv "netlink_coalesce_ms".toList [t] o = parseCoalesce t o := rfl
      rw [e]
      simp only [parseCoalesce, scanI_text ht h1 h2]
      exact ⟨fun h => if_neg (by omega), fun h => if_pos (by omega)⟩
  · simp only [reals, List.forall_mem_cons, List.not_mem_nil, false_imp_iff, implies_true, and_true]
    refine ⟨?_, ?_, ?_, ?_, ?_⟩
    · intro t q hq
      have e : apply cv "local_sync_threshold".toList [t] o = parseConvergence cv t o := rfl
      rw [e]
      simp only [parseConvergence, hq]
      exact ⟨fun _ => trivial, fun h => absurd trivial h⟩
    · intro t q hq
      have e : apply cv "step_threshold".toList [t] o = parseStep cv t o := rfl
      rw [e]
      simp only [parseStep, hq]
      exact ⟨fun h => if_neg (fun hc => out_of.1 hc h), fun h => if_pos (out_of.2 h)⟩
    · intro t q hq
      have e : apply cv "pid_filter_p".toList [t] o = parseKp cv t o := rfl
      rw [e]
      simp only [parseKp, hq]
      exact ⟨fun h => if_neg (fun hc => out_of.1 hc h), fun h => if_pos (out_of.2 h)⟩
    · intro t q hq
      have e : apply cv "pid_filter_i".toList [t] o = parseKi cv t o := rfl
      rw [e]
      simp only [parseKi, hq]
      exact ⟨fun h => if_neg (fun hc => out_of.1 hc h), fun h => if_pos (out_of.2 h)⟩
    · intro t q hq
      have e : apply cv "limit_freq_adj".toList [t] o = parseLimitFreq cv t o := rfl
      rw [e]
      simp only [parseLimitFreq, hq]
      exact ⟨fun _ => trivial, fun h => absurd trivial h⟩

example : IntText "-5".toList (-5) := .neg ['5'] 5 (.digit 5 '5' rfl) (by omega)
example : (1 / 10 : Rat) ≤ 2 ∧ (2 : Rat) ≤ 10 := by norm_num

/-! ## C371: options with names -/

/-- Lines with names and what they set, given that the texts of numbers are converted. -/
inductive Sets (cv : Conv) : Text → List Text → (Opts → Opts) → Prop
  | syslog : Sets cv "message_log".toList ["syslog".toList] fun o => { o with msgLog := .syslog }
  | stderr : Sets cv "message_log".toList ["stderr".toList] fun o => { o with msgLog := .stderr }
  | messages (t : Text) : t ≠ "syslog".toList → t ≠ "stderr".toList → t.length < 4096 →
      Sets cv "message_log".toList [t] fun o => { o with msgLog := .file t }
  | noStats : Sets cv "stats_log".toList ["off".toList] fun o => { o with statsLog := .off }
  | stdout : Sets cv "stats_log".toList ["stdout".toList] fun o => { o with statsLog := .stdout }
  | stats (t : Text) : t ≠ "off".toList → t ≠ "stdout".toList → t.length < 4096 →
      Sets cv "stats_log".toList [t] fun o => { o with statsLog := .file t }
  | automatic : Sets cv "selection_policy".toList ["automatic".toList] fun o => { o with policy := .automatic }
  | manual (n : Text) : n.length < 64 →
      Sets cv "selection_policy".toList ["manual".toList, n] fun o => { o with policy := .manual n }
  | startup (n : Text) : n.length < 64 →
      Sets cv "selection_policy".toList ["manual-startup".toList, n] fun o => { o with policy := .manualStartup n }
  | cluster (n t s : Text) (q : Rat) (v : Int) : n.length < 64 → cv.float t = some (.num q) → cv.dec s = some v →
      Sets cv "clustering".toList ["discriminator".toList, n, t, s] fun o => { o with cluster := some (n, .num q, v) }
  | guardOn (t : Text) : cv.dec t = some 1 →
      Sets cv "clustering_guard".toList ["on".toList, t] fun o => { o with guardOn := true, guardThreshold := 1 }
  | guardOff (t : Text) : cv.dec t = some 1 →
      Sets cv "clustering_guard".toList ["off".toList, t] fun o => { o with guardOn := false, guardThreshold := 1 }
  | formats (a b c d : Text) : a.length < 16 → b.length < 16 → c.length < 16 → d.length < 16 →
      Sets cv "clock_display_fmts".toList [a, b, c, d] fun o => { o with formats := (a, b, c, d) }

/-- C371: the lines for logs, the selection policy, clustering and the display of clocks
set what they say, and nothing else. -/
theorem C371_names (cv : Conv) (o : Opts) (name : Text) (ps : List Text) (f : Opts → Opts) (h : Sets cv name ps f) :
    apply cv name ps o = .ok (f o) := by
  cases h with
  | syslog => rfl
  | stderr => rfl
  | messages t h1 h2 h3 =>
    have e : apply cv "message_log".toList [t] o = parseMsgLog t o := rfl
    rw [e, parseMsgLog, if_neg h1, if_neg h2, List.take_of_length_le (by omega)]
  | noStats => rfl
  | stdout => rfl
  | stats t h1 h2 h3 =>
    have e : apply cv "stats_log".toList [t] o = parseStatsLog t o := rfl
    rw [e, parseStatsLog, if_neg h1, if_neg h2, List.take_of_length_le (by omega)]
  | automatic => rfl
  | manual n h1 =>
    have e : apply cv "selection_policy".toList ["manual".toList, n] o =
      if n.length ≥ 64 then .err eRANGE else .ok { o with policy := .manual n } := rfl
    rw [e, if_neg (by omega)]
  | startup n h1 =>
    have e : apply cv "selection_policy".toList ["manual-startup".toList, n] o =
      if n.length ≥ 64 then .err eRANGE else .ok { o with policy := .manualStartup n } := rfl
    rw [e, if_neg (by omega)]
  | cluster n t s q v h1 h2 h3 =>
    have e : apply cv "clustering".toList ["discriminator".toList, n, t, s] o =
      parseCluster cv ["discriminator".toList, n, t, s] o := rfl
    rw [e]
    simp only [parseCluster, ne_eq, not_true_eq_false, if_false, h2, h3]
    exact if_neg (by omega)
  | guardOn t h1 =>
    have e : apply cv "clustering_guard".toList ["on".toList, t] o = parseClusterGuard cv ["on".toList, t] o := rfl
    rw [e]
    simp only [parseClusterGuard, or_true, if_true, h1, ne_eq, not_true_eq_false, if_false, decide_true]
  | guardOff t h1 =>
    have e : apply cv "clustering_guard".toList ["off".toList, t] o = parseClusterGuard cv ["off".toList, t] o := rfl
    rw [e]
    simp only [parseClusterGuard, true_or, if_true, h1, ne_eq, not_true_eq_false, if_false,
      show decide ("off".toList = "on".toList) = false from by decide]
  | formats a b c d h1 h2 h3 h4 =>
    have e : apply cv "clock_display_fmts".toList [a, b, c, d] o = parseFormats [a, b, c, d] o := rfl
    rw [e]
    simp only [parseFormats]
    exact if_neg (by omega)

example : Sets ⟨fun _ => some (.num 1), fun _ => some 1⟩ "clustering".toList
    ["discriminator".toList, "ntp1".toList, "1".toList, "1".toList]
    (fun o => { o with cluster := some ("ntp1".toList, .num 1, 1) }) :=
  .cluster _ _ _ 1 1 (by simp) rfl rfl

/-! ## C372: intervals of reports -/

/-- The kinds of reports with an interval. -/
inductive Report
  | state | stats
deriving DecidableEq

/-- Their words. -/
def reportWord : Report → Text
  | .state => "save_state".toList
  | .stats => "stats_log".toList

/-- The parameters for intervals: kind, text and value. -/
def written (l : List (Report × Text × Rat)) : List Text := l.flatMap fun e => [reportWord e.1, e.2.1]

/-- The last interval given for a kind, or else the earlier one. -/
def lastOf (k : Report) (l : List (Report × Text × Rat)) (old : FV) : FV :=
  match (l.reverse.find? fun e => decide (e.1 = k)) with
  | some e => .num e.2.2
  | none => old

theorem lastOf_cons (k : Report) (e : Report × Text × Rat) (l : List (Report × Text × Rat)) (old : FV) :
    lastOf k (e :: l) old = lastOf k l (if e.1 = k then .num e.2.2 else old) := by
  simp only [lastOf, List.reverse_cons, List.find?_append]
  cases h : l.reverse.find? (fun e => decide (e.1 = k)) with
  | some x => simp
  | none =>
    by_cases hk : e.1 = k
    · simp [hk]
    · simp [hk]

theorem intervals_state (cv : Conv) (w t : Text) (r : List Text) (o : Opts) (x : FV) (hw : w = "save_state".toList)
    (h : cv.float t = some x) (hx : x.lt 0 = false) :
    intervals cv (w :: t :: r) o = intervals cv r { o with saveState := x } := by
  simp only [intervals, h, hx, Bool.false_eq_true, if_false]
  rw [if_pos hw]

theorem intervals_stats (cv : Conv) (w t : Text) (r : List Text) (o : Opts) (x : FV) (hs : w ≠ "save_state".toList)
    (hw : w = "stats_log".toList) (h : cv.float t = some x) (hx : x.lt 0 = false) :
    intervals cv (w :: t :: r) o = intervals cv r { o with logStats := x } := by
  simp only [intervals, h, hx, Bool.false_eq_true, if_false]
  rw [if_neg hs, if_pos hw]

theorem intervals_run (cv : Conv) : ∀ (l : List (Report × Text × Rat)) (o : Opts),
    (∀ e ∈ l, cv.float e.2.1 = some (.num e.2.2) ∧ 0 ≤ e.2.2) →
    intervals cv (written l) o = .ok { o with saveState := lastOf .state l o.saveState, logStats := lastOf .stats l o.logStats } := by
  intro l
  induction l with
  | nil => intro o _; rfl
  | cons e l ih =>
    intro o h
    obtain ⟨k, t, q⟩ := e
    obtain ⟨h1, h2⟩ := h _ List.mem_cons_self
    have hlt : FV.lt (.num q) 0 = false := by simpa [FV.lt] using h2
    have hl : written ((k, t, q) :: l) = reportWord k :: t :: written l := by simp [written]
    rw [hl]
    simp only at h1
    have ih' := fun o' => ih o' (fun e he => h e (List.mem_cons_of_mem _ he))
    simp only [lastOf_cons]
    cases k with
    | state => rw [intervals_state cv (reportWord .state) t _ o _ rfl h1 hlt, ih']; rfl
    | stats => rw [intervals_stats cv (reportWord .stats) t _ o _ (by decide) rfl h1 hlt, ih']; rfl

/-- C372: with any number of pairs of a kind and an interval that is not negative, the
option `reporting_intervals` sets each kind to the last interval given for it,
leaves a kind not named as it was, and changes nothing else. -/
theorem C372_intervals (cv : Conv) (l : List (Report × Text × Rat)) (o : Opts) (hne : l ≠ [])
    (h : ∀ e ∈ l, cv.float e.2.1 = some (.num e.2.2) ∧ 0 ≤ e.2.2) :
    apply cv "reporting_intervals".toList (written l) o =
      .ok { o with saveState := lastOf .state l o.saveState, logStats := lastOf .stats l o.logStats } := by
  have e : apply cv "reporting_intervals".toList (written l) o = least 2 (parseIntervals cv) (written l) o := rfl
  have hlen : (written l).length = 2 * l.length := by
    clear hne h e
    induction l with
    | nil => rfl
    | cons e l ih => simp only [written, List.flatMap_cons, List.length_append] at ih ⊢; simp only [ih, List.length_cons, List.length_nil]; omega
  have hpos : 0 < l.length := List.length_pos_iff.2 hne
  rw [e, least, if_pos (by omega), parseIntervals, if_neg (by omega), if_neg (by omega)]
  exact intervals_run cv l o h

example : lastOf .state [(.state, "1".toList, 1), (.stats, "2".toList, 2), (.state, "3".toList, 3)] .nan = .num 3 := rfl

end Verif.GenConf
