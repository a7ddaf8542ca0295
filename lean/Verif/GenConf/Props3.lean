import Verif.GenConf.Scalars
import Verif.GenConf.Spec
import Verif.PtpConf.Support
import Mathlib.Tactic.Linarith
import Mathlib.Data.List.Induction
import Mathlib.Tactic.NormNum
import Mathlib.Algebra.Order.Ring.Rat

/-
# Properties of the general options with single values
-/

set_option linter.unusedSimpArgs false
set_option linter.unusedVariables false

namespace Verif.GenConf

open Spec
open Verif.PtpConf (Text scanI FV)

/-! ## Specification -/

/-- A number between two limits. -/
def Within (lo hi : Rat) (x : FV) : Prop := ∃ q, x = .num q ∧ lo ≤ q ∧ q ≤ hi

/-- A number of seconds that is not negative, or infinite. -/
def NonNeg (x : FV) : Prop := x = .pinf ∨ ∃ q, x = .num q ∧ 0 ≤ q

/-- The whole numbers and names are within their limits. -/
def Whole (o : Opts) : Prop :=
  -5 ≤ o.syncInterval ∧ o.syncInterval ≤ 3 ∧
  0 ≤ o.holdoff ∧ o.holdoff ≤ 2147483647 ∧ 0 ≤ o.rescan ∧ o.rescan ≤ 2147483647 ∧
  0 ≤ o.coalesce ∧ o.coalesce ≤ 2147483647 ∧ o.guardThreshold = 1 ∧
  (∀ n, o.policy = .manual n ∨ o.policy = .manualStartup n → n.length < 64) ∧
  (∀ c, o.cluster = some c → c.1.length < 64) ∧
  o.formats.1.length < 16 ∧ o.formats.2.1.length < 16 ∧ o.formats.2.2.1.length < 16 ∧ o.formats.2.2.2.length < 16

/-- All settings are within their limits: also the step threshold between 0.1 and 10 seconds,
the coefficients between 0 and 1, and the intervals of reports. -/
def Limits (o : Opts) : Prop :=
  Whole o ∧ Within 100000000 10000000000 o.step ∧ Within 0 1 o.kp ∧ Within 0 1 o.ki ∧ NonNeg o.saveState ∧ NonNeg o.logStats

/-- The same but for settings that are not a number. -/
def LimitsOrNan (o : Opts) : Prop :=
  Whole o ∧ (o.step = .nan ∨ Within 100000000 10000000000 o.step) ∧ (o.kp = .nan ∨ Within 0 1 o.kp) ∧
  (o.ki = .nan ∨ Within 0 1 o.ki) ∧ (o.saveState = .nan ∨ NonNeg o.saveState) ∧ (o.logStats = .nan ∨ NonNeg o.logStats)

/-! ## Handlers -/

/-- A fact about every handler of the table. -/
theorem forall_table {cv : Conv} {P : (List Text → Opts → Res Opts) → Prop} (h : ∀ p ∈ table cv, P p.2) {name : Text}
    {ps : List Text} {o o' : Opts} (ha : apply cv name ps o = .ok o') :
    ∃ p ∈ table cv, p.1 = name ∧ P p.2 ∧ p.2 ps o = .ok o' := by
  simp only [apply] at ha
  cases hf : (table cv).find? (fun p => p.1 = name) with
  | none => simp only [hf] at ha; cases ha
  | some p =>
    simp only [hf] at ha
    have hm := List.mem_of_find?_eq_some hf
    have hn := List.find?_some hf
    exact ⟨p, hm, by simpa using hn, h p hm, ha⟩

theorem one_ok {f : Text → Opts → Res Opts} {ps : List Text} {o o' : Opts} (h : one f ps o = .ok o') :
    ∃ t, ps = [t] ∧ f t o = .ok o' := by
  unfold one at h
  split at h
  · exact ⟨_, rfl, h⟩
  · cases h

theorem exact_ok {n : Nat} {f : List Text → Opts → Res Opts} {ps : List Text} {o o' : Opts} (h : exact n f ps o = .ok o') :
    f ps o = .ok o' := by
  unfold exact at h
  split at h
  · exact h
  · cases h

theorem least_ok {n : Nat} {f : List Text → Opts → Res Opts} {ps : List Text} {o o' : Opts} (h : least n f ps o = .ok o') :
    f ps o = .ok o' := by
  unfold least at h
  split at h
  · exact h
  · cases h

theorem between {x : FV} {lo hi : Rat} (h : ¬ (x.lt lo || x.gt hi) = true) : x = .nan ∨ Within lo hi x := by
  cases x with
  | nan => exact .inl rfl
  | ninf => simp [FV.lt] at h
  | pinf => simp [FV.gt] at h
  | num q =>
    right
    simp only [FV.lt, FV.gt, Bool.or_eq_true, decide_eq_true_eq, not_or, not_lt] at h
    exact ⟨q, rfl, h.1, h.2⟩

theorem nonneg_of {x : FV} (h : ¬ x.lt 0 = true) : x = .nan ∨ NonNeg x := by
  cases x with
  | nan => exact .inl rfl
  | ninf => simp [FV.lt] at h
  | pinf => exact .inr (.inl rfl)
  | num q =>
    simp only [FV.lt, decide_eq_true_eq, not_lt] at h
    exact .inr (.inr ⟨q, rfl, h⟩)

theorem scanI_range {t : Text} {v : Int} (h : scanI t = some v) : -2147483648 ≤ v ∧ v ≤ 2147483647 := by
  simp only [scanI] at h
  cases hm : Verif.PtpConf.magnitude (Verif.PtpConf.sign (t.dropWhile Verif.PtpConf.isSpace)).2 with
  | none => simp only [hm, Option.map_none] at h; cases h
  | some m =>
    simp only [hm, Option.map_some, Option.some.injEq, Verif.PtpConf.toInt32] at h
    omega

/-- A handler keeps the settings within their limits. -/
def Keeps (H : List Text → Opts → Res Opts) : Prop := ∀ ps o o', H ps o = .ok o' → LimitsOrNan o → LimitsOrNan o'

theorem keeps_flag (f : Flag) : Keeps (one (parseFlag f)) := by
  intro ps o o' h hl
  replace h := one_ok h
  obtain ⟨t, rfl, h⟩ := h
  simp only [parseFlag] at h
  split at h
  · cases h; exact hl
  split at h
  · cases h; exact hl
  · cases h

theorem keeps_ctrl : Keeps (one parseCtrl) := by
  intro ps o o' h hl
  replace h := one_ok h
  obtain ⟨t, rfl, h⟩ := h
  simp only [parseCtrl] at h
  repeat' split at h
  all_goals first | (cases h; exact hl) | cases h

theorem keeps_guard : Keeps (one parseGuard) := by
  intro ps o o' h hl
  replace h := one_ok h
  obtain ⟨t, rfl, h⟩ := h
  simp only [parseGuard] at h
  repeat' split at h
  all_goals first | (cases h; exact hl) | cases h

theorem keeps_corr : Keeps (one parseCorr) := by
  intro ps o o' h hl
  replace h := one_ok h
  obtain ⟨t, rfl, h⟩ := h
  simp only [parseCorr] at h
  repeat' split at h
  all_goals first | (cases h; exact hl) | cases h

theorem keeps_msgLog : Keeps (one parseMsgLog) := by
  intro ps o o' h hl
  replace h := one_ok h
  obtain ⟨t, rfl, h⟩ := h
  simp only [parseMsgLog] at h
  repeat' split at h
  all_goals (cases h; exact hl)

theorem keeps_statsLog : Keeps (one parseStatsLog) := by
  intro ps o o' h hl
  replace h := one_ok h
  obtain ⟨t, rfl, h⟩ := h
  simp only [parseStatsLog] at h
  repeat' split at h
  all_goals (cases h; exact hl)

theorem policy_ok {ps : List Text} {o o' : Opts} (h : parsePolicy ps o = .ok o') :
    ∃ p, o' = { o with policy := p } ∧ ∀ n, p = .manual n ∨ p = .manualStartup n → n.length < 64 := by
  unfold parsePolicy at h
  split at h
  · cases h
  split at h
  · cases h; exact ⟨_, rfl, by simp⟩
  split at h
  · split at h
    · cases h
    split at h
    · cases h
    rename_i hlen
    split at h
    · cases h; exact ⟨_, rfl, by simp; omega⟩
    · cases h; exact ⟨_, rfl, by simp; omega⟩
  · cases h

theorem keeps_policy : Keeps (least 1 parsePolicy) := by
  intro ps o o' h hl
  obtain ⟨p, rfl, hp⟩ := policy_ok (least_ok h)
  obtain ⟨⟨a1, a2, a3, a4, a5, a6, a7, a8, a9, b1, b2⟩, c⟩ := hl
  exact ⟨⟨a1, a2, a3, a4, a5, a6, a7, a8, a9, hp, b2⟩, c⟩

theorem keeps_syncInterval : Keeps (one parseSyncInterval) := by
  intro ps o o' h hl
  replace h := one_ok h
  obtain ⟨t, rfl, h⟩ := h
  simp only [parseSyncInterval] at h
  split at h
  · cases h
  split at h
  · cases h
  · rename_i v hv hr
    cases h
    obtain ⟨⟨a1, a2, a⟩, c⟩ := hl
    exact ⟨⟨by simp only; omega, by simp only; omega, a⟩, c⟩

theorem keeps_holdoff : Keeps (one parseHoldoff) := by
  intro ps o o' h hl
  replace h := one_ok h
  obtain ⟨t, rfl, h⟩ := h
  simp only [parseHoldoff] at h
  split at h
  · cases h
  split at h
  · cases h
  · rename_i v hv hr
    have := scanI_range hv
    cases h
    obtain ⟨⟨a1, a2, a3, a4, a⟩, c⟩ := hl
    exact ⟨⟨a1, a2, by simp only; omega, by simp only; omega, a⟩, c⟩

theorem keeps_rescan : Keeps (one parseRescan) := by
  intro ps o o' h hl
  replace h := one_ok h
  obtain ⟨t, rfl, h⟩ := h
  simp only [parseRescan] at h
  split at h
  · cases h
  split at h
  · cases h
  · rename_i v hv hr
    have := scanI_range hv
    cases h
    obtain ⟨⟨a1, a2, a3, a4, a5, a6, a⟩, c⟩ := hl
    exact ⟨⟨a1, a2, a3, a4, by simp only; omega, by simp only; omega, a⟩, c⟩

theorem keeps_coalesce : Keeps (one parseCoalesce) := by
  intro ps o o' h hl
  replace h := one_ok h
  obtain ⟨t, rfl, h⟩ := h
  simp only [parseCoalesce] at h
  split at h
  · cases h
  split at h
  · cases h
  · rename_i v hv hr
    have := scanI_range hv
    cases h
    obtain ⟨⟨a1, a2, a3, a4, a5, a6, a7, a8, a⟩, c⟩ := hl
    exact ⟨⟨a1, a2, a3, a4, a5, a6, by simp only; omega, by simp only; omega, a⟩, c⟩

theorem keeps_convergence (cv : Conv) : Keeps (one (parseConvergence cv)) := by
  intro ps o o' h hl
  replace h := one_ok h
  obtain ⟨t, rfl, h⟩ := h
  simp only [parseConvergence] at h
  split at h
  · cases h
  · cases h; exact hl

theorem keeps_limitFreq (cv : Conv) : Keeps (one (parseLimitFreq cv)) := by
  intro ps o o' h hl
  replace h := one_ok h
  obtain ⟨t, rfl, h⟩ := h
  simp only [parseLimitFreq] at h
  split at h
  · cases h
  · cases h; exact hl

theorem keeps_step (cv : Conv) : Keeps (one (parseStep cv)) := by
  intro ps o o' h hl
  replace h := one_ok h
  obtain ⟨t, rfl, h⟩ := h
  simp only [parseStep] at h
  split at h
  · cases h
  split at h
  · cases h
  · rename_i x hx hr
    cases h
    obtain ⟨a, b, c⟩ := hl
    refine ⟨a, ?_, c⟩
    rcases between hr with rfl | ⟨q, rfl, h1, h2⟩
    · exact .inl rfl
    · right
      refine ⟨q * 1000000000, ?_, ?_, ?_⟩
      · simp [FV.scale]
      · linarith
      · linarith

theorem keeps_kp (cv : Conv) : Keeps (one (parseKp cv)) := by
  intro ps o o' h hl
  replace h := one_ok h
  obtain ⟨t, rfl, h⟩ := h
  simp only [parseKp] at h
  split at h
  · cases h
  split at h
  · cases h
  · rename_i x hx hr
    cases h
    obtain ⟨a, b, c, d⟩ := hl
    exact ⟨a, b, between hr, d⟩

theorem keeps_ki (cv : Conv) : Keeps (one (parseKi cv)) := by
  intro ps o o' h hl
  replace h := one_ok h
  obtain ⟨t, rfl, h⟩ := h
  simp only [parseKi] at h
  split at h
  · cases h
  split at h
  · cases h
  · rename_i x hx hr
    cases h
    obtain ⟨a, b, c, d, e⟩ := hl
    exact ⟨a, b, c, between hr, e⟩

theorem keeps_loop (cv : Conv) : ∀ (ps : List Text) (o o' : Opts), intervals cv ps o = .ok o' → LimitsOrNan o → LimitsOrNan o'
  | [], o, o', h, hl => by simp only [intervals] at h; cases h; exact hl
  | [_], o, o', h, hl => by simp only [intervals] at h; cases h; exact hl
  | k :: t :: r, o, o', h, hl => by
    simp only [intervals] at h
    split at h
    · cases h
    split at h
    · cases h
    rename_i x hx hr
    obtain ⟨a, b, c, d, e, f⟩ := hl
    split at h
    · exact keeps_loop cv r _ _ h ⟨a, b, c, d, nonneg_of hr, f⟩
    split at h
    · exact keeps_loop cv r _ _ h ⟨a, b, c, d, e, nonneg_of hr⟩
    · cases h

theorem keeps_intervals (cv : Conv) : Keeps (least 2 (parseIntervals cv)) := by
  intro ps o o' h hl
  have h := least_ok h
  simp only [parseIntervals] at h
  split at h
  · cases h
  split at h
  · cases h
  · exact keeps_loop cv ps o o' h hl

theorem keeps_cluster (cv : Conv) : Keeps (exact 4 (parseCluster cv)) := by
  intro ps o o' h hl
  have h := exact_ok h
  unfold parseCluster at h
  split at h
  · split at h
    · cases h
    split at h
    · cases h
    rename_i hlen
    split at h
    · cases h
    split at h
    · cases h
    · cases h
      obtain ⟨⟨a1, a2, a3, a4, a5, a6, a7, a8, a9, b1, b2, b3⟩, c⟩ := hl
      refine ⟨⟨a1, a2, a3, a4, a5, a6, a7, a8, a9, b1, ?_, b3⟩, c⟩
      intro c hc
      cases hc
      simp only; omega
  · cases h

theorem keeps_clusterGuard (cv : Conv) : Keeps (exact 2 (parseClusterGuard cv)) := by
  intro ps o o' h hl
  have h := exact_ok h
  unfold parseClusterGuard at h
  split at h
  · split at h
    · split at h
      · cases h
      split at h
      · cases h
      · rename_i hv
        cases h
        obtain ⟨⟨a1, a2, a3, a4, a5, a6, a7, a8, a9, b⟩, c⟩ := hl
        exact ⟨⟨a1, a2, a3, a4, a5, a6, a7, a8, by simpa using hv, b⟩, c⟩
    · cases h
  · cases h

theorem keeps_ignore : Keeps (least 1 parseIgnore) := by
  intro ps o o' h hl
  have h := least_ok h
  simp only [parseIgnore] at h
  split at h
  · cases h
  split at h
  · cases h
  · cases h; exact hl

theorem keeps_formats : Keeps (exact 4 parseFormats) := by
  intro ps o o' h hl
  have h := exact_ok h
  unfold parseFormats at h
  split at h
  · split at h
    · cases h
    · rename_i hlen
      cases h
      obtain ⟨⟨a1, a2, a3, a4, a5, a6, a7, a8, a9, b1, b2, b3⟩, c⟩ := hl
      refine ⟨⟨a1, a2, a3, a4, a5, a6, a7, a8, a9, b1, b2, ?_⟩, c⟩
      simp only; omega
  · cases h

theorem keeps_table (cv : Conv) : ∀ p ∈ table cv, Keeps p.2 := by
  simp only [table, List.forall_mem_cons, List.not_mem_nil, false_imp_iff, implies_true, and_true]
  exact ⟨keeps_flag _, keeps_flag _, keeps_flag _, keeps_flag _, keeps_flag _, keeps_flag _, keeps_flag _, keeps_flag _, keeps_flag _,
    keeps_ctrl, keeps_guard, keeps_corr, keeps_msgLog, keeps_statsLog, keeps_policy, keeps_syncInterval, keeps_holdoff,
    keeps_rescan, keeps_coalesce, keeps_convergence cv, keeps_step cv, keeps_kp cv, keeps_ki cv, keeps_limitFreq cv,
    keeps_intervals cv, keeps_cluster cv, keeps_clusterGuard cv, keeps_ignore, keeps_formats⟩

theorem keeps_all (cv : Conv) : ∀ (file : List (Text × List Text)) (o o' : Opts), applyAll cv file o = .ok o' → LimitsOrNan o →
    LimitsOrNan o' := by
  intro file
  induction file with
  | nil => intro o o' h hl; simp only [applyAll] at h; cases h; exact hl
  | cons l r ih =>
    intro o o' h hl
    simp only [applyAll] at h
    cases ha : apply cv l.1 l.2 o with
    | ok o1 =>
      simp only [ha] at h
      obtain ⟨p, _, _, hk, hp⟩ := forall_table (P := Keeps) (keeps_table cv) ha
      exact ih o1 o' h (hk _ _ _ hp hl)
    | _ => simp only [ha] at h; cases h

theorem limits_defaults : Limits defaults := by
  refine ⟨⟨by decide, by decide, by decide, by decide, by decide, by decide, by decide, by decide, rfl, ?_, ?_, by decide,
    by decide, by decide, by decide⟩, ⟨900000000, rfl, by norm_num, by norm_num⟩, ⟨2 / 5, rfl, by norm_num, by norm_num⟩,
    ⟨3 / 100, rfl, by norm_num, by norm_num⟩, .inr ⟨60, rfl, by norm_num⟩, .inr ⟨1, rfl, by norm_num⟩⟩
  · rintro n (h | h) <;> cases h
  · intro c h; cases h

/-! ## C365: settings are within their limits -/

/-- C365: after an accepted configuration the settings are within their limits. -/
def C365_statement : Prop :=
  ∀ (cv : Conv) (file : List (Text × List Text)) (o : Opts), applyAll cv file defaults = .ok o → Limits o

/-- `step_threshold nan` is accepted. -/
theorem C365_violated : ¬ C365_statement := by
  intro h
  have := h ⟨fun _ => some .nan, fun _ => none⟩ [("step_threshold".toList, ["nan".toList])]
    { defaults with step := .nan } rfl
  obtain ⟨_, ⟨q, hq, _⟩, _⟩ := this
  cases hq

/-- C365 but for settings that are not a number. -/
theorem C365_limits_partial (cv : Conv) (file : List (Text × List Text)) (o : Opts) (h : applyAll cv file defaults = .ok o) :
    LimitsOrNan o := by
  refine keeps_all cv file _ _ h ?_
  obtain ⟨a, b, c, d, e, f⟩ := limits_defaults
  exact ⟨a, .inr b, .inr c, .inr d, .inr e, .inr f⟩

example : applyAll ⟨fun _ => some (.num 2), fun _ => none⟩
    [("step_threshold".toList, ["2".toList]), ("clock_control".toList, ["no-step".toList])] defaults =
    .ok { defaults with step := .num 2000000000, ctrl := .noStep } := by
  have h1 : apply ⟨fun _ => some (.num 2), fun _ => none⟩ "step_threshold".toList ["2".toList] defaults =
      .ok { defaults with step := .num 2000000000 } := by
    have ha : ∀ cv t o, apply cv "step_threshold".toList [t] o = parseStep cv t o := fun _ _ _ => rfl
    rw [ha]
    have hr : (FV.lt (.num 2) (1 / 10) || FV.gt (.num 2) 10) = false := by
      simp only [FV.lt, FV.gt, Bool.or_eq_false_iff, decide_eq_false_iff_not, not_lt]; norm_num
    have hs : FV.scale (.num 2) 1000000000 = .num 2000000000 := by simp [FV.scale]; norm_num
    simp only [parseStep, hr, hs, Bool.false_eq_true, if_false]
  simp only [applyAll, h1]
  rfl

/-! ## C366: options with words -/

/-- The options with words, their words and what they mean. -/
def words : List (Text × Text × (Opts → Opts)) :=
  [("lock".toList, "on".toList, fun o => { o with flag := Function.update o.flag .lock true }),
   ("lock".toList, "off".toList, fun o => { o with flag := Function.update o.flag .lock false }),
   ("persistent_clock_correction".toList, "on".toList, fun o => { o with flag := Function.update o.flag .persistent true }),
   ("persistent_clock_correction".toList, "off".toList, fun o => { o with flag := Function.update o.flag .persistent false }),
   ("non_solarflare_nics".toList, "on".toList, fun o => { o with flag := Function.update o.flag .nonSfc true }),
   ("non_solarflare_nics".toList, "off".toList, fun o => { o with flag := Function.update o.flag .nonSfc false }),
   ("non_xilinx_nics".toList, "on".toList, fun o => { o with flag := Function.update o.flag .nonSfc true }),
   ("non_xilinx_nics".toList, "off".toList, fun o => { o with flag := Function.update o.flag .nonSfc false }),
   ("assume_one_phc_per_nic".toList, "on".toList, fun o => { o with flag := Function.update o.flag .onePhc true }),
   ("assume_one_phc_per_nic".toList, "off".toList, fun o => { o with flag := Function.update o.flag .onePhc false }),
   ("avoid_efx_ioctl".toList, "on".toList, fun o => { o with flag := Function.update o.flag .avoidEfx true }),
   ("avoid_efx_ioctl".toList, "off".toList, fun o => { o with flag := Function.update o.flag .avoidEfx false }),
   ("timestamping_disable_on_exit".toList, "on".toList, fun o => { o with flag := Function.update o.flag .disableOnExit true }),
   ("timestamping_disable_on_exit".toList, "off".toList, fun o => { o with flag := Function.update o.flag .disableOnExit false }),
   ("rtc_adjust".toList, "on".toList, fun o => { o with flag := Function.update o.flag .rtc true }),
   ("rtc_adjust".toList, "off".toList, fun o => { o with flag := Function.update o.flag .rtc false }),
   ("legacy_clockids".toList, "on".toList, fun o => { o with flag := Function.update o.flag .legacy true }),
   ("legacy_clockids".toList, "off".toList, fun o => { o with flag := Function.update o.flag .legacy false }),
   ("clock_control".toList, "slew-and-step".toList, fun o => { o with ctrl := .slewAndStep }),
   ("clock_control".toList, "step-at-startup".toList, fun o => { o with ctrl := .stepAtStartup }),
   ("clock_control".toList, "no-step".toList, fun o => { o with ctrl := .noStep }),
   ("clock_control".toList, "no-adjust".toList, fun o => { o with ctrl := .noAdjust }),
   ("clock_control".toList, "step-forward".toList, fun o => { o with ctrl := .stepForward }),
   ("clock_control".toList, "step-on-first-lock".toList, fun o => { o with ctrl := .stepOnFirstLock }),
   ("epoch_guard".toList, "alarm-only".toList, fun o => { o with guard := .alarmOnly }),
   ("epoch_guard".toList, "prevent-sync".toList, fun o => { o with guard := .preventSync }),
   ("epoch_guard".toList, "correct-clock".toList, fun o => { o with guard := .correctClock }),
   ("initial_clock_correction".toList, "always".toList, fun o => { o with corr := .always }),
   ("initial_clock_correction".toList, "if-unset".toList, fun o => { o with corr := .ifUnset })]

theorem flag_on (f : Flag) (o : Opts) :
    parseFlag f "on".toList o = .ok { o with flag := Function.update o.flag f true } := by
  have : (fun g => if g = f then true else o.flag g) = Function.update o.flag f true := by
    funext g; simp [Function.update]
  simp only [parseFlag, this]; rfl

theorem flag_off (f : Flag) (o : Opts) :
    parseFlag f "off".toList o = .ok { o with flag := Function.update o.flag f false } := by
  have : (fun g => if g = f then false else o.flag g) = Function.update o.flag f false := by
    funext g; simp [Function.update]
  simp only [parseFlag, this]; rfl

/-- Parameters other than a single word of those given are refused. -/
theorem one_refused {f : Text → Opts → Res Opts} {ps ws : List Text} {o : Opts} (hw : ∀ w ∈ ws, ps ≠ [w])
    (hf : ∀ t, t ∉ ws → f t o = .err 22) : one f ps o = .err 22 := by
  unfold one
  split
  · rename_i t
    exact hf t (fun ht => hw t ht rfl)
  · rfl

theorem flag_refused (f : Flag) (t : Text) (o : Opts) (h : t ∉ ["on".toList, "off".toList]) : parseFlag f t o = .err 22 := by
  simp only [List.mem_cons, List.not_mem_nil, or_false, not_or] at h
  simp only [parseFlag, h.1, h.2, if_false, eINVAL]

theorem words_of {n : Text} {ps : List Text} (h : ∀ e ∈ words, e.1 = n → ps ≠ [e.2.1]) :
    ∀ w ∈ (words.filter (fun e => e.1 = n)).map (fun e => e.2.1), ps ≠ [w] := by
  intro w hw
  obtain ⟨e, he, rfl⟩ := List.mem_map.1 hw
  obtain ⟨h1, h2⟩ := List.mem_filter.1 he
  exact h e h1 (by simpa using h2)

theorem flag_apply_refused (f : Flag) (n : Text) (ps : List Text) (o : Opts)
    (hw : (words.filter (fun e => e.1 = n)).map (fun e => e.2.1) = ["on".toList, "off".toList])
    (h : ∀ e ∈ words, e.1 = n → ps ≠ [e.2.1]) : one (parseFlag f) ps o = .err 22 := by
  have := words_of h
  rw [hw] at this
  exact one_refused this (fun t ht => flag_refused f t o ht)

/-- C366: an option with words accepts exactly its words, with one parameter, and a
word sets what it means and nothing else. -/
theorem C366_words (cv : Conv) (o : Opts) :
    (∀ e ∈ words, apply cv e.1 [e.2.1] o = .ok (e.2.2 o)) ∧
    (∀ e ∈ words, ∀ ps, (∀ e' ∈ words, e'.1 = e.1 → ps ≠ [e'.2.1]) → apply cv e.1 ps o = .err 22) := by
  refine ⟨?_, ?_⟩
  · simp only [words, List.forall_mem_cons, List.not_mem_nil, false_imp_iff, implies_true, and_true]
    refine ⟨flag_on _ _, flag_off _ _, flag_on _ _, flag_off _ _, flag_on _ _, flag_off _ _, flag_on _ _, flag_off _ _,
      flag_on _ _, flag_off _ _, flag_on _ _, flag_off _ _, flag_on _ _, flag_off _ _, flag_on _ _, flag_off _ _,
      flag_on _ _, flag_off _ _, rfl, rfl, rfl, rfl, rfl, rfl, rfl, rfl, rfl, rfl, rfl⟩
  · have hctrl : ∀ ps, (∀ e ∈ words, e.1 = "clock_control".toList → ps ≠ [e.2.1]) → one parseCtrl ps o = .err 22 := by
      intro ps h
      have hw := words_of h
      have e : (words.filter (fun e => e.1 = "clock_control".toList)).map (fun e => e.2.1) =
        ["slew-and-step".toList, "step-at-startup".toList, "no-step".toList, "no-adjust".toList, "step-forward".toList,
          "step-on-first-lock".toList] := by rfl
      rw [e] at hw
      refine one_refused hw (fun t ht => ?_)
      simp only [List.mem_cons, List.not_mem_nil, or_false, not_or] at ht
      obtain ⟨h1, h2, h3, h4, h5, h6⟩ := ht
      simp only [parseCtrl, h1, h2, h3, h4, h5, h6, if_false, eINVAL]
    have hguard : ∀ ps, (∀ e ∈ words, e.1 = "epoch_guard".toList → ps ≠ [e.2.1]) → one parseGuard ps o = .err 22 := by
      intro ps h
      have hw := words_of h
      have e : (words.filter (fun e => e.1 = "epoch_guard".toList)).map (fun e => e.2.1) =
        ["alarm-only".toList, "prevent-sync".toList, "correct-clock".toList] := by rfl
      rw [e] at hw
      refine one_refused hw (fun t ht => ?_)
      simp only [List.mem_cons, List.not_mem_nil, or_false, not_or] at ht
      obtain ⟨h1, h2, h3⟩ := ht
      simp only [parseGuard, h1, h2, h3, if_false, eINVAL]
    have hcorr : ∀ ps, (∀ e ∈ words, e.1 = "initial_clock_correction".toList → ps ≠ [e.2.1]) → one parseCorr ps o = .err 22 := by
      intro ps h
      have hw := words_of h
      have e : (words.filter (fun e => e.1 = "initial_clock_correction".toList)).map (fun e => e.2.1) =
        ["always".toList, "if-unset".toList] := by rfl
      rw [e] at hw
      refine one_refused hw (fun t ht => ?_)
      simp only [List.mem_cons, List.not_mem_nil, or_false, not_or] at ht
      obtain ⟨h1, h2⟩ := ht
      simp only [parseCorr, h1, h2, if_false, eINVAL]
    have hn : ∀ n ∈ words.map Prod.fst, ∀ ps, (∀ e' ∈ words, e'.1 = n → ps ≠ [e'.2.1]) → apply cv n ps o = .err 22 := by
      have key : ∀ n, n ∈ words.map Prod.fst → n ∈ ["lock".toList, "persistent_clock_correction".toList, "non_solarflare_nics".toList,
          "non_xilinx_nics".toList, "assume_one_phc_per_nic".toList, "avoid_efx_ioctl".toList, "timestamping_disable_on_exit".toList,
          "rtc_adjust".toList, "legacy_clockids".toList, "clock_control".toList, "epoch_guard".toList,
          "initial_clock_correction".toList] := by
        intro n hn
        have : ∀ n ∈ words.map Prod.fst, n ∈ ["lock".toList, "persistent_clock_correction".toList, "non_solarflare_nics".toList,
          "non_xilinx_nics".toList, "assume_one_phc_per_nic".toList, "avoid_efx_ioctl".toList, "timestamping_disable_on_exit".toList,
          "rtc_adjust".toList, "legacy_clockids".toList, "clock_control".toList, "epoch_guard".toList,
          "initial_clock_correction".toList] := by
          rw [show words.map Prod.fst = ["lock".toList, "lock".toList, "persistent_clock_correction".toList,
            "persistent_clock_correction".toList, "non_solarflare_nics".toList, "non_solarflare_nics".toList,
            "non_xilinx_nics".toList, "non_xilinx_nics".toList, "assume_one_phc_per_nic".toList, "assume_one_phc_per_nic".toList,
            "avoid_efx_ioctl".toList, "avoid_efx_ioctl".toList, "timestamping_disable_on_exit".toList,
            "timestamping_disable_on_exit".toList, "rtc_adjust".toList, "rtc_adjust".toList, "legacy_clockids".toList,
            "legacy_clockids".toList, "clock_control".toList, "clock_control".toList, "clock_control".toList, "clock_control".toList,
            "clock_control".toList, "clock_control".toList, "epoch_guard".toList, "epoch_guard".toList, "epoch_guard".toList,
            "initial_clock_correction".toList, "initial_clock_correction".toList] from rfl]
          decide +kernel
        exact this n hn
      intro n hn ps h
      have hm := key n hn
      simp only [List.mem_cons, List.not_mem_nil, or_false] at hm
      rcases hm with rfl | rfl | rfl | rfl | rfl | rfl | rfl | rfl | rfl | rfl | rfl | rfl
      · exact flag_apply_refused .lock _ ps o rfl h
      · exact flag_apply_refused .persistent _ ps o rfl h
      · exact flag_apply_refused .nonSfc _ ps o rfl h
      · exact flag_apply_refused .nonSfc _ ps o rfl h
      · exact flag_apply_refused .onePhc _ ps o rfl h
      · exact flag_apply_refused .avoidEfx _ ps o rfl h
      · exact flag_apply_refused .disableOnExit _ ps o rfl h
      · exact flag_apply_refused .rtc _ ps o rfl h
      · exact flag_apply_refused .legacy _ ps o rfl h
      · exact hctrl ps h
      · exact hguard ps h
      · exact hcorr ps h
    intro e he ps h
    exact hn e.1 (List.mem_map_of_mem he) ps h

example : ("rtc_adjust".toList, "on".toList) ∈ words.map (fun e => (e.1, e.2.1)) ∧
    ("epoch_guard".toList, "alarm-only".toList) ∈ words.map (fun e => (e.1, e.2.1)) := by
  constructor <;> simp [words]

/-! ## C367: the last option is in force -/

/-- A later option of this handler replaces an earlier one. -/
def Replaces (H : List Text → Opts → Res Opts) : Prop :=
  ∀ ps ps' o o₁, H ps o = .ok o₁ → H ps' o₁ = H ps' o

theorem replaces_one {f : Text → Opts → Res Opts} (h : ∀ t t' o o₁, f t o = .ok o₁ → f t' o₁ = f t' o) : Replaces (one f) := by
  intro ps ps' o o1 h1
  obtain ⟨t, _, h2⟩ := one_ok h1
  unfold one
  split
  · exact h t _ o o1 h2
  · rfl

theorem replaces_exact {n : Nat} {f : List Text → Opts → Res Opts} (h : Replaces f) : Replaces (exact n f) := by
  intro ps ps' o o1 h1
  unfold exact
  split
  · exact h ps ps' o o1 (exact_ok h1)
  · rfl

theorem replaces_least {n : Nat} {f : List Text → Opts → Res Opts} (h : Replaces f) : Replaces (least n f) := by
  intro ps ps' o o1 h1
  unfold least
  split
  · exact h ps ps' o o1 (least_ok h1)
  · rfl

theorem replaces_flag (f : Flag) : Replaces (one (parseFlag f)) := by
  refine replaces_one (fun t t' o o1 h => ?_)
  have : ∃ b, o1 = { o with flag := fun g => if g = f then b else o.flag g } := by
    simp only [parseFlag] at h
    split at h
    · cases h; exact ⟨_, rfl⟩
    split at h
    · cases h; exact ⟨_, rfl⟩
    · cases h
  obtain ⟨b, rfl⟩ := this
  have e : ∀ c : Bool, (fun g => if g = f then c else (if g = f then b else o.flag g)) = fun g => if g = f then c else o.flag g := by
    intro c; funext g; by_cases hg : g = f <;> simp [hg]
  simp only [parseFlag, e]

theorem replaces_ctrl : Replaces (one parseCtrl) := by
  refine replaces_one (fun t t' o o1 h => ?_)
  simp only [parseCtrl] at h
  repeat' split at h
  all_goals first | (cases h; rfl) | cases h

theorem replaces_guard : Replaces (one parseGuard) := by
  refine replaces_one (fun t t' o o1 h => ?_)
  simp only [parseGuard] at h
  repeat' split at h
  all_goals first | (cases h; rfl) | cases h

theorem replaces_corr : Replaces (one parseCorr) := by
  refine replaces_one (fun t t' o o1 h => ?_)
  simp only [parseCorr] at h
  repeat' split at h
  all_goals first | (cases h; rfl) | cases h

theorem replaces_msgLog : Replaces (one parseMsgLog) := by
  refine replaces_one (fun t t' o o1 h => ?_)
  simp only [parseMsgLog] at h
  repeat' split at h
  all_goals first | (cases h; rfl) | cases h

theorem replaces_statsLog : Replaces (one parseStatsLog) := by
  refine replaces_one (fun t t' o o1 h => ?_)
  simp only [parseStatsLog] at h
  repeat' split at h
  all_goals first | (cases h; rfl) | cases h

theorem replaces_policy : Replaces (least 1 parsePolicy) := by
  refine replaces_least ?_
  intro ps ps' o o1 h
  obtain ⟨p, rfl, _⟩ := policy_ok h
  cases ps' with
  | nil => rfl
  | cons m r =>
    cases r with
    | nil => rfl
    | cons n q => rfl

theorem replaces_syncInterval : Replaces (one parseSyncInterval) := by
  refine replaces_one (fun t t' o o1 h => ?_)
  simp only [parseSyncInterval] at h
  repeat' split at h
  all_goals first | (cases h; rfl) | cases h

theorem replaces_holdoff : Replaces (one parseHoldoff) := by
  refine replaces_one (fun t t' o o1 h => ?_)
  simp only [parseHoldoff] at h
  repeat' split at h
  all_goals first | (cases h; rfl) | cases h

theorem replaces_rescan : Replaces (one parseRescan) := by
  refine replaces_one (fun t t' o o1 h => ?_)
  simp only [parseRescan] at h
  repeat' split at h
  all_goals first | (cases h; rfl) | cases h

theorem replaces_coalesce : Replaces (one parseCoalesce) := by
  refine replaces_one (fun t t' o o1 h => ?_)
  simp only [parseCoalesce] at h
  repeat' split at h
  all_goals first | (cases h; rfl) | cases h

theorem replaces_convergence (cv : Conv) : Replaces (one (parseConvergence cv)) := by
  refine replaces_one (fun t t' o o1 h => ?_)
  simp only [parseConvergence] at h
  repeat' split at h
  all_goals first | (cases h; rfl) | cases h

theorem replaces_step (cv : Conv) : Replaces (one (parseStep cv)) := by
  refine replaces_one (fun t t' o o1 h => ?_)
  simp only [parseStep] at h
  repeat' split at h
  all_goals first | (cases h; rfl) | cases h

theorem replaces_kp (cv : Conv) : Replaces (one (parseKp cv)) := by
  refine replaces_one (fun t t' o o1 h => ?_)
  simp only [parseKp] at h
  repeat' split at h
  all_goals first | (cases h; rfl) | cases h

theorem replaces_ki (cv : Conv) : Replaces (one (parseKi cv)) := by
  refine replaces_one (fun t t' o o1 h => ?_)
  simp only [parseKi] at h
  repeat' split at h
  all_goals first | (cases h; rfl) | cases h

theorem replaces_limitFreq (cv : Conv) : Replaces (one (parseLimitFreq cv)) := by
  refine replaces_one (fun t t' o o1 h => ?_)
  simp only [parseLimitFreq] at h
  repeat' split at h
  all_goals first | (cases h; rfl) | cases h

theorem replaces_cluster (cv : Conv) : Replaces (exact 4 (parseCluster cv)) := by
  refine replaces_exact ?_
  intro ps ps' o o1 h
  have : ∃ c, o1 = { o with cluster := c } := by
    unfold parseCluster at h
    repeat' split at h
    all_goals first | (cases h; exact ⟨_, rfl⟩) | cases h
  obtain ⟨c, rfl⟩ := this
  unfold parseCluster
  split <;> rfl

theorem replaces_clusterGuard (cv : Conv) : Replaces (exact 2 (parseClusterGuard cv)) := by
  refine replaces_exact ?_
  intro ps ps' o o1 h
  have : ∃ b v, o1 = { o with guardOn := b, guardThreshold := v } := by
    unfold parseClusterGuard at h
    repeat' split at h
    all_goals first | (cases h; exact ⟨_, _, rfl⟩) | cases h
  obtain ⟨b, v, rfl⟩ := this
  unfold parseClusterGuard
  split <;> rfl

theorem replaces_formats : Replaces (exact 4 parseFormats) := by
  refine replaces_exact ?_
  intro ps ps' o o1 h
  have : ∃ c, o1 = { o with formats := c } := by
    unfold parseFormats at h
    repeat' split at h
    all_goals first | (cases h; exact ⟨_, rfl⟩) | cases h
  obtain ⟨c, rfl⟩ := this
  unfold parseFormats
  split <;> rfl

theorem replaces_table (cv : Conv) : ∀ p ∈ table cv, p.1 = "ignore_critical".toList ∨ p.1 = "reporting_intervals".toList ∨ Replaces p.2 := by
  simp only [table, List.forall_mem_cons, List.not_mem_nil, false_imp_iff, implies_true, and_true]
  exact ⟨.inr (.inr (replaces_flag _)), .inr (.inr (replaces_flag _)), .inr (.inr (replaces_flag _)), .inr (.inr (replaces_flag _)),
    .inr (.inr (replaces_flag _)), .inr (.inr (replaces_flag _)), .inr (.inr (replaces_flag _)), .inr (.inr (replaces_flag _)),
    .inr (.inr (replaces_flag _)), .inr (.inr replaces_ctrl), .inr (.inr replaces_guard), .inr (.inr replaces_corr),
    .inr (.inr replaces_msgLog), .inr (.inr replaces_statsLog), .inr (.inr replaces_policy), .inr (.inr replaces_syncInterval),
    .inr (.inr replaces_holdoff), .inr (.inr replaces_rescan), .inr (.inr replaces_coalesce), .inr (.inr (replaces_convergence cv)),
    .inr (.inr (replaces_step cv)), .inr (.inr (replaces_kp cv)), .inr (.inr (replaces_ki cv)), .inr (.inr (replaces_limitFreq cv)),
    .inr (.inl trivial), .inr (.inr (replaces_cluster cv)), .inr (.inr (replaces_clusterGuard cv)), .inl trivial, .inr (.inr replaces_formats)⟩

/-- C367: a later occurrence of an option has the effect it would have without the earlier
one, for all options of single values but `ignore_critical` and `reporting_intervals`. -/
theorem C367_last_option (cv : Conv) (name : Text) (ps ps' : List Text) (o o₁ : Opts)
    (h1 : name ≠ "ignore_critical".toList) (h2 : name ≠ "reporting_intervals".toList) (h : apply cv name ps o = .ok o₁) :
    apply cv name ps' o₁ = apply cv name ps' o := by
  simp only [apply] at h ⊢
  cases hf : (table cv).find? (fun p => p.1 = name) with
  | none => rfl
  | some p =>
    simp only [hf] at h
    have hn : p.1 = name := by simpa using List.find?_some hf
    rcases replaces_table cv p (List.mem_of_find?_eq_some hf) with h3 | h3 | h3
    · exact absurd (hn ▸ h3) h1
    · exact absurd (hn ▸ h3) h2
    · exact h3 ps ps' o o₁ h

example : apply ⟨fun _ => none, fun _ => none⟩ "epoch_guard".toList ["alarm-only".toList] defaults =
    .ok { defaults with guard := .alarmOnly } := rfl

/-! ## C368: critical errors to ignore -/

/-- The words for critical errors. -/
def critWords : List (Text × Crit) :=
  [("no-ptp-clock".toList, .noPtpClock), ("no-ptp-subsystem".toList, .noPtpSubsystem),
   ("clock-control-conflict".toList, .clockControlConflict)]

theorem critWord_some {t : Text} {c : Crit} : critWord t = some c ↔ (t, c) ∈ critWords := by
  simp only [critWord, critWords, List.mem_cons, Prod.mk.injEq, List.not_mem_nil, or_false]
  constructor
  · intro h
    split at h
    · rename_i e; cases h; exact .inl ⟨e, rfl⟩
    split at h
    · rename_i e; cases h; exact .inr (.inl ⟨e, rfl⟩)
    split at h
    · rename_i e; cases h; exact .inr (.inr ⟨e, rfl⟩)
    · cases h
  · rintro (⟨rfl, rfl⟩ | ⟨rfl, rfl⟩ | ⟨rfl, rfl⟩) <;> rfl

theorem critLoop_run : ∀ (ps : List Text) (s : (Crit → Bool) × Bool),
    (∀ c, (critLoop ps s).1 c = true ↔ s.1 c = true ∨ ∃ t ∈ ps, (t, c) ∈ critWords) ∧
    ((critLoop ps s).2 = true ↔ s.2 = true ∨ ∃ t ∈ ps, ∀ c, (t, c) ∉ critWords) := by
  intro ps
  induction ps with
  | nil => intro s; simp [critLoop]
  | cons t r ih =>
    intro s
    simp only [critLoop]
    cases hw : critWord t with
    | none =>
      have hno : ∀ c, (t, c) ∉ critWords := by
        intro c hc
        rw [← critWord_some, hw] at hc; cases hc
      obtain ⟨i1, i2⟩ := ih (s.1, true)
      refine ⟨?_, ?_⟩
      · intro c
        rw [i1 c]
        simp [hno c]
      · rw [i2]
        simp only [true_or, true_iff]
        exact .inr ⟨t, List.mem_cons_self, hno⟩
    | some d =>
      have hd := critWord_some.1 hw
      obtain ⟨i1, i2⟩ := ih (fun e => if e = d then true else s.1 e, s.2)
      refine ⟨?_, ?_⟩
      · intro c
        rw [i1 c]
        have hcd : (t, c) ∈ critWords ↔ c = d := by
          rw [← critWord_some, hw, Option.some.injEq, eq_comm]
        simp only [List.mem_cons, exists_eq_or_imp, hcd]
        by_cases hc : c = d
        · simp [hc]
        · simp [hc]
      · rw [i2]
        simp only [List.mem_cons, exists_eq_or_imp]
        constructor
        · rintro (h | h)
          · exact .inl h
          · exact .inr (.inr h)
        · rintro (h | h | h)
          · exact .inl h
          · exact absurd hd (h d)
          · exact .inr h

/-- C368: `ignore_critical` is accepted exactly if it has parameters and all of them name critical
errors. The errors ignored are then those ignored before and those named; nothing else changes. -/
theorem C368_ignore_critical (cv : Conv) (ps : List Text) (o : Opts) :
    ((∃ o', apply cv "ignore_critical".toList ps o = .ok o') ↔ ps ≠ [] ∧ ∀ t ∈ ps, ∃ c, (t, c) ∈ critWords) ∧
    (∀ o', apply cv "ignore_critical".toList ps o = .ok o' →
      (∀ c, o'.ignore c = true ↔ o.ignore c = true ∨ ∃ t ∈ ps, (t, c) ∈ critWords) ∧
      o' = { o with ignore := o'.ignore }) := by
  have e : apply cv "ignore_critical".toList ps o = least 1 parseIgnore ps o := rfl
  rw [e]
  obtain ⟨r1, r2⟩ := critLoop_run ps (o.ignore, false)
  cases ps with
  | nil =>
    refine ⟨⟨?_, ?_⟩, ?_⟩
    · rintro ⟨o', h⟩; cases h
    · rintro ⟨h, _⟩; exact absurd rfl h
    · intro o' h; cases h
  | cons t r =>
    have e2 : least 1 parseIgnore (t :: r) o =
        if (critLoop (t :: r) (o.ignore, false)).2 then .err eINVAL else .ok { o with ignore := (critLoop (t :: r) (o.ignore, false)).1 } := by
      simp [least, parseIgnore]
    rw [e2]
    refine ⟨⟨?_, ?_⟩, ?_⟩
    · rintro ⟨o', h⟩
      split at h
      · cases h
      · rename_i hb
        refine ⟨by simp, ?_⟩
        intro u hu
        by_contra hc
        apply hb
        rw [r2]
        exact .inr ⟨u, hu, fun c hc' => hc ⟨c, hc'⟩⟩
    · rintro ⟨_, h⟩
      rw [if_neg]
      · exact ⟨_, rfl⟩
      · rw [r2]
        rintro (h' | ⟨u, hu, hc⟩)
        · cases h'
        · obtain ⟨c, hc'⟩ := h u hu
          exact hc c hc'
    · intro o' h
      split at h
      · cases h
      · cases h
        exact ⟨r1, rfl⟩

example : ("no-ptp-clock".toList, Crit.noPtpClock) ∈ critWords := by simp [critWords]

/-! ## C369: every line is answered -/

/-- C369: every line of the section with an option of single values is accepted or refused: no
assertion fails, and an unknown option is refused. -/
theorem C369_answered (cv : Conv) (name : Text) (ps : List Text) (o : Opts) : Answered (apply cv name ps o) := by
  have hone : ∀ f : Text → Opts → Res Opts, (∀ t o, Answered (f t o)) → ∀ ps o, Answered (one f ps o) := by
    intro f hf ps o
    unfold one
    split
    · exact hf _ _
    · exact .inr ⟨_, rfl⟩
  have hflag : ∀ f, ∀ ps o, Answered (one (parseFlag f) ps o) := by
    intro f
    refine hone _ (fun t o => ?_)
    simp only [parseFlag]
    repeat' split
    all_goals first | exact .inl ⟨_, rfl⟩ | exact .inr ⟨_, rfl⟩
  have hloop : ∀ (ps : List Text) (o : Opts), Answered (intervals cv ps o) := by
    intro ps
    induction ps using List.twoStepInduction with
    | nil => intro o; exact .inl ⟨_, rfl⟩
    | singleton x => intro o; exact .inl ⟨_, rfl⟩
    | cons_cons k t r ih _ =>
      intro o
      simp only [intervals]
      split
      · exact .inr ⟨_, rfl⟩
      split
      · exact .inr ⟨_, rfl⟩
      split
      · exact ih _
      split
      · exact ih _
      · exact .inr ⟨_, rfl⟩
  have htab : ∀ p ∈ table cv, ∀ ps o, Answered (p.2 ps o) := by
    simp only [table, List.forall_mem_cons, List.not_mem_nil, false_imp_iff, implies_true, and_true]
    refine ⟨hflag _, hflag _, hflag _, hflag _, hflag _, hflag _, hflag _, hflag _, hflag _, hone _ ?_, hone _ ?_, hone _ ?_, hone _ ?_,
      hone _ ?_, ?_, hone _ ?_, hone _ ?_, hone _ ?_, hone _ ?_, hone _ ?_, hone _ ?_, hone _ ?_, hone _ ?_, hone _ ?_, ?_, ?_, ?_, ?_, ?_⟩
    · intro t o; simp only [parseCtrl]; repeat' split
      all_goals first | exact .inl ⟨_, rfl⟩ | exact .inr ⟨_, rfl⟩
    · intro t o; simp only [parseGuard]; repeat' split
      all_goals first | exact .inl ⟨_, rfl⟩ | exact .inr ⟨_, rfl⟩
    · intro t o; simp only [parseCorr]; repeat' split
      all_goals first | exact .inl ⟨_, rfl⟩ | exact .inr ⟨_, rfl⟩
    · intro t o; simp only [parseMsgLog]; repeat' split
      all_goals first | exact .inl ⟨_, rfl⟩ | exact .inr ⟨_, rfl⟩
    · intro t o; simp only [parseStatsLog]; repeat' split
      all_goals first | exact .inl ⟨_, rfl⟩ | exact .inr ⟨_, rfl⟩
    · intro ps o
      unfold least
      split
      · unfold parsePolicy
        repeat' split
        all_goals first | exact .inl ⟨_, rfl⟩ | exact .inr ⟨_, rfl⟩ | (exfalso; simp at *)
      · exact .inr ⟨_, rfl⟩
    · intro t o; simp only [parseSyncInterval]; repeat' split
      all_goals first | exact .inl ⟨_, rfl⟩ | exact .inr ⟨_, rfl⟩
    · intro t o; simp only [parseHoldoff]; repeat' split
      all_goals first | exact .inl ⟨_, rfl⟩ | exact .inr ⟨_, rfl⟩
    · intro t o; simp only [parseRescan]; repeat' split
      all_goals first | exact .inl ⟨_, rfl⟩ | exact .inr ⟨_, rfl⟩
    · intro t o; simp only [parseCoalesce]; repeat' split
      all_goals first | exact .inl ⟨_, rfl⟩ | exact .inr ⟨_, rfl⟩
    · intro t o; simp only [parseConvergence]; repeat' split
      all_goals first | exact .inl ⟨_, rfl⟩ | exact .inr ⟨_, rfl⟩
    · intro t o; simp only [parseStep]; repeat' split
      all_goals first | exact .inl ⟨_, rfl⟩ | exact .inr ⟨_, rfl⟩
    · intro t o; simp only [parseKp]; repeat' split
      all_goals first | exact .inl ⟨_, rfl⟩ | exact .inr ⟨_, rfl⟩
    · intro t o; simp only [parseKi]; repeat' split
      all_goals first | exact .inl ⟨_, rfl⟩ | exact .inr ⟨_, rfl⟩
    · intro t o; simp only [parseLimitFreq]; repeat' split
      all_goals first | exact .inl ⟨_, rfl⟩ | exact .inr ⟨_, rfl⟩
    · intro ps o
      unfold least
      split
      · rename_i hl
        simp only [parseIntervals, show ¬ ps.length < 2 by omega, if_false]
        split
        · exact .inr ⟨_, rfl⟩
        · exact hloop ps o
      · exact .inr ⟨_, rfl⟩
    · intro ps o
      unfold exact
      split
      · rename_i hl
        match ps, hl with
        | [a, b, c, d], _ =>
          simp only [parseCluster]
          repeat' split
          all_goals first | exact .inl ⟨_, rfl⟩ | exact .inr ⟨_, rfl⟩
      · exact .inr ⟨_, rfl⟩
    · intro ps o
      unfold exact
      split
      · rename_i hl
        match ps, hl with
        | [a, b], _ =>
          simp only [parseClusterGuard]
          repeat' split
          all_goals first | exact .inl ⟨_, rfl⟩ | exact .inr ⟨_, rfl⟩
      · exact .inr ⟨_, rfl⟩
    · intro ps o
      unfold least
      split
      · rename_i hl
        have : ps ≠ [] := by rintro rfl; simp at hl
        simp only [parseIgnore, this, if_false]
        split
        · exact .inr ⟨_, rfl⟩
        · exact .inl ⟨_, rfl⟩
      · exact .inr ⟨_, rfl⟩
    · intro ps o
      unfold exact
      split
      · rename_i hl
        match ps, hl with
        | [a, b, c, d], _ =>
          simp only [parseFormats]
          split
          · exact .inr ⟨_, rfl⟩
          · exact .inl ⟨_, rfl⟩
      · exact .inr ⟨_, rfl⟩
  simp only [apply]
  cases hf : (table cv).find? (fun p => p.1 = name) with
  | none => exact .inr ⟨_, rfl⟩
  | some p => exact htab p (List.mem_of_find?_eq_some hf) ps o

example : apply ⟨fun _ => none, fun _ => none⟩ "clustering".toList ["discriminator".toList] defaults = .err 22 := rfl

end Verif.GenConf
