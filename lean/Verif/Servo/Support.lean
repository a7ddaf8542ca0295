import Verif.Servo.Model
import Mathlib.Data.Rat.Floor
import Mathlib.Tactic.Linarith
import Mathlib.Tactic.Ring
import Mathlib.Tactic.FieldSimp

set_option linter.unusedSimpArgs false
set_option linter.unusedVariables false

/-!
# Lemmas about the servo
-/

namespace Verif.Servo
open Verif.Time Verif.Filter Verif.Stats

/-! ## Rounding and splitting -/

theorem roundl_bounds (x : Rat) : x - 1 / 2 ≤ (roundl x : Rat) ∧ (roundl x : Rat) ≤ x + 1 / 2 := by
  unfold roundl
  split
  · have h1 := Rat.floor_le (x + 1 / 2)
    have h2 := Rat.lt_floor_add_one (x + 1 / 2)
    push_cast at h2
    constructor <;> linarith
  · have h1 := Rat.floor_le (-x + 1 / 2)
    have h2 := Rat.lt_floor_add_one (-x + 1 / 2)
    push_cast at h2 ⊢
    constructor <;> linarith

theorem roundl_nonneg {x : Rat} (h : 0 ≤ x) : (0 : Rat) ≤ (roundl x : Rat) := by
  unfold roundl
  rw [if_pos h]
  have : (0 : Int) ≤ (x + 1 / 2).floor := by
    have : (-1 : Rat) < ((x + 1 / 2).floor : Rat) := by
      have h2 := Rat.lt_floor_add_one (x + 1 / 2)
      push_cast at h2
      linarith
    have h3 : (-1 : Int) < (x + 1 / 2).floor := by exact_mod_cast this
    omega
  exact_mod_cast this

theorem limit_bounds {m : Rat} (hm : 0 ≤ m) (x : Rat) : -m ≤ limit m x ∧ limit m x ≤ m := by
  simp only [limit]
  split <;> split <;> constructor <;> linarith

theorem limit_id {m x : Rat} (h1 : -m ≤ x) (h2 : x ≤ m) : limit m x = x := by
  have a : ¬ x > m := by linarith
  have b : ¬ x < -m := by linarith
  simp only [limit, if_neg a, if_neg b]

/-- A sensible description of the kernel's abilities. -/
def Sys.Ok (s : Sys) : Prop := 0 < s.hz ∧ 0 < s.maxFreq

theorem clamp_bounds {s : Sys} (hs : s.Ok) (x : Rat) : -s.maxFreq ≤ s.clamp x ∧ s.clamp x ≤ s.maxFreq := by
  obtain ⟨h1, h2⟩ := hs
  unfold Sys.clamp
  split
  · constructor <;> linarith
  · split <;> constructor <;> linarith

theorem clamp_neg {s : Sys} (hs : s.Ok) (x : Rat) : s.clamp (-x) = -s.clamp x := by
  obtain ⟨h1, h2⟩ := hs
  unfold Sys.clamp
  by_cases a : x > s.maxFreq
  · rw [if_pos a, if_neg (by linarith), if_pos (by linarith)]
  · rw [if_neg a]
    by_cases b : x < -s.maxFreq
    · rw [if_pos b, if_pos (by linarith)]; ring
    · rw [if_neg b, if_neg (by linarith), if_neg (by linarith)]

theorem tickRes_pos {s : Sys} (hs : s.Ok) : 0 < s.tickRes := by
  have := hs.1; unfold Sys.tickRes; linarith

theorem maxTick_pos {s : Sys} (hs : s.Ok) : 0 < s.maxTick := by
  have := hs.1; unfold Sys.maxTick; positivity

theorem ticks_pos {s : Sys} (hs : s.Ok) (f : Rat) (hf : f > s.maxFreq) :
    ∃ t, 0 ≤ t ∧ t ≤ s.maxTick ∧ s.ticks f = (t, f - t * s.tickRes) ∧
      t * s.tickRes ≤ f - s.maxFreq + s.tickRes / 2 ∧
      (f ≤ s.maxTick * s.tickRes + s.maxFreq → f - s.maxFreq - s.tickRes / 2 ≤ t * s.tickRes) := by
  have hr := tickRes_pos hs
  have ht := maxTick_pos hs
  have hq0 : 0 ≤ (f - s.maxFreq) / s.tickRes := div_nonneg (by linarith) (by linarith)
  have hn := roundl_nonneg hq0
  obtain ⟨b1, b2⟩ := roundl_bounds ((f - s.maxFreq) / s.tickRes)
  have hq : (f - s.maxFreq) / s.tickRes * s.tickRes = f - s.maxFreq := by field_simp
  refine ⟨_, ?_, ?_, by unfold Sys.ticks; rw [if_pos hf], ?_, ?_⟩
  all_goals
    generalize ((roundl ((f - s.maxFreq) / s.tickRes) : Int) : Rat) = t at b1 b2 hn ⊢
    generalize (f - s.maxFreq) / s.tickRes = q at b1 b2 hq hq0
    have m1 : (q - 1 / 2) * s.tickRes ≤ t * s.tickRes := mul_le_mul_of_nonneg_right b1 hr.le
    have m2 : t * s.tickRes ≤ (q + 1 / 2) * s.tickRes := mul_le_mul_of_nonneg_right b2 hr.le
    have e1 : (q - 1 / 2) * s.tickRes = q * s.tickRes - s.tickRes / 2 := by ring
    have e2 : (q + 1 / 2) * s.tickRes = q * s.tickRes + s.tickRes / 2 := by ring
    by_cases c3 : t > s.maxTick
    · have m3 : s.maxTick * s.tickRes ≤ t * s.tickRes := mul_le_mul_of_nonneg_right c3.le hr.le
      simp only [if_pos c3]
      intros
      linarith
    · simp only [if_neg c3]
      intros
      linarith

theorem ticks_neg {s : Sys} (hs : s.Ok) (f : Rat) : s.ticks (-f) = (-(s.ticks f).1, -(s.ticks f).2) := by
  obtain ⟨h1, h2⟩ := hs
  unfold Sys.ticks
  by_cases c1 : f > s.maxFreq
  · rw [if_neg (show ¬ -f > s.maxFreq by linarith), if_pos (show -f < -s.maxFreq by linarith), if_pos c1]
    simp only [neg_neg]
    generalize ((roundl ((f - s.maxFreq) / s.tickRes) : Int) : Rat) = t
    by_cases c3 : t > s.maxTick
    · rw [if_pos c3, if_pos (show -t < -s.maxTick by linarith)]
      congr 1
      ring
    · rw [if_neg c3, if_neg (show ¬ -t < -s.maxTick by linarith)]
      congr 1
      ring
  · rw [if_neg c1]
    by_cases c2 : f < -s.maxFreq
    · rw [if_pos (show -f > s.maxFreq by linarith), if_pos c2]
      generalize ((roundl ((-f - s.maxFreq) / s.tickRes) : Int) : Rat) = t
      by_cases c3 : t > s.maxTick
      · simp only [if_pos c3, if_pos (show -t < -s.maxTick by linarith)]
        congr 1 <;> ring
      · simp only [if_neg c3, if_neg (show ¬ -t < -s.maxTick by linarith)]
        congr 1 <;> ring
    · rw [if_neg (show ¬ -f > s.maxFreq by linarith), if_neg (show ¬ -f < -s.maxFreq by linarith), if_neg c2]
      simp

theorem split_neg {s : Sys} (hs : s.Ok) (f : Rat) : s.split (-f) = (-(s.split f).1, -(s.split f).2) := by
  simp only [Sys.split, ticks_neg hs, clamp_neg hs]

theorem ticks_mid {s : Sys} (f : Rat) (h1 : ¬ f > s.maxFreq) (h2 : ¬ f < -s.maxFreq) : s.ticks f = (0, f) := by
  unfold Sys.ticks; rw [if_neg h1, if_neg h2]

theorem ticks_bounds {s : Sys} (hs : s.Ok) (f : Rat) : -s.maxTick ≤ (s.ticks f).1 ∧ (s.ticks f).1 ≤ s.maxTick := by
  have ht := maxTick_pos hs
  by_cases c1 : f > s.maxFreq
  · obtain ⟨t, a1, a2, a3, -⟩ := ticks_pos hs f c1
    rw [a3]; constructor <;> simp only <;> linarith
  · by_cases c2 : f < -s.maxFreq
    · obtain ⟨t, a1, a2, a3, -⟩ := ticks_pos hs (-f) (by linarith)
      have := ticks_neg hs (-f)
      rw [neg_neg, a3] at this
      rw [this]; constructor <;> simp only <;> linarith
    · rw [ticks_mid f c1 c2]; constructor <;> simp only <;> linarith

theorem split_bounds {s : Sys} (hs : s.Ok) (f : Rat) :
    -s.maxTick ≤ (s.split f).1 ∧ (s.split f).1 ≤ s.maxTick ∧ -s.maxFreq ≤ (s.split f).2 ∧ (s.split f).2 ≤ s.maxFreq :=
  ⟨(ticks_bounds hs f).1, (ticks_bounds hs f).2, (clamp_bounds hs _).1, (clamp_bounds hs _).2⟩

/-- The whole adjustment: what ticks and frequency amount to. -/
def Sys.total (s : Sys) (x : Rat × Rat) : Rat := x.1 * s.tickRes + x.2

theorem split_total_pos {s : Sys} (hs : s.Ok) (h4 : s.tickRes ≤ 4 * s.maxFreq) (f : Rat) (hf : 0 ≤ f)
    (hmax : f ≤ s.maxTick * s.tickRes + s.maxFreq) :
    f - s.tickRes / 2 ≤ s.total (s.split f) ∧ s.total (s.split f) ≤ f := by
  have hr := tickRes_pos hs
  have h2 := hs.2
  simp only [Sys.split, Sys.total]
  by_cases c1 : f > s.maxFreq
  · obtain ⟨t, a1, a2, a3, a4, a5⟩ := ticks_pos hs f c1
    have a5 := a5 hmax
    rw [a3]
    simp only
    unfold Sys.clamp
    split
    · constructor <;> linarith
    · split
      · linarith
      · constructor <;> linarith
  · rw [ticks_mid f c1 (by linarith)]
    simp only
    unfold Sys.clamp
    rw [if_neg c1, if_neg (by linarith)]
    constructor <;> linarith

/-! ## Calls to the kernel -/

theorem adjustFreq_no_offset (c : Clock) (f : Rat) (k : Int) (x : Rat) : KCall.offset x ∉ (c.adjustFreq f k).2 := by
  simp only [Clock.adjustFreq]
  split
  · simp
  split
  · simp
  split
  · simp
  split <;> simp

theorem adjustTime_offset {c : Clock} {d : Rat} {k : Int} {x : Rat} (h : KCall.offset x ∈ (c.adjustTime d k).2) : x = d := by
  simp only [Clock.adjustTime] at h
  split at h
  · simp at h
  split at h
  · simp at h
  split at h
  · simp at h
  simpa using h

theorem adjustTime_calls_offset {c : Clock} {d : Rat} {k : Int} {q : KCall} (h : q ∈ (c.adjustTime d k).2) : q = .offset d := by
  simp only [Clock.adjustTime] at h
  split at h
  · simp at h
  split at h
  · simp at h
  split at h
  · simp at h
  simpa using h

/-! ## Histories -/

/-- A clock whose saved frequency correction it supports. -/
def ClockOk (c : Clock) : Prop := 0 ≤ c.maxFreq ∧ -c.maxFreq ≤ c.freqCorr ∧ c.freqCorr ≤ c.maxFreq

/-- Histories of a servo: the state, and the runs so far with the state before
each. Apart from runs: new clocks, steps asked for by the user, changes of filter
coefficients, saving, and changes to the clocks by others (that keep the limits). -/
inductive Reach (c : Cfg) : World → List (World × In) → Prop where
  | start {delta s m sl k w calls} : delta.length = 128 → create c delta = some s → ClockOk sl →
      setClocks s m sl k = some (w, calls) → Reach c w []
  | sync {w past i rc w' calls} : Reach c w past → sync w i = some (rc, w', calls) → Reach c w' (past ++ [(w, i)])
  | clocks {w past m sl k w' calls} : Reach c w past → ClockOk sl → setClocks w.servo m sl k = some (w', calls) → Reach c w' past
  | step {w past} (off : Rat) (k1 k2 : Int) : Reach c w past → Reach c (stepClock w off k1 k2).2.1 past
  | pid {w past} (kp ki kd : Option Rat) (r : Bool) : Reach c w past → Reach c { w with servo := w.servo.pidAdjust kp ki kd r } past
  | save {w past} : Reach c w past → Reach c (saveState w) past
  | env {w past} (m sl : Clock) : Reach c w past → ClockOk sl → sl.maxFreq = w.slave.maxFreq → Reach c { w with master := m, slave := sl } past

/-- The times found by a run at which a clock is set or nothing done. -/
def Stopped (g : Guard) (masterTime slaveTime : Rat) : Prop :=
  nearEpoch masterTime = true ∧ g ≠ .alarmOnly ∨ nearEpoch slaveTime = true ∧ g = .correctClock

/-- The parts of the servo that a run changes only in `track`. -/
theorem track_keeps (s : Servo) (rc : Int) (now : Rat) :
    (track s rc now).ctrl = s.ctrl ∧ (track s rc now).guard = s.guard ∧ (track s rc now).threshold = s.threshold ∧
    (track s rc now).active = s.active ∧ (track s rc now).steppedLocked = s.steppedLocked ∧
    (track s rc now).freqMax = s.freqMax ∧ (track s rc now).freqCorr = s.freqCorr ∧ (track s rc now).freqAdj = s.freqAdj ∧
    (track s rc now).alarms.epoch = s.alarms.epoch ∧ (track s rc now).alarms.ctrl = s.alarms.ctrl ∧
    (track s rc now).fir = s.fir := by
  unfold track
  cases s.track
  · by_cases h : rc ≠ 0
    · simp only [if_pos h]; simp
    · simp only [if_neg h]; simp
  · by_cases h : rc = 0
    · simp only [if_pos h]; simp
    · simp only [if_neg h]
      split <;> simp
  · by_cases h : rc = 0
    · simp only [if_pos h]; simp
    · simp only [if_neg h]; simp

/-! ## What a run changes -/

/-- Two states with the same configuration, clocks and failure tracking. -/
def Same (w w' : World) : Prop :=
  w'.master = w.master ∧ w'.slave = w.slave ∧ w'.servo.ctrl = w.servo.ctrl ∧ w'.servo.guard = w.servo.guard ∧
  w'.servo.threshold = w.servo.threshold ∧ w'.servo.freqMax = w.servo.freqMax ∧ w'.servo.track = w.servo.track ∧
  w'.servo.failBegin = w.servo.failBegin ∧ w'.servo.alarms.sustained = w.servo.alarms.sustained

theorem stepClock_same (w : World) (d : Rat) (k1 k2 : Int) : Same w (stepClock w d k1 k2).2.1 := by
  simp only [stepClock, Servo.reset, Same]
  by_cases h : (w.slave.adjustFreq w.slave.freqCorr k2).1 ≠ 0
  · simp only [if_pos h]; simp
  · simp only [if_neg h]; simp

theorem stepClock_servo (w : World) (d : Rat) (k1 k2 : Int) :
    (stepClock w d k1 k2).2.1.servo.active = w.servo.active ∧
    (stepClock w d k1 k2).2.1.servo.steppedLocked = w.servo.steppedLocked ∧
    (stepClock w d k1 k2).2.1.servo.synchronized = w.servo.synchronized ∧
    (stepClock w d k1 k2).2.1.servo.alarms.epoch = w.servo.alarms.epoch ∧
    (stepClock w d k1 k2).2.1.servo.freqCorr = w.slave.freqCorr ∧
    (stepClock w d k1 k2).2.1.servo.freqAdj = w.slave.freqCorr ∧
    (stepClock w d k1 k2).2.1.servo.offset = 0 ∧
    (stepClock w d k1 k2).2.1.servo.fir = w.servo.fir.reset := by
  simp only [stepClock, Servo.reset]
  by_cases h : (w.slave.adjustFreq w.slave.freqCorr k2).1 ≠ 0
  · simp only [if_pos h]; simp
  · simp only [if_neg h]; simp

theorem slew_spec {w w' : World} {diff : Rat} {i : In} {rc : Int} {calls : List (Who × KCall)}
    (h : slew w diff i = some (rc, w', calls)) :
    Same w w' ∧ w'.servo.active = true ∧ w'.servo.steppedLocked = (w.servo.steppedLocked || w.master.beenLocked) ∧
    w'.servo.alarms.epoch = w.servo.alarms.epoch ∧ w'.servo.freqCorr = w.servo.freqCorr ∧
    (0 ≤ w.servo.freqMax → -w.servo.freqMax ≤ w'.servo.freqAdj ∧ w'.servo.freqAdj ≤ w.servo.freqMax) ∧
    rc = (w.slave.adjustFreq w'.servo.freqAdj i.kFreq).1 ∧
    calls = (w.slave.adjustFreq w'.servo.freqAdj i.kFreq).2.map (Who.slave, ·) := by
  unfold slew at h
  split at h
  · simp at h
  · split at h
    · simp at h
    · rename_i fir mean _ _ pid adj _
      simp only [Option.some.injEq, Prod.mk.injEq] at h
      obtain ⟨rfl, rfl, rfl⟩ := h
      simp only [markActive, Same, true_and, and_self]
      refine ⟨?_, ?_⟩
      · cases w.master.beenLocked <;> simp
      · refine ⟨fun hm => ?_, trivial⟩
        split
        · constructor <;> linarith
        · split <;> constructor <;> linarith

theorem markActive_spec (w : World) : Same w (markActive w) ∧ (markActive w).servo.active = true ∧
    (markActive w).servo.steppedLocked = (w.servo.steppedLocked || w.master.beenLocked) ∧
    (markActive w).servo.alarms = w.servo.alarms ∧ (markActive w).servo.freqCorr = w.servo.freqCorr ∧
    (markActive w).servo.freqAdj = w.servo.freqAdj ∧ (markActive w).servo.synchronized = w.servo.synchronized := by
  refine ⟨by simp [markActive, Same], rfl, ?_, rfl, rfl, rfl, rfl⟩
  simp only [markActive]
  cases w.master.beenLocked <;> simp

theorem noteSlave_same (w : World) (near : Bool) : Same w (noteSlave w near) := by simp [noteSlave, Same]

theorem Same.trans {a b c : World} (h : Same a b) (g : Same b c) : Same a c := by
  obtain ⟨a1, a2, a3, a4, a5, a6, a7, a8, a9⟩ := h
  obtain ⟨c1, d2, d3, d4, d5, d6, d7, d8, d9⟩ := g
  exact ⟨c1.trans a1, d2.trans a2, d3.trans a3, d4.trans a4, d5.trans a5, d6.trans a6, d7.trans a7, d8.trans a8, d9.trans a9⟩

/-- What a run does once the master's time passed. -/
inductive Did (w : World) (diff slaveTime : Rat) (i : In) : Int → World → List (Who × KCall) → Prop where
  | correct : nearEpoch slaveTime = true → w.servo.guard = .correctClock →
      Did w diff slaveTime i 11 (noteSlave w true) ((w.slave.setTime i.setCmp i.kSet).2.map (Who.slave, ·))
  | step {w' rc calls} : ¬ (nearEpoch slaveTime = true ∧ w.servo.guard = .correctClock) →
      mayStep (noteSlave w (nearEpoch slaveTime)) diff = true → (diff ≤ -w.servo.threshold ∨ diff ≥ w.servo.threshold) →
      stepClock (noteSlave w (nearEpoch slaveTime)) diff i.kStep i.kFreq = (rc, w', calls) →
      Did w diff slaveTime i rc (markActive w') (calls.map (Who.slave, ·))
  | slew {w' rc calls} : ¬ (nearEpoch slaveTime = true ∧ w.servo.guard = .correctClock) →
      ¬ (mayStep (noteSlave w (nearEpoch slaveTime)) diff = true ∧ (diff ≤ -w.servo.threshold ∨ diff ≥ w.servo.threshold)) →
      slew (noteSlave w (nearEpoch slaveTime)) diff i = some (rc, w', calls) →
      Did w diff slaveTime i rc w' calls

theorem guardSlave_did {w w' : World} {diff slaveTime : Rat} {i : In} {rc : Int} {calls : List (Who × KCall)}
    (h : guardSlave w diff slaveTime i = some (rc, w', calls)) : Did w diff slaveTime i rc w' calls := by
  simp only [guardSlave] at h
  by_cases hc : nearEpoch slaveTime = true ∧ w.servo.guard = .correctClock
  · rw [if_pos (show nearEpoch slaveTime = true ∧ (noteSlave w (nearEpoch slaveTime)).servo.guard = .correctClock from hc)] at h
    simp only [Option.some.injEq, Prod.mk.injEq] at h
    obtain ⟨rfl, rfl, rfl⟩ := h
    rw [hc.1]
    exact .correct hc.1 hc.2
  · rw [if_neg (show ¬ (nearEpoch slaveTime = true ∧ (noteSlave w (nearEpoch slaveTime)).servo.guard = .correctClock) from hc)] at h
    by_cases hd : mayStep (noteSlave w (nearEpoch slaveTime)) diff = true ∧ (diff ≤ -w.servo.threshold ∨ diff ≥ w.servo.threshold)
    · rw [if_pos (by exact hd)] at h
      simp only [Option.some.injEq, Prod.mk.injEq] at h
      obtain ⟨rfl, rfl, rfl⟩ := h
      exact .step hc hd.1 hd.2 rfl
    · rw [if_neg (by exact hd)] at h
      exact .slew hc hd h

/-- The facts about a run that do not depend on what it did. -/
theorem did_spec {w w' : World} {diff slaveTime : Rat} {i : In} {rc : Int} {calls : List (Who × KCall)}
    (h : Did w diff slaveTime i rc w' calls) :
    Same w w' ∧ w'.servo.active = true ∧ w'.servo.alarms.epoch = nearEpoch slaveTime ∧
    (nearEpoch slaveTime = true ∧ w.servo.guard = .correctClock → w'.servo.steppedLocked = w.servo.steppedLocked) ∧
    (¬ (nearEpoch slaveTime = true ∧ w.servo.guard = .correctClock) →
      w'.servo.steppedLocked = (w.servo.steppedLocked || w.master.beenLocked)) := by
  cases h with
  | correct h1 h2 => exact ⟨noteSlave_same _ _, rfl, by rw [h1]; rfl, fun _ => rfl, fun h => absurd ⟨h1, h2⟩ h⟩
  | @step w2 rc calls h1 h3 h4 h5 =>
    have e : w2 = (stepClock (noteSlave w (nearEpoch slaveTime)) diff i.kStep i.kFreq).2.1 := by rw [h5]
    have a := stepClock_same (noteSlave w (nearEpoch slaveTime)) diff i.kStep i.kFreq
    obtain ⟨b1, b2, b3, b4, -⟩ := stepClock_servo (noteSlave w (nearEpoch slaveTime)) diff i.kStep i.kFreq
    obtain ⟨c1, c2, c3, c4, -⟩ := markActive_spec w2
    rw [← e] at a b2 b4
    refine ⟨(noteSlave_same w _).trans (a.trans c1), c2, by rw [c4, b4]; rfl, fun h => absurd h h1, fun _ => ?_⟩
    rw [c3, b2, a.1]; rfl
  | slew h1 h3 h4 =>
    obtain ⟨a, b1, b2, b3, -⟩ := slew_spec h4
    exact ⟨(noteSlave_same w _).trans a, b1, b3, fun h => absurd h h1, fun _ => b2⟩

theorem doSync_spec {w w' : World} {i : In} {rc : Int} {calls : List (Who × KCall)} {d m s : Rat}
    (hc : i.cmp = .ok (d, m, s)) (h : doSync w i = some (rc, w', calls)) :
    Same w w' ∧ w'.servo.active = true ∧
    (Stopped w.servo.guard m s → w'.servo.steppedLocked = w.servo.steppedLocked) ∧
    (¬ Stopped w.servo.guard m s → w'.servo.steppedLocked = (w.servo.steppedLocked || w.master.beenLocked)) ∧
    (w'.servo.alarms.epoch = if nearEpoch m = true ∧ w.servo.guard ≠ .alarmOnly then true else nearEpoch s) := by
  simp only [doSync, hc] at h
  by_cases hm : nearEpoch m = true
  · simp only [if_pos hm] at h
    cases hg : w.servo.guard with
    | alarmOnly =>
      simp only [hg] at h
      obtain ⟨a, b, c, d1, e⟩ := did_spec (guardSlave_did h)
      refine ⟨by simpa only [Same, hg] using a, b, ?_, ?_, ?_⟩
      · intro hs; simp [Stopped] at hs
      · intro hs; exact e (by simp [hg])
      · rw [c]; simp
    | preventSync =>
      simp only [hg, Option.some.injEq, Prod.mk.injEq] at h
      obtain ⟨rfl, rfl, rfl⟩ := h
      refine ⟨by simp [Same, hg], rfl, fun _ => rfl, ?_, ?_⟩
      · intro hs; exact absurd (Or.inl ⟨hm, by simp⟩) hs
      · simp [hm]
    | correctClock =>
      simp only [hg, Option.some.injEq, Prod.mk.injEq] at h
      obtain ⟨rfl, rfl, rfl⟩ := h
      refine ⟨by simp [Same, hg], rfl, fun _ => rfl, ?_, ?_⟩
      · intro hs; exact absurd (Or.inl ⟨hm, by simp⟩) hs
      · simp [hm]
  · simp only [if_neg hm] at h
    obtain ⟨a, b, c, d1, e⟩ := did_spec (guardSlave_did h)
    refine ⟨by simpa [Same] using a, b, ?_, ?_, ?_⟩
    · intro hs; apply d1; simpa [Stopped, hm] using hs
    · intro hs; apply e; simpa [Stopped, hm] using hs
    · rw [c]; simp [hm]

/-! ## Invariants of histories -/

theorem setClocks_spec {s : Servo} {m sl : Clock} {k : Int} {w : World} {calls : List KCall}
    (h : setClocks s m sl k = some (w, calls)) :
    w.master = m ∧ w.slave = sl ∧ w.servo.ctrl = s.ctrl ∧ w.servo.guard = s.guard ∧ w.servo.threshold = s.threshold ∧
    w.servo.active = s.active ∧ w.servo.steppedLocked = s.steppedLocked ∧ w.servo.freqMax = sl.maxFreq ∧
    w.servo.freqCorr = sl.freqCorr ∧ w.servo.freqAdj = sl.freqCorr ∧ w.servo.track = s.track ∧ w.servo.failBegin = s.failBegin ∧
    w.servo.alarms.sustained = s.alarms.sustained ∧ w.servo.alarms.epoch = s.alarms.epoch ∧
    w.servo.synchronized = s.synchronized ∧ calls = (sl.adjustFreq sl.freqCorr k).2 := by
  simp only [setClocks] at h
  split at h
  · simp at h
  · simp only [Option.some.injEq, Prod.mk.injEq] at h
    obtain ⟨rfl, rfl⟩ := h
    simp [Servo.reset]

theorem create_spec {c : Cfg} {delta : List Rat} {s : Servo} (h : create c delta = some s) :
    s.ctrl = c.ctrl ∧ s.guard = c.guard ∧ s.threshold = c.threshold ∧ s.active = false ∧ s.steppedLocked = false ∧
    s.track = .ok ∧ s.alarms = ⟨false, false, false⟩ ∧ s.synchronized = false := by
  simp only [create] at h
  split at h
  · simp at h
  · simp only [Option.some.injEq] at h
    subst h
    simp [Servo.reset]

theorem create_some (c : Cfg) (delta : List Rat) : ∃ s, create c delta = some s := by
  have h : (if c.stiffness < 1 then 1 else if c.stiffness > 16 then 16 else c.stiffness) ≤ 128 := by
    split
    · omega
    · split <;> omega
  simp only [create, Fir.init, if_pos h]
  exact ⟨_, rfl⟩

/-- The configuration is kept. -/
theorem reach_cfg {c : Cfg} {w : World} {past : List (World × In)} (h : Reach c w past) :
    w.servo.ctrl = c.ctrl ∧ w.servo.guard = c.guard ∧ w.servo.threshold = c.threshold := by
  induction h with
  | start _ hc _ hs =>
    obtain ⟨a1, a2, a3, -⟩ := create_spec hc
    obtain ⟨-, -, b1, b2, b3, -⟩ := setClocks_spec hs
    exact ⟨by rw [b1, a1], by rw [b2, a2], by rw [b3, a3]⟩
  | @sync w past i rc w' calls _ hs ih =>
    simp only [sync] at hs
    split at hs
    · simp at hs
    · rename_i rc1 w1 calls1 hd
      simp only [Option.some.injEq, Prod.mk.injEq] at hs
      obtain ⟨rfl, rfl, rfl⟩ := hs
      obtain ⟨t1, t2, t3, -⟩ := track_keeps w1.servo rc1 i.now
      simp only
      rw [t1, t2, t3]
      cases hc : i.cmp with
      | error e => simp only [doSync, hc, Option.some.injEq, Prod.mk.injEq] at hd; obtain ⟨-, rfl, -⟩ := hd; exact ih
      | ok r =>
        obtain ⟨d, m, s⟩ := r
        obtain ⟨⟨-, -, a1, a2, a3, -⟩, -⟩ := doSync_spec hc hd
        rw [a1, a2, a3]; exact ih
  | clocks _ _ hs ih =>
    obtain ⟨-, -, b1, b2, b3, -⟩ := setClocks_spec hs
    rw [b1, b2, b3]; exact ih
  | step off k1 k2 _ ih =>
    rename_i w past _
    obtain ⟨-, -, b1, b2, b3, -⟩ := stepClock_same w off k1 k2
    rw [b1, b2, b3]; exact ih
  | pid kp ki kd r _ ih => exact ih
  | save _ ih => simp only [saveState]; split <;> exact ih
  | env m sl _ _ _ ih => exact ih

/-- The limit known to the servo is that of the clock; the corrections are within. -/
theorem reach_limits {c : Cfg} {w : World} {past : List (World × In)} (h : Reach c w past) :
    w.servo.freqMax = w.slave.maxFreq ∧ ClockOk w.slave ∧
    -w.slave.maxFreq ≤ w.servo.freqCorr ∧ w.servo.freqCorr ≤ w.slave.maxFreq := by
  induction h with
  | start _ hc hk hs =>
    obtain ⟨-, b1, -, -, -, -, -, b2, b3, -⟩ := setClocks_spec hs
    rw [b1, b2, b3]; exact ⟨rfl, hk, hk.2.1, hk.2.2⟩
  | @sync w past i rc w' calls _ hs ih =>
    simp only [sync] at hs
    split at hs
    · simp at hs
    · rename_i rc1 w1 calls1 hd
      simp only [Option.some.injEq, Prod.mk.injEq] at hs
      obtain ⟨rfl, rfl, rfl⟩ := hs
      obtain ⟨-, -, -, -, -, t6, t7, -⟩ := track_keeps w1.servo rc1 i.now
      simp only
      rw [t6, t7]
      cases hc : i.cmp with
      | error e => simp only [doSync, hc, Option.some.injEq, Prod.mk.injEq] at hd; obtain ⟨-, rfl, -⟩ := hd; exact ih
      | ok r =>
        obtain ⟨d, m, s⟩ := r
        obtain ⟨⟨-, a1, -, -, -, a2, -⟩, -⟩ := doSync_spec hc hd
        rw [a1, a2]
        refine ⟨ih.1, ih.2.1, ?_⟩
        suffices hcorr : w1.servo.freqCorr = w.servo.freqCorr ∨ w1.servo.freqCorr = w.slave.freqCorr by
          rcases hcorr with e | e
          · rw [e]; exact ih.2.2
          · rw [e]; exact ih.2.1.2
        have hdid : ∀ w0 : World, w0.servo.freqCorr = w.servo.freqCorr → w0.slave = w.slave →
            Did w0 d s i rc1 w1 calls1 → w1.servo.freqCorr = w.servo.freqCorr ∨ w1.servo.freqCorr = w.slave.freqCorr := by
          intro w0 e1 e2 hdid
          cases hdid with
          | correct h1 h2 => left; exact e1
          | @step w2 _ _ h1 h3 h4 h5 =>
            right
            obtain ⟨-, -, -, -, b5, -⟩ := stepClock_servo (noteSlave w0 (nearEpoch s)) d i.kStep i.kFreq
            rw [h5] at b5
            rw [(markActive_spec w2).2.2.2.2.1, b5, ← e2]; rfl
          | slew h1 h3 h4 =>
            left
            obtain ⟨-, -, -, -, b5, -⟩ := slew_spec h4
            rw [b5, ← e1]; rfl
        simp only [doSync, hc] at hd
        by_cases hm : nearEpoch m = true
        · simp only [if_pos hm] at hd
          cases hg : w.servo.guard with
          | alarmOnly =>
            simp only [hg] at hd
            refine hdid _ ?_ ?_ (guardSlave_did hd) <;> rfl
          | preventSync =>
            simp only [hg, Option.some.injEq, Prod.mk.injEq] at hd
            obtain ⟨-, rfl, -⟩ := hd; left; rfl
          | correctClock =>
            simp only [hg, Option.some.injEq, Prod.mk.injEq] at hd
            obtain ⟨-, rfl, -⟩ := hd; left; rfl
        · simp only [if_neg hm] at hd
          refine hdid _ ?_ ?_ (guardSlave_did hd) <;> rfl
  | clocks _ hk hs ih =>
    obtain ⟨-, b1, -, -, -, -, -, b2, b3, -⟩ := setClocks_spec hs
    rw [b1, b2, b3]; exact ⟨rfl, hk, hk.2.1, hk.2.2⟩
  | step off k1 k2 _ ih =>
    rename_i w past _
    obtain ⟨-, b1, -, -, -, b2, -⟩ := stepClock_same w off k1 k2
    obtain ⟨-, -, -, -, b5, -⟩ := stepClock_servo w off k1 k2
    rw [b1, b2, b5]; exact ⟨ih.1, ih.2.1, ih.2.1.2.1, ih.2.1.2.2⟩
  | pid kp ki kd r _ ih => exact ih
  | save _ ih =>
    simp only [saveState]
    split
    · simp only [Clock.save]
      split
      · exact ih
      · rename_i hn
        simp only [not_or, not_lt] at hn
        exact ⟨ih.1, ⟨ih.2.1.1, by simpa using hn.2, by simpa using hn.1⟩, ih.2.2⟩
    · exact ih
  | env m sl _ hk he ih =>
    refine ⟨?_, hk, ?_, ?_⟩
    · rw [he]; exact ih.1
    · simp only; rw [he]; exact ih.2.2.1
    · simp only; rw [he]; exact ih.2.2.2

end Verif.Servo
