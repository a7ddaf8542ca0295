import Verif.Servo.Support

set_option linter.unusedSimpArgs false
set_option linter.unusedVariables false

/-!
# Properties of the servo (C35, C36, C37, C38, C62)
-/

namespace Verif.Servo
open Verif.Time Verif.Filter Verif.Stats

/-! ## C35: stepping policy -/

/-- Whether some run so far could compare the clocks. -/
def Compared (past : List (World × In)) : Prop := ∃ p ∈ past, ∃ r, p.2.cmp = .ok r

/-- A time within 10^7 seconds after the epoch, or in the last 2^18 seconds before
32-bit seconds wrap. -/
def NearEpoch (ns : Rat) : Prop := ns < 10000000 * 10 ^ 9 ∨ (2 ^ 32 - 2 ^ 18) * 10 ^ 9 < ns

/-- The epoch guard keeps a run that found these times from steering the slave. -/
def Intercepted (c : Cfg) (masterTime slaveTime : Rat) : Prop :=
  NearEpoch masterTime ∧ c.guard ≠ .alarmOnly ∨ NearEpoch slaveTime ∧ c.guard = .correctClock

/-- Whether some run so far steered the slave by a master that had been locked. -/
def FollowedLocked (c : Cfg) (past : List (World × In)) : Prop :=
  ∃ p ∈ past, ∃ d m s, p.2.cmp = .ok (d, m, s) ∧ p.1.master.beenLocked = true ∧ ¬ Intercepted c m s

/-- The policies for stepping: `d` is the slave's time less the master's. -/
def Permitted (c : Cfg) (past : List (World × In)) (locked : Bool) (d : Rat) : Prop :=
  match c.ctrl with
  | .slewAndStep => True
  | .stepAtStartup => ¬ Compared past
  | .noStep => False
  | .noAdjust => False
  | .stepForward => d < 0
  | .stepOnFirstLock => ¬ Compared past ∨ (locked = true ∧ ¬ FollowedLocked c past)

theorem near_iff (t : Rat) : nearEpoch t = true ↔ NearEpoch t := by
  simp only [nearEpoch, NearEpoch, Bool.or_eq_true, decide_eq_true_eq]
  constructor
  · rintro (h | h)
    · left; linarith
    · right; linarith
  · rintro (h | h)
    · left; linarith
    · right; linarith

theorem stopped_iff (c : Cfg) (g : Guard) (hg : g = c.guard) (m s : Rat) : Stopped g m s ↔ Intercepted c m s := by
  subst hg
  simp only [Stopped, Intercepted, near_iff]

theorem reach_flags {c : Cfg} {w : World} {past : List (World × In)} (h : Reach c w past) :
    (w.servo.active = true ↔ Compared past) ∧ (w.servo.steppedLocked = true ↔ FollowedLocked c past) := by
  induction h with
  | start _ hc _ hs =>
    obtain ⟨-, -, -, a1, a2, -⟩ := create_spec hc
    obtain ⟨-, -, -, -, -, b1, b2, -⟩ := setClocks_spec hs
    rw [b1, b2, a1, a2]
    simp [Compared, FollowedLocked]
  | @sync w past i rc w' calls hr hs ih =>
    have hcomp : Compared (past ++ [(w, i)]) ↔ Compared past ∨ ∃ r, i.cmp = .ok r := by
      simp only [Compared, List.mem_append, List.mem_singleton]
      constructor
      · rintro ⟨p, hp | rfl, r, h⟩
        · exact Or.inl ⟨p, hp, r, h⟩
        · exact Or.inr ⟨r, h⟩
      · rintro (⟨p, hp, r, h⟩ | ⟨r, h⟩)
        · exact ⟨p, Or.inl hp, r, h⟩
        · exact ⟨_, Or.inr rfl, r, h⟩
    have hfol : FollowedLocked c (past ++ [(w, i)]) ↔ FollowedLocked c past ∨
        ∃ d m s, i.cmp = .ok (d, m, s) ∧ w.master.beenLocked = true ∧ ¬ Intercepted c m s := by
      simp only [FollowedLocked, List.mem_append, List.mem_singleton]
      constructor
      · rintro ⟨p, hp | rfl, r⟩
        · exact Or.inl ⟨p, hp, r⟩
        · exact Or.inr r
      · rintro (⟨p, hp, r⟩ | r)
        · exact ⟨p, Or.inl hp, r⟩
        · exact ⟨_, Or.inr rfl, r⟩
    rw [hcomp, hfol]
    simp only [sync] at hs
    split at hs
    · simp at hs
    · rename_i rc1 w1 calls1 hd
      simp only [Option.some.injEq, Prod.mk.injEq] at hs
      obtain ⟨rfl, rfl, rfl⟩ := hs
      obtain ⟨-, -, -, t4, t5, -⟩ := track_keeps w1.servo rc1 i.now
      simp only
      rw [t4, t5]
      cases hc : i.cmp with
      | error e =>
        simp only [doSync, hc, Option.some.injEq, Prod.mk.injEq] at hd; obtain ⟨-, rfl, -⟩ := hd
        simpa using ih
      | ok r =>
        obtain ⟨d, m, s⟩ := r
        obtain ⟨-, a1, a2, a3, -⟩ := doSync_spec hc hd
        rw [stopped_iff c _ (reach_cfg hr).2.1] at a2 a3
        refine ⟨by simp [a1], ?_⟩
        by_cases hi : Intercepted c m s
        · rw [a2 hi, ih.2]
          constructor
          · exact Or.inl
          · rintro (h | ⟨d', m', s', h1, h2, h3⟩)
            · exact h
            · simp only [Except.ok.injEq, Prod.mk.injEq] at h1
              obtain ⟨-, rfl, rfl⟩ := h1
              exact absurd hi h3
        · rw [a3 hi, Bool.or_eq_true, ih.2]
          constructor
          · rintro (h | h)
            · exact Or.inl h
            · exact Or.inr ⟨d, m, s, rfl, h, hi⟩
          · rintro (h | ⟨d', m', s', h1, h2, h3⟩)
            · exact Or.inl h
            · exact Or.inr h2
  | clocks _ _ hs ih =>
    obtain ⟨-, -, -, -, -, b1, b2, -⟩ := setClocks_spec hs
    rw [b1, b2]; exact ih
  | step off k1 k2 _ ih =>
    rename_i w past _
    obtain ⟨b1, b2, -⟩ := stepClock_servo w off k1 k2
    rw [b1, b2]; exact ih
  | pid kp ki kd r _ ih => exact ih
  | save _ ih => simp only [saveState]; split <;> exact ih
  | env m sl _ _ _ ih => exact ih

/-- C35, full statement: in any history, a run shifts the time of a clock only if
the difference found reaches the threshold and the policy permits it, and then it
is the slave that is shifted, by the opposite of the difference. -/
def C35_statement : Prop :=
  ∀ (c : Cfg) (w : World) (past : List (World × In)) (i : In) (rc : Int) (w' : World) (calls : List (Who × KCall)) (who : Who) (x : Rat),
    Reach c w past → sync w i = some (rc, w', calls) → (who, KCall.offset x) ∈ calls →
    who = .slave ∧ ∃ d m s, i.cmp = .ok (d, m, s) ∧ x = -d ∧ (d ≤ -c.threshold ∨ c.threshold ≤ d) ∧
      Permitted c past w.master.beenLocked d

theorem mem_map_who {l : List KCall} {a b : Who} {q : KCall} (h : (a, q) ∈ l.map (b, ·)) : a = b ∧ q ∈ l := by
  simp only [List.mem_map, Prod.mk.injEq] at h
  obtain ⟨q', hq, rfl, rfl⟩ := h
  exact ⟨rfl, hq⟩

theorem did_offset {w w' : World} {d s : Rat} {i : In} {rc : Int} {calls : List (Who × KCall)} {who : Who} {x : Rat}
    (h : Did w d s i rc w' calls) (hn : ¬ (nearEpoch s = true ∧ w.servo.guard = .correctClock))
    (hx : (who, KCall.offset x) ∈ calls) :
    who = .slave ∧ x = -d ∧ (d ≤ -w.servo.threshold ∨ w.servo.threshold ≤ d) ∧ mayStep (noteSlave w (nearEpoch s)) d = true := by
  cases h with
  | correct h1 h2 => exact absurd ⟨h1, h2⟩ hn
  | @step w2 rc calls h1 h3 h4 h5 =>
    obtain ⟨rfl, hq⟩ := mem_map_who hx
    have e : calls = (stepClock (noteSlave w (nearEpoch s)) d i.kStep i.kFreq).2.2 := by rw [h5]
    subst e
    simp only [stepClock, List.mem_append] at hq
    rcases hq with hq | hq
    · refine ⟨rfl, ?_, h4, h3⟩
      rw [adjustTime_offset hq]; ring
    · exact absurd hq (adjustFreq_no_offset _ _ _ _)
  | slew h1 h3 h4 =>
    obtain ⟨-, -, -, -, -, -, -, e⟩ := slew_spec h4
    subst e
    obtain ⟨-, hq⟩ := mem_map_who hx
    exact absurd hq (adjustFreq_no_offset _ _ _ _)

theorem mayStep_permitted {c : Cfg} {w : World} {past : List (World × In)} (hr : Reach c w past) {w1 : World} {d : Rat}
    (h : mayStep w1 d = true)
    (h1 : w1.servo.ctrl = w.servo.ctrl) (h2 : w1.servo.active = false → w.servo.active = false)
    (h3 : w1.servo.steppedLocked = w.servo.steppedLocked) (h4 : w1.master = w.master) : Permitted c past w.master.beenLocked d := by
  obtain ⟨f1, f2⟩ := reach_flags hr
  obtain ⟨c1, -⟩ := reach_cfg hr
  have n1 : w.servo.active = false → ¬ Compared past := by
    intro h hc; rw [f1.2 hc] at h; simp at h
  have n2 : w.servo.steppedLocked = false → ¬ FollowedLocked c past := by
    intro h hc; rw [f2.2 hc] at h; simp at h
  simp only [mayStep, decide_eq_true_eq] at h
  rw [h1, h3, h4, c1] at h
  unfold Permitted
  cases hc : c.ctrl <;> simp only [hc] at h ⊢
  · simp only [true_or, true_and, or_false, false_or, false_and, reduceCtorEq] at h
    exact n1 (h2 h)
  · simp at h
  · simp at h
  · simpa using h
  · simp only [true_or, or_true, true_and, or_false, false_or, false_and, reduceCtorEq] at h
    rcases h with h | ⟨ha, hb⟩
    · exact Or.inl (n1 (h2 h))
    · exact Or.inr ⟨hb, n2 ha⟩

/-- The statement holds for runs the epoch guard does not intercept (missing: those
it does, where it sets a clock to the system's time whatever the policy). -/
theorem C35_partial (c : Cfg) (w : World) (past : List (World × In)) (i : In) (rc : Int) (w' : World)
    (calls : List (Who × KCall)) (who : Who) (x : Rat)
    (hr : Reach c w past) (h : sync w i = some (rc, w', calls)) (hx : (who, KCall.offset x) ∈ calls)
    (hi : ∀ d m s, i.cmp = .ok (d, m, s) → ¬ Intercepted c m s) :
    who = .slave ∧ ∃ d m s, i.cmp = .ok (d, m, s) ∧ x = -d ∧ (d ≤ -c.threshold ∨ c.threshold ≤ d) ∧
      Permitted c past w.master.beenLocked d := by
  simp only [sync] at h
  split at h
  · simp at h
  · rename_i rc1 w1 calls1 hd
    simp only [Option.some.injEq, Prod.mk.injEq] at h
    obtain ⟨-, -, rfl⟩ := h
    obtain ⟨-, c2, c3⟩ := reach_cfg hr
    cases hc : i.cmp with
    | error e =>
      simp only [doSync, hc, Option.some.injEq, Prod.mk.injEq] at hd
      obtain ⟨-, -, rfl⟩ := hd
      simp at hx
    | ok r =>
      obtain ⟨d, m, s⟩ := r
      have hn := hi d m s hc
      rw [← stopped_iff c _ c2] at hn
      simp only [Stopped, not_or] at hn
      simp only [doSync, hc] at hd
      by_cases hm : nearEpoch m = true
      · have hg : w.servo.guard = .alarmOnly := by
          by_cases hg : w.servo.guard = .alarmOnly
          · exact hg
          · exact absurd ⟨hm, hg⟩ hn.1
        simp only [if_pos hm, hg] at hd
        obtain ⟨a1, a2, a3, a4⟩ := did_offset (guardSlave_did hd) (by simp [hg]) hx
        refine ⟨a1, d, m, s, rfl, a2, by rw [← c3]; exact a3, ?_⟩
        exact mayStep_permitted hr a4 rfl (by simp [noteSlave]) rfl rfl
      · simp only [if_neg hm] at hd
        obtain ⟨a1, a2, a3, a4⟩ := did_offset (guardSlave_did hd) hn.2 hx
        refine ⟨a1, d, m, s, rfl, a2, by rw [← c3]; exact a3, ?_⟩
        refine mayStep_permitted hr a4 rfl ?_ rfl rfl
        simp only [noteSlave]
        cases nearEpoch s <;> simp

/-- With "no-adjust" every clock is read-only: nothing is ever asked of the kernel. -/
theorem C35_read_only (w : World) (i : In) (rc : Int) (w' : World) (calls : List (Who × KCall))
    (hm : w.master.readOnly = true) (hs : w.slave.readOnly = true) (h : sync w i = some (rc, w', calls)) : calls = [] := by
  have ht : ∀ (c : Clock) (d : Rat) (k : Int), c.readOnly = true → (c.adjustTime d k).2 = [] := by
    intro c d k h; simp only [Clock.adjustTime, h]; split <;> simp
  have hf : ∀ (c : Clock) (d : Rat) (k : Int), c.readOnly = true → (c.adjustFreq d k).2 = [] := by
    intro c d k h; simp only [Clock.adjustFreq, h]; split <;> simp
  have hset : ∀ (c : Clock) (d : Except Int Rat) (k : Int), c.readOnly = true → (c.setTime d k).2 = [] := by
    intro c d k h; simp only [Clock.setTime]
    split
    · rfl
    · split
      · rfl
      · exact ht _ _ _ h
  have hdid : ∀ (w0 : World) (d s : Rat) (rc : Int) (w1 : World) (calls : List (Who × KCall)), w0.slave.readOnly = true →
      Did w0 d s i rc w1 calls → calls = [] := by
    intro w0 d s rc w1 calls h0 hd
    cases hd with
    | correct h1 h2 => rw [hset _ _ _ h0]; rfl
    | @step w2 rc calls h1 h3 h4 h5 =>
      have e : calls = (stepClock (noteSlave w0 (nearEpoch s)) d i.kStep i.kFreq).2.2 := by rw [h5]
      subst e
      simp only [stepClock]
      rw [ht _ _ _ (by exact h0), hf _ _ _ (by exact h0)]; rfl
    | slew h1 h3 h4 =>
      obtain ⟨-, -, -, -, -, -, -, e⟩ := slew_spec h4
      rw [e, hf _ _ _ (by exact h0)]; rfl
  simp only [sync] at h
  split at h
  · simp at h
  · rename_i rc1 w1 calls1 hd
    simp only [Option.some.injEq, Prod.mk.injEq] at h
    obtain ⟨-, -, rfl⟩ := h
    cases hc : i.cmp with
    | error e =>
      simp only [doSync, hc, Option.some.injEq, Prod.mk.injEq] at hd
      obtain ⟨-, -, rfl⟩ := hd
      rfl
    | ok r =>
      obtain ⟨d, m, s⟩ := r
      simp only [doSync, hc] at hd
      by_cases hm' : nearEpoch m = true
      · simp only [if_pos hm'] at hd
        cases hg : w.servo.guard with
        | alarmOnly => simp only [hg] at hd; exact hdid _ _ _ _ _ _ (by exact hs) (guardSlave_did hd)
        | preventSync => simp only [hg, Option.some.injEq, Prod.mk.injEq] at hd; exact hd.2.2.symm
        | correctClock =>
          simp only [hg, Option.some.injEq, Prod.mk.injEq] at hd
          rw [← hd.2.2, hset _ _ _ hm]; rfl
      · simp only [if_neg hm'] at hd
        exact hdid _ _ _ _ _ _ (by exact hs) (guardSlave_did hd)

/-- The step is taken whenever the policy permits it, neither clock's time is near
the epoch and the difference reaches the threshold: the slave, if it can be
adjusted, is shifted by the opposite of the difference. -/
theorem C35_steps (c : Cfg) (w : World) (past : List (World × In)) (i : In) (d m s : Rat)
    (hr : Reach c w past) (hc : i.cmp = .ok (d, m, s)) (hm : ¬ NearEpoch m) (hs : ¬ NearEpoch s)
    (hd : d ≤ -c.threshold ∨ c.threshold ≤ d) (hp : Permitted c past w.master.beenLocked d) :
    ∃ rc w' calls, sync w i = some (rc, w', calls) ∧
      (w.slave.readOnly = false → w.slave.blocked = 0 → w.slave.sys.isSome ∨ w.slave.hasPhc = true →
        (Who.slave, KCall.offset (-d)) ∈ calls) := by
  obtain ⟨f1, f2⟩ := reach_flags hr
  obtain ⟨c1, c2, c3⟩ := reach_cfg hr
  rw [← near_iff] at hm hs
  have hs' : nearEpoch s = false := by simpa using hs
  have hmay : ∀ w1 : World, w1.servo.ctrl = w.servo.ctrl → w1.servo.active = w.servo.active →
      w1.servo.steppedLocked = w.servo.steppedLocked → w1.master = w.master → mayStep w1 d = true := by
    intro w1 h1 h2 h3 h4
    simp only [mayStep, decide_eq_true_eq]
    rw [h1, h2, h3, h4, c1]
    unfold Permitted at hp
    have n1 : ¬ Compared past → w.servo.active = false := by
      intro h; cases ha : w.servo.active
      · rfl
      · exact absurd (f1.1 ha) h
    have n2 : ¬ FollowedLocked c past → w.servo.steppedLocked = false := by
      intro h; cases ha : w.servo.steppedLocked
      · rfl
      · exact absurd (f2.1 ha) h
    cases hcc : c.ctrl <;> simp only [hcc] at hp ⊢
    · simp
    · simp [n1 hp]
    · simpa using hp
    · rcases hp with h | ⟨h, h'⟩
      · simp [n1 h]
      · simp [n2 h', h]
  have hds : doSync w i = guardSlave { w with servo := { w.servo with alarms := { w.servo.alarms with epoch := false } } } d s i := by
    simp only [doSync, hc, if_neg hm]
  simp only [sync, hds, guardSlave, hs']
  rw [if_neg (by simp)]
  rw [if_pos ⟨hmay _ rfl rfl rfl rfl, by rw [← c3] at hd; exact hd⟩]
  refine ⟨_, _, _, rfl, ?_⟩
  intro hro hb hdev
  simp only [stepClock, List.mem_map, List.mem_append, Prod.mk.injEq, true_and, exists_eq_right]
  left
  have hdev' : ¬ (w.slave.sys = none ∧ w.slave.hasPhc = false) := by
    rintro ⟨h1, h2⟩; rcases hdev with h | h <;> simp_all
  simp only [Clock.adjustTime, noteSlave, if_neg hdev', hro, hb]
  simp

/-! ### Witnesses -/

/-- A network clock with no restrictions. -/
def nic : Clock := ⟨none, true, false, 0, 0, 1000000, false⟩

/-- A configuration with the default guard and the policy never to step. -/
def cfgNoStep : Cfg := ⟨.noStep, .correctClock, 1000, 1, 1/5, 1/100, 1, 60, 1000⟩

/-- The world in which a servo starts. -/
def begin (c : Cfg) (m sl : Clock) : Option World :=
  match create c (List.replicate 128 0) with
  | none => none
  | some s => (setClocks s m sl 0).map (·.1)

theorem reach_begin {c : Cfg} {m sl : Clock} {w : World} (hk : ClockOk sl) (h : begin c m sl = some w) : Reach c w [] := by
  simp only [begin] at h
  cases hc : create c (List.replicate 128 0) with
  | none => rw [hc] at h; simp at h
  | some s =>
    rw [hc] at h; simp only at h
    cases hs : setClocks s m sl 0 with
    | none => simp [hs] at h
    | some r => simp only [hs, Option.map_some, Option.some.injEq] at h; subst h; exact .start (by simp) hc hk hs

/-- Runs one after the other. -/
def runs : World → List In → Option World
  | w, [] => some w
  | w, i :: is =>
    match sync w i with
    | none => none
    | some (_, w', _) => runs w' is

theorem reach_runs {c : Cfg} {is : List In} : ∀ {w w' : World} {past : List (World × In)}, Reach c w past → runs w is = some w' →
    ∃ past', Reach c w' past' := by
  induction is with
  | nil => intro w w' past h hr; simp only [runs, Option.some.injEq] at hr; subst hr; exact ⟨_, h⟩
  | cons i is ih =>
    intro w w' past h hr
    simp only [runs] at hr
    cases hs : sync w i with
    | none => simp [hs] at hr
    | some r => obtain ⟨rc, w1, calls⟩ := r; simp only [hs] at hr; exact ih (.sync h hs) hr

theorem nic_ok : ClockOk nic := by unfold ClockOk nic; constructor <;> norm_num

/-- The slave's clock was reset to zero: with the policy never to step, and the
default guard, it is stepped to the system's time. -/
theorem C35_violated : ¬ C35_statement := by
  intro h
  have key : ∀ w, begin cfgNoStep nic nic = some w →
      ∀ r, sync w ⟨.ok (-1700000000000000000, 1700000000000000000, 0), .ok 1700000000000000000, 0, 0, 0, ⟨1, 0, 0⟩, 0⟩ = some r →
      (Who.slave, KCall.offset 1700000000000000000) ∈ r.2.2 → False := by
    intro w hb r hr hx
    obtain ⟨-, d, m, s, h1, h2, h3, h4⟩ := h cfgNoStep w [] _ r.1 r.2.1 r.2.2 _ _ (reach_begin nic_ok hb) hr hx
    exact h4
  have e : ((begin cfgNoStep nic nic).bind fun w =>
      (sync w ⟨.ok (-1700000000000000000, 1700000000000000000, 0), .ok 1700000000000000000, 0, 0, 0, ⟨1, 0, 0⟩, 0⟩).map
        fun r => decide ((Who.slave, KCall.offset 1700000000000000000) ∈ r.2.2)) = some true := by decide +kernel
  simp only [Option.bind_eq_some_iff, Option.map_eq_some_iff, decide_eq_true_eq] at e
  obtain ⟨w, hb, r, hr, hx⟩ := e
  exact key w hb r hr hx

example : Permitted { cfgNoStep with ctrl := .stepForward } [] false (-5) := by
  show (-5 : Rat) < 0; norm_num
example : ∃ w, Reach cfgNoStep w [] := by
  have e : (begin cfgNoStep nic nic).isSome := by decide +kernel
  obtain ⟨w, hw⟩ := Option.isSome_iff_exists.1 e
  exact ⟨w, reach_begin nic_ok hw⟩

/-! ## C36: limits of frequency adjustments -/

/-- What the kernel is asked to do stays within the limits of the clock, up to the
rounding of the kernel's units: a network clock is adjusted by at most its limit;
for the system clock tick length and frequency are each within what the kernel
allows, and together within the limit. -/
def WithinLimits (c : Clock) : KCall → Prop
  | .offset _ => True
  | .rate none freq => c.sys = none ∧ ∃ f : Rat, -c.maxFreq ≤ f ∧ f ≤ c.maxFreq ∧
      65536 / 1000 * f - 1 / 2 ≤ freq ∧ freq ≤ 65536 / 1000 * f + 1 / 2
  | .rate (some tick) freq => ∃ s, c.sys = some s ∧ ∃ t f : Rat, -(100000 / s.hz) ≤ t ∧ t ≤ 100000 / s.hz ∧
      -s.maxFreq ≤ f ∧ f ≤ s.maxFreq ∧ 1000000 / s.hz + t - 1 / 2 ≤ tick ∧ tick ≤ 1000000 / s.hz + t + 1 / 2 ∧
      65536 / 1000 * f - 1 / 2 ≤ freq ∧ freq ≤ 65536 / 1000 * f + 1 / 2

/-- A clock as created: the kernel's parameters make sense and the limit of the
system clock is that of its parts. -/
def Created (c : Clock) : Prop := 0 ≤ c.maxFreq ∧ ∀ s, c.sys = some s → s.Ok ∧ c.maxFreq = s.maxTick * s.tickRes + s.maxFreq

/-- Whatever frequency is asked for, by servo, sync module or test, the kernel is
asked for one within limits. -/
theorem C36_clock_limits (c : Clock) (hc : Created c) (f : Rat) (k : Int) (q : KCall) (hq : q ∈ (c.adjustFreq f k).2) :
    WithinLimits c q := by
  simp only [Clock.adjustFreq] at hq
  split at hq
  · simp at hq
  split at hq
  · simp at hq
  split at hq
  · simp at hq
  cases hs : c.sys with
  | none =>
    simp only [hs, List.mem_singleton] at hq
    subst hq
    obtain ⟨b1, b2⟩ := limit_bounds hc.1 f
    obtain ⟨r1, r2⟩ := roundl_bounds (limit c.maxFreq f * (65536 / 1000))
    exact ⟨hs, _, b1, b2, by linarith, by linarith⟩
  | some s =>
    simp only [hs, List.mem_singleton] at hq
    subst hq
    obtain ⟨ok, -⟩ := hc.2 s hs
    obtain ⟨b1, b2, b3, b4⟩ := split_bounds ok (limit c.maxFreq f)
    obtain ⟨r1, r2⟩ := roundl_bounds ((s.split (limit c.maxFreq f)).2 * (65536 / 1000))
    obtain ⟨r3, r4⟩ := roundl_bounds ((s.split (limit c.maxFreq f)).1 + 1000000 / s.hz)
    exact ⟨s, hs, _, _, b1, b2, b3, b4, by linarith, by linarith, by linarith, by linarith⟩

theorem sync_slave {w w' : World} {i : In} {rc : Int} {calls : List (Who × KCall)} (h : sync w i = some (rc, w', calls)) :
    w'.slave = w.slave := by
  simp only [sync] at h
  split at h
  · simp at h
  · rename_i rc1 w1 calls1 hd
    simp only [Option.some.injEq, Prod.mk.injEq] at h
    obtain ⟨-, rfl, -⟩ := h
    cases hc : i.cmp with
    | error e => simp only [doSync, hc, Option.some.injEq, Prod.mk.injEq] at hd; obtain ⟨-, rfl, -⟩ := hd; rfl
    | ok r => obtain ⟨d, m, s⟩ := r; exact (doSync_spec hc hd).1.2.1

theorem run_limits {c : Cfg} {w : World} {past : List (World × In)} {i : In} {rc : Int} {w' : World}
    {calls : List (Who × KCall)} (hr : Reach c w past) (h : sync w i = some (rc, w', calls))
    (hadj : -w.slave.maxFreq ≤ w.servo.freqAdj ∧ w.servo.freqAdj ≤ w.slave.maxFreq) :
    (-w.slave.maxFreq ≤ w'.servo.freqAdj ∧ w'.servo.freqAdj ≤ w.slave.maxFreq) ∧
    (Created w.slave → ∀ q, (Who.slave, q) ∈ calls → WithinLimits w.slave q) := by
  obtain ⟨l1, l2, -⟩ := reach_limits hr
  simp only [sync] at h
  split at h
  · simp at h
  · rename_i rc1 w1 calls1 hd
    simp only [Option.some.injEq, Prod.mk.injEq] at h
    obtain ⟨-, rfl, rfl⟩ := h
    obtain ⟨-, -, -, -, -, -, -, t8, -⟩ := track_keeps w1.servo rc1 i.now
    simp only
    rw [t8]
    have hset : ∀ (c : Clock) (d : Except Int Rat) (k : Int) (q : KCall) (a : Clock), q ∈ (c.setTime d k).2 → WithinLimits a q := by
      intro c d k q a hq
      simp only [Clock.setTime] at hq
      split at hq
      · simp at hq
      · split at hq
        · simp at hq
        · rw [adjustTime_calls_offset hq]; trivial
    have hdid : ∀ (w0 : World) (d s : Rat), w0.slave = w.slave → w0.servo.freqMax = w.servo.freqMax →
        w0.servo.freqAdj = w.servo.freqAdj → Did w0 d s i rc1 w1 calls1 →
        (-w.slave.maxFreq ≤ w1.servo.freqAdj ∧ w1.servo.freqAdj ≤ w.slave.maxFreq) ∧
        (Created w.slave → ∀ q, (Who.slave, q) ∈ calls1 → WithinLimits w.slave q) := by
      intro w0 d s e1 e2 e3 hdid
      cases hdid with
      | correct h1 h2 =>
        refine ⟨by rw [← e3] at hadj; exact hadj, ?_⟩
        intro hs q hq
        exact hset _ _ _ _ _ (mem_map_who hq).2
      | @step w2 rc calls h1 h3 h4 h5 =>
        obtain ⟨-, -, -, -, -, b6, -⟩ := stepClock_servo (noteSlave w0 (nearEpoch s)) d i.kStep i.kFreq
        have e : calls = (stepClock (noteSlave w0 (nearEpoch s)) d i.kStep i.kFreq).2.2 := by rw [h5]
        rw [h5] at b6
        constructor
        · rw [(markActive_spec w2).2.2.2.2.2.1, b6]
          show -w.slave.maxFreq ≤ w0.slave.freqCorr ∧ w0.slave.freqCorr ≤ w.slave.maxFreq
          rw [e1]; exact l2.2
        · intro hs q hq
          have hq := (mem_map_who hq).2
          subst e
          simp only [stepClock, List.mem_append] at hq
          rcases hq with hq | hq
          · rw [adjustTime_calls_offset hq]; trivial
          · have : (noteSlave w0 (nearEpoch s)).slave = w.slave := e1
            rw [this] at hq
            exact C36_clock_limits _ hs _ _ _ hq
      | slew h1 h3 h4 =>
        obtain ⟨-, -, -, -, -, b6, -, e⟩ := slew_spec h4
        have hmx : (noteSlave w0 (nearEpoch s)).servo.freqMax = w.slave.maxFreq := by rw [← l1]; exact e2
        rw [hmx] at b6
        refine ⟨b6 l2.1, ?_⟩
        intro hs q hq
        rw [e] at hq
        have hq := (mem_map_who hq).2
        have : (noteSlave w0 (nearEpoch s)).slave = w.slave := e1
        rw [this] at hq
        exact C36_clock_limits _ hs _ _ _ hq
    cases hc : i.cmp with
    | error e =>
      simp only [doSync, hc, Option.some.injEq, Prod.mk.injEq] at hd
      obtain ⟨-, rfl, rfl⟩ := hd
      exact ⟨hadj, by simp⟩
    | ok r =>
      obtain ⟨d, m, s⟩ := r
      simp only [doSync, hc] at hd
      by_cases hm : nearEpoch m = true
      · simp only [if_pos hm] at hd
        cases hg : w.servo.guard with
        | alarmOnly => simp only [hg] at hd; refine hdid _ d s ?_ ?_ ?_ (guardSlave_did hd) <;> rfl
        | preventSync =>
          simp only [hg, Option.some.injEq, Prod.mk.injEq] at hd
          obtain ⟨-, rfl, rfl⟩ := hd
          exact ⟨hadj, by simp⟩
        | correctClock =>
          simp only [hg, Option.some.injEq, Prod.mk.injEq] at hd
          obtain ⟨-, rfl, rfl⟩ := hd
          refine ⟨hadj, ?_⟩
          intro hs q hq
          exact absurd (mem_map_who hq).1 (by simp)
      · simp only [if_neg hm] at hd
        refine hdid _ d s ?_ ?_ ?_ (guardSlave_did hd) <;> rfl

/-- In any history the frequency adjustment that the servo reports, and may save, is
within the limit of the slave clock. -/
theorem C36_reported_limits (c : Cfg) (w : World) (past : List (World × In)) (hr : Reach c w past) :
    -w.slave.maxFreq ≤ w.servo.freqAdj ∧ w.servo.freqAdj ≤ w.slave.maxFreq := by
  induction hr with
  | start _ hc hk hs =>
    obtain ⟨-, b1, -, -, -, -, -, -, -, b2, -⟩ := setClocks_spec hs
    rw [b1, b2]; exact hk.2
  | @sync w past i rc w' calls hr hs ih =>
    have := (run_limits hr hs ih).1
    rw [sync_slave hs]; exact this
  | clocks _ hk hs ih =>
    obtain ⟨-, b1, -, -, -, -, -, -, -, b2, -⟩ := setClocks_spec hs
    rw [b1, b2]; exact hk.2
  | @step w past off k1 k2 hr ih =>
    obtain ⟨-, -, -, -, -, b, -⟩ := stepClock_servo w off k1 k2
    rw [b, (stepClock_same w off k1 k2).2.1]; exact (reach_limits hr).2.1.2
  | pid kp ki kd r _ ih => exact ih
  | save _ ih =>
    simp only [saveState]
    split
    · simp only [Clock.save]; split <;> exact ih
    · exact ih
  | env m sl _ _ e ih => simp only [e]; exact ih

/-- In any history, everything a run asks of the slave clock is within its limits. -/
theorem C36_servo_limits (c : Cfg) (w : World) (past : List (World × In)) (i : In) (rc : Int) (w' : World)
    (calls : List (Who × KCall)) (hr : Reach c w past) (hs : Created w.slave) (h : sync w i = some (rc, w', calls)) :
    ∀ q, (Who.slave, q) ∈ calls → WithinLimits w.slave q :=
  (run_limits hr h (C36_reported_limits c w past hr)).2 hs

/-- A saved frequency correction, loaded or stored, is always within the limit of
the clock. -/
theorem C36_saved_within (c : Clock) (hc : 0 ≤ c.maxFreq) (use : Bool) (file : Option Rat) (k : Int) :
    ClockOk (c.load use file k).1 ∧ ∀ x, ClockOk c → ClockOk (c.save x) := by
  constructor
  · simp only [Clock.load, ClockOk]
    refine ⟨hc, ?_⟩
    generalize (if use = true then _ else _ : Rat × Int) = p
    split <;> rename_i h
    · simp only; constructor <;> linarith
    · simp only [not_or, not_lt, gt_iff_lt] at h
      exact ⟨h.2, h.1⟩
  · intro x hk
    simp only [Clock.save]
    split
    · exact hk
    · rename_i h
      simp only [not_or, not_lt] at h
      exact ⟨hc, h.2, h.1⟩

/-- What is saved is the adjustment of a servo that is synchronised, nothing else. -/
theorem C36_saved_synchronized (w : World) (h : (saveState w).slave ≠ w.slave) :
    w.servo.synchronized = true ∧ (saveState w).slave = { w.slave with freqCorr := w.servo.freqAdj } ∧
    (saveState w).servo = w.servo ∧ (saveState w).master = w.master := by
  unfold saveState at h ⊢
  by_cases hs : w.servo.synchronized = true
  · simp only [if_pos hs] at h ⊢
    refine ⟨hs, ?_, trivial, trivial⟩
    unfold Clock.save at h ⊢
    split
    · rename_i hc; rw [if_pos hc] at h; exact absurd rfl h
    · rfl
  · rw [if_neg hs] at h; exact absurd rfl h

example : ClockOk (nic.load true (some 2000000) 0).1 ∧ (nic.load true (some 2000000) 0).1.freqCorr = 0 := by
  refine ⟨(C36_saved_within nic (by norm_num [nic]) true _ 0).1, by decide +kernel⟩

/-- The usual system clock: 100 ticks per second, 500 ppm. -/
def usual : Sys := ⟨100, 500000⟩

/-- The system clock. -/
def system : Clock := ⟨some usual, false, false, 0, 0, 100500000, false⟩

example : Created system := by
  refine ⟨by simp [system], ?_⟩
  intro s hs
  simp only [system, Option.some.injEq] at hs
  subst hs
  refine ⟨⟨by norm_num [usual], by norm_num [usual]⟩, ?_⟩
  norm_num [system, usual, Sys.maxTick, Sys.tickRes]
example : (system.adjustFreq 700000 0).2 = [.rate (some 10002) 32768000] := by decide +kernel
example : (nic.adjustFreq 2000000 0).2 = [.rate none 65536000] := by decide +kernel

/-! ## C37: sustained failure -/

/-- Whether a run failed. -/
def Failed (p : World × In) : Prop := ∃ rc w' calls, sync p.1 p.2 = some (rc, w', calls) ∧ rc ≠ 0

/-- The runs so far end in failures only, and the last came at least 30 seconds
after the first of them. -/
def FailedLong (past : List (World × In)) : Prop :=
  ∃ (a b : List (World × In)) (x y : World × In), past = a ++ b ∧ b.head? = some x ∧ b.getLast? = some y ∧
    (∀ p ∈ b, Failed p) ∧ y.2.now - x.2.now ≥ 30

/-- The times at which runs end never go back. -/
def Ordered (past : List (World × In)) : Prop := past.Pairwise (fun p q => p.2.now ≤ q.2.now)

/-- What failure tracking knows of the runs so far. -/
def Tracked (s : Servo) (past : List (World × In)) : Prop :=
  match s.track with
  | .ok => s.alarms.sustained = false ∧ (∀ y, past.getLast? = some y → ¬ Failed y)
  | st => s.alarms.sustained = decide (st = .alarmed) ∧
      ∃ (a b : List (World × In)) (x y : World × In), past = a ++ b ∧ b.head? = some x ∧ b.getLast? = some y ∧ (∀ p ∈ b, Failed p) ∧
        (∀ z, a.getLast? = some z → ¬ Failed z) ∧ s.failBegin = x.2.now ∧ (st = .alarmed ↔ y.2.now - x.2.now ≥ 30)

theorem tracked_of_eq {s s' : Servo} {past : List (World × In)} (h : Tracked s past) (h1 : s'.track = s.track)
    (h2 : s'.failBegin = s.failBegin) (h3 : s'.alarms.sustained = s.alarms.sustained) : Tracked s' past := by
  unfold Tracked at h ⊢
  rw [h1, h2, h3]; exact h

theorem doSync_same {w w' : World} {i : In} {rc : Int} {calls : List (Who × KCall)} (h : doSync w i = some (rc, w', calls)) :
    w'.servo.track = w.servo.track ∧ w'.servo.failBegin = w.servo.failBegin ∧ w'.servo.alarms.sustained = w.servo.alarms.sustained := by
  cases hc : i.cmp with
  | error e => simp only [doSync, hc, Option.some.injEq, Prod.mk.injEq] at h; obtain ⟨-, rfl, -⟩ := h; exact ⟨rfl, rfl, rfl⟩
  | ok r => obtain ⟨d, m, s⟩ := r; exact (doSync_spec hc h).1.2.2.2.2.2.2

theorem head_append {α : Type} {l m : List α} {x : α} (h : l.head? = some x) : (l ++ m).head? = some x := by
  cases l with
  | nil => simp at h
  | cons a l => simpa using h

theorem tracked_next {w w1 : World} {past : List (World × In)} {i : In} {rc : Int} {calls : List (Who × KCall)} (h : Tracked w.servo past)
    (hd : doSync w i = some (rc, w1, calls)) (ho : Ordered (past ++ [(w, i)])) :
    Tracked (track w1.servo rc i.now) (past ++ [(w, i)]) := by
  obtain ⟨e1, e2, e3⟩ := doSync_same hd
  have hsync : sync w i = some (rc, { w1 with servo := track w1.servo rc i.now }, calls) := by simp only [sync, hd]
  have hF : Failed (w, i) ↔ rc ≠ 0 := by
    constructor
    · rintro ⟨rc', w', c', h1, h2⟩
      rw [hsync] at h1
      simp only [Option.some.injEq, Prod.mk.injEq] at h1
      rw [h1.1]; exact h2
    · intro h0; exact ⟨_, _, _, hsync, h0⟩
  have hl : ∀ y, (past ++ [(w, i)]).getLast? = some y → y = (w, i) := by intro y hy; simp at hy; exact hy.symm
  have h := tracked_of_eq h e1 e2 e3
  cases ht : w1.servo.track with
  | ok =>
    simp only [Tracked, ht] at h
    by_cases hr : rc = 0
    · have : track w1.servo rc i.now = w1.servo := by simp only [track, ht, hr]; simp
      rw [this]
      simp only [Tracked, ht]
      exact ⟨h.1, fun y hy => by rw [hl y hy, hF]; simp [hr]⟩
    · have : track w1.servo rc i.now = { w1.servo with track := .failed, failBegin := i.now } := by
        simp only [track, ht, if_pos hr]
      rw [this]
      simp only [Tracked]
      refine ⟨by simp [h.1], past, [(w, i)], (w, i), (w, i), rfl, rfl, rfl, ?_, h.2, rfl, ?_⟩
      · intro p hp; rw [List.mem_singleton.1 hp]; exact hF.2 hr
      · constructor
        · intro hx; exact absurd hx (by simp)
        · intro hx; norm_num at hx
  | failed =>
    simp only [Tracked, ht] at h
    obtain ⟨h0, a, b, x, y, h1, h2, h3, h4, h5, h6, h7⟩ := h
    by_cases hr : rc = 0
    · have : track w1.servo rc i.now = { w1.servo with track := .ok } := by simp only [track, ht, hr]; simp
      rw [this]
      simp only [Tracked]
      exact ⟨by simp [h0], fun y hy => by rw [hl y hy, hF]; simp [hr]⟩
    · have hh : (b ++ [(w, i)]).head? = some x := head_append h2
      have hall : ∀ p ∈ b ++ [(w, i)], Failed p := by
        intro p hp
        rcases List.mem_append.1 hp with hp | hp
        · exact h4 p hp
        · rw [List.mem_singleton.1 hp]; exact hF.2 hr
      by_cases hn : i.now - w1.servo.failBegin ≥ 30
      · have : track w1.servo rc i.now =
            { w1.servo with track := .alarmed, alarms := { w1.servo.alarms with sustained := true }, synchronized := false } := by
          simp only [track, ht, if_neg hr, if_pos hn]
        rw [this]
        simp only [Tracked]
        refine ⟨by simp, a, b ++ [(w, i)], x, (w, i), by rw [h1, List.append_assoc], hh, by simp, hall, h5, h6, ?_⟩
        rw [h6] at hn
        simp only [true_iff]; exact hn
      · have : track w1.servo rc i.now = w1.servo := by simp only [track, ht, if_neg hr, if_neg hn]
        rw [this]
        simp only [Tracked, ht]
        refine ⟨h0, a, b ++ [(w, i)], x, (w, i), by rw [h1, List.append_assoc], hh, by simp, hall, h5, h6, ?_⟩
        rw [h6] at hn
        constructor
        · intro hx; exact absurd hx (by simp)
        · intro hx; exact absurd hx hn
  | alarmed =>
    simp only [Tracked, ht] at h
    obtain ⟨h0, a, b, x, y, h1, h2, h3, h4, h5, h6, h7⟩ := h
    by_cases hr : rc = 0
    · have : track w1.servo rc i.now = { w1.servo with track := .ok, alarms := { w1.servo.alarms with sustained := false } } := by
        simp only [track, ht, hr]; simp
      rw [this]
      simp only [Tracked]
      exact ⟨trivial, fun y hy => by rw [hl y hy, hF]; simp [hr]⟩
    · have hh : (b ++ [(w, i)]).head? = some x := head_append h2
      have hall : ∀ p ∈ b ++ [(w, i)], Failed p := by
        intro p hp
        rcases List.mem_append.1 hp with hp | hp
        · exact h4 p hp
        · rw [List.mem_singleton.1 hp]; exact hF.2 hr
      have : track w1.servo rc i.now = w1.servo := by simp only [track, ht, if_neg hr]
      rw [this]
      simp only [Tracked, ht]
      refine ⟨h0, a, b ++ [(w, i)], x, (w, i), by rw [h1, List.append_assoc], hh, by simp, hall, h5, h6, ?_⟩
      have hy : y ∈ past := by rw [h1]; exact List.mem_append_right _ (List.mem_of_getLast? h3)
      have hle : y.2.now ≤ i.now := (List.pairwise_append.1 ho).2.2 y hy (w, i) (by simp)
      have := h7.1 trivial
      constructor
      · intro _; simp only; linarith
      · intro _; trivial

theorem reach_tracked {c : Cfg} {w : World} {past : List (World × In)} (h : Reach c w past) (ho : Ordered past) :
    Tracked w.servo past := by
  induction h with
  | start _ hc _ hs =>
    obtain ⟨-, -, -, -, -, a1, a2, -⟩ := create_spec hc
    obtain ⟨-, -, -, -, -, -, -, -, -, -, b1, b2, b3, -⟩ := setClocks_spec hs
    simp only [Tracked, b1, a1, b3, a2]
    simp
  | @sync w past i rc w' calls _ hs ih =>
    simp only [sync] at hs
    split at hs
    · simp at hs
    · rename_i rc1 w1 calls1 hd
      simp only [Option.some.injEq, Prod.mk.injEq] at hs
      obtain ⟨rfl, rfl, rfl⟩ := hs
      exact tracked_next (ih (List.pairwise_append.1 ho).1) hd ho
  | clocks _ _ hs ih =>
    obtain ⟨-, -, -, -, -, -, -, -, -, -, b1, b2, b3, -⟩ := setClocks_spec hs
    exact tracked_of_eq (ih ho) b1 b2 b3
  | @step w past off k1 k2 _ ih =>
    obtain ⟨-, -, -, -, -, -, b1, b2, b3⟩ := stepClock_same w off k1 k2
    exact tracked_of_eq (ih ho) b1 b2 b3
  | pid kp ki kd r _ ih => exact tracked_of_eq (ih ho) rfl rfl rfl
  | save _ ih => simp only [saveState]; split <;> exact tracked_of_eq (ih ho) rfl rfl rfl
  | env m sl _ _ _ ih => exact tracked_of_eq (ih ho) rfl rfl rfl

/-- In any history whose clock does not run backwards, the alarm for sustained
failure is set exactly while the runs so far end in failures spanning at least
30 seconds. -/
theorem C37_alarm_exact (c : Cfg) (w : World) (past : List (World × In)) (hr : Reach c w past) (ho : Ordered past) :
    w.servo.alarms.sustained = true ↔ FailedLong past := by
  have h := reach_tracked hr ho
  have key : ∀ (a b : List (World × In)) (x y : World × In), past = a ++ b → b.head? = some x → b.getLast? = some y →
      (∀ z, a.getLast? = some z → ¬ Failed z) → FailedLong past → y.2.now - x.2.now ≥ 30 := by
    rintro a b x y e hx hy hz ⟨a', b', x', y', e', hx', hy', hall, h30⟩
    have hby : past.getLast? = some y := by rw [e, List.getLast?_append, hy]; rfl
    have hby' : past.getLast? = some y' := by rw [e', List.getLast?_append, hy']; rfl
    have : y = y' := by rw [hby] at hby'; exact Option.some.inj hby'
    subst this
    -- the failures of `b'` cannot reach back into `a`
    rcases List.append_eq_append_iff.1 (e.symm.trans e') with ⟨l, h1, h2⟩ | ⟨l, h1, h2⟩
    · -- b = l ++ b'
      have hxx : x.2.now ≤ x'.2.now := by
        cases l with
        | nil => simp only [List.nil_append] at h2; rw [h2, hx'] at hx; rw [Option.some.inj hx]
        | cons l0 ls =>
          rw [h2] at hx
          simp only [List.cons_append, List.head?_cons, Option.some.injEq] at hx
          subst hx
          rw [e, h2] at ho
          have := (List.pairwise_append.1 ho).2.1
          rw [List.cons_append, List.pairwise_cons] at this
          exact this.1 x' (List.mem_append_right _ (List.mem_of_head? hx'))
      linarith
    · cases hl : l.reverse with
      | nil =>
        have : l = [] := by simpa using hl
        subst this
        simp only [List.nil_append] at h2
        rw [h2] at hx'
        rw [hx'] at hx
        rw [← Option.some.inj hx]; exact h30
      | cons z zs =>
        have hz' : a.getLast? = some z := by
          rw [h1, List.getLast?_append]
          have : l.getLast? = some z := by rw [← List.head?_reverse, hl]; rfl
          rw [this]; rfl
        have hmem : z ∈ b' := by
          rw [h2]; apply List.mem_append_left
          have : z ∈ l.reverse := by rw [hl]; simp
          exact List.mem_reverse.1 this
        exact absurd (hall z hmem) (hz z hz')
  cases ht : w.servo.track with
  | ok =>
    simp only [Tracked, ht] at h
    rw [h.1]
    constructor
    · intro hx; simp at hx
    · rintro ⟨a, b, x, y, e, hx, hy, hall, h30⟩
      have : past.getLast? = some y := by rw [e, List.getLast?_append, hy]; rfl
      exact absurd (hall y (List.mem_of_getLast? hy)) (h.2 y this)
  | failed =>
    simp only [Tracked, ht] at h
    obtain ⟨h0, a, b, x, y, h1, h2, h3, h4, h5, h6, h7⟩ := h
    rw [h0]
    constructor
    · intro hx; simp at hx
    · intro hF
      exact absurd (h7.2 (key a b x y h1 h2 h3 h5 hF)) (by simp)
  | alarmed =>
    simp only [Tracked, ht] at h
    obtain ⟨h0, a, b, x, y, h1, h2, h3, h4, h5, h6, h7⟩ := h
    rw [h0]
    constructor
    · intro _; exact ⟨a, b, x, y, h1, h2, h3, h4, h7.1 trivial⟩
    · intro _; rfl

/-- Which runs fail: those that could not compare the clocks, those that the epoch
guard stopped, and those for which the frequency could not be set. -/
theorem C37_what_fails (c : Cfg) (w : World) (past : List (World × In)) (i : In) (rc : Int) (w' : World)
    (calls : List (Who × KCall)) (hr : Reach c w past) (h : sync w i = some (rc, w', calls)) :
    (∀ e, i.cmp = .error e → rc = e) ∧
    (∀ d m s, i.cmp = .ok (d, m, s) → Intercepted c m s → rc = 11) ∧
    (∀ d m s, i.cmp = .ok (d, m, s) → ¬ Intercepted c m s →
      (w.slave.sys = none ∧ w.slave.hasPhc = false → rc = 19) ∧
      (w.slave.sys.isSome ∨ w.slave.hasPhc = true →
        rc = if w.slave.readOnly = true ∨ w.slave.blocked > 0 then 0 else i.kFreq)) := by
  have hadj : ∀ f, (w.slave.adjustFreq f i.kFreq).1 =
      if w.slave.sys = none ∧ w.slave.hasPhc = false then 19
      else if w.slave.readOnly = true ∨ w.slave.blocked > 0 then 0 else i.kFreq := by
    intro f
    simp only [Clock.adjustFreq]
    by_cases h1 : w.slave.sys = none ∧ w.slave.hasPhc = false
    · rw [if_pos h1, if_pos h1]
    · rw [if_neg h1, if_neg h1]
      by_cases h2 : w.slave.readOnly = true
      · rw [if_pos h2, if_pos (Or.inl h2)]
      · rw [if_neg h2]
        by_cases h3 : w.slave.blocked > 0
        · rw [if_pos h3, if_pos (Or.inr h3)]
        · rw [if_neg h3, if_neg (by rintro (h | h) <;> contradiction)]
          cases w.slave.sys <;> rfl
  have hgoal : rc = (if w.slave.sys = none ∧ w.slave.hasPhc = false then (19 : Int)
      else if w.slave.readOnly = true ∨ w.slave.blocked > 0 then 0 else i.kFreq) →
      (w.slave.sys = none ∧ w.slave.hasPhc = false → rc = 19) ∧
      (w.slave.sys.isSome ∨ w.slave.hasPhc = true →
        rc = if w.slave.readOnly = true ∨ w.slave.blocked > 0 then 0 else i.kFreq) := by
    intro e
    refine ⟨fun hx => by rw [e, if_pos hx], fun hx => ?_⟩
    rw [e, if_neg]
    rintro ⟨h1, h2⟩
    rcases hx with hx | hx
    · simp [h1] at hx
    · simp [h2] at hx
  have hdid : ∀ (w0 : World) (d s : Rat) (w1 : World) (calls1 : List (Who × KCall)), w0.slave = w.slave →
      w0.servo.guard = w.servo.guard → Did w0 d s i rc w1 calls1 →
      (nearEpoch s = true ∧ w.servo.guard = .correctClock → rc = 11) ∧
      (¬ (nearEpoch s = true ∧ w.servo.guard = .correctClock) →
        rc = (if w.slave.sys = none ∧ w.slave.hasPhc = false then (19 : Int)
          else if w.slave.readOnly = true ∨ w.slave.blocked > 0 then 0 else i.kFreq)) := by
    intro w0 d s w1 calls1 e1 e2 hd
    cases hd with
    | correct h1 h2 => exact ⟨fun _ => rfl, fun hn => absurd ⟨h1, by rw [← e2]; exact h2⟩ hn⟩
    | @step w2 rc calls h1 h3 h4 h5 =>
      refine ⟨fun hx => absurd (by rw [e2]; exact hx) h1, fun _ => ?_⟩
      have e : rc = (stepClock (noteSlave w0 (nearEpoch s)) d i.kStep i.kFreq).1 := by rw [h5]
      rw [e, ← hadj w.slave.freqCorr, ← e1]
      rfl
    | slew h1 h3 h4 =>
      refine ⟨fun hx => absurd (by rw [e2]; exact hx) h1, fun _ => ?_⟩
      obtain ⟨-, -, -, -, -, -, e, -⟩ := slew_spec h4
      rw [e]
      show (w0.slave.adjustFreq _ _).1 = _
      rw [e1, hadj]
  simp only [sync] at h
  split at h
  · simp at h
  · rename_i rc1 w1 calls1 hd
    simp only [Option.some.injEq, Prod.mk.injEq] at h
    obtain ⟨rfl, -, -⟩ := h
    cases hc : i.cmp with
    | error e =>
      simp only [doSync, hc, Option.some.injEq, Prod.mk.injEq] at hd
      refine ⟨fun e' he => ?_, fun d m s he => by simp at he, fun d m s he => by simp at he⟩
      simp only [Except.error.injEq] at he
      rw [← he]; exact hd.1.symm
    | ok r =>
      obtain ⟨d, m, s⟩ := r
      refine ⟨fun e' he => by simp at he, ?_, ?_⟩
      all_goals
        intro d' m' s' he hi
        simp only [Except.ok.injEq, Prod.mk.injEq] at he
        obtain ⟨rfl, rfl, rfl⟩ := he
        simp only [Intercepted, ← near_iff, ← (reach_cfg hr).2.1] at hi
        simp only [doSync, hc] at hd
        by_cases hm : nearEpoch m = true
        · simp only [if_pos hm] at hd
          cases hg : w.servo.guard with
          | alarmOnly =>
            simp only [hg] at hd hi
            have hgd := guardSlave_did hd
            have := hdid _ d s w1 calls1 (by rfl) (by simp [hg]) hgd
            first
              | (exfalso; simp at hi; done)
              | exact hgoal (this.2 (by simp [hg]))
          | preventSync =>
            simp only [hg, Option.some.injEq, Prod.mk.injEq] at hd
            first
              | exact hd.1.symm
              | exact absurd (Or.inl ⟨hm, by simp [hg]⟩) hi
          | correctClock =>
            simp only [hg, Option.some.injEq, Prod.mk.injEq] at hd
            first
              | exact hd.1.symm
              | exact absurd (Or.inl ⟨hm, by simp [hg]⟩) hi
        · simp only [if_neg hm] at hd
          have hgd := guardSlave_did hd
          have := hdid _ d s w1 calls1 (by rfl) (by rfl) hgd
          first
            | exact this.1 (by simpa [hm] using hi)
            | exact hgoal (this.2 (by simpa [hm] using hi))

/-- C37, the second part in full: while alarmed the slave is not reported as
synchronised. -/
def C37_statement : Prop :=
  ∀ (c : Cfg) (w : World) (past : List (World × In)), Reach c w past → Ordered past → w.servo.alarms.sustained = true →
    w.servo.synchronized = false

theorem guard_ctrl {w0 w1 : World} {d s : Rat} {i : In} {rc : Int} {calls : List (Who × KCall)}
    (hd : Did w0 d s i rc w1 calls) (hrc : rc ≠ 0) :
    w1.servo.synchronized = w0.servo.synchronized ∨ w1.servo.alarms.ctrl = true := by
  cases hd with
  | correct h1 h2 => left; rfl
  | @step w2 rc calls h1 h3 h4 h5 =>
    left
    obtain ⟨-, -, b3, -⟩ := stepClock_servo (noteSlave w0 (nearEpoch s)) d i.kStep i.kFreq
    rw [h5] at b3
    rw [(markActive_spec w2).2.2.2.2.2.2, b3]; rfl
  | slew h1 h3 h4 =>
    right
    unfold slew at h4
    split at h4
    · simp at h4
    · split at h4
      · simp at h4
      · simp only [Option.some.injEq, Prod.mk.injEq] at h4
        obtain ⟨rfl, rfl, rfl⟩ := h4
        simp only [markActive]
        exact decide_eq_true hrc

/-- The run that raises the alarm leaves the slave unsynchronised; a later run can
report it synchronised while the alarm is set only if it compared the clocks and
the kernel refused the new frequency, which raises the clock control alarm. Missing:
that this case does not occur. -/
theorem C37_partial (w w' : World) (i : In) (rc : Int) (calls : List (Who × KCall)) (h : sync w i = some (rc, w', calls))
    (ha : w'.servo.alarms.sustained = true) (htr : w.servo.track = .alarmed ↔ w.servo.alarms.sustained = true) :
    (w.servo.alarms.sustained = false → w'.servo.synchronized = false) ∧
    (w.servo.alarms.sustained = true → w.servo.synchronized = false → w'.servo.synchronized = true →
      w'.servo.alarms.ctrl = true ∧ rc ≠ 0 ∧ ∃ r, i.cmp = .ok r) := by
  simp only [sync] at h
  split at h
  · simp at h
  · rename_i rc1 w1 calls1 hd
    simp only [Option.some.injEq, Prod.mk.injEq] at h
    obtain ⟨rfl, rfl, rfl⟩ := h
    obtain ⟨e1, e2, e3⟩ := doSync_same hd
    simp only at ha ⊢
    constructor
    · intro hs
      have hna : w1.servo.track ≠ .alarmed := by rw [e1]; intro hx; rw [htr.1 hx] at hs; simp at hs
      rw [← e3] at hs
      cases ht : w1.servo.track with
      | ok =>
        simp only [track, ht] at ha
        split at ha <;> rw [hs] at ha <;> simp at ha
      | failed =>
        simp only [track, ht] at ha ⊢
        by_cases hr : rc1 = 0
        · rw [if_pos hr] at ha; simp only at ha; rw [hs] at ha; simp at ha
        · rw [if_neg hr] at ha ⊢
          by_cases hn : i.now - w1.servo.failBegin ≥ 30
          · rw [if_pos hn]
          · rw [if_neg hn] at ha; rw [hs] at ha; simp at ha
      | alarmed => exact absurd ht hna
    · intro hs h0 h1
      have ht : w1.servo.track = .alarmed := by rw [e1]; exact htr.2 hs
      have hr : rc1 ≠ 0 := by
        intro hr
        simp only [track, ht, hr] at ha
        simp at ha
      have : track w1.servo rc1 i.now = w1.servo := by simp only [track, ht, if_neg hr]
      rw [this] at h1 ⊢
      cases hc : i.cmp with
      | error e =>
        simp only [doSync, hc, Option.some.injEq, Prod.mk.injEq] at hd
        obtain ⟨-, rfl, -⟩ := hd
        rw [h0] at h1; simp at h1
      | ok r =>
        refine ⟨?_, hr, r, rfl⟩
        obtain ⟨d, m, s⟩ := r
        simp only [doSync, hc] at hd
        by_cases hm : nearEpoch m = true
        · simp only [if_pos hm] at hd
          cases hg : w.servo.guard with
          | alarmOnly =>
            simp only [hg] at hd
            rcases guard_ctrl (guardSlave_did hd) hr with h | h
            · rw [h] at h1; simp only at h1; rw [h0] at h1; simp at h1
            · exact h
          | preventSync =>
            simp only [hg, Option.some.injEq, Prod.mk.injEq] at hd
            obtain ⟨-, rfl, -⟩ := hd
            simp only at h1; rw [h0] at h1; simp at h1
          | correctClock =>
            simp only [hg, Option.some.injEq, Prod.mk.injEq] at hd
            obtain ⟨-, rfl, -⟩ := hd
            simp only at h1; rw [h0] at h1; simp at h1
        · simp only [if_neg hm] at hd
          rcases guard_ctrl (guardSlave_did hd) hr with h | h
          · rw [h] at h1; simp only at h1; rw [h0] at h1; simp at h1
          · exact h

/-- The hypothesis of `C37_partial` on the tracking state holds in any history. -/
theorem C37_reachable (c : Cfg) (w : World) (past : List (World × In)) (hr : Reach c w past) (ho : Ordered past) :
    w.servo.track = .alarmed ↔ w.servo.alarms.sustained = true := by
  have h := reach_tracked hr ho
  cases ht : w.servo.track <;> simp only [Tracked, ht] at h <;> rw [h.1] <;> simp

/-- A run in which everything is fine but the kernel refuses the frequency. -/
def refused (t : Nat) : In := ⟨.ok (10, 1700000000 * 10 ^ 9, 1700000000 * 10 ^ 9 + 10), .ok 0, 0, 0, 22, ⟨t, 0, 0⟩, t⟩

theorem reach_runs_ordered {c : Cfg} {is : List In} : ∀ {w w' : World} {past : List (World × In)}, Reach c w past →
    Ordered past → is.Pairwise (fun a b => a.now ≤ b.now) → (∀ p ∈ past, ∀ i ∈ is, p.2.now ≤ i.now) → runs w is = some w' →
    ∃ past', Reach c w' past' ∧ Ordered past' := by
  induction is with
  | nil => intro w w' past h ho _ _ hr; simp only [runs, Option.some.injEq] at hr; subst hr; exact ⟨_, h, ho⟩
  | cons i is ih =>
    intro w w' past h ho hp hb hr
    simp only [runs] at hr
    cases hs : sync w i with
    | none => simp [hs] at hr
    | some r =>
      obtain ⟨rc, w1, calls⟩ := r
      simp only [hs] at hr
      rw [List.pairwise_cons] at hp
      refine ih (.sync h hs) ?_ hp.2 ?_ hr
      · refine List.pairwise_append.2 ⟨ho, by simp, ?_⟩
        intro p hp q hq
        rw [List.mem_singleton.1 hq]
        exact hb p hp i (by simp)
      · intro p hq j hj
        rcases List.mem_append.1 hq with hq | hq
        · exact hb p hq j (by simp [hj])
        · rw [List.mem_singleton.1 hq]; exact hp.1 j hj

/-- The kernel refuses every frequency: the alarm is set after a minute, and the
next run reports the slave as synchronised. -/
theorem C37_violated : ¬ C37_statement := by
  intro h
  have e : ((begin { cfgNoStep with ctrl := .slewAndStep } nic nic).bind fun w => (runs w [refused 1, refused 61, refused 62, refused 130]).map
      fun w' => w'.servo.alarms.sustained && w'.servo.synchronized) = some true := by decide +kernel
  simp only [Option.bind_eq_some_iff, Option.map_eq_some_iff, Bool.and_eq_true] at e
  obtain ⟨w, hb, w', hr, h1, h2⟩ := e
  obtain ⟨past, hp, ho⟩ := reach_runs_ordered (reach_begin nic_ok hb) List.Pairwise.nil
    (by simp only [List.pairwise_cons, List.mem_cons, refused]; refine ⟨?_, ?_, ?_, ?_, ?_⟩ <;> simp <;> norm_num) (by simp) hr
  rw [h _ w' past hp ho h1] at h2
  simp at h2

example : ((begin cfgNoStep nic nic).bind fun w => (runs w [refused 1, refused 20]).map fun w' => w'.servo.alarms.sustained) = some false := by
  decide +kernel
example : ((begin cfgNoStep nic nic).bind fun w => (runs w [refused 1, refused 20, refused 31]).map
    fun w' => (w'.servo.alarms.sustained, w'.servo.synchronized)) = some (true, false) := by
  decide +kernel

/-! ## C38: alarm near the epoch -/

/-- C38, full statement. -/
def C38_statement : Prop :=
  ∀ (c : Cfg) (w : World) (past : List (World × In)) (i : In) (rc : Int) (w' : World) (calls : List (Who × KCall)) (d m s : Rat),
    Reach c w past → i.cmp = .ok (d, m, s) → sync w i = some (rc, w', calls) → NearEpoch m ∨ NearEpoch s →
    w'.servo.alarms.epoch = true

theorem sync_epoch {w w' : World} {i : In} {rc : Int} {calls : List (Who × KCall)} {d m s : Rat}
    (hc : i.cmp = .ok (d, m, s)) (h : sync w i = some (rc, w', calls)) :
    w'.servo.alarms.epoch = if nearEpoch m = true ∧ w.servo.guard ≠ .alarmOnly then true else nearEpoch s := by
  simp only [sync] at h
  split at h
  · simp at h
  · rename_i rc1 w1 calls1 hd
    simp only [Option.some.injEq, Prod.mk.injEq] at h
    obtain ⟨-, rfl, -⟩ := h
    obtain ⟨-, -, -, -, -, -, -, -, t9, -⟩ := track_keeps w1.servo rc1 i.now
    simp only
    rw [t9]
    exact (doSync_spec hc hd).2.2.2.2

/-- Unless configured to alarm only, the alarm is set after a run exactly if one of
the two times found was near the epoch. Configured to alarm only, it is set exactly
if the slave's was (missing: the master's). -/
theorem C38_partial (c : Cfg) (w : World) (past : List (World × In)) (i : In) (rc : Int) (w' : World)
    (calls : List (Who × KCall)) (d m s : Rat) (hr : Reach c w past) (hc : i.cmp = .ok (d, m, s))
    (h : sync w i = some (rc, w', calls)) :
    (c.guard ≠ .alarmOnly → (w'.servo.alarms.epoch = true ↔ NearEpoch m ∨ NearEpoch s)) ∧
    (c.guard = .alarmOnly → (w'.servo.alarms.epoch = true ↔ NearEpoch s)) := by
  rw [sync_epoch hc h, (reach_cfg hr).2.1, ← near_iff, ← near_iff]
  constructor <;> intro hg
  · by_cases hm : nearEpoch m = true <;> simp [hm, hg]
  · simp [hg]

/-- A run that cannot compare the clocks leaves the alarm. -/
theorem C38_kept (w : World) (i : In) (rc : Int) (w' : World) (calls : List (Who × KCall)) (e : Int)
    (hc : i.cmp = .error e) (h : sync w i = some (rc, w', calls)) : w'.servo.alarms.epoch = w.servo.alarms.epoch ∧ calls = [] := by
  simp only [sync, doSync, hc, Option.some.injEq, Prod.mk.injEq] at h
  obtain ⟨-, rfl, rfl⟩ := h
  exact ⟨(track_keeps w.servo e i.now).2.2.2.2.2.2.2.2.1, rfl⟩

/-- Configured to alarm only, a master near the epoch raises no alarm when the
slave is not: the test of the slave clears the alarm. -/
theorem C38_violated : ¬ C38_statement := by
  intro h
  have e : ((begin { cfgNoStep with guard := .alarmOnly } nic nic).bind fun w =>
      (sync w ⟨.ok (1700000000000000000, 0, 1700000000000000000), .ok 0, 0, 0, 0, ⟨1, 0, 0⟩, 0⟩).map
        fun r => r.2.1.servo.alarms.epoch) = some false := by decide +kernel
  simp only [Option.bind_eq_some_iff, Option.map_eq_some_iff] at e
  obtain ⟨w, hb, r, hr, hx⟩ := e
  have := h _ w [] _ r.1 r.2.1 r.2.2 _ _ _ (reach_begin nic_ok hb) rfl hr (Or.inl (by unfold NearEpoch; left; norm_num))
  rw [hx] at this
  simp at this

example : NearEpoch 5 ∧ ¬ NearEpoch (1700000000 * 10 ^ 9) := by unfold NearEpoch; norm_num

/-! ## C62: the frequency applied is the one asked for -/

/-- C62, full statement: within the limits of the system clock, ticks and frequency
together make up the adjustment asked for. -/
def C62_statement : Prop :=
  ∀ (s : Sys) (f : Rat), s.Ok → s.tickRes ≤ 4 * s.maxFreq → -(s.maxTick * s.tickRes + s.maxFreq) ≤ f →
    f ≤ s.maxTick * s.tickRes + s.maxFreq → s.total (s.split f) = f

/-- The adjustment made never exceeds the one asked for and falls short of it by at
most half the effect of a tick; up to the kernel's limit it is exact (missing: the
shortfall beyond that limit). -/
theorem C62_partial (s : Sys) (f : Rat) (hs : s.Ok) (h4 : s.tickRes ≤ 4 * s.maxFreq)
    (h1 : -(s.maxTick * s.tickRes + s.maxFreq) ≤ f) (h2 : f ≤ s.maxTick * s.tickRes + s.maxFreq) :
    (0 ≤ f → f - s.tickRes / 2 ≤ s.total (s.split f) ∧ s.total (s.split f) ≤ f) ∧
    (f ≤ 0 → f ≤ s.total (s.split f) ∧ s.total (s.split f) ≤ f + s.tickRes / 2) ∧
    (-s.maxFreq ≤ f → f ≤ s.maxFreq → s.split f = (0, f)) := by
  refine ⟨fun h => split_total_pos hs h4 f h h2, fun h => ?_, fun a b => ?_⟩
  · obtain ⟨a, b⟩ := split_total_pos hs h4 (-f) (by linarith) (by linarith)
    rw [split_neg hs] at a b
    simp only [Sys.total] at a b ⊢
    constructor <;> linarith
  · unfold Sys.split
    rw [ticks_mid f (by linarith) (by linarith)]
    unfold Sys.clamp
    rw [if_neg (by linarith), if_neg (by linarith)]

/-- 540 ppm asked of the usual system clock: 500 ppm are applied. -/
theorem C62_violated : ¬ C62_statement := by
  intro h
  have := h usual 540000 ⟨by norm_num [usual], by norm_num [usual]⟩ (by norm_num [usual, Sys.tickRes])
    (by norm_num [usual, Sys.tickRes, Sys.maxTick]) (by norm_num [usual, Sys.tickRes, Sys.maxTick])
  revert this
  decide +kernel

/-- Asking for more never gives less. -/
theorem C62_odd (s : Sys) (hs : s.Ok) (f : Rat) : s.total (s.split (-f)) = -s.total (s.split f) := by
  rw [split_neg hs]; simp only [Sys.total]; ring

example : usual.split 740000 = (2, 500000) ∧ usual.split 760000 = (3, 460000) := by decide +kernel

end Verif.Servo
