import Verif.Timer.Support

set_option linter.unusedSimpArgs false
set_option linter.unusedVariables false

/-! # Timers expire when they are due -/

namespace Verif.Timer

/-- After a timer was started for `x` seconds, whatever was done since with it or with others short
of starting it again: it is found to have expired exactly if a multiple of its number of ticks
has passed, before it was stopped, since the last question or the start; it is stopped exactly if
it was; and it is running exactly if it was not stopped and is not due. -/
theorem C78_exact (ts₀ ts : Timers) (pre mid : List Op) (i n : Nat) (x : ℚ) (hi : i < 12)
    (hx : 0 ≤ x) (hn : Ticks x n) (hs : ∀ y, Op.start i y ∉ mid)
    (h : run ts₀ (pre ++ .start i x :: mid) = some ts) :
    ((expired ts i).2 = true ↔ Due n (ticksOf i mid) (ticksOf i (upToLast i mid))) ∧
    (stopped ts i = true ↔ Op.stop i ∈ mid) ∧
    (running ts i = true ↔
      Op.stop i ∉ mid ∧ ¬ Due n (ticksOf i mid) (ticksOf i (upToLast i mid))) := by
  have hp := phase_run hi hx hn h hs
  have hpos := ticks_pos hn
  refine ⟨?_, ?_, ?_⟩
  · rw [← hp.latch]
    unfold expired arraySize
    rw [if_neg (by omega)]
    by_cases hb : (ts i).expire = true
    · rw [if_neg (by simp [hb])]; simp [hb]
    · rw [if_pos (by simp [hb])]; simp [hb]
  · unfold stopped arraySize
    rw [if_neg (by omega), hp.interval]
    by_cases hst : Op.stop i ∈ mid
    · simp [hst]
    · simp [hst]; omega
  · unfold running arraySize
    rw [if_neg (by omega), hp.interval, ← hp.latch]
    by_cases hst : Op.stop i ∈ mid
    · simp [hst]
    · have : n ≠ 0 := by omega
      simp [hst, this]

/-- A timer is never early, and an expiry is never lost: with fewer ticks than its number since
the start it has not expired; with as many since the last question it has. -/
theorem C78_timely (ts₀ ts : Timers) (pre mid : List Op) (i n : Nat) (x : ℚ) (hi : i < 12)
    (hx : 0 ≤ x) (hn : Ticks x n) (hs : ∀ y, Op.start i y ∉ mid)
    (h : run ts₀ (pre ++ .start i x :: mid) = some ts) :
    (mid.count .tick < n → (expired ts i).2 = false) ∧
    (Op.stop i ∉ mid → (mid.drop (upToLast i mid).length).count .tick ≥ n →
      (expired ts i).2 = true) := by
  have he := (C78_exact ts₀ ts pre mid i n x hi hx hn hs h).1
  have hle : ∀ l : List Op, ticksOf i l ≤ l.count .tick := by
    intro l
    induction l with
    | nil => simp [ticksOf]
    | cons o l ih =>
      cases o with
      | tick => simp [ticksOf]; exact ih
      | start j y => simp [ticksOf]; exact ih
      | stop j =>
        by_cases hj : j = i
        · simp [ticksOf, hj]
        · simp [ticksOf, hj]; exact ih
      | expired j => simp [ticksOf]; exact ih
  have heq : ∀ l : List Op, Op.stop i ∉ l → ticksOf i l = l.count .tick := by
    intro l
    induction l with
    | nil => simp [ticksOf]
    | cons o l ih =>
      intro hns
      have ih := ih (fun h => hns (by simp [h]))
      cases o with
      | tick => simp [ticksOf, ih]
      | start j y => simp [ticksOf, ih]
      | stop j =>
        have hj : j ≠ i := by rintro rfl; exact hns (by simp)
        simp [ticksOf, hj, ih]
      | expired j => simp [ticksOf, ih]
  have hpre : ∀ l : List Op, ∃ b, l = upToLast i l ++ b := by
    intro l
    induction l with
    | nil => exact ⟨[], rfl⟩
    | cons o l ih =>
      obtain ⟨b, hb⟩ := ih
      rw [upToLast]
      split
      · exact ⟨b, by rw [List.cons_append, ← hb]⟩
      · exact ⟨o :: l, rfl⟩
  constructor
  · intro hlt
    cases hc : (expired ts i).2 with
    | false => rfl
    | true =>
      obtain ⟨m, h1, h2⟩ := he.1 hc
      have := hle mid
      have hm : 1 ≤ m := by
        rcases Nat.eq_zero_or_pos m with rfl | hm
        · simp at h1
        · exact hm
      have : 1 * n ≤ m * n := Nat.mul_le_mul_right n hm
      omega
  · intro hns hge
    rw [he]
    have hpos := ticks_pos hn
    obtain ⟨b, hb⟩ := hpre mid
    have h1 := heq mid hns
    have h2 := heq (upToLast i mid) (fun h => hns (by rw [hb]; simp [h]))
    have hd : mid.drop (upToLast i mid).length = b := by
      conv_lhs => rw [hb]
      have : (upToLast i (upToLast i mid ++ b)).length = (upToLast i mid).length := by rw [← hb]
      rw [this]; simp
    rw [hd] at hge
    have h3 : mid.count .tick = (upToLast i mid).count .tick + b.count .tick := by
      conv_lhs => rw [hb]
      rw [List.count_append]
    refine ⟨ticksOf i mid / n, ?_, Nat.div_mul_le_self _ _⟩
    have := Nat.div_add_mod (ticksOf i mid) n
    have := Nat.mod_lt (ticksOf i mid) hpos
    rw [Nat.mul_comm]
    omega

/-- The number of ticks of an interval. -/
theorem C78_ticks_exists (x : ℚ) (hx : 0 ≤ x) : ∃ n, Ticks x n := by
  by_cases h : 16 * x < 1
  · exact ⟨1, .inr ⟨h, rfl⟩⟩
  · refine ⟨⌊16 * x⌋.toNat, .inl ?_⟩
    have h1 : (1 : Int) ≤ ⌊16 * x⌋ := by rw [Int.le_floor]; push_cast; linarith
    have h2 : ((⌊16 * x⌋.toNat : ℕ) : ℚ) = (⌊16 * x⌋ : ℚ) := by
      have : ((⌊16 * x⌋.toNat : ℕ) : Int) = ⌊16 * x⌋ := Int.toNat_of_nonneg (by omega)
      exact_mod_cast this
    refine ⟨?_, ?_, by omega⟩
    · rw [h2]; exact Int.floor_le _
    · rw [h2]; exact Int.lt_floor_add_one _

/-- What is expected of a timer that was stopped: it does not expire. -/
def C78_stop_statement : Prop :=
  ∀ (ts : Timers) (pre mid : List Op) (i : Nat), i < 12 → (∀ y, Op.start i y ∉ mid) →
    run init (pre ++ .stop i :: mid) = some ts → (expired ts i).2 = false

/-- A timer that expired before it was stopped is still found to have expired after. -/
theorem C78_stop_violated : ¬ C78_stop_statement := by
  intro h
  have hn : Ticks 1 16 := .inl ⟨by norm_num, by norm_num, by norm_num⟩
  obtain ⟨ts, hr⟩ : ∃ ts, run init ([.start 4 1] ++ List.replicate 16 .tick ++ .stop 4 :: []) = some ts := by
    have : start init 4 1 = some (put init 4 ⟨16, 16, false⟩) := by
      have : toInt (1 * 1000000 / 62500) = some 16 := by unfold toInt; norm_num
      unfold start arraySize
      rw [if_neg (by omega), this]
      rfl
    simp only [List.replicate, List.cons_append, List.nil_append, run, step, this]
    exact ⟨_, rfl⟩
  have h1 := h ts ([.start 4 1] ++ List.replicate 16 .tick) [] 4 (by omega) (by simp) hr
  have h2 := (C78_exact init ts [] (List.replicate 16 .tick ++ [.stop 4]) 4 16 1 (by omega)
    (by norm_num) hn (by simp) (by simpa using hr)).1
  rw [h1] at h2
  simp only [Bool.false_eq_true, false_iff] at h2
  exact h2 ⟨1, by decide, by decide⟩

/-- A timer that was stopped does not expire once it was asked. -/
theorem C78_stop_partial (ts₀ ts : Timers) (pre mid : List Op) (i : Nat) (hi : i < 12)
    (hs : ∀ y, Op.start i y ∉ mid) (hq : Op.expired i ∈ mid)
    (h : run ts₀ (pre ++ .stop i :: mid) = some ts) : (expired ts i).2 = false := by
  have := (stop_run hi h hs).2 hq
  unfold expired arraySize
  rw [if_neg (by omega), if_pos (by simp [this])]

/-- Twenty-one ticks of a timer of ten, asked once after twelve. -/
example : Ticks (5 / 8) 10 ∧
    (∀ y, Op.start 3 y ∉ List.replicate 12 Op.tick ++ [.expired 3] ++ List.replicate 9 .tick) ∧
    ticksOf 3 (List.replicate 12 .tick ++ [.expired 3] ++ List.replicate 9 .tick) = 21 ∧
    ticksOf 3 (upToLast 3 (List.replicate 12 .tick ++ [.expired 3] ++ List.replicate 9 .tick)) = 12 ∧
    Due 10 21 12 ∧ ¬ Due 10 19 12 := by
  refine ⟨.inl ⟨by norm_num, by norm_num, by norm_num⟩, by simp, by decide, by decide,
    ⟨2, by omega, by omega⟩, ?_⟩
  rintro ⟨m, h1, h2⟩; omega

/-- The run of such an example is defined. -/
example : (run init [.start 3 (5 / 8), .tick, .stop 3, .expired 3]).isSome = true := by
  have : toInt (5 / 8 * 1000000 / 62500) = some 10 := by unfold toInt; norm_num
  simp [run, step, start, arraySize, this]

end Verif.Timer
