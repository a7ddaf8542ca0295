import Verif.Timer.Spec
import Mathlib.Data.List.Induction
import Mathlib.Tactic.Linarith
import Mathlib.Tactic.NormNum
import Mathlib.Tactic.Ring

set_option linter.unusedSimpArgs false
set_option linter.unusedVariables false

/-! # Lemmas on timers -/

namespace Verif.Timer

theorem run_append (ts : Timers) (a b : List Op) :
    run ts (a ++ b) = (run ts a).bind fun ts' => run ts' b := by
  induction a generalizing ts with
  | nil => rfl
  | cons o a ih =>
    simp only [List.cons_append, run]
    cases step ts o with
    | none => rfl
    | some ts' => exact ih ts'

theorem run_snoc (ts : Timers) (a : List Op) (o : Op) :
    run ts (a ++ [o]) = (run ts a).bind fun ts' => step ts' o := by
  rw [run_append]
  congr 1
  funext ts'
  simp only [run]
  cases step ts' o <;> rfl

theorem put_same (ts : Timers) (i : Nat) (t : ITimer) : put ts i t i = t := by simp [put]
theorem put_ne (ts : Timers) {i j : Nat} (t : ITimer) (h : j ≠ i) : put ts i t j = ts j := by
  simp [put, h]

theorem ticksOf_snoc (i : Nat) (mid : List Op) (o : Op) :
    ticksOf i (mid ++ [o]) =
      if o = .tick ∧ Op.stop i ∉ mid then ticksOf i mid + 1 else ticksOf i mid := by
  induction mid with
  | nil =>
    cases o <;> simp [ticksOf]
  | cons p mid ih =>
    cases p with
    | tick =>
      simp only [List.cons_append, ticksOf, ih]
      simp
      split <;> rfl
    | start j x => simp [ticksOf, ih]
    | stop j =>
      by_cases h : j = i
      · simp [ticksOf, h]
      · simp [ticksOf, h, ih, Ne.symm h]
    | expired j => simp [ticksOf, ih]

theorem upToLast_none (i : Nat) (mid : List Op) (h : Op.expired i ∉ mid) : upToLast i mid = [] := by
  cases mid with
  | nil => rfl
  | cons o mid => rw [upToLast, if_neg h]

theorem upToLast_snoc (i : Nat) (mid : List Op) (o : Op) :
    upToLast i (mid ++ [o]) = if o = .expired i then mid ++ [o] else upToLast i mid := by
  induction mid with
  | nil => simp [upToLast, eq_comm]
  | cons p mid ih =>
    rw [List.cons_append, upToLast, ih]
    by_cases h : o = .expired i
    · simp [h]
    · simp only [h, if_false]
      rw [upToLast]
      have : Op.expired i ∈ p :: (mid ++ [o]) ↔ Op.expired i ∈ p :: mid := by
        simp [Ne.symm h]
      by_cases h2 : Op.expired i ∈ p :: mid
      · rw [if_pos h2, if_pos (this.2 h2)]
      · rw [if_neg h2, if_neg (fun h' => h2 (this.1 h'))]

theorem ticks_upTo_le (i : Nat) (mid : List Op) : ticksOf i (upToLast i mid) ≤ ticksOf i mid := by
  induction mid using List.reverseRecOn with
  | nil => simp [upToLast, ticksOf]
  | append_singleton mid o ih =>
    rw [upToLast_snoc]
    by_cases h : o = .expired i
    · rw [if_pos h]
    · rw [if_neg h, ticksOf_snoc]
      split <;> omega

/-- Timer `i`, started for `n` ticks, after the operations `mid`. -/
structure Phase (ts : Timers) (i n : Nat) (mid : List Op) : Prop where
  interval : (ts i).interval = if Op.stop i ∈ mid then 0 else (n : Int)
  left : Op.stop i ∉ mid → (ts i).left = n - (ticksOf i mid % n : Nat)
  latch : (ts i).expire = true ↔ Due n (ticksOf i mid) (ticksOf i (upToLast i mid))

/-- The number of ticks the code derives from the interval. -/
theorem start_ticks {ts ts' : Timers} {i n : Nat} {x : ℚ} (hi : i < 12) (hx : 0 ≤ x)
    (hn : Ticks x n) (h : start ts i x = some ts') : ts' = put ts i ⟨n, n, false⟩ := by
  unfold start at h
  rw [if_neg (by unfold arraySize; omega)] at h
  have e : x * 1000000 / 62500 = 16 * x := by ring
  rw [e] at h
  unfold toInt at h
  have hx' : (0 : ℚ) ≤ 16 * x := by linarith
  simp only [if_pos hx'] at h
  split at h
  · simp at h
  · rename_i m hm
    split at hm
    · simp only [Option.some.injEq] at hm h
      have : (if m = 0 then 1 else m) = (n : Int) := by
        rcases hn with ⟨h1, h2, h3⟩ | ⟨h1, h2⟩
        · have : m = n := by
            rw [← hm, Int.floor_eq_iff]
            push_cast
            exact ⟨h1, h2⟩
          rw [this, if_neg (by omega)]
        · have : m = 0 := by
            rw [← hm, Int.floor_eq_iff]
            norm_num
            exact ⟨hx, h1⟩
          rw [this, h2]; rfl
      rw [this] at h
      exact h.symm
    · simp at hm

theorem ticks_pos {x : ℚ} {n : Nat} (h : Ticks x n) : 0 < n := by
  rcases h with ⟨_, _, h⟩ | ⟨_, rfl⟩ <;> omega

theorem step_other {ts ts' : Timers} {o : Op} {i : Nat} (h : step ts o = some ts')
    (h1 : o ≠ .tick) (h2 : ∀ x, o ≠ .start i x) (h3 : o ≠ .stop i) (h4 : o ≠ .expired i) :
    ts' i = ts i := by
  cases o with
  | tick => exact absurd rfl h1
  | start j x =>
    have hj : i ≠ j := by rintro rfl; exact h2 x rfl
    simp only [step, start] at h
    split at h
    · simp at h; rw [h]
    · split at h
      · simp at h
      · simp at h; rw [← h, put_ne _ _ hj]
  | stop j =>
    have hj : i ≠ j := by rintro rfl; exact h3 rfl
    simp only [step, stop, Option.some.injEq] at h
    rw [← h]
    split
    · rfl
    · rw [put_ne _ _ hj]
  | expired j =>
    have hj : i ≠ j := by rintro rfl; exact h4 rfl
    simp only [step, expired, Option.some.injEq] at h
    rw [← h]
    split
    · rfl
    · split
      · rfl
      · exact put_ne _ _ hj

theorem phase_step {ts ts' : Timers} {i n : Nat} {mid : List Op} {o : Op} (hi : i < 12) (hn : 0 < n)
    (hp : Phase ts i n mid) (h : step ts o = some ts') (hs : ∀ x, o ≠ .start i x) :
    Phase ts' i n (mid ++ [o]) := by
  have hle := ticks_upTo_le i mid
  by_cases h1 : o = .tick
  · subst h1
    have hu : upToLast i (mid ++ [.tick]) = upToLast i mid := by rw [upToLast_snoc]; simp
    have hsm : Op.stop i ∈ mid ++ [.tick] ↔ Op.stop i ∈ mid := by simp
    simp only [step, Option.some.injEq] at h
    have hti : ts' i = tickOne (ts i) := by
      rw [← h]; simp only [tick, arraySize, hi, if_true]
    by_cases hst : Op.stop i ∈ mid
    · have ht : ticksOf i (mid ++ [.tick]) = ticksOf i mid := by
        rw [ticksOf_snoc, if_neg (fun h => h.2 hst)]
      have h0 : (ts i).interval = 0 := by rw [hp.interval, if_pos hst]
      have e : ts' i = ts i := by rw [hti]; unfold tickOne; rw [if_neg (by omega)]
      refine ⟨?_, fun h => absurd (hsm.2 hst) h, ?_⟩
      · rw [e, h0, if_pos (hsm.2 hst)]
      · rw [e, ht, hu]; exact hp.latch
    · have ht : ticksOf i (mid ++ [.tick]) = ticksOf i mid + 1 := by
        rw [ticksOf_snoc, if_pos ⟨rfl, hst⟩]
      have h0 : (ts i).interval = n := by rw [hp.interval, if_neg hst]
      have hl := hp.left hst
      have hmod := Nat.mod_lt (ticksOf i mid) hn
      have hsucc : (ticksOf i mid + 1) % n = if ticksOf i mid % n + 1 = n then 0
          else ticksOf i mid % n + 1 := by
        rw [Nat.add_mod]
        by_cases hn1 : n = 1
        · subst hn1; simp [Nat.mod_one]
        · rw [Nat.mod_eq_of_lt (a := 1) (by omega)]
          split
          · rename_i h; rw [h]; simp
          · exact Nat.mod_eq_of_lt (by omega)
      by_cases hz : ticksOf i mid % n + 1 = n
      · have e : ts' i = { ts i with left := (ts i).interval, expire := true } := by
          rw [hti]; unfold tickOne
          rw [if_pos (by omega), if_pos (by omega)]
        refine ⟨?_, fun _ => ?_, ?_⟩
        · rw [e, if_neg (fun h => hst (hsm.1 h))]; exact h0
        · rw [e, ht, hsucc, if_pos hz]; simp [h0]
        · rw [e, ht, hu]
          simp only [true_iff]
          refine ⟨(ticksOf i mid + 1) / n, ?_, ?_⟩ <;>
          · have : (ticksOf i mid + 1) / n * n = ticksOf i mid + 1 := by
              have h1 := Nat.div_add_mod (ticksOf i mid + 1) n
              rw [hsucc, if_pos hz] at h1
              rw [Nat.mul_comm]; omega
            omega
      · have e : ts' i = { ts i with left := (ts i).left - 1 } := by
          rw [hti]; unfold tickOne
          rw [if_pos (by omega), if_neg (by omega)]
        refine ⟨?_, fun _ => ?_, ?_⟩
        · rw [e, if_neg (fun h => hst (hsm.1 h))]; exact h0
        · rw [e, ht, hsucc, if_neg hz]
          simp only
          omega
        · rw [e, ht, hu]
          simp only [hp.latch]
          constructor
          · rintro ⟨m, h1, h2⟩; exact ⟨m, h1, by omega⟩
          · rintro ⟨m, h1, h2⟩
            refine ⟨m, h1, ?_⟩
            by_contra hc
            have : m * n = ticksOf i mid + 1 := by omega
            have h3 : (ticksOf i mid + 1) % n = 0 := by rw [← this]; simp
            rw [hsucc, if_neg hz] at h3
            omega
  · have ht : ticksOf i (mid ++ [o]) = ticksOf i mid := by
      rw [ticksOf_snoc, if_neg (fun h => h1 h.1)]
    by_cases h2 : o = .stop i
    · subst h2
      have hu : upToLast i (mid ++ [.stop i]) = upToLast i mid := by rw [upToLast_snoc]; simp
      simp only [step, Option.some.injEq] at h
      have e : ts' i = { ts i with interval := 0 } := by
        rw [← h]; unfold stop arraySize
        rw [if_neg (by omega), put_same]
      refine ⟨?_, fun h => absurd (by simp) h, ?_⟩
      · rw [e, if_pos (by simp)]
      · rw [e, ht, hu]; exact hp.latch
    · have hsm : Op.stop i ∈ mid ++ [o] ↔ Op.stop i ∈ mid := by simp [Ne.symm h2]
      by_cases h3 : o = .expired i
      · subst h3
        have hu : upToLast i (mid ++ [.expired i]) = mid ++ [.expired i] := by
          rw [upToLast_snoc]; simp
        simp only [step, Option.some.injEq] at h
        have e : (ts' i).interval = (ts i).interval ∧ (ts' i).left = (ts i).left ∧
            (ts' i).expire = false := by
          rw [← h]; unfold expired arraySize
          rw [if_neg (by omega)]
          by_cases hb : (ts i).expire = true
          · rw [if_neg (by simp [hb])]; simp only [put_same]; exact ⟨trivial, trivial, trivial⟩
          · rw [if_pos (by simp [hb])]
            exact ⟨rfl, rfl, by simpa using hb⟩
        refine ⟨?_, fun hs => ?_, ?_⟩
        · rw [e.1, hp.interval]; simp only [hsm]
        · rw [e.2.1, ht]; exact hp.left (fun h => hs (hsm.2 h))
        · rw [e.2.2, hu]
          simp only [Bool.false_eq_true, false_iff]
          rintro ⟨m, a, b⟩; omega
      · have e := step_other h h1 hs h2 h3
        have hu : upToLast i (mid ++ [o]) = upToLast i mid := by rw [upToLast_snoc, if_neg h3]
        refine ⟨?_, fun hs => ?_, ?_⟩
        · rw [e, hp.interval]; simp only [hsm]
        · rw [e, ht]; exact hp.left (fun h => hs (hsm.2 h))
        · rw [e, ht, hu]; exact hp.latch

theorem phase_run {ts₀ ts : Timers} {pre mid : List Op} {i n : Nat} {x : ℚ} (hi : i < 12)
    (hx : 0 ≤ x) (hn : Ticks x n) (h : run ts₀ (pre ++ .start i x :: mid) = some ts)
    (hs : ∀ y, Op.start i y ∉ mid) : Phase ts i n mid := by
  induction mid using List.reverseRecOn generalizing ts with
  | nil =>
    rw [run_snoc] at h
    cases hr : run ts₀ pre with
    | none => rw [hr] at h; simp at h
    | some ts1 =>
      rw [hr] at h
      simp only [Option.bind_some, step] at h
      rw [start_ticks hi hx hn h]
      have := ticks_pos hn
      refine ⟨by rw [put_same]; simp, fun _ => by rw [put_same]; simp [ticksOf], ?_⟩
      rw [put_same]
      simp only [Bool.false_eq_true, false_iff]
      rintro ⟨m, a, b⟩
      simp [ticksOf, upToLast] at a b
      omega
  | append_singleton mid o ih =>
    have e : pre ++ .start i x :: (mid ++ [o]) = (pre ++ .start i x :: mid) ++ [o] := by simp
    rw [e, run_snoc] at h
    cases hr : run ts₀ (pre ++ .start i x :: mid) with
    | none => rw [hr] at h; simp at h
    | some ts1 =>
      rw [hr] at h
      simp only [Option.bind_some] at h
      exact phase_step hi (ticks_pos hn) (ih hr (fun y hy => hs y (by simp [hy]))) h
        (fun y hy => hs y (by simp [hy]))

/-- Once stopped, a timer stays stopped, and expires only if it had. -/
theorem stop_run {ts₀ ts : Timers} {pre mid : List Op} {i : Nat} (hi : i < 12)
    (h : run ts₀ (pre ++ .stop i :: mid) = some ts) (hs : ∀ y, Op.start i y ∉ mid) :
    (ts i).interval = 0 ∧ (Op.expired i ∈ mid → (ts i).expire = false) := by
  induction mid using List.reverseRecOn generalizing ts with
  | nil =>
    rw [run_snoc] at h
    cases hr : run ts₀ pre with
    | none => rw [hr] at h; simp at h
    | some ts1 =>
      rw [hr] at h
      simp only [Option.bind_some, step, Option.some.injEq] at h
      refine ⟨?_, by simp⟩
      rw [← h]; unfold stop arraySize
      rw [if_neg (by omega), put_same]
  | append_singleton mid o ih =>
    have e : pre ++ .stop i :: (mid ++ [o]) = (pre ++ .stop i :: mid) ++ [o] := by simp
    rw [e, run_snoc] at h
    cases hr : run ts₀ (pre ++ .stop i :: mid) with
    | none => rw [hr] at h; simp at h
    | some ts1 =>
      rw [hr] at h
      simp only [Option.bind_some] at h
      obtain ⟨a, b⟩ := ih hr (fun y hy => hs y (by simp [hy]))
      by_cases h1 : o = .tick
      · subst h1
        simp only [step, Option.some.injEq] at h
        have : ts i = ts1 i := by
          rw [← h]; simp only [tick, arraySize, hi, if_true]
          unfold tickOne; rw [if_neg (by omega)]
        rw [this]; exact ⟨a, fun hm => b (by simpa using hm)⟩
      · by_cases h2 : o = .stop i
        · subst h2
          simp only [step, Option.some.injEq] at h
          have : ts i = { ts1 i with interval := 0 } := by
            rw [← h]; unfold stop arraySize
            rw [if_neg (by omega), put_same]
          rw [this]; exact ⟨rfl, fun hm => b (by simpa using hm)⟩
        · by_cases h3 : o = .expired i
          · subst h3
            simp only [step, Option.some.injEq] at h
            rw [← h]; unfold expired arraySize
            rw [if_neg (by omega)]
            by_cases hb : (ts1 i).expire = true
            · rw [if_neg (by simp [hb])]; simp only [put_same]; exact ⟨a, fun _ => trivial⟩
            · rw [if_pos (by simp [hb])]
              exact ⟨a, fun _ => by simpa using hb⟩
          · have e := step_other h h1 (fun y hy => hs y (by simp [hy])) h2 h3
            rw [e]
            exact ⟨a, fun hm => b (by simpa [Ne.symm h3] using hm)⟩

end Verif.Timer
