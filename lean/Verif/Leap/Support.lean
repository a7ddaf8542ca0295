import Verif.Leap.Spec
import Mathlib.Data.List.Induction

set_option linter.unusedSimpArgs false
set_option linter.unusedVariables false

/-!
# Lemmas about leap seconds
-/

namespace Verif.Leap

open Spec

theorem dayEnd_moment (t : LType) (n : Int) (hn : 0 ≤ n) : IsMoment t n (dayEnd t n) := by
  refine ⟨n / day, ?_, ?_, ?_⟩
  · simp only [day, second]; omega
  · simp only [day, second]; omega
  · have h1 : 0 ≤ n / ns := by simp only [ns]; omega
    have h2 : (n / ns).tmod 86400 = n / ns % 86400 := by
      rw [Int.tmod_eq_emod_of_nonneg h1]
    simp only [dayEnd, h2]
    by_cases h : t = .l59
    · simp only [h, if_true, ns, day, second]; omega
    · simp only [h, if_false, ns, day, second]; omega

theorem clampGuard_guard (g : Int) : IsGuard g (clampGuard g) := by
  have hns : ns = 1000000000 := rfl
  have hs : second = 1000000000 := by decide
  have hg : clampGuard g = 2 * ns ∧ g < 2 * ns ∨ clampGuard g = 10 * ns ∧ 10 * ns < g ∨
      clampGuard g = g ∧ 2 * ns ≤ g ∧ g ≤ 10 * ns := by
    unfold clampGuard
    by_cases h1 : g < 2 * ns
    · rw [if_pos h1]
      dsimp only
      rw [if_neg (by omega)]
      omega
    · rw [if_neg h1]
      dsimp only
      by_cases h2 : g > 10 * ns
      · rw [if_pos h2]; omega
      · rw [if_neg h2]; omega
  unfold IsGuard
  omega

theorem leapNow_steps (t : LType) (k : Int) (h : Act.step k ∈ leapNow t) :
    k = shift t ∧ t ≠ .none := by
  cases t <;> simp_all [leapNow, shift]

theorem run_append (c : Cfg) (h : List Ev) : ∀ (s : St) (h' : List Ev),
    run c s (h ++ h') =
      match run c s h with
      | none => none
      | some (s1, a) =>
        match run c s1 h' with
        | none => none
        | some (s2, b) => some (s2, a ++ b) := by
  induction h with
  | nil =>
    intro s h'
    simp only [List.nil_append, run]
    cases run c s h' with
    | none => rfl
    | some p => rfl
  | cons e es ih =>
    intro s h'
    simp only [List.cons_append, run]
    cases hs : step c s e with
    | none => rfl
    | some p =>
      obtain ⟨s1, a⟩ := p
      simp only [ih]
      cases run c s1 es with
      | none => rfl
      | some q =>
        obtain ⟨s2, b⟩ := q
        simp only
        cases run c s2 h' with
        | none => rfl
        | some r =>
          obtain ⟨s3, d⟩ := r
          simp only [List.append_assoc]

/-- Induction over histories from their end. -/
theorem run_snoc_some {c : Cfg} {s s2 : St} {h : List Ev} {e : Ev} {a : List Act}
    (hr : run c s (h ++ [e]) = some (s2, a)) :
    ∃ s1 a1 a2, run c s h = some (s1, a1) ∧ step c s1 e = some (s2, a2) ∧ a = a1 ++ a2 := by
  rw [run_append] at hr
  cases h1 : run c s h with
  | none => simp [h1] at hr
  | some p =>
    obtain ⟨s1, a1⟩ := p
    simp only [h1, run] at hr
    cases h2 : step c s1 e with
    | none => simp [h2] at hr
    | some q =>
      obtain ⟨s2', a2⟩ := q
      simp only [h2, List.append_nil, Option.some.injEq, Prod.mk.injEq] at hr
      exact ⟨s1, a1, a2, rfl, by rw [h2, hr.1], hr.2.symm⟩

theorem run_split {c : Cfg} {s s2 : St} {h h' : List Ev} {a : List Act}
    (hr : run c s (h ++ h') = some (s2, a)) :
    ∃ s1 a1 a2, run c s h = some (s1, a1) ∧ run c s1 h' = some (s2, a2) ∧ a = a1 ++ a2 := by
  rw [run_append] at hr
  cases h1 : run c s h with
  | none => simp [h1] at hr
  | some p =>
    obtain ⟨s1, a1⟩ := p
    simp only [h1] at hr
    cases h2 : run c s1 h' with
    | none => simp [h2] at hr
    | some q =>
      obtain ⟨s2', a2⟩ := q
      simp only [h2, Option.some.injEq, Prod.mk.injEq] at hr
      exact ⟨s1, a1, a2, rfl, by rw [h2, hr.1], hr.2.symm⟩

theorem run_cons_some {c : Cfg} {s s2 : St} {h : List Ev} {e : Ev} {a : List Act}
    (hr : run c s (e :: h) = some (s2, a)) :
    ∃ s1 a1 a2, step c s e = some (s1, a1) ∧ run c s1 h = some (s2, a2) ∧ a = a1 ++ a2 := by
  simp only [run] at hr
  cases h1 : step c s e with
  | none => simp [h1] at hr
  | some p =>
    obtain ⟨s1, a1⟩ := p
    simp only [h1] at hr
    cases h2 : run c s1 h with
    | none => simp [h2] at hr
    | some q =>
      obtain ⟨s2', a2⟩ := q
      simp only [h2, Option.some.injEq, Prod.mk.injEq] at hr
      exact ⟨s1, a1, a2, rfl, by rw [h2, hr.1], hr.2.symm⟩

/-! ## The effect of a step, case by case -/

/-- A request in the states in which it is accepted. -/
theorem schedule_some {c : Cfg} {s s' : St} {t : LType} {g : Int} {now : Option Int} {ok : Bool}
    (h : schedule c s t g now ok = some s') :
    t ≠ .none ∧ 0 < g ∧
      ((s.phase = .pre ∨ s.phase = .post) ∧ s' = s ∨
       (s.phase = .idle ∧ s' = scheduleAt c s t (clampGuard g) now ok) ∨
       ((s.phase = .scheduled ∨ s.phase = .test) ∧
         s' = scheduleAt c (cancel c s) t (clampGuard g) now ok)) := by
  unfold schedule at h
  by_cases h1 : t = .none ∨ g ≤ 0
  · rw [if_pos h1] at h; cases h
  · rw [if_neg h1] at h
    refine ⟨fun e => h1 (Or.inl e), by omega, ?_⟩
    cases hp : s.phase <;> simp only [hp, Option.some.injEq] at h <;> simp [h]

theorem cancel_idle_of {c : Cfg} {s : St} (h : s.phase ≠ .pre) (h2 : s.phase ≠ .idle) :
    (cancel c s).phase = .idle ∧ (cancel c s).timer = none ∧ (cancel c s).told = .none := by
  cases hp : s.phase <;> simp only [cancel, hp, tidy, setProcessing, setGuard, and_self] <;>
    simp_all

/-- The states of the machine that do not depend on the past. -/
structure Inv (c : Cfg) (s : St) : Prop where
  timer : s.timer = none ↔ s.phase = .idle
  kernel : c.readOnly = true → s.kernel = .none

theorem Inv.init (c : Cfg) (m : Nat) : Inv c (init m) := by
  constructor <;> simp [Leap.init]

theorem Inv.tidy {c : Cfg} {s : St} (h : c.readOnly = true → s.kernel = .none) :
    Inv c (tidy s) := by
  constructor <;> simp_all [Leap.tidy, setProcessing, setGuard]

theorem kernelSchedule_ro (c : Cfg) (s : St) (t : LType) (h : c.readOnly = true) :
    kernelSchedule c s t = s := by
  simp [kernelSchedule, h]

theorem Inv.cancel {c : Cfg} {s : St} (h : Inv c s) : Inv c (cancel c s) := by
  unfold Leap.cancel
  cases hp : s.phase with
  | pre => exact h
  | idle => exact h
  | test => exact Inv.tidy h.kernel
  | scheduled =>
    exact Inv.tidy fun r => by rw [kernelSchedule_ro _ _ _ r]; exact h.kernel r
  | post =>
    exact Inv.tidy fun r => by rw [kernelSchedule_ro _ _ _ r]; exact h.kernel r

theorem Inv.scheduleAt {c : Cfg} {s : St} (h : Inv c s) (t : LType) (g : Int)
    (now : Option Int) (ok : Bool) : Inv c (scheduleAt c s t g now ok) := by
  unfold Leap.scheduleAt
  cases now with
  | none => exact h
  | some n =>
    cases ok with
    | false => exact ⟨h.timer, h.kernel⟩
    | true =>
      simp only [Bool.not_true, Bool.false_eq_true, if_false]
      constructor
      · by_cases hk : kernelPolicy c t = true
        · by_cases hr : c.readOnly = true
          · simp [hk, kernelSchedule, hr]
          · simp [hk, kernelSchedule, hr]
        · simp [hk]
      · intro r
        by_cases hk : kernelPolicy c t = true
        · simp [hk, kernelSchedule, r, h.kernel r]
        · simp [hk, h.kernel r]

theorem Inv.testAt {c : Cfg} {s : St} (h : Inv c s) (t : LType)
    (now : Option Int) (ok : Bool) : Inv c (testAt s t now ok) := by
  unfold Leap.testAt
  cases now with
  | none => exact h
  | some n =>
    cases ok with
    | false => exact ⟨h.timer, h.kernel⟩
    | true =>
      constructor
      · simp
      · simpa using h.kernel

theorem Inv.schedule {c : Cfg} {s s' : St} (h : Inv c s) {t : LType} {g : Int}
    {now : Option Int} {ok : Bool} (hs : schedule c s t g now ok = some s') : Inv c s' := by
  obtain ⟨_, _, h1⟩ := schedule_some hs
  rcases h1 with ⟨_, e⟩ | ⟨_, e⟩ | ⟨_, e⟩
  · rw [e]; exact h
  · rw [e]; exact h.scheduleAt _ _ _ _
  · rw [e]; exact h.cancel.scheduleAt _ _ _ _

theorem Inv.test {c : Cfg} {s : St} (h : Inv c s) (t : LType) (now : Option Int) (ok : Bool) :
    Inv c (test c s t now ok) := by
  unfold Leap.test
  by_cases hm : c.testMode = true
  · simp only [hm, Bool.not_true, Bool.false_eq_true, if_false]
    cases hp : s.phase with
    | idle =>
      by_cases ht : t = .none
      · simpa [ht] using h
      · simpa [ht] using h.testAt t now ok
    | test =>
      by_cases ht : t = .none
      · simpa [ht] using h.cancel
      · simpa [ht] using h.cancel.testAt t now ok
    | pre => exact h
    | post => exact h
    | scheduled => exact h
  · simp only [hm, Bool.not_false, if_true]
    exact h

theorem Inv.expired {c : Cfg} {s : St} (h : Inv c s) (ok : Bool) : Inv c (expired c s ok).1 := by
  unfold Leap.expired
  cases hp : s.phase with
  | idle =>
    simp only [hp]
    exact ⟨by simp [hp], h.kernel⟩
  | scheduled =>
    simp only [hp]
    cases ok
    · exact ⟨by simp, h.kernel⟩
    · exact ⟨by simp [setGuard, setProcessing], by simpa [setGuard, setProcessing] using h.kernel⟩
  | pre =>
    simp only [hp]
    cases ok
    · exact ⟨by simp, h.kernel⟩
    · exact ⟨by simp, h.kernel⟩
  | post =>
    simp only [hp]
    unfold Leap.cancel
    simp only [hp]
    exact Inv.tidy fun r => by rw [kernelSchedule_ro _ _ _ r]; exact h.kernel r
  | test =>
    simp only [hp]
    unfold Leap.cancel
    simp only [hp]
    exact Inv.tidy h.kernel

theorem Inv.step {c : Cfg} {s s' : St} {e : Ev} {a : List Act} (h : Inv c s)
    (hs : step c s e = some (s', a)) : Inv c s' := by
  cases e with
  | schedule t g now ok =>
    simp only [Leap.step, Option.map_eq_some_iff] at hs
    obtain ⟨s1, h1, h2⟩ := hs
    cases h2
    exact h.schedule h1
  | cancel =>
    simp only [Leap.step, Option.some.injEq, Prod.mk.injEq] at hs
    rw [← hs.1]; exact h.cancel
  | test t now ok =>
    simp only [Leap.step, Option.some.injEq, Prod.mk.injEq] at hs
    rw [← hs.1]; exact h.test _ _ _
  | testLocal t now ok =>
    simp only [Leap.step, Option.map_eq_some_iff] at hs
    obtain ⟨s1, h1, h2⟩ := hs
    cases h2
    unfold testLocal at h1
    by_cases hm : c.testMode = true
    · simp only [hm, Bool.not_true, Bool.false_eq_true, if_false] at h1
      exact h.schedule h1
    · simp only [hm, Bool.not_false, if_true, Option.some.injEq] at h1
      rw [← h1]; exact h
  | timer ok =>
    simp only [Leap.step] at hs
    by_cases ht : s.timer = none
    · rw [if_pos ht] at hs; cases hs; exact h
    · rw [if_neg ht] at hs
      have hx := h.expired (ok := ok)
      rw [Option.some.injEq] at hs
      rw [hs] at hx
      exact hx

theorem Inv.run {c : Cfg} {s' : St} {a : List Act} {h : List Ev} : ∀ {s : St}, Inv c s →
    run c s h = some (s', a) → Inv c s' := by
  induction h generalizing a with
  | nil => intro s hi hr; cases hr; exact hi
  | cons e es ih =>
    intro s hi hr
    obtain ⟨s1, a1, a2, h1, h2, _⟩ := run_cons_some hr
    exact ih (hi.step h1) h2

theorem twelve : 12 * ns = 12 * second := by decide

theorem cancel_of_idle {c : Cfg} {s : St} (h : s.phase = .idle) : cancel c s = s := by
  simp [cancel, h]

/-- The kinds of steps. -/
inductive Move (c : Cfg) (s : St) : Ev → St → List Act → Prop where
  | nothing (e : Ev)
      (hr : request c.testMode e = none ∨ s.phase = .pre ∨ s.phase = .post)
      (hc : e ≠ .cancel) (ht : isTimer e = true → s.timer = none)
      (hx : ∀ t now ok, e = .test t now ok → s.phase = .test → c.testMode = false) :
      Move c s e s []
  | request (e : Ev) (t : LType) (g : Int) (now : Option Int) (ok : Bool)
      (hr : request c.testMode e = some (t, g, now, ok)) (htn : t ≠ .none) (hg : 0 < g)
      (hp : s.phase = .idle ∨ s.phase = .scheduled ∨ s.phase = .test) :
      Move c s e (scheduleAt c (cancel c s) t (clampGuard g) now ok) []
  | cancel : Move c s .cancel (cancel c s) []
  | untest (now : Option Int) (ok : Bool) (hm : c.testMode = true)
      (hp : s.phase = .idle ∨ s.phase = .test) :
      Move c s (.test .none now ok) (Leap.cancel c s) []
  | test (t : LType) (now : Option Int) (ok : Bool) (hm : c.testMode = true) (ht : t ≠ .none)
      (hp : s.phase = .idle ∨ s.phase = .test) :
      Move c s (.test t now ok) (testAt (Leap.cancel c s) t now ok) []
  | timer (ok : Bool) (ht : s.timer ≠ none) :
      Move c s (.timer ok) (expired c s ok).1 (expired c s ok).2

theorem schedule_move {c : Cfg} {s s' : St} {e : Ev} {t : LType} {g : Int} {now : Option Int}
    {ok : Bool} (hr : request c.testMode e = some (t, g, now, ok))
    (hs : schedule c s t g now ok = some s') : Move c s e s' [] := by
  obtain ⟨h1, h2, h3⟩ := schedule_some hs
  have hne : e ≠ .cancel := by rintro rfl; simp [request] at hr
  have hnt : isTimer e = true → s.timer = none := by
    intro h; cases e <;> simp [isTimer, request] at h hr
  rcases h3 with ⟨hp, he⟩ | ⟨hp, he⟩ | ⟨hp, he⟩
  · rw [he]
    exact .nothing e (Or.inr hp) hne hnt
      (by rintro t now ok rfl; simp [request] at hr)
  · rw [he]
    have := Move.request (c := c) (s := s) e t g now ok hr h1 h2 (Or.inl hp)
    rwa [cancel_of_idle hp] at this
  · rw [he]
    exact Move.request e t g now ok hr h1 h2 (Or.inr hp)

theorem step_move {c : Cfg} {s s' : St} {e : Ev} {a : List Act}
    (hs : step c s e = some (s', a)) : Move c s e s' a := by
  cases e with
  | schedule t g now ok =>
    simp only [Leap.step, Option.map_eq_some_iff] at hs
    obtain ⟨s1, h1, h2⟩ := hs
    cases h2
    exact schedule_move rfl h1
  | cancel =>
    simp only [Leap.step, Option.some.injEq, Prod.mk.injEq] at hs
    obtain ⟨h1, h2⟩ := hs
    rw [← h1, ← h2]; exact .cancel
  | test t now ok =>
    simp only [Leap.step, Option.some.injEq, Prod.mk.injEq] at hs
    obtain ⟨h1, h2⟩ := hs
    rw [← h1, ← h2]
    unfold Leap.test
    by_cases hm : c.testMode = true
    · simp only [hm, Bool.not_true, Bool.false_eq_true, if_false]
      have hno : s.phase ≠ .test → Move c s (.test t now ok) s [] := fun hp =>
        .nothing _ (Or.inl rfl) (by simp) (by simp [isTimer]) (fun _ _ _ _ h => absurd h hp)
      cases hp : s.phase with
      | idle =>
        by_cases ht : t = .none
        · subst ht
          rw [if_pos rfl]; exact hno (by simp [hp])
        · rw [if_neg ht]
          have := Move.test (c := c) (s := s) t now ok hm ht (Or.inl hp)
          rwa [cancel_of_idle hp] at this
      | test =>
        dsimp only
        by_cases ht : t = .none
        · subst ht
          rw [if_pos rfl]; exact .untest now ok hm (Or.inr hp)
        · rw [if_neg ht]; exact .test t now ok hm ht (Or.inr hp)
      | pre => exact hno (by simp [hp])
      | post => exact hno (by simp [hp])
      | scheduled => exact hno (by simp [hp])
    · simp only [hm, Bool.not_false, if_true]
      exact .nothing _ (Or.inl rfl) (by simp) (by simp [isTimer])
        (fun _ _ _ _ _ => by simpa using hm)
  | testLocal t now ok =>
    simp only [Leap.step, Option.map_eq_some_iff] at hs
    obtain ⟨s1, h1, h2⟩ := hs
    cases h2
    unfold testLocal at h1
    by_cases hm : c.testMode = true
    · simp only [hm, Bool.not_true, Bool.false_eq_true, if_false] at h1
      rw [twelve] at h1
      exact schedule_move (by simp [request, hm]) h1
    · simp only [hm, Bool.not_false, if_true, Option.some.injEq] at h1
      rw [← h1]
      exact .nothing _ (Or.inl (by simp [request, hm])) (by simp) (by simp [isTimer])
        (by simp)
  | timer ok =>
    simp only [Leap.step] at hs
    by_cases ht : s.timer = none
    · rw [if_pos ht] at hs; cases hs
      exact .nothing _ (Or.inl rfl) (by simp) (fun _ => ht) (by simp)
    · rw [if_neg ht, Option.some.injEq] at hs
      have := Move.timer (c := c) (s := s) ok ht
      rwa [hs] at this

/-! ## The effect of the moves on the single fields -/

theorem kernelSchedule_fields (c : Cfg) (s : St) (t : LType) :
    (kernelSchedule c s t).phase = s.phase ∧ (kernelSchedule c s t).type = s.type ∧
    (kernelSchedule c s t).time = s.time ∧ (kernelSchedule c s t).guard = s.guard ∧
    (kernelSchedule c s t).timer = s.timer ∧ (kernelSchedule c s t).flags = s.flags ∧
    (kernelSchedule c s t).told = s.told := by
  unfold kernelSchedule; split <;> simp

/-- A request that is carried out. -/
theorem scheduleAt_ok (c : Cfg) (s : St) (t : LType) (g n : Int) :
    (scheduleAt c s t g (some n) true).phase = .scheduled ∧
    (scheduleAt c s t g (some n) true).type = t ∧
    (scheduleAt c s t g (some n) true).time = dayEnd t n ∧
    (scheduleAt c s t g (some n) true).guard = g ∧
    (scheduleAt c s t g (some n) true).timer = some (dayEnd t n - g) ∧
    (scheduleAt c s t g (some n) true).flags = s.flags ∧
    (scheduleAt c s t g (some n) true).told = t ∧
    (scheduleAt c s t g (some n) true).kernel =
      if kernelPolicy c t = true ∧ c.readOnly = false then t else s.kernel := by
  unfold scheduleAt kernelSchedule
  cases kernelPolicy c t <;> cases c.readOnly <;> simp

/-- A request that fails. -/
theorem scheduleAt_fail (c : Cfg) (s : St) (t : LType) (g : Int) (now : Option Int) (ok : Bool)
    (h : now = none ∨ ok = false) :
    (scheduleAt c s t g now ok).phase = s.phase ∧
    (scheduleAt c s t g now ok).flags = s.flags ∧
    (scheduleAt c s t g now ok).told = s.told ∧
    (scheduleAt c s t g now ok).timer = s.timer ∧
    (scheduleAt c s t g now ok).kernel = s.kernel := by
  unfold scheduleAt
  cases now with
  | none => simp
  | some n => cases ok <;> simp_all

theorem testAt_ok (s : St) (t : LType) (n : Int) :
    testAt s t (some n) true =
      { s with time := dayEnd t n, type := t, timer := some (dayEnd t n), told := t,
               phase := .test } := by
  simp [testAt]

theorem testAt_fail (s : St) (t : LType) (now : Option Int) (ok : Bool)
    (h : now = none ∨ ok = false) :
    (testAt s t now ok).phase = s.phase ∧ (testAt s t now ok).flags = s.flags ∧
    (testAt s t now ok).told = s.told ∧ (testAt s t now ok).timer = s.timer ∧
    (testAt s t now ok).kernel = s.kernel := by
  unfold testAt
  cases now with
  | none => simp
  | some n => cases ok <;> simp_all

/-- Cancellation, but for the state in which it is refused. -/
theorem cancel_phase (c : Cfg) (s : St) (h : s.phase ≠ .pre) : (cancel c s).phase = .idle := by
  cases hp : s.phase <;> simp_all [cancel, tidy, setProcessing, setGuard]

theorem cancel_of_pre {c : Cfg} {s : St} (h : s.phase = .pre) : cancel c s = s := by
  simp [cancel, h]

/-- The outcomes of a request. -/
theorem request_outcome (c : Cfg) (s : St) (t : LType) (g : Int) (now : Option Int) (ok : Bool)
    (hp : s.phase = .idle ∨ s.phase = .scheduled ∨ s.phase = .test) :
    (∃ n, now = some n ∧ ok = true) ∨
      (now = none ∨ ok = false) ∧ (scheduleAt c (cancel c s) t g now ok).phase = .idle := by
  have hne : s.phase ≠ .pre := by rcases hp with h | h | h <;> simp [h]
  cases now with
  | none =>
    exact Or.inr ⟨Or.inl rfl, by
      rw [(scheduleAt_fail _ _ _ _ _ _ (Or.inl rfl)).1]; exact cancel_phase c s hne⟩
  | some n =>
    cases ok with
    | false =>
      exact Or.inr ⟨Or.inr rfl, by
        rw [(scheduleAt_fail _ _ _ _ _ _ (Or.inr rfl)).1]; exact cancel_phase c s hne⟩
    | true => exact Or.inl ⟨n, rfl, rfl⟩

theorem test_outcome (c : Cfg) (s : St) (t : LType) (now : Option Int) (ok : Bool)
    (hp : s.phase = .idle ∨ s.phase = .test) :
    (∃ n, now = some n ∧ ok = true) ∨
      (now = none ∨ ok = false) ∧ (testAt (cancel c s) t now ok).phase = .idle := by
  have hne : s.phase ≠ .pre := by rcases hp with h | h <;> simp [h]
  cases now with
  | none =>
    exact Or.inr ⟨Or.inl rfl, by
      rw [(testAt_fail _ _ _ _ (Or.inl rfl)).1]; exact cancel_phase c s hne⟩
  | some n =>
    cases ok with
    | false =>
      exact Or.inr ⟨Or.inr rfl, by
        rw [(testAt_fail _ _ _ _ (Or.inr rfl)).1]; exact cancel_phase c s hne⟩
    | true => exact Or.inl ⟨n, rfl, rfl⟩

/-- The expiry of the timer, by state. -/
theorem expired_scheduled {c : Cfg} {s : St} (h : s.phase = .scheduled) (ok : Bool) :
    expired c s ok =
      if ok then
        ({ s with timer := some s.time, phase := .pre,
                  flags := s.flags.map fun _ => suspended }, [])
      else ({ s with timer := none, phase := .idle }, []) := by
  cases ok <;> simp [expired, h, setGuard, setProcessing, suspended]

theorem expired_pre {c : Cfg} {s : St} (h : s.phase = .pre) (ok : Bool) :
    expired c s ok =
      (if ok then
        { s with timer := some (s.time + s.guard), phase := .post, type := .none, told := .none }
       else { s with timer := none, phase := .idle, type := .none, told := .none },
       if stepPolicy c s.type then leapNow s.type else []) := by
  cases ok <;> simp [expired, h]

theorem tidy_eq (s : St) :
    tidy s = { s with timer := none, phase := .idle, told := .none,
                      flags := s.flags.map fun _ => normal } := by
  simp [tidy, setGuard, setProcessing, normal]

theorem expired_post {c : Cfg} {s : St} (h : s.phase = .post) (ok : Bool) :
    expired c s ok = (cancel c s, []) := by
  unfold expired
  simp only [h]
  unfold cancel
  simp only [h]
  unfold kernelSchedule
  split <;> simp [tidy_eq]

theorem expired_test {c : Cfg} {s : St} (h : s.phase = .test) (ok : Bool) :
    expired c s ok = (cancel c s, [.utcOffset (if s.type = .l61 then 1 else -1)]) := by
  unfold expired
  simp only [h]
  unfold cancel
  simp only [h]
  simp [tidy_eq]

/-! ## Where the present state comes from -/

/-- The request behind the state `scheduled`. -/
structure Wanted (c : Cfg) (h : List Ev) (s : St) (h1 : List Ev) (e : Ev) (h2 : List Ev)
    (t : LType) (g n : Int) : Prop where
  hist : h = h1 ++ e :: h2
  req : request c.testMode e = some (t, g, some n, true)
  some : t ≠ .none
  quiet : Quiet c.testMode h2
  phase : s.phase = .scheduled
  type : s.type = t
  time : s.time = dayEnd t n
  guard : s.guard = clampGuard g
  timer : s.timer = Option.some (dayEnd t n - clampGuard g)

/-- What the history says about each state. -/
structure Hist (c : Cfg) (m : Nat) (h : List Ev) (s : St) : Prop where
  scheduled : s.phase = .scheduled → ∃ h1 e h2 t g n, Wanted c h s h1 e h2 t g n
  pre : s.phase = .pre → ∃ h0 h3 s0 a0 h1 e h2 t g n,
    h = h0 ++ Ev.timer true :: h3 ∧ run c (init m) h0 = some (s0, a0) ∧
    Wanted c h0 s0 h1 e h2 t g n ∧ NoTimer h3 ∧ s.type = t ∧ s.time = dayEnd t n ∧
    s.guard = clampGuard g ∧ s.timer = some (dayEnd t n)
  test : s.phase = .test → ∃ h1 h2 t n, h = h1 ++ .test t (some n) true :: h2 ∧
    c.testMode = true ∧ t ≠ .none ∧ Quiet c.testMode h2 ∧
    (∀ e ∈ h2, ∀ t' n' ok', e ≠ .test t' n' ok') ∧
    s.type = t ∧ s.timer = some (dayEnd t n)

theorem Hist.init (c : Cfg) (m : Nat) : Hist c m [] (init m) := by
  constructor <;> intro h <;> simp [Leap.init] at h

theorem Hist.of_idle {c : Cfg} {m : Nat} {h : List Ev} {s : St} (hp : s.phase = .idle) :
    Hist c m h s := by
  constructor <;> intro h <;> simp [hp] at h

theorem Hist.of_post {c : Cfg} {m : Nat} {h : List Ev} {s : St} (hp : s.phase = .post) :
    Hist c m h s := by
  constructor <;> intro h <;> simp [hp] at h

theorem quiet_snoc {b : Bool} {h : List Ev} {e : Ev} (hq : Quiet b h)
    (h1 : request b e = none) (h2 : e ≠ .cancel) (h3 : isTimer e = false) :
    Quiet b (h ++ [e]) := by
  intro x hx
  rcases List.mem_append.1 hx with hx | hx
  · exact hq x hx
  · rw [List.mem_singleton.1 hx]; exact ⟨h1, h2, h3⟩

theorem noTimer_snoc {h : List Ev} {e : Ev} (hq : NoTimer h) (h3 : isTimer e = false) :
    NoTimer (h ++ [e]) := by
  intro x hx
  rcases List.mem_append.1 hx with hx | hx
  · exact hq x hx
  · rw [List.mem_singleton.1 hx]; exact h3

theorem Hist.step {c : Cfg} {m : Nat} {h : List Ev} {s s' : St} {e : Ev} {a0 a : List Act}
    (hr : Leap.run c (Leap.init m) h = some (s, a0)) (hi : Inv c s) (hh : Hist c m h s)
    (hm : Move c s e s' a) : Hist c m (h ++ [e]) s' := by
  cases hm with
  | nothing _ hrq hc ht hx =>
    have hnt : s.phase ≠ .idle → isTimer e = false := by
      intro hp
      cases hx : isTimer e with
      | false => rfl
      | true => exact absurd (hi.timer.1 (ht hx)) hp
    refine ⟨fun hp => ?_, fun hp => ?_, fun hp => ?_⟩
    · obtain ⟨h1, e1, h2, t, g, n, w⟩ := hh.scheduled hp
      have hrq' : request c.testMode e = none := by
        rcases hrq with h | h | h
        · exact h
        · simp [hp] at h
        · simp [hp] at h
      exact ⟨h1, e1, h2 ++ [e], t, g, n,
        ⟨by rw [w.hist]; simp, w.req, w.some, quiet_snoc w.quiet hrq' hc (hnt (by simp [hp])),
         w.phase, w.type, w.time, w.guard, w.timer⟩⟩
    · obtain ⟨h0, h3, s0, a0, h1, e1, h2, t, g, n, q1, q2, q3, q4, q5⟩ := hh.pre hp
      exact ⟨h0, h3 ++ [e], s0, a0, h1, e1, h2, t, g, n, by rw [q1]; simp, q2, q3,
        noTimer_snoc q4 (hnt (by simp [hp])), q5⟩
    · obtain ⟨h1, h2, t, n, q1, q2, q3, q4, q5, q6⟩ := hh.test hp
      have hrq' : request c.testMode e = none := by
        rcases hrq with h | h | h
        · exact h
        · simp [hp] at h
        · simp [hp] at h
      refine ⟨h1, h2 ++ [e], t, n, by rw [q1]; simp, q2, q3,
        quiet_snoc q4 hrq' hc (hnt (by simp [hp])), ?_, q6⟩
      intro x hxm t' n' ok' hxe
      rcases List.mem_append.1 hxm with hxm | hxm
      · exact q5 x hxm t' n' ok' hxe
      · rw [List.mem_singleton.1 hxm] at hxe
        have := hx t' n' ok' hxe hp
        rw [q2] at this; cases this
  | request _ t g now ok hrq htn hg hp =>
    rcases request_outcome c s t (clampGuard g) now ok hp with ⟨n, hn, hok⟩ | ⟨_, hpi⟩
    · subst hn hok
      obtain ⟨f1, f2, f3, f4, f5, f6, f7, f8⟩ := scheduleAt_ok c (Leap.cancel c s) t (clampGuard g) n
      refine ⟨fun _ => ⟨h, e, [], t, g, n, ⟨rfl, hrq, htn, ?_, f1, f2, f3, f4, f5⟩⟩, ?_, ?_⟩
      · intro x hx; cases hx
      · intro hp'; rw [f1] at hp'; cases hp'
      · intro hp'; rw [f1] at hp'; cases hp'
    · exact .of_idle hpi
  | cancel =>
    by_cases hp : s.phase = .pre
    · rw [cancel_of_pre hp]
      refine ⟨fun hp' => ?_, fun _ => ?_, fun hp' => ?_⟩
      · rw [hp] at hp'; cases hp'
      · obtain ⟨h0, h3, s0, a0, h1, e1, h2, t, g, n, q1, q2, q3, q4, q5⟩ := hh.pre hp
        exact ⟨h0, h3 ++ [.cancel], s0, a0, h1, e1, h2, t, g, n, by rw [q1]; simp, q2, q3,
          noTimer_snoc q4 rfl, q5⟩
      · rw [hp] at hp'; cases hp'
    · exact .of_idle (cancel_phase c s hp)
  | untest now ok hm hp =>
    exact .of_idle (cancel_phase c s (by rcases hp with h | h <;> simp [h]))
  | test t now ok hm ht hp =>
    rcases test_outcome c s t now ok hp with ⟨n, hn, hok⟩ | ⟨_, hpi⟩
    · subst hn hok
      rw [testAt_ok]
      refine ⟨fun hp' => ?_, fun hp' => ?_, fun _ => ?_⟩
      · cases hp'
      · cases hp'
      · exact ⟨h, [], t, n, rfl, hm, ht, by simp [Quiet], by simp, rfl, rfl⟩
    · exact .of_idle hpi
  | timer ok ht =>
    cases hp : s.phase with
    | idle => exact absurd (hi.timer.2 hp) ht
    | scheduled =>
      rw [expired_scheduled hp]
      cases ok with
      | false => exact .of_idle rfl
      | true =>
        obtain ⟨h1, e1, h2, t, g, n, w⟩ := hh.scheduled hp
        refine ⟨fun hp' => ?_, fun _ => ?_, fun hp' => ?_⟩
        · cases hp'
        · exact ⟨h, [], s, a0, h1, e1, h2, t, g, n, rfl, hr, w, by simp [NoTimer], w.type, w.time,
            w.guard, by simp [w.time]⟩
        · cases hp'
    | pre =>
      rw [expired_pre hp]
      cases ok with
      | false => exact .of_idle rfl
      | true => exact .of_post rfl
    | post =>
      rw [expired_post hp]
      exact .of_idle (cancel_phase c s (by simp [hp]))
    | test =>
      rw [expired_test hp]
      exact .of_idle (cancel_phase c s (by simp [hp]))

theorem reach {c : Cfg} {m : Nat} (h : List Ev) : ∀ {s : St} {a : List Act},
    Leap.run c (Leap.init m) h = some (s, a) → Inv c s ∧ Hist c m h s := by
  induction h using List.reverseRecOn with
  | nil =>
    intro s a hr
    cases hr
    exact ⟨Inv.init c m, Hist.init c m⟩
  | append_singleton h e ih =>
    intro s a hr
    obtain ⟨s1, a1, a2, h1, h2, _⟩ := run_snoc_some hr
    obtain ⟨i1, i2⟩ := ih h1
    exact ⟨i1.step h2, i2.step h1 i1 (step_move h2)⟩

/-! ## The number of steps -/

theorem steps_append (a b : List Act) : steps (a ++ b) = steps a ++ steps b := by
  simp [steps]

theorem requests_append (b : Bool) (h h' : List Ev) :
    requests b (h ++ h') = requests b h + requests b h' := by
  simp [requests]

/-- A leap second is pending. -/
def pending (s : St) : Nat :=
  match s.phase with
  | .scheduled => 1
  | .pre => 1
  | _ => 0

theorem pending_idle {s : St} (h : s.phase = .idle) : pending s = 0 := by simp [pending, h]

theorem leapNow_length (t : LType) : (steps (leapNow t)).length ≤ 1 := by
  cases t <;> simp [leapNow, steps]

theorem step_count {c : Cfg} {s s' : St} {e : Ev} {a : List Act} (hi : Inv c s)
    (hm : Move c s e s' a) :
    (steps a).length + pending s' ≤ pending s + requests c.testMode [e] := by
  have h1 : ∀ s, pending s ≤ 1 := by intro s; unfold pending; split <;> omega
  cases hm with
  | nothing _ hrq hc ht hx => simp [steps]
  | request _ t g now ok hrq htn hg hp =>
    have := h1 (scheduleAt c (Leap.cancel c s) t (clampGuard g) now ok)
    simp [steps, requests, hrq]
    omega
  | cancel =>
    by_cases hp : s.phase = .pre
    · rw [cancel_of_pre hp]; simp [steps]
    · simp [steps, pending_idle (cancel_phase c s hp)]
  | untest now ok hm hp =>
    have : s.phase ≠ .pre := by rcases hp with h | h <;> simp [h]
    simp [steps, pending_idle (cancel_phase c s this)]
  | test t now ok hm ht hp =>
    rcases test_outcome c s t now ok hp with ⟨n, hn, hok⟩ | ⟨_, hpi⟩
    · subst hn hok
      rw [testAt_ok]; simp [steps, pending]
    · simp [steps, pending_idle hpi]
  | timer ok ht =>
    cases hp : s.phase with
    | idle => exact absurd (hi.timer.2 hp) ht
    | scheduled =>
      rw [expired_scheduled hp]
      cases ok <;> simp [steps, pending, hp]
    | pre =>
      rw [expired_pre hp]
      have := leapNow_length s.type
      cases ok <;> cases stepPolicy c s.type <;> simp [pending, hp] <;>
        first | omega | simp [steps]
    | post =>
      rw [expired_post hp]
      simp [steps, pending_idle (cancel_phase c s (by simp [hp]))]
    | test =>
      rw [expired_test hp]
      simp [steps, pending_idle (cancel_phase c s (by simp [hp]))]

theorem run_count {c : Cfg} {m : Nat} (h : List Ev) : ∀ {s : St} {a : List Act},
    Leap.run c (Leap.init m) h = some (s, a) →
    (steps a).length + pending s ≤ requests c.testMode h := by
  induction h using List.reverseRecOn with
  | nil => intro s a hr; cases hr; simp [steps, pending, Leap.init]
  | append_singleton h e ih =>
    intro s a hr
    obtain ⟨s1, a1, a2, h1, h2, h3⟩ := run_snoc_some hr
    have := ih h1
    have := step_count (reach h h1).1 (step_move h2)
    rw [h3, steps_append, requests_append, List.length_append]
    omega

/-- Without requests and with nothing pending the clocks are not stepped. -/
theorem run_no_steps {c : Cfg} (h : List Ev) : ∀ {s s' : St} {a : List Act}, Inv c s →
    pending s = 0 → requests c.testMode h = 0 → Leap.run c s h = some (s', a) →
    steps a = [] := by
  induction h with
  | nil => intro s s' a _ _ _ hr; cases hr; rfl
  | cons e es ih =>
    intro s s' a hi hp hq hr
    obtain ⟨s1, a1, a2, h1, h2, h3⟩ := run_cons_some hr
    have hc := step_count hi (step_move h1)
    have hsplit : requests c.testMode (e :: es) =
        requests c.testMode [e] + requests c.testMode es := requests_append _ [e] es
    rw [hq] at hsplit
    have := ih (hi.step h1) (by omega) (by omega) h2
    have h0 : steps a1 = [] := List.eq_nil_of_length_eq_zero (by omega)
    rw [h3, steps_append, this, h0]; rfl

/-! ## The flags -/

/-- The instances, the modules and the kernel in each state, as long as the timer works. -/
structure Tidy (c : Cfg) (s : St) : Prop where
  flags : ∀ f ∈ s.flags, f = if s.phase = .pre ∨ s.phase = .post then suspended else normal
  told : s.told = if s.phase = .scheduled ∨ s.phase = .pre ∨ s.phase = .test then s.type
    else .none
  kernel : s.phase = .idle ∨ s.phase = .test → s.kernel = .none
  planned : s.phase = .scheduled ∨ s.phase = .pre →
    s.kernel = if kernelPolicy c s.type = true ∧ c.readOnly = false then s.type else .none

theorem Tidy.init (c : Cfg) (m : Nat) : Tidy c (init m) := by
  refine ⟨fun f hf => ?_, rfl, fun _ => rfl, fun h => ?_⟩
  · simp only [Leap.init, List.mem_replicate] at hf
    rw [hf.2]; rfl
  · simp [Leap.init] at h

theorem Tidy.cancel {c : Cfg} {s : St} (hi : Inv c s) (h : Tidy c s) :
    Tidy c (Leap.cancel c s) := by
  have key : ∀ s1 : St, s1.kernel = .none → Tidy c (tidy s1) := by
    intro s1 hk
    rw [tidy_eq]
    refine ⟨fun f hf => ?_, by simp, fun _ => hk, fun h => by simp at h⟩
    simp only [List.mem_map] at hf
    obtain ⟨_, _, hf⟩ := hf
    simp [← hf]
  have hk : (kernelSchedule c s .none).kernel = .none := by
    by_cases hr : c.readOnly = true
    · rw [kernelSchedule_ro _ _ _ hr]; exact hi.kernel hr
    · simp [kernelSchedule, hr]
  unfold Leap.cancel
  cases hp : s.phase with
  | pre => exact h
  | idle => exact h
  | test => exact key _ (h.kernel (Or.inr hp))
  | scheduled => exact key _ hk
  | post => exact key _ hk

theorem Tidy.step {c : Cfg} {s s' : St} {e : Ev} {a : List Act} (hi : Inv c s) (h : Tidy c s)
    (hw : timerWorks e = true) (hm : Move c s e s' a) : Tidy c s' := by
  cases hm with
  | nothing _ hrq hc ht hx => exact h
  | request _ t g now ok hrq htn hg hp =>
    have hc := h.cancel hi
    have hpc : (Leap.cancel c s).phase = .idle :=
      cancel_phase c s (by rcases hp with h | h | h <;> simp [h])
    rcases request_outcome c s t (clampGuard g) now ok hp with ⟨n, hn, hok⟩ | ⟨hf, hpi⟩
    · subst hn hok
      obtain ⟨f1, f2, f3, f4, f5, f6, f7, f8⟩ := scheduleAt_ok c (Leap.cancel c s) t (clampGuard g) n
      refine ⟨fun f hf => ?_, ?_, fun h => ?_, fun _ => ?_⟩
      · rw [f6] at hf
        rw [hc.flags f hf, hpc, f1]; simp
      · rw [f7, f1, f2]; simp
      · rw [f1] at h; simp at h
      · rw [f8, f2, hc.kernel (Or.inl hpc)]
    · obtain ⟨f1, f2, f3, f4, f5⟩ := scheduleAt_fail c (Leap.cancel c s) t (clampGuard g) now ok hf
      refine ⟨fun f hf => ?_, ?_, fun h => ?_, fun h => ?_⟩
      · rw [f2] at hf
        rw [hc.flags f hf, hpc, f1, hpc]
      · rw [f3, f1, hc.told, hpc]; simp
      · rw [f5]; exact hc.kernel (Or.inl hpc)
      · rw [hpi] at h; simp at h
  | cancel => exact h.cancel hi
  | untest now ok hm hp => exact h.cancel hi
  | test t now ok hm ht hp =>
    have hc := h.cancel hi
    have hpc : (Leap.cancel c s).phase = .idle :=
      cancel_phase c s (by rcases hp with h | h <;> simp [h])
    rcases test_outcome c s t now ok hp with ⟨n, hn, hok⟩ | ⟨hf, hpi⟩
    · subst hn hok
      rw [testAt_ok]
      refine ⟨fun f hf => ?_, by simp, fun _ => hc.kernel (Or.inl hpc), fun h => by simp at h⟩
      rw [hc.flags f hf, hpc]; simp
    · obtain ⟨f1, f2, f3, f4, f5⟩ := testAt_fail (Leap.cancel c s) t now ok hf
      refine ⟨fun f hf => ?_, ?_, fun h => ?_, fun h => ?_⟩
      · rw [f2] at hf
        rw [hc.flags f hf, hpc, f1, hpc]
      · rw [f3, f1, hc.told, hpc]; simp
      · rw [f5]; exact hc.kernel (Or.inl hpc)
      · rw [hpi] at h; simp at h
  | timer ok ht =>
    simp only [timerWorks] at hw
    subst hw
    cases hp : s.phase with
    | idle => exact absurd (hi.timer.2 hp) ht
    | scheduled =>
      rw [expired_scheduled hp]
      refine ⟨fun f hf => ?_, ?_, fun h => by simp at h, fun _ => h.planned (Or.inl hp)⟩
      · simp only [if_true, List.mem_map] at hf
        obtain ⟨_, _, hf⟩ := hf
        simp [← hf]
      · have := h.told
        rw [hp] at this
        simpa using this
    | pre =>
      rw [expired_pre hp]
      refine ⟨fun f hf => ?_, by simp, fun h => by simp at h, fun h => by simp at h⟩
      have := h.flags f hf
      rw [hp] at this
      simpa using this
    | post =>
      rw [expired_post hp]; exact h.cancel hi
    | test =>
      rw [expired_test hp]; exact h.cancel hi

theorem reach_tidy {c : Cfg} {m : Nat} (h : List Ev) : ∀ {s : St} {a : List Act},
    Leap.run c (Leap.init m) h = some (s, a) → (∀ e ∈ h, timerWorks e = true) → Tidy c s := by
  induction h using List.reverseRecOn with
  | nil => intro s a hr _; cases hr; exact Tidy.init c m
  | append_singleton h e ih =>
    intro s a hr hw
    obtain ⟨s1, a1, a2, h1, h2, _⟩ := run_snoc_some hr
    have := ih h1 (fun e he => hw e (List.mem_append_left _ he))
    exact this.step (reach h h1).1 (hw e (by simp)) (step_move h2)

theorem stepPolicy_iff (c : Cfg) (t : LType) : stepPolicy c t = mayStep c.ctrl t := by
  unfold stepPolicy mayStep
  cases c.ctrl <;> cases t <;> simp [shift]

/-! ## The kernel -/

/-- The kernel is only given what the policy admits. -/
def Kernel (c : Cfg) (s : St) : Prop := s.kernel ≠ .none → kernelPolicy c s.kernel = true

theorem Kernel.cancel {c : Cfg} {s : St} (h : Kernel c s) : Kernel c (Leap.cancel c s) := by
  have hk : Kernel c (kernelSchedule c s .none) := by
    unfold kernelSchedule
    split
    · exact h
    · intro h; exact absurd rfl h
  unfold Leap.cancel
  cases hp : s.phase with
  | pre => exact h
  | idle => exact h
  | test => dsimp only; rw [tidy_eq]; exact h
  | scheduled => dsimp only; rw [tidy_eq]; exact hk
  | post => dsimp only; rw [tidy_eq]; exact hk

theorem Kernel.step {c : Cfg} {s s' : St} {e : Ev} {a : List Act} (hi : Inv c s)
    (h : Kernel c s) (hm : Move c s e s' a) : Kernel c s' := by
  cases hm with
  | nothing _ hrq hc ht hx => exact h
  | request _ t g now ok hrq htn hg hp =>
    rcases request_outcome c s t (clampGuard g) now ok hp with ⟨n, hn, hok⟩ | ⟨hf, hpi⟩
    · subst hn hok
      obtain ⟨f1, f2, f3, f4, f5, f6, f7, f8⟩ := scheduleAt_ok c (Leap.cancel c s) t (clampGuard g) n
      unfold Kernel
      rw [f8]
      by_cases hk : kernelPolicy c t = true ∧ c.readOnly = false
      · rw [if_pos hk]; exact fun _ => hk.1
      · rw [if_neg hk]; exact h.cancel
    · obtain ⟨f1, f2, f3, f4, f5⟩ := scheduleAt_fail c (Leap.cancel c s) t (clampGuard g) now ok hf
      unfold Kernel
      rw [f5]; exact h.cancel
  | cancel => exact h.cancel
  | untest now ok hm hp => exact h.cancel
  | test t now ok hm ht hp =>
    rcases test_outcome c s t now ok hp with ⟨n, hn, hok⟩ | ⟨hf, hpi⟩
    · subst hn hok
      rw [testAt_ok]; exact h.cancel
    · unfold Kernel
      rw [(testAt_fail (Leap.cancel c s) t now ok hf).2.2.2.2]; exact h.cancel
  | timer ok ht =>
    cases hp : s.phase with
    | idle => exact absurd (hi.timer.2 hp) ht
    | scheduled => rw [expired_scheduled hp]; cases ok <;> exact h
    | pre => rw [expired_pre hp]; cases ok <;> exact h
    | post => rw [expired_post hp]; exact h.cancel
    | test => rw [expired_test hp]; exact h.cancel

theorem reach_kernel {c : Cfg} {m : Nat} (h : List Ev) : ∀ {s : St} {a : List Act},
    Leap.run c (Leap.init m) h = some (s, a) → Kernel c s := by
  induction h using List.reverseRecOn with
  | nil => intro s a hr; cases hr; exact fun h => absurd rfl h
  | append_singleton h e ih =>
    intro s a hr
    obtain ⟨s1, a1, a2, h1, h2, _⟩ := run_snoc_some hr
    exact (ih h1).step (reach h h1).1 (step_move h2)

/-! ## The acts -/

theorem step_acts {c : Cfg} {s s' : St} {e : Ev} {a : List Act} {k : Int} (hi : Inv c s)
    (hm : Move c s e s' a) (hk : Act.step k ∈ a) :
    isTimer e = true ∧ s.phase = .pre ∧ a = [.step k] ∧ k = shift s.type ∧
      stepPolicy c s.type = true := by
  cases hm with
  | nothing _ hrq hc ht hx => cases hk
  | request _ t g now ok hrq htn hg hp => cases hk
  | cancel => cases hk
  | untest now ok hm hp => cases hk
  | test t now ok hm ht hp => cases hk
  | timer ok ht =>
    cases hp : s.phase with
    | idle => exact absurd (hi.timer.2 hp) ht
    | scheduled => rw [expired_scheduled hp] at hk; cases ok <;> cases hk
    | pre =>
      rw [expired_pre hp] at hk ⊢
      cases hpol : stepPolicy c s.type with
      | false => simp [hpol] at hk
      | true =>
        simp only [hpol, if_true] at hk ⊢
        refine ⟨rfl, trivial, ?_, (leapNow_steps _ _ hk).1, trivial⟩
        cases ht : s.type <;> simp [leapNow, ht] at hk ⊢ <;> simp [hk]
    | post => rw [expired_post hp] at hk; cases hk
    | test => rw [expired_test hp] at hk; simp at hk

theorem mem_steps {a : List Act} {k : Int} : k ∈ steps a ↔ Act.step k ∈ a := by
  simp only [steps, List.mem_filterMap]
  constructor
  · rintro ⟨x, hx, he⟩
    cases x with
    | step j => simp only [Option.some.injEq] at he; rw [← he]; exact hx
    | utcOffset j => cases he
  · intro h; exact ⟨_, h, rfl⟩

theorem run_steps_mem {c : Cfg} {m : Nat} (h : List Ev) : ∀ {s : St} {a : List Act} {k : Int},
    Leap.run c (Leap.init m) h = some (s, a) → k ∈ steps a →
    ∃ t, k = shift t ∧ mayStep c.ctrl t = true := by
  induction h using List.reverseRecOn with
  | nil => intro s a k hr hk; cases hr; cases hk
  | append_singleton h e ih =>
    intro s a k hr hk
    obtain ⟨s1, a1, a2, h1, h2, h3⟩ := run_snoc_some hr
    rw [h3, steps_append] at hk
    rcases List.mem_append.1 hk with hk | hk
    · exact ih h1 hk
    · obtain ⟨_, _, _, q1, q2⟩ := step_acts (reach h h1).1 (step_move h2) (mem_steps.1 hk)
      exact ⟨s1.type, q1, by rw [← stepPolicy_iff]; exact q2⟩

/-! ## Waiting -/

/-- Nothing happens to a scheduled leap second while all is quiet. -/
theorem wait_quiet {c : Cfg} (h : List Ev) : ∀ {s s' : St} {a : List Act}, Inv c s →
    s.phase = .scheduled → Quiet c.testMode h → Leap.run c s h = some (s', a) →
    s' = s ∧ a = [] := by
  induction h with
  | nil => intro s s' a _ _ _ hr; cases hr; exact ⟨rfl, rfl⟩
  | cons e es ih =>
    intro s s' a hi hp hq hr
    obtain ⟨s1, a1, a2, h1, h2, h3⟩ := run_cons_some hr
    have he := hq e (by simp)
    have hs : s1 = s ∧ a1 = [] := by
      have hm := step_move h1
      cases hm with
      | nothing _ _ _ _ _ => exact ⟨rfl, rfl⟩
      | request _ t g now ok hrq _ _ _ => rw [he.1] at hrq; cases hrq
      | cancel => exact absurd rfl he.2.1
      | untest now ok hm hp' => rcases hp' with h | h <;> simp [hp] at h
      | test t now ok hm ht hp' => rcases hp' with h | h <;> simp [hp] at h
      | timer ok ht => simp [isTimer] at he
    rw [hs.1] at h2
    obtain ⟨q1, q2⟩ := ih hi hp (fun x hx => hq x (List.mem_cons_of_mem _ hx)) h2
    exact ⟨q1, by rw [h3, hs.2, q2]; rfl⟩

/-- Nothing but the timer affects a leap second in progress. -/
theorem wait_pre {c : Cfg} (h : List Ev) : ∀ {s s' : St} {a : List Act}, Inv c s →
    s.phase = .pre → NoTimer h → Leap.run c s h = some (s', a) → s' = s ∧ a = [] := by
  induction h with
  | nil => intro s s' a _ _ _ hr; cases hr; exact ⟨rfl, rfl⟩
  | cons e es ih =>
    intro s s' a hi hp hq hr
    obtain ⟨s1, a1, a2, h1, h2, h3⟩ := run_cons_some hr
    have he := hq e (by simp)
    have hs : s1 = s ∧ a1 = [] := by
      have hm := step_move h1
      cases hm with
      | nothing _ _ _ _ _ => exact ⟨rfl, rfl⟩
      | request _ t g now ok hrq _ _ hp' => rcases hp' with h | h | h <;> simp [hp] at h
      | cancel => exact ⟨cancel_of_pre hp, rfl⟩
      | untest now ok hm hp' => rcases hp' with h | h <;> simp [hp] at h
      | test t now ok hm ht hp' => rcases hp' with h | h <;> simp [hp] at h
      | timer ok ht => simp [isTimer] at he
    rw [hs.1] at h2
    obtain ⟨q1, q2⟩ := ih hi hp (fun x hx => hq x (List.mem_cons_of_mem _ hx)) h2
    exact ⟨q1, by rw [h3, hs.2, q2]; rfl⟩

/-- An accepted request. -/
theorem accepted {c : Cfg} {s s' : St} {e : Ev} {a : List Act} {t : LType} {g n : Int}
    (hs : active s = true) (hr : request c.testMode e = some (t, g, some n, true))
    (h : Leap.step c s e = some (s', a)) :
    t ≠ .none ∧ a = [] ∧ s'.phase = .scheduled ∧ s'.type = t ∧ s'.time = dayEnd t n ∧
      s'.guard = clampGuard g ∧ s'.timer = some (dayEnd t n - clampGuard g) := by
  have hm := step_move h
  cases hm with
  | nothing _ hrq _ _ _ =>
    rcases hrq with h | h | h
    · rw [hr] at h; cases h
    · simp [active, h] at hs
    · simp [active, h] at hs
  | request _ t' g' now ok hrq htn hg hp =>
    rw [hr] at hrq
    simp only [Option.some.injEq, Prod.mk.injEq] at hrq
    obtain ⟨r1, r2, r3, r4⟩ := hrq
    subst r1 r2 r3 r4
    obtain ⟨f1, f2, f3, f4, f5, f6, f7, f8⟩ := scheduleAt_ok c (Leap.cancel c s) t (clampGuard g) n
    exact ⟨htn, rfl, f1, f2, f3, f4, f5⟩
  | cancel => simp [request] at hr
  | untest now ok hm hp' => simp [request] at hr
  | test t now ok hm ht hp' => simp [request] at hr
  | timer ok ht => simp [request] at hr

end Verif.Leap
