import Verif.Leap.Support

set_option linter.unusedSimpArgs false
set_option linter.unusedVariables false

/-!
# Properties of leap seconds
-/

namespace Verif.Leap

open Spec

/-- Noon of 31 December 2016, and the moments of a leap second of that day. -/
def noon : Int := 1483185600 * 1000000000
def midnight : Int := 1483228800 * 1000000000

def stepping : Cfg := ⟨.slewAndStep, false, false⟩
def forward : Cfg := ⟨.stepForward, false, false⟩

/-! ## C79: the clocks are stepped once, in the right direction, at the right time -/

/-- Whenever the clocks are stepped, there was a request for a leap second that was neither
cancelled nor replaced before the guard interval; the timer has expired once before, armed for the
start of the guard interval, and once now, armed for the moment of the leap second of the day of
the request; and the step is by the shift of that leap second. -/
theorem C79_cause (c : Cfg) (m : Nat) (h : List Ev) (e : Ev) (s s' : St) (a a' : List Act)
    (k : Int) (hr : run c (init m) h = some (s, a)) (hs : step c s e = some (s', a'))
    (hk : Act.step k ∈ a') :
    isTimer e = true ∧ a' = [.step k] ∧
    ∃ h1 q h2 h3 t g n x y s0 a0,
      h = (h1 ++ q :: h2) ++ Ev.timer true :: h3 ∧
      request c.testMode q = some (t, g, some n, true) ∧ t ≠ .none ∧
      Quiet c.testMode h2 ∧ NoTimer h3 ∧
      run c (init m) (h1 ++ q :: h2) = some (s0, a0) ∧ s0.timer = some (x - y) ∧
      s.timer = some x ∧ (0 ≤ n → IsMoment t n x) ∧ IsGuard g y ∧
      k = shift t ∧ mayStep c.ctrl t = true := by
  obtain ⟨hi, hh⟩ := reach h hr
  obtain ⟨q1, q2, q3, q4, q5⟩ := step_acts hi (step_move hs) hk
  obtain ⟨h0, h3, s0, a0, h1, e1, h2, t, g, n, p1, p2, p3, p4, p5, p6, p7, p8⟩ := hh.pre q2
  refine ⟨q1, q3, h1, e1, h2, h3, t, g, n, dayEnd t n, clampGuard g, s0, a0, ?_, p3.req, p3.some,
    p3.quiet, p4, ?_, p3.timer, p8, dayEnd_moment t n, clampGuard_guard g, ?_, ?_⟩
  · rw [p1, p3.hist]
  · rw [← p3.hist]; exact p2
  · rw [← p5]; exact q4
  · rw [← stepPolicy_iff, ← p5]; exact q5

/-- Each request steps the clocks at most once. -/
theorem C79_once (c : Cfg) (m : Nat) (h : List Ev) (s : St) (a : List Act)
    (hr : run c (init m) h = some (s, a)) :
    (steps a).length ≤ requests c.testMode h := by
  have := run_count h hr
  omega

/-- A request made while no leap second is in progress is carried out, unless it is cancelled or
replaced before the guard interval: the second expiry steps the clocks if the policy admits it,
whatever else is received, cancellations included, and arms the timer for the end of the guard
interval after the leap second. -/
theorem C79_applied (c : Cfg) (m : Nat) (h : List Ev) (s s' : St) (a a' : List Act)
    (q : Ev) (t : LType) (g n : Int) (h2 h3 : List Ev) (ok : Bool)
    (hr : run c (init m) h = some (s, a)) (hs : active s = true)
    (hq : request c.testMode q = some (t, g, some n, true))
    (hq2 : Quiet c.testMode h2) (hq3 : NoTimer h3)
    (hr2 : run c s (q :: (h2 ++ Ev.timer true :: (h3 ++ [Ev.timer ok]))) = some (s', a')) :
    a' = (if mayStep c.ctrl t = true then [.step (shift t)] else []) ∧
    ∃ x y, (0 ≤ n → IsMoment t n x) ∧ IsGuard g y ∧
      (ok = true → s'.timer = some (x + y) ∧ active s' = false) := by
  obtain ⟨hi, _⟩ := reach h hr
  obtain ⟨s1, a1, b1, r1, r2, r3⟩ := run_cons_some hr2
  obtain ⟨f0, f1, f2, f3, f4, f5, f6⟩ := accepted hs hq r1
  have hi1 := hi.step r1
  obtain ⟨s2, a2, b2, r4, r5, r6⟩ := run_split r2
  obtain ⟨g1, g2⟩ := wait_quiet h2 hi1 f2 hq2 r4
  subst g1 g2
  obtain ⟨s3, a3, b3, r7, r8, r9⟩ := run_cons_some r5
  have hi3 := hi1.step r7
  have e3 : step c s2 (.timer true) = some (expired c s2 true) := by
    simp only [step]; rw [if_neg (by rw [f6]; simp)]
  rw [e3, expired_scheduled f2] at r7
  simp only [if_true, Option.some.injEq, Prod.mk.injEq] at r7
  obtain ⟨t1, t2⟩ := r7
  have p3 : s3.phase = .pre := by rw [← t1]
  have ty3 : s3.type = t := by rw [← t1]; exact f3
  have tm3 : s3.timer ≠ none := by rw [← t1]; simp
  have ti3 : s3.time = dayEnd t n := by rw [← t1]; exact f4
  have gu3 : s3.guard = clampGuard g := by rw [← t1]; exact f5
  obtain ⟨s4, a4, b4, r10, r11, r12⟩ := run_split r8
  obtain ⟨g3, g4⟩ := wait_pre h3 hi3 p3 hq3 r10
  subst g3 g4
  obtain ⟨s5, a5, b5, r13, r14, r15⟩ := run_cons_some r11
  have e5 : step c s4 (.timer ok) = some (expired c s4 ok) := by
    simp only [step]; rw [if_neg tm3]
  rw [e5, expired_pre p3] at r13
  simp only [Option.some.injEq, Prod.mk.injEq] at r13
  cases r14
  refine ⟨?_, dayEnd t n, clampGuard g, dayEnd_moment t n, clampGuard_guard g, ?_⟩
  swap
  · rintro rfl
    rw [← r13.1]
    simp [ti3, gu3, active]
  rw [r3, f1, r6, r9, ← t2, r12, r15, ← r13.2, ty3, stepPolicy_iff]
  simp only [List.nil_append, List.append_nil]
  cases t with
  | none => exact absurd rfl f0
  | l59 => rfl
  | l61 => rfl

/-- In a test only the UTC offset is changed, and only in the mode of tests. -/
theorem C79_test (c : Cfg) (m : Nat) (h : List Ev) (e : Ev) (s s' : St) (a a' : List Act)
    (k : Int) (hr : run c (init m) h = some (s, a)) (hs : step c s e = some (s', a'))
    (hk : Act.utcOffset k ∈ a') :
    c.testMode = true ∧ isTimer e = true ∧ a' = [.utcOffset k] ∧
    ∃ h1 h2 t n x, h = h1 ++ Ev.test t (some n) true :: h2 ∧ t ≠ .none ∧
      Quiet c.testMode h2 ∧ s.timer = some x ∧ (0 ≤ n → IsMoment t n x) ∧ k = - shift t := by
  obtain ⟨hi, hh⟩ := reach h hr
  have hm := step_move hs
  cases hm with
  | nothing _ hrq hc ht hx => cases hk
  | request _ t g now ok hrq htn hg hp => cases hk
  | cancel => cases hk
  | untest now ok hm hp => cases hk
  | test t now ok hm ht hp => cases hk
  | timer ok ht =>
    cases hp : s.phase with
    | idle => exact absurd (hi.timer.2 hp) ht
    | scheduled => rw [expired_scheduled hp] at hk; cases ok <;> cases hk
    | pre =>
      rw [expired_pre hp] at hk
      cases hpol : stepPolicy c s.type with
      | false => simp [hpol] at hk
      | true =>
        simp only [hpol, if_true] at hk
        cases hty : s.type <;> simp [leapNow, hty] at hk
    | post => rw [expired_post hp] at hk; cases hk
    | test =>
      obtain ⟨h1, h2, t, n, q1, q2, q3, q4, q5, q6, q7⟩ := hh.test hp
      rw [expired_test hp] at hk ⊢
      simp only [List.mem_singleton, Act.utcOffset.injEq] at hk
      refine ⟨q2, rfl, by rw [hk], h1, h2, t, n, dayEnd t n, q1, q3, q4, q7, dayEnd_moment t n, ?_⟩
      rw [hk, q6]
      cases t with
      | none => exact absurd rfl q3
      | l59 => rfl
      | l61 => rfl

/-- A deleted second, asked for at noon, with a cancellation that comes too late. -/
example :
    run stepping (init 1) [.schedule .l59 (4 * 1000000000) (some noon) true, .timer true, .cancel,
      .timer true] =
      some (⟨.post, .none, midnight - 1000000000, 4 * 1000000000,
        some (midnight + 3 * 1000000000), [suspended], .none, .l59⟩, [.step 1]) := by decide

/-- A request that is replaced; a cancelled one. -/
example :
    (run stepping (init 1) [.schedule .l59 (4 * 1000000000) (some noon) true,
      .schedule .l61 1000000000 (some noon) true, .timer true, .timer true]).map (·.2) =
      some [.step (-1)] ∧
    (run stepping (init 1) [.schedule .l59 (4 * 1000000000) (some noon) true, .cancel, .timer true,
      .timer true]).map (·.2) = some [] := by decide

example : IsMoment .l61 noon midnight ∧ IsMoment .l59 noon (midnight - 1000000000) :=
  ⟨⟨17166, by decide⟩, ⟨17166, by decide⟩⟩

example :
    (run ⟨.noStep, true, false⟩ (init 1) [.test .l61 (some noon) true, .timer true]).map (·.2) =
      some [.utcOffset 1] := by decide

/-! ## C80: synchronization is suspended around the leap second and resumed after it -/

/-- The instances process timestamps exactly when the engine synchronizes clocks. -/
def C80_resumed_statement : Prop :=
  ∀ (c : Cfg) (m : Nat) (h : List Ev) (s : St) (a : List Act),
    run c (init m) h = some (s, a) →
    ∀ f ∈ s.flags, f = if active s = true then normal else suspended

/-- If the timer cannot be restarted at the moment of the leap second, the engine considers it
over, and the instances stay suspended; to cancel has no effect. -/
theorem C80_resumed_violated : ¬ C80_resumed_statement := by
  intro h
  have := h stepping 1 [.schedule .l61 (4 * 1000000000) (some noon) true, .timer true,
    .timer false, .cancel] _ _ rfl suspended (by decide)
  revert this
  decide

/-- As long as the timer can be started. -/
theorem C80_resumed_partial (c : Cfg) (m : Nat) (h : List Ev) (s : St) (a : List Act)
    (hr : run c (init m) h = some (s, a)) (hw : ∀ e ∈ h, timerWorks e = true) :
    ∀ f ∈ s.flags, f = if active s = true then normal else suspended := by
  intro f hf
  have := (reach_tidy h hr hw).flags f hf
  rw [this]
  cases hp : s.phase <;> simp [active, hp]

theorem C80_after_partial (c : Cfg) (m : Nat) (h : List Ev) (s : St) (a : List Act)
    (hr : run c (init m) h = some (s, a)) (hw : ∀ e ∈ h, timerWorks e = true) :
    ∃ s' a', run c s [.timer true, .timer true, .timer true] = some (s', a') ∧
      active s' = true ∧ (∀ f ∈ s'.flags, f = normal) ∧ s'.timer = none ∧ s'.told = .none ∧
      s'.kernel = .none := by
  have hstep : ∀ (s : St) (ok : Bool), ∃ p, step c s (.timer ok) = some p := by
    intro s ok
    simp only [step]
    split
    · exact ⟨_, rfl⟩
    · exact ⟨_, rfl⟩
  have hd : ∀ s : St, Inv c s → ∀ s1 a1, step c s (.timer true) = some (s1, a1) →
      (s.phase = .idle → s1.phase = .idle) ∧ (s.phase = .scheduled → s1.phase = .pre) ∧
      (s.phase = .pre → s1.phase = .post) ∧ (s.phase = .post → s1.phase = .idle) ∧
      (s.phase = .test → s1.phase = .idle) := by
    intro s hi s1 a1 h1
    simp only [step] at h1
    by_cases ht : s.timer = none
    · rw [if_pos ht] at h1
      have := hi.timer.1 ht
      cases h1
      simp [this]
    · rw [if_neg ht, Option.some.injEq] at h1
      have hf : s1 = (expired c s true).1 := by rw [h1]
      have hn : s.phase ≠ .idle := fun h => ht (hi.timer.2 h)
      refine ⟨fun h => absurd h hn, fun h => ?_, fun h => ?_, fun h => ?_, fun h => ?_⟩
      · rw [hf, expired_scheduled h]; rfl
      · rw [hf, expired_pre h]; rfl
      · rw [hf, expired_post h]; exact cancel_phase c s (by simp [h])
      · rw [hf, expired_test h]; exact cancel_phase c s (by simp [h])
  obtain ⟨⟨s1, a1⟩, h1⟩ := hstep s true
  obtain ⟨⟨s2, a2⟩, h2⟩ := hstep s1 true
  obtain ⟨⟨s3, a3⟩, h3⟩ := hstep s2 true
  obtain ⟨hi, _⟩ := reach h hr
  have i1 := hi.step h1
  have i2 := i1.step h2
  have i3 := i2.step h3
  have w1 := (reach_tidy h hr hw).step hi rfl (step_move h1)
  have w2 := w1.step i1 rfl (step_move h2)
  have w3 := w2.step i2 rfl (step_move h3)
  have d1 := hd s hi s1 a1 h1
  have d2 := hd s1 i1 s2 a2 h2
  have d3 := hd s2 i2 s3 a3 h3
  have p3 : s3.phase = .idle := by
    cases hp : s.phase with
    | idle => exact d3.1 (d2.1 (d1.1 hp))
    | scheduled => exact d3.2.2.2.1 (d2.2.2.1 (d1.2.1 hp))
    | pre => exact d3.1 (d2.2.2.2.1 (d1.2.2.1 hp))
    | post => exact d3.1 (d2.1 (d1.2.2.2.1 hp))
    | test => exact d3.1 (d2.1 (d1.2.2.2.2 hp))
  refine ⟨s3, a1 ++ (a2 ++ (a3 ++ [])), ?_, by simp [active, p3], fun f hf => ?_, i3.timer.2 p3,
    ?_, w3.kernel (Or.inl p3)⟩
  · simp only [run, h1, h2, h3]
  · rw [w3.flags f hf, p3]; simp
  · rw [w3.told, p3]; simp

example :
    (run stepping (init 2) [.schedule .l61 (4 * 1000000000) (some noon) true, .timer true]).map
      (fun p => (active p.1, p.1.flags, p.1.timer)) =
      some (false, [suspended, suspended], some midnight) := by decide

example :
    (run stepping (init 2) [.schedule .l61 (4 * 1000000000) (some noon) true, .timer true,
      .timer true, .timer true]).map (fun p => (active p.1, p.1.flags, p.1.kernel, p.2)) =
      some (true, [normal, normal], .none, [.step (-1)]) := by decide

/-! ## C81: the policy for the steps of clocks -/

/-- With the policy `step-forward` no clock is put back: neither those of the interfaces, nor the
system clock, by the kernel. -/
def C81_forward_statement : Prop :=
  ∀ (c : Cfg) (m : Nat) (h : List Ev) (s : St) (a : List Act),
    c.ctrl = .stepForward → run c (init m) h = some (s, a) →
    s.kernel ≠ .l61 ∧ ∀ k ∈ steps a, 0 < k

/-- The kernel is told to insert a second, and only that: the test of the type of the leap second
is the opposite of the one made for the clocks of the interfaces. -/
theorem C81_forward_violated : ¬ C81_forward_statement := by
  intro h
  have := (h forward 0 [.schedule .l61 (4 * 1000000000) (some noon) true] _ _ rfl rfl).1
  revert this
  decide

/-- The clocks of the interfaces are never put back. -/
theorem C81_forward_partial (c : Cfg) (m : Nat) (h : List Ev) (s : St) (a : List Act)
    (hc : c.ctrl = .stepForward) (hr : run c (init m) h = some (s, a)) :
    ∀ k ∈ steps a, 0 < k := by
  intro k hk
  obtain ⟨t, h1, h2⟩ := run_steps_mem h hr hk
  rw [hc] at h2
  simp only [mayStep, decide_eq_true_eq] at h2
  rw [h1]; exact h2

/-- The system clock and the clocks of the interfaces are both stepped, or neither is. -/
def C81_agree_statement : Prop :=
  ∀ (c : Cfg) (m : Nat) (h : List Ev) (s : St) (a : List Act),
    run c (init m) h = some (s, a) → c.readOnly = false → s.phase = .pre →
    (s.kernel = s.type ↔ mayStep c.ctrl s.type = true)

theorem C81_agree_violated : ¬ C81_agree_statement := by
  intro h
  have := h forward 0 [.schedule .l59 (4 * 1000000000) (some noon) true, .timer true] _ _ rfl rfl
    rfl
  revert this
  decide

theorem C81_agree_partial (c : Cfg) (m : Nat) (h : List Ev) (s : St) (a : List Act)
    (hc : c.ctrl ≠ .stepForward)
    (hr : run c (init m) h = some (s, a)) (hro : c.readOnly = false)
    (hw : ∀ e ∈ h, timerWorks e = true) (hp : s.phase = .pre) :
    (s.kernel = s.type ↔ mayStep c.ctrl s.type = true) := by
  have h1 := (reach_tidy h hr hw).planned (Or.inr hp)
  obtain ⟨_, hh⟩ := reach h hr
  obtain ⟨h0, h3, s0, a0, h1', e1, h2, t, g, n, p1, p2, p3, p4, p5, p6, p7, p8⟩ := hh.pre hp
  have hne : s.type ≠ .none := by rw [p5]; exact p3.some
  rw [h1]
  cases hctrl : c.ctrl with
  | slewAndStep => simp [kernelPolicy, hctrl, hro, mayStep]
  | stepForward => exact absurd hctrl hc
  | stepAtStartup => simpa [kernelPolicy, hctrl, hro, mayStep] using hne.symm
  | noStep => simpa [kernelPolicy, hctrl, hro, mayStep] using hne.symm
  | noAdjust => simpa [kernelPolicy, hctrl, hro, mayStep] using hne.symm
  | stepOnFirstLock => simpa [kernelPolicy, hctrl, hro, mayStep] using hne.symm

/-- A policy that forbids steps: no clock is ever stepped, nor is the kernel told. -/
theorem C81_never (c : Cfg) (m : Nat) (h : List Ev) (s : St) (a : List Act)
    (hc : c.ctrl ≠ .slewAndStep) (hc2 : c.ctrl ≠ .stepForward)
    (hr : run c (init m) h = some (s, a)) : steps a = [] ∧ s.kernel = .none := by
  constructor
  · cases hs : steps a with
    | nil => rfl
    | cons k ks =>
      obtain ⟨t, _, h2⟩ := run_steps_mem h hr (k := k) (by simp [hs])
      revert h2
      cases hctrl : c.ctrl <;> simp_all [mayStep]
  · have := reach_kernel h hr
    unfold Kernel at this
    cases hk : s.kernel with
    | none => rfl
    | l59 => simp [hk, kernelPolicy, hc, hc2] at this
    | l61 => simp [hk, kernelPolicy, hc, hc2] at this

example :
    (run stepping (init 1) [.schedule .l61 (4 * 1000000000) (some noon) true, .timer true]).map
      (fun p => (p.1.phase, p.1.kernel)) = some (.pre, .l61) := by decide

example :
    (run forward (init 1) [.schedule .l59 (4 * 1000000000) (some noon) true, .timer true,
      .timer true]).map (fun p => (p.1.kernel, p.2)) = some (.none, [.step 1]) := by decide

/-! ## C82: to cancel a leap second -/

/-- Before the guard interval and after the leap second a cancellation ends it: nothing is armed,
the clocks are not stepped any more without another request, and, if the timer could always be
started, the instances, the modules and the kernel are as without a leap second.  In between it
has no effect. -/
theorem C82_cancel (c : Cfg) (m : Nat) (h : List Ev) (s : St) (a : List Act)
    (hr : run c (init m) h = some (s, a)) :
    ∃ s', step c s .cancel = some (s', []) ∧
      (s.phase = .pre → s' = s) ∧
      (s.phase ≠ .pre →
        s'.timer = none ∧ active s' = true ∧
        (∀ h' s'' a'', requests c.testMode h' = 0 → run c s' h' = some (s'', a'') →
          steps a'' = []) ∧
        ((∀ e ∈ h, timerWorks e = true) →
          (∀ f ∈ s'.flags, f = normal) ∧ s'.told = .none ∧ s'.kernel = .none)) := by
  obtain ⟨hi, hh⟩ := reach h hr
  refine ⟨cancel c s, rfl, cancel_of_pre, fun hp => ?_⟩
  have hp' := cancel_phase c s hp
  refine ⟨hi.cancel.timer.2 hp', by simp [active, hp'], ?_, ?_⟩
  · intro h' s'' a'' hq hr'
    exact run_no_steps h' hi.cancel (pending_idle hp') hq hr'
  · intro hw
    have ht := (reach_tidy h hr hw).cancel hi
    refine ⟨fun f hf => ?_, ?_, ht.kernel (Or.inl hp')⟩
    · rw [ht.flags f hf, hp']; simp
    · rw [ht.told, hp']; simp

example :
    (run stepping (init 1) [.schedule .l61 (4 * 1000000000) (some noon) true, .cancel]).map (·.1) =
      some ⟨.idle, .l61, midnight, 4 * 1000000000, none, [normal], .none, .none⟩ := by decide

/-! ## C83: no request stops the daemon -/

/-- No command of the control socket stops the daemon by a failed assertion. -/
def C83_abort_statement : Prop :=
  ∀ (c : Cfg) (m : Nat) (h : List Ev) (s : St) (a : List Act) (t : LType) (n : Option Int)
    (ok : Bool), run c (init m) h = some (s, a) → step c s (.testLocal t n ok) ≠ none

/-- The command `testmode=local_leap_second_cancel`. -/
theorem C83_abort_violated : ¬ C83_abort_statement := by
  intro h
  exact h ⟨.slewAndStep, true, false⟩ 0 [] _ _ .none (some noon) true rfl rfl

/-- Only that command does, in the mode of tests, and requests that the PTP module does not
make. -/
theorem C83_abort_partial (c : Cfg) (s : St) (e : Ev) :
    step c s e = none ↔
      (∃ t g n ok, e = .schedule t g n ok ∧ (t = .none ∨ g ≤ 0)) ∨
      (∃ n ok, e = .testLocal .none n ok ∧ c.testMode = true) := by
  have key : ∀ t g n ok, schedule c s t g n ok = none ↔ (t = .none ∨ g ≤ 0) := by
    intro t g n ok
    unfold schedule
    by_cases h : t = .none ∨ g ≤ 0
    · simp [h]
    · rw [if_neg h]
      cases s.phase <;> simp [h]
  cases e with
  | schedule t g n ok => simp [step, key]
  | cancel => simp [step]
  | test t n ok => simp [step]
  | testLocal t n ok =>
    simp only [step, Option.map_eq_none_iff, testLocal]
    cases hm : c.testMode with
    | false => simp
    | true => simp [key, ns]
  | timer ok =>
    simp only [step]
    split <;> simp

example : step stepping (init 1) (.schedule .l59 1 none true) = some (init 1, []) := by decide

end Verif.Leap
