import Verif.PtpServo.Support

set_option linter.unusedSimpArgs false
set_option linter.unusedVariables false

/-!
# C84-C89: the servo of a PTP port
-/

namespace Verif.PtpServo

open Spec
open Verif.Servo (Clock Ctrl KCall)

/-! ## Example data -/

/-- A hardware clock. -/
def exClock : Clock := ⟨none, true, false, 0, 5, 1000, false⟩

/-- Filters that find an offset of `o` ns in anything. -/
def exCfg (ctrl : Ctrl) (o : Rat) : Cfg := ⟨ctrl, 500, fun _ => some (o, 7)⟩

def exIn : In := ⟨false, 3, 0, 0⟩

def at_ (n : Nat) : Time.Ts := ⟨100, n, 0⟩

/-- A delay measurement, control of the clock, and a Sync message. -/
def exSync (i : In) : List Ev :=
  [.s2m (at_ 10) (at_ 20) Time.null, .control true true, .m2s (at_ 30) (at_ 40) Time.null i]

/-! ## C84: authority -/

/-- C84 as wanted: without control of the clock a servo leaves it alone, unless told to step
it. -/
def C84_authority_statement : Prop :=
  ∀ (c : Cfg) (s s' : S) (e : Ev) (a : Acts), s.ctl = false → step c s e = some (s', a) →
    (∀ o k1 k2, e ≠ .command o k1 k2) → a = []

/-- A servo that is reset sets the frequency of its clock, whoever controls it. -/
theorem C84_authority_violated : ¬ C84_authority_statement := by
  intro h
  have := h (exCfg .slewAndStep 0) (init exClock 0 0).1 _ (.reset 0) _ rfl rfl
    (by intro o k1 k2 he; cases he)
  revert this
  decide +kernel

/-- C84: a measurement reaches the clock only while the servo has control of it.  Without control
the clock is touched only by the command to step it and by a reset or change of clock; the latter
two only ask for the saved correction of the frequency.  Control is gained and lost by control
messages alone. -/
theorem C84_authority_partial (c : Cfg) (s s' : S) (e : Ev) (a : Acts)
    (h : step c s e = some (s', a)) :
    (∀ x, (Src.measured, x) ∈ a → s.ctl = true ∧ s.proc = true ∧ ∃ tx rx corr i, e = .m2s tx rx corr i) ∧
    (∀ x, (Src.command, x) ∈ a → ∃ o k1 k2, e = .command o k1 k2) ∧
    (∀ x, (Src.reset, x) ∈ a → ∃ cl k, x ∈ (cl.adjustFreq cl.freqCorr k).2 ∧ (∃ t v, x = .rate t v) ∧
      ((e = .reset k ∧ cl = s.clock) ∨ e = .setClock cl k ∨
        ((∃ k', e = .reinit k k' ∨ e = .reinit k' k) ∧ cl = s.clock))) ∧
    (s'.ctl ≠ s.ctl → ∃ p q, e = .control p q ∧ s'.ctl = q) ∧
    (s'.proc ≠ s.proc → ∃ p q, e = .control p q ∧ s'.proc = p) := by
  have hm := step_move h
  cases hm with
  | skipM2S | restM2S | outM2S | skip | miss | save =>
    exact ⟨fun x hx => (nomatch hx), fun x hx => (nomatch hx), fun x hx => (nomatch hx),
      fun hx => absurd rfl hx, fun hx => absurd rfl hx⟩
  | take _ t b _ hp he hs =>
    rcases hs with rfl | rfl | ⟨o, d, _, rfl⟩ <;>
    exact ⟨fun x hx => (nomatch hx), fun x hx => (nomatch hx), fun x hx => (nomatch hx),
      fun hx => absurd rfl hx, fun hx => absurd rfl hx⟩
  | control proc ctl =>
    refine ⟨fun x hx => (nomatch hx), fun x hx => (nomatch hx), fun x hx => (nomatch hx),
      fun _ => ⟨_, _, rfl, by rw [control_frame]⟩, fun _ => ⟨_, _, rfl, by rw [control_frame]⟩⟩
  | goodM2S tx rx corr i t o d _ _ hp hu hf hx =>
    have hk := hx.keep
    have hctl : (∃ p, p ∈ a) → s.ctl = true := by
      rintro ⟨p, hp'⟩
      cases hx with
      | guarded => cases hp'
      | idle => cases hp'
      | stepped ho hl hc => exact hc
      | maximal ho hl hc => exact hc
      | fixed ho hl hc => exact hc
      | slewed ho hl hc => exact hc
      | watched => cases hp'
    have hsrc : ∀ p ∈ a, p.1 = Src.measured := by
      intro p hp'
      cases hx with
      | guarded => cases hp'
      | idle => cases hp'
      | stepped ho hl hc hpm =>
        rw [(stepClock_frame c _ .measured _ _ _ (permitted_adjust hpm)).2, List.mem_append] at hp'
        rcases hp' with hp' | hp' <;> exact (mem_map_src hp').1
      | maximal => exact (mem_map_src hp').1
      | fixed => cases hp'
      | slewed => exact (mem_map_src hp').1
      | watched => cases hp'
    refine ⟨fun x hx => ⟨hctl ⟨_, hx⟩, hp, tx, rx, corr, i, rfl⟩, fun x hx => ?_, fun x hx => ?_,
      fun hx => absurd hk.2.1 hx, fun hx => absurd hk.1 hx⟩
    · exact absurd (hsrc _ hx) (by simp)
    · exact absurd (hsrc _ hx) (by simp)
  | reset k =>
    rw [(reset_frame s k).1, (reset_frame s k).2]
    refine ⟨fun x hx => absurd (mem_map_src hx).1 (by simp), fun x hx =>
      absurd (mem_map_src hx).1 (by simp), fun x hx => ?_, fun hx => absurd rfl hx,
      fun hx => absurd rfl hx⟩
    exact ⟨s.clock, k, (mem_map_src hx).2, adjustFreq_rate (mem_map_src hx).2, Or.inl ⟨rfl, rfl⟩⟩
  | setClock cl k =>
    have e := resetFreq_frame { s with clock := cl } .reset k
    unfold setClock
    rw [e.1, e.2]
    refine ⟨fun x hx => absurd (mem_map_src hx).1 (by simp), fun x hx =>
      absurd (mem_map_src hx).1 (by simp), fun x hx => ?_, fun hx => absurd rfl hx,
      fun hx => absurd rfl hx⟩
    exact ⟨cl, k, (mem_map_src hx).2, adjustFreq_rate (mem_map_src hx).2, Or.inr (Or.inl rfl)⟩
  | reinit k1 k2 =>
    rw [control_frame, (init_frame s.clock k1 k2).2]
    refine ⟨fun x hx => ?_, fun x hx => ?_, fun x hx => ?_, fun hx => absurd rfl hx,
      fun hx => absurd rfl hx⟩
    · rw [List.mem_append] at hx
      rcases hx with hx | hx <;> exact absurd (mem_map_src hx).1 (by simp)
    · rw [List.mem_append] at hx
      rcases hx with hx | hx <;> exact absurd (mem_map_src hx).1 (by simp)
    · rw [List.mem_append] at hx
      rcases hx with hx | hx
      · exact ⟨s.clock, k1, (mem_map_src hx).2, adjustFreq_rate (mem_map_src hx).2,
          Or.inr (Or.inr ⟨⟨k2, Or.inl rfl⟩, rfl⟩)⟩
      · exact ⟨s.clock, k2, (mem_map_src hx).2, adjustFreq_rate (mem_map_src hx).2,
          Or.inr (Or.inr ⟨⟨k1, Or.inr rfl⟩, rfl⟩)⟩
  | command o k1 k2 =>
    by_cases hn : c.ctrl = .noAdjust
    · rw [stepClock_blocked _ _ _ _ _ _ hn]
      exact ⟨fun x hx => (nomatch hx), fun x hx => (nomatch hx), fun x hx => (nomatch hx),
        fun hx => absurd rfl hx, fun hx => absurd rfl hx⟩
    · obtain ⟨e1, e2⟩ := stepClock_frame c s .command o k1 k2 hn
      rw [e1, e2]
      refine ⟨fun x hx => ?_, fun x hx => ⟨o, k1, k2, rfl⟩, fun x hx => ?_,
        fun hx => absurd rfl hx, fun hx => absurd rfl hx⟩ <;>
      · rw [List.mem_append] at hx
        rcases hx with hx | hx <;> exact absurd (mem_map_src hx).1 (by simp)

example : ∃ s' a, step (exCfg .slewAndStep 9) (init exClock 0 0).1 (.reset 0) = some (s', a) ∧
    (Src.reset, KCall.rate none 328) ∈ a := ⟨_, _, rfl, by decide +kernel⟩

/-- C84: a servo that is never given control makes no adjustment on account of measurements. -/
theorem C84_uncontrolled (c : Cfg) (s s' : S) (h : List Ev) (a : Acts) (hc : s.ctl = false)
    (hn : ∀ p, Ev.control p true ∉ h) (hr : run c s h = some (s', a)) :
    ∀ x, (Src.measured, x) ∉ a := by
  induction h generalizing s a with
  | nil =>
    simp only [run, Option.some.injEq, Prod.mk.injEq] at hr
    rw [← hr.2]; simp
  | cons e h ih =>
    obtain ⟨s1, a1, a2, h1, h2, rfl⟩ := run_cons_some hr
    have hp := C84_authority_partial c s s1 e a1 h1
    have hc1 : s1.ctl = false := by
      by_cases he : s1.ctl = s.ctl
      · rw [he, hc]
      · obtain ⟨p, q, rfl, hq⟩ := hp.2.2.2.1 he
        cases q with
        | false => exact hq
        | true => exact absurd (List.mem_cons_self ..) (hn p)
    intro x hx
    rw [List.mem_append] at hx
    rcases hx with hx | hx
    · have := (hp.1 x hx).1
      rw [hc] at this; cases this
    · exact ih s1 a2 hc1 (fun p hp => hn p (List.mem_cons_of_mem _ hp)) h2 x hx

example : ∃ s' a, run (exCfg .slewAndStep 9) (init exClock 0 0).1
    [.s2m (at_ 10) (at_ 20) Time.null, .control true false, .m2s (at_ 30) (at_ 40) Time.null exIn] =
    some (s', a) ∧ s'.offset = 9 := by
  refine ⟨_, _, rfl, ?_⟩
  decide +kernel

/-! ## C85: when the clock is stepped -/

/-- C85: a step on account of measurements happens only when a Sync message completes a
measurement, the filters' verdict on the data sets since the last reset is an offset that reaches
the threshold, the clustering guard does not object, and the policy permits it; and the step
undoes just that offset. -/
theorem C85_cause (c : Cfg) (s s' : S) (e : Ev) (a : Acts) (x : Rat)
    (h : step c s e = some (s', a)) (hx : (Src.measured, KCall.offset x) ∈ a) :
    ∃ tx rx corr i t d, e = .m2s tx rx corr i ∧ i.out = false ∧ s.ctl = true ∧ s.proc = true ∧
      c.filter (t :: s.seen) = some (-x, d) ∧ t.m2s = ⟨true, tx, rx, corr⟩ ∧
      Large c.threshold x ∧ Permitted c.ctrl s.firstUpdated x ∧ Writable s.clock ∧
      s'.firstUpdated = true ∧ measuredSteps a = [x] := by
  have hm := step_move h
  cases hm with
  | skipM2S | restM2S | outM2S | skip | miss | save | control => cases hx
  | take _ t b _ hp he hs => cases hx
  | reset k =>
    rw [(reset_frame s k).2] at hx
    exact absurd (mem_map_src hx).1 (by simp)
  | setClock cl k =>
    unfold setClock at hx
    rw [(resetFreq_frame _ .reset k).2] at hx
    exact absurd (mem_map_src hx).1 (by simp)
  | reinit k1 k2 =>
    rw [(init_frame s.clock k1 k2).2, List.mem_append] at hx
    rcases hx with hx | hx <;> exact absurd (mem_map_src hx).1 (by simp)
  | command o k1 k2 =>
    by_cases hn : c.ctrl = .noAdjust
    · rw [stepClock_blocked _ _ _ _ _ _ hn] at hx; cases hx
    · rw [(stepClock_frame c s .command o k1 k2 hn).2, List.mem_append] at hx
      rcases hx with hx | hx <;> exact absurd (mem_map_src hx).1 (by simp)
  | goodM2S tx rx corr i t o d _ _ hp hu hf hxx =>
    cases hxx with
    | guarded => cases hx
    | idle => cases hx
    | fixed => cases hx
    | watched => cases hx
    | maximal ho hl hc hpm hn f hff =>
      obtain ⟨_, _, he⟩ := adjustFreq_rate (mem_map_src hx).2
      cases he
    | slewed ho hl hc f hff =>
      obtain ⟨_, _, he⟩ := adjustFreq_rate (mem_map_src hx).2
      cases he
    | stepped ho hl hc hpm =>
      obtain ⟨e1, e2⟩ := stepClock_frame c { good s t o d with clusterAlarm := false } .measured o i.k1 i.k2
        (permitted_adjust hpm)
      rw [e2, List.mem_append] at hx
      rcases hx with hx | hx
      · obtain ⟨hx1, hw⟩ := adjustTime_offset (mem_map_src hx).2
        simp only [KCall.offset.injEq] at hx1
        subst hx1
        refine ⟨tx, rx, corr, i, t, d, rfl, ho, hc, hp, by simpa using hf, (tsd_update_meas hu).1,
          ?_, hpm, hw, rfl, ?_⟩
        · unfold Large at hl ⊢
          simp only at hl
          rcases hl with hl | hl
          · right; simpa using hl
          · left; exact hl
        · rw [e2]
          simp only [adjustTime_writable hw, List.map_cons, List.map_nil, List.cons_append,
            List.nil_append, measuredSteps, List.filterMap_cons, List.cons.injEq, true_and]
          rw [List.filterMap_eq_nil_iff]
          intro p hp'
          obtain ⟨_, _, he⟩ := adjustFreq_rate (mem_map_src hp').2
          obtain ⟨p1, p2⟩ := p
          simp only at he
          subst he
          cases p1 <;> rfl
      · obtain ⟨_, _, he⟩ := adjustFreq_rate (mem_map_src hx).2
        cases he

/-- C85, converse: when all that holds the clock is stepped. -/
theorem C85_effect (c : Cfg) (s : S) (tx rx corr : Time.Ts) (i : In) (t : Tsd.Tsd) (o d : Rat)
    (hp : s.proc = true) (hc : s.ctl = true) (hu : Tsd.setM2S s.ts tx rx corr = some (t, true))
    (hf : c.filter (t :: s.seen) = some (o, d)) (ho : i.out = false) (hl : Large c.threshold o)
    (hpm : Permitted c.ctrl s.firstUpdated (-o)) (hw : Writable s.clock) :
    ∃ s' a, step c s (.m2s tx rx corr i) = some (s', a) ∧ measuredSteps a = [-o] ∧
      s'.steps = s.steps + 1 ∧ s'.clock.beenLocked = true := by
  have h1 : provideM2S c s tx rx corr = some (good s t o d, true) := by
    unfold provideM2S
    rw [if_neg (by simp [hp]), hu]
    simp only [taken, update, hf]
  have h2 : step c s (.m2s tx rx corr i) = some (updateClock c (good s t o d) i) := by
    simp only [step, h1]
  have hm := updateClock_upd c (good s t o d) i
  obtain ⟨s', a, hq⟩ : ∃ s' a, updateClock c (good s t o d) i = (s', a) := ⟨_, _, rfl⟩
  rw [hq] at hm h2
  refine ⟨s', a, h2, ?_⟩
  cases hm with
  | guarded h => rw [ho] at h; cases h
  | idle _ _ h => simp only at h; rw [hc] at h; cases h
  | maximal _ _ _ h => exact absurd hpm h
  | fixed _ _ _ h => exact absurd h (permitted_adjust hpm)
  | slewed _ h => exact absurd hl h
  | watched _ h => exact absurd hl h
  | stepped _ _ _ _ =>
    refine ⟨?_, by rw [(stepClock_frame c _ .measured _ _ _ (permitted_adjust hpm)).1], rfl⟩
    refine (congrArg measuredSteps (stepClock_frame c _ .measured _ _ _
      (permitted_adjust hpm)).2).trans ?_
    simp only [adjustTime_writable hw, List.map_cons, List.map_nil, List.cons_append,
      List.nil_append, measuredSteps, List.filterMap_cons, List.cons.injEq, true_and]
    rw [List.filterMap_eq_nil_iff]
    intro p hp'
    obtain ⟨_, _, he⟩ := adjustFreq_rate (mem_map_src hp').2
    obtain ⟨p1, p2⟩ := p
    simp only at he
    subst he
    cases p1 <;> rfl

example : ∃ s' a, run (exCfg .stepForward (-900)) (init exClock 0 0).1 (exSync exIn) =
    some (s', a) ∧ measuredSteps a = [900] := by
  refine ⟨_, _, rfl, ?_⟩
  decide +kernel

/-- C85 as wanted for the policies that step once: at most one step on account of measurements in
the life of a port. -/
def C85_startup_statement : Prop :=
  ∀ (c : Cfg) (cl : Clock) (k1 k2 : Int) (h : List Ev) (s' : S) (a : Acts), Once c.ctrl →
    run c (init cl k1 k2).1 h = some (s', a) → (measuredSteps a).length ≤ 1

/-- A port that is initialised again after a fault steps the clock again. -/
theorem C85_startup_violated : ¬ C85_startup_statement := by
  intro h
  have := h (exCfg .stepAtStartup 900) exClock 0 0 (exSync exIn ++ [.reinit 0 0] ++ exSync exIn) _ _
    (Or.inl rfl) rfl
  revert this
  decide +kernel

theorem measuredSteps_append (a b : Acts) :
    measuredSteps (a ++ b) = measuredSteps a ++ measuredSteps b := by
  unfold measuredSteps
  rw [List.filterMap_append]

theorem mem_measuredSteps {a : Acts} {x : Rat} :
    x ∈ measuredSteps a ↔ (Src.measured, KCall.offset x) ∈ a := by
  unfold measuredSteps
  rw [List.mem_filterMap]
  constructor
  · rintro ⟨⟨p1, p2⟩, hp, he⟩
    cases p1 <;> cases p2 <;> simp at he
    subst he; exact hp
  · intro h; exact ⟨_, h, rfl⟩

/-- Only an initialisation forgets that the clock has been adjusted. -/
theorem firstUpdated_keep {c : Cfg} {s s' : S} {e : Ev} {a : Acts} (h : step c s e = some (s', a))
    (hf : s.firstUpdated = true) (hn : ∀ k1 k2, e ≠ .reinit k1 k2) : s'.firstUpdated = true := by
  have hm := step_move h
  cases hm with
  | skipM2S | restM2S | outM2S | skip | miss | save => exact hf
  | take _ t b _ hp he hs => rcases hs with rfl | rfl | ⟨o, d, _, rfl⟩ <;> exact hf
  | control proc ctl => rw [control_frame]; exact hf
  | reset k => rw [(reset_frame s k).1]; exact hf
  | setClock cl k => exact hf
  | reinit k1 k2 => exact absurd rfl (hn k1 k2)
  | command o k1 k2 =>
    by_cases hq : c.ctrl = .noAdjust
    · rw [stepClock_blocked _ _ _ _ _ _ hq]; exact hf
    · rw [(stepClock_frame c s .command o k1 k2 hq).1]; exact hf
  | goodM2S tx rx corr i t o d _ _ hp hu hf' hxx =>
    cases hxx with
    | guarded | idle | watched => exact hf
    | stepped | fixed | maximal | slewed => rfl

/-- C85: under the policies that step once there is at most one step on account of measurements
between initialisations, and none after the clock has been adjusted in any way. -/
theorem C85_startup_partial (c : Cfg) (s s' : S) (h : List Ev) (a : Acts) (ho : Once c.ctrl)
    (hn : ∀ k1 k2, Ev.reinit k1 k2 ∉ h) (hr : run c s h = some (s', a)) :
    (measuredSteps a).length ≤ (if s.firstUpdated then 0 else 1) := by
  induction h generalizing s a with
  | nil =>
    simp only [run, Option.some.injEq, Prod.mk.injEq] at hr
    rw [← hr.2]; simp [measuredSteps]
  | cons e h ih =>
    obtain ⟨s1, a1, a2, h1, h2, rfl⟩ := run_cons_some hr
    have hi := ih s1 a2 (fun k1 k2 hm => hn k1 k2 (List.mem_cons_of_mem _ hm)) h2
    have hne : ∀ k1 k2, e ≠ .reinit k1 k2 := by
      rintro k1 k2 rfl
      exact hn k1 k2 (List.mem_cons_self ..)
    rw [measuredSteps_append, List.length_append]
    have hone : ∀ x, Permitted c.ctrl s.firstUpdated x → s.firstUpdated = false := by
      intro x hp
      rcases ho with ho | ho <;> rw [ho] at hp <;> exact hp
    cases hms : measuredSteps a1 with
    | nil =>
      cases hfu : s.firstUpdated with
      | true =>
        rw [firstUpdated_keep h1 hfu hne] at hi
        simpa using hi
      | false =>
        have : (measuredSteps a2).length ≤ 1 := by
          refine le_trans hi ?_
          cases s1.firstUpdated <;> simp
        simpa using this
    | cons x l =>
      have hx : (Src.measured, KCall.offset x) ∈ a1 := by
        rw [← mem_measuredSteps, hms]; exact List.mem_cons_self ..
      obtain ⟨tx, rx, corr, i, t, d, _, _, _, _, _, _, _, hp, _, hfu, hl⟩ := C85_cause c s s1 e a1 x h1 hx
      rw [hms] at hl
      rw [hfu] at hi
      rw [hl, hone x hp]
      simp only [if_true, Nat.le_zero] at hi
      simp [hi]

example : ∃ s' a, run (exCfg .stepOnFirstLock 900) (init exClock 0 0).1 (exSync exIn ++ exSync exIn) =
    some (s', a) ∧ measuredSteps a = [-900] ∧ s'.freqAdj = -1000 := by
  refine ⟨_, _, rfl, ?_⟩
  decide +kernel

/-- C85: a clock that must not be written to is left alone. -/
theorem C85_readonly (c : Cfg) (s s' : S) (h : List Ev) (a : Acts) (hr : s.clock.readOnly = true)
    (hs : ∀ cl k, Ev.setClock cl k ∈ h → cl.readOnly = true) (hrun : run c s h = some (s', a)) :
    a = [] := by
  have hf : ∀ (cl : Clock) (f : Rat) (k : Int), cl.readOnly = true → (cl.adjustFreq f k).2 = [] := by
    intro cl f k hro
    unfold Clock.adjustFreq
    by_cases h1 : cl.sys = none ∧ cl.hasPhc = false
    · rw [if_pos h1]
    · rw [if_neg h1, if_pos hro]
  have ht : ∀ (cl : Clock) (f : Rat) (k : Int), cl.readOnly = true → (cl.adjustTime f k).2 = [] := by
    intro cl f k hro
    unfold Clock.adjustTime
    by_cases h1 : cl.sys = none ∧ cl.hasPhc = false
    · rw [if_pos h1]
    · rw [if_neg h1, if_pos hro]
  induction h generalizing s a with
  | nil =>
    simp only [run, Option.some.injEq, Prod.mk.injEq] at hrun
    exact hrun.2.symm
  | cons e h ih =>
    obtain ⟨s1, a1, a2, h1, h2, rfl⟩ := run_cons_some hrun
    have key : a1 = [] ∧ s1.clock.readOnly = true := by
      have hm := step_move h1
      cases hm with
      | skipM2S | restM2S | outM2S | skip | miss => exact ⟨rfl, hr⟩
      | save x =>
        refine ⟨rfl, ?_⟩
        simp only [Clock.save]
        split <;> exact hr
      | take _ t b _ hp he hs => rcases hs with rfl | rfl | ⟨o, d, _, rfl⟩ <;> exact ⟨rfl, hr⟩
      | control proc ctl => rw [control_frame]; exact ⟨rfl, hr⟩
      | reset k =>
        rw [(reset_frame s k).1, (reset_frame s k).2, hf _ _ _ hr]; exact ⟨rfl, hr⟩
      | setClock cl k =>
        have hro := hs cl k (List.mem_cons_self ..)
        unfold setClock
        rw [(resetFreq_frame _ .reset k).1, (resetFreq_frame _ .reset k).2, hf _ _ _ hro]
        exact ⟨rfl, hro⟩
      | reinit k1 k2 =>
        rw [control_frame, (init_frame s.clock k1 k2).1, (init_frame s.clock k1 k2).2, hf _ _ _ hr,
          hf _ _ _ hr]
        exact ⟨rfl, hr⟩
      | command o k1 k2 =>
        by_cases hq : c.ctrl = .noAdjust
        · rw [stepClock_blocked _ _ _ _ _ _ hq]; exact ⟨rfl, hr⟩
        · rw [(stepClock_frame c s .command o k1 k2 hq).1, (stepClock_frame c s .command o k1 k2 hq).2,
            hf _ _ _ hr, ht _ _ _ hr]
          exact ⟨rfl, hr⟩
      | goodM2S tx rx corr i t o d _ _ hp hu hf' hxx =>
        refine ⟨?_, hxx.keep.2.2.2.2.2.2.trans hr⟩
        cases hxx with
        | guarded | idle | watched | fixed => rfl
        | maximal ho hl hc hpm hn f hff =>
          rw [(adjust_frame _ _ _ _).2, hf _ _ _ hr]; rfl
        | slewed ho hl hc f hff =>
          rw [(adjust_frame _ _ _ _).2, hf _ _ _ hr]; rfl
        | stepped ho hl hc hpm =>
          rw [(stepClock_frame c _ .measured _ _ _ (permitted_adjust hpm)).2, hf _ _ _ hr,
            ht _ _ _ hr]
          rfl
    rw [key.1, ih s1 a2 key.2 (fun cl k hm => hs cl k (List.mem_cons_of_mem _ hm)) h2]
    rfl

example : ∃ s' a, run (exCfg .slewAndStep 900) (init { exClock with readOnly := true } 0 0).1
    (exSync exIn ++ [.reset 0]) = some (s', a) ∧ s'.steps = 1 := by
  refine ⟨_, _, rfl, ?_⟩
  decide +kernel

/-! ## C86: the frequency -/

/-- C86: the adjustment of the frequency, as reported and as applied, stays within the range of the
clock. -/
theorem C86_range (c : Cfg) (cl : Clock) (k1 k2 : Int) (h : List Ev) (s' : S) (a : Acts)
    (hcl : Sound cl) (hset : ∀ cl' k, Ev.setClock cl' k ∈ h → Sound cl')
    (hr : run c (init cl k1 k2).1 h = some (s', a)) :
    -s'.clock.maxFreq ≤ s'.freqAdj ∧ s'.freqAdj ≤ s'.clock.maxFreq := by
  have main : ∀ (h : List Ev) (s s' : S) (a : Acts), Sound s.clock →
      (-s.clock.maxFreq ≤ s.freqCorr ∧ s.freqCorr ≤ s.clock.maxFreq) →
      (-s.clock.maxFreq ≤ s.freqAdj ∧ s.freqAdj ≤ s.clock.maxFreq) →
      (∀ cl' k, Ev.setClock cl' k ∈ h → Sound cl') → run c s h = some (s', a) →
      -s'.clock.maxFreq ≤ s'.freqAdj ∧ s'.freqAdj ≤ s'.clock.maxFreq := by
    intro h
    induction h with
    | nil =>
      intro s s' a hs hc ha hset hr
      simp only [run, Option.some.injEq, Prod.mk.injEq] at hr
      rw [← hr.1]; exact ha
    | cons e h ih =>
      intro s s' a hs hc ha hset hr
      obtain ⟨s1, a1, a2, h1, h2, rfl⟩ := run_cons_some hr
      have key : Sound s1.clock ∧ (-s1.clock.maxFreq ≤ s1.freqCorr ∧ s1.freqCorr ≤ s1.clock.maxFreq) ∧
          (-s1.clock.maxFreq ≤ s1.freqAdj ∧ s1.freqAdj ≤ s1.clock.maxFreq) := by
        have hm := step_move h1
        cases hm with
        | skipM2S | restM2S | outM2S | skip | miss => exact ⟨hs, hc, ha⟩
        | save x =>
          simp only [Clock.save]
          by_cases hx : x > s.clock.maxFreq ∨ x < -s.clock.maxFreq
          · rw [if_pos hx]; exact ⟨hs, hc, ha⟩
          · rw [if_neg hx]
            rw [not_or, not_lt, not_lt] at hx
            exact ⟨⟨hx.2, hx.1⟩, hc, ha⟩
        | take _ t b _ hp he hs' => rcases hs' with rfl | rfl | ⟨o, d, _, rfl⟩ <;> exact ⟨hs, hc, ha⟩
        | control proc ctl =>
          rw [control_frame]
          refine ⟨hs, ?_, ha⟩
          dsimp only
          split
          · exact hs
          · exact hc
        | reset k => rw [(reset_frame s k).1]; exact ⟨hs, hs, hs⟩
        | setClock cl k =>
          have hro := hset cl k (List.mem_cons_self ..)
          exact ⟨hro, hro, hro⟩
        | reinit k1 k2 =>
          rw [control_frame, (init_frame s.clock k1 k2).1]
          refine ⟨hs, ?_, hs⟩
          dsimp only
          split
          · exact hs
          · exact hs
        | command o k1 k2 =>
          by_cases hq : c.ctrl = .noAdjust
          · rw [stepClock_blocked _ _ _ _ _ _ hq]; exact ⟨hs, hc, ha⟩
          · rw [(stepClock_frame c s .command o k1 k2 hq).1]; exact ⟨hs, hs, hs⟩
        | goodM2S tx rx corr i t o d _ _ hp hu hf' hxx =>
          have hmax : -s.clock.maxFreq ≤ s.clock.maxFreq := le_trans hs.1 hs.2
          cases hxx with
          | guarded | idle | fixed => exact ⟨hs, hc, ha⟩
          | watched => exact ⟨hs, hc, hc⟩
          | maximal ho hl hcc hpm hn f hff =>
            refine ⟨hs, hc, ?_⟩
            subst hff
            simp only [mark, (adjust_frame _ _ _ _).1]
            split
            · exact ⟨hmax, le_refl _⟩
            · exact ⟨le_refl _, hmax⟩
          | slewed ho hl hcc f hff =>
            refine ⟨hs, hc, ?_⟩
            subst hff
            simp only [mark, (adjust_frame _ _ _ _).1]
            split
            · exact ⟨hmax, le_refl _⟩
            · split
              · exact ⟨le_refl _, hmax⟩
              · rename_i g1 g2
                exact ⟨not_lt.1 g2, not_lt.1 g1⟩
          | stepped ho hl hcc hpm =>
            rw [(stepClock_frame c _ .measured _ _ _ (permitted_adjust hpm)).1]
            exact ⟨hs, hs, hs⟩
      exact ih s1 s' a2 key.1 key.2.1 key.2.2 (fun cl' k hm => hset cl' k (List.mem_cons_of_mem _ hm)) h2
  refine main h _ s' a ?_ ?_ ?_ hset hr
  · rw [(init_frame cl k1 k2).1]; exact hcl
  · rw [(init_frame cl k1 k2).1]; exact hcl
  · rw [(init_frame cl k1 k2).1]; exact hcl

example : Sound exClock ∧ ∃ s' a, run (exCfg .noStep 40) (init exClock 0 0).1
    (exSync ⟨false, 4000, 0, 0⟩) = some (s', a) ∧ s'.freqAdj = 1000 :=
  ⟨⟨by decide +kernel, by decide +kernel⟩, _, _, rfl, by decide +kernel⟩

/-- C86: with control and a good measurement, an offset that reaches the threshold but may not be
stepped away is slewed at full rate against its sign; a smaller one is corrected by the saved
correction plus the output of the controller, limited to the range of the clock; and that is what
the clock is asked for. -/
theorem C86_slew (c : Cfg) (s : S) (tx rx corr : Time.Ts) (i : In) (t : Tsd.Tsd) (o d : Rat)
    (hp : s.proc = true) (hc : s.ctl = true) (hu : Tsd.setM2S s.ts tx rx corr = some (t, true))
    (hf : c.filter (t :: s.seen) = some (o, d)) (ho : i.out = false) (hs : Sound s.clock)
    (hn : c.ctrl ≠ .noAdjust) (hl : Large c.threshold o → ¬ Permitted c.ctrl s.firstUpdated (-o)) :
    ∃ s' a, step c s (.m2s tx rx corr i) = some (s', a) ∧
      a = ((s.clock.adjustFreq s'.freqAdj i.k2).2.map fun x => (Src.measured, x)) ∧
      (Large c.threshold o → 0 ≤ o → s'.freqAdj = -s.clock.maxFreq) ∧
      (Large c.threshold o → o < 0 → s'.freqAdj = s.clock.maxFreq) ∧
      (¬ Large c.threshold o → IsClamp s.clock.maxFreq (s.freqCorr + i.pid) s'.freqAdj) ∧
      s'.offset = o ∧ s'.delay = d ∧ s'.freqCorr = s.freqCorr ∧ s'.seen = t :: s.seen ∧
      s'.clock.beenLocked = true := by
  have h1 : provideM2S c s tx rx corr = some (good s t o d, true) := by
    unfold provideM2S
    rw [if_neg (by simp [hp]), hu]
    simp only [taken, update, hf]
  have h2 : step c s (.m2s tx rx corr i) = some (updateClock c (good s t o d) i) := by
    simp only [step, h1]
  have hm := updateClock_upd c (good s t o d) i
  obtain ⟨s', a, hq⟩ : ∃ s' a, updateClock c (good s t o d) i = (s', a) := ⟨_, _, rfl⟩
  rw [hq] at hm h2
  refine ⟨s', a, h2, ?_⟩
  have hmax : -s.clock.maxFreq ≤ s.clock.maxFreq := le_trans hs.1 hs.2
  cases hm with
  | guarded h => rw [ho] at h; cases h
  | idle _ _ h => simp only at h; rw [hc] at h; cases h
  | stepped _ g1 _ g2 => exact absurd g2 (hl g1)
  | fixed _ _ _ h => exact absurd h hn
  | watched _ _ h => simp only at h; rw [hc] at h; cases h
  | maximal _ hla _ _ _ f hff =>
    subst hff
    refine ⟨rfl, fun _ ho => ?_, fun _ ho => ?_, fun hx => absurd hla hx, rfl, rfl, rfl, rfl, rfl⟩
    · exact if_neg (not_lt.2 ho)
    · exact if_pos ho
  | slewed _ hla _ f hff =>
    refine ⟨rfl, fun hx => absurd hx hla, fun hx => absurd hx hla, fun _ => ?_, rfl, rfl, rfl, rfl,
      rfl⟩
    show IsClamp s.clock.maxFreq (s.freqCorr + i.pid) f
    simp only at hff
    rw [hff]
    unfold IsClamp
    by_cases g1 : s.freqCorr + i.pid > s.clock.maxFreq
    · rw [if_pos g1]
      exact ⟨hmax, le_refl _, fun _ hx => absurd g1 (not_lt.2 hx), fun _ => rfl,
        fun hx => absurd (lt_of_lt_of_le hx hmax) (not_lt.2 (le_of_lt g1))⟩
    · rw [if_neg g1]
      by_cases g2 : s.freqCorr + i.pid < -s.clock.maxFreq
      · rw [if_pos g2]
        exact ⟨le_refl _, hmax, fun hx => absurd g2 (not_lt.2 hx), fun hx => absurd hx g1,
          fun _ => rfl⟩
      · rw [if_neg g2]
        exact ⟨not_lt.1 g2, not_lt.1 g1, fun _ _ => rfl, fun hx => absurd hx g1,
          fun hx => absurd hx g2⟩

example : ∃ s' a, run (exCfg .noStep (-40)) (init exClock 0 0).1 (exSync exIn) = some (s', a) ∧
    s'.freqAdj = 8 := by
  refine ⟨_, _, rfl, ?_⟩
  decide +kernel

/-! ## C87: the clustering guard -/

/-- C87: while the clustering guard objects the clock is left alone and the alarm is raised, being
recorded once when it rises; the first measurement it does not object to clears the alarm.  Nothing
else raises it. -/
theorem C87_guard (c : Cfg) (s s' : S) (e : Ev) (a : Acts) (h : step c s e = some (s', a)) :
    (s.clusterAlarm = false → s'.clusterAlarm = true →
      s'.recorded = s.recorded + 1 ∧ a = [] ∧ s'.firstUpdated = s.firstUpdated ∧
      ∃ tx rx corr i, e = .m2s tx rx corr i ∧ i.out = true) ∧
    (∀ tx rx corr i, e = .m2s tx rx corr i → i.out = true →
      a = [] ∧ s'.freqAdj = s.freqAdj ∧ s'.steps = s.steps ∧ s'.clock = s.clock ∧
      (∀ t o d, s.proc = true → Tsd.setM2S s.ts tx rx corr = some (t, true) →
        c.filter (t :: s.seen) = some (o, d) →
        s'.clusterAlarm = true ∧ s'.offset = o ∧
        s'.recorded = s.recorded + (if s.clusterAlarm then 0 else 1))) ∧
    (∀ tx rx corr i t o d, e = .m2s tx rx corr i → i.out = false → s.proc = true →
      Tsd.setM2S s.ts tx rx corr = some (t, true) → c.filter (t :: s.seen) = some (o, d) →
      s'.clusterAlarm = false) := by
  refine ⟨fun h1 h2 => ?_, ?_, ?_⟩
  · have hm := step_move h
    cases hm with
    | skipM2S | restM2S | outM2S | skip | miss | save => exact absurd (h1.symm.trans h2) (by simp)
    | take _ t b _ hp he hs =>
      rcases hs with rfl | rfl | ⟨o, d, _, rfl⟩ <;> exact absurd (h1.symm.trans h2) (by simp)
    | control proc ctl => rw [control_frame] at h2; exact absurd (h1.symm.trans h2) (by simp)
    | reset k => rw [(reset_frame s k).1] at h2; cases h2
    | setClock cl k => exact absurd (h1.symm.trans h2) (by simp)
    | reinit k1 k2 => rw [control_frame, (init_frame _ _ _).1] at h2; cases h2
    | command o k1 k2 =>
      by_cases hq : c.ctrl = .noAdjust
      · rw [stepClock_blocked _ _ _ _ _ _ hq] at h2; exact absurd (h1.symm.trans h2) (by simp)
      · rw [(stepClock_frame c s .command o k1 k2 hq).1] at h2
        exact absurd (h1.symm.trans h2) (by simp)
    | goodM2S tx rx corr i t o d _ _ hp hu hf' hxx =>
      cases hxx with
      | guarded ho => exact ⟨by simp [h1], rfl, rfl, tx, rx, corr, i, rfl, ho⟩
      | idle | watched | fixed | maximal | slewed => cases h2
      | stepped ho hl hcc hpm =>
        simp only [(stepClock_frame c _ .measured _ _ _ (permitted_adjust hpm)).1, mark] at h2
        cases h2
  · rintro tx rx corr i rfl ho
    have hm := step_move h
    cases hm with
    | skip _ t hp he => rcases he with ⟨_, _, _, he, _⟩ | ⟨_, _, _, _, _, he, _⟩ <;> cases he
    | miss _ t he => rcases he with ⟨he, _⟩ | ⟨he, _⟩ | ⟨he, _⟩ <;> cases he
    | take _ t b _ hp he hs => rcases he with ⟨_, _, _, he, _⟩ | ⟨_, _, _, _, _, he, _⟩ <;> cases he
    | skipM2S _ _ _ _ hp =>
      refine ⟨rfl, rfl, rfl, rfl, fun t o d hp' => ?_⟩
      rw [hp] at hp'; cases hp'
    | restM2S _ _ _ _ t b hp hu =>
      refine ⟨rfl, rfl, rfl, rfl, fun t' o d hp' hu' hf => ?_⟩
      exfalso
      simp only [step] at h
      have h1 : provideM2S c s tx rx corr = some (good s t' o d, true) := by
        unfold provideM2S
        rw [if_neg (by simp [hp]), hu']
        simp only [taken, update, hf]
      rw [h1] at h
      simp only [Option.some.injEq] at h
      have hx := updateClock_upd c (good s t' o d) i
      have hk := hx.keep.2.2.2.1
      rw [h] at hk
      simp at hk
    | outM2S _ _ _ _ t hp hu hf =>
      refine ⟨rfl, rfl, rfl, rfl, fun t' o d hp' hu' hf' => ?_⟩
      rw [hu, Option.some.injEq, Prod.mk.injEq] at hu'
      rw [← hu'.1, hf] at hf'
      cases hf'
    | goodM2S _ _ _ _ t o d _ _ hp hu hf hxx =>
      cases hxx with
      | idle hx => rw [ho] at hx; cases hx
      | watched hx => rw [ho] at hx; cases hx
      | fixed hx => rw [ho] at hx; cases hx
      | maximal hx => rw [ho] at hx; cases hx
      | slewed hx => rw [ho] at hx; cases hx
      | stepped hx => rw [ho] at hx; cases hx
      | guarded _ =>
        refine ⟨rfl, rfl, rfl, rfl, fun t' o' d' hp' hu' hf' => ?_⟩
        rw [hu, Option.some.injEq, Prod.mk.injEq] at hu'
        rw [← hu'.1, hf, Option.some.injEq, Prod.mk.injEq] at hf'
        exact ⟨rfl, hf'.1, rfl⟩
  · rintro tx rx corr i t o d rfl ho hp hu hf
    have h1 : provideM2S c s tx rx corr = some (good s t o d, true) := by
      unfold provideM2S
      rw [if_neg (by simp [hp]), hu]
      simp only [taken, update, hf]
    simp only [step, h1, Option.some.injEq] at h
    have hx := updateClock_upd c (good s t o d) i
    rw [h] at hx
    cases hx with
    | guarded hx => rw [ho] at hx; cases hx
    | idle | watched | fixed | maximal | slewed => rfl
    | stepped ho hl hcc hpm =>
      simp only [(stepClock_frame c _ .measured _ _ _ (permitted_adjust hpm)).1, mark]

example : ∃ s' a, run (exCfg .slewAndStep 900) (init exClock 0 0).1
    (exSync ⟨true, 3, 0, 0⟩ ++ [.m2s (at_ 50) (at_ 60) Time.null ⟨true, 3, 0, 0⟩]) = some (s', a) ∧
    s'.recorded = 1 ∧ s'.clusterAlarm = true ∧ a = [] ∧ s'.offset = 900 := by
  refine ⟨_, _, rfl, ?_⟩
  decide +kernel

/-! ## C88: old measurements are discarded -/

/-- C88: after a step of the clock, by measurement or by command, or a reset, nothing is left of
earlier measurements. -/
theorem C88_fresh (c : Cfg) (s s' : S) (e : Ev) (a : Acts) (h : step c s e = some (s', a))
    (hd : Discards c e ∨ measuredSteps a ≠ []) :
    s'.ts = Tsd.init ∧ Empty s'.ts ∧ s'.seen = [] ∧ s'.offset = 0 ∧ s'.delay = 0 := by
  have hm := step_move h
  cases hm with
  | skipM2S | restM2S | outM2S | save | control =>
    rcases hd with hd | hd
    · exact hd.elim
    · exact absurd (by rfl) hd
  | setClock cl k =>
    rcases hd with hd | hd
    · exact hd.elim
    · obtain ⟨x, hx⟩ := List.exists_mem_of_ne_nil _ hd
      rw [mem_measuredSteps] at hx
      unfold setClock at hx
      rw [(resetFreq_frame _ .reset k).2] at hx
      exact absurd (mem_map_src hx).1 (by simp)
  | skip _ t hp he =>
    rcases hd with hd | hd
    · rcases he with ⟨_, _, _, rfl, _⟩ | ⟨_, _, _, _, _, rfl, _⟩ <;> exact hd.elim
    · exact absurd rfl hd
  | miss _ t he =>
    rcases hd with hd | hd
    · rcases he with ⟨rfl, _⟩ | ⟨rfl, _⟩ | ⟨rfl, _⟩ <;> exact hd.elim
    · exact absurd rfl hd
  | take _ t b _ hp he hs =>
    rcases hd with hd | hd
    · rcases he with ⟨_, _, _, rfl, _⟩ | ⟨_, _, _, _, _, rfl, _⟩ <;> exact hd.elim
    · exact absurd rfl hd
  | reset k => rw [(reset_frame s k).1]; exact ⟨rfl, empty_init, rfl, rfl, rfl⟩
  | reinit k1 k2 =>
    rw [control_frame, (init_frame _ _ _).1]
    cases hp : s.proc <;> exact ⟨rfl, empty_init, rfl, rfl, rfl⟩
  | command o k1 k2 =>
    by_cases hq : c.ctrl = .noAdjust
    · rcases hd with hd | hd
      · exact absurd hq hd
      · rw [stepClock_blocked _ _ _ _ _ _ hq] at hd; exact absurd rfl hd
    · rw [(stepClock_frame c s .command o k1 k2 hq).1]
      exact ⟨rfl, empty_init, rfl, rfl, rfl⟩
  | goodM2S tx rx corr i t o d _ _ hp hu hf hxx =>
    rcases hd with hd | hd
    · exact hd.elim
    · cases hxx with
      | guarded | idle | watched | fixed => exact absurd rfl hd
      | maximal ho hl hcc hpm hn f hff =>
        obtain ⟨x, hx⟩ := List.exists_mem_of_ne_nil _ hd
        rw [mem_measuredSteps] at hx
        obtain ⟨_, _, he⟩ := adjustFreq_rate (mem_map_src hx).2
        cases he
      | slewed ho hl hcc f hff =>
        obtain ⟨x, hx⟩ := List.exists_mem_of_ne_nil _ hd
        rw [mem_measuredSteps] at hx
        obtain ⟨_, _, he⟩ := adjustFreq_rate (mem_map_src hx).2
        cases he
      | stepped ho hl hcc hpm =>
        rw [(stepClock_frame c _ .measured _ _ _ (permitted_adjust hpm)).1]
        exact ⟨rfl, empty_init, rfl, rfl, rfl⟩

/-- One step of provenance. -/
theorem from_step {c : Cfg} {s s' : S} {e : Ev} {a : Acts} {h : List Ev}
    (hs : step c s e = some (s', a)) (ht : From h s.ts) (hl : ∀ t ∈ s.seen, From h t) :
    From (h ++ [e]) s'.ts ∧ ∀ t ∈ s'.seen, From (h ++ [e]) t := by
  have up : ∀ {t : Tsd.Tsd}, From h t → From (h ++ [e]) t := fun ht =>
    From.mono ht (fun _ he => List.mem_append_left _ he)
  have hl' : ∀ t ∈ s.seen, From (h ++ [e]) t := fun t ht => up (hl t ht)
  have hcons : ∀ (t : Tsd.Tsd), From (h ++ [e]) t → ∀ t' ∈ t :: s.seen, From (h ++ [e]) t' := by
    intro t ht t' ht'
    rcases List.mem_cons.1 ht' with rfl | ht'
    · exact ht
    · exact hl' _ ht'
  have hm := step_move hs
  cases hm with
  | skipM2S => exact ⟨(up ht).clearM2S, hl'⟩
  | restM2S _ _ _ _ t b hp hu => exact ⟨ht.setM2S hu, hl'⟩
  | outM2S _ _ _ _ t hp hu hf => exact ⟨ht.setM2S hu, hcons _ (ht.setM2S hu)⟩
  | skip _ t hp he =>
    rcases he with ⟨_, _, _, rfl, rfl⟩ | ⟨_, _, _, _, _, rfl, rfl⟩
    · exact ⟨(up ht).clearS2M, hl'⟩
    · exact ⟨(up ht).clearP2P, hl'⟩
  | miss _ t he =>
    rcases he with ⟨rfl, rfl⟩ | ⟨rfl, rfl⟩ | ⟨rfl, rfl⟩
    · exact ⟨(up ht).clearM2S, hl'⟩
    · exact ⟨(up ht).clearS2M, hl'⟩
    · exact ⟨(up ht).clearP2P, hl'⟩
  | take _ t b _ hp he hs' =>
    have hft : From (h ++ [e]) t := by
      rcases he with ⟨_, _, _, rfl, hu⟩ | ⟨_, _, _, _, _, rfl, hu⟩
      · exact ht.setS2M hu
      · exact ht.setP2P hu
    rcases hs' with rfl | rfl | ⟨o, d, _, rfl⟩
    · exact ⟨hft, hl'⟩
    · exact ⟨hft, hcons _ hft⟩
    · exact ⟨hft, hcons _ hft⟩
  | control proc ctl =>
    rw [control_frame]
    refine ⟨?_, hl'⟩
    dsimp only
    split
    · exact From.empty empty_init
    · exact up ht
  | reset k =>
    rw [(reset_frame s k).1]
    exact ⟨From.empty empty_init, fun t ht => (nomatch ht)⟩
  | setClock cl k => exact ⟨up ht, hl'⟩
  | reinit k1 k2 =>
    rw [control_frame, (init_frame _ _ _).1]
    refine ⟨?_, fun t ht => (nomatch ht)⟩
    dsimp only
    split <;> exact From.empty empty_init
  | command o k1 k2 =>
    by_cases hq : c.ctrl = .noAdjust
    · rw [stepClock_blocked _ _ _ _ _ _ hq]; exact ⟨up ht, hl'⟩
    · rw [(stepClock_frame c s .command o k1 k2 hq).1]
      exact ⟨From.empty empty_init, fun t ht => (nomatch ht)⟩
  | save x => exact ⟨up ht, hl'⟩
  | goodM2S tx rx corr i t o d _ _ hp hu hf hxx =>
    have hft : From (h ++ [.m2s tx rx corr i]) t := ht.setM2S hu
    cases hxx with
    | guarded | idle | watched | fixed | maximal | slewed => exact ⟨hft, hcons _ hft⟩
    | stepped ho hl hcc hpm =>
      rw [(stepClock_frame c _ .measured _ _ _ (permitted_adjust hpm)).1]
      exact ⟨From.empty empty_init, fun t ht => (nomatch ht)⟩

theorem from_run {c : Cfg} {h2 : List Ev} : ∀ {h1 : List Ev} {s s' : S} {a : Acts},
    run c s h2 = some (s', a) → From h1 s.ts → (∀ t ∈ s.seen, From h1 t) →
    From (h1 ++ h2) s'.ts ∧ ∀ t ∈ s'.seen, From (h1 ++ h2) t := by
  induction h2 with
  | nil =>
    intro h1 s s' a hr ht hl
    simp only [run, Option.some.injEq, Prod.mk.injEq] at hr
    rw [← hr.1, List.append_nil]; exact ⟨ht, hl⟩
  | cons e h2 ih =>
    intro h1 s s' a hr ht hl
    obtain ⟨s1, a1, a2, hs, hr', rfl⟩ := run_cons_some hr
    obtain ⟨g1, g2⟩ := from_step hs ht hl
    have := ih hr' g1 g2
    rwa [List.append_assoc] at this

/-- C88: every timestamp in use, in the present data set or in the filters, was provided since the
clock was last stepped or the servo reset. -/
theorem C88_since (c : Cfg) (s s1 s' : S) (h : List Ev) (e : Ev) (a1 a : Acts)
    (h1 : step c s e = some (s1, a1)) (hd : Discards c e ∨ measuredSteps a1 ≠ [])
    (hr : run c s1 h = some (s', a)) :
    From h s'.ts ∧ ∀ t ∈ s'.seen, From h t := by
  obtain ⟨_, g1, g2, _, _⟩ := C88_fresh c s s1 e a1 h1 hd
  have := from_run (h1 := []) hr (From.empty g1) (by rw [g2]; intro t ht; cases ht)
  simpa using this

example : ∃ s' a, run (exCfg .slewAndStep 40) (init exClock 0 0).1
    (exSync exIn ++ [.command 100 0 0] ++ exSync exIn) = some (s', a) ∧ s'.seen.length = 1 := by
  refine ⟨_, _, rfl, ?_⟩
  decide +kernel

/-- C88: while the processing of timestamps is suspended none are held, so that no measurement
combines timestamps from before and after a suspension. -/
theorem C88_suspended (c : Cfg) (cl : Clock) (k1 k2 : Int) (h : List Ev) (s' : S) (a : Acts)
    (hr : run c (init cl k1 k2).1 h = some (s', a)) (hp : s'.proc = false) : Empty s'.ts := by
  have main : ∀ (h : List Ev) (s s' : S) (a : Acts), (s.proc = false → Empty s.ts) →
      run c s h = some (s', a) → s'.proc = false → Empty s'.ts := by
    intro h
    induction h with
    | nil =>
      intro s s' a hi hr
      simp only [run, Option.some.injEq, Prod.mk.injEq] at hr
      rw [← hr.1]; exact hi
    | cons e h ih =>
      intro s s' a hi hr
      obtain ⟨s1, a1, a2, h1, h2, rfl⟩ := run_cons_some hr
      refine ih s1 s' a2 ?_ h2
      intro hp1
      have hm := step_move h1
      cases hm with
      | skipM2S _ _ _ _ hp => exact (hi hp).clearM2S
      | restM2S _ _ _ _ t b hp hu => exact absurd (hp.symm.trans hp1) (by simp)
      | outM2S _ _ _ _ t hp hu hf => exact absurd (hp.symm.trans hp1) (by simp)
      | skip _ t hp he =>
        rcases he with ⟨_, _, _, rfl, rfl⟩ | ⟨_, _, _, _, _, rfl, rfl⟩
        · exact (hi hp).clearS2M
        · exact (hi hp).clearP2P
      | miss _ t he =>
        rcases he with ⟨rfl, rfl⟩ | ⟨rfl, rfl⟩ | ⟨rfl, rfl⟩
        · exact (hi hp1).clearM2S
        · exact (hi hp1).clearS2M
        · exact (hi hp1).clearP2P
      | take _ t b _ hp he hs' =>
        rcases hs' with rfl | rfl | ⟨o, d, _, rfl⟩ <;> exact absurd (hp.symm.trans hp1) (by simp)
      | control proc ctl =>
        rw [control_frame] at hp1 ⊢
        simp only at hp1 ⊢
        cases hs : s.proc with
        | true => rw [if_pos ⟨rfl, hp1⟩]; exact empty_init
        | false => rw [if_neg (by simp)]; exact hi hs
      | reset k => rw [(reset_frame s k).1]; exact empty_init
      | setClock cl k => exact hi hp1
      | reinit k1 k2 =>
        rw [control_frame, (init_frame _ _ _).1]
        dsimp only
        split <;> exact empty_init
      | command o k1 k2 =>
        by_cases hq : c.ctrl = .noAdjust
        · rw [stepClock_blocked _ _ _ _ _ _ hq] at hp1 ⊢; exact hi hp1
        · rw [(stepClock_frame c s .command o k1 k2 hq).1]; exact empty_init
      | save x => exact hi hp1
      | goodM2S tx rx corr i t o d _ _ hp hu hf hxx =>
        have := hxx.keep.1
        rw [hp1] at this
        exact absurd (this.trans hp) (by simp)
  exact main h _ s' a (fun hp => by cases hp) hr hp

example : ∃ s' a, run (exCfg .slewAndStep 40) (init exClock 0 0).1
    [.s2m (at_ 10) (at_ 20) Time.null, .control false true, .s2m (at_ 50) (at_ 60) Time.null] =
    some (s', a) ∧ s'.proc = false := by
  refine ⟨_, _, rfl, ?_⟩
  decide +kernel

/-! ## C89: the alarm for failures to control the clock -/

/-- C89 as wanted: when the clock refuses a step the alarm is raised. -/
def C89_alarm_statement : Prop :=
  ∀ (c : Cfg) (s s' : S) (o : Rat) (k1 k2 : Int) (a : Acts), Writable s.clock → k1 ≠ 0 →
    c.ctrl ≠ .noAdjust → step c s (.command o k1 k2) = some (s', a) → s'.failAlarm = true

/-- The frequency is set after the step, and if that succeeds the alarm is cleared. -/
theorem C89_alarm_violated : ¬ C89_alarm_statement := by
  intro h
  have := h (exCfg .slewAndStep 0) (init exClock 0 0).1 _ 100 22 0 _
    ⟨Or.inr rfl, rfl, rfl⟩ (by decide) (by decide) rfl
  revert this
  decide +kernel

/-- C89 as wanted for resets: when the clock refuses the frequency the alarm is raised. -/
def C89_reset_statement : Prop :=
  ∀ (c : Cfg) (s s' : S) (k : Int) (a : Acts), Writable s.clock → k ≠ 0 →
    step c s (.reset k) = some (s', a) → s'.failAlarm = true

theorem C89_reset_violated : ¬ C89_reset_statement := by
  intro h
  have := h (exCfg .slewAndStep 0) (init exClock 0 0).1 _ 22 _ ⟨Or.inr rfl, rfl, rfl⟩ (by decide) rfl
  revert this
  decide +kernel

theorem adjustFreq_writable {cl : Clock} {f : Rat} {k : Int} (h : (cl.adjustFreq f k).2 ≠ []) :
    (cl.adjustFreq f k).1 = k := by
  unfold Clock.adjustFreq at h ⊢
  by_cases h1 : cl.sys = none ∧ cl.hasPhc = false
  · rw [if_pos h1] at h; exact absurd rfl h
  · rw [if_neg h1] at h ⊢
    by_cases h2 : cl.readOnly = true
    · rw [if_pos h2] at h; exact absurd rfl h
    · rw [if_neg h2] at h ⊢
      by_cases h3 : cl.blocked > 0
      · rw [if_pos h3] at h; exact absurd rfl h
      · rw [if_neg h3]
        dsimp only
        cases cl.sys <;> rfl

theorem adjustFreq_of_time {cl : Clock} {f x : Rat} {k k' : Int} (h : (cl.adjustTime x k').2 ≠ []) :
    (cl.adjustFreq f k).2 ≠ [] := by
  unfold Clock.adjustTime at h
  unfold Clock.adjustFreq
  by_cases h1 : cl.sys = none ∧ cl.hasPhc = false
  · rw [if_pos h1] at h; exact absurd rfl h
  · rw [if_neg h1] at h ⊢
    by_cases h2 : cl.readOnly = true
    · rw [if_pos h2] at h; exact absurd rfl h
    · rw [if_neg h2] at h ⊢
      by_cases h3 : cl.blocked > 0
      · rw [if_pos h3] at h; exact absurd rfl h
      · rw [if_neg h3]
        dsimp only
        cases cl.sys <;> simp

/-- C89: after a measurement or a command that reaches the clock, the alarm tells whether the last
request, for a frequency, was refused; and a measurement or command that does not reach it for want
of control or because of the guard leaves the alarm as it was.  What is missing: the result of the
step itself is lost. -/
theorem C89_alarm_partial (c : Cfg) (s s' : S) (e : Ev) (a : Acts)
    (h : step c s e = some (s', a)) :
    (∀ tx rx corr i, e = .m2s tx rx corr i → a ≠ [] → (s'.failAlarm = true ↔ i.k2 ≠ 0)) ∧
    (∀ o k1 k2, e = .command o k1 k2 → a ≠ [] → (s'.failAlarm = true ↔ k2 ≠ 0)) ∧
    (∀ tx rx corr i, e = .m2s tx rx corr i → s.ctl = false ∨ i.out = true →
      s'.failAlarm = s.failAlarm) ∧
    (s'.failAlarm = true → s.failAlarm = true ∨ (∃ tx rx corr i, e = .m2s tx rx corr i) ∨
      (∃ o k1 k2, e = .command o k1 k2) ∨ ∃ cl k, e = .setClock cl k) := by
  have hfin : ∀ {cl : Clock} {x f : Rat} {k1 k2 : Int} {src : Src},
      ((cl.adjustTime x k1).2.map fun y => (src, y)) ++ ((cl.adjustFreq f k2).2.map fun y => (src, y)) ≠ [] →
      ((decide ((cl.adjustFreq f k2).1 ≠ 0)) = true ↔ k2 ≠ 0) := by
    intro cl x f k1 k2 src hne
    have hq : (cl.adjustFreq f k2).2 ≠ [] := by
      intro hq
      by_cases ht : (cl.adjustTime x k1).2 = []
      · rw [ht, hq] at hne; exact hne rfl
      · exact adjustFreq_of_time ht hq
    rw [adjustFreq_writable hq]
    simp
  have hone : ∀ {cl : Clock} {f : Rat} {k2 : Int} {src : Src},
      ((cl.adjustFreq f k2).2.map fun y => (src, y)) ≠ [] →
      ((decide ((cl.adjustFreq f k2).1 ≠ 0)) = true ↔ k2 ≠ 0) := by
    intro cl f k2 src hne
    rw [adjustFreq_writable (by intro hq; rw [hq] at hne; exact hne rfl)]
    simp
  refine ⟨?_, ?_, ?_, ?_⟩
  · rintro tx rx corr i rfl hne
    have hm := step_move h
    cases hm with
    | skip _ t hp he => exact absurd rfl hne
    | miss _ t he => exact absurd rfl hne
    | take _ t b _ hp he hs => exact absurd rfl hne
    | skipM2S | restM2S | outM2S => exact absurd rfl hne
    | goodM2S _ _ _ _ t o d _ _ hp hu hf hxx =>
      cases hxx with
      | guarded | idle | watched | fixed => exact absurd rfl hne
      | maximal ho hl hcc hpm hn f hff =>
        rw [(adjust_frame _ _ _ _).2] at hne
        exact hone hne
      | slewed ho hl hcc f hff =>
        rw [(adjust_frame _ _ _ _).2] at hne
        exact hone hne
      | stepped ho hl hcc hpm =>
        have e := stepClock_frame c { good s t o d with clusterAlarm := false } .measured o i.k1 i.k2
          (permitted_adjust hpm)
        rw [e.2] at hne
        rw [e.1]
        exact hfin hne
  · rintro o k1 k2 rfl hne
    have hm := step_move h
    cases hm with
    | skip _ t hp he => exact absurd rfl hne
    | miss _ t he => exact absurd rfl hne
    | take _ t b _ hp he hs => exact absurd rfl hne
    | command =>
      by_cases hq : c.ctrl = .noAdjust
      · rw [stepClock_blocked _ _ _ _ _ _ hq] at hne; exact absurd rfl hne
      · rw [(stepClock_frame c s .command o k1 k2 hq).2] at hne
        rw [(stepClock_frame c s .command o k1 k2 hq).1]
        exact hfin hne
  · rintro tx rx corr i rfl hor
    have hm := step_move h
    cases hm with
    | skip _ t hp he => rfl
    | miss _ t he => rfl
    | take _ t b _ hp he hs => rcases hs with rfl | rfl | ⟨o, d, _, rfl⟩ <;> rfl
    | skipM2S | restM2S | outM2S => rfl
    | goodM2S _ _ _ _ t o d _ _ hp hu hf hxx =>
      cases hxx with
      | guarded | idle | watched | fixed => rfl
      | maximal ho hl hcc hpm hn f hff =>
        simp only at hcc
        rw [ho, hcc] at hor; rcases hor with hor | hor <;> cases hor
      | slewed ho hl hcc f hff =>
        simp only at hcc
        rw [ho, hcc] at hor; rcases hor with hor | hor <;> cases hor
      | stepped ho hl hcc hpm =>
        simp only at hcc
        rw [ho, hcc] at hor; rcases hor with hor | hor <;> cases hor
  · intro hf
    have hm := step_move h
    cases hm with
    | skip _ t hp he => exact Or.inl hf
    | miss _ t he => exact Or.inl hf
    | take _ t b _ hp he hs => rcases hs with rfl | rfl | ⟨o, d, _, rfl⟩ <;> exact Or.inl hf
    | skipM2S tx rx corr i => exact Or.inr (Or.inl ⟨tx, rx, corr, i, rfl⟩)
    | restM2S tx rx corr i => exact Or.inr (Or.inl ⟨tx, rx, corr, i, rfl⟩)
    | outM2S tx rx corr i => exact Or.inr (Or.inl ⟨tx, rx, corr, i, rfl⟩)
    | goodM2S tx rx corr i => exact Or.inr (Or.inl ⟨tx, rx, corr, i, rfl⟩)
    | command o k1 k2 => exact Or.inr (Or.inr (Or.inl ⟨o, k1, k2, rfl⟩))
    | setClock cl k => exact Or.inr (Or.inr (Or.inr ⟨cl, k, rfl⟩))
    | control proc ctl => rw [control_frame] at hf; exact Or.inl hf
    | reset k => rw [(reset_frame s k).1] at hf; cases hf
    | reinit k1 k2 => rw [control_frame, (init_frame _ _ _).1] at hf; cases hf
    | save x => exact Or.inl hf

example : ∃ s' a, run (exCfg .slewAndStep 40) (init exClock 0 0).1 (exSync ⟨false, 3, 0, 22⟩) =
    some (s', a) ∧ s'.failAlarm = true := by
  refine ⟨_, _, rfl, ?_⟩
  decide +kernel

end Verif.PtpServo
