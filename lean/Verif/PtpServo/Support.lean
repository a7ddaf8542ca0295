import Verif.PtpServo.Spec
import Mathlib.Tactic.Linarith

set_option linter.unusedSimpArgs false
set_option linter.unusedVariables false

/-!
# Lemmas about the PTP servo
-/

namespace Verif.PtpServo

open Spec
open Verif.Servo (Clock Ctrl KCall)

theorem run_cons_some {c : Cfg} {s s2 : S} {h : List Ev} {e : Ev} {a : Acts}
    (hr : run c s (e :: h) = some (s2, a)) :
    ∃ s1 a1 a2, step c s e = some (s1, a1) ∧ run c s1 h = some (s2, a2) ∧ a = a1 ++ a2 := by
  simp only [run] at hr
  cases h1 : step c s e with
  | none => simp [h1] at hr
  | some p =>
    obtain ⟨s1, a1⟩ := p
    simp only [h1] at hr
    cases h2 : run c s1 h with
    | none => simp [h2] at hr
    | some q =>
      obtain ⟨s2', a2⟩ := q
      simp only [h2, Option.some.injEq, Prod.mk.injEq] at hr
      exact ⟨s1, a1, a2, rfl, by rw [h2, hr.1], hr.2.symm⟩

/-! ## Calls of the clock -/

theorem adjustFreq_rate {c : Clock} {f : Rat} {k : Int} {x : KCall}
    (h : x ∈ (c.adjustFreq f k).2) : ∃ t v, x = .rate t v := by
  unfold Clock.adjustFreq at h
  split at h
  · cases h
  · split at h
    · cases h
    · split at h
      · cases h
      · split at h
        · simp only [List.mem_singleton] at h; exact ⟨_, _, h⟩
        · simp only [List.mem_singleton] at h; exact ⟨_, _, h⟩

theorem adjustTime_offset {c : Clock} {ns : Rat} {k : Int} {x : KCall}
    (h : x ∈ (c.adjustTime ns k).2) : x = .offset ns ∧ Writable c := by
  unfold Clock.adjustTime at h
  by_cases h1 : c.sys = none ∧ c.hasPhc = false
  · rw [if_pos h1] at h; cases h
  · rw [if_neg h1] at h
    by_cases h2 : c.readOnly = true
    · rw [if_pos h2] at h; cases h
    · rw [if_neg h2] at h
      by_cases h3 : c.blocked > 0
      · rw [if_pos h3] at h; cases h
      · rw [if_neg h3] at h
        refine ⟨by simpa using h, ?_, by simpa using h2, by omega⟩
        cases hs : c.sys with
        | none =>
          right
          cases hp : c.hasPhc with
          | true => rfl
          | false => exact absurd ⟨hs, hp⟩ h1
        | some y => left; rfl

theorem adjustTime_writable {c : Clock} {ns : Rat} {k : Int} (h : Writable c) :
    c.adjustTime ns k = (k, [.offset ns]) := by
  obtain ⟨h1, h2, h3⟩ := h
  unfold Clock.adjustTime
  rw [if_neg, if_neg, if_neg]
  · omega
  · simp [h2]
  · rintro ⟨e1, e2⟩
    rcases h1 with h1 | h1
    · simp [e1] at h1
    · simp [e2] at h1

/-! ## Frames -/

theorem adjust_frame (s : S) (src : Src) (f : Rat) (k : Int) :
    (adjust s src f k).1 = { s with failAlarm := decide ((s.clock.adjustFreq f k).1 ≠ 0) } ∧
    (adjust s src f k).2 = (s.clock.adjustFreq f k).2.map fun x => (src, x) := ⟨rfl, rfl⟩

theorem resetFreq_frame (s : S) (src : Src) (k : Int) :
    (resetFreq s src k).1 =
      { s with freqCorr := s.clock.freqCorr, freqAdj := s.clock.freqCorr,
               failAlarm := decide ((s.clock.adjustFreq s.clock.freqCorr k).1 ≠ 0) } ∧
    (resetFreq s src k).2 =
      (s.clock.adjustFreq s.clock.freqCorr k).2.map fun x => (src, x) := ⟨rfl, rfl⟩

theorem reset_frame (s : S) (k : Int) :
    (reset s k).1 =
      { s with ts := Tsd.init, seen := [], offset := 0, delay := 0, freqCorr := s.clock.freqCorr,
               freqAdj := s.clock.freqCorr, failAlarm := false, clusterAlarm := false } ∧
    (reset s k).2 =
      (s.clock.adjustFreq s.clock.freqCorr k).2.map fun x => (.reset, x) := ⟨rfl, rfl⟩

theorem init_frame (cl : Clock) (k1 k2 : Int) :
    (init cl k1 k2).1 =
      { blank cl with freqCorr := cl.freqCorr, freqAdj := cl.freqCorr } ∧
    (init cl k1 k2).2 =
      ((cl.adjustFreq cl.freqCorr k1).2.map fun x => (Src.reset, x)) ++
      ((cl.adjustFreq cl.freqCorr k2).2.map fun x => (Src.reset, x)) := ⟨rfl, rfl⟩

theorem stepClock_frame (c : Cfg) (s : S) (src : Src) (o : Rat) (k1 k2 : Int)
    (h : c.ctrl ≠ .noAdjust) :
    (stepClock c s src o k1 k2).1 =
      { s with steps := s.steps + 1, ts := Tsd.init, seen := [], offset := 0, delay := 0,
               freqCorr := s.clock.freqCorr, freqAdj := s.clock.freqCorr,
               failAlarm := decide ((s.clock.adjustFreq s.clock.freqCorr k2).1 ≠ 0) } ∧
    (stepClock c s src o k1 k2).2 =
      ((s.clock.adjustTime (-o) k1).2.map fun x => (src, x)) ++
      ((s.clock.adjustFreq s.clock.freqCorr k2).2.map fun x => (src, x)) := by
  unfold stepClock
  rw [if_neg h]
  exact ⟨rfl, rfl⟩

theorem stepClock_blocked (c : Cfg) (s : S) (src : Src) (o : Rat) (k1 k2 : Int)
    (h : c.ctrl = .noAdjust) : stepClock c s src o k1 k2 = (s, []) := by
  unfold stepClock
  rw [if_pos h]

theorem control_frame (s : S) (proc ctl : Bool) :
    control s proc ctl =
      { s with proc := proc, ctl := ctl,
               freqCorr := if s.ctl = true ∧ ctl = false then s.clock.freqCorr else s.freqCorr,
               ts := if s.proc = true ∧ proc = false then Tsd.init else s.ts } := by
  obtain ⟨p, q, fu, ts, seen, o, d, fc, fa, al, ca, ou, sa, st, re, cl⟩ := s
  unfold control
  cases p <;> cases q <;> cases ctl <;> cases proc <;> rfl

/-- What a measurement can do. -/
theorem update_cases (c : Cfg) (s : S) :
    (c.filter (s.ts :: s.seen) = none ∧
      update c s = ({ s with seen := s.ts :: s.seen, samples := s.samples + 1,
                             outliers := s.outliers + 1 }, false)) ∨
    (∃ o d, c.filter (s.ts :: s.seen) = some (o, d) ∧
      update c s = ({ s with seen := s.ts :: s.seen, samples := s.samples + 1, offset := o,
                             delay := d }, true)) := by
  unfold update
  cases h : c.filter (s.ts :: s.seen) with
  | none => left; exact ⟨rfl, by simp [h]⟩
  | some p => right; exact ⟨p.1, p.2, rfl, by simp [h]⟩

/-- The intake of timestamps: nothing, a set that is not used, an outlier, or a measurement. -/
theorem taken_cases {c : Cfg} {s s' : S} {r : Option (Tsd.Tsd × Bool)} {b : Bool}
    (h : taken c s r = some (s', b)) :
    ∃ t bt, r = some (t, bt) ∧
      ((b = false ∧ s' = { s with ts := t }) ∨
       (b = false ∧ bt = true ∧ c.filter (t :: s.seen) = none ∧
        s' = { s with ts := t, seen := t :: s.seen, samples := s.samples + 1,
                      outliers := s.outliers + 1 }) ∨
       (∃ o d, b = true ∧ bt = true ∧ c.filter (t :: s.seen) = some (o, d) ∧
        s' = { s with ts := t, seen := t :: s.seen, samples := s.samples + 1, offset := o,
                      delay := d })) := by
  unfold taken at h
  cases r with
  | none => cases h
  | some p =>
    obtain ⟨t, bt⟩ := p
    cases bt with
    | false =>
      simp only [Option.some.injEq, Prod.mk.injEq] at h
      exact ⟨t, false, rfl, Or.inl ⟨h.2.symm, h.1.symm⟩⟩
    | true =>
      simp only [Option.some.injEq] at h
      rcases update_cases c { s with ts := t } with ⟨h1, h2⟩ | ⟨o, d, h1, h2⟩
      · rw [h2, Prod.mk.injEq] at h
        exact ⟨t, true, rfl, Or.inr (Or.inl ⟨h.2.symm, rfl, h1, h.1.symm⟩)⟩
      · rw [h2, Prod.mk.injEq] at h
        exact ⟨t, true, rfl, Or.inr (Or.inr ⟨o, d, h.2.symm, rfl, h1, h.1.symm⟩)⟩

theorem provideM2S_true {c : Cfg} {s s' : S} {tx rx corr : Time.Ts}
    (h : provideM2S c s tx rx corr = some (s', true)) :
    ∃ t o d, s.proc = true ∧ Tsd.setM2S s.ts tx rx corr = some (t, true) ∧
      c.filter (t :: s.seen) = some (o, d) ∧
      s' = { s with ts := t, seen := t :: s.seen, samples := s.samples + 1, offset := o,
                    delay := d } := by
  unfold provideM2S at h
  by_cases hp : s.proc = false
  · rw [if_pos hp] at h
    simp at h
  · rw [if_neg hp] at h
    obtain ⟨t, bt, h1, h2⟩ := taken_cases h
    rcases h2 with ⟨h2, _⟩ | ⟨h2, _⟩ | ⟨o, d, _, h3, h4, h5⟩
    · cases h2
    · cases h2
    · subst h3
      exact ⟨t, o, d, by simpa using hp, h1, h4, h5⟩

theorem absR_large (t x : Rat) : absR x ≥ t ↔ Large t x ∨ x = 0 ∧ t ≤ 0 := by
  unfold absR Large
  split
  · constructor
    · intro h; left; right; exact h
    · rintro ((h | h) | ⟨h, _⟩)
      · linarith
      · exact h
      · linarith
  · constructor
    · intro h; left; left; exact h
    · rintro ((h | h) | ⟨h, h'⟩)
      · exact h
      · linarith
      · linarith

theorem absR_iff (t x : Rat) : absR x ≥ t ↔ Large t x := by
  rw [absR_large]
  unfold Large
  constructor
  · rintro (h | ⟨h, h'⟩)
    · exact h
    · left; linarith
  · intro h; left; exact h

theorem mayStep_iff (c : Cfg) (s : S) :
    mayStep c s = true ↔ Permitted c.ctrl s.firstUpdated (-s.offset) := by
  unfold mayStep Permitted
  cases c.ctrl <;> simp

/-- The update of the clock, case by case. -/
inductive Upd (c : Cfg) (s : S) (i : In) : S → Acts → Prop where
  | guarded (ho : i.out = true) :
      Upd c s i { s with clusterAlarm := true,
                         recorded := s.recorded + if s.clusterAlarm then 0 else 1 } []
  | idle (ho : i.out = false) (hl : Large c.threshold s.offset) (hc : s.ctl = false) :
      Upd c s i { s with clusterAlarm := false } []
  | stepped (ho : i.out = false) (hl : Large c.threshold s.offset) (hc : s.ctl = true)
      (hp : Permitted c.ctrl s.firstUpdated (-s.offset)) :
      Upd c s i (mark (stepClock c { s with clusterAlarm := false } .measured s.offset i.k1
          i.k2).1)
        (stepClock c { s with clusterAlarm := false } .measured s.offset i.k1 i.k2).2
  | maximal (ho : i.out = false) (hl : Large c.threshold s.offset) (hc : s.ctl = true)
      (hp : ¬ Permitted c.ctrl s.firstUpdated (-s.offset)) (hn : c.ctrl ≠ .noAdjust) (f : Rat)
      (hf : f = if s.offset < 0 then s.clock.maxFreq else -s.clock.maxFreq) :
      Upd c s i (mark (adjust { s with clusterAlarm := false, freqAdj := f } .measured f i.k2).1)
        (adjust { s with clusterAlarm := false, freqAdj := f } .measured f i.k2).2
  | fixed (ho : i.out = false) (hl : Large c.threshold s.offset) (hc : s.ctl = true)
      (hn : c.ctrl = .noAdjust) :
      Upd c s i (mark { s with clusterAlarm := false }) []
  | slewed (ho : i.out = false) (hl : ¬ Large c.threshold s.offset) (hc : s.ctl = true) (f : Rat)
      (hf : f = if s.freqCorr + i.pid > s.clock.maxFreq then s.clock.maxFreq
        else if s.freqCorr + i.pid < -s.clock.maxFreq then -s.clock.maxFreq
        else s.freqCorr + i.pid) :
      Upd c s i (mark (adjust { s with clusterAlarm := false, freqAdj := f } .measured f i.k2).1)
        (adjust { s with clusterAlarm := false, freqAdj := f } .measured f i.k2).2
  | watched (ho : i.out = false) (hl : ¬ Large c.threshold s.offset) (hc : s.ctl = false) :
      Upd c s i { s with clusterAlarm := false, freqAdj := s.freqCorr } []

theorem updateClock_upd (c : Cfg) (s : S) (i : In) :
    Upd c s i (updateClock c s i).1 (updateClock c s i).2 := by
  unfold updateClock
  cases ho : i.out with
  | true =>
    rw [if_pos rfl]
    have := Upd.guarded (c := c) (s := s) (i := i) ho
    cases hc : s.clusterAlarm with
    | true =>
      rw [if_pos rfl]
      rw [hc] at this
      have he : { s with clusterAlarm := true, recorded := s.recorded + if true = true then 0 else 1 }
          = s := by
        cases s; simp_all
      rw [he] at this
      exact this
    | false =>
      rw [hc] at this
      simpa using this
  | false =>
    rw [if_neg (by simp)]
    dsimp only
    by_cases hl : absR s.offset ≥ c.threshold
    · rw [if_pos hl]
      have hl' := (absR_iff _ _).1 hl
      unfold bigJump
      cases hc : s.ctl with
      | false =>
        simp only [if_true]
        have := Upd.idle (c := c) (s := s) (i := i) ho hl' hc
        simpa [hc] using this
      | true =>
        simp only [Bool.true_eq_false, if_false]
        by_cases hp : mayStep c { s with clusterAlarm := false } = true
        · rw [hc] at hp
          rw [if_pos hp]
          have hp' : Permitted c.ctrl s.firstUpdated (-s.offset) := by
            have := (mayStep_iff c { s with clusterAlarm := false, ctl := true }).1 hp
            exact this
          have := Upd.stepped (c := c) (s := s) (i := i) ho hl' hc hp'
          simpa [hc] using this
        · rw [hc] at hp
          rw [if_neg hp]
          have hp' : ¬ Permitted c.ctrl s.firstUpdated (-s.offset) := fun h =>
            hp ((mayStep_iff c { s with clusterAlarm := false, ctl := true }).2 h)
          by_cases hn : c.ctrl ≠ .noAdjust
          · rw [if_pos hn]
            have := Upd.maximal (c := c) (s := s) (i := i) ho hl' hc hp' hn _ rfl
            simpa [hc] using this
          · rw [if_neg hn]
            have := Upd.fixed (c := c) (s := s) (i := i) ho hl' hc (by simpa using hn)
            simpa [hc] using this
    · rw [if_neg hl]
      have hl' : ¬ Large c.threshold s.offset := fun h => hl ((absR_iff _ _).2 h)
      unfold slew
      cases hc : s.ctl with
      | true =>
        simp only [if_true]
        have := Upd.slewed (c := c) (s := s) (i := i) ho hl' hc _ rfl
        simpa [hc] using this
      | false =>
        have := Upd.watched (c := c) (s := s) (i := i) ho hl' hc
        simpa [hc] using this

/-! ## Data sets -/

theorem tsd_update_meas {t t' : Tsd.Tsd} {b : Bool} (h : Tsd.update t = some (t', b)) :
    t'.m2s = t.m2s ∧ t'.s2m = t.s2m ∧ t'.s2p = t.s2p ∧ t'.p2s = t.p2s := by
  unfold Tsd.update Tsd.update.finish at h
  simp only [Option.bind_eq_bind, Option.pure_def] at h
  split at h
  · simp only [Option.bind_eq_some_iff, Option.some.injEq, Prod.mk.injEq] at h
    obtain ⟨_, _, _, _, _, _, _, _, h, _⟩ := h
    subst h
    exact ⟨rfl, rfl, rfl, rfl⟩
  · split at h
    · simp only [Option.bind_eq_some_iff, Option.some.injEq, Prod.mk.injEq] at h
      obtain ⟨_, _, _, _, _, _, _, _, h, _⟩ := h
      subst h
      exact ⟨rfl, rfl, rfl, rfl⟩
    · simp only [Option.some.injEq, Prod.mk.injEq] at h
      obtain ⟨h, _⟩ := h
      subst h
      exact ⟨rfl, rfl, rfl, rfl⟩

theorem Spec.From.mono {h h' : List Ev} {t : Tsd.Tsd} (ht : From h t) (hs : ∀ e ∈ h, e ∈ h') :
    From h' t := by
  obtain ⟨h1, h2, h3⟩ := ht
  refine ⟨fun v => ?_, fun v => ?_, fun v => ?_⟩
  · obtain ⟨a, b, d, i, hm, he⟩ := h1 v
    exact ⟨a, b, d, i, hs _ hm, he⟩
  · obtain ⟨a, b, d, hm, he⟩ := h2 v
    exact ⟨a, b, d, hs _ hm, he⟩
  · obtain ⟨a, b, d, e, f, hm, he⟩ := h3 v
    exact ⟨a, b, d, e, f, hs _ hm, he⟩

theorem Spec.From.empty {h : List Ev} {t : Tsd.Tsd} (ht : Empty t) : From h t := by
  obtain ⟨h1, h2, h3, h4⟩ := ht
  refine ⟨fun v => ?_, fun v => ?_, fun v => ?_⟩
  · rw [h1] at v; cases v
  · rw [h2] at v; cases v
  · rw [h3, h4] at v
    rcases v with v | v <;> cases v

theorem empty_init : Empty Tsd.init := ⟨rfl, rfl, rfl, rfl⟩

theorem Spec.From.setM2S {h : List Ev} {t t' : Tsd.Tsd} {tx rx corr : Time.Ts} {i : In} {b : Bool}
    (ht : From h t) (hu : Tsd.setM2S t tx rx corr = some (t', b)) :
    From (h ++ [.m2s tx rx corr i]) t' := by
  obtain ⟨e1, e2, e3, e4⟩ := tsd_update_meas hu
  have hm := From.mono (h' := h ++ [.m2s tx rx corr i]) ht (fun e he => List.mem_append_left _ he)
  refine ⟨fun v => ⟨tx, rx, corr, i, by simp, e1⟩, ?_, ?_⟩
  · rw [e2]; exact hm.2.1
  · rw [e3, e4]; exact hm.2.2

theorem Spec.From.setS2M {h : List Ev} {t t' : Tsd.Tsd} {tx rx corr : Time.Ts} {b : Bool}
    (ht : From h t) (hu : Tsd.setS2M t tx rx corr = some (t', b)) :
    From (h ++ [.s2m tx rx corr]) t' := by
  obtain ⟨e1, e2, e3, e4⟩ := tsd_update_meas hu
  have hm := From.mono (h' := h ++ [.s2m tx rx corr]) ht (fun e he => List.mem_append_left _ he)
  refine ⟨?_, fun v => ⟨tx, rx, corr, by simp, e2⟩, ?_⟩
  · rw [e1]; exact hm.1
  · rw [e3, e4]; intro v; rcases v with v | v <;> cases v

theorem Spec.From.setP2P {h : List Ev} {t t' : Tsd.Tsd} {x y z w corr : Time.Ts} {b : Bool}
    (ht : From h t) (hu : Tsd.setP2P t x y z w corr = some (t', b)) :
    From (h ++ [.p2p x y z w corr]) t' := by
  obtain ⟨e1, e2, e3, e4⟩ := tsd_update_meas hu
  have hm := From.mono (h' := h ++ [.p2p x y z w corr]) ht (fun e he => List.mem_append_left _ he)
  refine ⟨?_, ?_, fun v => ⟨x, y, z, w, corr, by simp, e3, e4⟩⟩
  · rw [e1]; exact hm.1
  · rw [e2]; intro v; cases v

theorem Spec.From.clearM2S {h : List Ev} {t : Tsd.Tsd} (ht : From h t) : From h (Tsd.clearM2S t) :=
  ⟨(fun v => nomatch v), ht.2.1, ht.2.2⟩

theorem Spec.From.clearS2M {h : List Ev} {t : Tsd.Tsd} (ht : From h t) : From h (Tsd.clearS2M t) :=
  ⟨ht.1, (fun v => nomatch v), ht.2.2⟩

theorem Spec.From.clearP2P {h : List Ev} {t : Tsd.Tsd} (ht : From h t) : From h (Tsd.clearP2P t) :=
  ⟨ht.1, ht.2.1, fun v => by rcases v with v | v <;> cases v⟩

theorem Spec.Empty.clearM2S {t : Tsd.Tsd} (ht : Empty t) : Empty (Tsd.clearM2S t) :=
  ⟨rfl, ht.2.1, ht.2.2.1, ht.2.2.2⟩

theorem Spec.Empty.clearS2M {t : Tsd.Tsd} (ht : Empty t) : Empty (Tsd.clearS2M t) :=
  ⟨ht.1, rfl, ht.2.2.1, ht.2.2.2⟩

theorem Spec.Empty.clearP2P {t : Tsd.Tsd} (ht : Empty t) : Empty (Tsd.clearP2P t) :=
  ⟨ht.1, ht.2.1, rfl, rfl⟩

/-! ## Steps -/

/-- The servo with a good measurement. -/
abbrev good (s : S) (t : Tsd.Tsd) (o d : Rat) : S :=
  { s with ts := t, seen := t :: s.seen, samples := s.samples + 1, offset := o, delay := d }

/-- Everything that can happen in a step.  `quiet` events leave all but the data set, the flags
and the saved corrections alone. -/
inductive Move (c : Cfg) (s : S) : Ev → S → Acts → Prop where
  | skipM2S (tx rx corr : Time.Ts) (i : In) (hp : s.proc = false) :
      Move c s (.m2s tx rx corr i) { s with ts := Tsd.clearM2S s.ts } []
  | restM2S (tx rx corr : Time.Ts) (i : In) (t : Tsd.Tsd) (b : Bool) (hp : s.proc = true)
      (hu : Tsd.setM2S s.ts tx rx corr = some (t, b)) :
      Move c s (.m2s tx rx corr i) { s with ts := t } []
  | outM2S (tx rx corr : Time.Ts) (i : In) (t : Tsd.Tsd) (hp : s.proc = true)
      (hu : Tsd.setM2S s.ts tx rx corr = some (t, true)) (hf : c.filter (t :: s.seen) = none) :
      Move c s (.m2s tx rx corr i)
        { s with ts := t, seen := t :: s.seen, samples := s.samples + 1,
                 outliers := s.outliers + 1 } []
  | goodM2S (tx rx corr : Time.Ts) (i : In) (t : Tsd.Tsd) (o d : Rat) (s' : S) (a : Acts)
      (hp : s.proc = true)
      (hu : Tsd.setM2S s.ts tx rx corr = some (t, true)) (hf : c.filter (t :: s.seen) = some (o, d))
      (hx : Upd c (good s t o d) i s' a) :
      Move c s (.m2s tx rx corr i) s' a
  | skip (e : Ev) (t : Tsd.Tsd) (hp : s.proc = false)
      (he : (∃ tx rx corr, e = .s2m tx rx corr ∧ t = Tsd.clearS2M s.ts) ∨
        (∃ x y z w corr, e = .p2p x y z w corr ∧ t = Tsd.clearP2P s.ts)) :
      Move c s e { s with ts := t } []
  | take (e : Ev) (t : Tsd.Tsd) (b : Bool) (s' : S) (hp : s.proc = true)
      (he : (∃ tx rx corr, e = .s2m tx rx corr ∧ Tsd.setS2M s.ts tx rx corr = some (t, b)) ∨
        (∃ x y z w corr, e = .p2p x y z w corr ∧ Tsd.setP2P s.ts x y z w corr = some (t, b)))
      (hs : s' = { s with ts := t } ∨
        s' = { s with ts := t, seen := t :: s.seen, samples := s.samples + 1,
                      outliers := s.outliers + 1 } ∨
        ∃ o d, c.filter (t :: s.seen) = some (o, d) ∧
          s' = { s with ts := t, seen := t :: s.seen, samples := s.samples + 1, offset := o,
                        delay := d }) :
      Move c s e s' []
  | miss (e : Ev) (t : Tsd.Tsd)
      (he : (e = .missM2S ∧ t = Tsd.clearM2S s.ts) ∨ (e = .missS2M ∧ t = Tsd.clearS2M s.ts) ∨
        (e = .missP2P ∧ t = Tsd.clearP2P s.ts)) :
      Move c s e { s with ts := t } []
  | control (proc ctl : Bool) : Move c s (.control proc ctl) (control s proc ctl) []
  | reset (k : Int) : Move c s (.reset k) (reset s k).1 (reset s k).2
  | setClock (cl : Clock) (k : Int) :
      Move c s (.setClock cl k) (setClock s cl k).1 (setClock s cl k).2
  | reinit (k1 k2 : Int) :
      Move c s (.reinit k1 k2) (PtpServo.control (init s.clock k1 k2).1 s.proc s.ctl)
        (init s.clock k1 k2).2
  | command (o : Rat) (k1 k2 : Int) :
      Move c s (.command o k1 k2) (stepClock c s .command o k1 k2).1
        (stepClock c s .command o k1 k2).2
  | save (x : Rat) : Move c s (.save x) { s with clock := s.clock.save x } []

theorem step_move {c : Cfg} {s s' : S} {e : Ev} {a : Acts} (h : step c s e = some (s', a)) :
    Move c s e s' a := by
  cases e with
  | m2s tx rx corr i =>
    simp only [step] at h
    cases hp : s.proc with
    | false =>
      have : provideM2S c s tx rx corr = some ({ s with ts := Tsd.clearM2S s.ts }, false) := by
        unfold provideM2S; rw [if_pos hp]
      rw [this] at h
      simp only [Option.some.injEq, Prod.mk.injEq] at h
      rw [← h.1, ← h.2]
      exact .skipM2S tx rx corr i hp
    | true =>
      have hq : provideM2S c s tx rx corr = taken c s (Tsd.setM2S s.ts tx rx corr) := by
        unfold provideM2S; rw [if_neg (by simp [hp])]
      rw [hq] at h
      cases ht : taken c s (Tsd.setM2S s.ts tx rx corr) with
      | none => rw [ht] at h; cases h
      | some p =>
        obtain ⟨s1, b⟩ := p
        rw [ht] at h
        obtain ⟨t, bt, h1, h2⟩ := taken_cases ht
        rcases h2 with ⟨h2, h3⟩ | ⟨h2, h3, h4, h5⟩ | ⟨o, d, h2, h3, h4, h5⟩
        · subst h2
          simp only [Option.some.injEq, Prod.mk.injEq] at h
          rw [← h.1, ← h.2, h3]
          exact .restM2S tx rx corr i t bt hp h1
        · subst h2
          simp only [Option.some.injEq, Prod.mk.injEq] at h
          rw [← h.1, ← h.2, h5]
          subst h3
          exact .outM2S tx rx corr i t hp h1 h4
        · subst h2
          subst h3
          simp only [Option.some.injEq] at h
          have hu := updateClock_upd c s1 i
          rw [h] at hu
          rw [h5] at hu
          exact .goodM2S tx rx corr i t o d s' a hp h1 h4 hu
  | s2m tx rx corr =>
    simp only [step, Option.map_eq_some_iff, Prod.mk.injEq, Prod.exists] at h
    obtain ⟨s1, b, h, rfl, rfl⟩ := h
    unfold provideS2M at h
    cases hp : s.proc with
    | false =>
      rw [if_pos hp] at h
      simp only [Option.some.injEq, Prod.mk.injEq] at h
      rw [← h.1]
      exact .skip _ _ hp (Or.inl ⟨tx, rx, corr, rfl, rfl⟩)
    | true =>
      rw [if_neg (by simp [hp])] at h
      obtain ⟨t, bt, h1, h2⟩ := taken_cases h
      refine .take _ t bt _ hp (Or.inl ⟨tx, rx, corr, rfl, h1⟩) ?_
      rcases h2 with ⟨_, h3⟩ | ⟨_, _, _, h5⟩ | ⟨o, d, _, _, h4, h5⟩
      · exact Or.inl h3
      · exact Or.inr (Or.inl h5)
      · exact Or.inr (Or.inr ⟨o, d, h4, h5⟩)
  | p2p x y z w corr =>
    simp only [step, Option.map_eq_some_iff, Prod.mk.injEq, Prod.exists] at h
    obtain ⟨s1, b, h, rfl, rfl⟩ := h
    unfold provideP2P at h
    cases hp : s.proc with
    | false =>
      rw [if_pos hp] at h
      simp only [Option.some.injEq, Prod.mk.injEq] at h
      rw [← h.1]
      exact .skip _ _ hp (Or.inr ⟨x, y, z, w, corr, rfl, rfl⟩)
    | true =>
      rw [if_neg (by simp [hp])] at h
      obtain ⟨t, bt, h1, h2⟩ := taken_cases h
      refine .take _ t bt _ hp (Or.inr ⟨x, y, z, w, corr, rfl, h1⟩) ?_
      rcases h2 with ⟨_, h3⟩ | ⟨_, _, _, h5⟩ | ⟨o, d, _, _, h4, h5⟩
      · exact Or.inl h3
      · exact Or.inr (Or.inl h5)
      · exact Or.inr (Or.inr ⟨o, d, h4, h5⟩)
  | missM2S =>
    simp only [step, Option.some.injEq, Prod.mk.injEq] at h
    rw [← h.1, ← h.2]; exact .miss _ _ (Or.inl ⟨rfl, rfl⟩)
  | missS2M =>
    simp only [step, Option.some.injEq, Prod.mk.injEq] at h
    rw [← h.1, ← h.2]; exact .miss _ _ (Or.inr (Or.inl ⟨rfl, rfl⟩))
  | missP2P =>
    simp only [step, Option.some.injEq, Prod.mk.injEq] at h
    rw [← h.1, ← h.2]; exact .miss _ _ (Or.inr (Or.inr ⟨rfl, rfl⟩))
  | control proc ctl =>
    simp only [step, Option.some.injEq, Prod.mk.injEq] at h
    rw [← h.1, ← h.2]; exact .control proc ctl
  | reset k =>
    simp only [step, Option.some.injEq] at h
    have := Move.reset (c := c) (s := s) k
    rw [h] at this; exact this
  | setClock cl k =>
    simp only [step, Option.some.injEq] at h
    have := Move.setClock (c := c) (s := s) cl k
    rw [h] at this; exact this
  | reinit k1 k2 =>
    simp only [step, Option.some.injEq, Prod.mk.injEq] at h
    rw [← h.1, ← h.2]; exact .reinit k1 k2
  | command o k1 k2 =>
    simp only [step, Option.some.injEq] at h
    have := Move.command (c := c) (s := s) o k1 k2
    rw [h] at this; exact this
  | save x =>
    simp only [step, Option.some.injEq, Prod.mk.injEq] at h
    rw [← h.1, ← h.2]; exact .save x

/-- What an update of the clock leaves alone. -/
theorem Upd.keep {c : Cfg} {s s' : S} {i : In} {a : Acts} (h : Upd c s i s' a) :
    s'.proc = s.proc ∧ s'.ctl = s.ctl ∧ s'.outliers = s.outliers ∧ s'.samples = s.samples ∧
    s'.clock.freqCorr = s.clock.freqCorr ∧ s'.clock.maxFreq = s.clock.maxFreq ∧
    s'.clock.readOnly = s.clock.readOnly := by
  cases h with
  | guarded => exact ⟨rfl, rfl, rfl, rfl, rfl, rfl, rfl⟩
  | idle => exact ⟨rfl, rfl, rfl, rfl, rfl, rfl, rfl⟩
  | stepped ho hl hc hp =>
    by_cases hn : c.ctrl = .noAdjust
    · rw [stepClock_blocked _ _ _ _ _ _ hn]
      exact ⟨rfl, rfl, rfl, rfl, rfl, rfl, rfl⟩
    · obtain ⟨e1, e2⟩ := stepClock_frame c { s with clusterAlarm := false } .measured s.offset i.k1
        i.k2 hn
      rw [e1]
      exact ⟨rfl, rfl, rfl, rfl, rfl, rfl, rfl⟩
  | maximal => exact ⟨rfl, rfl, rfl, rfl, rfl, rfl, rfl⟩
  | fixed => exact ⟨rfl, rfl, rfl, rfl, rfl, rfl, rfl⟩
  | slewed => exact ⟨rfl, rfl, rfl, rfl, rfl, rfl, rfl⟩
  | watched => exact ⟨rfl, rfl, rfl, rfl, rfl, rfl, rfl⟩

theorem permitted_adjust {ctrl : Ctrl} {u : Bool} {x : Rat} (h : Permitted ctrl u x) :
    ctrl ≠ .noAdjust := by
  rintro rfl
  exact h

theorem run_append_some {c : Cfg} {h1 h2 : List Ev} : ∀ {s s2 : S} {a : Acts},
    run c s (h1 ++ h2) = some (s2, a) →
    ∃ s1 a1 a2, run c s h1 = some (s1, a1) ∧ run c s1 h2 = some (s2, a2) ∧ a = a1 ++ a2 := by
  induction h1 with
  | nil => intro s s2 a h; exact ⟨s, [], a, rfl, h, rfl⟩
  | cons e h1 ih =>
    intro s s2 a h
    obtain ⟨s1, a1, a2, hs, hr, rfl⟩ := run_cons_some h
    obtain ⟨s3, a3, a4, h3, h4, rfl⟩ := ih hr
    refine ⟨s3, a1 ++ a3, a4, ?_, h4, by simp⟩
    simp only [run, hs, h3]

theorem mem_map_src {src : Src} {l : List KCall} {p : Src × KCall}
    (h : p ∈ l.map fun x => (src, x)) : p.1 = src ∧ p.2 ∈ l := by
  simp only [List.mem_map] at h
  obtain ⟨x, hx, rfl⟩ := h
  exact ⟨rfl, hx⟩

end Verif.PtpServo
