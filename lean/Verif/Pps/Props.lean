import Verif.Pps.Inv3

/-! Properties of the PPS sync module, C114 to C127. -/

set_option linter.unusedSimpArgs false
set_option linter.unusedVariables false

namespace Verif.Pps
open Verif.Filter Verif.Stats

/-! ## Examples -/

/-- Start and run. -/
def go (ss : List Setup) (src : Option Int) (es : List (Nat × Ev)) : Option (Mod × List Entry) :=
  (Mod.start ss src).bind (fun m => m.run es)

theorem go_reach {ss src es r} (h : go ss src es = some r) : Reach ss src r.1 r.2 := by
  unfold go at h
  cases hm : Mod.start ss src with
  | none => rw [hm] at h; cases h
  | some m0 => rw [hm] at h; exact ⟨m0, es, hm, h⟩

/-- An instance with a filter of one tap, polled by the timer. -/
def setup0 : Setup :=
  { conf := ⟨.slewAndStep, 0, 100000, false⟩, firSize := 1, garbage := List.replicate 128 0, kp := 1/20, ki := 1/1000,
    outlier := none, minPeriod := 60, maxOffset := 1000, saved := 0 }

/-- The same with a file descriptor. -/
def setupFd : Setup := { setup0 with conf := ⟨.slewAndStep, 0, 100000, true⟩ }

/-- The same with a propagation delay of 100 ns. -/
def setupProp : Setup := { setup0 with conf := ⟨.slewAndStep, 100, 100000, false⟩ }

theorem setup0_valid : setup0.Valid :=
  ⟨by decide, List.length_replicate, by decide +kernel, (fun n w h => by cases h), by decide +kernel⟩

theorem setupFd_valid : setupFd.Valid :=
  ⟨by decide, List.length_replicate, by decide +kernel, (fun n w h => by cases h), by decide +kernel⟩

theorem setupProp_valid : setupProp.Valid :=
  ⟨by decide, List.length_replicate, by decide +kernel, (fun n w h => by cases h), by decide +kernel⟩

/-- A time of day is known and shows the difference `v` (not zero). -/
def reply (v : Int) : TodReply := ⟨true, some (.slave, v), some 0⟩

/-- The pulse of second `n`, of a clock that is `d` ahead, while the time of day shows `v`. -/
def pulse (n : Nat) (d v : Int) : Ev :=
  .poll ((n : Int) * 1000000000 + 500) (.pulse n (1700000000000000000 + (n : Int) * 1000000000 + d)) (reply v) 0

/-- `n` pulses, from that of second 1. -/
def pulses (n : Nat) (d v : Int) : List (Nat × Ev) := (List.range n).map (fun j => (0, pulse (j + 1) d v))

/-- The clock may be controlled. -/
def grant : Ev := .control ⟨true, false⟩ ⟨true, false⟩

/-- Processing of timestamps is switched. -/
def switch (b : Bool) : Ev := .control ⟨false, true⟩ ⟨false, b⟩

/-! ## From a step to the moves -/

theorem next_step {m : Mod} {k : Nat} {i : Inst} {e : Ev} {outs : List Out} {i' : Inst} {m' : Mod}
    (h : Next m k i e outs i' m') : step m.tod i e = some (m'.tod, i', outs) := by
  obtain ⟨h1, h2, h3⟩ := h
  rcases step_some h2 with ⟨hn, -, -⟩ | ⟨i0, t, i2, ha, hb, rfl, hc⟩
  · rw [h1] at hn; cases hn
  · rw [h1] at ha
    cases ha
    rw [hc] at h3
    cases h3
    exact hb

theorem Next.move {m : Mod} {k : Nat} {i : Inst} {e : Ev} {outs : List Out} {i' : Inst} {m' : Mod}
    (h : Next m k i e outs i' m') : Move m.tod i e m'.tod i' outs := step_move (next_step h)

theorem Reach.fresh {ss : List Setup} {src : Option Int} {m0 : Mod} (h : Mod.start ss src = some m0) (k : Nat) (i : Inst)
    (hi : m0.insts[k]? = some i) : Fresh i := by
  obtain ⟨s, -, h2⟩ := start_get h hi
  exact (start_fresh h2).1

theorem own_snoc (k : Nat) (tr : List Entry) (e : Ev) (outs : List Out) :
    own k (tr ++ [⟨k, e, outs⟩]) = own k tr ++ [⟨k, e, outs⟩] := by
  simp [own]

/-- A history can be prolonged. -/
theorem Hist.next {m0 m : Mod} {tr : List Entry} (hh : Hist m0 m tr) {k : Nat} {i : Inst} {e : Ev} {outs : List Out}
    {i' : Inst} {m' : Mod} (h : Next m k i e outs i' m') : Hist m0 m' (tr ++ [⟨k, e, outs⟩]) :=
  hh.snoc k e h.2.1

/-- A history and a next event, found by computation. -/
def check (ss : List Setup) (src : Option Int) (es : List (Nat × Ev)) (k : Nat) (e : Ev)
    (P : List Entry → Inst → List Out → Inst → Bool) : Bool :=
  match go ss src es with
  | none => false
  | some (m, tr) =>
    match m.insts[k]? with
    | none => false
    | some i =>
      match step m.tod i e with
      | none => false
      | some (_, i', outs) => P tr i outs i'

theorem witness {ss : List Setup} {src : Option Int} {es : List (Nat × Ev)} {k : Nat} {e : Ev}
    {P : List Entry → Inst → List Out → Inst → Bool} (h : check ss src es k e P = true) :
    ∃ m tr i outs i' m', Reach ss src m tr ∧ Next m k i e outs i' m' ∧ P tr i outs i' = true := by
  unfold check at h
  split at h
  · cases h
  · rename_i m tr hg
    split at h
    · cases h
    · rename_i i hi
      split at h
      · cases h
      · rename_i t' i' outs hx
        have hlt : k < m.insts.length := by
          rw [List.getElem?_eq_some_iff] at hi; exact hi.1
        refine ⟨m, tr, i, outs, i', ⟨t', m.insts.set k i'⟩, go_reach hg, ⟨hi, ?_, by simp [hlt]⟩, h⟩
        simp only [Mod.step, hi, hx]

/-! ## C116: three good periods -/

/-- **C116**: a poll changes the clock or posts a measurement only if the latest
pulses had at least three good periods. -/
theorem C116 {ss : List Setup} {src : Option Int} {m : Mod} {tr : List Entry} (hr : Reach ss src m tr)
    {k : Nat} {i : Inst} {e : Ev} {outs : List Out} {i' : Inst} {m' : Mod} (hn : Next m k i e outs i' m')
    (ht : ∀ x ∈ own k tr ++ [⟨k, e, outs⟩], EntryTimeOk x.ev) (hp : e.isPoll = true)
    (ha : outs.any Out.acts = true) : 3 ≤ (watch (own k tr ++ [⟨k, e, outs⟩])).run := by
  obtain ⟨m0, h0, hh⟩ := hr.hist
  have hw := hh.wok k (fun i hi => Reach.fresh h0 k i hi) i hn.1 (fun x hx => ht x (by simp [hx]))
  have mv := hn.move
  have hw' := hw.step (ht ⟨k, e, outs⟩ (by simp)) mv k
  rw [watch_snoc]
  obtain ⟨now, seq, time, r, score, j, t1, i1, o1, he, h1, h2, h3, h4, h5, sm, h6, -⟩ := acts_used mv hp ha
  refine Nat.le_trans ?_ hw'.le
  rw [h6, (finish_stamp _ _ _ _).2.2]
  obtain ⟨fir, pid, base, adj, offset, stamp, period, stepped, n, act, hi1⟩ := sm.frame
  obtain ⟨op, on, hj⟩ := checkOutlier_eq h5
  have : i1.good = (checkPeriod (checkSeq i seq) time).good := by rw [hi1, hj]
  show 3 ≤ i1.good
  rw [this]
  exact h4

/-- The fourth pulse is the first to act. -/
example : (go [setup0] (some 0) ((0, grant) :: pulses 3 40 7)).map (fun r => r.2.any (fun e => e.outs.any Out.acts)) = some false ∧
    (go [setup0] (some 0) ((0, grant) :: pulses 4 40 7)).map (fun r => r.2.any (fun e => e.outs.any Out.acts)) = some true := by
  decide +kernel

/-! ## C117: the period of the pulse itself -/

/-- **C117**, in full: a pulse that is acted on came a good period after the one before. -/
def C117_statement : Prop :=
  ∀ (ss : List Setup) (src : Option Int) (m : Mod) (tr : List Entry), Reach ss src m tr →
    ∀ (k : Nat) (i : Inst) (now : Int) (seq : Nat) (time : Int) (r : TodReply) (score : Int) (outs : List Out) (i' : Inst)
      (m' : Mod),
      Next m k i (.poll now (.pulse seq time) r score) outs i' m' →
      (∀ x ∈ own k tr ++ [⟨k, .poll now (.pulse seq time) r score, outs⟩], EntryTimeOk x.ev) →
      outs.any Out.acts = true →
      ∃ p, (watch (own k tr)).last = some p ∧ GoodPeriod (time - p)

/-- Four pulses, processing switched off and on. -/
def w117 : List (Nat × Ev) := (0, grant) :: pulses 4 40 7 ++ [(0, switch false), (0, switch true)]

/-- After a pause of processing the next pulse is used whenever it comes. -/
theorem C117_violated : ¬ C117_statement := by
  intro h
  have hc : check [setup0] (some 0) w117 0 (pulse 9 300000000 7) (fun tr i outs i' =>
      outs.any Out.acts && (watch (own 0 tr)).last.isNone &&
      tr.all (fun e => (e.ev.pulse?.map (fun p => decide (1000000000 ≤ p.2))).getD true)) = true := by decide +kernel
  obtain ⟨m, tr, i, outs, i', m', hr, hn, hp⟩ := witness hc
  simp only [Bool.and_eq_true] at hp
  obtain ⟨p, hq, -⟩ := h _ _ _ _ hr 0 i _ _ _ _ _ outs i' _ hn (by
    intro y hy
    rw [List.mem_append] at hy
    rcases hy with hy | hy
    · intro s t hst
      have := hp.2
      rw [List.all_eq_true] at this
      have h1 := this y (List.mem_filter.1 hy).1
      rw [hst] at h1
      simp only [Option.map_some, Option.getD_some, decide_eq_true_eq] at h1
      omega
    · simp only [List.mem_cons, List.not_mem_nil, or_false] at hy
      subst hy
      intro s t hst
      simp only [Ev.pulse?, pulse, Option.some.injEq, Prod.mk.injEq] at hst
      omega) hp.1.1
  rw [hq] at hp
  simp at hp

/-- **C117**, in part: as long as the processing of timestamps was never switched
off, a pulse that is acted on came a good period after the one before. -/
theorem C117_partial {ss : List Setup} {src : Option Int} {m : Mod} {tr : List Entry} (hr : Reach ss src m tr)
    {k : Nat} {i : Inst} {now : Int} {seq : Nat} {time : Int} {r : TodReply} {score : Int} {outs : List Out} {i' : Inst}
    {m' : Mod} (hn : Next m k i (.poll now (.pulse seq time) r score) outs i' m')
    (ht : ∀ x ∈ own k tr ++ [⟨k, .poll now (.pulse seq time) r score, outs⟩], EntryTimeOk x.ev)
    (hoff : ∀ x ∈ own k tr, x.ev.switchesOff = false) (ha : outs.any Out.acts = true) :
    ∃ p, (watch (own k tr)).last = some p ∧ GoodPeriod (time - p) := by
  obtain ⟨m0, h0, hh⟩ := hr.hist
  have hf := fun i hi => Reach.fresh h0 k i hi
  have hw := hh.wok k hf i hn.1 (fun x hx => ht x (by simp [hx]))
  have hx := hh.xok k hf i hn.1 (fun x hx => ⟨ht x (by simp [hx]), hoff x hx⟩)
  obtain ⟨now', seq', time', r', score', j, t1, i1, o1, he, h1, h2, h3, h4, h5, sm, h6, -⟩ := acts_used hn.move rfl ha
  cases he
  have hst := hx.stamp h1 h3
  refine ⟨i.stamp, hw.stamp h3 hst, ?_⟩
  obtain ⟨ca, cn, hcs⟩ := checkSeq_eq i seq
  rw [checkPeriod_good (by rw [hcs]; exact hw.notch), hcs] at h4
  simp only at h4
  rw [if_pos (hw.nz hst)] at h4
  by_contra hg
  rw [if_neg hg] at h4
  omega

example : (go [setup0] (some 0) ((0, grant) :: pulses 4 40 7)).map (fun r =>
    ((watch (own 0 r.2)).run, (r.2.getLast?.map (fun e => e.outs.any Out.acts)))) = some (3, some true) := by decide +kernel

/-! ## C118: the engine knows the state -/

/-- **C118**, in full: after every poll the engine was last told the state of the
instance, whether a slave has an alarm, and its score. -/
def C118_statement : Prop :=
  ∀ (ss : List Setup) (src : Option Int) (m : Mod) (tr : List Entry), Reach ss src m tr →
    ∀ (k : Nat) (i : Inst) (e : Ev) (outs : List Out) (i' : Inst) (m' : Mod),
      Next m k i e outs i' m' → e.isPoll = true →
      (view (own k tr ++ [⟨k, e, outs⟩])).1 = i'.state ∧
      (i'.state = .slave → (view (own k tr ++ [⟨k, e, outs⟩])).2.1 =
        (i'.alarms.noSignal || i'.alarms.seqNum || i'.alarms.noTod || i'.alarms.badSignal)) ∧
      (view (own k tr ++ [⟨k, e, outs⟩])).2.2 = i'.score

/-- A pulse, then silence. -/
def w118 : List (Nat × Ev) := [(0, pulse 1 40 7), (0, .poll 3000000000 .nothing (reply 7) 0)]

/-- After a minute without pulses the instance listens, but the engine still takes it for a slave. -/
theorem C118_violated : ¬ C118_statement := by
  intro h
  have hc : check [setup0] (some 0) w118 0 (.poll 62000000000 .nothing (reply 7) 0) (fun tr i outs i' =>
      decide ((view (own 0 tr ++ [⟨0, .poll 62000000000 .nothing (reply 7) 0, outs⟩])).1 ≠ i'.state)) = true := by
    decide +kernel
  obtain ⟨m, tr, i, outs, i', m', hr, hn, hp⟩ := witness hc
  exact of_decide_eq_true hp (h _ _ _ _ hr 0 i _ outs i' _ hn rfl).1

/-- After a poll the snapshot is the state. -/
theorem poll_snap {t i e t' i' outs} (mv : Move t i e t' i' outs) (hp : e.isPoll = true) : Snap i' := by
  cases mv with
  | quiet now r score i1 q => exact finish_snap _ _ _ _
  | error now r score => exact finish_snap _ _ _ _
  | pulse now seq time r score t1 i1 o1 pm => exact finish_snap _ _ _ _
  | tick => cases hp
  | control => cases hp
  | step => cases hp
  | save => cases hp
  | pid => cases hp

/-- **C118**, in part: all of it, unless the instance is listening; the score always. -/
theorem C118_partial {ss : List Setup} {src : Option Int} {m : Mod} {tr : List Entry} (hr : Reach ss src m tr)
    {k : Nat} {i : Inst} {e : Ev} {outs : List Out} {i' : Inst} {m' : Mod} (hn : Next m k i e outs i' m')
    (hp : e.isPoll = true) :
    (i'.state ≠ .listening → (view (own k tr ++ [⟨k, e, outs⟩])).1 = i'.state ∧
      (i'.state = .slave → (view (own k tr ++ [⟨k, e, outs⟩])).2.1 =
        (i'.alarms.noSignal || i'.alarms.seqNum || i'.alarms.noTod || i'.alarms.badSignal))) ∧
      (view (own k tr ++ [⟨k, e, outs⟩])).2.2 = i'.score := by
  obtain ⟨m0, h0, hh⟩ := hr.hist
  have hv := (hh.next hn).vok k (fun i hi => Reach.fresh h0 k i hi) i' hn.2.2
  rw [own_snoc] at hv
  have hs := poll_snap hn.move hp
  refine ⟨fun hl => ?_, by rw [hv.score]; exact hs.score⟩
  have := hv.known (by rw [hs.state]; exact hl)
  rw [hs.state, hs.alarms] at this
  exact this

/-- The engine hears of the slave and of its alarm. -/
example : (go [setup0] (some 0) [(0, pulse 1 40 7)]).map (fun r => view r.2) = some (.slave, false, 0) ∧
    (go [setup0] (some 0) w118).map (fun r => view r.2) = some (.slave, true, 0) := by decide +kernel

/-! ## C119: loss of the signal -/

/-- The event by which an instance looks for pulses without finding one: a timer tick
with a file descriptor, a poll without. -/
def Looks (fd : Bool) (now : Int) (e : Ev) : Prop :=
  if fd then e = .tick now else ∃ r score, e = .poll now .nothing r score

/-- **C119**, in full: from 1.1 s to a minute after the latest pulse, whenever the
instance looked for a pulse in vain, the engine does not believe in a slave without alarms. -/
def C119_statement : Prop :=
  ∀ (ss : List Setup) (src : Option Int) (m : Mod) (tr : List Entry), Reach ss src m tr →
    ∀ (k : Nat) (i : Inst) (now p : Int) (e : Ev) (outs : List Out) (i' : Inst) (m' : Mod),
      Next m k i e outs i' m' → Looks i.conf.fd now e → lastPulse (own k tr) = some (p, false) →
      p + 1100000000 ≤ now → now < p + 60000000000 →
      ¬ ((view (own k tr ++ [⟨k, e, outs⟩])).1 = .slave ∧ (view (own k tr ++ [⟨k, e, outs⟩])).2.1 = false)

/-- With a file descriptor the alarm is set, but nobody is told. -/
theorem C119_violated : ¬ C119_statement := by
  intro h
  have hc : check [setupFd] (some 0) [(0, pulse 1 40 7)] 0 (.tick 30000000000) (fun tr i outs i' =>
      decide (i.conf.fd = true ∧ lastPulse (own 0 tr) = some (1000000500, false) ∧
        (view (own 0 tr ++ [⟨0, .tick 30000000000, outs⟩])).1 = .slave ∧
        (view (own 0 tr ++ [⟨0, .tick 30000000000, outs⟩])).2.1 = false)) = true := by decide +kernel
  obtain ⟨m, tr, i, outs, i', m', hr, hn, hp⟩ := witness hc
  obtain ⟨h1, h2, h3⟩ := of_decide_eq_true hp
  exact h _ _ _ _ hr 0 i 30000000000 1000000500 _ outs i' _ hn (by simp [Looks, h1]) h2 (by decide) (by decide) h3

/-- **C119**, in part: for instances without a file descriptor. -/
theorem C119_partial {ss : List Setup} {src : Option Int} {m : Mod} {tr : List Entry} (hr : Reach ss src m tr)
    {k : Nat} {i : Inst} {now p : Int} {r : TodReply} {score : Int} {outs : List Out} {i' : Inst} {m' : Mod}
    (hn : Next m k i (.poll now .nothing r score) outs i' m') (hl : lastPulse (own k tr) = some (p, false))
    (h1 : p + 1100000000 ≤ now) (h2 : now < p + 60000000000) :
    ¬ ((view (own k tr ++ [⟨k, .poll now .nothing r score, outs⟩])).1 = .slave ∧
       (view (own k tr ++ [⟨k, .poll now .nothing r score, outs⟩])).2.1 = false) := by
  rintro ⟨h3, h4⟩
  obtain ⟨m0, h0, hh⟩ := hr.hist
  have hf := fun i hi => Reach.fresh h0 k i hi
  obtain ⟨hL, hq⟩ := (hh.next hn).lok k hf i' hn.2.2
  rw [own_snoc] at hL
  have hlp : lastPulse (own k tr ++ [⟨k, .poll now .nothing r score, outs⟩]) = some (p, false) := by
    rw [lastPulse_snoc, hl]
    simp only [Quiet.next, Option.map_some, Bool.false_or, Option.some.injEq, Prod.mk.injEq, decide_eq_false_iff_not,
      true_and]
    omega
  have hsl := (hL.1 p hlp).2 h3
  have hv := (C118_partial hr hn rfl).1 (by rw [hsl]; simp)
  rw [hv.2 hsl] at h4
  have hns : i'.alarms.noSignal = true := by
    have hs := next_step hn
    simp only [step] at hs
    obtain ⟨t1, i1, o1, h5, h6, h7, h8⟩ := poll_some hs
    simp only [onGot, Option.some.injEq, Prod.mk.injEq] at h5
    obtain ⟨rfl, rfl, rfl⟩ := h5
    rw [h7, (finish_frame _ _ _ _).2.2.2.2.2.2.2.2.2.2.2.2]
    rw [h7, (finish_frame _ _ _ _).1] at hsl
    have hp := ((hh.lok k hf i hn.1).1.1 p hl).1
    unfold onNone at hsl ⊢
    cases hst : i.state with
    | listening => rw [hst] at hsl; simp only at hsl; rw [hst] at hsl; cases hsl
    | faulty => rw [hst] at hsl; simp [reset] at hsl
    | slave =>
      rw [hst] at hsl
      simp only at hsl ⊢
      by_cases hc : now - i.lastPps ≥ 60 * sec
      · rw [if_pos hc] at hsl; simp [reset] at hsl
      · rw [if_neg hc]
        by_cases hd : now - i.lastPps ≥ 1100000000 ∧ ¬ i.alarms.noSignal
        · rw [if_pos hd]
        · rw [if_neg hd]
          by_contra hns
          exact hd ⟨by rw [hp]; omega, hns⟩
  rw [hns] at h4
  simp at h4

example : (go [setup0] (some 0) w118).map (fun r => (lastPulse (own 0 r.2), view (own 0 r.2))) =
    some (some (1000000500, false), (.slave, true, 0)) := by decide +kernel

/-! ## C122: frequency and control -/

/-- **C122**: an instance sets only frequencies within the limits of its clock, and
without a command to step it touches the clock only when it was told to control it. -/
theorem C122 {ss : List Setup} (hv : ∀ s ∈ ss, s.Valid) {src : Option Int} {m : Mod} {tr : List Entry}
    (hr : Reach ss src m tr) {k : Nat} {s : Setup} (hs : ss[k]? = some s) {i : Inst} {e : Ev} {outs : List Out} {i' : Inst}
    {m' : Mod} (hn : Next m k i e outs i' m') :
    ∀ o ∈ outs,
      (∀ f, o = .adjustFreq f ∨ o = .saveFreq f → -s.conf.freqMax ≤ f ∧ f ≤ s.conf.freqMax) ∧
      ((∀ x, e ≠ .step x) → ((∃ f, o = .adjustFreq f) ∨ (∃ f, o = .saveFreq f) ∨ ∃ x, o = .adjustTime x) →
        granted (own k tr) = true) := by
  obtain ⟨m0, h0, hh⟩ := hr.hist
  have hsv := hv s (List.mem_of_getElem? hs)
  have hfr : FrOk s.conf i := by
    refine hh.fr k s.conf hsv.freq ?_ i hn.1
    intro i hi
    obtain ⟨s', h1, h2⟩ := start_get h0 hi
    rw [hs] at h1
    cases h1
    exact start_fr h2 hsv
  have hg := hh.granted k (fun i hi => Reach.fresh h0 k i hi) i hn.1
  obtain ⟨-, ho⟩ := hfr.step hsv.freq hn.move
  intro o hmem
  have h := ho o hmem
  constructor
  · rintro f (rfl | rfl)
    · exact h.1
    · exact h.1
  · intro hns
    have : e.isStep = false := by
      cases e with
      | step x => exact absurd rfl (hns x)
      | _ => rfl
    rw [this, Bool.or_false, hg] at h
    rintro (⟨f, rfl⟩ | ⟨f, rfl⟩ | ⟨x, rfl⟩)
    · exact h.2
    · exact h.2
    · exact h

/-- An instance in control slews. -/
example : (go [setup0] (some 0) ((0, grant) :: pulses 4 40000 7)).map (fun r =>
    (granted (own 0 r.2), (r.2.getLast?.map (fun e => e.outs.head?)))) =
      some (true, some (some (.adjustFreq (-2000)))) := by decide +kernel

/-! ## C123: no crash -/

/-- **C123**, in full: no sequence of events makes the module fail an assertion. -/
def C123_statement : Prop :=
  ∀ (ss : List Setup), (∀ s ∈ ss, s.Valid) → ∀ (src : Option Int) (m : Mod), Mod.start ss src = some m →
    ∀ es, m.run es ≠ none

/-- Without a source of the time of day, the command to step the clock fails an assertion. -/
theorem C123_violated : ¬ C123_statement := by
  intro h
  obtain ⟨m, hm⟩ : ∃ m, Mod.start [setup0] none = some m := Option.isSome_iff_exists.1 (by decide +kernel)
  refine h [setup0] ?_ none m hm [(0, .step 5)] ?_
  · intro s hs
    simp only [List.mem_cons, List.not_mem_nil, or_false] at hs
    subst hs; exact setup0_valid
  · have : (Mod.start [setup0] none).all (fun m => (m.run [(0, .step 5)]).isNone) = true := by decide +kernel
    rw [hm] at this
    simpa using this

/-- **C123**, in part: with a source of the time of day the module starts and never fails. -/
theorem C123_partial {ss : List Setup} (hv : ∀ s ∈ ss, s.Valid) (t0 : Int) :
    ∃ m, Mod.start ss (some t0) = some m ∧ ∀ es, m.run es ≠ none := by
  obtain ⟨is, his⟩ := startAll_total hv
  have hm : Mod.start ss (some t0) = some ⟨⟨true, t0, .other, 0⟩, is⟩ := by
    unfold Mod.start; rw [his]
  refine ⟨_, hm, fun es => ?_⟩
  obtain ⟨r, hr⟩ := MOk.run hv es (start_mok hv rfl hm)
  rw [hr]; simp

example : ∃ m, Mod.start [setup0, setupProp, setupFd] (some 0) = some m ∧ ∀ es, m.run es ≠ none :=
  C123_partial (by
    intro s hs
    simp only [List.mem_cons, List.not_mem_nil, or_false] at hs
    rcases hs with rfl | rfl | rfl
    · exact setup0_valid
    · exact setupProp_valid
    · exact setupFd_valid) 0

end Verif.Pps
