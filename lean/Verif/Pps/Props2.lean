import Verif.Pps.Props

/-! Properties of the PPS sync module: offsets, time of day, alarms and counts. -/

set_option linter.unusedSimpArgs false
set_option linter.unusedVariables false

namespace Verif.Pps
open Verif.Filter Verif.Stats Verif.Ring

/-! ## The offset of a pulse -/

theorem pulseDiff_clear {v time D : Int} (h : Shows time D) (hc : Clear v D) : pulseDiff v time = D := by
  obtain ⟨T, h⟩ := h
  obtain ⟨W, d, h1, h2⟩ := hc
  unfold pulseDiff sec
  simp only
  split <;> split <;> omega

/-- The offset errs by a second at most. -/
theorem pulseDiff_near {v time D : Int} (h : Shows time D) (hv : (v - D).natAbs < 500000000) :
    pulseDiff v time = D ∨ pulseDiff v time = D + 1000000000 ∨ pulseDiff v time = D - 1000000000 := by
  obtain ⟨T, h⟩ := h
  unfold pulseDiff sec
  simp only
  split <;> split <;> omega

/-- The instances of a history, with the time of day as seen. -/
theorem Reach.tod {ss : List Setup} {t0 : Int} {m : Mod} {tr : List Entry} (hr : Reach ss (some t0) m tr)
    (hidx : ∀ e ∈ tr, e.idx < ss.length) : DOk m.tod (seen t0 tr) := by
  obtain ⟨m0, h0, hh⟩ := hr.hist
  have hl : m0.insts.length = ss.length := startAll_length (start_tod h0).1
  refine (hh.dok (t0 := t0) (by rw [hl]; exact hidx) ?_).1
  unfold Mod.start at h0
  split at h0
  · cases h0
  · simp only [Option.some.injEq] at h0
    subst h0
    exact ⟨rfl, rfl, by intro k v h; cases h⟩

theorem Reach.conf {ss : List Setup} {src : Option Int} {m : Mod} {tr : List Entry} (hr : Reach ss src m tr)
    {k : Nat} {s : Setup} (hs : ss[k]? = some s) (hv : s.Valid) {i : Inst} (hi : m.insts[k]? = some i) : FrOk s.conf i := by
  obtain ⟨m0, h0, hh⟩ := hr.hist
  refine hh.fr k s.conf hv.freq ?_ i hi
  intro i hi
  obtain ⟨s', h1, h2⟩ := start_get h0 hi
  rw [hs] at h1
  cases h1
  exact start_fr h2 hv

theorem mem_finish_sample {t : Tod} {i : Inst} {now : Int} {r : TodReply} {o : Out}
    (h : o ∈ (finish t i now r).2.2) : o.acts = false := by
  have := (finish_outs t i now r).1
  rw [List.any_eq_false] at this
  simpa using this o h

theorem mean_last (h : List Rat) (x : Rat) : mean (lastN 1 (h ++ [x])) = x := by
  have : lastN 1 (h ++ [x]) = [x] := by
    unfold lastN
    simp
  rw [this]
  simp [mean]

/-- The shape of what a pulse does that was used: `d` is the offset taken for it. -/
theorem used_shape {ss : List Setup} (hv : ∀ s ∈ ss, s.Valid) {t0 : Int} {m : Mod} {tr : List Entry}
    (hr : Reach ss (some t0) m tr) {k : Nat} {s : Setup} (hs : ss[k]? = some s) {i : Inst} {now : Int} {seq : Nat} {time : Int} {r : TodReply} {score : Int} {outs : List Out}
    {i' : Inst} {m' : Mod} (hn : Next m k i (.poll now (.pulse seq time) r score) outs i' m')
    (ha : outs.any Out.acts = true) :
    ∃ j t1 i1 o1, ServoMove m.tod j time t1 i1 o1 ∧ j.conf = s.conf ∧ j.flags.clockCtrl = granted (own k tr) ∧
      j.active = acted (own k tr) ∧ TOk s.firSize j ∧
      (∀ o sy al, .sample o sy al ∈ outs → o = i1.offset) ∧
      (∀ a, .adjustTime a ∈ outs → .adjustTime a ∈ o1) ∧ outs.any Out.isStep = o1.any Out.isStep := by
  obtain ⟨m0, h0, hh⟩ := hr.hist
  have hf := fun i hi => Reach.fresh h0 k i hi
  have hsv := hv s (List.mem_of_getElem? hs)
  have hfr := hr.conf hs hsv hn.1
  have hg := hh.granted k hf i hn.1
  have hact := hh.active k (fun i hi => by
    obtain ⟨s', h1, h2⟩ := start_get h0 hi
    exact (start_fields h2).2.2.2.2.2.1) i hn.1
  obtain ⟨-, hmok⟩ := hh.mok hv (start_mok hv rfl h0)
  obtain ⟨s', hs', htok⟩ := hmok k i hn.1
  rw [hs] at hs'
  cases hs'
  obtain ⟨now', seq', time', r', score', j, t1, i1, o1, he, h1, h2, h3, h4, h5, sm, h6, h7, h8⟩ := acts_used hn.move rfl ha
  cases he
  have hk := (checkSeq_kept i seq).1.trans (checkPeriod_kept (checkSeq i seq) time).1
  have hk2 := (hk.set { (checkPeriod (checkSeq i seq) time).alarms with badSignal := false } _ _ _ _ _).trans
    (checkOutlier_kept h5).1
  obtain ⟨ca, cn, hcs⟩ := checkSeq_eq i seq
  obtain ⟨pa, pn, pp, pg, hcp⟩ := checkPeriod_eq (checkSeq i seq) time
  have htj : TOk s.firSize j := by
    obtain ⟨j', ok, hj1, hj2⟩ := checkOutlier_some (n := s.firSize) (i := { checkPeriod (checkSeq i seq) time with
        alarms := { (checkPeriod (checkSeq i seq) time).alarms with badSignal := false } })
        (htok.of (by rw [hcp, hcs]) (by rw [hcp, hcs]))
    rw [h5] at hj1
    cases hj1
    exact hj2
  have hja : j.active = i.active := by
    obtain ⟨op, on, hj⟩ := checkOutlier_eq h5
    rw [hj]
    show (checkPeriod (checkSeq i seq) time).active = _
    rw [hcp]
    show (checkSeq i seq).active = _
    rw [hcs]
  have hmem : ∀ o, o.acts = true → o ∈ outs → o ∈ o1 ∨ o = .sample i1.offset i1.synced i1.alarms := by
    intro o hoa ho
    rw [h8, List.mem_append, List.mem_append] at ho
    rcases ho with (ho | ho) | ho
    · exact .inl ho
    · simp only [List.mem_cons, List.not_mem_nil, or_false] at ho
      exact .inr ho
    · rw [mem_finish_sample ho] at hoa; cases hoa
  refine ⟨j, t1, i1, o1, sm, by rw [hk2.conf]; exact hfr.conf, by rw [hk2.flags]; exact hg, by rw [hja]; exact hact, htj,
    ?_, ?_, ?_⟩
  · intro o sy al ho
    rcases hmem _ rfl ho with h | h
    · cases sm <;> simp at h
    · simp only [Out.sample.injEq] at h; exact h.1
  · intro a ho
    rcases hmem _ rfl ho with h | h
    · exact h
    · cases h
  · rw [h8, List.any_append, List.any_append, (finish_outs _ _ _ _).2]
    simp [Out.isStep]

theorem acts_of_mem {o : Out} {outs : List Out} (h : o ∈ outs) (ha : o.acts = true) : outs.any Out.acts = true :=
  List.any_eq_true.2 ⟨o, h, ha⟩

/-- With a filter of one tap: the sample is the offset taken for the pulse, if the clock is not stepped
and may be controlled, or need not be stepped. -/
theorem sample_offset {ss : List Setup} (hv : ∀ s ∈ ss, s.Valid) {t0 : Int} {m : Mod} {tr : List Entry}
    (hr : Reach ss (some t0) m tr) {k : Nat} {s : Setup} (hs : ss[k]? = some s) (h1 : s.firSize = 1)
    {i : Inst} {now : Int} {seq : Nat} {time : Int} {r : TodReply} {score : Int} {outs : List Out}
    {i' : Inst} {m' : Mod} (hn : Next m k i (.poll now (.pulse seq time) r score) outs i' m')
    {o : Rat} {sy : Bool} {al : Alarms} (ho : .sample o sy al ∈ outs)
    (hq : granted (own k tr) = true ∨ s.conf.ctrl = .noStep ∨
      (-500000000 < ((pulseDiff m.tod.offset time : Int) : Rat) - s.conf.prop ∧
        ((pulseDiff m.tod.offset time : Int) : Rat) - s.conf.prop < 500000000)) :
    outs.any Out.isStep = true ∨ o = ((pulseDiff m.tod.offset time : Int) : Rat) - s.conf.prop := by
  obtain ⟨j, t1, i1, o1, sm, hc, hg, -, ht, hsm, -, hst⟩ := used_shape hv hr hs hn (acts_of_mem ho rfl)
  have hoo := hsm _ _ _ ho
  obtain ⟨hist, hfir⟩ := ht.fir
  rw [h1] at hfir
  cases sm with
  | step fir pid _ _ _ _ _ _ => left; rw [hst]; simp [Out.isStep]
  | idle h2 h3 h4 =>
    exfalso
    rw [hc] at h4
    rcases hq with hq | hq | hq
    · rw [← hg, h2] at hq; cases hq
    · simp [mayStep, hc, hq] at h3
    · rcases h4 with h4 | h4 <;> linarith [hq.1, hq.2]
  | measure fir mean h2 h3 =>
    right
    obtain ⟨f', y, h4, -, h5⟩ := hfir.update (Nat.le_refl 1) (((pulseDiff m.tod.offset time : Int) : Rat) - j.conf.prop)
    rw [h3] at h4
    simp only [Option.some.injEq, Prod.mk.injEq] at h4
    rw [hoo]
    show mean = _
    rw [h4.2, h5, mean_last, hc]
  | slew fir mean pid f h2 h3 h4 =>
    right
    obtain ⟨f', y, h4, -, h5⟩ := hfir.update (Nat.le_refl 1) (((pulseDiff m.tod.offset time : Int) : Rat) - j.conf.prop)
    rw [h3] at h4
    simp only [Option.some.injEq, Prod.mk.injEq] at h4
    rw [hoo]
    show mean = _
    rw [h4.2, h5, mean_last, hc]

/-! ## C114: the offset of a pulse -/

/-- **C114**, in full: if the clock is less than half a second wrong, and the time
of day is known to less than half a second, then an instance with a filter of one tap
posts the difference of its clock from the true time, less the propagation delay. -/
def C114_statement : Prop :=
  ∀ (ss : List Setup), (∀ s ∈ ss, s.Valid) → ∀ (t0 : Int) (m : Mod) (tr : List Entry), Reach ss (some t0) m tr →
    (∀ e ∈ tr, e.idx < ss.length) →
    ∀ (k : Nat) (s : Setup), ss[k]? = some s → s.firSize = 1 →
    ∀ (i : Inst) (now : Int) (seq : Nat) (time : Int) (r : TodReply) (score : Int) (outs : List Out) (i' : Inst) (m' : Mod),
      Next m k i (.poll now (.pulse seq time) r score) outs i' m' →
    ∀ (v D : Int), (seen t0 tr).val = some (k, v) → Shows time D → (v - D).natAbs < 500000000 →
      -500000000 < (D : Rat) - s.conf.prop → (D : Rat) - s.conf.prop < 500000000 →
    ∀ o sy al, .sample o sy al ∈ outs → o = (D : Rat) - s.conf.prop

/-- An instance that must not step its clock. -/
def setupNo : Setup := { setup0 with conf := ⟨.noStep, 0, 100000, false⟩ }

theorem setupNo_valid : setupNo.Valid :=
  ⟨by decide, List.length_replicate, by decide +kernel, (fun n w h => by cases h), by decide +kernel⟩

theorem valid_one {s : Setup} (h : s.Valid) : ∀ x ∈ [s], x.Valid := by
  intro x hx
  simp only [List.mem_cons, List.not_mem_nil, or_false] at hx
  subst hx; exact h

/-- The difference in the sample, if any. -/
def Out.sampled : Out → Option Rat
  | .sample o _ _ => some o
  | _ => none

theorem sampled_mem {outs : List Out} {x : Rat} (h : outs.filterMap Out.sampled = [x]) : ∃ sy al, .sample x sy al ∈ outs := by
  have : x ∈ outs.filterMap Out.sampled := by rw [h]; simp
  rw [List.mem_filterMap] at this
  obtain ⟨o, h1, h2⟩ := this
  cases o with
  | sample o sy al =>
    simp only [Out.sampled, Option.some.injEq] at h2
    subst h2; exact ⟨sy, al, h1⟩
  | _ => cases h2

/-- The clock is ahead by just less than half a second, the time of day says just more: an offset of
one and a half seconds is posted. -/
theorem C114_violated : ¬ C114_statement := by
  intro h
  have hc : check [setupNo] (some 0) (pulses 3 499999990 500000010) 0 (pulse 4 499999990 500000010) (fun tr i outs i' =>
      decide (tr.all (fun e => e.idx < 1) = true ∧ (seen 0 tr).val = some (0, 500000010) ∧
        outs.filterMap Out.sampled = [1499999990])) = true := by decide +kernel
  obtain ⟨m, tr, i, outs, i', m', hr, hn, hp⟩ := witness hc
  obtain ⟨h1, h2, h3⟩ := of_decide_eq_true hp
  obtain ⟨sy, al, h4⟩ := sampled_mem h3
  have := h [setupNo] (valid_one setupNo_valid) 0 m tr hr (fun e he => by simpa using List.all_eq_true.1 h1 e he)
    0 setupNo rfl rfl i _ _ _ _ _ outs i' m' hn 500000010 499999990 h2 ⟨1700000004, by decide⟩ (by decide)
    (by decide +kernel) (by decide +kernel) _ _ _ h4
  exact absurd this (by decide +kernel)

/-- **C114**, in part: if the time of day errs by less than what the clock's difference lacks
to half a second (`Clear`); and in general, without steps, the error is a second at most. -/
theorem C114_partial {ss : List Setup} (hv : ∀ s ∈ ss, s.Valid) {t0 : Int} {m : Mod} {tr : List Entry}
    (hr : Reach ss (some t0) m tr) (hidx : ∀ e ∈ tr, e.idx < ss.length) {k : Nat} {s : Setup} (hs : ss[k]? = some s)
    (h1 : s.firSize = 1) {i : Inst} {now : Int} {seq : Nat} {time : Int} {r : TodReply} {score : Int} {outs : List Out}
    {i' : Inst} {m' : Mod} (hn : Next m k i (.poll now (.pulse seq time) r score) outs i' m')
    {v D : Int} (hseen : (seen t0 tr).val = some (k, v)) (hD : Shows time D)
    {o : Rat} {sy : Bool} {al : Alarms} (ho : .sample o sy al ∈ outs) :
    (Clear v D → -500000000 < (D : Rat) - s.conf.prop → (D : Rat) - s.conf.prop < 500000000 → o = (D : Rat) - s.conf.prop) ∧
    (s.conf.ctrl = .noStep → (v - D).natAbs < 500000000 →
      o = (D : Rat) - s.conf.prop ∨ o = (D : Rat) - s.conf.prop + 1000000000 ∨ o = (D : Rat) - s.conf.prop - 1000000000) := by
  have hoff := (hr.tod hidx).val k v hseen
  constructor
  · intro hcl ha hb
    have hpd := pulseDiff_clear hD hcl
    rw [← hoff] at hpd
    obtain ⟨j, t1, i1, o1, sm, hc, -, -, -, -, -, hst⟩ := used_shape hv hr hs hn (acts_of_mem ho rfl)
    rcases sample_offset hv hr hs h1 hn ho (.inr (.inr (by rw [hpd]; exact ⟨ha, hb⟩))) with h | h
    · exfalso
      rw [hst] at h
      cases sm with
      | step fir pid h2 h3 h4 h5 =>
        rw [hpd, hc] at h5
        rcases h5 with h5 | h5 <;> linarith
      | _ => simp [Out.isStep] at h
    · rw [h, hpd]
  · intro hno hnear
    obtain ⟨j, t1, i1, o1, sm, hc, -, -, -, -, -, hst⟩ := used_shape hv hr hs hn (acts_of_mem ho rfl)
    rcases sample_offset hv hr hs h1 hn ho (.inr (.inl hno)) with h | h
    · exfalso
      rw [hst] at h
      cases sm with
      | step fir pid h2 h3 h4 h5 => simp [mayStep, hc, hno] at h4
      | _ => simp [Out.isStep] at h
    · rw [h, hoff]
      rcases pulseDiff_near hD hnear with h2 | h2 | h2
      · left; rw [h2]
      · right; left; rw [h2]; push_cast; linarith
      · right; right; rw [h2]; push_cast; linarith

example : check [setup0] (some 0) ((0, grant) :: pulses 3 123456 77) 0 (pulse 4 123456 77) (fun tr i outs i' =>
    decide ((seen 0 tr).val = some (0, 77) ∧ outs.filterMap Out.sampled = [123456])) = true := by decide +kernel
example : Clear 77 123456 := ⟨0, 123456, by decide, by decide⟩

/-! ## C127: the sample is about the pulse -/

/-- **C127**, in full: with a filter of one tap and a clear time of day, unless the clock is
stepped the posted sample is the difference shown by the pulse. -/
def C127_statement : Prop :=
  ∀ (ss : List Setup), (∀ s ∈ ss, s.Valid) → ∀ (t0 : Int) (m : Mod) (tr : List Entry), Reach ss (some t0) m tr →
    (∀ e ∈ tr, e.idx < ss.length) →
    ∀ (k : Nat) (s : Setup), ss[k]? = some s → s.firSize = 1 →
    ∀ (i : Inst) (now : Int) (seq : Nat) (time : Int) (r : TodReply) (score : Int) (outs : List Out) (i' : Inst) (m' : Mod),
      Next m k i (.poll now (.pulse seq time) r score) outs i' m' →
    ∀ (v D : Int), (seen t0 tr).val = some (k, v) → Shows time D → Clear v D →
      outs.any Out.isStep = false →
    ∀ o sy al, .sample o sy al ∈ outs → o = (D : Rat) - s.conf.prop

/-- A standby instance whose clock is five seconds ahead posts an offset of zero. -/
theorem C127_violated : ¬ C127_statement := by
  intro h
  have hc : check [setup0] (some 0) (pulses 3 5000000000 5000000007) 0 (pulse 4 5000000000 5000000007) (fun tr i outs i' =>
      decide (tr.all (fun e => e.idx < 1) = true ∧ (seen 0 tr).val = some (0, 5000000007) ∧
        outs.any Out.isStep = false ∧ outs.filterMap Out.sampled = [0])) = true := by decide +kernel
  obtain ⟨m, tr, i, outs, i', m', hr, hn, hp⟩ := witness hc
  obtain ⟨h1, h2, h5, h3⟩ := of_decide_eq_true hp
  obtain ⟨sy, al, h4⟩ := sampled_mem h3
  have := h [setup0] (valid_one setup0_valid) 0 m tr hr (fun e he => by simpa using List.all_eq_true.1 h1 e he)
    0 setup0 rfl rfl i _ _ _ _ _ outs i' m' hn 5000000007 5000000000 h2 ⟨1700000004, by decide⟩
    ⟨5, 0, by decide, by decide⟩ h5 _ _ _ h4
  exact absurd this (by decide +kernel)

/-- **C127**, in part: if the instance controls its clock or must not step it. -/
theorem C127_partial {ss : List Setup} (hv : ∀ s ∈ ss, s.Valid) {t0 : Int} {m : Mod} {tr : List Entry}
    (hr : Reach ss (some t0) m tr) (hidx : ∀ e ∈ tr, e.idx < ss.length) {k : Nat} {s : Setup} (hs : ss[k]? = some s)
    (h1 : s.firSize = 1) {i : Inst} {now : Int} {seq : Nat} {time : Int} {r : TodReply} {score : Int} {outs : List Out}
    {i' : Inst} {m' : Mod} (hn : Next m k i (.poll now (.pulse seq time) r score) outs i' m')
    {v D : Int} (hseen : (seen t0 tr).val = some (k, v)) (hD : Shows time D) (hcl : Clear v D)
    (hst : outs.any Out.isStep = false) (hq : granted (own k tr) = true ∨ s.conf.ctrl = .noStep)
    {o : Rat} {sy : Bool} {al : Alarms} (ho : .sample o sy al ∈ outs) : o = (D : Rat) - s.conf.prop := by
  have hpd := pulseDiff_clear hD hcl
  rw [← (hr.tod hidx).val k v hseen] at hpd
  rcases sample_offset hv hr hs h1 hn ho (by rcases hq with h | h; exact .inl h; exact .inr (.inl h)) with h | h
  · rw [hst] at h; cases h
  · rw [h, hpd]

example : check [setupNo] (some 0) (pulses 3 5000000000 5000000007) 0 (pulse 4 5000000000 5000000007) (fun tr i outs i' =>
    decide ((seen 0 tr).val = some (0, 5000000007) ∧ outs.any Out.isStep = false ∧
      outs.filterMap Out.sampled = [5000000000])) = true := by decide +kernel

/-! ## C115: steps -/

/-- Whether the configuration permits a step by which the clock, ahead by `x`, is corrected. -/
def Permits (c : ClockCtrl) (x : Rat) (before : Bool) : Prop :=
  match c with
  | .slewAndStep => True
  | .stepAtStartup => before = false
  | .noStep => False
  | .stepForward => x < 0

/-- **C115**, in full: a step because of a pulse removes the whole offset, that is the
difference less the propagation delay. -/
def C115_statement : Prop :=
  ∀ (ss : List Setup), (∀ s ∈ ss, s.Valid) → ∀ (t0 : Int) (m : Mod) (tr : List Entry), Reach ss (some t0) m tr →
    (∀ e ∈ tr, e.idx < ss.length) →
    ∀ (k : Nat) (s : Setup), ss[k]? = some s →
    ∀ (i : Inst) (now : Int) (seq : Nat) (time : Int) (r : TodReply) (score : Int) (outs : List Out) (i' : Inst) (m' : Mod),
      Next m k i (.poll now (.pulse seq time) r score) outs i' m' →
    ∀ (v D : Int), (seen t0 tr).val = some (k, v) → Shows time D → Clear v D →
    ∀ (a : Int), .adjustTime a ∈ outs → (a : Rat) = -((D : Rat) - s.conf.prop)

/-- The propagation delay is left over. -/
theorem C115_violated : ¬ C115_statement := by
  intro h
  have hc : check [setupProp] (some 0) ((0, grant) :: pulses 3 5000000000 5000000007) 0 (pulse 4 5000000000 5000000007)
      (fun tr i outs i' =>
      decide (tr.all (fun e => e.idx < 1) = true ∧ (seen 0 tr).val = some (0, 5000000007) ∧
        Out.adjustTime (-5000000000) ∈ outs)) = true := by decide +kernel
  obtain ⟨m, tr, i, outs, i', m', hr, hn, hp⟩ := witness hc
  obtain ⟨h1, h2, h3⟩ := of_decide_eq_true hp
  have := h [setupProp] (valid_one setupProp_valid) 0 m tr hr (fun e he => by simpa using List.all_eq_true.1 h1 e he)
    0 setupProp rfl i _ _ _ _ _ outs i' m' hn 5000000007 5000000000 h2 ⟨1700000004, by decide⟩
    ⟨5, 0, by decide, by decide⟩ _ h3
  exact absurd this (by decide +kernel)

/-- **C115**, in part: a step removes the whole difference (so the propagation delay is left, and
all of the offset is removed if the delay is zero); it happens only under control of the
clock, for offsets of half a second and more, and if the configuration permits. -/
theorem C115_partial {ss : List Setup} (hv : ∀ s ∈ ss, s.Valid) {t0 : Int} {m : Mod} {tr : List Entry}
    (hr : Reach ss (some t0) m tr) (hidx : ∀ e ∈ tr, e.idx < ss.length) {k : Nat} {s : Setup} (hs : ss[k]? = some s)
    {i : Inst} {now : Int} {seq : Nat} {time : Int} {r : TodReply} {score : Int} {outs : List Out}
    {i' : Inst} {m' : Mod} (hn : Next m k i (.poll now (.pulse seq time) r score) outs i' m')
    {v D : Int} (hseen : (seen t0 tr).val = some (k, v)) (hD : Shows time D) (hcl : Clear v D)
    {a : Int} (ha : .adjustTime a ∈ outs) :
    a = -D ∧ granted (own k tr) = true ∧
    ((D : Rat) - s.conf.prop ≤ -500000000 ∨ (D : Rat) - s.conf.prop ≥ 500000000) ∧
    Permits s.conf.ctrl ((D : Rat) - s.conf.prop) (acted (own k tr)) := by
  have hpd := pulseDiff_clear hD hcl
  rw [← (hr.tod hidx).val k v hseen] at hpd
  obtain ⟨j, t1, i1, o1, sm, hc, hg, hact, ht, hsm, hadj, hst⟩ := used_shape hv hr hs hn (acts_of_mem ha rfl)
  have h := hadj a ha
  cases sm with
  | step fir pid h2 h3 h4 h5 =>
    simp only [List.mem_cons, List.not_mem_nil, or_false, Out.adjustTime.injEq, reduceCtorEq] at h
    rw [hpd] at h h4 h5
    rw [hc] at h4 h5
    refine ⟨h, by rw [← hg]; exact h2, h5, ?_⟩
    unfold mayStep at h4
    rw [hc, hact] at h4
    unfold Permits
    cases hctrl : s.conf.ctrl with
    | slewAndStep => trivial
    | stepAtStartup => simpa [hctrl] using h4
    | noStep => simp [hctrl] at h4
    | stepForward => simpa [hctrl] using h4
  | idle => simp at h
  | measure => simp at h
  | slew => simp at h

example : check [setup0] (some 0) ((0, grant) :: pulses 3 5000000000 5000000007) 0 (pulse 4 5000000000 5000000007)
    (fun tr i outs i' => decide ((seen 0 tr).val = some (0, 5000000007) ∧ Out.adjustTime (-5000000000) ∈ outs)) = true := by
  decide +kernel
example : Clear 5000000007 5000000000 := ⟨5, 0, by decide, by decide⟩

/-! ## C124: the time of day of the own clock -/

/-- **C124**, in full: as C114 under clear conditions, for the latest answer about the
time of day that the instance got itself. -/
def C124_statement : Prop :=
  ∀ (ss : List Setup), (∀ s ∈ ss, s.Valid) → ∀ (t0 : Int) (m : Mod) (tr : List Entry), Reach ss (some t0) m tr →
    (∀ e ∈ tr, e.idx < ss.length) →
    ∀ (k : Nat) (s : Setup), ss[k]? = some s → s.firSize = 1 →
    ∀ (i : Inst) (now : Int) (seq : Nat) (time : Int) (r : TodReply) (score : Int) (outs : List Out) (i' : Inst) (m' : Mod),
      Next m k i (.poll now (.pulse seq time) r score) outs i' m' →
    ∀ (v D : Int), (seenBy k t0 tr).2 = some v → Shows time D → Clear v D →
      -500000000 < (D : Rat) - s.conf.prop → (D : Rat) - s.conf.prop < 500000000 →
    ∀ o sy al, .sample o sy al ∈ outs → o = (D : Rat) - s.conf.prop

/-- Two instances, polled in turn; the clock of the first is three seconds ahead. -/
def w124 (n : Nat) : List (Nat × Ev) :=
  (List.range n).flatMap (fun j => [(0, pulse (j + 1) 3000000000 3000000007), (1, pulse (j + 1) 40 7)])

/-- The second instance takes the difference of the first clock for its own. -/
theorem C124_violated : ¬ C124_statement := by
  intro h
  have hc : check [setupNo, setupNo] (some 0) (w124 3) 1 (pulse 4 40 7) (fun tr i outs i' =>
      decide (tr.all (fun e => e.idx < 2) = true ∧ (seenBy 1 0 tr).2 = some 7 ∧
        outs.filterMap Out.sampled = [3000000040])) = true := by decide +kernel
  obtain ⟨m, tr, i, outs, i', m', hr, hn, hp⟩ := witness hc
  obtain ⟨h1, h2, h3⟩ := of_decide_eq_true hp
  obtain ⟨sy, al, h4⟩ := sampled_mem h3
  have := h [setupNo, setupNo] (by
      intro x hx
      simp only [List.mem_cons, List.not_mem_nil, or_false, or_self] at hx
      subst hx; exact setupNo_valid) 0 m tr hr (fun e he => by simpa using List.all_eq_true.1 h1 e he)
    1 setupNo rfl rfl i _ _ _ _ _ outs i' m' hn 7 40 h2 ⟨1700000004, by decide⟩ ⟨0, 40, by decide, by decide⟩
    (by decide +kernel) (by decide +kernel) _ _ _ h4
  exact absurd this (by decide +kernel)

/-- **C124**, in part: if no other instance asked since. -/
theorem C124_partial {ss : List Setup} (hv : ∀ s ∈ ss, s.Valid) {t0 : Int} {m : Mod} {tr : List Entry}
    (hr : Reach ss (some t0) m tr) (hidx : ∀ e ∈ tr, e.idx < ss.length) {k : Nat} {s : Setup} (hs : ss[k]? = some s)
    (h1 : s.firSize = 1) {i : Inst} {now : Int} {seq : Nat} {time : Int} {r : TodReply} {score : Int} {outs : List Out}
    {i' : Inst} {m' : Mod} (hn : Next m k i (.poll now (.pulse seq time) r score) outs i' m')
    {v D : Int} (hseen : (seenBy k t0 tr).2 = some v) (hlast : ((seen t0 tr).val.map Prod.fst) = some k)
    (hD : Shows time D) (hcl : Clear v D)
    (ha : -500000000 < (D : Rat) - s.conf.prop) (hb : (D : Rat) - s.conf.prop < 500000000)
    {o : Rat} {sy : Bool} {al : Alarms} (ho : .sample o sy al ∈ outs) : o = (D : Rat) - s.conf.prop := by
  cases hsv : (seen t0 tr).val with
  | none => rw [hsv] at hlast; cases hlast
  | some x =>
    obtain ⟨k', v'⟩ := x
    rw [hsv] at hlast
    simp only [Option.map_some, Option.some.injEq] at hlast
    subst hlast
    have := seenBy_last k' t0 tr v' hsv
    rw [hseen] at this
    cases this
    exact (C114_partial hv hr hidx hs h1 hn hsv hD ho).1 hcl ha hb

example : check [setupNo, setupNo] (some 0) (w124 3) 0 (pulse 4 3000000000 3000000007) (fun tr i outs i' =>
    decide ((seenBy 0 0 tr).2 = some 3000000007 ∧ (seen 0 tr).val.map Prod.fst = some 0 ∧
        outs.filterMap Out.sampled = [3000000000])) = true := by decide +kernel

/-! ## C125: the alarm for the time of day -/

/-- What the source of the time of day answers in an event. -/
def Ev.answers (st : TodSt) : Ev → Prop
  | .poll _ _ r _ => ∃ off, r.status = some (st, off)
  | _ => True

/-- **C125**, in full: if the source of the time of day always says that it has none, then after
every poll the instance has the alarm. -/
def C125_statement : Prop :=
  ∀ (ss : List Setup) (t0 : Int) (m : Mod) (tr : List Entry), Reach ss (some t0) m tr →
    (∀ e ∈ tr, e.idx < ss.length ∧ e.ev.answers .other) →
    ∀ (k : Nat) (i : Inst) (now : Int) (g : Got) (r : TodReply) (score : Int) (outs : List Out) (i' : Inst) (m' : Mod),
      Next m k i (.poll now g r score) outs i' m' → (∃ off, r.status = some (.other, off)) → t0 < now →
      i'.alarms.noTod = true

/-- The source has no time of day. -/
def replyBad : TodReply := ⟨true, some (.other, 0), none⟩

/-- A pulse meanwhile. -/
def pulseBad (n : Nat) : Ev :=
  .poll ((n : Int) * 1000000000 + 500) (.pulse n (1700000000000000000 + (n : Int) * 1000000000)) replyBad 0

/-- Two instances polled in turn: the second is never the one to ask. -/
theorem C125_violated : ¬ C125_statement := by
  intro h
  have hc : check [setup0, setup0] (some 0)
      ((List.range 5).flatMap (fun j => [(0, pulseBad j), (1, pulseBad j)]) ++ [(0, pulseBad 5)]) 1 (pulseBad 5)
      (fun tr i outs i' => decide (tr.map Entry.ev = (List.range 5).flatMap (fun j => [pulseBad j, pulseBad j]) ++ [pulseBad 5] ∧
        tr.all (fun e => e.idx < 2) = true ∧ i'.alarms.noTod = false)) = true := by decide +kernel
  obtain ⟨m, tr, i, outs, i', m', hr, hn, hp⟩ := witness hc
  obtain ⟨h1, h2, h3⟩ := of_decide_eq_true hp
  have := h _ 0 m tr hr (fun e he => ⟨by simpa using List.all_eq_true.1 h2 e he, by
    have hm : e.ev ∈ tr.map Entry.ev := List.mem_map_of_mem he
    rw [h1, List.mem_append] at hm
    have hb : ∃ j, e.ev = pulseBad j := by
      rcases hm with hm | hm
      · rw [List.mem_flatMap] at hm
        obtain ⟨j, -, hj⟩ := hm
        simp only [List.mem_cons, List.not_mem_nil, or_false, or_self] at hj
        exact ⟨j, hj⟩
      · simp only [List.mem_cons, List.not_mem_nil, or_false] at hm
        exact ⟨5, hm⟩
    obtain ⟨j, hj⟩ := hb
    rw [hj]
    exact ⟨0, rfl⟩⟩) 1 i _ _ _ _ outs i' m' hn ⟨0, rfl⟩ (by decide)
  rw [h3] at this
  cases this

/-- **C125**, in part: a poll that asks sets or clears the alarm by the answer. -/
theorem C125_partial {ss : List Setup} {t0 : Int} {m : Mod} {tr : List Entry} (hr : Reach ss (some t0) m tr)
    (hidx : ∀ e ∈ tr, e.idx < ss.length) {k : Nat} {i : Inst} {now : Int} {g : Got} {r : TodReply} {score : Int}
    {outs : List Out} {i' : Inst} {m' : Mod} (hn : Next m k i (.poll now g r score) outs i' m')
    {st : TodSt} {off : Int} (hst : r.status = some (st, off)) (hdue : (seen t0 tr).due < now) :
    i'.alarms.noTod = true ↔ st = .other := by
  have hd := hr.tod hidx
  have key : ∀ (t1 : Tod) (i1 : Inst), t1.source = true → t1.next = m.tod.next →
      ((finish t1 i1 now r).2.1.alarms.noTod = true ↔ st = .other) := by
    intro t1 i1 h1 h2
    have hf : (todPoll t1 i1 now r).2.alarms.noTod = (finish t1 i1 now r).2.1.alarms.noTod := by
      obtain ⟨nt, sy, cv, t', h3, -, h4⟩ := finish_eq t1 i1 now r
      rw [h3, h4]
    rw [← hf]
    unfold todPoll
    rw [if_neg (by rw [h2, hd.due]; omega)]
    simp only [todFind, h1, if_true]
    rw [todAsk_eq rfl, hst]
    simp only [Option.map_some, Option.getD_some]
    cases st <;> simp
  have mv := hn.move
  generalize m'.tod = tt at mv
  cases mv with
  | quiet now r score i1 q => exact key _ _ hd.source rfl
  | error now r score => exact key _ _ hd.source rfl
  | pulse now seq time r score t1 i1 o1 pm =>
    have ht : t1 = (if o1.any Out.isStep then { m.tod with offset := 0 } else m.tod) := by
      cases pm with
      | used j t1 i1 o1 h1 h2 h3 h4 h5 sm => cases sm <;> simp [Out.isStep]
      | _ => simp
    exact key t1 i1 (by rw [ht]; split <;> exact hd.source) (by rw [ht]; split <;> rfl)

example : check [setup0] (some 0) [(0, pulseBad 0)] 0 (pulseBad 1) (fun tr i outs i' =>
    decide ((seen 0 tr).due < 1000000500 ∧ i'.alarms.noTod = true)) = true := by decide +kernel

/-! ## C126: numbers of the pulses, and steps counted -/

theorem checkSeq_alarm (i : Inst) (seq : Nat) :
    ((checkSeq i seq).alarms.seqNum = true ↔ seq ≠ 4294967295 ∧ seq ≠ (i.seq + 1) % 4294967296) ∧
    (checkSeq i seq).nSeq = i.nSeq + (if seq ≠ 4294967295 ∧ seq ≠ (i.seq + 1) % 4294967296 then 1 else 0) ∧
    (checkSeq i seq).nSteps = i.nSteps ∧ (checkSeq i seq).alarms.noSignal = false := by
  unfold checkSeq
  split
  · rename_i h; simp [h]
  · rename_i h; simp [h]

theorem checkPeriod_alarm (i : Inst) (time : Int) :
    (checkPeriod i time).alarms.seqNum = i.alarms.seqNum ∧ (checkPeriod i time).nSeq = i.nSeq ∧
    (checkPeriod i time).nSteps = i.nSteps ∧ (checkPeriod i time).alarms.noSignal = i.alarms.noSignal := by
  unfold checkPeriod
  split
  · simp only
    split <;> simp
  · simp

theorem ServoMove.numbers {t i time t' i' outs} (h : ServoMove t i time t' i' outs) :
    i'.alarms = i.alarms ∧ i'.nSeq = i.nSeq ∧ i'.nSteps = i.nSteps + (outs.filter Out.isStep).length := by
  cases h with
  | step => exact ⟨rfl, rfl, rfl⟩
  | idle => exact ⟨rfl, rfl, rfl⟩
  | measure => exact ⟨rfl, rfl, rfl⟩
  | slew => exact ⟨rfl, rfl, rfl⟩

/-- Number and steps in the processing of a pulse by a slave. -/
theorem PulseMove.numbers {t i now seq time score t' i' outs} (h : PulseMove t i now seq time score t' i' outs)
    (hs : i.state = .slave) :
    (i'.alarms.seqNum = true ↔ seq ≠ 4294967295 ∧ seq ≠ (i.seq + 1) % 4294967296) ∧
    i'.nSeq = i.nSeq + (if seq ≠ 4294967295 ∧ seq ≠ (i.seq + 1) % 4294967296 then 1 else 0) ∧
    i'.nSteps = i.nSteps + (outs.filter Out.isStep).length ∧ i'.alarms.noSignal = false := by
  obtain ⟨a1, a2, a3, a4⟩ := checkSeq_alarm i seq
  obtain ⟨b1, b2, b3, b4⟩ := checkPeriod_alarm (checkSeq i seq) time
  cases h with
  | first h => exact absurd hs h
  | off => exact ⟨a1, a2, a3, a4⟩
  | skip => exact ⟨a1, a2, a3, a4⟩
  | few => exact ⟨by rw [b1]; exact a1, by rw [b2]; exact a2, by rw [b3]; exact a3, by rw [b4]; exact a4⟩
  | outlier j _ _ _ _ ho =>
    obtain ⟨p, n, hj⟩ := checkOutlier_eq ho
    have h1 : j.alarms.seqNum = (checkPeriod (checkSeq i seq) time).alarms.seqNum := by rw [hj]
    have h2 : j.nSeq = (checkPeriod (checkSeq i seq) time).nSeq := by rw [hj]
    have h3 : j.nSteps = (checkPeriod (checkSeq i seq) time).nSteps := by rw [hj]
    have h4 : j.alarms.noSignal = (checkPeriod (checkSeq i seq) time).alarms.noSignal := by rw [hj]
    exact ⟨by rw [h1, b1]; exact a1, by rw [h2, b2]; exact a2, by rw [h3, b3]; exact a3, by rw [h4, b4]; exact a4⟩
  | used j t' i' outs' _ _ _ _ ho sm =>
    obtain ⟨p, n, hj⟩ := checkOutlier_eq ho
    have h1 : j.alarms.seqNum = (checkPeriod (checkSeq i seq) time).alarms.seqNum := by rw [hj]
    have h2 : j.nSeq = (checkPeriod (checkSeq i seq) time).nSeq := by rw [hj]
    have h3 : j.nSteps = (checkPeriod (checkSeq i seq) time).nSteps := by rw [hj]
    have h4 : j.alarms.noSignal = (checkPeriod (checkSeq i seq) time).alarms.noSignal := by rw [hj]
    have hsv : i'.alarms = j.alarms ∧ i'.nSeq = j.nSeq ∧ i'.nSteps = j.nSteps + (outs'.filter Out.isStep).length := by
      exact sm.numbers
    refine ⟨?_, ?_, ?_, ?_⟩
    · show i'.alarms.seqNum = true ↔ _
      rw [hsv.1, h1, b1]; exact a1
    · show i'.nSeq = _
      rw [hsv.2.1, h2, b2]; exact a2
    · show i'.nSteps = _
      rw [hsv.2.2, h3, b3, a3]
      simp [Out.isStep]
    · show i'.alarms.noSignal = _
      rw [hsv.1, h4, b4]; exact a4

/-- The counts at the end of a poll. -/
theorem finish_counts {t : Tod} {i : Inst} {now : Int} {r : TodReply} {c : Counts}
    (h : .stats c ∈ (finish t i now r).2.2) :
    c.seq = i.nSeq ∧ c.steps = i.nSteps ∧
    c.noSignal = (if i.prevAlarms.noSignal = true ∧ i.alarms.noSignal = false then 1 else 0) ∧
    c.bad = i.nBad ∧ c.outliers = i.nOutliers := by
  obtain ⟨nt, sy, cv, t', -, -, he⟩ := finish_eq t i now r
  rw [he] at h
  simp only [List.mem_cons, Out.stats.injEq] at h
  rcases h with h | h
  · rw [h]
    refine ⟨rfl, rfl, ?_, rfl, rfl⟩
    simp [counts]
  · split at h <;> simp at h

theorem finish_nosteps (t : Tod) (i : Inst) (now : Int) (r : TodReply) :
    (finish t i now r).2.2.filter Out.isStep = [] := by
  rw [List.filter_eq_nil_iff]
  intro o ho
  have := (finish_outs t i now r).2
  rw [List.any_eq_false] at this
  exact this o ho

theorem PulseMove.nostats {t i now seq time score t' i' outs} (h : PulseMove t i now seq time score t' i' outs)
    (c : Counts) : .stats c ∉ outs := by
  intro hm
  cases h with
  | used j t' i' outs' h1 h2 h3 h4 h5 sm =>
    rw [List.mem_append] at hm
    rcases hm with hm | hm
    · cases sm <;> simp at hm
    · simp at hm
  | _ => simp at hm

/-- **C126**: for a pulse that comes to a slave, the alarm is raised exactly if the number (unless the clock
has none, `UINT32_MAX`) does not follow that of the pulse before; the count is of that pulse, and the
count of steps that of the steps made. -/
theorem C126 {ss : List Setup} {src : Option Int} {m : Mod} {tr : List Entry} (hr : Reach ss src m tr)
    {k : Nat} {i : Inst} {now : Int} {seq : Nat} {time : Int} {r : TodReply} {score : Int} {outs : List Out} {i' : Inst}
    {m' : Mod} (hn : Next m k i (.poll now (.pulse seq time) r score) outs i' m') (hs : i.state = .slave) :
    ∃ p, lastSeq (own k tr) = some p ∧
      (i'.alarms.seqNum = true ↔ seq ≠ 2 ^ 32 - 1 ∧ seq ≠ (p + 1) % 2 ^ 32) ∧
      ∀ c, .stats c ∈ outs → c.seq = (if seq ≠ 2 ^ 32 - 1 ∧ seq ≠ (p + 1) % 2 ^ 32 then 1 else 0) ∧
        c.steps = (outs.filter Out.isStep).length := by
  obtain ⟨m0, h0, hh⟩ := hr.hist
  have hq := hh.qok k (fun i hi => Reach.fresh h0 k i hi) i hn.1
  refine ⟨i.seq, hq.seq hs, ?_⟩
  have mv := hn.move
  generalize m'.tod = tt at mv
  cases mv with
  | pulse now seq time r score t1 i1 o1 pm =>
    obtain ⟨h1, h2, h3, h4⟩ := pm.numbers hs
    refine ⟨?_, ?_⟩
    · rw [(finish_frame _ _ _ _).2.2.2.2.2.2.2.2.2.2.2.1]; exact h1
    · intro c hc
      rw [List.mem_append] at hc
      rcases hc with hc | hc
      · exact absurd hc (pm.nostats c)
      · obtain ⟨h5, h6, -⟩ := finish_counts hc
        rw [h5, h2, hq.nSeq, h6, h3, hq.nSteps, List.filter_append, finish_nosteps]
        simp

/-- A pulse is missing: 1, 2, 4. -/
example : check [setup0] (some 0) (pulses 2 40 7) 0 (pulse 4 40 7) (fun tr i outs i' =>
    decide (i.state = .slave ∧ lastSeq (own 0 tr) = some 2 ∧ i'.alarms.seqNum = true ∧
      outs.filterMap Out.counts? = [⟨false, 0, 0, 1, 0, 1, 0⟩])) = true := by decide +kernel

/-! ## C121: losses of the signal are counted -/

/-- **C121**, in full: a poll counts the end of a loss of signal exactly if the alarm was there and is gone. -/
def C121_statement : Prop :=
  ∀ (ss : List Setup) (src : Option Int) (m : Mod) (tr : List Entry), Reach ss src m tr →
    ∀ (k : Nat) (i : Inst) (now : Int) (g : Got) (r : TodReply) (score : Int) (outs : List Out) (i' : Inst) (m' : Mod),
      Next m k i (.poll now g r score) outs i' m' →
    ∀ c, .stats c ∈ outs → (c.noSignal = 1 ↔ i.alarms.noSignal = true ∧ i'.alarms.noSignal = false)

theorem counts_mem {outs : List Out} {c : Counts} (h : outs.filterMap Out.counts? = [c]) : .stats c ∈ outs := by
  have : c ∈ outs.filterMap Out.counts? := by rw [h]; simp
  rw [List.mem_filterMap] at this
  obtain ⟨o, h1, h2⟩ := this
  cases o with
  | stats x =>
    simp only [Out.counts?, Option.some.injEq] at h2
    subst h2; exact h1
  | _ => cases h2

/-- With a file descriptor, the loss is noticed by the timer and ended by the poll; it is not counted. -/
theorem C121_violated : ¬ C121_statement := by
  intro h
  have hc : check [setupFd] (some 0) [(0, pulse 1 40 7), (0, .tick 20000000000)] 0 (pulse 30 40 7) (fun tr i outs i' =>
      decide (i.alarms.noSignal = true ∧ i'.alarms.noSignal = false ∧
        (outs.filterMap Out.counts?).map Counts.noSignal = [0] ∧
        outs.filterMap Out.counts? = [⟨false, 0, 0, 1, 0, 1, 0⟩])) = true := by decide +kernel
  obtain ⟨m, tr, i, outs, i', m', hr, hn, hp⟩ := witness hc
  obtain ⟨h1, h2, -, h4⟩ := of_decide_eq_true hp
  have := (h _ _ _ _ hr 0 i _ _ _ _ outs i' m' hn _ (counts_mem h4)).2 ⟨h1, h2⟩
  cases this

/-- **C121**, in part: for a pulse, if the event of the instance before was a poll too. -/
theorem C121_partial {ss : List Setup} {src : Option Int} {m : Mod} {tr : List Entry} (hr : Reach ss src m tr)
    {k : Nat} {i : Inst} {now : Int} {seq : Nat} {time : Int} {r : TodReply} {score : Int} {outs : List Out} {i' : Inst}
    {m' : Mod} (hn : Next m k i (.poll now (.pulse seq time) r score) outs i' m') {x : Entry}
    (hl : (own k tr).getLast? = some x) (hx : x.ev.isPoll = true) {c : Counts} (hc : .stats c ∈ outs) :
    c.noSignal = 1 ↔ i.alarms.noSignal = true ∧ i'.alarms.noSignal = false := by
  obtain ⟨m0, h0, hh⟩ := hr.hist
  have hsn : Snap i := by
    refine hh.inst k (J := fun i tr => ∀ x, tr.getLast? = some x → x.ev.isPoll = true → Snap i) ?_ ?_ i hn.1 x hl hx
    · intro i hi x h; cases h
    · intro t i e t' i' outs tr hJ hs x h
      simp only [List.getLast?_append, List.getLast?_singleton, Option.some_or, Option.some.injEq] at h
      subst h
      exact poll_snap (step_move hs)
  have mv := hn.move
  generalize m'.tod = tt at mv
  cases mv with
  | pulse now seq time r score t1 i1 o1 pm =>
    rw [List.mem_append] at hc
    rcases hc with hc | hc
    · exact absurd hc (pm.nostats c)
    · obtain ⟨-, -, h5, -⟩ := finish_counts hc
      rw [h5, pm.kept.1.prevAlarms, hsn.alarms, (finish_frame _ _ _ _).2.2.2.2.2.2.2.2.2.2.2.2]
      split
      · rename_i h; simp [h]
      · rename_i h; simp [h]

example : check [setup0] (some 0) [(0, pulse 1 40 7), (0, .poll 20000000000 .nothing (reply 7) 0)] 0 (pulse 30 40 7)
    (fun tr i outs i' => decide (i.alarms.noSignal = true ∧ i'.alarms.noSignal = false ∧
      (own 0 tr).getLast?.map (fun e => e.ev.isPoll) = some true ∧
      (outs.filterMap Out.counts?).map Counts.noSignal = [1])) = true := by decide +kernel

/-! ## C120: synchronised instances are sound -/

/-- **C120**, in full: after a poll, an instance that says it is synchronised has no alarms and processes timestamps. -/
def C120_statement : Prop :=
  ∀ (ss : List Setup) (src : Option Int) (m : Mod) (tr : List Entry), Reach ss src m tr →
    ∀ (k : Nat) (i : Inst) (e : Ev) (outs : List Out) (i' : Inst) (m' : Mod),
      Next m k i e outs i' m' → e.isPoll = true → i'.synced = true → i'.alarms = ⟨false, false, false, false⟩ ∧ i'.flags.tsProc = true

/-- After 64 good pulses the signal is lost: the instance still says it is synchronised. -/
theorem C120_violated : ¬ C120_statement := by
  intro h
  have hc : check [setup0] (some 0) ((0, grant) :: pulses 64 40 7) 0 (.poll 66000000000 .nothing (reply 7) 0)
      (fun tr i outs i' => decide (i'.synced = true ∧ i'.alarms.noSignal = true)) = true := by decide +kernel
  obtain ⟨m, tr, i, outs, i', m', hr, hn, hp⟩ := witness hc
  obtain ⟨h1, h2⟩ := of_decide_eq_true hp
  have := (h _ _ _ _ hr 0 i _ outs i' m' hn rfl h1).1
  rw [this] at h2
  cases h2

/-- An instance that is synchronised is a slave, after a poll. -/
theorem finish_synced (t : Tod) (i : Inst) (now : Int) (r : TodReply) (h : (finish t i now r).2.1.synced = true) :
    i.state = .slave ∧ ((finish t i now r).2.1.alarms.any = false → i.flags.tsProc = true →
      -i.conv.maxOffset ≤ i.offset ∧ i.offset ≤ i.conv.maxOffset) := by
  obtain ⟨nt, sy, cv, t', -, h1, he⟩ := finish_eq t i now r
  rw [he] at h ⊢
  simp only at h ⊢
  subst h
  unfold convUpdate at h1
  split at h1
  · have := congrArg Inst.synced h1
    simp at this
  · rename_i hs
    refine ⟨by simpa using hs, ?_⟩
    intro h2 h3
    rw [if_neg (by simp [h2, h3])] at h1
    have := congrArg Inst.synced h1
    simp only [Conv.update] at this
    split at this
    · cases this
    · rename_i hc
      rw [not_or, not_lt, not_lt] at hc
      exact hc

/-- The limit of the convergence measure and the offset at the end of a poll. -/
theorem finish_conv (t : Tod) (i : Inst) (now : Int) (r : TodReply) :
    (finish t i now r).2.1.conv.maxOffset = i.conv.maxOffset ∧ (finish t i now r).2.1.offset = i.offset := by
  obtain ⟨nt, sy, cv, t', -, h1, he⟩ := finish_eq t i now r
  rw [he]
  refine ⟨?_, rfl⟩
  have := congrArg (fun i => i.conv.maxOffset) h1
  simp only at this
  show cv.maxOffset = _
  rw [← this]
  unfold convUpdate
  split
  · rfl
  · split
    · rfl
    · simp only [Conv.update]
      split
      · rfl
      · split <;> rfl

theorem Hist.conv {m0 m : Mod} {tr : List Entry} (hh : Hist m0 m tr) (k : Nat) (x : Rat)
    (h0 : ∀ i, m0.insts[k]? = some i → i.conv.maxOffset = x) (i : Inst) (hi : m.insts[k]? = some i) :
    i.conv.maxOffset = x := by
  refine hh.inst' k (J := fun i => i.conv.maxOffset = x) h0 ?_ i hi
  intro t i e t' i' outs hJ hs
  have hq : ∀ {i i' : Inst} {now : Int}, QuietMove i now i' → i'.conv = i.conv := by
    intro i i' now q; cases q <;> rfl
  cases step_move hs with
  | tick now s c ns i' q => have := hq q; rw [this]; exact hJ
  | quiet now r score i1 q => rw [(finish_conv _ _ _ _).1, hq q]; exact hJ
  | error now r score =>
    rw [(finish_conv _ _ _ _).1]
    rcases onError_frame i with ⟨-, h1⟩ | ⟨-, h1⟩ <;> (rw [h1]; exact hJ)
  | pulse now seq time r score t1 i1 o1 pm => rw [(finish_conv _ _ _ _).1, pm.kept.1.conv]; exact hJ
  | control mask flags =>
    obtain ⟨pid, st, he, -, hst⟩ := control_eq i mask flags
    rw [he]; exact hJ
  | step off hsrc => exact hJ
  | save =>
    obtain ⟨sv, he, -, ho⟩ := save_eq i
    rw [he]; exact hJ
  | pid => exact hJ

/-- **C120**, in part: after a poll a synchronised instance is a slave, and if it has no alarms and processes timestamps,
its offset is within the configured limit. -/
theorem C120_partial {ss : List Setup} {src : Option Int} {m : Mod} {tr : List Entry} (hr : Reach ss src m tr)
    {k : Nat} {s : Setup} (hs : ss[k]? = some s) {i : Inst} {e : Ev} {outs : List Out} {i' : Inst} {m' : Mod}
    (hn : Next m k i e outs i' m') (hp : e.isPoll = true) (hsy : i'.synced = true) :
    i'.state = .slave ∧ (i'.alarms = ⟨false, false, false, false⟩ → i'.flags.tsProc = true →
      -s.maxOffset ≤ i'.offset ∧ i'.offset ≤ s.maxOffset) := by
  obtain ⟨m0, h0, hh⟩ := hr.hist
  have hcv := (hh.next hn).conv k s.maxOffset (fun i hi => by
    obtain ⟨s', h1, h2⟩ := start_get h0 hi
    rw [hs] at h1
    cases h1
    rw [(start_fields h2).2.2.2.2.2.2]) i' hn.2.2
  have key : ∀ (t : Tod) (i1 : Inst) (now : Int) (r : TodReply), i' = (finish t i1 now r).2.1 →
      i'.state = .slave ∧ (i'.alarms = ⟨false, false, false, false⟩ → i'.flags.tsProc = true →
        -s.maxOffset ≤ i'.offset ∧ i'.offset ≤ s.maxOffset) := by
    intro t i1 now r he
    rw [he] at hsy hcv ⊢
    obtain ⟨h1, h2⟩ := finish_synced t i1 now r hsy
    have hf := finish_frame t i1 now r
    have hc := finish_conv t i1 now r
    refine ⟨by rw [hf.1]; exact h1, fun h3 h4 => ?_⟩
    rw [hc.1] at hcv
    rw [hc.2, ← hcv]
    exact h2 (by rw [h3]; rfl) (by rw [← hf.2.2.2.2.1]; exact h4)
  have mv := hn.move
  generalize m'.tod = tt at mv
  cases mv with
  | quiet now r score i1 q => exact key _ _ _ _ rfl
  | error now r score => exact key _ _ _ _ rfl
  | pulse now seq time r score t1 i1 o1 pm => exact key _ _ _ _ rfl
  | tick => cases hp
  | control => cases hp
  | step => cases hp
  | save => cases hp
  | pid => cases hp

example : check [setup0] (some 0) ((0, grant) :: pulses 63 40 7) 0 (pulse 64 40 7)
    (fun tr i outs i' => decide (i'.synced = true ∧ i'.alarms = ⟨false, false, false, false⟩ ∧ i'.flags.tsProc = true ∧
      i'.state = .slave)) = true := by decide +kernel

end Verif.Pps
