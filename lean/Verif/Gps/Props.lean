import Verif.Gps.Model

/-
# Properties of the GPS sync module
-/

set_option linter.unusedSimpArgs false
set_option linter.unusedVariables false

namespace Verif.Gps

/-! ## Specification: what the receiver has last said -/

/-- Whether the receiver has a fix by its last report of status. -/
def lastFix : List Ev → Bool → Bool
  | [], b => b
  | .data _ ⟨_, some (mode, _, _), _⟩ _ _ :: es, _ => lastFix es (decide (2 ≤ mode))
  | _ :: es, b => lastFix es b

/-- The satellites in view by the last report of satellites. -/
def lastSeen : List Ev → Int → Int
  | [], n => n
  | .data _ ⟨some (_, v), _, _⟩ _ _ :: es, _ => lastSeen es v
  | _ :: es, n => lastSeen es n

/-- The state that belongs to a fix and a number of satellites. -/
def stateOf (fix : Bool) (seen : Int) : St :=
  if fix = true then .slave else if 0 < seen then .selection else .listening

/-! ## The invariant -/

/-- What holds between events. -/
structure Inv (i : Inst) : Prop where
  st : i.s.st = stateOf i.s.fix i.s.seen
  safe : i.s.offUnsafe = false
  alarms : i.s.alarms = 0
  stratum : i.s.stratum = 0
  off : i.s.fix = false → i.s.offset = 0
  sync : i.s.sync = true → i.s.st = .slave
  told : match i.told with
    | none => i.s.st = .listening
    | some x => x.st = i.s.st ∧ x.alarms = i.s.alarms ∧ x.remote = decide (i.s.st = .slave) ∧
        x.locked = decide (i.s.st = .slave) ∧ x.gps = decide (i.s.st = .slave) ∧ x.steps = 0

theorem init_inv (th : Int) : Inv (init th) := by
  constructor <;> simp [init, stateOf]

/-- The next state after `gps_parse_state`. -/
theorem parse_spec (rc : Int) (s : S) (h : s.offUnsafe = false) :
    (parseState rc s.offUnsafe s).st = stateOf s.fix s.seen ∧
    (parseState rc s.offUnsafe s).fix = s.fix ∧ (parseState rc s.offUnsafe s).seen = s.seen ∧
    (parseState rc s.offUnsafe s).used = s.used ∧
    (parseState rc s.offUnsafe s).offUnsafe = false ∧ (parseState rc s.offUnsafe s).alarms = s.alarms ∧
    (s.stratum = 0 → (parseState rc s.offUnsafe s).stratum = 0) ∧
    (parseState rc s.offUnsafe s).offset = if s.fix = true then s.offset else 0 := by
  cases hf : s.fix <;> by_cases hr : rc = 0 <;> simp [parseState, stateOf, h, hf, hr]

theorem convergence_sync (c : Conv) (tsp : Bool) (t : Option Int) (s : S)
    (h : (convergence c tsp t s).2 = true) : s.st = .slave := by
  unfold convergence at h
  cases t with
  | none => simp at h
  | some t =>
    by_cases hs : s.st = .slave
    · exact hs
    · simp [hs] at h

/-- Storing a next state that fits keeps the invariant. -/
theorem update_inv (i : Inst) (n : S) (t : Option Int) (now : Int) (hi : Inv i)
    (h1 : n.st = stateOf n.fix n.seen) (h2 : n.offUnsafe = false) (h3 : n.alarms = 0) (h4 : n.stratum = 0)
    (h5 : n.fix = false → n.offset = 0) :
    Inv (updateState i n t now) ∧ (updateState i n t now).s.fix = n.fix ∧
      (updateState i n t now).s.seen = n.seen ∧ (updateState i n t now).s.offset = n.offset := by
  have hs : (updateState i n t now).s = { n with sync := (convergence i.conv i.tsp t n).2 } := by
    simp [updateState, offIdChange, h2]
  refine ⟨⟨?_, ?_, ?_, ?_, ?_, ?_, ?_⟩, ?_, ?_, ?_⟩ <;> try rw [hs]
  · exact h1
  · exact h2
  · exact h3
  · exact h4
  · exact h5
  · exact fun h => convergence_sync _ _ _ _ h
  · have ht : (updateState i n t now).told =
        match stateChange i.s n with | some x => some x | none => i.told := rfl
    rw [ht]
    by_cases hc : n.st ≠ i.s.st ∨ n.alarms ≠ i.s.alarms ∨ n.stratum ≠ i.s.stratum ∨
        (n.offset ≠ 0 ∧ i.s.offset = 0)
    · have hn : stateChange i.s n = some ⟨n.st, n.alarms, n.offset, decide (n.st = .slave),
          decide (n.st = .slave), decide (n.st = .slave), n.stratum⟩ := by simp only [stateChange, if_pos hc]
      rw [hn]
      exact ⟨rfl, rfl, rfl, rfl, rfl, h4⟩
    · have hst : n.st = i.s.st := Classical.byContradiction fun hne => hc (Or.inl hne)
      have hn : stateChange i.s n = none := by simp only [stateChange, if_neg hc]
      rw [hn]
      have := hi.told
      simp only [hst, h3]
      rw [hi.alarms] at this
      exact this

/-- A failed read is not noticed. -/
theorem fail_same (i : Inst) (hi : Inv i) (e : Nat) (t : Option Int) (now : Int) :
    step i (.fail e t now) = i := by
  have := (parse_spec (-1) i.s hi.safe).1
  have hm : (machine i.s (-1) ⟨none, none, none⟩).2 = false := by
    simp [machine, this, hi.st]
  have hs : step i (.fail e t now) = if (e : Int) = -11 ∨ (e : Int) = -4 then i else
      if (machine i.s (-1) ⟨none, none, none⟩).2 = true
      then updateState i (machine i.s (-1) ⟨none, none, none⟩).1 t now else i := rfl
  rw [hs, hm]
  simp

/-- The fields before `gps_parse_state`. -/
def before (s : S) (r : Report) : S := useToff r (useStatus r (useSats r s))

theorem before_spec (s : S) (r : Report) :
    (before s r).offUnsafe = s.offUnsafe ∧ (before s r).alarms = s.alarms ∧
    (before s r).stratum = s.stratum ∧
    (before s r).fix = (match r.status with | some x => decide (2 ≤ x.1) | none => s.fix) ∧
    (before s r).seen = (match r.sats with | some x => x.2 | none => s.seen) ∧
    ((before s r).fix = true → (before s r).offset = match r.toff with | some x => x.2 - x.1 | none => s.offset) := by
  have h1 : ∀ s, (useSats r s).offUnsafe = s.offUnsafe ∧ (useSats r s).alarms = s.alarms ∧
      (useSats r s).stratum = s.stratum ∧ (useSats r s).fix = s.fix ∧ (useSats r s).offset = s.offset ∧
      (useSats r s).seen = (match r.sats with | some x => x.2 | none => s.seen) := by
    intro s; unfold useSats; cases r.sats <;> simp
  have h2 : ∀ s, (useStatus r s).offUnsafe = s.offUnsafe ∧ (useStatus r s).alarms = s.alarms ∧
      (useStatus r s).stratum = s.stratum ∧ (useStatus r s).seen = s.seen ∧ (useStatus r s).offset = s.offset ∧
      (useStatus r s).fix = (match r.status with | some x => decide (2 ≤ x.1) | none => s.fix) := by
    intro s; unfold useStatus; cases r.status <;> simp
  have h3 : ∀ s, (useToff r s).offUnsafe = s.offUnsafe ∧ (useToff r s).alarms = s.alarms ∧
      (useToff r s).stratum = s.stratum ∧ (useToff r s).seen = s.seen ∧ (useToff r s).fix = s.fix ∧
      (s.fix = true → (useToff r s).offset = match r.toff with | some x => x.2 - x.1 | none => s.offset) := by
    intro s; unfold useToff
    cases r.toff with
    | none => simp
    | some x => cases hf : s.fix <;> simp [hf]
  obtain ⟨a1, a2, a3, a4, a5, a6⟩ := h1 s
  obtain ⟨b1, b2, b3, b4, b5, b6⟩ := h2 (useSats r s)
  obtain ⟨c1, c2, c3, c4, c5, c6⟩ := h3 (useStatus r (useSats r s))
  unfold before
  refine ⟨by rw [c1, b1, a1], by rw [c2, b2, a2], by rw [c3, b3, a3], by rw [c5, b6, a4], by rw [c4, b4, a6], ?_⟩
  intro h
  rw [c5] at h
  rw [c6 h, b5, a5]

/-- A report: the invariant, and what is stored. -/
theorem data_spec (i : Inst) (hi : Inv i) (b : Nat) (r : Report) (t : Option Int) (now : Int) :
    Inv (step i (.data b r t now)) ∧
    (step i (.data b r t now)).s.fix = (match r.status with | some x => decide (2 ≤ x.1) | none => i.s.fix) ∧
    (step i (.data b r t now)).s.seen = (match r.sats with | some x => x.2 | none => i.s.seen) ∧
    ((step i (.data b r t now)).s.fix = true → (step i (.data b r t now)).s.offset =
      match r.toff with | some x => x.2 - x.1 | none => i.s.offset) := by
  obtain ⟨b1, b2, b3, b4, b5, b6⟩ := before_spec i.s r
  have hsafe : (before i.s r).offUnsafe = false := by rw [b1]; exact hi.safe
  obtain ⟨p1, p2, p3, p4, p5, p6, p7, p8⟩ := parse_spec b (before i.s r) hsafe
  have hnb : ¬ ((b : Int) < 0) := by omega
  have hm : machine i.s b r = (parseState b (before i.s r).offUnsafe (before i.s r),
      decide ((parseState b (before i.s r).offUnsafe (before i.s r)).st ≠ i.s.st ∨
        (parseState b (before i.s r).offUnsafe (before i.s r)).used ≠ i.s.used ∨
        (parseState b (before i.s r).offUnsafe (before i.s r)).seen ≠ i.s.seen ∨
        (parseState b (before i.s r).offUnsafe (before i.s r)).offset ≠ i.s.offset)) := by
    unfold machine; rw [if_neg hnb]; rfl
  have hs : step i (.data b r t now) = if (machine i.s b r).2 = true
      then updateState i (machine i.s b r).1 t now else i := rfl
  rw [hs, hm]
  generalize parseState b (before i.s r).offUnsafe (before i.s r) = n at *
  dsimp only
  split
  · obtain ⟨u1, u2, u3, u4⟩ := update_inv i n t now hi (by rw [p1, p2, p3]) p5
      (by rw [p6, b2]; exact hi.alarms) (p7 (by rw [b3]; exact hi.stratum))
      (by intro h; rw [p8]; rw [p2] at h; simp [h])
    refine ⟨u1, by rw [u2, p2, b4], by rw [u3, p3, b5], ?_⟩
    intro h
    rw [u2, p2] at h
    rw [u4, p8, if_pos h, b6 h]
  · rename_i hc
    simp only [decide_eq_true_eq, not_or, ne_eq, Decidable.not_not] at hc
    obtain ⟨c1, c2, c3, c4⟩ := hc
    have hseen : (before i.s r).seen = i.s.seen := by rw [← p3, c3]
    have hfix : (before i.s r).fix = i.s.fix := by
      have h1 : stateOf (before i.s r).fix (before i.s r).seen = stateOf i.s.fix i.s.seen := by
        rw [← p1, c1, hi.st]
      cases ha : (before i.s r).fix <;> cases hb : i.s.fix <;> rw [ha, hb] at h1 <;>
        simp only [stateOf] at h1 <;> (try rfl) <;> exfalso <;> revert h1 <;>
        (by_cases h0 : 0 < (before i.s r).seen <;> by_cases h2 : 0 < i.s.seen <;> simp [h0, h2])
    refine ⟨hi, by rw [← b4, hfix], by rw [← b5, hseen], ?_⟩
    intro h
    rw [← hfix] at h
    exact c4.symm.trans (by rw [p8, if_pos h, b6 h])

theorem step_inv (i : Inst) (e : Ev) (hi : Inv i) : Inv (step i e) := by
  cases e with
  | fail e t now => rw [fail_same i hi]; exact hi
  | data b r t now => exact (data_spec i hi b r t now).1
  | stepClock => exact hi
  | control x => exact ⟨hi.st, hi.safe, hi.alarms, hi.stratum, hi.off, hi.sync, hi.told⟩

theorem foldl_inv (es : List Ev) (i : Inst) (hi : Inv i) :
    Inv (es.foldl step i) ∧ (es.foldl step i).s.fix = lastFix es i.s.fix ∧
      (es.foldl step i).s.seen = lastSeen es i.s.seen := by
  induction es generalizing i with
  | nil => exact ⟨hi, rfl, rfl⟩
  | cons e es ih =>
    obtain ⟨h1, h2, h3⟩ := ih (step i e) (step_inv i e hi)
    refine ⟨h1, ?_, ?_⟩
    · rw [List.foldl_cons, h2]
      cases e with
      | fail e t now => rw [fail_same i hi]; rfl
      | data b r t now =>
        rw [(data_spec i hi b r t now).2.1]
        obtain ⟨sats, _ | ⟨m, e, g⟩, toff⟩ := r <;> rfl
      | stepClock => rfl
      | control x => rfl
    · rw [List.foldl_cons, h3]
      cases e with
      | fail e t now => rw [fail_same i hi]; rfl
      | data b r t now =>
        rw [(data_spec i hi b r t now).2.2.1]
        obtain ⟨_ | ⟨u, v⟩, status, toff⟩ := r <;> rfl
      | stepClock => rfl
      | control x => rfl

theorem run_inv (th : Int) (es : List Ev) : Inv (run th es) := (foldl_inv es _ (init_inv th)).1

/-! ## C392: the state follows the receiver -/

/-- C392: after any events, the instance is a slave exactly if the receiver had a fix by its last report;
otherwise it is selecting if satellites were in view by the last report, or listening, and the offset is 0. -/
theorem C392_state (th : Int) (es : List Ev) :
    (run th es).s.st = stateOf (lastFix es false) (lastSeen es 0) ∧
    ((run th es).s.st ≠ .slave → (run th es).s.offset = 0) := by
  obtain ⟨h1, h2, h3⟩ := foldl_inv es (init th) (init_inv th)
  have hst : (run th es).s.st = stateOf (run th es).s.fix (run th es).s.seen := h1.st
  refine ⟨by rw [hst]; unfold run; rw [h2, h3]; rfl, ?_⟩
  intro hn
  apply h1.off
  cases hf : (run th es).s.fix with
  | false => exact hf
  | true => exact absurd (by rw [hst, hf]; rfl) hn

/-- A fix is gained and lost; satellites stay in view. -/
example : (run 0 [.data 9 ⟨some (4, 9), some (3, 5, 1000), some (100, 350)⟩ (some 1) 0,
      .data 9 ⟨none, some (1, 5, 2000), none⟩ (some 2) 0]).s.st = .selection ∧
    (run 0 [.data 9 ⟨some (4, 9), some (3, 5, 1000), some (100, 350)⟩ (some 1) 0]).s.offset = 250 := by decide

/-! ## C393: if gpsd fails, this is noticed -/

/-- C393: after a read that fails for good (not `EAGAIN`, 11, or `EINTR`, 4), the instance is disabled or
faulty. -/
def C393_statement : Prop :=
  ∀ (th : Int) (es : List Ev) (e : Nat) (t : Option Int) (now : Int), e ≠ 11 → e ≠ 4 →
    (run th (es ++ [.fail e t now])).s.st = .disabled ∨ (run th (es ++ [.fail e t now])).s.st = .faulty

/-- The connection is reset (104) while there is a fix: still a slave. -/
theorem C393_violated : ¬ C393_statement := by
  intro h
  have := h 0 [.data 9 ⟨some (4, 9), some (3, 5, 1000), some (100, 350)⟩ (some 1) 0] 104 (some 2) 0
    (by decide) (by decide)
  revert this; decide

/-- No failed read, of whatever kind and however often, changes anything of the instance. -/
theorem C393_unnoticed (th : Int) (es fs : List Ev) (hf : ∀ f ∈ fs, ∃ e t now, f = .fail e t now) :
    run th (es ++ fs) = run th es := by
  have key : ∀ (fs : List Ev) (i : Inst), Inv i → (∀ f ∈ fs, ∃ e t now, f = .fail e t now) →
      fs.foldl step i = i := by
    intro fs
    induction fs with
    | nil => intros; rfl
    | cons f fs ih =>
      intro i hi hf
      obtain ⟨e, t, now, rfl⟩ := hf f (by simp)
      rw [List.foldl_cons, fail_same i hi]
      exact ih i hi (fun g hg => hf g (by simp [hg]))
  unfold run
  rw [List.foldl_append]
  exact key fs _ (run_inv th es) hf

/-- C393, the part that holds: a read that fails without a fix leaves an instance that is no slave and has
no offset. Missing: with a fix; and the states disabled and faulty. -/
theorem C393_no_fix_partial (th : Int) (es : List Ev) (e : Nat) (t : Option Int) (now : Int)
    (h : lastFix es false = false) :
    (run th (es ++ [.fail e t now])).s.st ≠ .slave ∧ (run th (es ++ [.fail e t now])).s.offset = 0 := by
  rw [C393_unnoticed th es [.fail e t now] (by intro f hf; simp at hf; exact ⟨e, t, now, hf⟩)]
  obtain ⟨h1, h2⟩ := C392_state th es
  have hn : (run th es).s.st ≠ .slave := by
    rw [h1, h]; unfold stateOf; split <;> simp_all; split <;> simp
  exact ⟨hn, h2 hn⟩

example : lastFix [.data 9 ⟨some (4, 9), some (3, 5, 1000), some (100, 350)⟩ (some 1) 0,
    .data 9 ⟨none, some (1, 5, 2000), none⟩ (some 2) 0] false = false := by decide

/-! ## C394: the engine knows the state -/

/-- C394: at every time, the engine was last told what a query answers, apart from the offset; or nothing
was told yet and the instance is listening. -/
theorem C394_engine (th : Int) (es : List Ev) :
    match (run th es).told with
    | none => (run th es).s.st = .listening
    | some x => ({ x with offset := 0 } : Status) = { query (run th es) with offset := 0 } := by
  have hi := run_inv th es
  have ht := hi.told
  cases hx : (run th es).told with
  | none => rw [hx] at ht; exact ht
  | some x =>
    rw [hx] at ht
    obtain ⟨a, b, c, d, e, f⟩ := ht
    obtain ⟨x1, x2, x3, x4, x5, x6, x7⟩ := x
    simp only at a b c d e f
    by_cases hs : (run th es).s.st = .slave
    · simp [query, hs, a, b, c, d, e, f, hi.stratum]
    · simp [query, hs, a, b, c, d, e, f]

example : (run 0 [.data 9 ⟨some (4, 9), some (3, 5, 1000), some (100, 350)⟩ (some 1) 0]).told =
    some ⟨.slave, 0, 250, true, true, true, 0⟩ := by decide

/-! ## C395: synchronized only with a small offset -/

/-- C395: an instance is synchronized only while it is a slave and its offset is within the threshold. -/
def C395_statement : Prop :=
  ∀ (th : Int) (es : List Ev), 0 < th → (run th es).s.sync = true →
    (run th es).s.st = .slave ∧ -th ≤ (run th es).s.offset ∧ (run th es).s.offset ≤ th

/-- The offset is always about a second, the threshold a microsecond: synchronized after a minute. -/
theorem C395_violated : ¬ C395_statement := by
  intro h
  have := h 1000 [.data 9 ⟨some (4, 9), some (3, 5, 1000), some (0, 1000000000)⟩ (some 1) 0,
    .data 9 ⟨none, none, some (0, 1000000001)⟩ (some 61) 0] (by decide) (by decide)
  revert this; decide

/-- C395, the part that holds: synchronized only while a slave, by the last report. Missing: the offset. -/
theorem C395_slave_partial (th : Int) (es : List Ev) (h : (run th es).s.sync = true) :
    (run th es).s.st = .slave ∧ lastFix es false = true := by
  have hs := (run_inv th es).sync h
  refine ⟨hs, ?_⟩
  have := (C392_state th es).1
  rw [hs] at this
  cases hf : lastFix es false with
  | true => rfl
  | false =>
    rw [hf] at this
    unfold stateOf at this
    by_cases h0 : 0 < lastSeen es 0 <;> simp [h0] at this

example : (run 1000 [.data 9 ⟨some (4, 9), some (3, 5, 1000), some (0, 20)⟩ (some 1) 0,
    .data 9 ⟨none, none, some (0, 21)⟩ (some 61) 0]).s.sync = true := by decide

/-! ## C396: no offset from before a step of the clock -/

/-- C396: after a step of the clock, the instance is no slave until the next report. -/
def C396_statement : Prop :=
  ∀ (th : Int) (es : List Ev), (run th (es ++ [.stepClock])).s.st ≠ .slave

theorem C396_violated : ¬ C396_statement := by
  intro h
  exact h 0 [.data 9 ⟨some (4, 9), some (3, 5, 1000), some (100, 350)⟩ (some 1) 0] (by decide)

/-- C396, the part that holds: after any events, the next report with times while there is a fix gives the
offset, whatever it was before. Missing: the time between the step and that report. -/
theorem C396_next_partial (th : Int) (es : List Ev) (b : Nat) (r : Report) (t : Option Int) (now real clock : Int)
    (hr : r.toff = some (real, clock)) (hf : lastFix (es ++ [.data b r t now]) false = true) :
    (run th (es ++ [.data b r t now])).s.offset = clock - real := by
  have hfix : (run th (es ++ [.data b r t now])).s.fix = true := by
    rw [← hf]; exact (foldl_inv (es ++ [.data b r t now]) (init th) (init_inv th)).2.1
  have hrun : run th (es ++ [.data b r t now]) = step (run th es) (.data b r t now) := by
    unfold run; rw [List.foldl_append]; rfl
  rw [hrun] at hfix ⊢
  rw [(data_spec (run th es) (run_inv th es) b r t now).2.2.2 hfix, hr]

example : lastFix ([.data 9 ⟨some (4, 9), some (3, 5, 1000), some (100, 350)⟩ (some 1) 0, .stepClock] ++
    [.data 9 ⟨none, none, some (100, 90)⟩ (some 2) 0]) false = true := by decide

end Verif.Gps
