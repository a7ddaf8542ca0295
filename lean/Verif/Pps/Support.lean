import Verif.Pps.Spec
import Verif.Filter.Props

/-! Lemmas about the model of the PPS sync module. -/

set_option linter.unusedSimpArgs false
set_option linter.unusedVariables false

namespace Verif.Pps
open Verif.Filter Verif.Stats

/-! ## Histories of a module -/

/-- Histories, by their last event. -/
inductive Hist (m0 : Mod) : Mod → List Entry → Prop
  | nil : Hist m0 m0 []
  | snoc {m tr m' outs} (k : Nat) (e : Ev) : Hist m0 m tr → m.step k e = some (m', outs) →
      Hist m0 m' (tr ++ [⟨k, e, outs⟩])

theorem Hist.run_from {m0 : Mod} : ∀ (es : List (Nat × Ev)) (m : Mod) (tr : List Entry) (m' : Mod) (tr' : List Entry),
    Hist m0 m tr → m.run es = some (m', tr') → Hist m0 m' (tr ++ tr')
  | [], m, tr, m', tr', hh, h => by
    simp only [Mod.run, Option.some.injEq, Prod.mk.injEq] at h
    obtain ⟨rfl, rfl⟩ := h
    simpa using hh
  | (k, e) :: es, m, tr, m', tr', hh, h => by
    simp only [Mod.run] at h
    split at h
    · cases h
    · rename_i m1 outs h1
      split at h
      · cases h
      · rename_i m2 tr2 h2
        simp only [Option.some.injEq, Prod.mk.injEq] at h
        obtain ⟨rfl, rfl⟩ := h
        have := Hist.run_from es _ _ _ _ (hh.snoc k e h1) h2
        simpa using this

theorem run_hist {m0 m : Mod} {es : List (Nat × Ev)} {tr : List Entry} (h : m0.run es = some (m, tr)) :
    Hist m0 m tr := by
  simpa using Hist.run_from es m0 [] m tr .nil h

theorem Reach.hist {ss src m tr} (h : Reach ss src m tr) : ∃ m0, Mod.start ss src = some m0 ∧ Hist m0 m tr := by
  obtain ⟨m0, es, h1, h2⟩ := h
  exact ⟨m0, h1, run_hist h2⟩

theorem step_some {m m' : Mod} {k : Nat} {e : Ev} {outs : List Out} (h : m.step k e = some (m', outs)) :
    (m.insts[k]? = none ∧ m' = m ∧ outs = []) ∨
    ∃ i t i', m.insts[k]? = some i ∧ step m.tod i e = some (t, i', outs) ∧ m' = ⟨t, m.insts.set k i'⟩ ∧
      m'.insts[k]? = some i' := by
  unfold Mod.step at h
  split at h
  · rename_i h0
    simp only [Option.some.injEq, Prod.mk.injEq] at h
    exact .inl ⟨h0, h.1.symm, h.2.symm⟩
  · rename_i i h0
    split at h
    · cases h
    · rename_i t i' outs' h1
      simp only [Option.some.injEq, Prod.mk.injEq] at h
      obtain ⟨rfl, rfl⟩ := h
      refine .inr ⟨i, t, i', h0, h1, rfl, ?_⟩
      have hlt : k < m.insts.length := by
        rw [List.getElem?_eq_some_iff] at h0
        exact h0.1
      simp [hlt]

theorem own_append (k : Nat) (a b : List Entry) : own k (a ++ b) = own k a ++ own k b := by
  simp [own]

/-- An invariant of an instance with its own history. -/
theorem Hist.inst {m0 m : Mod} {tr : List Entry} (hh : Hist m0 m tr) (k : Nat)
    {J : Inst → List Entry → Prop}
    (h0 : ∀ i, m0.insts[k]? = some i → J i [])
    (hs : ∀ (t : Tod) (i : Inst) (e : Ev) (t' : Tod) (i' : Inst) (outs : List Out) (tr : List Entry),
      J i tr → step t i e = some (t', i', outs) → J i' (tr ++ [⟨k, e, outs⟩])) :
    ∀ i, m.insts[k]? = some i → J i (own k tr) := by
  induction hh with
  | nil => simpa [own] using h0
  | @snoc m tr m' outs k' e hh h1 ih =>
    intro i' hi'
    rw [own_append]
    rcases step_some h1 with ⟨hn, rfl, rfl⟩ | ⟨i, t, i2, ha, hb, rfl, hc⟩
    · by_cases hk : k' = k
      · subst hk
        rw [hn] at hi'
        cases hi'
      · simpa [own, hk] using ih i' hi'
    · by_cases hk : k' = k
      · subst hk
        rw [hc] at hi'
        cases hi'
        have := hs _ _ _ _ _ _ _ (ih i ha) hb
        simpa [own] using this
      · have : m.insts[k]? = some i' := by
          simpa [List.getElem?_set, hk] using hi'
        simpa [own, hk] using ih i' this

/-- An invariant of an instance. -/
theorem Hist.inst' {m0 m : Mod} {tr : List Entry} (hh : Hist m0 m tr) (k : Nat)
    {J : Inst → Prop}
    (h0 : ∀ i, m0.insts[k]? = some i → J i)
    (hs : ∀ (t : Tod) (i : Inst) (e : Ev) (t' : Tod) (i' : Inst) (outs : List Out),
      J i → step t i e = some (t', i', outs) → J i') :
    ∀ i, m.insts[k]? = some i → J i :=
  hh.inst k (J := fun i _ => J i) h0 (fun t i e t' i' outs _ h h' => hs t i e t' i' outs h h')

/-! ## Start -/

/-- State of an instance at the start. -/
structure Fresh (i : Inst) : Prop where
  state : i.state = .listening
  prevState : i.prevState = .listening
  alarms : i.alarms = .none
  prevAlarms : i.prevAlarms = .none
  good : i.good = 0
  stamp : i.stamp = 0
  stepped : i.stepped = false
  flags : i.flags = ⟨false, true⟩
  nSteps : i.nSteps = 0
  nSeq : i.nSeq = 0
  nBad : i.nBad = 0
  nOutliers : i.nOutliers = 0
  score : i.score = 0
  prevScore : i.prevScore = 0
  notch : i.notch = ⟨900000000, 1100000000⟩
  synced : i.synced = false
  offset : i.offset = 0

theorem start_fresh {s : Setup} {i : Inst} (h : start s = some i) : Fresh i ∧ i.conf = s.conf := by
  unfold start at h
  have hn : Notch.init 1000000000 100000000 = some ⟨900000000, 1100000000⟩ := by
    unfold Notch.init; rw [if_pos (by decide +kernel)]; congr 1; decide +kernel
  rw [hn] at h
  split at h
  · rename_i notch fir pid outlier h1 _ _ _
    simp only [Option.some.injEq] at h h1
    subst h h1
    refine ⟨?_, rfl⟩
    constructor <;> rfl
  · cases h

theorem startAll_get : ∀ {ss : List Setup} {is : List Inst}, startAll ss = some is →
    ∀ (k : Nat) (i : Inst), is[k]? = some i → ∃ s, ss[k]? = some s ∧ start s = some i
  | [], is, h, k, i, hi => by
    simp only [startAll, Option.some.injEq] at h
    subst h; simp at hi
  | s :: ss, is, h, k, i, hi => by
    simp only [startAll] at h
    split at h
    · rename_i i0 is0 h1 h2
      simp only [Option.some.injEq] at h
      subst h
      cases k with
      | zero => simp only [List.getElem?_cons_zero, Option.some.injEq] at hi; subst hi; exact ⟨s, rfl, h1⟩
      | succ k =>
        simp only [List.getElem?_cons_succ] at hi
        obtain ⟨s', h3, h4⟩ := startAll_get h2 k i hi
        exact ⟨s', by simpa using h3, h4⟩
    · cases h

theorem startAll_length : ∀ {ss : List Setup} {is : List Inst}, startAll ss = some is → is.length = ss.length
  | [], is, h => by
    simp only [startAll, Option.some.injEq] at h
    subst h; rfl
  | s :: ss, is, h => by
    simp only [startAll] at h
    split at h
    · rename_i i0 is0 h1 h2
      simp only [Option.some.injEq] at h
      subst h
      simp [startAll_length h2]
    · cases h

theorem start_tod {ss : List Setup} {src : Option Int} {m : Mod} (h : Mod.start ss src = some m) :
    startAll ss = some m.insts ∧ m.tod.source = src.isSome ∧ m.tod.offset = 0 ∧ m.tod.state = .other := by
  unfold Mod.start at h
  split at h
  · cases h
  · rename_i is h1
    split at h <;> (simp only [Option.some.injEq] at h; subst h; simp [h1])

theorem start_get {ss : List Setup} {src : Option Int} {m : Mod} (h : Mod.start ss src = some m)
    {k : Nat} {i : Inst} (hi : m.insts[k]? = some i) : ∃ s, ss[k]? = some s ∧ start s = some i :=
  startAll_get (start_tod h).1 k i hi

/-! ## What the parts change -/

theorem stepClock_eq {t : Tod} {i : Inst} {off : Int} {t' : Tod} {i' : Inst} {outs : List Out}
    (h : stepClock t i off = some (t', i', outs)) :
    t.source = true ∧ t' = { t with offset := 0 } ∧
    i' = { i with fir := i.fir.reset, pid := i.pid.reset, base := i.saved, adj := i.saved, offset := 0,
                  stamp := 0, period := 0, stepped := true } ∧
    outs = [.adjustTime (-off), .adjustFreq i.saved, .stepTod] := by
  unfold stepClock servoReset at h
  simp only at h
  split at h
  · rename_i hs
    simp only [Option.some.injEq, Prod.mk.injEq] at h
    obtain ⟨rfl, rfl, rfl⟩ := h
    exact ⟨hs, rfl, rfl, rfl⟩
  · cases h

/-- The ways of the servo. -/
inductive ServoMove (t : Tod) (i : Inst) (time : Int) : Tod → Inst → List Out → Prop
  | step (fir : Fir) (pid : Pid) :
      i.flags.clockCtrl = true → t.source = true →
      mayStep i ((pulseDiff t.offset time : Int) - i.conf.prop) = true →
      (((pulseDiff t.offset time : Int) : Rat) - i.conf.prop ≤ -500000000 ∨
        ((pulseDiff t.offset time : Int) : Rat) - i.conf.prop ≥ 500000000) →
      fir = i.fir.reset → pid = i.pid.reset →
      ServoMove t i time { t with offset := 0 }
        { i with fir := fir, pid := pid, base := i.saved, adj := i.saved, offset := 0,
                 stamp := 0, period := 0, stepped := true, nSteps := i.nSteps + 1, active := true }
        [.adjustTime (-(pulseDiff t.offset time)), .adjustFreq i.saved, .stepTod]
  | idle : i.flags.clockCtrl = false →
      mayStep i ((pulseDiff t.offset time : Int) - i.conf.prop) = true →
      (((pulseDiff t.offset time : Int) : Rat) - i.conf.prop ≤ -500000000 ∨
        ((pulseDiff t.offset time : Int) : Rat) - i.conf.prop ≥ 500000000) →
      ServoMove t i time t i []
  | measure (fir : Fir) (mean : Rat) :
      i.flags.clockCtrl = false →
      i.fir.update ((pulseDiff t.offset time : Int) - i.conf.prop) = some (fir, mean) →
      ServoMove t i time t { i with fir := fir, offset := mean, adj := i.base } []
  | slew (fir : Fir) (mean : Rat) (pid : Pid) (f : Rat) :
      i.flags.clockCtrl = true →
      i.fir.update ((pulseDiff t.offset time : Int) - i.conf.prop) = some (fir, mean) →
      i.pid.update mean none = some (pid, f) →
      ServoMove t i time t
        { i with fir := fir, offset := mean, pid := pid, adj := limit i.conf.freqMax (i.base + f), active := true }
        [.adjustFreq (limit i.conf.freqMax (i.base + f))]

theorem servo_move {t : Tod} {i : Inst} {time : Int} {t' : Tod} {i' : Inst} {outs : List Out}
    (h : servoUpdate t i time = some (t', i', outs)) : ServoMove t i time t' i' outs := by
  unfold servoUpdate at h
  simp only at h
  split at h
  · rename_i hm
    split at h
    · rename_i hc
      split at h
      · cases h
      · rename_i t1 i1 o1 h1
        simp only [Option.some.injEq, Prod.mk.injEq] at h
        obtain ⟨rfl, rfl, rfl⟩ := h
        obtain ⟨h2, rfl, rfl, rfl⟩ := stepClock_eq h1
        exact .step _ _ hc h2 hm.1 hm.2 rfl rfl
    · rename_i hc
      simp only [Option.some.injEq, Prod.mk.injEq] at h
      obtain ⟨rfl, rfl, rfl⟩ := h
      exact .idle (by simpa using hc) hm.1 hm.2
  · split at h
    · cases h
    · rename_i fir mean h1
      split at h
      · rename_i hc
        split at h
        · cases h
        · rename_i pid f h2
          simp only [Option.some.injEq, Prod.mk.injEq] at h
          obtain ⟨rfl, rfl, rfl⟩ := h
          exact .slew fir mean pid f hc h1 h2
      · rename_i hc
        simp only [Option.some.injEq, Prod.mk.injEq] at h
        obtain ⟨rfl, rfl, rfl⟩ := h
        exact .measure fir mean (by simpa using hc) h1

/-- The ways of a pulse. `c` is the instance after the check of the number, `j`
also after that of the period. -/
inductive PulseMove (t : Tod) (i : Inst) (now : Int) (seq : Nat) (time : Int) (score : Int) :
    Tod → Inst → List Out → Prop
  | first : i.state ≠ .slave →
      PulseMove t i now seq time score t
        { i with state := .slave, period := 0, seq := seq, lastPps := now,
                 stamp := if i.flags.tsProc then time else i.stamp } []
  | off : i.state = .slave → i.flags.tsProc = false →
      PulseMove t i now seq time score t { checkSeq i seq with seq := seq, lastPps := now } []
  | skip : i.state = .slave → i.flags.tsProc = true → i.stepped = true →
      PulseMove t i now seq time score t
        { checkSeq i seq with seq := seq, lastPps := now, stepped := false, stamp := time } []
  | few : i.state = .slave → i.flags.tsProc = true → i.stepped = false →
      (checkPeriod (checkSeq i seq) time).good < 3 →
      PulseMove t i now seq time score t
        { checkPeriod (checkSeq i seq) time with seq := seq, lastPps := now, stamp := time } []
  | outlier (j : Inst) : i.state = .slave → i.flags.tsProc = true → i.stepped = false →
      (checkPeriod (checkSeq i seq) time).good ≥ 3 →
      checkOutlier { checkPeriod (checkSeq i seq) time with
        alarms := { (checkPeriod (checkSeq i seq) time).alarms with badSignal := false } } = some (j, false) →
      PulseMove t i now seq time score t { j with seq := seq, lastPps := now, stamp := time } []
  | used (j : Inst) (t' : Tod) (i' : Inst) (outs : List Out) :
      i.state = .slave → i.flags.tsProc = true → i.stepped = false →
      (checkPeriod (checkSeq i seq) time).good ≥ 3 →
      checkOutlier { checkPeriod (checkSeq i seq) time with
        alarms := { (checkPeriod (checkSeq i seq) time).alarms with badSignal := false } } = some (j, true) →
      ServoMove t j time t' i' outs →
      PulseMove t i now seq time score t'
        { i' with score := score, seq := seq, lastPps := now, stamp := time }
        (outs ++ [.sample i'.offset i'.synced i'.alarms])

theorem checkSeq_eq (i : Inst) (seq : Nat) : ∃ a n, checkSeq i seq = { i with alarms := a, nSeq := n } := by
  unfold checkSeq; split <;> exact ⟨_, _, rfl⟩

theorem checkPeriod_eq (i : Inst) (time : Int) :
    ∃ a n p g, checkPeriod i time = { i with alarms := a, nBad := n, period := p, good := g } := by
  unfold checkPeriod
  split
  · simp only
    split <;> exact ⟨_, _, _, _, rfl⟩
  · exact ⟨_, _, _, _, rfl⟩

theorem checkOutlier_eq {i j : Inst} {ok : Bool} (h : checkOutlier i = some (j, ok)) :
    ∃ p n, j = { i with outlier := p, nOutliers := n } := by
  unfold checkOutlier at h
  split at h
  · simp only [Option.some.injEq, Prod.mk.injEq] at h
    obtain ⟨rfl, rfl⟩ := h
    exact ⟨_, _, rfl⟩
  · split at h
    · cases h
    · split at h <;>
      · simp only [Option.some.injEq, Prod.mk.injEq] at h
        obtain ⟨rfl, rfl⟩ := h
        exact ⟨_, _, rfl⟩

theorem pulse_move {t : Tod} {i : Inst} {now : Int} {seq : Nat} {time : Int} {score : Int} {t' : Tod} {i' : Inst}
    {outs : List Out} (h : onPulse t i now seq time score = some (t', i', outs)) :
    PulseMove t i now seq time score t' i' outs := by
  unfold onPulse at h
  simp only at h
  cases hst : i.state with
  | listening =>
    rw [hst] at h
    simp only [Option.some.injEq, Prod.mk.injEq] at h
    obtain ⟨rfl, rfl, rfl⟩ := h
    exact .first (by simp [hst])
  | faulty =>
    rw [hst] at h
    simp only [Option.some.injEq, Prod.mk.injEq] at h
    obtain ⟨rfl, rfl, rfl⟩ := h
    exact .first (by simp [hst])
  | slave =>
    rw [hst] at h
    simp only at h
    have hc : (checkSeq i seq).flags = i.flags ∧ (checkSeq i seq).stepped = i.stepped ∧ (checkSeq i seq).stamp = i.stamp := by
      obtain ⟨a, n, he⟩ := checkSeq_eq i seq
      rw [he]; exact ⟨rfl, rfl, rfl⟩
    have hp : (checkPeriod (checkSeq i seq) time).flags = i.flags := by
      obtain ⟨a, n, p, g, he⟩ := checkPeriod_eq (checkSeq i seq) time
      rw [he]; exact hc.1
    unfold onSlavePulse at h
    simp only [hc.1, hc.2.1] at h
    cases hts : i.flags.tsProc with
    | false =>
      simp only [hts, Bool.false_eq_true, not_false_eq_true, if_true, Option.some.injEq, Prod.mk.injEq, hc.1,
        if_false] at h
      obtain ⟨rfl, rfl, rfl⟩ := h
      have mv := PulseMove.off (t := t) (now := now) (seq := seq) (time := time) (score := score) hst hts
      simp only [hc.1] at mv
      exact mv
    | true =>
      simp only [hts, not_true_eq_false, if_false] at h
      cases hsp : i.stepped with
      | true =>
        simp only [hsp, if_true, hc.1, hts] at h
        simp only [Option.some.injEq, Prod.mk.injEq] at h
        obtain ⟨rfl, rfl, rfl⟩ := h
        have mv := PulseMove.skip (t := t) (now := now) (seq := seq) (time := time) (score := score) hst hts hsp
        simp only [hc.1] at mv
        exact mv
      | false =>
        simp only [hsp, Bool.false_eq_true, if_false] at h
        unfold trusted at h
        by_cases hg : (checkPeriod (checkSeq i seq) time).good ≥ 3
        · rw [if_pos hg] at h
          cases ho : checkOutlier { checkPeriod (checkSeq i seq) time with
              alarms := { (checkPeriod (checkSeq i seq) time).alarms with badSignal := false } } with
          | none => rw [ho] at h; cases h
          | some r =>
            obtain ⟨j, ok⟩ := r
            rw [ho] at h
            have hj : j.flags = i.flags := by
              obtain ⟨p, n, he⟩ := checkOutlier_eq ho
              rw [he]; exact hp
            cases ok with
            | false =>
              simp only [Bool.false_eq_true, if_false, hj, hts, if_true, Option.some.injEq, Prod.mk.injEq] at h
              obtain ⟨rfl, rfl, rfl⟩ := h
              have mv := PulseMove.outlier (t := t) (now := now) (seq := seq) (time := time) (score := score) j hst hts hsp hg ho
              simp only [hj] at mv
              exact mv
            | true =>
              simp only [if_true] at h
              cases hs : servoUpdate t j time with
              | none => rw [hs] at h; cases h
              | some r =>
                obtain ⟨t1, i1, o1⟩ := r
                rw [hs] at h
                have mv := servo_move hs
                have hf : i1.flags = i.flags := by
                  rw [← hj]; cases mv <;> rfl
                simp only [hf, hts, if_true, Option.some.injEq, Prod.mk.injEq] at h
                obtain ⟨rfl, rfl, rfl⟩ := h
                have mv' := PulseMove.used (now := now) (score := score) j _ i1 o1 hst hts hsp hg ho mv
                simp only [hf] at mv'
                exact mv'
        · rw [if_neg hg] at h
          simp only [hp, hts, if_true, Option.some.injEq, Prod.mk.injEq] at h
          obtain ⟨rfl, rfl, rfl⟩ := h
          have mv := PulseMove.few (t := t) (now := now) (seq := seq) (time := time) (score := score) hst hts hsp (by omega)
          simp only [hp] at mv
          exact mv

/-- What follows the event in a poll. -/
theorem finish_eq (t : Tod) (i : Inst) (now : Int) (r : TodReply) :
    ∃ nt sy cv t', (todPoll t i now r) = (t', { i with alarms := { i.alarms with noTod := nt } }) ∧
      convUpdate { i with alarms := { i.alarms with noTod := nt } } now =
        { i with alarms := { i.alarms with noTod := nt }, synced := sy, conv := cv } ∧
      finish t i now r = (t',
        { i with alarms := { i.alarms with noTod := nt }, synced := sy, conv := cv, nSteps := 0, nSeq := 0, nBad := 0,
                 nOutliers := 0, prevState := i.state, prevAlarms := { i.alarms with noTod := nt },
                 prevScore := i.score },
        .stats (counts { i with alarms := { i.alarms with noTod := nt }, synced := sy, conv := cv }) ::
          (if changed { i with alarms := { i.alarms with noTod := nt }, synced := sy, conv := cv } then
            [.told i.state { i.alarms with noTod := nt } i.score] else [])) := by
  have h1 : ∃ nt t', todPoll t i now r = (t', { i with alarms := { i.alarms with noTod := nt } }) := by
    unfold todPoll
    split
    · exact ⟨i.alarms.noTod, t, rfl⟩
    · exact ⟨_, _, rfl⟩
  obtain ⟨nt, t', h1⟩ := h1
  have h2 : ∃ sy cv, convUpdate { i with alarms := { i.alarms with noTod := nt } } now =
      { i with alarms := { i.alarms with noTod := nt }, synced := sy, conv := cv } := by
    unfold convUpdate
    split
    · exact ⟨_, _, rfl⟩
    · split
      · exact ⟨i.synced, i.conv, rfl⟩
      · exact ⟨_, _, rfl⟩
  obtain ⟨sy, cv, h2⟩ := h2
  refine ⟨nt, sy, cv, t', h1, h2, ?_⟩
  unfold finish
  rw [h1]
  simp only
  rw [h2]

theorem poll_some {t : Tod} {i : Inst} {now : Int} {g : Got} {r : TodReply} {score : Int} {t' : Tod} {i' : Inst}
    {outs : List Out} (h : poll t i now g r score = some (t', i', outs)) :
    ∃ t1 i1 o1, onGot t i now score g = some (t1, i1, o1) ∧
      t' = (finish t1 i1 now r).1 ∧ i' = (finish t1 i1 now r).2.1 ∧ outs = o1 ++ (finish t1 i1 now r).2.2 := by
  unfold poll at h
  split at h
  · cases h
  · rename_i t1 i1 o1 h1
    simp only [Option.some.injEq, Prod.mk.injEq] at h
    exact ⟨t1, i1, o1, h1, h.1.symm, h.2.1.symm, h.2.2.symm⟩

/-- Nothing to do with pulses: a reset, an alarm or nothing. -/
inductive QuietMove (i : Inst) (now : Int) : Inst → Prop
  | same : QuietMove i now i
  | alarm : i.state = .slave → now - i.lastPps ≥ 1100000000 → now - i.lastPps < 60000000000 →
      QuietMove i now { i with alarms := { i.alarms with noSignal := true } }
  | late : i.state = .slave → now - i.lastPps ≥ 60000000000 → QuietMove i now (reset i)
  | well : i.state = .faulty → QuietMove i now (reset i)

theorem onNone_move (i : Inst) (now : Int) : QuietMove i now (onNone i now) := by
  unfold onNone
  split
  · exact .same
  · rename_i hs
    simp only [sec]
    split
    · exact .late hs (by omega)
    · split
      · rename_i h1 h2
        exact .alarm hs h2.1 (by omega)
      · exact .same
  · rename_i hs; exact .well hs

end Verif.Pps
