import Verif.Pps.Support

/-! Invariants of an instance of the PPS sync module. -/

set_option linter.unusedSimpArgs false
set_option linter.unusedVariables false

namespace Verif.Pps
open Verif.Filter Verif.Stats

/-! ## Frames -/

theorem pulseCheck_eq (i : Inst) (now : Int) : ∃ s c ns, pulseCheck i now =
    { i with started := s, checked := c, alarms := { i.alarms with noSignal := ns } } := by
  unfold pulseCheck
  split
  · exact ⟨_, _, i.alarms.noSignal, rfl⟩
  · split
    · split
      · exact ⟨_, _, _, rfl⟩
      · exact ⟨_, _, i.alarms.noSignal, rfl⟩
    · exact ⟨_, _, i.alarms.noSignal, rfl⟩

theorem tick_move (i : Inst) (now : Int) : ∃ s c ns,
    QuietMove { i with started := s, checked := c, alarms := { i.alarms with noSignal := ns } } now (tick i now) := by
  obtain ⟨s, c, ns, h⟩ := pulseCheck_eq i now
  refine ⟨s, c, ns, ?_⟩
  unfold tick
  rw [h]
  simp only
  split
  · exact onNone_move _ _
  · exact .same

theorem control_eq (i : Inst) (mask flags : Flags) : ∃ pid st,
    control i mask flags = { i with pid := pid, stamp := st, flags :=
      ⟨if mask.clockCtrl then flags.clockCtrl else i.flags.clockCtrl,
       if mask.tsProc then flags.tsProc else i.flags.tsProc⟩ } ∧
    (pid = i.pid ∨ pid = i.pid.reset) ∧
    st = (if i.flags.tsProc = true ∧ mask.tsProc = true ∧ flags.tsProc = false then 0 else i.stamp) := by
  refine ⟨_, _, rfl, ?_, ?_⟩
  · exact (ite_eq_or_eq _ _ _).symm
  · cases h1 : i.flags.tsProc <;> cases h2 : mask.tsProc <;> cases h3 : flags.tsProc <;> simp [h1]

theorem save_eq (i : Inst) : ∃ sv, (save i).1 = { i with saved := sv } ∧ (sv = i.saved ∨ sv = i.adj) ∧
    ((save i).2 = [] ∨ (save i).2 = [.saveFreq i.adj]) := by
  unfold save
  split
  · exact ⟨_, rfl, .inr rfl, .inr rfl⟩
  · exact ⟨_, rfl, .inl rfl, .inl rfl⟩

/-- The ways of an event. -/
inductive Move (t : Tod) (i : Inst) : Ev → Tod → Inst → List Out → Prop
  | tick (now : Int) (s : Option Int) (c ns : Bool) (i' : Inst) :
      QuietMove { i with started := s, checked := c, alarms := { i.alarms with noSignal := ns } } now i' →
      Move t i (.tick now) t i' []
  | quiet (now : Int) (r : TodReply) (score : Int) (i1 : Inst) : QuietMove i now i1 →
      Move t i (.poll now .nothing r score) (finish t i1 now r).1 (finish t i1 now r).2.1 (finish t i1 now r).2.2
  | error (now : Int) (r : TodReply) (score : Int) :
      Move t i (.poll now .error r score) (finish t (onError i) now r).1 (finish t (onError i) now r).2.1
        (finish t (onError i) now r).2.2
  | pulse (now : Int) (seq : Nat) (time : Int) (r : TodReply) (score : Int) (t1 : Tod) (i1 : Inst) (o1 : List Out) :
      PulseMove t i now seq time score t1 i1 o1 →
      Move t i (.poll now (.pulse seq time) r score) (finish t1 i1 now r).1 (finish t1 i1 now r).2.1
        (o1 ++ (finish t1 i1 now r).2.2)
  | control (mask flags : Flags) : Move t i (.control mask flags) t (control i mask flags) []
  | step (off : Int) : t.source = true →
      Move t i (.step off) { t with offset := 0 }
        { i with fir := i.fir.reset, pid := i.pid.reset, base := i.saved, adj := i.saved, offset := 0,
                 stamp := 0, period := 0, stepped := true }
        [.adjustTime (-off), .adjustFreq i.saved, .stepTod]
  | save : Move t i .save t (save i).1 (save i).2
  | pid (kp ki kd : Option Rat) (rs : Bool) :
      Move t i (.pid kp ki kd rs) t { i with pid := i.pid.adjust kp ki kd rs } []

theorem step_move {t : Tod} {i : Inst} {e : Ev} {t' : Tod} {i' : Inst} {outs : List Out}
    (h : step t i e = some (t', i', outs)) : Move t i e t' i' outs := by
  cases e with
  | tick now =>
    simp only [step, Option.some.injEq, Prod.mk.injEq] at h
    obtain ⟨rfl, rfl, rfl⟩ := h
    obtain ⟨s, c, ns, hm⟩ := tick_move i now
    exact .tick now s c ns _ hm
  | poll now g r score =>
    simp only [step] at h
    obtain ⟨t1, i1, o1, h1, rfl, rfl, rfl⟩ := poll_some h
    cases g with
    | nothing =>
      simp only [onGot, Option.some.injEq, Prod.mk.injEq] at h1
      obtain ⟨rfl, rfl, rfl⟩ := h1
      exact .quiet now r score _ (onNone_move i now)
    | error =>
      simp only [onGot, Option.some.injEq, Prod.mk.injEq] at h1
      obtain ⟨rfl, rfl, rfl⟩ := h1
      exact .error now r score
    | pulse seq time =>
      simp only [onGot] at h1
      exact .pulse now seq time r score _ _ _ (pulse_move h1)
  | control mask flags =>
    simp only [step, Option.some.injEq, Prod.mk.injEq] at h
    obtain ⟨rfl, rfl, rfl⟩ := h
    exact .control mask flags
  | step off =>
    simp only [step] at h
    obtain ⟨h1, rfl, rfl, rfl⟩ := stepClock_eq h
    exact .step off h1
  | save =>
    simp only [step, Option.some.injEq, Prod.mk.injEq] at h
    obtain ⟨rfl, rfl, rfl⟩ := h
    exact .save
  | pid kp ki kd rs =>
    simp only [step, Option.some.injEq, Prod.mk.injEq] at h
    obtain ⟨rfl, rfl, rfl⟩ := h
    exact .pid kp ki kd rs

/-- Effects of the end of a poll. -/
theorem finish_outs (t : Tod) (i : Inst) (now : Int) (r : TodReply) :
    (finish t i now r).2.2.any Out.acts = false ∧ (finish t i now r).2.2.any Out.isStep = false := by
  obtain ⟨nt, sy, cv, t', -, -, h⟩ := finish_eq t i now r
  rw [h]
  simp only
  split <;> simp [Out.acts, Out.isStep]

/-- Effects of the servo. -/
theorem ServoMove.isStep {t i time t' i' outs} (h : ServoMove t i time t' i' outs) :
    (outs.any Out.isStep = true ∧ i'.stepped = true) ∨ (outs.any Out.isStep = false ∧ i'.stepped = i.stepped) := by
  cases h <;> simp [Out.isStep]

/-- What the servo leaves. -/
theorem ServoMove.frame {t i time t' i' outs} (h : ServoMove t i time t' i' outs) :
    ∃ fir pid base adj offset stamp period stepped n act,
      i' = { i with fir := fir, pid := pid, base := base, adj := adj, offset := offset, stamp := stamp,
                    period := period, stepped := stepped, nSteps := n, active := act } := by
  cases h <;> exact ⟨_, _, _, _, _, _, _, _, _, _, rfl⟩

theorem reset_frame (i : Inst) : (reset i).state = .listening ∧ (reset i).good = 0 ∧ (reset i).stamp = 0 ∧
    (reset i).flags = i.flags ∧ (reset i).stepped = i.stepped ∧ (reset i).notch = i.notch ∧
    (reset i).alarms = .none ∧ (reset i).prevState = .listening ∧ (reset i).prevAlarms = .none :=
  ⟨rfl, rfl, rfl, rfl, rfl, rfl, rfl, rfl, rfl⟩

/-! ## The watch -/

/-- The state of the instance agrees with what an observer knows. -/
structure WOk (i : Inst) (w : Watch) : Prop where
  notch : i.notch = ⟨900000000, 1100000000⟩
  proc : i.flags.tsProc = w.proc
  off : w.proc = false → i.stamp = 0 ∧ w.last = none
  idle : i.state ≠ .slave → i.good = 0
  le : i.good ≤ w.run
  last : i.stepped = false → w.last ≠ none → i.stamp ≠ 0 ∨ i.good = 0
  stamp : i.stepped = false → i.stamp ≠ 0 → w.last = some i.stamp
  skip : i.stepped = true → w.last ≠ none → i.good = 0
  nz : i.stamp ≠ 0 → i.stamp / sec ≠ 0

/-- The fields that the watch is about. -/
theorem WOk.congr {i j : Inst} {w : Watch} (h : WOk i w) (h1 : j.notch = i.notch) (h2 : j.flags.tsProc = i.flags.tsProc)
    (h3 : j.stamp = i.stamp) (h4 : j.state = i.state) (h5 : j.good = i.good) (h6 : j.stepped = i.stepped) : WOk j w := by
  obtain ⟨a, b, c, d, e, f, g, k, n⟩ := h
  exact ⟨by rw [h1]; exact a, by rw [h2]; exact b, by rw [h3]; exact c, by rw [h4, h5]; exact d, by rw [h5]; exact e,
    by rw [h6, h3, h5]; exact f, by rw [h6, h3]; exact g, by rw [h6, h5]; exact k, by rw [h3]; exact n⟩

theorem WOk.reset {i : Inst} {w : Watch} (h : WOk i w) : WOk (reset i) w := by
  obtain ⟨a, b, c, d, e, f, g, k, n⟩ := h
  exact ⟨a, b, fun hp => ⟨rfl, (c hp).2⟩, fun _ => rfl, Nat.zero_le _, fun _ _ => .inr rfl, fun _ h0 => absurd rfl h0,
    fun _ _ => rfl, fun h0 => absurd rfl h0⟩

theorem WOk.quiet {i i' : Inst} {w : Watch} {now : Int} (h : WOk i w) (q : QuietMove i now i') : WOk i' w := by
  cases q with
  | same => exact h
  | alarm => exact h.congr rfl rfl rfl rfl rfl rfl
  | late => exact h.reset
  | well => exact h.reset

theorem WOk.finish {i : Inst} {w : Watch} (h : WOk i w) (t : Tod) (now : Int) (r : TodReply) :
    WOk (finish t i now r).2.1 w := by
  obtain ⟨nt, sy, cv, t', -, -, he⟩ := finish_eq t i now r
  rw [he]
  exact h.congr rfl rfl rfl rfl rfl rfl

theorem notch_good (p : Int) : Notch.update ⟨900000000, 1100000000⟩ (p : Rat) = decide (GoodPeriod p) := by
  have h1 : ((900000000 : Rat) ≤ (p : Rat)) ↔ 900000000 ≤ p := by exact_mod_cast Iff.rfl
  have h2 : ((p : Rat) ≤ 1100000000) ↔ p ≤ 1100000000 := by exact_mod_cast Iff.rfl
  by_cases h : GoodPeriod p
  · rw [decide_eq_true h]
    unfold Notch.update
    rw [if_pos ⟨h1.2 h.1, h2.2 h.2⟩]
  · rw [decide_eq_false h]
    unfold Notch.update
    rw [if_neg (fun hh => h ⟨h1.1 hh.1, h2.1 hh.2⟩)]

theorem checkPeriod_good {i : Inst} (hn : i.notch = ⟨900000000, 1100000000⟩) (time : Int) :
    (checkPeriod i time).good =
      if i.stamp / sec ≠ 0 then (if GoodPeriod (time - i.stamp) then i.good + 1 else 0) else i.good := by
  unfold checkPeriod
  simp only [hn, notch_good]
  split
  · by_cases h : GoodPeriod (time - i.stamp) <;> simp [h]
  · rfl

theorem time_nz {now : Int} {seq : Nat} {time : Int} {r : TodReply} {score : Int}
    (h : EntryTimeOk (.poll now (.pulse seq time) r score)) : time ≠ 0 ∧ time / sec ≠ 0 := by
  have := h seq time rfl
  unfold sec
  constructor <;> omega

/-- A pulse and the watch; `st` says that the servo stepped the clock. -/
theorem WOk.pulse {t : Tod} {i : Inst} {w : Watch} {now : Int} {seq : Nat} {time : Int} {score : Int} {t1 : Tod} {i1 : Inst}
    {o1 : List Out} (h : WOk i w) (ht : time ≠ 0 ∧ time / sec ≠ 0)
    (mv : PulseMove t i now seq time score t1 i1 o1) (k : Nat) (r : TodReply) (outs : List Out)
    (hany0 : outs.any Out.isStep = o1.any Out.isStep) :
    WOk i1 (w.next ⟨k, .poll now (.pulse seq time) r score, outs⟩) := by
  obtain ⟨hn, hp, hoff, hid, hle, hla, hst, hsk, hnz⟩ := h
  have hcs : ∃ a n, checkSeq i seq = { i with alarms := a, nSeq := n } := checkSeq_eq i seq
  obtain ⟨ca, cn, hcs⟩ := hcs
  have hgood : (checkPeriod (checkSeq i seq) time).good =
      if i.stamp / sec ≠ 0 then (if GoodPeriod (time - i.stamp) then i.good + 1 else 0) else i.good := by
    rw [checkPeriod_good (by rw [hcs]; exact hn)]
    rw [hcs]
  obtain ⟨pa, pn, pp, pg, hcp⟩ := checkPeriod_eq (checkSeq i seq) time
  simp only [Watch.next, hany0]
  cases mv with
  | first hs =>
    have hg := hid hs
    cases hpr : w.proc with
    | false =>
      have := hoff hpr
      simp only [hpr, Bool.false_eq_true, if_false]
      refine ⟨hn, by simp [hp, hpr], ?_, by simp, by simp [hg], ?_, ?_, fun _ _ => hg, ?_⟩
      · intro _; simp [hp, hpr, this]
      · simp [hp, hpr, this]
      · simp [hp, hpr, this]
      · simp [hp, hpr, this]
    | true =>
      simp only [hpr, if_true]
      refine ⟨hn, by simp [hp, hpr], by simp, by simp, by simp [hg], by simp [hg], ?_, fun _ _ => hg, ?_⟩
      · simp [hp, hpr]
      · simp [hp, hpr, ht.2]
  | off hs hf =>
    have hpr : w.proc = false := by rw [← hp]; exact hf
    simp only [hpr, Bool.false_eq_true, if_false]
    rw [hcs]
    exact ⟨hn, hp, hoff, hid, hle, hla, hst, hsk, hnz⟩
  | skip hs hf hsp =>
    have hpr : w.proc = true := by rw [← hp]; exact hf
    simp only [hpr, if_true]
    rw [hcs]
    refine ⟨hn, by simp [hp, hpr], by simp, fun h0 => absurd hs h0, ?_, by simp [ht.1], by simp, by simp, by simp [ht.2]⟩
    simp only
    cases hl : w.last with
    | none => exact hle
    | some p => rw [hsk hsp (by simp [hl])]; exact Nat.zero_le _
  | few hs hf hsp hfew =>
    have hpr : w.proc = true := by rw [← hp]; exact hf
    simp only [hpr, if_true]
    refine ⟨?_, ?_, by simp, ?_, ?_, by simp [ht.1], by simp, ?_, by simp [ht.2]⟩
    · rw [hcp, hcs]; exact hn
    · rw [hcp, hcs]; simp [hp, hpr]
    · rw [hcp, hcs]; exact fun h0 => absurd hs h0
    · simp only
      rw [hgood]
      by_cases h0 : i.stamp = 0
      · rw [if_neg (by simp [h0, sec])]
        cases hl : w.last with
        | none => exact hle
        | some p =>
          rcases hla hsp (by simp [hl]) with h1 | h1
          · exact absurd h0 h1
          · rw [h1]; exact Nat.zero_le _
      · rw [if_pos (hnz h0), hst hsp h0]
        simp only
        split <;> omega
    · rw [hcp, hcs]; simp [hsp]
  | outlier j hs hf hsp hge hout =>
    have hpr : w.proc = true := by rw [← hp]; exact hf
    simp only [hpr, if_true]
    obtain ⟨op, on, rfl⟩ := checkOutlier_eq hout
    simp only
    refine ⟨?_, ?_, by simp, ?_, ?_, by simp [ht.1], by simp, ?_, by simp [ht.2]⟩
    · rw [hcp, hcs]; exact hn
    · rw [hcp, hcs]; simp [hp, hpr]
    · rw [hcp, hcs]; exact fun h0 => absurd hs h0
    · simp only
      rw [hgood]
      by_cases h0 : i.stamp = 0
      · rw [if_neg (by simp [h0, sec])]
        cases hl : w.last with
        | none => exact hle
        | some p =>
          rcases hla hsp (by simp [hl]) with h1 | h1
          · exact absurd h0 h1
          · rw [h1]; exact Nat.zero_le _
      · rw [if_pos (hnz h0), hst hsp h0]
        simp only
        split <;> omega
    · rw [hcp, hcs]; simp [hsp]
  | used j t' i' outs' hs hf hsp hge hout sm =>
    have hpr : w.proc = true := by rw [← hp]; exact hf
    simp only [hpr, if_true]
    obtain ⟨op, on, rfl⟩ := checkOutlier_eq hout
    have hst' := sm.isStep
    obtain ⟨fir, pid, base, adj, offset, stamp, period, stepped, n, act, rfl⟩ := sm.frame
    have hany : (outs' ++ [Out.sample offset (checkPeriod (checkSeq i seq) time).synced
        { (checkPeriod (checkSeq i seq) time).alarms with badSignal := false }]).any Out.isStep = outs'.any Out.isStep := by
      simp [Out.isStep]
    simp only at hst' ⊢
    rw [hany]
    have hsp' : (checkPeriod (checkSeq i seq) time).stepped = false := by rw [hcp, hcs]; exact hsp
    rw [hsp'] at hst'
    refine ⟨?_, ?_, by simp, ?_, ?_, ?_, ?_, ?_, by simp [ht.2]⟩
    · rw [hcp, hcs]; exact hn
    · rw [hcp, hcs]; simp [hp, hpr]
    · rw [hcp, hcs]; exact fun h0 => absurd hs h0
    · simp only
      rw [hgood]
      by_cases h0 : i.stamp = 0
      · rw [if_neg (by simp [h0, sec])]
        cases hl : w.last with
        | none => exact hle
        | some p =>
          rcases hla hsp (by simp [hl]) with h1 | h1
          · exact absurd h0 h1
          · rw [h1]; exact Nat.zero_le _
      · rw [if_pos (hnz h0), hst hsp h0]
        simp only
        split <;> omega
    · simp [ht.1]
    · intro h1
      rcases hst' with ⟨h2, h3⟩ | ⟨h2, h3⟩
      · simp [h3] at h1
      · simp [h2]
    · intro h1
      rcases hst' with ⟨h2, h3⟩ | ⟨h2, h3⟩
      · simp [h2]
      · simp [h3] at h1

theorem WOk.step {t : Tod} {i : Inst} {w : Watch} {e : Ev} {t' : Tod} {i' : Inst} {outs : List Out} (h : WOk i w)
    (ht : EntryTimeOk e) (mv : Move t i e t' i' outs) (k : Nat) : WOk i' (w.next ⟨k, e, outs⟩) := by
  cases mv with
  | tick now s c ns i' q =>
    exact WOk.quiet (h.congr (j := { i with started := s, checked := c, alarms := { i.alarms with noSignal := ns } })
      rfl rfl rfl rfl rfl rfl) q
  | quiet now r score i1 q => exact (h.quiet q).finish t now r
  | error now r score =>
    refine WOk.finish ?_ t now r
    unfold onError
    split
    · exact h
    · have := h.reset
      exact ⟨this.notch, this.proc, this.off, fun _ => rfl, this.le, this.last, this.stamp, this.skip, this.nz⟩
  | pulse now seq time r score t1 i1 o1 pm =>
    have := h.pulse (time_nz ht) pm k r (o1 ++ (Pps.finish t1 i1 now r).2.2) (by
      rw [List.any_append, (finish_outs t1 i1 now r).2, Bool.or_false])
    exact this.finish t1 now r
  | control mask flags =>
    obtain ⟨pid, st, he, -, hst⟩ := control_eq i mask flags
    obtain ⟨hn, hp, hoff, hid, hle, hla, hs, hsk, hnz⟩ := h
    rw [he, hst]
    simp only [Watch.next]
    cases h1 : mask.tsProc with
    | false =>
      simp only [Bool.false_eq_true, if_false, false_and, and_false]
      exact ⟨hn, hp, hoff, hid, hle, hla, hs, hsk, hnz⟩
    | true =>
      simp only [if_true]
      cases h2 : flags.tsProc with
      | true =>
        simp only [Bool.true_eq_false, and_false, if_false]
        exact ⟨hn, rfl, by simp, hid, hle, hla, hs, hsk, hnz⟩
      | false =>
        simp only [Bool.false_eq_true, if_false, and_true, true_and]
        cases h3 : i.flags.tsProc with
        | true =>
          simp only [if_true]
          exact ⟨hn, rfl, by simp, hid, hle, by simp, by simp, by simp, by simp⟩
        | false =>
          have := hoff (by rw [← hp]; exact h3)
          simp only [Bool.false_eq_true, if_false]
          exact ⟨hn, rfl, by simp [this.1], hid, hle, by simp, by simp [this.1], by simp, hnz⟩
  | step off hsrc =>
    obtain ⟨hn, hp, hoff, hid, hle, hla, hs, hsk, hnz⟩ := h
    simp only [Watch.next]
    exact ⟨hn, hp, by simp, hid, hle, by simp, by simp, by simp, by simp⟩
  | save =>
    obtain ⟨sv, he, -, -⟩ := save_eq i
    rw [he]
    exact h.congr rfl rfl rfl rfl rfl rfl
  | pid => exact h.congr rfl rfl rfl rfl rfl rfl

theorem watch_snoc (tr : List Entry) (e : Entry) : watch (tr ++ [e]) = (watch tr).next e := by
  simp [watch]

/-- The watch and the instance agree in every history. -/
theorem Hist.wok {m0 m : Mod} {tr : List Entry} (hh : Hist m0 m tr) (k : Nat)
    (h0 : ∀ i, m0.insts[k]? = some i → Fresh i) (i : Inst) (hi : m.insts[k]? = some i)
    (ht : ∀ e ∈ own k tr, EntryTimeOk e.ev) : WOk i (watch (own k tr)) := by
  refine hh.inst k (J := fun i tr => (∀ e ∈ tr, EntryTimeOk e.ev) → WOk i (watch tr)) ?_ ?_ i hi ht
  · intro i hi _
    have f := h0 i hi
    exact ⟨f.notch, by rw [f.flags]; rfl, by simp [watch], fun _ => f.good, by rw [f.good]; exact Nat.zero_le _,
      by simp [watch], fun _ h => absurd f.stamp h, by simp [watch], fun h => absurd f.stamp h⟩
  · intro t i e t' i' outs tr hJ hs ht
    rw [watch_snoc]
    exact (hJ (fun e he => ht e (by simp [he]))).step (ht ⟨k, e, outs⟩ (by simp)) (step_move hs) k

end Verif.Pps
