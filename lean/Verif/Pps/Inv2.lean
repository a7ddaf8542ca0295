import Verif.Pps.Inv
import Mathlib.Tactic.Linarith

/-! Frequencies and the filters of an instance of the PPS sync module. -/

set_option linter.unusedSimpArgs false
set_option linter.unusedVariables false

namespace Verif.Pps
open Verif.Filter Verif.Stats Verif.Ring

/-! ## Frequencies -/

/-- A frequency that the clock can take. -/
def In (m x : Rat) : Prop := -m ≤ x ∧ x ≤ m

theorem limit_in {m x : Rat} (hm : 0 ≤ m) : In m (limit m x) := by
  unfold limit In
  split
  · constructor <;> linarith
  · split
    · constructor <;> linarith
    · constructor <;> linarith

/-- The frequencies held by an instance and its configuration. -/
structure FrOk (c : Conf) (i : Inst) : Prop where
  conf : i.conf = c
  saved : In c.freqMax i.saved
  base : In c.freqMax i.base
  adj : In c.freqMax i.adj

/-- What an effect may do to the clock. -/
def OutOk (c : Conf) (ctrl : Bool) : Out → Prop
  | .adjustFreq f => In c.freqMax f ∧ ctrl = true
  | .adjustTime _ => ctrl = true
  | .saveFreq f => In c.freqMax f ∧ ctrl = true
  | _ => True

theorem FrOk.of {c : Conf} {i j : Inst} (h : FrOk c i) (h1 : j.conf = i.conf) (h2 : j.saved = i.saved)
    (h3 : j.base = i.base) (h4 : j.adj = i.adj) : FrOk c j :=
  ⟨by rw [h1]; exact h.conf, by rw [h2]; exact h.saved, by rw [h3]; exact h.base, by rw [h4]; exact h.adj⟩

theorem FrOk.servo {c : Conf} {t i time t' i' outs} (hm : 0 ≤ c.freqMax) (h : FrOk c i)
    (mv : ServoMove t i time t' i' outs) : FrOk c i' ∧ ∀ o ∈ outs, OutOk c i.flags.clockCtrl o := by
  cases mv with
  | step fir pid hc =>
    refine ⟨⟨h.conf, h.saved, h.saved, h.saved⟩, ?_⟩
    intro o ho
    simp only [List.mem_cons, List.not_mem_nil, or_false] at ho
    rcases ho with rfl | rfl | rfl
    · exact hc
    · exact ⟨h.saved, hc⟩
    · trivial
  | idle => exact ⟨h, by simp⟩
  | measure => exact ⟨⟨h.conf, h.saved, h.base, h.base⟩, by simp⟩
  | slew fir mean pid f hc =>
    have : In c.freqMax (limit i.conf.freqMax (i.base + f)) := by rw [h.conf]; exact limit_in hm
    refine ⟨⟨h.conf, h.saved, h.base, this⟩, ?_⟩
    intro o ho
    simp only [List.mem_cons, List.not_mem_nil, or_false] at ho
    subst ho
    exact ⟨this, hc⟩

theorem finish_outOk (c : Conf) (b : Bool) (t : Tod) (i : Inst) (now : Int) (r : TodReply) :
    ∀ o ∈ (finish t i now r).2.2, OutOk c b o := by
  obtain ⟨nt, sy, cv, t', -, -, he⟩ := finish_eq t i now r
  rw [he]
  intro o ho
  simp only [List.mem_cons] at ho
  rcases ho with rfl | ho
  · trivial
  · split at ho
    · simp only [List.mem_cons, List.not_mem_nil, or_false] at ho
      subst ho; trivial
    · simp at ho

theorem FrOk.finish {c : Conf} {i : Inst} (h : FrOk c i) (t : Tod) (now : Int) (r : TodReply) :
    FrOk c (finish t i now r).2.1 := by
  have hf := finish_frame t i now r
  exact h.of hf.2.2.2.1 hf.2.2.2.2.2.1 hf.2.2.2.2.2.2.1 hf.2.2.2.2.2.2.2.1

theorem FrOk.reset {c : Conf} {i : Inst} (h : FrOk c i) : FrOk c (reset i) := h.of rfl rfl rfl rfl

theorem FrOk.quiet {c : Conf} {i i' : Inst} {now : Int} (h : FrOk c i) (q : QuietMove i now i') : FrOk c i' := by
  cases q with
  | same => exact h
  | alarm => exact h.of rfl rfl rfl rfl
  | late => exact h.reset
  | well => exact h.reset

theorem checkSeq_fr {c : Conf} {i : Inst} (h : FrOk c i) (seq : Nat) : FrOk c (checkSeq i seq) := by
  obtain ⟨a, n, he⟩ := checkSeq_eq i seq
  rw [he]; exact h.of rfl rfl rfl rfl

theorem checkPeriod_fr {c : Conf} {i : Inst} (h : FrOk c i) (time : Int) : FrOk c (checkPeriod i time) := by
  obtain ⟨a, n, p, g, he⟩ := checkPeriod_eq i time
  rw [he]; exact h.of rfl rfl rfl rfl

theorem FrOk.pulse {c : Conf} {t i now seq time score t' i' outs} (hm : 0 ≤ c.freqMax) (h : FrOk c i)
    (mv : PulseMove t i now seq time score t' i' outs) : FrOk c i' ∧ ∀ o ∈ outs, OutOk c i.flags.clockCtrl o := by
  have h1 := checkSeq_fr h seq
  have h2 := checkPeriod_fr h1 time
  cases mv with
  | first => exact ⟨h.of rfl rfl rfl rfl, by simp⟩
  | off => exact ⟨h1.of rfl rfl rfl rfl, by simp⟩
  | skip => exact ⟨h1.of rfl rfl rfl rfl, by simp⟩
  | few => exact ⟨h2.of rfl rfl rfl rfl, by simp⟩
  | outlier j _ _ _ _ ho =>
    obtain ⟨p, n, hj⟩ := checkOutlier_eq ho
    have h3 : FrOk c j := h2.of (by rw [hj]) (by rw [hj]) (by rw [hj]) (by rw [hj])
    exact ⟨h3.of rfl rfl rfl rfl, by simp⟩
  | used j t' i' outs' _ _ _ _ ho sm =>
    obtain ⟨p, n, hj⟩ := checkOutlier_eq ho
    have h3 : FrOk c j := h2.of (by rw [hj]) (by rw [hj]) (by rw [hj]) (by rw [hj])
    have hfl : j.flags = i.flags := (checkOutlier_kept ho).1.flags.trans
      ((checkPeriod_kept (checkSeq i seq) time).1.flags.trans (checkSeq_kept i seq).1.flags)
    obtain ⟨h4, h5⟩ := h3.servo hm sm
    refine ⟨h4.of rfl rfl rfl rfl, ?_⟩
    intro o ho
    rw [List.mem_append] at ho
    rcases ho with ho | ho
    · rw [← hfl]; exact h5 o ho
    · simp only [List.mem_cons, List.not_mem_nil, or_false] at ho
      subst ho; trivial

/-- The event is a command to step the clock. -/
def Ev.isStep : Ev → Bool
  | .step _ => true
  | _ => false

theorem FrOk.step {c : Conf} {t i e t' i' outs} (hm : 0 ≤ c.freqMax) (h : FrOk c i) (mv : Move t i e t' i' outs) :
    FrOk c i' ∧ ∀ o ∈ outs, OutOk c (i.flags.clockCtrl || e.isStep) o := by
  cases mv with
  | tick now s cc ns i' q =>
    exact ⟨FrOk.quiet (i := { i with started := s, checked := cc, alarms := { i.alarms with noSignal := ns } })
      (h.of rfl rfl rfl rfl) q, by simp⟩
  | quiet now r score i1 q => exact ⟨(h.quiet q).finish t now r, finish_outOk _ _ _ _ _ _⟩
  | error now r score =>
    refine ⟨FrOk.finish ?_ t now r, finish_outOk _ _ _ _ _ _⟩
    rcases onError_frame i with ⟨-, h1⟩ | ⟨-, h1⟩
    · rw [h1]; exact h
    · rw [h1]; exact h.of rfl rfl rfl rfl
  | pulse now seq time r score t1 i1 o1 pm =>
    obtain ⟨h1, h2⟩ := h.pulse hm pm
    refine ⟨h1.finish t1 now r, ?_⟩
    intro o ho
    rw [List.mem_append] at ho
    rcases ho with ho | ho
    · simpa [Ev.isStep] using h2 o ho
    · exact finish_outOk _ _ _ _ _ _ o ho
  | control mask flags =>
    obtain ⟨pid, st, he, -, hst⟩ := control_eq i mask flags
    rw [he]; exact ⟨h.of rfl rfl rfl rfl, by simp⟩
  | step off hsrc =>
    refine ⟨⟨h.conf, h.saved, h.saved, h.saved⟩, ?_⟩
    intro o ho
    simp only [List.mem_cons, List.not_mem_nil, or_false] at ho
    rcases ho with rfl | rfl | rfl
    · simp [OutOk, Ev.isStep]
    · exact ⟨h.saved, by simp [Ev.isStep]⟩
    · trivial
  | save =>
    unfold save
    split
    · rename_i hc
      refine ⟨⟨h.conf, h.adj, h.base, h.adj⟩, ?_⟩
      intro o ho
      simp only [List.mem_cons, List.not_mem_nil, or_false] at ho
      subst ho
      exact ⟨h.adj, by simp [hc.2]⟩
    · exact ⟨h, by simp⟩
  | pid => exact ⟨h.of rfl rfl rfl rfl, by simp⟩

theorem start_fields {s : Setup} {i : Inst} (h : start s = some i) :
    i.saved = s.saved ∧ i.base = s.saved ∧ i.adj = s.saved ∧ Fir.init s.firSize s.garbage = some i.fir ∧
    startOutlier s.outlier = some i.outlier ∧ i.active = false ∧ i.conv = ⟨s.minPeriod, s.maxOffset, 0, 0, 0⟩ := by
  unfold start at h
  split at h
  · rename_i notch fir pid outlier h1 h2 h3 h4
    simp only [Option.some.injEq] at h
    subst h
    exact ⟨rfl, rfl, rfl, h2, h4, rfl, rfl⟩
  · cases h

theorem start_fr {s : Setup} {i : Inst} (h : start s = some i) (hv : s.Valid) : FrOk s.conf i := by
  obtain ⟨h1, h2, h3, -⟩ := start_fields h
  exact ⟨(start_fresh h).2, by rw [h1]; exact hv.saved, by rw [h2]; exact hv.saved, by rw [h3]; exact hv.saved⟩

theorem Hist.fr {m0 m : Mod} {tr : List Entry} (hh : Hist m0 m tr) (k : Nat) (c : Conf) (hm : 0 ≤ c.freqMax)
    (h0 : ∀ i, m0.insts[k]? = some i → FrOk c i) (i : Inst) (hi : m.insts[k]? = some i) : FrOk c i := by
  refine hh.inst' k (J := fun i => FrOk c i) h0 ?_ i hi
  intro t i e t' i' outs hJ hs
  exact (hJ.step hm (step_move hs)).1

/-! ## Filters -/

/-- The filters of an instance work. -/
structure TOk (n : Nat) (i : Inst) : Prop where
  fir : ∃ h, FirOk n h i.fir
  outlier : ∀ p, i.outlier = some p → ∃ m w win, 0 < m ∧ m ≤ 60 ∧ PeirceOk m w win p

theorem TOk.of {n : Nat} {i j : Inst} (h : TOk n i) (h1 : j.fir = i.fir) (h2 : j.outlier = i.outlier) : TOk n j :=
  ⟨by rw [h1]; exact h.fir, by rw [h2]; exact h.outlier⟩

theorem TOk.reset {n : Nat} {i : Inst} (h : TOk n i) : TOk n (reset i) := by
  refine ⟨h.fir, ?_⟩
  intro p hp
  simp only [Pps.reset, Option.map_eq_some_iff] at hp
  obtain ⟨q, hq, rfl⟩ := hp
  obtain ⟨m, w, win, h1, h2, h3⟩ := h.outlier q hq
  exact ⟨m, w, [], h1, h2, h3.empty h1⟩

theorem FirOk.reset {k hist f} (hk : 1 ≤ k) (h : FirOk k hist f) : FirOk k [] f.reset :=
  ⟨h.k_eq, h.len, Ok.init hk h.ring.len⟩

/-- The check of outliers succeeds. -/
theorem checkOutlier_some {n : Nat} {i : Inst} (h : TOk n i) : ∃ j ok, checkOutlier i = some (j, ok) ∧ TOk n j := by
  unfold checkOutlier
  split
  · exact ⟨_, _, rfl, h⟩
  · rename_i p hp
    obtain ⟨m, w, win, h1, h2, h3⟩ := h.outlier p hp
    obtain ⟨p', h4, h5⟩ := h3.update ⟨h1, h2⟩ i.period
    rw [h4]
    simp only
    split
    · refine ⟨_, _, rfl, h.fir, ?_⟩
      intro q hq
      simp only [Option.some.injEq] at hq
      subst hq
      exact ⟨m, w, _, h1, h2, h5⟩
    · refine ⟨_, _, rfl, h.fir, ?_⟩
      intro q hq
      simp only [Option.some.injEq] at hq
      subst hq
      exact ⟨m, w, _, h1, h2, h5⟩

theorem servo_some {n : Nat} (hn : 1 ≤ n) {t : Tod} {i : Inst} {time : Int} (h : TOk n i) (hs : t.source = true) :
    ∃ t' i' outs, servoUpdate t i time = some (t', i', outs) ∧ TOk n i' ∧ t'.source = true := by
  obtain ⟨hist, hf⟩ := h.fir
  unfold servoUpdate
  simp only
  split
  · split
    · unfold stepClock servoReset
      simp only [hs, if_true]
      exact ⟨_, _, _, rfl, ⟨⟨[], FirOk.reset hn hf⟩, h.outlier⟩, rfl⟩
    · exact ⟨_, _, _, rfl, h, hs⟩
  · obtain ⟨f', y, h1, h2, -⟩ := hf.update hn ((pulseDiff t.offset time : Int) - i.conf.prop)
    rw [h1]
    simp only [Pid.update, Pid.interval]
    split
    · exact ⟨_, _, _, rfl, ⟨⟨_, h2⟩, h.outlier⟩, hs⟩
    · exact ⟨_, _, _, rfl, ⟨⟨_, h2⟩, h.outlier⟩, hs⟩

theorem trusted_some {n : Nat} (hn : 1 ≤ n) {t : Tod} {i : Inst} {time score : Int} (h : TOk n i) (hs : t.source = true) :
    ∃ t' i' outs, trusted t i time score = some (t', i', outs) ∧ TOk n i' ∧ t'.source = true := by
  unfold trusted
  split
  · obtain ⟨j, ok, h1, h2⟩ := checkOutlier_some (i := { i with alarms := { i.alarms with badSignal := false } })
      (h.of rfl rfl)
    rw [h1]
    simp only
    split
    · obtain ⟨t', i', outs, h3, h4, h5⟩ := servo_some hn h2 hs (time := time)
      rw [h3]
      exact ⟨_, _, _, rfl, h4.of rfl rfl, h5⟩
    · exact ⟨_, _, _, rfl, h2, hs⟩
  · exact ⟨_, _, _, rfl, h, hs⟩

theorem pulse_some {n : Nat} (hn : 1 ≤ n) {t : Tod} {i : Inst} {now : Int} {seq : Nat} {time score : Int} (h : TOk n i)
    (hs : t.source = true) :
    ∃ t' i' outs, onPulse t i now seq time score = some (t', i', outs) ∧ TOk n i' ∧ t'.source = true := by
  have key : ∃ t' i' outs, onSlavePulse t i seq time score = some (t', i', outs) ∧ TOk n i' ∧ t'.source = true := by
    unfold onSlavePulse
    obtain ⟨ca, cn, hcs⟩ := checkSeq_eq i seq
    simp only
    have h1 : TOk n (checkSeq i seq) := by rw [hcs]; exact h.of rfl rfl
    obtain ⟨a, b, c, d, hcp⟩ := checkPeriod_eq (checkSeq i seq) time
    split
    · exact ⟨_, _, _, rfl, h1, hs⟩
    · split
      · exact ⟨_, _, _, rfl, h1.of rfl rfl, hs⟩
      · exact trusted_some hn (by rw [hcp]; exact h1.of rfl rfl) hs
  obtain ⟨t', i', outs, h1, h2, h3⟩ := key
  unfold onPulse
  cases hst : i.state with
  | slave =>
    simp only [h1]
    exact ⟨_, _, _, rfl, h2.of rfl rfl, h3⟩
  | listening => exact ⟨_, _, _, rfl, h.of rfl rfl, hs⟩
  | faulty => exact ⟨_, _, _, rfl, h.of rfl rfl, hs⟩

theorem todAsk_source (t : Tod) (r : TodReply) : (todAsk t r).source = t.source := by
  unfold todAsk
  split
  · split
    · rfl
    · split
      · split <;> rfl
      · rfl
  · rfl

theorem finish_source {t : Tod} (hs : t.source = true) (i : Inst) (now : Int) (r : TodReply) :
    (finish t i now r).1.source = true := by
  unfold finish todPoll
  simp only
  split
  · exact hs
  · simp only [todAsk_source, todFind, hs, if_true]

theorem TOk.finish {n : Nat} {i : Inst} (h : TOk n i) (t : Tod) (now : Int) (r : TodReply) :
    TOk n (finish t i now r).2.1 := by
  have hf := finish_frame t i now r
  exact h.of hf.2.2.2.2.2.2.2.2.1 hf.2.2.2.2.2.2.2.2.2.2.1

theorem TOk.quiet {n : Nat} {i i' : Inst} {now : Int} (h : TOk n i) (q : QuietMove i now i') : TOk n i' := by
  cases q with
  | same => exact h
  | alarm => exact h.of rfl rfl
  | late => exact h.reset
  | well => exact h.reset

theorem step_total {n : Nat} (hn : 1 ≤ n) {t : Tod} {i : Inst} (h : TOk n i) (hs : t.source = true) (e : Ev) :
    ∃ t' i' outs, step t i e = some (t', i', outs) ∧ TOk n i' ∧ t'.source = true := by
  cases e with
  | tick now =>
    obtain ⟨s, c, ns, hm⟩ := tick_move i now
    exact ⟨_, _, _, rfl, TOk.quiet (i := { i with started := s, checked := c, alarms := { i.alarms with noSignal := ns } })
      (h.of rfl rfl) hm, hs⟩
  | poll now g r score =>
    have key : ∃ t1 i1 o1, onGot t i now score g = some (t1, i1, o1) ∧ TOk n i1 ∧ t1.source = true := by
      cases g with
      | nothing => exact ⟨_, _, _, rfl, h.quiet (onNone_move i now), hs⟩
      | error =>
        refine ⟨_, _, _, rfl, ?_, hs⟩
        rcases onError_frame i with ⟨-, h1⟩ | ⟨-, h1⟩
        · rw [h1]; exact h
        · rw [h1]; exact h.reset.of rfl rfl
      | pulse seq time => exact pulse_some hn h hs
    obtain ⟨t1, i1, o1, h1, h2, h3⟩ := key
    simp only [step, poll, h1]
    exact ⟨_, _, _, rfl, h2.finish t1 now r, finish_source h3 i1 now r⟩
  | control mask flags =>
    obtain ⟨pid, st, he, -, hst⟩ := control_eq i mask flags
    exact ⟨_, _, _, rfl, by rw [he]; exact h.of rfl rfl, hs⟩
  | step off =>
    obtain ⟨hist, hf⟩ := h.fir
    simp only [step, stepClock, servoReset, hs, if_true]
    exact ⟨_, _, _, rfl, ⟨⟨[], FirOk.reset hn hf⟩, h.outlier⟩, rfl⟩
  | save =>
    obtain ⟨sv, he, -, ho⟩ := save_eq i
    exact ⟨_, _, _, rfl, by rw [he]; exact h.of rfl rfl, hs⟩
  | pid => exact ⟨_, _, _, rfl, h.of rfl rfl, hs⟩

theorem start_total {s : Setup} (hv : s.Valid) : ∃ i, start s = some i := by
  have hn : Notch.init 1000000000 100000000 = some ⟨900000000, 1100000000⟩ := by
    unfold Notch.init; rw [if_pos (by decide +kernel)]; congr 1; decide +kernel
  unfold start
  rw [hn]
  have h1 : Fir.init s.firSize s.garbage = some (Fir.reset ⟨s.firSize, 0, 0, s.garbage⟩) := by
    unfold Fir.init; rw [if_pos hv.fir.2]
  have h2 : (Pid.init s.kp s.ki 0 1).setIMax s.conf.freqMax =
      some { (Pid.init s.kp s.ki 0 1) with iMax := s.conf.freqMax } := by
    unfold Pid.setIMax; rw [if_pos hv.freq]
  have h3 : ∃ o, startOutlier s.outlier = some o := by
    unfold startOutlier
    split
    · exact ⟨_, rfl⟩
    · rename_i n w ho
      have := hv.outlier n w ho
      unfold Peirce.create
      rw [if_pos this]
      exact ⟨_, rfl⟩
  obtain ⟨o, h3⟩ := h3
  rw [h1, h2, h3]
  exact ⟨_, rfl⟩

theorem start_tok {s : Setup} {i : Inst} (hv : s.Valid) (h : start s = some i) : TOk s.firSize i := by
  obtain ⟨-, -, -, h1, h2, -⟩ := start_fields h
  constructor
  · unfold Fir.init at h1
    rw [if_pos hv.fir.2, Option.some.injEq] at h1
    rw [← h1]
    have := hv.fir
    exact ⟨[], rfl, hv.array, Ok.init this.1 (by simp only [Fir.reset]; rw [hv.array]; exact this.2)⟩
  · intro p hp
    rw [hp] at h2
    unfold startOutlier at h2
    split at h2
    · cases h2
    · rename_i n w ho
      have hv' := hv.outlier n w ho
      unfold Peirce.create at h2
      rw [if_pos hv'] at h2
      simp only [Option.map_some, Option.some.injEq] at h2
      subst h2
      exact ⟨n, w, [], hv'.1, hv'.2.1, rfl, rfl, by simp [Peirce.reset], Nat.zero_le _,
        Ok.init hv'.1 (by simp [Peirce.reset]), rfl, rfl, rfl⟩

theorem startAll_total : ∀ {ss : List Setup}, (∀ s ∈ ss, s.Valid) → ∃ is, startAll ss = some is
  | [], _ => ⟨[], rfl⟩
  | s :: ss, h => by
    obtain ⟨i, hi⟩ := start_total (h s (by simp))
    obtain ⟨is, his⟩ := startAll_total (ss := ss) (fun x hx => h x (by simp [hx]))
    exact ⟨i :: is, by simp only [startAll, hi, his]⟩

/-- All instances work and there is a source of the time of day. -/
def MOk (ss : List Setup) (m : Mod) : Prop :=
  m.tod.source = true ∧ ∀ (k : Nat) (i : Inst), m.insts[k]? = some i → ∃ s, ss[k]? = some s ∧ TOk s.firSize i

theorem MOk.step {ss : List Setup} (hv : ∀ s ∈ ss, s.Valid) {m : Mod} (h : MOk ss m) (k : Nat) (e : Ev) :
    ∃ m' outs, m.step k e = some (m', outs) ∧ MOk ss m' := by
  obtain ⟨hs, hi⟩ := h
  unfold Mod.step
  split
  · exact ⟨_, _, rfl, hs, hi⟩
  · rename_i i hk
    obtain ⟨s, h1, h2⟩ := hi k i hk
    have hv' := hv s (List.mem_of_getElem? h1)
    obtain ⟨t', i', outs, h3, h4, h5⟩ := step_total hv'.fir.1 h2 hs e
    rw [h3]
    refine ⟨_, _, rfl, h5, ?_⟩
    intro k' i2 h6
    simp only [List.getElem?_set] at h6
    split at h6
    · rename_i hkk
      subst hkk
      split at h6
      · cases h6; exact ⟨s, h1, h4⟩
      · cases h6
    · exact hi k' i2 h6

theorem MOk.run {ss : List Setup} (hv : ∀ s ∈ ss, s.Valid) : ∀ (es : List (Nat × Ev)) {m : Mod}, MOk ss m →
    ∃ r, m.run es = some r
  | [], m, _ => ⟨_, rfl⟩
  | (k, e) :: es, m, h => by
    obtain ⟨m', outs, h1, h2⟩ := h.step hv k e
    obtain ⟨r, h3⟩ := MOk.run hv es h2
    simp only [Mod.run, h1, h3]
    exact ⟨_, rfl⟩

theorem start_mok {ss : List Setup} (hv : ∀ s ∈ ss, s.Valid) {src : Option Int} (hs : src.isSome) {m : Mod}
    (h : Mod.start ss src = some m) : MOk ss m := by
  refine ⟨by rw [(start_tod h).2.1]; exact hs, ?_⟩
  intro k i hi
  obtain ⟨s, h1, h2⟩ := start_get h hi
  exact ⟨s, h1, start_tok (hv s (List.mem_of_getElem? h1)) h2⟩

theorem Hist.mok {ss : List Setup} (hv : ∀ s ∈ ss, s.Valid) {m0 m : Mod} {tr : List Entry} (hh : Hist m0 m tr)
    (h0 : MOk ss m0) : MOk ss m := by
  induction hh with
  | nil => exact h0
  | snoc k e hh h1 ih =>
    obtain ⟨m', outs, h2, h3⟩ := ih.step hv k e
    rw [h1] at h2
    cases h2
    exact h3

end Verif.Pps
