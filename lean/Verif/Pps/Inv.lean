import Verif.Pps.Frames

/-! More invariants of an instance of the PPS sync module. -/

set_option linter.unusedSimpArgs false
set_option linter.unusedVariables false

namespace Verif.Pps
open Verif.Filter Verif.Stats

/-! ## What the engine is told -/

theorem view_snoc (tr : List Entry) (e : Entry) : view (tr ++ [e]) = e.outs.foldl hear (view tr) := by
  simp [view]

theorem ServoMove.hear {t i time t' i' outs} (h : ServoMove t i time t' i' outs) (v : St × Bool × Int) :
    outs.foldl hear v = v := by
  cases h <;> rfl

theorem PulseMove.hear {t i now seq time score t' i' outs} (h : PulseMove t i now seq time score t' i' outs)
    (v : St × Bool × Int) : outs.foldl hear v = v := by
  cases h with
  | used j t' i' outs' h1 h2 h3 h4 h5 sm => rw [List.foldl_append, sm.hear]; rfl
  | _ => rfl

theorem any_eq (a : Alarms) : (a.noSignal || a.seqNum || a.noTod || a.badSignal) = a.any := rfl

/-- The snapshot of the instance agrees with what the engine knows. -/
structure VOk (i : Inst) (v : St × Bool × Int) : Prop where
  known : i.prevState ≠ .listening → v.1 = i.prevState ∧ (i.prevState = .slave → v.2.1 = i.prevAlarms.any)
  score : v.2.2 = i.prevScore

/-- After a poll the snapshot is the state. -/
structure Snap (i : Inst) : Prop where
  state : i.prevState = i.state
  alarms : i.prevAlarms = i.alarms
  score : i.prevScore = i.score
  nSteps : i.nSteps = 0
  nSeq : i.nSeq = 0
  nBad : i.nBad = 0
  nOutliers : i.nOutliers = 0

theorem finish_snap (t : Tod) (i : Inst) (now : Int) (r : TodReply) : Snap (finish t i now r).2.1 := by
  obtain ⟨nt, sy, cv, t', -, -, he⟩ := finish_eq t i now r
  rw [he]
  exact ⟨rfl, rfl, rfl, rfl, rfl, rfl, rfl⟩

theorem VOk.finish {i : Inst} {v : St × Bool × Int} (h : VOk i v) (t : Tod) (now : Int) (r : TodReply) :
    VOk (finish t i now r).2.1 ((finish t i now r).2.2.foldl hear v) := by
  obtain ⟨nt, sy, cv, t', -, -, he⟩ := finish_eq t i now r
  rw [he]
  obtain ⟨hk, hs⟩ := h
  simp only
  split
  · refine ⟨fun _ => ⟨rfl, fun _ => ?_⟩, rfl⟩
    simp only [List.foldl, hear, Alarms.any]
  · rename_i hc
    simp only [changed, bne_iff_ne, ne_eq, Bool.or_eq_true, decide_eq_true_eq, Bool.and_eq_true, not_or,
      Decidable.not_not, not_and] at hc
    obtain ⟨⟨h1, h2⟩, h3⟩ := hc
    constructor
    · intro h4
      simp only at h4
      rw [h1] at h4
      have h5 := hk h4
      simp only [List.foldl, hear]
      rw [h1]
      refine ⟨h5.1, fun h6 => ?_⟩
      rw [h5.2 h6]
      exact (h2 (by rw [h1]; exact h6)).symm
    · simp only [List.foldl, hear]
      rw [hs]; exact h3.symm

theorem VOk.reset {i : Inst} {v : St × Bool × Int} (h : VOk i v) : VOk (reset i) v :=
  ⟨fun h0 => absurd rfl h0, h.score⟩

theorem VOk.quiet {i i' : Inst} {v : St × Bool × Int} {now : Int} (h : VOk i v) (q : QuietMove i now i') : VOk i' v := by
  cases q with
  | same => exact h
  | alarm => exact ⟨h.known, h.score⟩
  | late => exact h.reset
  | well => exact h.reset

/-- Fields that the processing of a pulse leaves alone. -/
structure Kept (i j : Inst) : Prop where
  prevState : j.prevState = i.prevState
  prevAlarms : j.prevAlarms = i.prevAlarms
  prevScore : j.prevScore = i.prevScore
  conf : j.conf = i.conf
  flags : j.flags = i.flags
  saved : j.saved = i.saved
  synced : j.synced = i.synced
  conv : j.conv = i.conv
  notch : j.notch = i.notch

theorem Kept.trans {a b c : Inst} (h : Kept a b) (g : Kept b c) : Kept a c :=
  ⟨g.1.trans h.1, g.2.trans h.2, g.3.trans h.3, g.4.trans h.4, g.5.trans h.5, g.6.trans h.6, g.7.trans h.7, g.8.trans h.8,
   g.9.trans h.9⟩

theorem checkSeq_kept (i : Inst) (seq : Nat) : Kept i (checkSeq i seq) ∧ (checkSeq i seq).state = i.state := by
  obtain ⟨ca, cn, hcs⟩ := checkSeq_eq i seq
  rw [hcs]; exact ⟨⟨rfl, rfl, rfl, rfl, rfl, rfl, rfl, rfl, rfl⟩, rfl⟩

theorem checkPeriod_kept (i : Inst) (time : Int) : Kept i (checkPeriod i time) ∧ (checkPeriod i time).state = i.state := by
  obtain ⟨a, b, c, d, hcs⟩ := checkPeriod_eq i time
  rw [hcs]; exact ⟨⟨rfl, rfl, rfl, rfl, rfl, rfl, rfl, rfl, rfl⟩, rfl⟩

theorem checkOutlier_kept {i j : Inst} {ok : Bool} (h : checkOutlier i = some (j, ok)) :
    Kept i j ∧ j.state = i.state := by
  obtain ⟨op, on, hj⟩ := checkOutlier_eq h
  rw [hj]; exact ⟨⟨rfl, rfl, rfl, rfl, rfl, rfl, rfl, rfl, rfl⟩, rfl⟩

theorem ServoMove.kept {t i time t' i' outs} (h : ServoMove t i time t' i' outs) : Kept i i' ∧ i'.state = i.state := by
  obtain ⟨fir, pid, base, adj, offset, stamp, period, stepped, n, act, hj⟩ := h.frame
  rw [hj]; exact ⟨⟨rfl, rfl, rfl, rfl, rfl, rfl, rfl, rfl, rfl⟩, rfl⟩

/-- Fields set at the end of processing do not matter here. -/
theorem Kept.set {i j : Inst} (h : Kept i j) (a : Alarms) (seq : Nat) (now stamp score : Int) (stepped : Bool) :
    Kept i { j with alarms := a, seq := seq, lastPps := now, stamp := stamp, score := score, stepped := stepped } :=
  ⟨h.1, h.2, h.3, h.4, h.5, h.6, h.7, h.8, h.9⟩

theorem PulseMove.kept {t i now seq time score t' i' outs} (h : PulseMove t i now seq time score t' i' outs) :
    Kept i i' ∧ i'.state = .slave ∧ i'.seq = seq ∧ i'.lastPps = now := by
  have h1 := checkSeq_kept i seq
  have h2 := checkPeriod_kept (checkSeq i seq) time
  have h3 := h1.1.trans h2.1
  have hs2 := h2.2.trans h1.2
  cases h with
  | first => exact ⟨⟨rfl, rfl, rfl, rfl, rfl, rfl, rfl, rfl, rfl⟩, rfl, rfl, rfl⟩
  | off hs => exact ⟨h1.1.set _ _ _ _ _ _, h1.2.trans hs, rfl, rfl⟩
  | skip hs => exact ⟨h1.1.set _ _ _ _ _ _, h1.2.trans hs, rfl, rfl⟩
  | few hs => exact ⟨h3.set _ _ _ _ _ _, hs2.trans hs, rfl, rfl⟩
  | outlier j hs _ _ _ ho =>
    have h4 := checkOutlier_kept ho
    exact ⟨((h3.set _ _ _ _ _ _).trans h4.1).set _ _ _ _ _ _, (h4.2.trans hs2).trans hs, rfl, rfl⟩
  | used j t' i' outs' hs _ _ _ ho sm =>
    have h4 := checkOutlier_kept ho
    have h5 := sm.kept
    exact ⟨(((h3.set _ _ _ _ _ _).trans h4.1).trans h5.1).set _ _ _ _ _ _, ((h5.2.trans h4.2).trans hs2).trans hs, rfl, rfl⟩

theorem onError_frame (i : Inst) : (i.state = .faulty ∧ onError i = i) ∨
    (i.state ≠ .faulty ∧ onError i = { reset i with state := .faulty }) := by
  unfold onError
  split
  · rename_i h; exact .inl ⟨h, rfl⟩
  · rename_i h; exact .inr ⟨h, rfl⟩

theorem VOk.step {t : Tod} {i : Inst} {v : St × Bool × Int} {e : Ev} {t' : Tod} {i' : Inst} {outs : List Out} (h : VOk i v)
    (mv : Move t i e t' i' outs) : VOk i' (outs.foldl hear v) := by
  cases mv with
  | tick now s c ns i' q =>
    exact VOk.quiet (i := { i with started := s, checked := c, alarms := { i.alarms with noSignal := ns } })
      ⟨h.known, h.score⟩ q
  | quiet now r score i1 q => exact (h.quiet q).finish t now r
  | error now r score =>
    refine VOk.finish ?_ t now r
    rcases onError_frame i with ⟨-, h1⟩ | ⟨-, h1⟩
    · rw [h1]; exact h
    · rw [h1]; exact ⟨fun h0 => absurd rfl h0, h.score⟩
  | pulse now seq time r score t1 i1 o1 pm =>
    rw [List.foldl_append, pm.hear]
    obtain ⟨h1, h2, h3, -⟩ := pm.kept.1
    exact VOk.finish ⟨by rw [h1, h2]; exact h.known, by rw [h3]; exact h.score⟩ t1 now r
  | control mask flags =>
    obtain ⟨pid, st, he, -, hst⟩ := control_eq i mask flags
    rw [he]; exact ⟨h.known, h.score⟩
  | step off hsrc => exact ⟨h.known, h.score⟩
  | save =>
    obtain ⟨sv, he, -, ho⟩ := save_eq i
    rw [he]
    rcases ho with ho | ho <;> (rw [ho]; exact ⟨h.known, h.score⟩)
  | pid => exact ⟨h.known, h.score⟩

theorem Hist.vok {m0 m : Mod} {tr : List Entry} (hh : Hist m0 m tr) (k : Nat)
    (h0 : ∀ i, m0.insts[k]? = some i → Fresh i) (i : Inst) (hi : m.insts[k]? = some i) : VOk i (view (own k tr)) := by
  refine hh.inst k (J := fun i tr => VOk i (view tr)) ?_ ?_ i hi
  · intro i hi
    have f := h0 i hi
    exact ⟨fun h => absurd f.prevState h, f.prevScore.symm⟩
  · intro t i e t' i' outs tr hJ hs
    rw [view_snoc]
    exact hJ.step (step_move hs)

/-! ## While pulses come at least every minute -/

theorem lastPulse_snoc (tr : List Entry) (e : Entry) : lastPulse (tr ++ [e]) = Quiet.next (lastPulse tr) e := by
  simp [lastPulse]

/-- If a minute has not passed since the latest pulse, then the engine believes in
a slave only if it is one. -/
def LOk (i : Inst) (q : Option (Int × Bool)) (v : St × Bool × Int) : Prop :=
  (∀ p, q = some (p, false) → i.lastPps = p ∧ (v.1 = .slave → i.state = .slave)) ∧ (q = none → v.1 = .slave → False)

theorem LOk.congr {i j : Inst} {q : Option (Int × Bool)} {v : St × Bool × Int} (h : LOk i q v)
    (h1 : j.lastPps = i.lastPps) (h2 : j.state = i.state) : LOk j q v := by
  unfold LOk at *
  rw [h1, h2]; exact h

/-- The end of a poll: the engine is told the state, or nothing. -/
theorem finish_hear (t : Tod) (i : Inst) (now : Int) (r : TodReply) (v : St × Bool × Int) :
    ((finish t i now r).2.2.foldl hear v = v ∧ i.state = i.prevState) ∨
    ((finish t i now r).2.2.foldl hear v).1 = i.state := by
  obtain ⟨nt, sy, cv, t', -, -, he⟩ := finish_eq t i now r
  rw [he]
  simp only
  split
  · exact .inr rfl
  · rename_i hc
    refine .inl ⟨rfl, ?_⟩
    simp only [changed, bne_iff_ne, ne_eq, Bool.or_eq_true, decide_eq_true_eq, Bool.and_eq_true, not_or,
      Decidable.not_not, not_and] at hc
    exact hc.1.1

theorem finish_frame (t : Tod) (i : Inst) (now : Int) (r : TodReply) :
    (finish t i now r).2.1.state = i.state ∧ (finish t i now r).2.1.lastPps = i.lastPps ∧
    (finish t i now r).2.1.seq = i.seq ∧ (finish t i now r).2.1.conf = i.conf ∧
    (finish t i now r).2.1.flags = i.flags ∧ (finish t i now r).2.1.saved = i.saved ∧
    (finish t i now r).2.1.base = i.base ∧ (finish t i now r).2.1.adj = i.adj ∧
    (finish t i now r).2.1.fir = i.fir ∧ (finish t i now r).2.1.pid = i.pid ∧
    (finish t i now r).2.1.outlier = i.outlier ∧ (finish t i now r).2.1.alarms.seqNum = i.alarms.seqNum ∧
    (finish t i now r).2.1.alarms.noSignal = i.alarms.noSignal := by
  obtain ⟨nt, sy, cv, t', -, -, he⟩ := finish_eq t i now r
  rw [he]
  exact ⟨rfl, rfl, rfl, rfl, rfl, rfl, rfl, rfl, rfl, rfl, rfl, rfl, rfl⟩

theorem LOk.finish {i : Inst} {q : Option (Int × Bool)} {v : St × Bool × Int} (h : LOk i q v) (hq : q = none → i.state ≠ .slave)
    (t : Tod) (now : Int)
    (r : TodReply) : LOk (finish t i now r).2.1 q ((finish t i now r).2.2.foldl hear v) := by
  have hf := finish_frame t i now r
  refine LOk.congr (i := i) ?_ hf.2.1 hf.1
  rcases finish_hear t i now r v with ⟨h1, h2⟩ | h1
  · rw [h1]; exact h
  · constructor
    · intro p hp
      exact ⟨(h.1 p hp).1, fun h3 => by rw [← h1]; exact h3⟩
    · intro h3 h4
      rw [h1] at h4
      exact hq h3 h4

/-- Moving on without a pulse. -/
theorem LOk.quiet {i i' : Inst} {q : Option (Int × Bool)} {v : St × Bool × Int} {now : Int} (h : LOk i q v)
    (qm : QuietMove i now i') :
    LOk i' (q.map (fun x => (x.1, x.2 || decide (now ≥ x.1 + 60000000000)))) v := by
  have key : ∀ p, q.map (fun x => (x.1, x.2 || decide (now ≥ x.1 + 60000000000))) = some (p, false) →
      q = some (p, false) ∧ now < p + 60000000000 := by
    intro p hp
    cases q with
    | none => simp at hp
    | some x =>
      obtain ⟨a, b⟩ := x
      simp only [Option.map_some, Option.some.injEq, Prod.mk.injEq, Bool.or_eq_false_iff, decide_eq_false_iff_not] at hp
      obtain ⟨rfl, rfl, h3⟩ := hp
      exact ⟨rfl, by omega⟩
  refine ⟨fun p hp => ?_, fun hn => h.2 (by simpa using hn)⟩
  obtain ⟨h1, h2⟩ := key p hp
  have h3 := h.1 p h1
  cases qm with
  | same => exact h3
  | alarm => exact h3
  | late hs hl => omega
  | well hs =>
    refine ⟨h3.1, fun h4 => ?_⟩
    have := h3.2 h4
    rw [hs] at this; cases this

theorem LOk.step {t : Tod} {i : Inst} {q : Option (Int × Bool)} {v : St × Bool × Int} {e : Ev} {t' : Tod} {i' : Inst}
    {outs : List Out} (h : LOk i q v) (hq : q = none → i.state ≠ .slave)
    (mv : Move t i e t' i' outs) (k : Nat) :
    LOk i' (Quiet.next q ⟨k, e, outs⟩) (outs.foldl hear v) ∧
      (Quiet.next q ⟨k, e, outs⟩ = none → i'.state ≠ .slave) := by
  cases mv with
  | tick now s c ns i' qm =>
    refine ⟨LOk.quiet (h.congr (j := { i with started := s, checked := c, alarms := { i.alarms with noSignal := ns } })
      rfl rfl) qm, fun hn => ?_⟩
    have hn' : q = none := by simpa [Quiet.next] using hn
    have := hq hn'
    cases qm with
    | same => exact this
    | alarm hs => exact this
    | late => simp [Pps.reset]
    | well => simp [Pps.reset]
  | quiet now r score i1 qm =>
    have hst : q = none → i1.state ≠ .slave := by
      intro hn
      have := hq hn
      cases qm with
      | same => exact this
      | alarm hs => exact this
      | late => simp [Pps.reset]
      | well => simp [Pps.reset]
    have hn : ∀ {f : Int × Bool → Int × Bool}, q.map f = none → i1.state ≠ .slave := by
      intro f hn; exact hst (by simpa using hn)
    refine ⟨(h.quiet qm).finish hn t now r, ?_⟩
    rw [(finish_frame t i1 now r).1]
    exact hn
  | error now r score =>
    have hst : (onError i).state = .faulty := by
      rcases onError_frame i with ⟨h0, h1⟩ | ⟨-, h1⟩
      · rw [h1]; exact h0
      · rw [h1]
    refine ⟨?_, fun _ => by rw [(finish_frame t (onError i) now r).1, hst]; simp⟩
    have h2 : LOk (onError i) (q.map (fun x => (x.1, x.2 || decide (now ≥ x.1 + 60000000000))))
        ((Pps.finish t (onError i) now r).2.2.foldl hear v) := by
      have hv : ((Pps.finish t (onError i) now r).2.2.foldl hear v).1 ≠ .slave ∨
          ((Pps.finish t (onError i) now r).2.2.foldl hear v = v ∧ i.state = .faulty) := by
        rcases finish_hear t (onError i) now r v with ⟨h1, h2⟩ | h1
        · rcases onError_frame i with ⟨h3, h4⟩ | ⟨h3, h4⟩
          · exact .inr ⟨h1, h3⟩
          · rw [h4] at h2; cases h2
        · left; rw [h1, hst]; simp
      have hl : (onError i).lastPps = i.lastPps := by
        rcases onError_frame i with ⟨h0, h1⟩ | ⟨-, h1⟩ <;> rw [h1]
        rfl
      rcases hv with hv | ⟨hv, hf⟩
      · refine ⟨fun p hp => ⟨?_, fun h3 => absurd h3 hv⟩, fun _ h3 => hv h3⟩
        rw [hl]
        cases q with
        | none => simp at hp
        | some x =>
          obtain ⟨a, b⟩ := x
          simp only [Option.map_some, Option.some.injEq, Prod.mk.injEq, Bool.or_eq_false_iff,
            decide_eq_false_iff_not] at hp
          obtain ⟨rfl, rfl, h3⟩ := hp
          exact (h.1 a rfl).1
      · rw [hv]
        refine ⟨fun p hp => ?_, fun hn => h.2 (by simpa using hn)⟩
        rw [hl]
        cases q with
        | none => simp at hp
        | some x =>
          obtain ⟨a, b⟩ := x
          simp only [Option.map_some, Option.some.injEq, Prod.mk.injEq, Bool.or_eq_false_iff,
            decide_eq_false_iff_not] at hp
          obtain ⟨rfl, rfl, h3⟩ := hp
          refine ⟨(h.1 a rfl).1, fun h4 => ?_⟩
          have := (h.1 a rfl).2 h4
          rw [hf] at this; cases this
    exact h2.congr (finish_frame t (onError i) now r).2.1 (finish_frame t (onError i) now r).1
  | pulse now seq time r score t1 i1 o1 pm =>
    obtain ⟨-, h4, h5, h6⟩ := pm.kept
    refine ⟨⟨fun p hp => ?_, fun hn => by simp [Quiet.next] at hn⟩, fun hn => by simp [Quiet.next] at hn⟩
    simp only [Quiet.next, Option.some.injEq, Prod.mk.injEq, and_true] at hp
    rw [(finish_frame t1 i1 now r).1, (finish_frame t1 i1 now r).2.1, h4, h6]
    exact ⟨hp, fun _ => rfl⟩
  | control mask flags =>
    obtain ⟨pid, st, he, -, hst⟩ := control_eq i mask flags
    rw [he]; exact ⟨h, hq⟩
  | step off hsrc => exact ⟨h, hq⟩
  | save =>
    obtain ⟨sv, he, -, ho⟩ := save_eq i
    rw [he]
    rcases ho with ho | ho <;> (rw [ho]; exact ⟨h, hq⟩)
  | pid => exact ⟨h, hq⟩

theorem Hist.lok {m0 m : Mod} {tr : List Entry} (hh : Hist m0 m tr) (k : Nat)
    (h0 : ∀ i, m0.insts[k]? = some i → Fresh i) (i : Inst) (hi : m.insts[k]? = some i) :
    LOk i (lastPulse (own k tr)) (view (own k tr)) ∧ (lastPulse (own k tr) = none → i.state ≠ .slave) := by
  refine hh.inst k (J := fun i tr => LOk i (lastPulse tr) (view tr) ∧ (lastPulse tr = none → i.state ≠ .slave)) ?_ ?_ i hi
  · intro i hi
    have f := h0 i hi
    exact ⟨⟨fun p hp => by simp [lastPulse] at hp, fun _ h => by simp [view] at h⟩, fun _ => by rw [f.state]; simp⟩
  · intro t i e t' i' outs tr hJ hs
    rw [view_snoc, lastPulse_snoc]
    exact hJ.1.step hJ.2 (step_move hs) k

/-! ## Numbers of the pulses and counters -/

theorem lastSeq_snoc (tr : List Entry) (e : Entry) :
    lastSeq (tr ++ [e]) = (e.ev.pulse?.map Prod.fst).or (lastSeq tr) := by
  simp [lastSeq]

/-- The number held is that of the latest pulse and no counts are pending. -/
structure QOk (i : Inst) (q : Option Nat) : Prop where
  seq : i.state = .slave → q = some i.seq
  nSteps : i.nSteps = 0
  nSeq : i.nSeq = 0
  nBad : i.nBad = 0
  nOutliers : i.nOutliers = 0

theorem QOk.quiet {i i' : Inst} {q : Option Nat} {now : Int} (h : QOk i q) (qm : QuietMove i now i') : QOk i' q := by
  obtain ⟨h1, h2, h3, h4, h5⟩ := h
  cases qm with
  | same => exact ⟨h1, h2, h3, h4, h5⟩
  | alarm => exact ⟨h1, h2, h3, h4, h5⟩
  | late => exact ⟨by simp [Pps.reset], h2, h3, h4, h5⟩
  | well => exact ⟨by simp [Pps.reset], h2, h3, h4, h5⟩

theorem QOk.step {t : Tod} {i : Inst} {q : Option Nat} {e : Ev} {t' : Tod} {i' : Inst} {outs : List Out} (h : QOk i q)
    (mv : Move t i e t' i' outs) : QOk i' ((e.pulse?.map Prod.fst).or q) := by
  cases mv with
  | tick now s c ns i' qm =>
    exact QOk.quiet (i := { i with started := s, checked := c, alarms := { i.alarms with noSignal := ns } })
      ⟨h.seq, h.nSteps, h.nSeq, h.nBad, h.nOutliers⟩ qm
  | quiet now r score i1 qm =>
    have hf := finish_frame t i1 now r
    have hs := finish_snap t i1 now r
    refine ⟨?_, hs.nSteps, hs.nSeq, hs.nBad, hs.nOutliers⟩
    rw [hf.1, hf.2.2.1]
    exact (h.quiet qm).seq
  | error now r score =>
    have hf := finish_frame t (onError i) now r
    have hs := finish_snap t (onError i) now r
    refine ⟨?_, hs.nSteps, hs.nSeq, hs.nBad, hs.nOutliers⟩
    rw [hf.1]
    rcases onError_frame i with ⟨h0, h1⟩ | ⟨-, h1⟩
    · rw [h1, h0]; simp
    · rw [h1]; simp
  | pulse now seq time r score t1 i1 o1 pm =>
    have hf := finish_frame t1 i1 now r
    have hs := finish_snap t1 i1 now r
    refine ⟨fun _ => ?_, hs.nSteps, hs.nSeq, hs.nBad, hs.nOutliers⟩
    rw [hf.2.2.1, pm.kept.2.2.1]
    rfl
  | control mask flags =>
    obtain ⟨pid, st, he, -, hst⟩ := control_eq i mask flags
    rw [he]; exact ⟨h.seq, h.nSteps, h.nSeq, h.nBad, h.nOutliers⟩
  | step off hsrc => exact ⟨h.seq, h.nSteps, h.nSeq, h.nBad, h.nOutliers⟩
  | save =>
    obtain ⟨sv, he, -, ho⟩ := save_eq i
    rw [he]; exact ⟨h.seq, h.nSteps, h.nSeq, h.nBad, h.nOutliers⟩
  | pid => exact ⟨h.seq, h.nSteps, h.nSeq, h.nBad, h.nOutliers⟩

theorem Hist.qok {m0 m : Mod} {tr : List Entry} (hh : Hist m0 m tr) (k : Nat)
    (h0 : ∀ i, m0.insts[k]? = some i → Fresh i) (i : Inst) (hi : m.insts[k]? = some i) : QOk i (lastSeq (own k tr)) := by
  refine hh.inst k (J := fun i tr => QOk i (lastSeq tr)) ?_ ?_ i hi
  · intro i hi
    have f := h0 i hi
    exact ⟨by rw [f.state]; simp, f.nSteps, f.nSeq, f.nBad, f.nOutliers⟩
  · intro t i e t' i' outs tr hJ hs
    rw [lastSeq_snoc]
    exact hJ.step (step_move hs)

end Verif.Pps
