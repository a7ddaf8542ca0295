/-
Properties of the PTP sync module: what others are told about an instance
(C252-C257).
-/
import Verif.PtpMod.Props

set_option linter.unusedSimpArgs false
set_option linter.unusedVariables false

namespace Verif.PtpMod

/-! ### Lemmas -/

theorem flag_bit (w : BitVec 32) (k : Nat) (hk : k < 32) :
    (w &&& BitVec.twoPow 32 k ≠ 0) ↔ w.getLsbD k = true := by
  rw [BitVec.and_twoPow]
  cases h : w.getLsbD k
  · simp
  · simp only [if_true, iff_true]
    intro hz
    have : (BitVec.twoPow 32 k).getLsbD k = true := by simp [BitVec.getLsbD_twoPow, hk]
    rw [hz] at this
    simp at this

theorem sel_bit (w : BitVec 32) : (w &&& SELECTED ≠ 0) ↔ flag w 0 = true :=
  flag_bit w 0 (by omega)
theorem ts_bit (w : BitVec 32) : (w &&& TS_PROCESSING ≠ 0) ↔ flag w 1 = true :=
  flag_bit w 1 (by omega)
theorem cl_bit (w : BitVec 32) : (w &&& CLUSTERING ≠ 0) ↔ flag w 4 = true :=
  flag_bit w 4 (by omega)

theorem run_append (w : World) (es fs : List Ev) :
    run w (es ++ fs) = ((run (run w es).1 fs).1, (run w es).2 ++ (run (run w es).1 fs).2) := by
  induction es generalizing w with
  | nil => simp [run]
  | cons e es ih => simp [run, ih, List.append_assoc]

theorem run_snoc (w : World) (es : List Ev) (e : Ev) :
    (run w (es ++ [e])).1 = (step (run w es).1 e).1 := by
  rw [run_append]; rfl

theorem leap_hear (i : Inst) (s : Snap) (v : Status) : (leapOut i s).foldl hear v = v := by
  unfold leapOut
  split
  · split
    · rfl
    · split <;> rfl
  · rfl

theorem leap_hearPub (i : Inst) (s : Snap) (v) : (leapOut i s).foldl hearPub v = v := by
  unfold leapOut
  split
  · split
    · rfl
    · split <;> rfl
  · rfl

theorem hear_cl (p : Prop) [Decidable p] (c o x v) :
    (if p then [Out.cluster c o x] else []).foldl hear v = v := by split <;> rfl
theorem hear_st (p : Prop) [Decidable p] (v) :
    (if p then [Out.stats] else []).foldl hear v = v := by split <;> rfl
theorem hear_en (p : Prop) [Decidable p] (s v) :
    (if p then [Out.engine s] else []).foldl hear v = if p then s else v := by split <;> rfl
theorem hear_pu (p : Prop) [Decidable p] (a b c d v) :
    (if p then [Out.publish a b c d] else []).foldl hear v = v := by split <;> rfl
theorem hp_cl (p : Prop) [Decidable p] (c o x v) :
    (if p then [Out.cluster c o x] else []).foldl hearPub v = v := by split <;> rfl
theorem hp_st (p : Prop) [Decidable p] (v) :
    (if p then [Out.stats] else []).foldl hearPub v = v := by split <;> rfl
theorem hp_en (p : Prop) [Decidable p] (s v) :
    (if p then [Out.engine s] else []).foldl hearPub v = v := by split <;> rfl
theorem hp_pu (p : Prop) [Decidable p] (a b c d v) :
    (if p then [Out.publish a b c d] else []).foldl hearPub v = if p then (a, b, c) else v := by
  split <;> rfl

/-- Does the state of the instance change in this tick? -/
def chg (i : Inst) (e : In) : Bool := stateChanged i e.snap (e.scoreOf i.snap.ofm i.clock)

/-- Have the flags or the synchronisation changed before this tick? -/
def ichg (i : Inst) : Bool := decide (i.sync ≠ i.syncSnap) || decide (i.flags ≠ i.flagsSnap)

theorem update_view (i : Inst) (b : Bool) (e : In) (v : Status) :
    (update i b e).2.1.foldl hear v =
      if chg i e = true ∨ b = true then
        (update i b e).1.fill (e.scoreOf i.snap.ofm i.clock) e.snap.ofm
      else v := by
  simp only [update, List.foldl_append, leap_hear, hear_cl, hear_st, hear_en, hear_pu]
  rfl

theorem update_pub (i : Inst) (b : Bool) (e : In) (v : BitVec 32 × Bool × Bool) :
    (update i b e).2.1.foldl hearPub v =
      if chg i e = true ∨ b = true ∨ ichg i = true then
        ((update i b e).1.alarmsNow, decide (i.flags &&& SELECTED ≠ 0), (update i b e).1.sync)
      else v := by
  simp only [update, List.foldl_append, leap_hearPub, hp_cl, hp_st, hp_en, hp_pu]
  rfl

theorem not_chg {i : Inst} {e : In} (h : chg i e = false) :
    e.snap.state = i.snap.state ∧ e.snap.parent = i.snap.parent ∧ e.snap.steps = i.snap.steps ∧
    i.score = e.scoreOf i.snap.ofm i.clock ∧ e.snap.alarms ||| i.alarms = i.alarmsNow := by
  unfold chg stateChanged at h
  simp only [Bool.or_eq_false_iff, decide_eq_false_iff_not, ne_eq, Decidable.not_not] at h
  tauto

theorem upd_snap (i : Inst) (b : Bool) (e : In) : (update i b e).1.snap = e.snap := rfl
theorem upd_alarms (i : Inst) (b : Bool) (e : In) : (update i b e).1.alarms = i.alarms := rfl
theorem upd_alarmsSnap (i : Inst) (b : Bool) (e : In) : (update i b e).1.alarmsSnap = i.alarms := rfl
theorem upd_flags (i : Inst) (b : Bool) (e : In) : (update i b e).1.flags = i.flags := rfl
theorem upd_flagsSnap (i : Inst) (b : Bool) (e : In) : (update i b e).1.flagsSnap = i.flags := rfl
theorem upd_syncSnap (i : Inst) (b : Bool) (e : In) : (update i b e).1.syncSnap = i.sync := rfl
theorem upd_prio (i : Inst) (b : Bool) (e : In) : (update i b e).1.prio = i.prio := rfl
theorem upd_score (i : Inst) (b : Bool) (e : In) :
    (update i b e).1.score = e.scoreOf i.snap.ofm i.clock := rfl
theorem upd_clock (i : Inst) (b : Bool) (e : In) (h : chg i e = false) :
    (update i b e).1.clock = i.clock := by
  change (match stateChanged i e.snap (e.scoreOf i.snap.ofm i.clock), e.active with
    | true, some c => c | _, _ => i.clock) = i.clock
  have : stateChanged i e.snap (e.scoreOf i.snap.ofm i.clock) = false := h
  rw [this]

/-- A status filled in agrees with the instance. -/
theorem fill_agrees (i : Inst) (sc : Int) (o : Rat) :
    Agrees (i.fill sc o) i.snap i.alarmsSnap i.clock i.prio sc := by
  have hcls : ieeeClass i.snap.parent.gmClass (i.fill sc o).cls :=
    (C244_class_partial _ _).1 rfl
  have hacc : (i.fill sc o).acc = ieeeBound i.snap.parent.gmAcc := C243_decode _
  have hsl : translate i.snap.state = .slave ↔ i.snap.state = .slave := by
    cases i.snap.state <;> simp [translate]
  refine ⟨hsl, ?_, ?_, ?_, ?_, ?_, rfl, rfl, rfl, rfl, ?_, hcls, rfl, hacc, ?_, rfl⟩
  · change translate i.snap.state = _ ↔ _
    cases i.snap.state <;> simp [translate]
  · change translate i.snap.state = _ ↔ _
    cases i.snap.state <;> simp [translate]
  · change translate i.snap.state = _ ↔ _
    cases i.snap.state <;> simp [translate]
  · change translate i.snap.state = _ ↔ _
    cases i.snap.state <;> simp [translate]
  · intro k
    simp [Inst.fill, Inst.alarmsNow]
  · simp [Inst.fill, hsl]
  · simp [Inst.fill, hsl]

/-! ### C252: the engine's knowledge -/

/-- The engine knows the instance, up to a clock changed since. -/
def Known (w : World) : Prop :=
  ∃ c, Agrees w.view w.inst.snap w.inst.alarmsSnap c w.inst.prio w.inst.score ∧
    (w.bond = false → c = w.inst.clock)

theorem known_tick {w : World} (h : Known w) (e : In) : Known (step w (.tick e)).1 := by
  obtain ⟨c, ha, hc⟩ := h
  unfold Known
  simp only [step]
  rw [update_view]
  by_cases hch : chg w.inst e = true ∨ w.bond = true
  · rw [if_pos hch]
    exact ⟨_, fill_agrees _ _ _, fun _ => rfl⟩
  · rw [if_neg hch]
    push Not at hch
    obtain ⟨h1, h2⟩ := hch
    have h1 : chg w.inst e = false := by simpa using h1
    have h2 : w.bond = false := by simpa using h2
    obtain ⟨k1, k2, k3, k4, k5⟩ := not_chg h1
    refine ⟨c, ?_, fun _ => by rw [upd_clock _ _ _ h1]; exact hc h2⟩
    rw [upd_snap, upd_alarmsSnap, upd_prio, upd_score, ← k4]
    obtain ⟨a1, a2, a3, a4, a5, a6, a7, a8, a9, a10, a11, a12, a13, a14, a15, a16⟩ := ha
    refine ⟨by rw [k1]; exact a1, by rw [k1]; exact a2, by rw [k1]; exact a3, by rw [k1]; exact a4,
      by rw [k1]; exact a5, ?_, a7, a8, a9, by rw [k2]; exact a10, ?_, by rw [k2]; exact a12,
      by rw [k2]; exact a13, by rw [k2]; exact a14, ?_, by rw [k3]; exact a16⟩
    · intro k
      rw [a6]
      have : (e.snap.alarms ||| w.inst.alarms).getLsbD k = w.inst.alarmsNow.getLsbD k := by rw [k5]
      simp only [Inst.alarmsNow, BitVec.getLsbD_or] at this
      rw [← this, Bool.or_comm]
    · simp only [k1]; exact a11
    · simp only [k1, k2]; exact a15

theorem known_step {w : World} (h : Known w) (e : Ev) : Known (step w e).1 := by
  cases e with
  | tick e => exact known_tick h e
  | ctrl f m => exact h
  | table a c =>
    obtain ⟨d, ha, _⟩ := h
    exact ⟨d, ha, fun h => by simp [step] at h⟩

theorem known_run {w : World} (h : Known w) (es : List Ev) : Known (run w es).1 := by
  induction es generalizing w with
  | nil => exact h
  | cons e es ih => exact ih (known_step h e)

/-- C252: after every tick the engine's last information about the instance is
what the port's state, alarms, clock, parent and clustering score now are, the
traceability of the master included. -/
def C252_statement : Prop :=
  ∀ (w : World) (es : List Ev) (e : In),
    Agrees w.view w.inst.snap w.inst.alarms w.inst.clock w.inst.prio w.inst.score →
    w.view.timeTrace = w.inst.snap.timeTrace → w.view.freqTrace = w.inst.snap.freqTrace →
    w.inst.alarmsSnap = w.inst.alarms →
    let w' := (run w (es ++ [.tick e])).1
    Agrees w'.view e.snap w'.inst.alarms w'.inst.clock w'.inst.prio w'.inst.score ∧
    w'.view.timeTrace = e.snap.timeTrace ∧ w'.view.freqTrace = e.snap.freqTrace

def exSnap : Snap :=
  { state := .slave, syncIf := 3, alarms := 0, announce := 1
    parent := ⟨77, 6, 0x21, 0x4000, 0x20, 9⟩, steps := 1, ofm := 12
    leap59 := false, leap61 := false, timeTrace := false, freqTrace := false }

def exInst : Inst :=
  { snap := exSnap, alarms := 0, alarmsSnap := 0, sync := false, syncSnap := false
    flags := 2, flagsSnap := 2, score := 0, clock := 5, prio := 128 }

def exWorld : World :=
  { inst := exInst, bond := false, view := exInst.fill 0 12, pub := (0, false, false) }

/-- A master that becomes traceable is not reported. -/
theorem C252_violated : ¬ C252_statement := by
  intro h
  have := (h exWorld [] ⟨{ exSnap with timeTrace := true }, fun _ _ => 0, true, fun _ => false, none⟩
    (fill_agrees exInst 0 12) rfl rfl rfl).2.1
  exact absurd this (by decide +kernel)

/-- Everything but the traceability is reported. -/
theorem C252_partial (w : World) (es : List Ev) (e : In)
    (h0 : Agrees w.view w.inst.snap w.inst.alarms w.inst.clock w.inst.prio w.inst.score)
    (h1 : w.inst.alarmsSnap = w.inst.alarms) :
    let w' := (run w (es ++ [.tick e])).1
    Agrees w'.view e.snap w'.inst.alarms w'.inst.clock w'.inst.prio w'.inst.score := by
  intro w'
  have hk : Known w := ⟨_, by rw [h1]; exact h0, fun _ => rfl⟩
  have hr := known_run hk (es ++ [.tick e])
  obtain ⟨c, ha, hc⟩ := hr
  have hw : w' = (step (run w es).1 (.tick e)).1 := run_snoc w es _
  have hb : w'.bond = false := by rw [hw]; rfl
  have hs : w'.inst.snap = e.snap := by rw [hw]; rfl
  have hal : w'.inst.alarmsSnap = w'.inst.alarms := by rw [hw]; rfl
  have hc' := hc hb
  subst hc'
  rw [← hs, ← hal]
  exact ha

example : Agrees exWorld.view exWorld.inst.snap exWorld.inst.alarms exWorld.inst.clock
    exWorld.inst.prio exWorld.inst.score ∧
    (run exWorld [.table 4 6, .tick ⟨{ exSnap with ofm := 13 }, fun _ _ => 0, true,
      fun _ => true, none⟩]).1.view.clock = 6 :=
  ⟨fill_agrees exInst 0 12, by decide +kernel⟩

/-! ### C253: the published status -/

/-- Between ticks the published status is that of the last tick, up to the
synchronisation. -/
def Published (w : World) : Prop :=
  w.pub.1 = w.inst.alarmsNow ∧ w.pub.2.1 = flag w.inst.flagsSnap 0 ∧
  (w.pub.2.2 = w.inst.sync ∨ w.pub.2.2 = w.inst.syncSnap)

theorem dec_sel (f : BitVec 32) : decide (f &&& SELECTED ≠ 0) = flag f 0 := by
  rw [Bool.eq_iff_iff, decide_eq_true_eq]
  exact sel_bit f

theorem ichg_false {i : Inst} (h : ichg i = false) : i.sync = i.syncSnap ∧ i.flags = i.flagsSnap := by
  unfold ichg at h
  simpa using h

theorem published_tick {w : World} (h : Published w) (e : In) : Published (step w (.tick e)).1 := by
  unfold Published
  simp only [step]
  rw [update_pub]
  by_cases hch : chg w.inst e = true ∨ w.bond = true ∨ ichg w.inst = true
  · rw [if_pos hch]
    exact ⟨rfl, dec_sel _, Or.inl rfl⟩
  · rw [if_neg hch]
    push Not at hch
    obtain ⟨h1, _, h3⟩ := hch
    obtain ⟨k1, k2⟩ := ichg_false (by simpa using h3)
    obtain ⟨_, _, _, _, k5⟩ := not_chg (by simpa using h1)
    refine ⟨?_, ?_, ?_⟩
    · rw [h.1]
      simp only [Inst.alarmsNow] at k5 ⊢
      rw [upd_snap, upd_alarmsSnap, ← k5]
      exact BitVec.or_comm _ _
    · rw [h.2.1, upd_flagsSnap, k2]
    · right
      rw [upd_syncSnap]
      rcases h.2.2 with h | h
      · exact h
      · rw [h, k1]

theorem published_run {w : World} (h : Published w) (es : List Ev) : Published (run w es).1 := by
  induction es generalizing w with
  | nil => exact h
  | cons e es ih =>
    apply ih
    cases e with
    | tick e => exact published_tick h e
    | ctrl f m => exact h
    | table a c => exact h

/-- C253: after every tick the status published on the network carries the
current alarms, whether the instance is selected and whether it is
synchronised. -/
def C253_statement : Prop :=
  ∀ (w : World) (es : List Ev) (e : In),
    w.pub = (w.inst.alarms ||| w.inst.snap.alarms, flag w.inst.flags 0, w.inst.sync) →
    w.inst.alarmsSnap = w.inst.alarms → w.inst.flagsSnap = w.inst.flags →
    w.inst.syncSnap = w.inst.sync →
    let w' := (run w (es ++ [.tick e])).1
    w'.pub = (w'.inst.alarms ||| e.snap.alarms, flag w'.inst.flags 0, w'.inst.sync)

/-- The tick that makes an instance synchronised does not publish it. -/
theorem C253_violated : ¬ C253_statement := by
  intro h
  have := h exWorld [] ⟨exSnap, fun _ _ => 0, true, fun _ => true, none⟩ rfl rfl rfl rfl
  exact absurd this (by decide +kernel)

/-- The alarms and the selection are always current, and the synchronisation
is at most one tick old: if it is the same in two successive ticks, it is
published. -/
theorem C253_partial (w : World) (es : List Ev) (e : In)
    (h0 : w.pub = (w.inst.alarms ||| w.inst.snap.alarms, flag w.inst.flags 0, w.inst.sync))
    (h1 : w.inst.alarmsSnap = w.inst.alarms) (h2 : w.inst.flagsSnap = w.inst.flags)
    (h3 : w.inst.syncSnap = w.inst.sync) :
    let w' := (run w (es ++ [.tick e])).1
    w'.pub.1 = w'.inst.alarms ||| e.snap.alarms ∧ w'.pub.2.1 = flag w'.inst.flags 0 ∧
    (w'.inst.sync = (run w es).1.inst.sync → w'.pub.2.2 = w'.inst.sync) := by
  intro w'
  have hp : Published w := by
    refine ⟨?_, ?_, Or.inl ?_⟩
    · rw [h0, Inst.alarmsNow, h1]
    · rw [h0, h2]
    · rw [h0]
  have hpe := published_run hp es
  have hw : w' = (step (run w es).1 (.tick e)).1 := run_snoc w es _
  have hp' : Published w' := by rw [hw]; exact published_tick hpe e
  refine ⟨?_, ?_, ?_⟩
  · rw [hp'.1, hw]; rfl
  · rw [hp'.2.1, hw]; rfl
  · intro hs
    rcases hp'.2.2 with h | h
    · exact h
    · rw [h]
      have : w'.inst.syncSnap = (run w es).1.inst.sync := by rw [hw]; rfl
      rw [this, hs]

example : let e : In := ⟨exSnap, fun _ _ => 0, true, fun _ => true, none⟩
    (run exWorld ([.tick e, .ctrl 1 1] ++ [.tick e])).1.pub = (0, true, true) := by decide +kernel

/-! ### C254: clustering -/

/-- C254: the offset that a tick hands to the engine for clustering is the one
the tick found. -/
def C254_statement : Prop :=
  ∀ (w : World) (e : In) (c : Nat) (o : Rat) (v : Bool),
    Out.cluster c o v ∈ (step w (.tick e)).2 → o = e.snap.ofm ∧ v = decide (e.snap.ofm ≠ 0)

theorem cluster_mem (i : Inst) (b : Bool) (e : In) (c : Nat) (o : Rat) (v : Bool) :
    Out.cluster c o v ∈ (update i b e).2.1 ↔
      flag i.flags 4 = true ∧ e.snap.ofm ≠ i.snap.ofm ∧ c = (update i b e).1.clock ∧
      o = i.snap.ofm ∧ v = decide (i.snap.ofm ≠ 0) := by
  have hl : ∀ (s : Snap), Out.cluster c o v ∉ leapOut i s := by
    intro s
    unfold leapOut
    split
    · split
      · simp
      · split <;> simp
    · simp
  simp only [update, List.mem_append, hl, or_false]
  have hst : ∀ (p : Prop) [Decidable p], Out.cluster c o v ∉ (if p then [Out.stats] else []) := by
    intro p _; split <;> simp
  have hen : ∀ (p : Prop) [Decidable p] (s : Status),
      Out.cluster c o v ∉ (if p then [Out.engine s] else []) := by
    intro p _ s; split <;> simp
  have hpu : ∀ (p : Prop) [Decidable p] (a : BitVec 32) (x y z : Bool),
      Out.cluster c o v ∉ (if p then [Out.publish a x y z] else []) := by
    intro p _ a x y z; split <;> simp
  simp only [hst, hen, hpu, or_false, cl_bit]
  split
  · rename_i h
    simp only [List.mem_singleton, Out.cluster.injEq]
    simp only [decide_eq_true_eq] at h
    constructor
    · rintro ⟨h1, h2, h3⟩; exact ⟨h.1, h.2, h1, h2, h3⟩
    · rintro ⟨_, _, h1, h2, h3⟩; exact ⟨h1, h2, h3⟩
  · rename_i h
    simp only [decide_eq_true_eq] at h
    simp only [List.not_mem_nil, false_iff]
    rintro ⟨h1, h2, _⟩
    exact h ⟨h1, h2⟩

/-- It is the one found by the tick before. -/
theorem C254_violated : ¬ C254_statement := by
  intro h
  have := (h { exWorld with inst := { exInst with flags := 18, flagsSnap := 18 } }
    ⟨{ exSnap with ofm := 40 }, fun _ _ => 0, true, fun _ => true, none⟩ 5 12 true
    (by decide +kernel)).1
  exact absurd this (by decide +kernel)

/-- Of two successive ticks of a contributor that find different offsets, the
second hands over what the first found, and computes the clustering score from
it. -/
theorem C254_partial (w : World) (es : List Ev) (e e' : In)
    (hf : flag (run w es).1.inst.flags 4 = true) (hne : e'.snap.ofm ≠ e.snap.ofm) :
    let w1 := (run w (es ++ [.tick e])).1
    let w2 := (step w1 (.tick e')).1
    Out.cluster w2.inst.clock e.snap.ofm (decide (e.snap.ofm ≠ 0)) ∈ (step w1 (.tick e')).2 ∧
    w2.inst.score = e'.scoreOf e.snap.ofm w1.inst.clock ∧
    (∀ c o v, Out.cluster c o v ∈ (step w1 (.tick e')).2 → o = e.snap.ofm) := by
  intro w1 w2
  have hw : w1 = (step (run w es).1 (.tick e)).1 := run_snoc w es _
  have hsn : w1.inst.snap = e.snap := by rw [hw]; rfl
  have hfl : w1.inst.flags = (run w es).1.inst.flags := by rw [hw]; rfl
  refine ⟨?_, ?_, ?_⟩
  · refine (cluster_mem w1.inst w1.bond e' _ _ _).2 ⟨by rw [hfl]; exact hf, by rw [hsn]; exact hne,
      rfl, by rw [hsn], by rw [hsn]⟩
  · change e'.scoreOf w1.inst.snap.ofm w1.inst.clock = _
    rw [hsn]
  · intro c o v hm
    rw [← hsn]
    exact ((cluster_mem w1.inst w1.bond e' c o v).1 hm).2.2.2.1

example : flag (run exWorld [.ctrl 16 16]).1.inst.flags 4 = true := by decide

/-! ### C255: leap seconds -/

theorem scheduled_append (a : Option Nat) (x y : List Out) :
    scheduled a (x ++ y) = scheduled (scheduled a x) y := by
  unfold scheduled; rw [List.foldl_append]

theorem sch_cl (p : Prop) [Decidable p] (c o x v) :
    scheduled v (if p then [Out.cluster c o x] else []) = v := by split <;> rfl
theorem sch_st (p : Prop) [Decidable p] (v) :
    scheduled v (if p then [Out.stats] else []) = v := by split <;> rfl
theorem sch_en (p : Prop) [Decidable p] (s v) :
    scheduled v (if p then [Out.engine s] else []) = v := by split <;> rfl
theorem sch_pu (p : Prop) [Decidable p] (a b c d v) :
    scheduled v (if p then [Out.publish a b c d] else []) = v := by split <;> rfl

theorem scheduled_update (i : Inst) (b : Bool) (e : In) (a : Option Nat) :
    scheduled a (update i b e).2.1 = scheduled a (leapOut i e.snap) := by
  simp only [update, scheduled_append, sch_cl, sch_st, sch_en, sch_pu]

/-- C255: whenever a tick finds the instance selected and a slave, the engine
has scheduled exactly the leap second that the master announces. -/
def C255_statement : Prop :=
  ∀ (w : World) (es : List Ev) (e : In) (a : Option Nat),
    a = announced w.inst.snap →
    flag (run w (es ++ [.tick e])).1.inst.flags 0 = true → e.snap.state = .slave →
    scheduled a (run w (es ++ [.tick e])).2 = announced e.snap

/-- If the master announces the leap second before the instance is selected,
it is never scheduled. -/
theorem C255_violated : ¬ C255_statement := by
  intro h
  let e : In := ⟨{ exSnap with leap61 := true }, fun _ _ => 0, true, fun _ => true, none⟩
  have := h exWorld [.tick e, .ctrl 1 1] e none (by decide +kernel) (by decide +kernel) rfl
  exact absurd this (by decide +kernel)

theorem leap_sched (i : Inst) (s : Snap) (a : Option Nat) (ha : a = announced i.snap)
    (hf : flag i.flags 0 = true) (hs : s.state = .slave) :
    scheduled a (leapOut i s) = announced s := by
  unfold leapOut
  have hsel := (sel_bit i.flags).2 hf
  by_cases hc : s.leap59 ≠ i.snap.leap59 ∨ s.leap61 ≠ i.snap.leap61
  · rw [if_pos ⟨hsel, hs, hc⟩]
    unfold announced
    cases h1 : s.leap59 <;> cases h2 : s.leap61 <;> rfl
  · rw [if_neg (fun h => hc h.2.2)]
    push Not at hc
    simp only [scheduled, List.foldl_nil, ha, announced, hc.1, hc.2]

/-- It is scheduled if the instance has been selected and a slave all along. -/
theorem C255_partial (w : World) (es : List Ev) (a : Option Nat)
    (ha : a = announced w.inst.snap) (hf : flag w.inst.flags 0 = true)
    (hk : ∀ e ∈ es, KeepsSelected e) (hs : ∀ e ∈ es, SlaveTick e) :
    scheduled a (run w es).2 = announced (run w es).1.inst.snap ∧
    flag (run w es).1.inst.flags 0 = true := by
  induction es generalizing w a with
  | nil => exact ⟨ha, hf⟩
  | cons e es ih =>
    have hk' := fun x hx => hk x (List.mem_cons_of_mem e hx)
    have hs' := fun x hx => hs x (List.mem_cons_of_mem e hx)
    have hke := hk e (by simp)
    have hse := hs e (by simp)
    simp only [run]
    rw [scheduled_append]
    cases e with
    | tick e =>
      refine ih _ _ ?_ hf hk' hs'
      change scheduled a (update w.inst w.bond e).2.1 = announced e.snap
      rw [scheduled_update]
      exact leap_sched _ _ _ ha hf hse
    | ctrl f m =>
      refine ih _ _ ha ?_ hk' hs'
      change flag (control w.inst.flags f m).1 0 = true
      unfold flag
      rw [(C251_control _ _ _).1]
      split
      · rename_i hm; exact hke hm
      · exact hf
    | table al c => exact ih _ _ ha hf hk' hs'

example : let w : World := { exWorld with inst := { exInst with flags := 3, flagsSnap := 3 } }
    let e : In := ⟨{ exSnap with leap59 := true }, fun _ _ => 0, true, fun _ => true, none⟩
    flag w.inst.flags 0 = true ∧ scheduled none (run w [.ctrl 16 16, .tick e]).2 = some 59 := by
  decide +kernel

/-! ### C256: synchronised -/

/-- C256: after a tick the instance counts as synchronised exactly if the time
is known, the port is a slave, no alarm is set in ptpd or in the module,
timestamps are processed, and the convergence measure accepts the offset just
found. -/
theorem C256_synchronized (w : World) (e : In) :
    (step w (.tick e)).1.inst.sync = true ↔
      e.mono = true ∧ e.snap.state = .slave ∧
      (∀ k, e.snap.alarms.getLsbD k = false ∧ w.inst.alarms.getLsbD k = false) ∧
      flag w.inst.flags 1 = true ∧ e.convOf e.snap.ofm = true := by
  have hal : w.inst.alarms ||| e.snap.alarms = 0 ↔
      ∀ k, e.snap.alarms.getLsbD k = false ∧ w.inst.alarms.getLsbD k = false := by
    constructor
    · intro h k
      have : (w.inst.alarms ||| e.snap.alarms).getLsbD k = false := by rw [h]; simp
      simp only [BitVec.getLsbD_or, Bool.or_eq_false_iff] at this
      exact ⟨this.2, this.1⟩
    · intro h
      apply BitVec.eq_of_getLsbD_eq
      intro k _
      simp [(h k).1, (h k).2]
  have hts := ts_bit w.inst.flags
  have hs : (step w (.tick e)).1.inst.sync =
      (if e.mono = false ∨ e.snap.state ≠ .slave then false
       else if (w.inst.alarms ||| e.snap.alarms) ≠ 0 ∨ w.inst.flags &&& TS_PROCESSING = 0 then false
       else e.convOf e.snap.ofm) := rfl
  rw [hs, ← hal, ← hts]
  by_cases h1 : e.mono = false ∨ e.snap.state ≠ .slave
  · rw [if_pos h1]
    simp only [Bool.false_eq_true, false_iff]
    rintro ⟨a, b, _⟩
    rcases h1 with h | h
    · rw [h] at a; simp at a
    · exact h b
  · rw [if_neg h1]
    push Not at h1
    have hm : e.mono = true := by simpa using h1.1
    by_cases h2 : (w.inst.alarms ||| e.snap.alarms) ≠ 0 ∨ w.inst.flags &&& TS_PROCESSING = 0
    · rw [if_pos h2]
      simp only [Bool.false_eq_true, false_iff]
      rintro ⟨_, _, c, d, _⟩
      rcases h2 with h | h
      · exact h c
      · exact d h
    · rw [if_neg h2]
      push Not at h2
      constructor
      · intro h; exact ⟨hm, h1.2, h2.1, h2.2, h⟩
      · intro h; exact h.2.2.2.2

example : (step exWorld (.tick ⟨exSnap, fun _ _ => 0, true, fun o => decide (o < 100), none⟩)).1.inst.sync
    = true := by decide +kernel

/-! ### C257: asking for the status -/

/-- C257: asking for the status after a tick that reported a change gives what
was reported. -/
def C257_statement : Prop :=
  ∀ (w : World) (e : In) (s buf : Status), Out.engine s ∈ (step w (.tick e)).2 →
    getStatus (step w (.tick e)).1.inst buf = s

/-- The clustering score in the answer is whatever the message held before. -/
theorem C257_violated : ¬ C257_statement := by
  intro h
  have := h exWorld ⟨{ exSnap with steps := 2 }, fun _ _ => 1, true, fun _ => true, none⟩
    (({ exInst with snap := { exSnap with steps := 2 } } : Inst).fill 1 12)
    (exInst.fill 0 12) (by decide +kernel)
  exact absurd this (by decide +kernel)

theorem engine_mem {i : Inst} {b : Bool} {e : In} {s : Status} (h : Out.engine s ∈ (update i b e).2.1) :
    s = (update i b e).1.fill (e.scoreOf i.snap.ofm i.clock) e.snap.ofm := by
  have hl : Out.engine s ∉ leapOut i e.snap := by
    unfold leapOut
    split
    · split
      · simp
      · split <;> simp
    · simp
  simp only [update, List.mem_append, hl, or_false] at h
  rcases h with ((h | h) | h) | h
  · split at h <;> simp at h
  · split at h <;> simp at h
  · split at h
    · have := List.mem_singleton.1 h
      injection this
    · simp at h
  · split at h <;> simp at h

/-- All but the clustering score agrees, and the offset does for a slave. -/
theorem C257_partial (w : World) (e : In) (s buf : Status)
    (h : Out.engine s ∈ (step w (.tick e)).2) :
    (e.snap.state = .slave →
      getStatus (step w (.tick e)).1.inst buf = { s with score := buf.score }) ∧
    getStatus (step w (.tick e)).1.inst buf =
      { s with score := buf.score
               offset := (getStatus (step w (.tick e)).1.inst buf).offset } ∧
    (e.snap.state ≠ .slave → (getStatus (step w (.tick e)).1.inst buf).offset = 0) := by
  have := engine_mem h
  subst this
  refine ⟨?_, rfl, ?_⟩
  · intro hs
    have h1 : ∀ x : Inst, x.snap = e.snap → getStatus x buf = x.fill buf.score e.snap.ofm := by
      intro x hx
      unfold getStatus
      rw [hx, if_pos hs]
    exact h1 _ rfl
  · intro hs
    have h1 : ∀ x : Inst, x.snap = e.snap → (getStatus x buf).offset = 0 := by
      intro x hx
      unfold getStatus
      rw [hx, if_neg hs]
      rfl
    exact h1 _ rfl

example : Out.engine (({ exInst with snap := { exSnap with steps := 2 } } : Inst).fill 0 12) ∈
    (step exWorld (.tick ⟨{ exSnap with steps := 2 }, fun _ _ => 0, true, fun _ => true, none⟩)).2 := by
  decide +kernel

end Verif.PtpMod
