import Verif.Phc.Support

set_option linter.unusedSimpArgs false
set_option linter.unusedVariables false

/-!
# Executions of a hardware clock device
-/

namespace Verif.Phc

open Verif.Time (Ts val)

/-- Comparisons leave alone the tables, the descriptors and what `strip` keeps. -/
structure Keep (w w' : World) : Prop where
  tick : w.tick ≤ w'.tick
  methods : w'.methods = w.methods
  ppsMethods : w'.ppsMethods = w.ppsMethods
  log : w'.log = w.log
  ppsFd : w'.phc.ppsFd = w.phc.ppsFd
  strip : Phc.strip w'.phc = Phc.strip w.phc

theorem Keep.refl (w : World) : Keep w w := ⟨Nat.le_refl _, rfl, rfl, rfl, rfl, rfl⟩

theorem Keep.trans {a b c : World} (h : Keep a b) (h' : Keep b c) : Keep a c :=
  ⟨Nat.le_trans h.tick h'.tick, h'.methods.trans h.methods, h'.ppsMethods.trans h.ppsMethods, h'.log.trans h.log,
    h'.ppsFd.trans h.ppsFd, h'.strip.trans h.strip⟩

/-- PPS is listed and there is something after it. -/
def Second (ms : List Method) : Prop :=
  ∃ pre rest, ms.take 6 = pre ++ .pps :: rest ∧ Stops rest ∧ (ms.take 6).findIdx? (· = .pps) = some pre.length

/-- What holds of every device that was started. -/
structure Inv (ms : List Method) (w : World) : Prop where
  methods : w.methods = ms
  pps : w.phc.method = .pps → Second ms ∧ (∀ i, (ms.take 6).findIdx? (· = .pps) = some i → w.phc.index = (i : Int)) ∧
    w.phc.ppsFd ≠ none ∧ w.phc.synth ≠ .bad ∧ w.phc.synth ≠ .notTried
  notReady : w.phc.synth = .notReady → Second ms ∧ w.phc.ppsFd ≠ none
  init : w.phc.synth = .init → w.phc.method = .pps
  good : w.phc.synth = .good → w.phc.method = .pps

/-- Only the number of calls, the difference and the flag of steps may differ. -/
theorem Inv.same {ms : List Method} {w w' : World} (h : Inv ms w) (h1 : w'.methods = w.methods)
    (h2 : w'.phc.method = w.phc.method) (h3 : w'.phc.index = w.phc.index) (h4 : w'.phc.ppsFd = w.phc.ppsFd)
    (h5 : w'.phc.synth = w.phc.synth) : Inv ms w' where
  methods := h1.trans h.methods
  pps := by rw [h2, h3, h4, h5]; exact h.pps
  notReady := by rw [h4, h5]; exact h.notReady
  init := by rw [h2, h5]; exact h.init
  good := by rw [h2, h5]; exact h.good

theorem readLoop_keep (env : Env) : ∀ (n : Nat) (w : World) (st : Bool × Option Int × Ts),
    ∃ t, w.tick ≤ t ∧ (readLoop env n w st).1 = { w with tick := t } := by
  intro n
  induction n with
  | zero => intro w st; exact ⟨w.tick, Nat.le_refl _, rfl⟩
  | succ n ih =>
    rintro w ⟨got, sm, d⟩
    simp only [readLoop]
    split
    · exact ⟨w.tick + 1, Nat.le_succ _, rfl⟩
    · split
      · exact ⟨w.tick + 2, by omega, rfl⟩
      · split
        · exact ⟨w.tick + 3, by omega, rfl⟩
        · obtain ⟨t, ht, h⟩ := ih w.next.next.next _
          refine ⟨t, ?_, h⟩
          simp only [World.next] at ht
          omega

theorem readTime_keep (env : Env) (w : World) (n : Nat) (d : Ts) :
    ∃ t x, w.tick ≤ t ∧ (readTime env w n d).1 = { w with tick := t, phc := { w.phc with diffPrev := x } } := by
  obtain ⟨t, ht, h⟩ := readLoop_keep env n w (false, none, d)
  unfold readTime
  simp only
  split
  · exact ⟨t, w.phc.diffPrev, ht, h⟩
  · split
    · refine ⟨t, (readLoop env n w (false, none, d)).2.2.2.2, ht, ?_⟩
      simp only [World.set, h]
    · exact ⟨t, w.phc.diffPrev, ht, h⟩

theorem ofSamples_keep (w : World) (l : List Sample) (d : Ts) :
    ∃ x, (ofSamples w l d).1 = { w with phc := { w.phc with diffPrev := x } } := by
  unfold ofSamples
  simp only
  split
  · exact ⟨_, rfl⟩
  · exact ⟨w.phc.diffPrev, rfl⟩

/-- The methods other than PPS change at most the last difference. -/
theorem dispatch_plain (env : Env) (cmp : World → Ts → Except Fault (World × Nat × Ts)) (w : World) (d : Ts)
    (h : w.phc.method ≠ .pps) :
    ∃ t x rc d', w.tick ≤ t ∧
      dispatch cmp env w d = .ok ({ w with tick := t, phc := { w.phc with diffPrev := x } }, rc, d') := by
  have fin : ∀ r : World × Nat × Ts, (∃ t x, w.tick ≤ t ∧ r.1 = { w with tick := t, phc := { w.phc with diffPrev := x } }) →
      ∃ t x rc d', w.tick ≤ t ∧
        (Except.ok r : Except Fault (World × Nat × Ts)) =
          .ok ({ w with tick := t, phc := { w.phc with diffPrev := x } }, rc, d') := by
    rintro ⟨r1, r2, r3⟩ ⟨t, x, ht, hr⟩
    simp only at hr
    exact ⟨t, x, r2, r3, ht, by rw [hr]⟩
  unfold dispatch
  split
  · exact fin _ ⟨w.tick, w.phc.diffPrev, Nat.le_refl _, rfl⟩
  · apply fin
    unfold comparePrecise
    split
    · exact ⟨w.tick + 1, w.phc.diffPrev, Nat.le_succ _, rfl⟩
    · rename_i dv sy _
      exact ⟨w.tick + 1, sub dv sy, Nat.le_succ _, rfl⟩
  · apply fin
    rcases compareEfx_cases env w d with ⟨_, hx⟩ | ⟨e, _, _, hx⟩ | ⟨x, _, _, hx⟩
    · rw [hx]; exact ⟨w.tick, w.phc.diffPrev, Nat.le_refl _, rfl⟩
    · rw [hx]; exact ⟨w.tick + 1, w.phc.diffPrev, Nat.le_succ _, rfl⟩
    · rw [hx]; exact ⟨w.tick + 1, w.phc.diffPrev, Nat.le_succ _, rfl⟩
  · exact absurd ‹_› h
  · apply fin
    unfold compareExtended
    split
    · exact ⟨w.tick + 1, w.phc.diffPrev, Nat.le_succ _, rfl⟩
    · obtain ⟨x, hx⟩ := ofSamples_keep w.next (List.take 4 _) d
      exact ⟨w.tick + 1, x, Nat.le_succ _, hx⟩
  · apply fin
    unfold compareSysOffset
    split
    · exact ⟨w.tick + 1, w.phc.diffPrev, Nat.le_succ _, rfl⟩
    · obtain ⟨x, hx⟩ := ofSamples_keep w.next (interleaved 4 _) d
      exact ⟨w.tick + 1, x, Nat.le_succ _, hx⟩
  · exact fin _ (readTime_keep env w 4 d)

/-- The recursion still to come. -/
def rank (p : Phc) : Nat :=
  if p.method = .pps then (if p.synth = .init then 2 else 1) else if p.synth = .notReady then 1 else 0

/-- The second chance: either nothing but the number of calls changes, or PPS is
chosen again at least 2.2 s after it was found not ready. -/
theorem reselect_cases (env : Env) (w : World) :
    (reselect env w = w ∧ w.phc.synth ≠ .notReady) ∨
    (reselect env w = w.next ∧ w.phc.synth = .notReady ∧
      (val (env.mono w.tick) < val w.phc.prevMono + val retryTime ∨
        (w.methods.take 6).findIdx? (· = .pps) = none)) ∨
    (∃ i, (w.methods.take 6).findIdx? (· = .pps) = some i ∧ w.phc.synth = .notReady ∧
      val w.phc.prevMono + val retryTime ≤ val (env.mono w.tick) ∧
      reselect env w = w.next.set fun p => { p with index := i, method := .pps }) := by
  unfold reselect
  by_cases h : w.phc.synth = .notReady
  · rw [if_pos h]
    by_cases ht : val (env.mono w.tick) ≥ val w.phc.prevMono + val retryTime
    · rw [if_pos ht]
      cases hf : (w.methods.take 6).findIdx? (· = .pps) with
      | none => right; left; exact ⟨rfl, h, Or.inr rfl⟩
      | some i => right; right; exact ⟨i, rfl, h, ht, rfl⟩
    · rw [if_neg ht]
      right; left
      exact ⟨rfl, h, Or.inl (by omega)⟩
  · rw [if_neg h]
    exact Or.inl ⟨rfl, h⟩

theorem reselect_inv (env : Env) (ms : List Method) (w : World) (h : Inv ms w) :
    Inv ms (reselect env w) ∧ Keep w (reselect env w) ∧ rank (reselect env w).phc ≤ rank w.phc ∧
      (reselect env w).phc.synth = w.phc.synth := by
  rcases reselect_cases env w with ⟨h1, _⟩ | ⟨h1, _⟩ | ⟨i, hi, hs, _, h1⟩
  · rw [h1]; exact ⟨h, Keep.refl w, Nat.le_refl _, rfl⟩
  · rw [h1]
    exact ⟨h.same rfl rfl rfl rfl rfl, ⟨Nat.le_succ _, rfl, rfl, rfl, rfl, rfl⟩, Nat.le_refl _, rfl⟩
  · rw [h1]
    obtain ⟨hsec, hfd⟩ := h.notReady hs
    rw [h.methods] at hi
    refine ⟨⟨h.methods, ?_, fun _ => ⟨hsec, hfd⟩, fun _ => rfl, fun _ => rfl⟩,
      ⟨Nat.le_succ _, rfl, rfl, rfl, rfl, rfl⟩, ?_, rfl⟩
    · intro _
      refine ⟨hsec, ?_, hfd, ?_, ?_⟩
      · intro j hj
        rw [hi] at hj
        cases hj
        rfl
      · simp only [World.set, World.next, hs]; decide
      · simp only [World.set, World.next, hs]; decide
    · simp only [rank, World.set, World.next, hs]
      simp

/-- The choice after PPS gave nothing. -/
theorem fallback_after_pps (env : Env) (ms : List Method) (w w1 : World) (h : Inv ms w) (hm : w.phc.method = .pps)
    (h1 : w1.methods = w.methods) (h2 : w1.phc.index = w.phc.index) :
    ∃ m j t, m ≠ .pps ∧ w1.tick ≤ t ∧ fallback env w1 =
      .ok ({ w1 with tick := t, phc := { w1.phc with method := m, index := j } }, if m = .max then 95 else 0) := by
  obtain ⟨⟨pre, rest, e1, e2, e3⟩, hidx, _⟩ := h.pps hm
  have hi := hidx _ e3
  have hfb : fallback env w1 = fallbackLoop env rest false (pre.length + 1) w1 := by
    have hms : w1.methods = ms := h1.trans h.methods
    unfold fallback
    have : ((pre.length : Int) + 1).toNat = pre.length + 1 := by omega
    rw [hms, h2, hi, e1, this]
    have hd : (pre ++ Method.pps :: rest).drop (pre.length + 1) = rest := by
      rw [List.drop_append]
      simp
    rw [hd]
  obtain ⟨m, j, t, _, g2, g3, g4⟩ := fallbackLoop_stops env rest false (pre.length + 1) w1 e2
  rw [hfb]
  exact ⟨m, j, t, g2, g3, g4⟩

/-- Comparisons end without a fault and keep the invariant. -/
theorem compareN_ok (env : Env) (ms : List Method) : ∀ (k : Nat) (w : World) (d : Ts), Inv ms w → rank w.phc < k →
    ∃ w' rc d', compareN env k w d = .ok (w', rc, d') ∧ Inv ms w' ∧ Keep w w' ∧
      (w.phc.synth = .bad → w'.phc.synth = .bad) ∧ (w'.phc.synth = .init → w.phc.synth = .init) := by
  intro k
  induction k with
  | zero => intro w d _ h; omega
  | succ k ih =>
    intro w d hinv hr
    obtain ⟨hi1, hk1, hr1, hs1⟩ := reselect_inv env ms w hinv
    simp only [compareN]
    generalize reselect env w = v at hi1 hk1 hr1 hs1
    by_cases hm : v.phc.method = .pps
    · have hdisp : dispatch (compareN env k) env v d = comparePps (compareN env k) env v d := by
        simp only [dispatch, hm]
      rw [hdisp]
      obtain ⟨hsec, hidx, hfd, hnb, hnt⟩ := hi1.pps hm
      unfold comparePps
      simp only
      split
      · refine ⟨_, _, _, rfl, hi1.same rfl rfl rfl rfl rfl, hk1.trans ⟨Nat.le_succ _, rfl, rfl, rfl, rfl, rfl⟩, ?_, ?_⟩
        · intro hb; rw [hs1] at hnb; exact absurd hb hnb
        · intro hb; rw [← hs1]; exact hb
      · split
        · refine ⟨_, _, _, rfl, hi1.same rfl rfl rfl rfl rfl,
            hk1.trans ⟨by simp [World.next]; omega, rfl, rfl, rfl, rfl, rfl⟩, ?_, ?_⟩
          · intro hb; rw [hs1] at hnb; exact absurd hb hnb
          · intro hb; rw [← hs1]; exact hb
        · rename_i pulse _
          split
          · split
            · obtain ⟨m, j, t, g1, g2, g3⟩ := fallback_after_pps env ms v
                (v.next.next.set fun p => noPulse p (env.mono v.tick)) hi1 hm rfl (by
                  show (noPulse v.phc (env.mono v.tick)).index = v.phc.index
                  unfold noPulse
                  split <;> rfl)
              rw [g3]
              simp only
              -- the device after the choice
              have hsy : (noPulse v.phc (env.mono v.tick)).synth =
                  if v.phc.synth = .init then .notReady else .bad := by
                unfold noPulse
                split <;> rfl
              have hpf : (noPulse v.phc (env.mono v.tick)).ppsFd = v.phc.ppsFd := by
                unfold noPulse
                split <;> rfl
              have hst : Phc.strip (noPulse v.phc (env.mono v.tick)) = Phc.strip v.phc := by
                unfold noPulse
                split <;> rfl
              have hinv' : Inv ms { (v.next.next.set fun p => noPulse p (env.mono v.tick)) with
                  tick := t, phc := { (noPulse v.phc (env.mono v.tick)) with method := m, index := j } } := by
                refine ⟨hi1.methods, ?_, ?_, ?_, ?_⟩
                · intro hc; exact absurd hc g1
                · intro _; exact ⟨hsec, by simp only [hpf]; exact hfd⟩
                · intro hc
                  simp only [hsy] at hc
                  split at hc <;> cases hc
                · intro hc
                  simp only [hsy] at hc
                  split at hc <;> cases hc
              have hkeep : Keep v { (v.next.next.set fun p => noPulse p (env.mono v.tick)) with
                  tick := t, phc := { (noPulse v.phc (env.mono v.tick)) with method := m, index := j } } := by
                refine ⟨?_, rfl, rfl, rfl, hpf, hst⟩
                have : v.tick + 1 + 1 ≤ t := g2
                simp only
                omega
              by_cases hmx : m = .max
              · rw [if_pos hmx, if_pos (by decide)]
                refine ⟨_, _, _, rfl, hinv', hk1.trans hkeep, ?_, ?_⟩
                · intro hb; rw [hs1] at hnb; exact absurd hb hnb
                · intro hb
                  simp only [World.set, hsy] at hb
                  simp only [World.next, hsy] at hb
                  split at hb <;> cases hb
              · rw [if_neg hmx, if_neg (by simp)]
                have hne : ¬ ({ (v.next.next.set fun p => noPulse p (env.mono v.tick)) with
                  tick := t, phc := { (noPulse v.phc (env.mono v.tick)) with method := m, index := j } } : World).phc.method
                    = .pps := g1
                rw [if_neg g1]
                have hrk : rank ({ (v.next.next.set fun p => noPulse p (env.mono v.tick)) with
                  tick := t, phc := { (noPulse v.phc (env.mono v.tick)) with method := m, index := j } } : World).phc < k := by
                  simp only [rank, g1, if_false, hsy]
                  have : rank v.phc = if v.phc.synth = .init then 2 else 1 := by simp only [rank, hm, if_true]
                  by_cases hc : v.phc.synth = .init
                  · rw [if_pos hc] at this
                    rw [if_pos hc]
                    simp only [if_true]
                    omega
                  · rw [if_neg hc] at this
                    rw [if_neg hc]
                    simp only [reduceCtorEq, if_false]
                    omega
                obtain ⟨w', rc, d', q1, q2, q3, q4, q5⟩ := ih _ d hinv' hrk
                refine ⟨w', rc, d', q1, q2, (hk1.trans hkeep).trans q3, ?_, ?_⟩
                · intro hb; rw [hs1] at hnb; exact absurd hb hnb
                · intro hb
                  have := q5 hb
                  simp only [hsy] at this
                  split at this <;> cases this
            · refine ⟨_, _, _, rfl, hi1.same rfl rfl rfl rfl rfl,
                hk1.trans ⟨by simp [World.next]; omega, rfl, rfl, rfl, rfl, rfl⟩, ?_, ?_⟩
              · intro hb; rw [hs1] at hnb; exact absurd hb hnb
              · intro hb; rw [← hs1]; exact hb
          · unfold newPulse
            simp only
            obtain ⟨t, x, ht, hx⟩ := readTime_keep env
              (v.next.next.set fun p => { p with prevMono := env.mono v.tick, synth := .good }) 4 ⟨0, 0, 0⟩
            simp only [World.set, World.next] at ht
            split
            · refine ⟨_, _, _, rfl, ?_, hk1.trans ?_, ?_, ?_⟩
              · rw [hx]
                exact ⟨hi1.methods, fun _ => ⟨hsec, hidx, hfd, by simp [World.set], by simp [World.set]⟩,
                  by simp [World.set], by simp [World.set], fun _ => hm⟩
              · rw [hx]
                exact ⟨by simp only; omega, rfl, rfl, rfl, rfl, rfl⟩
              · intro hb; rw [hs1] at hnb; exact absurd hb hnb
              · rw [hx]; intro hb; simp [World.set] at hb
            · refine ⟨_, _, _, rfl, ?_, hk1.trans ?_, ?_, ?_⟩
              · rw [hx]
                exact ⟨hi1.methods, fun _ => ⟨hsec, hidx, hfd, by simp [World.set], by simp [World.set]⟩,
                  by simp [World.set], by simp [World.set], fun _ => hm⟩
              · rw [hx]
                exact ⟨by simp only [World.set]; omega, rfl, rfl, rfl, rfl, rfl⟩
              · intro hb; rw [hs1] at hnb; exact absurd hb hnb
              · rw [hx]; intro hb; simp [World.set] at hb
    · obtain ⟨t, x, rc, d', ht, h⟩ := dispatch_plain env (compareN env k) v d hm
      refine ⟨_, rc, d', h, hi1.same rfl rfl rfl rfl rfl, hk1.trans ⟨ht, rfl, rfl, rfl, rfl, rfl⟩, ?_, ?_⟩
      · intro hb; rw [← hs1] at hb; exact hb
      · intro hb; rw [← hs1]; exact hb

theorem rank_lt (p : Phc) : rank p < 3 := by
  unfold rank
  split
  · split <;> omega
  · split <;> omega

theorem compare_ok (env : Env) (ms : List Method) (w : World) (d : Ts) (h : Inv ms w) :
    ∃ w' rc d', compare env w d = .ok (w', rc, d') ∧ Inv ms w' ∧ Keep w w' ∧
      (w.phc.synth = .bad → w'.phc.synth = .bad) ∧ (w'.phc.synth = .init → w.phc.synth = .init) :=
  compareN_ok env ms 3 w d h (rank_lt w.phc)

end Verif.Phc
