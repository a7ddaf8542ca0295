import Verif.Phc.Moves2

set_option linter.unusedSimpArgs false
set_option linter.unusedVariables false

/-!
# What one comparison does
-/

namespace Verif.Phc

open Verif.Time (Ts val)

/-- The difference is either left alone or set to the one returned. -/
def Sets (p q : Phc) (rc : Nat) (d : Ts) : Prop := q.diffPrev = p.diffPrev ∨ (rc = 0 ∧ d = q.diffPrev)

theorem readTime_sets (env : Env) (w : World) (n : Nat) (d : Ts) :
    Sets w.phc (readTime env w n d).1.phc (readTime env w n d).2.1 (readTime env w n d).2.2 := by
  obtain ⟨t, ht, h⟩ := readLoop_keep env n w (false, none, d)
  unfold readTime Sets
  simp only
  split
  · left; rw [h]
  · split
    · right; exact ⟨rfl, rfl⟩
    · left; rw [h]

theorem ofSamples_sets (w : World) (l : List Sample) (d : Ts) :
    Sets w.phc (ofSamples w l d).1.phc (ofSamples w l d).2.1 (ofSamples w l d).2.2 := by
  unfold ofSamples Sets
  simp only
  split
  · right; exact ⟨rfl, rfl⟩
  · left; rfl

theorem dispatch_sets (env : Env) (cmp : World → Ts → Except Fault (World × Nat × Ts)) (w w' : World) (d d' : Ts)
    (rc : Nat) (h : w.phc.method ≠ .pps) (hd : dispatch cmp env w d = .ok (w', rc, d')) : Sets w.phc w'.phc rc d' := by
  have fin : ∀ r : World × Nat × Ts, Sets w.phc r.1.phc r.2.1 r.2.2 → Except.ok (ε := Fault) r = .ok (w', rc, d') →
      Sets w.phc w'.phc rc d' := by
    rintro r hr he
    cases he
    exact hr
  unfold dispatch at hd
  split at hd
  · exact fin _ (Or.inl rfl) hd
  · refine fin _ ?_ hd
    unfold comparePrecise
    split
    · exact Or.inl rfl
    · exact Or.inr ⟨rfl, rfl⟩
  · refine fin _ ?_ hd
    rcases compareEfx_cases env w d with ⟨_, hx⟩ | ⟨e, _, _, hx⟩ | ⟨x, _, _, hx⟩ <;> rw [hx] <;> exact Or.inl rfl
  · exact absurd ‹_› h
  · refine fin _ ?_ hd
    unfold compareExtended
    split
    · exact Or.inl rfl
    · exact ofSamples_sets w.next _ d
  · refine fin _ ?_ hd
    unfold compareSysOffset
    split
    · exact Or.inl rfl
    · exact ofSamples_sets w.next _ d
  · exact fin _ (readTime_sets env w 4 d) hd

/-- The ways a comparison can go, with the pulse method given up at most on the way. -/
inductive Cmp (env : Env) (d : Ts) : World → World × Nat × Ts → Prop
  | plain {w v : World} {t : Nat} {x d' : Ts} {rc : Nat} (hv : reselect env w = v) (hm : v.phc.method ≠ .pps)
      (ht : v.tick ≤ t) (hx : x = v.phc.diffPrev ∨ (rc = 0 ∧ d' = x)) :
      Cmp env d w ({ v with tick := t, phc := { v.phc with diffPrev := x } }, rc, d')
  | early {w v : World} (hv : reselect env w = v) (hm : v.phc.method = .pps)
      (hl : val (env.mono v.tick) - val v.phc.prevMono < 900000000 * 4294967296) : Cmp env d w (again v.next)
  | failed {w v : World} {e : Nat} (hv : reselect env w = v) (hm : v.phc.method = .pps)
      (hl : 900000000 * 4294967296 ≤ val (env.mono v.tick) - val v.phc.prevMono)
      (hf : env.fetch (v.tick + 1) = .error e) : Cmp env d w (v.next.next, e, d)
  | same {w v : World} (hv : reselect env w = v) (hm : v.phc.method = .pps)
      (hl : 900000000 * 4294967296 ≤ val (env.mono v.tick) - val v.phc.prevMono)
      (hf : env.fetch (v.tick + 1) = .ok v.phc.ppsPrev) (hz : v.phc.ppsPrev ≠ (0, 0)) : Cmp env d w (again v.next.next)
  | pulse {w v : World} {p : Int × Int} (hv : reselect env w = v) (hm : v.phc.method = .pps)
      (hl : 900000000 * 4294967296 ≤ val (env.mono v.tick) - val v.phc.prevMono)
      (hf : env.fetch (v.tick + 1) = .ok p) (hp : p ≠ v.phc.ppsPrev) :
      Cmp env d w (newPulse env v.next.next (env.mono v.tick) p d)
  | giveUp {w v : World} {t : Nat} {j : Int} (hv : reselect env w = v) (hm : v.phc.method = .pps)
      (hf : env.fetch (v.tick + 1) = .ok (0, 0)) (hz : v.phc.ppsPrev = (0, 0)) (ht : v.tick + 2 ≤ t) :
      Cmp env d w ({ v with tick := t, phc := { (noPulse v.phc (env.mono v.tick)) with method := .max, index := j } }, 95, d)
  | other {w v : World} {t : Nat} {j : Int} {m : Method} {r : World × Nat × Ts} (hv : reselect env w = v)
      (hm : v.phc.method = .pps) (hf : env.fetch (v.tick + 1) = .ok (0, 0)) (hz : v.phc.ppsPrev = (0, 0))
      (ht : v.tick + 2 ≤ t) (hne : m ≠ .pps)
      (hr : Cmp env d { v with tick := t, phc := { (noPulse v.phc (env.mono v.tick)) with method := m, index := j } } r) :
      Cmp env d w r

theorem noPulse_synth (p : Phc) (now : Ts) :
    (noPulse p now).synth = if p.synth = .init then .notReady else .bad := by
  unfold noPulse
  split <;> rfl

theorem noPulse_ppsFd (p : Phc) (now : Ts) : (noPulse p now).ppsFd = p.ppsFd := by
  unfold noPulse
  split <;> rfl

theorem noPulse_ppsPrev (p : Phc) (now : Ts) : (noPulse p now).ppsPrev = p.ppsPrev := by
  unfold noPulse
  split <;> rfl

theorem noPulse_stepped (p : Phc) (now : Ts) : (noPulse p now).stepped = p.stepped := by
  unfold noPulse
  split <;> rfl

theorem noPulse_diffPrev (p : Phc) (now : Ts) : (noPulse p now).diffPrev = p.diffPrev := by
  unfold noPulse
  split <;> rfl

/-- The device after PPS gave nothing keeps the invariant. -/
theorem gone_inv {ms : List Method} {v : World} {t : Nat} {j : Int} {m : Method} {now : Ts} (hi1 : Inv ms v)
    (hm : v.phc.method = .pps) (g1 : m ≠ .pps) :
    Inv ms { v with tick := t, phc := { (noPulse v.phc now) with method := m, index := j } } := by
  obtain ⟨hsec, hidx, hfd, hnb, hnt⟩ := hi1.pps hm
  have hsy := noPulse_synth v.phc now
  refine ⟨hi1.methods, ?_, ?_, ?_, ?_⟩
  · intro hc; exact absurd hc g1
  · intro _; exact ⟨hsec, by simp only [noPulse_ppsFd]; exact hfd⟩
  · intro hc
    simp only [hsy] at hc
    split at hc <;> cases hc
  · intro hc
    simp only [hsy] at hc
    split at hc <;> cases hc

theorem compareN_cmp (env : Env) (ms : List Method) (d : Ts) : ∀ (k : Nat) (w : World) (r : World × Nat × Ts), Inv ms w →
    compareN env k w d = .ok r → Cmp env d w r := by
  intro k
  induction k with
  | zero => intro w r _ h; cases h
  | succ k ih =>
    intro w r hinv h
    obtain ⟨hi1, hk1, hr1, hs1⟩ := reselect_inv env ms w hinv
    simp only [compareN] at h
    generalize hv : reselect env w = v at hi1 hk1 hr1 hs1 h
    by_cases hm : v.phc.method = .pps
    · have hdisp : dispatch (compareN env k) env v d = comparePps (compareN env k) env v d := by
        simp only [dispatch, hm]
      rw [hdisp] at h
      obtain ⟨hsec, hidx, hfd, hnb, hnt⟩ := hi1.pps hm
      have hfetch : fetchPps env v = env.fetch (v.tick + 1) := by unfold fetchPps; rw [if_neg hfd]
      unfold comparePps at h
      rw [hfetch] at h
      simp only at h
      split at h
      · rename_i hl
        cases h
        exact .early hv hm hl
      · rename_i hl
        split at h
        · rename_i e he
          cases h
          exact .failed hv hm (by omega) he
        · rename_i p he
          split at h
          · rename_i hp
            subst hp
            split at h
            · rename_i hz
              rw [hz] at he
              obtain ⟨m, j, t, g1, g2, g3⟩ := fallback_after_pps env ms v
                (v.next.next.set fun p => noPulse p (env.mono v.tick)) hi1 hm rfl (by
                  show (noPulse v.phc (env.mono v.tick)).index = v.phc.index
                  unfold noPulse
                  split <;> rfl)
              rw [g3] at h
              simp only at h
              have ht : v.tick + 2 ≤ t := g2
              by_cases hmx : m = .max
              · rw [if_pos hmx, if_pos (by decide)] at h
                cases h
                subst hmx
                exact .giveUp hv hm he hz ht
              · rw [if_neg hmx, if_neg (by simp), if_neg g1] at h
                exact .other hv hm he hz ht g1 (ih _ r (gone_inv hi1 hm g1) h)
            · rename_i hz
              cases h
              exact .same hv hm (by omega) he hz
          · rename_i hp
            cases h
            exact .pulse hv hm (by omega) he hp
    · obtain ⟨t, x, rc, d', ht, hd⟩ := dispatch_plain env (compareN env k) v d hm
      rw [hd] at h
      cases h
      exact .plain hv hm ht (dispatch_sets env _ v _ d d' rc hm hd)

theorem compare_cmp {env : Env} {ms : List Method} {d : Ts} {w : World} {r : World × Nat × Ts} (hi : Inv ms w)
    (h : compare env w d = .ok r) : Cmp env d w r := compareN_cmp env ms d 3 w r hi h

/-- The device after a pulse was used. -/
def pulseUsed (q : Phc) (now : Ts) (p : Int × Int) (x : Ts) : Phc :=
  { q with prevMono := now, synth := .good, ppsPrev := p, diffPrev := ppsDiff x p.2, stepped := false }

theorem readLoop_errno (env : Env) (he : Errnos env) : ∀ (n : Nat) (w : World) (st : Bool × Option Int × Ts) (e : Nat),
    (readLoop env n w st).2.1 = some e → e ≠ 0 := by
  intro n
  induction n with
  | zero => intro w st e h; cases h
  | succ n ih =>
    rintro w ⟨got, sm, d⟩ e h
    simp only [readLoop] at h
    split at h
    · rename_i e' h'
      cases h
      exact he.real _ _ h'
    · split at h
      · rename_i e' h'
        cases h
        exact he.device _ _ h'
      · split at h
        · rename_i e' h'
          cases h
          exact he.real _ _ h'
        · exact ih _ _ e h

theorem readTime_zero (env : Env) (he : Errnos env) (w : World) (n : Nat) (d : Ts)
    (h : (readTime env w n d).2.1 = 0) : (readTime env w n d).2.2 = (readTime env w n d).1.phc.diffPrev := by
  unfold readTime at *
  simp only at *
  split
  · rename_i e h'
    rw [h'] at h
    exact absurd h (readLoop_errno env he n w _ e h')
  · rename_i h'
    rw [h'] at h
    split
    · rfl
    · rename_i hc
      simp only at h
      rw [if_neg hc] at h
      cases h

theorem newPulse_cases (env : Env) (he : Errnos env) (w : World) (now : Ts) (p : Int × Int) (d : Ts) :
    (∃ t rc, w.tick ≤ t ∧ rc ≠ 0 ∧ newPulse env w now p d =
      ({ w with tick := t, phc := { w.phc with prevMono := now, synth := .good } }, rc, d)) ∨
    (∃ t x, w.tick ≤ t ∧
      readTime env (w.set fun p => { p with prevMono := now, synth := .good }) 4 ⟨0, 0, 0⟩ =
        ({ w with tick := t, phc := { w.phc with prevMono := now, synth := .good, diffPrev := x } }, 0, x) ∧
      newPulse env w now p d =
      ({ w with tick := t, phc := pulseUsed w.phc now p x }, 0, ppsDiff x p.2)) := by
  obtain ⟨t, x, ht, h⟩ := readTime_keep env (w.set fun p => { p with prevMono := now, synth := .good }) 4 ⟨0, 0, 0⟩
  have hs := readTime_sets env (w.set fun p => { p with prevMono := now, synth := .good }) 4 ⟨0, 0, 0⟩
  have hz := readTime_zero env he (w.set fun p => { p with prevMono := now, synth := .good }) 4 ⟨0, 0, 0⟩
  unfold newPulse
  simp only
  generalize readTime env (w.set fun p => { p with prevMono := now, synth := .good }) 4 ⟨0, 0, 0⟩ = r at *
  obtain ⟨r1, r2, r3⟩ := r
  simp only at *
  subst h
  by_cases hrc : r2 = 0
  · right
    subst hrc
    rw [if_neg (by simp)]
    have hz := hz rfl
    subst hz
    exact ⟨t, r3, ht, rfl, rfl⟩
  · left
    rw [if_pos hrc]
    refine ⟨t, r2, ht, hrc, ?_⟩
    rcases hs with hs | ⟨hs, _⟩
    · simp only [World.set] at hs
      subst hs
      rfl
    · exact absurd hs hrc

end Verif.Phc
