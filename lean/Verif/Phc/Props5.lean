import Verif.Phc.Props4

set_option linter.unusedSimpArgs false
set_option linter.unusedVariables false

/-!
# Properties of hardware clock devices: which pulse a result rests on
-/

namespace Verif.Phc

open Verif.Time (Ts val)

/-! ## What a successful comparison by pulses returns -/

/-- The ways a comparison can end with the method of pulses and success. -/
inductive Success (env : Env) (w : World) (r : World × Nat × Ts) : Prop
  | repeated (h1 : r.2.2 = w.phc.diffPrev) (h2 : w.phc.stepped = false) (h3 : r.1.phc.ppsPrev = w.phc.ppsPrev)
      (h4 : r.1.phc.diffPrev = w.phc.diffPrev)
  | fresh {t : Nat} {p : Int × Int} {x : Ts} {v v' : World} (ht : w.tick ≤ t) (hf : env.fetch t = .ok p)
      (hp : p ≠ w.phc.ppsPrev) (hv : v.tick = t + 1) (hr : readTime env v 4 ⟨0, 0, 0⟩ = (v', 0, x))
      (h1 : r.2.2 = ppsDiff x p.2) (h2 : r.1.phc.ppsPrev = p) (h3 : r.1.phc.stepped = false)

theorem again_success {env : Env} {w v : World} (hv : reselect env w = v) (n : World) (hn : n.phc = v.phc)
    (h0 : (again n).2.1 = 0) : Success env w (again n) := by
  have hsame := reselect_same env w
  rw [hv] at hsame
  unfold again at h0 ⊢
  simp only at h0
  rw [hn] at h0
  split at h0
  · cases h0
  · rename_i hs
    refine .repeated ?_ ?_ ?_ ?_
    · simp only [hn]; exact hsame.2.2.2.2.1
    · rw [← hsame.2.2.2.1]; simpa using hs
    · simp only [hn]; exact hsame.2.2.1
    · simp only [hn]; exact hsame.2.2.2.2.1

theorem cmp_success {env : Env} {d : Ts} {w : World} {r : World × Nat × Ts} (he : Errnos env) (h : Cmp env d w r) :
    r.2.1 = 0 → r.1.phc.method = .pps → Success env w r := by
  induction h with
  | plain hv hm _ _ => intro _ hc; exact absurd hc hm
  | @early w v hv hm _ => intro h0 _; exact again_success hv v.next rfl h0
  | failed hv hm _ hf => intro h0 _; exact absurd h0 (he.fetch _ _ hf)
  | @same w v hv hm _ _ _ => intro h0 _; exact again_success hv v.next.next rfl h0
  | @pulse w v p hv hm _ hf hp =>
    intro h0 _
    have hsame := reselect_same env w
    rw [hv] at hsame
    rcases newPulse_cases env he v.next.next (env.mono v.tick) p d with ⟨t, rc, _, hrc, h⟩ | ⟨t, x, _, hr, h⟩
    · rw [h] at h0; exact absurd h0 hrc
    · rw [h]
      exact .fresh (t := v.tick + 1) (by have := hsame.2.2.2.2.2.2.1; omega) hf (by rw [← hsame.2.2.1]; exact hp) rfl hr
        rfl rfl rfl
  | giveUp hv hm _ _ _ => intro h0 _; cases h0
  | @other w v t j m r hv hm hf hz ht hne hcmp ih =>
    intro h0 hm'
    have hsame := reselect_same env w
    rw [hv] at hsame
    have hle := hsame.2.2.2.2.2.2.1
    rcases ih h0 hm' with ⟨a1, a2, a3, a4⟩ | ⟨b1, b2, b3, b4, b5, b6, b7, b8⟩
    · refine .repeated ?_ ?_ ?_ ?_
      · rw [a1]; simp only [noPulse_diffPrev]; exact hsame.2.2.2.2.1
      · rw [← hsame.2.2.2.1, ← noPulse_stepped v.phc (env.mono v.tick)]; exact a2
      · rw [a3]; simp only [noPulse_ppsPrev]; exact hsame.2.2.1
      · rw [a4]; simp only [noPulse_diffPrev]; exact hsame.2.2.2.2.1
    · refine .fresh (by simp only at b1; omega) b2 ?_ b4 b5 b6 b7 b8
      rw [← hsame.2.2.1, ← noPulse_ppsPrev v.phc (env.mono v.tick)]
      exact b3

/-! ## C169: steps of the clock -/

/-- C169. After the clock was stepped, a result that rests on pulses rests on
one that arrived after the step. -/
def C169_statement : Prop :=
  ∀ (env : Env) (ms : List Method) (pms : List PpsMethod) (w w' : World) (d d' : Ts) (p : Int × Int),
    Errnos env → ShortNames env → Listed env → GoodTable ms → Reach env ms pms w →
    compare env (recordStep w) d = .ok (w', 0, d') → w'.phc.method = .pps →
    -- the pulse the kernel holds when the step is made
    env.fetch w.tick = .ok p → w'.phc.ppsPrev ≠ p

/-- A kernel that holds one pulse all the time. -/
def onePulse : Env := { noPulses with fetch := fun _ => .ok (1002, 250) }

theorem onePulse_errnos : Errnos onePulse := by
  constructor <;> intros <;> simp_all [onePulse, noPulses, onePps, bare] <;> omega

theorem onePulse_short : ShortNames onePulse := onePps_short

theorem onePulse_listed : Listed onePulse := by intro t; simp [onePulse, noPulses, onePps]

/-- The device 0 under `onePulse`, ready to be used. -/
def pulse0 : World :=
  match begun onePulse two [.devPps, .devPtp, .max] 0 false with
  | .ok (w, _) => w
  | .error _ => bare0

theorem pulse0_reach : Reach onePulse two [.devPps, .devPtp, .max] pulse0 :=
  .start (idx := 0) (tick := 0) false (by decide) (by rfl) (by rfl)

/-- A comparison and what it gave. -/
def compared (env : Env) (w : World) (d : Ts) : World × Nat × Ts :=
  match compare env w d with
  | .ok r => r
  | .error _ => (w, 1000, d)

theorem compared_eq {env : Env} {w : World} {d : Ts} (h : (compared env w d).2.1 ≠ 1000) :
    compare env w d = .ok (compared env w d) := by
  unfold compared at *
  split
  · assumption
  · rename_i f hf; rw [hf] at h; simp at h

/-- C169 fails: the pulse that was pending when the clock was stepped, before
any comparison used it, is used after the step. -/
theorem C169_violated : ¬ C169_statement := by
  intro h
  have hc : compare onePulse (recordStep pulse0) ⟨0, 0, 0⟩ = .ok (compared onePulse (recordStep pulse0) ⟨0, 0, 0⟩) :=
    compared_eq (by decide +kernel)
  have h0 : (compared onePulse (recordStep pulse0) ⟨0, 0, 0⟩).2.1 = 0 := by decide +kernel
  have hm : (compared onePulse (recordStep pulse0) ⟨0, 0, 0⟩).1.phc.method = .pps := by decide +kernel
  have hp : (compared onePulse (recordStep pulse0) ⟨0, 0, 0⟩).1.phc.ppsPrev = (1002, 250) := by decide +kernel
  generalize compared onePulse (recordStep pulse0) ⟨0, 0, 0⟩ = r at *
  obtain ⟨w', rc, d'⟩ := r
  simp only at *
  subst h0
  exact h onePulse two _ pulse0 w' _ d' (1002, 250) onePulse_errnos onePulse_short onePulse_listed two_good pulse0_reach
    hc hm rfl hp

/-- What holds of C169: the last result is not given out again, the pulse used
is not the one used last, and the clocks are read after it was fetched. -/
theorem C169_after_step_partial (env : Env) (ms : List Method) (pms : List PpsMethod) (w w' : World) (d d' : Ts)
    (he : Errnos env) (hs : ShortNames env) (hl : Listed env) (hg : GoodTable ms) (h : Reach env ms pms w)
    (hst : w.phc.stepped = true) (hc : compare env w d = .ok (w', 0, d')) (hm : w'.phc.method = .pps)
    (hf : ∀ t e, (env.real t = .error e ∨ env.device t = .error e) → e ≠ 0 ∧ e ≠ 11)
    (hz : ∀ t x, (env.real t = .ok x ∨ env.device t = .ok x) → x.frac = 0)
    (hpr : ∀ t p, env.fetch t = .ok p → 0 ≤ p.2 ∧ p.2 < 1000000000) :
    ∃ t p l approx, w.tick ≤ t ∧ env.fetch t = .ok p ∧ p ≠ w.phc.ppsPrev ∧ w'.phc.ppsPrev = p ∧
      Readings env (t + 1) 4 l ∧ Best l approx ∧ |ns d' - ns approx| < 1000000000 ∧
      (∃ k : Int, ns d' = k * 1000000000 - p.2) ∧ w'.phc.stepped = false := by
  obtain ⟨hi, _⟩ := reach_inv env ms pms he hs hl hg _ h
  rcases cmp_success he (compare_cmp hi hc) rfl hm with ⟨_, h2, _⟩ | @⟨t, p, x, v, v', b1, b2, b3, b4, b5, b6, b7, b8⟩
  · rw [hst] at h2; cases h2
  · obtain ⟨l, r1, r2, r3, r4, _⟩ := (C162_read_time env v v' 4 0 ⟨0, 0, 0⟩ x hf hz b5).1 rfl
    simp only at b6 b7 b8
    rw [b4] at r1
    have hp := hpr t p b2
    obtain ⟨q1, q2, _⟩ := C164_pps_diff_partial x p.2 r4 hp.1 hp.2
    refine ⟨t, p, l, x, b1, b2, b3, b7, r1, r3, by rw [b6]; exact q2, by rw [b6]; exact q1, b8⟩

-- the device used the pulse, is stepped, and a new comparison with the same pulse gives no result
example : (compared onePulse pulse0 ⟨0, 0, 0⟩).2.1 = 0 ∧
    (compared onePulse (recordStep (compared onePulse pulse0 ⟨0, 0, 0⟩).1) ⟨0, 0, 0⟩).2.1 = 11 := by decide +kernel

-- the hypotheses are met, with a stepped device
example : Reach onePulse two [.devPps, .devPtp, .max] (recordStep pulse0) ∧ (recordStep pulse0).phc.stepped = true ∧
    (compared onePulse (recordStep pulse0) ⟨0, 0, 0⟩).2.1 = 0 ∧
    (compared onePulse (recordStep pulse0) ⟨0, 0, 0⟩).1.phc.method = .pps :=
  ⟨.step .step pulse0_reach rfl, rfl, by decide +kernel, by decide +kernel⟩

/-! ## C170: results given out again -/

/-- C170. A successful comparison by pulses rests on a pulse that was used, now
or before. -/
def C170_statement : Prop :=
  ∀ (env : Env) (ms : List Method) (pms : List PpsMethod) (w w' : World) (d d' : Ts),
    Errnos env → ShortNames env → Listed env → GoodTable ms → Reach env ms pms w →
    compare env w d = .ok (w', 0, d') → w'.phc.method = .pps → w'.phc.ppsPrev ≠ (0, 0)

/-- A pulse is there, but the readings of the clocks do not advance. -/
def stuck : Env :=
  { onePulse with
    mono := fun t => ⟨10, t * 1000, 0⟩
    real := fun _ => .ok ⟨1000, 0, 0⟩ }

theorem stuck_errnos : Errnos stuck := by
  constructor <;> intros <;> simp_all [stuck, onePulse, noPulses, onePps, bare] <;> omega

/-- The device 0 under `stuck`, ready to be used, and after one comparison. -/
def stuck0 : World :=
  match begun stuck two [.devPps, .devPtp, .max] 0 false with
  | .ok (w, _) => w
  | .error _ => bare0

def stuck1 : World := (compared stuck stuck0 ⟨0, 0, 0⟩).1

theorem stuck1_reach : Reach stuck two [.devPps, .devPtp, .max] stuck1 := by
  refine .step (.compare ⟨0, 0, 0⟩) (.start (idx := 0) (tick := 0) (w := stuck0) false (by decide) (by rfl) (by rfl)) ?_
  simp only [step, stuck1]
  rw [compared_eq (by decide +kernel)]
  rfl

/-- C170 fails: where the first pulse arrives and reading the clocks fails, the
next comparison within 0.9 s succeeds with the difference zero, which was never
measured (`src/sfptpd_phc.c:573-577, 621-632`). -/
theorem C170_violated : ¬ C170_statement := by
  intro h
  have hc : compare stuck stuck1 ⟨5, 0, 0⟩ = .ok (compared stuck stuck1 ⟨5, 0, 0⟩) := compared_eq (by decide +kernel)
  have h0 : (compared stuck stuck1 ⟨5, 0, 0⟩).2.1 = 0 := by decide +kernel
  have hm : (compared stuck stuck1 ⟨5, 0, 0⟩).1.phc.method = .pps := by decide +kernel
  have hp : (compared stuck stuck1 ⟨5, 0, 0⟩).1.phc.ppsPrev = (0, 0) := by decide +kernel
  generalize compared stuck stuck1 ⟨5, 0, 0⟩ = r at *
  obtain ⟨w', rc, d'⟩ := r
  simp only at *
  subst h0
  exact h stuck two _ stuck1 w' _ d' stuck_errnos onePps_short (by intro t; simp [stuck, onePulse, noPulses, onePps])
    two_good stuck1_reach hc hm hp

example : (compared stuck stuck1 ⟨5, 0, 0⟩).2 = (0, ⟨0, 0, 0⟩) := by decide +kernel

theorem Later.trans {env : Env} {a b c : World} (h : Later env a b) (h' : Later env b c) : Later env a c := by
  induction h' with
  | refl => exact h
  | step op _ hs ih => exact .step op ih hs

theorem cmp_diffPrev {env : Env} {d : Ts} {w : World} {r : World × Nat × Ts} (he : Errnos env) (h : Cmp env d w r) :
    r.1.phc.diffPrev = w.phc.diffPrev ∨ (r.2.1 = 0 ∧ r.2.2 = r.1.phc.diffPrev) := by
  induction h with
  | @plain w v t x d' rc hv hm _ hx =>
    have hsame := reselect_same env w
    rw [hv] at hsame
    rcases hx with hx | hx
    · left; rw [hx]; exact hsame.2.2.2.2.1
    · right; exact hx
  | @early w v hv _ _ => left; have hsame := reselect_same env w; rw [hv] at hsame; exact hsame.2.2.2.2.1
  | @failed w v e hv _ _ _ => left; have hsame := reselect_same env w; rw [hv] at hsame; exact hsame.2.2.2.2.1
  | @same w v hv _ _ _ _ => left; have hsame := reselect_same env w; rw [hv] at hsame; exact hsame.2.2.2.2.1
  | @pulse w v p hv _ _ _ _ =>
    have hsame := reselect_same env w
    rw [hv] at hsame
    rcases newPulse_cases env he v.next.next (env.mono v.tick) p d with ⟨t, rc, _, hrc, h⟩ | ⟨t, x, _, hr, h⟩
    · left; rw [h]; exact hsame.2.2.2.2.1
    · right; rw [h]; exact ⟨rfl, rfl⟩
  | @giveUp w v t j hv _ _ _ _ =>
    left
    have hsame := reselect_same env w
    rw [hv] at hsame
    simp only [noPulse_diffPrev]
    exact hsame.2.2.2.2.1
  | @other w v t j m r hv _ _ _ _ _ _ ih =>
    have hsame := reselect_same env w
    rw [hv] at hsame
    rcases ih with ih | ih
    · left
      rw [ih]
      simp only [noPulse_diffPrev]
      exact hsame.2.2.2.2.1
    · right; exact ih

/-- The difference a device remembers is zero or was returned before. -/
theorem diffPrev_returned (env : Env) (ms : List Method) (pms : List PpsMethod) (he : Errnos env) (hs : ShortNames env)
    (hl : Listed env) (hg : GoodTable ms) (w : World) (h : Reach env ms pms w) :
    w.phc.diffPrev = ⟨0, 0, 0⟩ ∨ ∃ w0 w1 d0, Reach env ms pms w0 ∧
      compare env w0 d0 = .ok (w1, 0, w.phc.diffPrev) ∧ Later env w1 w := by
  induction h with
  | start efx hi h hstart =>
    rename_i idx tick rc rc' log w0 w
    left
    rcases openPhc_spec env ms pms idx tick he hs with ⟨e, h'⟩ | ⟨e, fd, h'⟩ | ⟨w1, h', hf, hidx, _⟩
    · rw [h'] at h; cases h
    · rw [h'] at h; cases h
    · rw [h'] at h
      cases h
      have hw0 : (if efx = true then defineEfx w0 else w0).phc.idx = idx := by
        cases efx
        · exact hidx
        · exact hidx
      obtain ⟨w2, rc2, g1, g2⟩ := start_spec env ms pms _ he hs hl hg.stop (by rw [hw0]; exact hi) (hf.efx efx)
      rw [g1] at hstart
      cases hstart
      exact g2.diffPrev.trans (hf.efx efx).diffPrev
  | step op hreach hstep ih =>
    rename_i w w'
    obtain ⟨hi, ho⟩ := reach_inv env ms pms he hs hl hg _ hreach
    have keepIt : w'.phc.diffPrev = w.phc.diffPrev → w'.phc.diffPrev = ⟨0, 0, 0⟩ ∨ ∃ w0 w1 d0, Reach env ms pms w0 ∧
        compare env w0 d0 = .ok (w1, 0, w'.phc.diffPrev) ∧ Later env w1 w' := by
      intro heq
      rw [heq]
      rcases ih with ih | ⟨w0, w1, d0, e1, e2, e3⟩
      · exact Or.inl ih
      · exact Or.inr ⟨w0, w1, d0, e1, e2, .step op e3 hstep⟩
    by_cases hc : ∃ d, op = .compare d
    · obtain ⟨d, hd⟩ := hc
      subst hd
      obtain ⟨w1, rc, d', h1, _⟩ := compare_ok env ms w d hi
      have hw : w1 = w' := by
        simp only [step, h1] at hstep
        cases hstep
        rfl
      subst hw
      rcases cmp_diffPrev he (compare_cmp hi h1) with hx | ⟨hx, hx'⟩
      · exact keepIt hx
      · simp only at hx hx'
        subst hx
        right
        exact ⟨w, w1, d, hreach, by rw [h1, hx'], .refl⟩
    · exact keepIt (step_other (env := env) (w' := w') ho (fun d hd => hc ⟨d, hd⟩) hstep).2.2.2.2.1

/-- What holds of C170: a successful comparison by pulses rests on a pulse
fetched in it, or gives again a difference returned before and not outdated by a
step, or gives zero. -/
theorem C170_repeated_partial (env : Env) (ms : List Method) (pms : List PpsMethod) (w w' : World) (d d' : Ts)
    (he : Errnos env) (hs : ShortNames env) (hl : Listed env) (hg : GoodTable ms) (h : Reach env ms pms w)
    (hc : compare env w d = .ok (w', 0, d')) (hm : w'.phc.method = .pps) :
    (∃ t p, w.tick ≤ t ∧ env.fetch t = .ok p ∧ p ≠ w.phc.ppsPrev ∧ w'.phc.ppsPrev = p ∧
      ∃ k : Int, ns d' = k * 1000000000 - p.2) ∨
    (w.phc.stepped = false ∧ w'.phc.ppsPrev = w.phc.ppsPrev ∧
      (d' = ⟨0, 0, 0⟩ ∨ ∃ w0 w1 d0, Reach env ms pms w0 ∧ compare env w0 d0 = .ok (w1, 0, d') ∧ Later env w1 w)) := by
  obtain ⟨hi, _⟩ := reach_inv env ms pms he hs hl hg _ h
  rcases cmp_success he (compare_cmp hi hc) rfl hm with ⟨h1, h2, h3, _⟩ | @⟨t, p, x, v, v', b1, b2, b3, b4, b5, b6, b7, b8⟩
  · right
    simp only at h1 h3
    rw [h1]
    exact ⟨h2, h3, diffPrev_returned env ms pms he hs hl hg w h⟩
  · left
    simp only at b6 b7
    exact ⟨t, p, b1, b2, b3, b7, by rw [b6]; exact ppsDiff_second x p.2⟩

example : (compared onePulse (compared onePulse pulse0 ⟨0, 0, 0⟩).1 ⟨0, 0, 0⟩).2 =
    (compared onePulse pulse0 ⟨0, 0, 0⟩).2 ∧ (compared onePulse pulse0 ⟨0, 0, 0⟩).2 = (0, ⟨6, 999999750, 0⟩) := by
  decide +kernel

end Verif.Phc
