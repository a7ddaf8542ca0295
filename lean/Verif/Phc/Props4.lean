import Verif.Phc.Moves3
import Verif.Phc.Props3

set_option linter.unusedSimpArgs false
set_option linter.unusedVariables false

/-!
# Properties of hardware clock devices: comparison by pulses over time
-/

namespace Verif.Phc

open Verif.Time (Ts val)

/-! ## C168: how often pulses are tried -/

/-- How often pulses may still be given up. -/
def pot (p : Phc) : Nat :=
  match p.synth with
  | .init => 2
  | .notReady => 1
  | .good => 1
  | _ => 0

theorem pot_le (p : Phc) : pot p ≤ 2 := by
  unfold pot
  split <;> omega

theorem pot_pos {p : Phc} (h1 : p.synth ≠ .bad) (h2 : p.synth ≠ .notTried) : 1 ≤ pot p := by
  unfold pot
  split
  · omega
  · omega
  · omega
  · rename_i a b c
    cases h : p.synth <;> simp_all

theorem reselect_same (env : Env) (w : World) :
    (reselect env w).phc.synth = w.phc.synth ∧ (w.phc.method = .pps → (reselect env w).phc.method = .pps) ∧
    (reselect env w).phc.ppsPrev = w.phc.ppsPrev ∧ (reselect env w).phc.stepped = w.phc.stepped ∧
    (reselect env w).phc.diffPrev = w.phc.diffPrev ∧ (reselect env w).phc.prevMono = w.phc.prevMono ∧
    w.tick ≤ (reselect env w).tick ∧ (w.phc.synth ≠ .notReady → reselect env w = w) := by
  rcases reselect_cases env w with ⟨h1, hn⟩ | ⟨h1, hn, _⟩ | ⟨i, hi, hs, _, h1⟩
  · rw [h1]; simp
  · rw [h1]; simp [World.next, hn]
  · rw [h1]; simp [World.next, World.set, hs]

theorem pot_eq {p q : Phc} (h : p.synth = q.synth) : pot p = pot q := by unfold pot; rw [h]

theorem cmp_pot {env : Env} {ms : List Method} {d : Ts} (he : Errnos env) {w : World} {r : World × Nat × Ts}
    (h : Cmp env d w r) : Inv ms w →
    pot r.1.phc + (if w.phc.method = .pps ∧ r.1.phc.method ≠ .pps then 1 else 0) ≤ pot w.phc := by
  induction h with
  | @plain w v t x d' rc hv hm ht hx =>
    intro hi
    obtain ⟨h1, h2, _⟩ := reselect_same env w
    rw [hv] at h1 h2
    have : ¬ (w.phc.method = .pps) := fun hc => hm (h2 hc)
    simp only [this, false_and, if_false]
    have : pot ({ v.phc with diffPrev := x }) = pot w.phc := pot_eq h1
    simp only at this
    omega
  | @early w v hv hm hl =>
    intro hi
    have h1 := (reselect_same env w).1
    rw [hv] at h1
    have : (again v.next).1.phc = v.phc := rfl
    rw [this]
    simp only [hm, ne_eq, not_true_eq_false, and_false, if_false]
    rw [pot_eq h1]
    omega
  | @failed w v e hv hm hl hf =>
    intro hi
    have h1 := (reselect_same env w).1
    rw [hv] at h1
    have : v.next.next.phc = v.phc := rfl
    simp only [this, hm, ne_eq, not_true_eq_false, and_false, if_false]
    rw [pot_eq h1]
    omega
  | @same w v hv hm hl hf hz =>
    intro hi
    have h1 := (reselect_same env w).1
    rw [hv] at h1
    have : (again v.next.next).1.phc = v.phc := rfl
    rw [this]
    simp only [hm, ne_eq, not_true_eq_false, and_false, if_false]
    rw [pot_eq h1]
    omega
  | @pulse w v p hv hm hl hf hp =>
    intro hi
    have h1 := (reselect_same env w).1
    have hi' := (reselect_inv env ms w hi).1
    rw [hv] at h1 hi'
    obtain ⟨_, _, _, hnb, hnt⟩ := hi'.pps hm
    have hpos := pot_pos hnb hnt
    rw [pot_eq h1] at hpos
    rcases newPulse_cases env he v.next.next (env.mono v.tick) p d with ⟨t, rc, _, _, h⟩ | ⟨t, x, _, _, h⟩
    · rw [h]
      simp only [World.next, hm, ne_eq, not_true_eq_false, and_false, if_false]
      exact hpos
    · rw [h]
      simp only [World.next, pulseUsed, hm, ne_eq, not_true_eq_false, and_false, if_false]
      exact hpos
  | @giveUp w v t j hv hm hf hz ht =>
    intro hi
    have h1 := (reselect_same env w).1
    have hi' := (reselect_inv env ms w hi).1
    rw [hv] at h1 hi'
    obtain ⟨_, _, _, hnb, hnt⟩ := hi'.pps hm
    have hsy := noPulse_synth v.phc (env.mono v.tick)
    rw [← pot_eq h1]
    simp only
    by_cases hin : v.phc.synth = .init
    · rw [if_pos hin] at hsy
      have e1 : pot v.phc = 2 := by unfold pot; rw [hin]
      have e2 : pot { (noPulse v.phc (env.mono v.tick)) with method := .max, index := j } = 1 := by
        unfold pot; simp only [hsy]
      simp only at e2
      rw [e1, e2]
      split <;> omega
    · rw [if_neg hin] at hsy
      have e1 := pot_pos hnb hnt
      have e2 : pot { (noPulse v.phc (env.mono v.tick)) with method := .max, index := j } = 0 := by
        unfold pot; simp only [hsy]
      simp only at e2
      rw [e2]
      split <;> omega
  | @other w v t j m r hv hm hf hz ht hne hr ih =>
    intro hi
    have h1 := (reselect_same env w).1
    have hi' := (reselect_inv env ms w hi).1
    rw [hv] at h1 hi'
    obtain ⟨_, _, _, hnb, hnt⟩ := hi'.pps hm
    have ih := ih (gone_inv hi' hm hne)
    have hsy := noPulse_synth v.phc (env.mono v.tick)
    have key : pot { (noPulse v.phc (env.mono v.tick)) with method := m, index := j } + 1 ≤ pot v.phc := by
      by_cases hin : v.phc.synth = .init
      · rw [if_pos hin] at hsy
        have e1 : pot v.phc = 2 := by unfold pot; rw [hin]
        have e2 : pot { (noPulse v.phc (env.mono v.tick)) with method := m, index := j } = 1 := by
          unfold pot; simp only [hsy]
        omega
      · rw [if_neg hin] at hsy
        have e1 := pot_pos hnb hnt
        have e2 : pot { (noPulse v.phc (env.mono v.tick)) with method := m, index := j } = 0 := by
          unfold pot; simp only [hsy]
        omega
    simp only at ih key
    rw [← pot_eq h1]
    have : pot r.1.phc ≤ pot { (noPulse v.phc (env.mono v.tick)) with method := m, index := j } := by
      simp only; omega
    simp only at this
    split <;> omega

/-- The operations other than a comparison change neither the method nor the
state of the pulses. -/
theorem step_other {env : Env} {ms : List Method} {pms : List PpsMethod} {w w' : World} {op : Op}
    (ho : Open ms pms w) (hc : ∀ d, op ≠ .compare d) (h : step env w op = .ok w') :
    w'.phc.method = w.phc.method ∧ w'.phc.synth = w.phc.synth ∧ w'.phc.ppsPrev = w.phc.ppsPrev ∧
    w'.phc.prevMono = w.phc.prevMono ∧ w'.phc.diffPrev = w.phc.diffPrev ∧ w.tick ≤ w'.tick := by
  cases op with
  | compare d => exact absurd rfl (hc d)
  | step => cases h; exact ⟨rfl, rfl, rfl, rfl, rfl, Nat.le_refl _⟩
  | enable on =>
    simp only [step, Except.ok.injEq] at h
    subst h
    unfold enablePps
    split
    · unfold enableDevPtp
      split
      · simp
      · cases on
        · simp only [Bool.false_eq_true, if_false]
          split <;> simp [World.next]
        · simp only [if_true]
          split <;> simp [World.next] <;> omega
    · rename_i hm
      unfold enableDevPps
      split
      · rcases openDev_cases env w with ⟨_, h⟩ | ⟨hn, _⟩ | ⟨hn, _⟩
        · rw [h]; simp
        · exact absurd hn (ho.dev hm)
        · exact absurd hn (ho.dev hm)
      · simp
    · simp
  | event =>
    simp only [step] at h
    split at h
    · rename_i hm
      rcases devPpsEvent_cases env w with ⟨hn, _⟩ | ⟨f, hf, ⟨e, _, h'⟩ | ⟨_, h'⟩ | ⟨ev, _, _, h'⟩⟩
      · exact absurd hn (ho.dev hm)
      all_goals
        rw [h'] at h
        cases h
        simp [World.next, World.set]
    · cases h
      simp [World.next]

theorem step_pot {env : Env} {ms : List Method} {pms : List PpsMethod} {w w' : World} {op : Op} (he : Errnos env)
    (hi : Inv ms w) (ho : Open ms pms w) (h : step env w op = .ok w') :
    pot w'.phc + (if w.phc.method = .pps ∧ w'.phc.method ≠ .pps then 1 else 0) ≤ pot w.phc := by
  by_cases hc : ∃ d, op = .compare d
  · obtain ⟨d, hd⟩ := hc
    subst hd
    simp only [step] at h
    obtain ⟨w1, rc, d', h1, _⟩ := compare_ok env ms w d hi
    rw [h1] at h
    cases h
    exact cmp_pot he (compare_cmp hi h1) hi
  · have := step_other (env := env) (w' := w') ho (fun d hd => hc ⟨d, hd⟩) h
    rw [pot_eq this.2.1, this.1]
    simp

/-- C168, first part. Whatever happens, a device gives up the comparison by
pulses at most twice. -/
theorem C168_two_chances (env : Env) (ms : List Method) (pms : List PpsMethod) (he : Errnos env) (hs : ShortNames env)
    (hl : Listed env) (hg : GoodTable ms) (w : World) (l : List World) (h : Reach env ms pms w) (hr : Run env w l) :
    leaves w.phc.method (l.map fun w => w.phc.method) ≤ 2 := by
  suffices hx : ∀ (w : World) (l : List World), Run env w l → Reach env ms pms w →
      leaves w.phc.method (l.map fun w => w.phc.method) ≤ pot w.phc from
    Nat.le_trans (hx w l hr h) (pot_le _)
  intro w l hr
  induction hr with
  | nil => intro _; simp [leaves]
  | cons op hstep hr ih =>
    intro hreach
    obtain ⟨hi, ho⟩ := reach_inv env ms pms he hs hl hg _ hreach
    have := step_pot he hi ho hstep
    have := ih (.step op hreach hstep)
    simp only [List.map_cons, leaves]
    omega

/-- The device is not using pulses, and may do so again 2.2 s after `T` at the earliest. -/
def Wait (T : Ts) (w : World) : Prop :=
  w.phc.synth = .bad ∨ (w.phc.synth = .notReady ∧ w.phc.method ≠ .pps ∧ w.phc.prevMono = T)

theorem cmp_bad {env : Env} {ms : List Method} {d : Ts} {w : World} {r : World × Nat × Ts} (h : Cmp env d w r) (hi : Inv ms w)
    (hb : w.phc.synth = .bad) : r.1.phc.synth = .bad ∧ r.1.phc.method ≠ .pps := by
  have hnp : w.phc.method ≠ .pps := fun hc => (hi.pps hc).2.2.2.1 hb
  have hres := (reselect_same env w).2.2.2.2.2.2.2 (by rw [hb]; decide)
  cases h with
  | @plain _ v t x d' rc hv hm ht hx => rw [hres] at hv; subst hv; exact ⟨hb, hnp⟩
  | early hv hm _ => rw [hres] at hv; subst hv; exact absurd hm hnp
  | failed hv hm _ _ => rw [hres] at hv; subst hv; exact absurd hm hnp
  | same hv hm _ _ _ => rw [hres] at hv; subst hv; exact absurd hm hnp
  | pulse hv hm _ _ _ => rw [hres] at hv; subst hv; exact absurd hm hnp
  | giveUp hv hm _ _ _ => rw [hres] at hv; subst hv; exact absurd hm hnp
  | other hv hm _ _ _ _ _ => rw [hres] at hv; subst hv; exact absurd hm hnp

theorem gone_bad {env : Env} {ms : List Method} {v : World} {t : Nat} {j : Int} {m : Method} (hn : v.phc.synth ≠ .init) :
    ({ v with tick := t, phc := { (noPulse v.phc (env.mono v.tick)) with method := m, index := j } } : World).phc.synth
      = .bad := by
  simp only [noPulse_synth, if_neg hn]

theorem pulse_method (env : Env) (he : Errnos env) (w : World) (now : Ts) (p : Int × Int) (d : Ts) :
    (newPulse env w now p d).1.phc.method = w.phc.method := by
  rcases newPulse_cases env he w now p d with ⟨t, rc, _, _, h⟩ | ⟨t, x, _, _, h⟩
  · rw [h]
  · rw [h]; rfl

/-- A device that waits goes on waiting unless it uses pulses again. -/
theorem cmp_wait {env : Env} {ms : List Method} {d T : Ts} {w : World} {r : World × Nat × Ts} (he : Errnos env)
    (h : Cmp env d w r) (hi : Inv ms w) (hw : Wait T w) (hr : r.1.phc.method ≠ .pps) : Wait T r.1 := by
  rcases hw with hb | ⟨hn, hm0, hT⟩
  · exact Or.inl (cmp_bad h hi hb).1
  · have hsame := reselect_same env w
    have hi' := (reselect_inv env ms w hi).1
    cases h with
    | @plain _ v t x d' rc hv hm ht hx =>
      rw [hv] at hsame
      right
      exact ⟨hsame.1.trans hn, hm, hsame.2.2.2.2.2.1.trans hT⟩
    | early hv hm _ => exact absurd hm hr
    | failed hv hm _ _ => exact absurd hm hr
    | same hv hm _ _ _ => exact absurd hm hr
    | @pulse _ v p hv hm _ _ _ =>
      exact absurd ((pulse_method env he v.next.next (env.mono v.tick) p d).trans hm) hr
    | @giveUp _ v t j hv hm _ _ _ =>
      rw [hv] at hsame
      left
      exact gone_bad (ms := ms) (by rw [hsame.1, hn]; decide)
    | @other _ v t j m r hv hm _ _ _ hne hcmp =>
      rw [hv] at hsame hi'
      left
      exact (cmp_bad hcmp (gone_inv hi' hm hne) (gone_bad (ms := ms) (by rw [hsame.1, hn]; decide))).1

/-- Giving up pulses starts the wait. -/
theorem cmp_leave {env : Env} {ms : List Method} {d : Ts} {w : World} {r : World × Nat × Ts} (he : Errnos env)
    (h : Cmp env d w r) (hi : Inv ms w) (hm0 : w.phc.method = .pps) (hr : r.1.phc.method ≠ .pps) :
    Wait (env.mono w.tick) r.1 := by
  have hsame := reselect_same env w
  have hi' := (reselect_inv env ms w hi).1
  cases h with
  | @plain _ v t x d' rc hv hm ht hx => rw [hv] at hsame; exact absurd (hsame.2.1 hm0) hm
  | early hv hm _ => exact absurd hm hr
  | failed hv hm _ _ => exact absurd hm hr
  | same hv hm _ _ _ => exact absurd hm hr
  | @pulse _ v p hv hm _ _ _ =>
      exact absurd ((pulse_method env he v.next.next (env.mono v.tick) p d).trans hm) hr
  | @giveUp _ v t j hv hm _ _ _ =>
    by_cases hin : w.phc.synth = .init
    · have hvw := hsame.2.2.2.2.2.2.2 (by rw [hin]; decide)
      rw [hvw] at hv
      subst hv
      right
      refine ⟨by simp only [noPulse_synth, if_pos hin], by simp, ?_⟩
      simp only [noPulse, if_pos hin]
    · rw [hv] at hsame
      left
      exact gone_bad (ms := ms) (by rw [hsame.1]; exact hin)
  | @other _ v t j m r hv hm _ _ _ hne hcmp =>
    by_cases hin : w.phc.synth = .init
    · have hvw := hsame.2.2.2.2.2.2.2 (by rw [hin]; decide)
      rw [hvw] at hv
      subst hv
      refine cmp_wait he hcmp (gone_inv hi hm hne) (Or.inr ⟨?_, hne, ?_⟩) hr
      · simp only [noPulse_synth, if_pos hin]
      · simp only [noPulse, if_pos hin]
    · rw [hv] at hsame hi'
      left
      exact (cmp_bad hcmp (gone_inv hi' hm hne) (gone_bad (ms := ms) (by rw [hsame.1]; exact hin))).1

theorem cmp_tick {env : Env} {d : Ts} {w : World} {r : World × Nat × Ts} (he : Errnos env)
    (h : Cmp env d w r) : (reselect env w).tick ≤ r.1.tick := by
  induction h with
  | plain hv hm ht hx => rw [hv]; exact ht
  | early hv hm _ => rw [hv]; exact Nat.le_succ _
  | @failed w v e hv hm _ _ => rw [hv]; show v.tick ≤ v.tick + 1 + 1; omega
  | @same w v hv hm _ _ _ => rw [hv]; show v.tick ≤ v.tick + 1 + 1; omega
  | @pulse w v p hv hm _ _ _ =>
    rw [hv]
    rcases newPulse_cases env he v.next.next (env.mono v.tick) p d with ⟨t, rc, ht, _, h⟩ | ⟨t, x, ht, _, h⟩
    · rw [h]; simp only [World.next] at ht ⊢; omega
    · rw [h]; simp only [World.next] at ht ⊢; omega
  | giveUp hv hm _ _ ht => rw [hv]; simp only; omega
  | @other w v t j m r hv hm _ _ ht hne hcmp ih =>
    rw [hv]
    have := (reselect_same env
      { v with tick := t, phc := { (noPulse v.phc (env.mono v.tick)) with method := m, index := j } }).2.2.2.2.2.2.1
    exact Nat.le_trans (Nat.le_trans (by omega : v.tick ≤ t) this) ih

theorem retry_long : 2200000000 * 4294967296 ≤ val retryTime := by decide

/-- Within the time a device that waits does not use pulses. -/
theorem cmp_within {env : Env} {ms : List Method} {d T : Ts} {w : World} {r : World × Nat × Ts} (he : Errnos env)
    (h : Cmp env d w r) (hi : Inv ms w) (hw : Wait T w)
    (ht : ∀ t, w.tick ≤ t → t < r.1.tick → val (env.mono t) < val T + 2200000000 * 4294967296) :
    r.1.phc.method ≠ .pps := by
  rcases hw with hb | ⟨hn, hm0, hT⟩
  · exact (cmp_bad h hi hb).2
  · have hres : reselect env w = w.next := by
      rcases reselect_cases env w with ⟨_, h'⟩ | ⟨h1, _⟩ | ⟨i, hi, hs, hle, h1⟩
      · exact absurd hn h'
      · exact h1
      · have h3 := cmp_tick he h
        rw [h1] at h3
        have h4 := ht w.tick (Nat.le_refl _) h3
        have := retry_long
        rw [hT] at hle
        omega
    have hnp : ∀ v, reselect env w = v → v.phc.method ≠ .pps := by
      intro v hv
      rw [← hv, hres]
      exact hm0
    cases h with
    | plain hv hm _ _ => exact hm
    | early hv hm _ => exact absurd hm (hnp _ hv)
    | failed hv hm _ _ => exact absurd hm (hnp _ hv)
    | same hv hm _ _ _ => exact absurd hm (hnp _ hv)
    | pulse hv hm _ _ _ => exact absurd hm (hnp _ hv)
    | giveUp hv hm _ _ _ => exact absurd hm (hnp _ hv)
    | other hv hm _ _ _ _ _ => exact absurd hm (hnp _ hv)

theorem step_wait {env : Env} {ms : List Method} {pms : List PpsMethod} {w w' : World} {op : Op} {T : Ts} (he : Errnos env)
    (hi : Inv ms w) (ho : Open ms pms w) (hw : Wait T w) (h : step env w op = .ok w')
    (ht : ∀ t, w.tick ≤ t → t < w'.tick → val (env.mono t) < val T + 2200000000 * 4294967296) :
    w'.phc.method ≠ .pps ∧ Wait T w' ∧ w.tick ≤ w'.tick := by
  by_cases hc : ∃ d, op = .compare d
  · obtain ⟨d, hd⟩ := hc
    subst hd
    simp only [step] at h
    obtain ⟨w1, rc, d', h1, _, hk, _⟩ := compare_ok env ms w d hi
    rw [h1] at h
    cases h
    have hcmp := compare_cmp hi h1
    have := cmp_within he hcmp hi hw ht
    exact ⟨this, cmp_wait he hcmp hi hw this, hk.tick⟩
  · obtain ⟨e1, e2, _, e4, _, e6⟩ := step_other (env := env) (w' := w') ho (fun d hd => hc ⟨d, hd⟩) h
    have hnp : w.phc.method ≠ .pps := by
      rcases hw with hb | ⟨_, hm, _⟩
      · exact fun hc => (hi.pps hc).2.2.2.1 hb
      · exact hm
    refine ⟨by rw [e1]; exact hnp, ?_, e6⟩
    rcases hw with hb | ⟨hn, hm, hT⟩
    · exact Or.inl (e2.trans hb)
    · exact Or.inr ⟨e2.trans hn, by rw [e1]; exact hm, e4.trans hT⟩

theorem step_tick {env : Env} {ms : List Method} {pms : List PpsMethod} {w w' : World} {op : Op}
    (hi : Inv ms w) (ho : Open ms pms w) (h : step env w op = .ok w') : w.tick ≤ w'.tick := by
  by_cases hc : ∃ d, op = .compare d
  · obtain ⟨d, hd⟩ := hc
    subst hd
    simp only [step] at h
    obtain ⟨w1, rc, d', h1, _, hk, _⟩ := compare_ok env ms w d hi
    rw [h1] at h
    cases h
    exact hk.tick
  · exact (step_other (env := env) (w' := w') ho (fun d hd => hc ⟨d, hd⟩) h).2.2.2.2.2

theorem run_tick {env : Env} {ms : List Method} {pms : List PpsMethod} (he : Errnos env) (hs : ShortNames env)
    (hl : Listed env) (hg : GoodTable ms) {w : World} {l : List World} (hr : Run env w l) :
    Reach env ms pms w → ∀ w' ∈ l, w.tick ≤ w'.tick := by
  induction hr with
  | nil => intro _ w' hc; cases hc
  | @cons u u' l op hstep hrun ih =>
    intro hu w' hmem
    obtain ⟨hiu, hou⟩ := reach_inv env ms pms he hs hl hg _ hu
    have htick := step_tick hiu hou hstep
    rcases List.mem_cons.mp hmem with rfl | hmem
    · exact htick
    · have := ih (.step op hu hstep) w' hmem
      omega

/-- C168, second part. A comparison that gives up pulses at the time `T` is
followed by 2.2 s in which pulses are not used. -/
theorem C168_retry_time (env : Env) (ms : List Method) (pms : List PpsMethod) (he : Errnos env) (hs : ShortNames env)
    (hl : Listed env) (hg : GoodTable ms) (w w1 : World) (l : List World) (d : Ts) (h : Reach env ms pms w)
    (h1 : step env w (.compare d) = .ok w1) (hm : w.phc.method = .pps) (hm1 : w1.phc.method ≠ .pps) (hr : Run env w1 l)
    (w' : World) (hw' : w' ∈ l)
    (ht : ∀ t, w1.tick ≤ t → t < w'.tick → val (env.mono t) < val (env.mono w.tick) + 2200000000 * 4294967296) :
    w'.phc.method ≠ .pps := by
  obtain ⟨hi, ho⟩ := reach_inv env ms pms he hs hl hg _ h
  have hwait : Wait (env.mono w.tick) w1 := by
    have h1' := h1
    simp only [step] at h1'
    obtain ⟨w2, rc, d', h2, _⟩ := compare_ok env ms w d hi
    rw [h2] at h1'
    cases h1'
    exact cmp_leave he (compare_cmp hi h2) hi hm hm1
  have hreach : Reach env ms pms w1 := .step _ h h1
  -- along the run
  suffices hx : ∀ (u : World) (l : List World), Run env u l → Reach env ms pms u → Wait (env.mono w.tick) u →
      w1.tick ≤ u.tick → w' ∈ l → u.tick ≤ w'.tick ∧ w'.phc.method ≠ .pps from
    (hx w1 l hr hreach hwait (Nat.le_refl _) hw').2
  clear hw' hr
  intro u l hr
  induction hr with
  | nil => intro _ _ _ hc; cases hc
  | @cons u u' l op hstep hrun ih =>
    intro hu hwu htu hmem
    obtain ⟨hiu, hou⟩ := reach_inv env ms pms he hs hl hg _ hu
    have htick : u.tick ≤ u'.tick := step_tick hiu hou hstep
    rcases List.mem_cons.mp hmem with rfl | hmem
    · have := step_wait he hiu hou hwu hstep (fun t ht1 ht2 => ht t (by omega) ht2)
      exact ⟨this.2.2, this.1⟩
    · have hafter : u'.tick ≤ w'.tick := run_tick he hs hl hg hrun (.step op hu hstep) w' hmem
      have := step_wait he hiu hou hwu hstep (fun t ht1 ht2 => ht t (by omega) (by omega))
      have ih := ih (.step op hu hstep) this.2.1 (by omega) hmem
      exact ⟨by omega, ih.2⟩

/-- Two clocks that can be read; no pulse ever arrives. Ten calls take a second. -/
def noPulses : Env :=
  { onePps with
    mono := fun t => ⟨10 + t / 10, t % 10 * 100000000, 0⟩
    real := fun t => .ok ⟨1000, t * 10, 0⟩
    device := fun t => .ok ⟨1007, t * 10, 0⟩
    fetch := fun _ => .ok (0, 0) }

theorem noPulses_errnos : Errnos noPulses := by
  constructor <;> intros <;> simp_all [noPulses, onePps, bare] <;> omega

theorem noPulses_short : ShortNames noPulses := onePps_short

theorem noPulses_listed : Listed noPulses := by intro t; simp [noPulses, onePps]

/-- The devices after each of `n` comparisons. -/
def comparisons (env : Env) : Nat → World → List World
  | 0, _ => []
  | n + 1, w =>
    match step env w (.compare ⟨0, 0, 0⟩) with
    | .ok w' => w' :: comparisons env n w'
    | .error _ => []

theorem comparisons_run (env : Env) : ∀ (n : Nat) (w : World), Run env w (comparisons env n w) := by
  intro n
  induction n with
  | zero => intro w; exact .nil
  | succ n ih =>
    intro w
    simp only [comparisons]
    split
    · exact .cons _ ‹_› (ih _)
    · exact .nil

/-- The device 0 under `noPulses`, ready to be used. -/
def quiet0 : World :=
  match begun noPulses two [.devPps, .devPtp, .max] 0 false with
  | .ok (w, _) => w
  | .error _ => bare0

theorem quiet0_reach : Reach noPulses two [.devPps, .devPtp, .max] quiet0 :=
  .start (idx := 0) (tick := 0) false (by decide) (by rfl) (by rfl)

-- given up, tried again after some comparisons, given up for good
example : Reach noPulses two [.devPps, .devPtp, .max] quiet0 ∧ Run noPulses quiet0 (comparisons noPulses 6 quiet0) ∧
    quiet0.phc.method = .pps ∧
    (comparisons noPulses 6 quiet0).map (fun w => (w.phc.method, w.phc.synth)) =
      [(.readTime, .notReady), (.readTime, .notReady), (.readTime, .bad), (.readTime, .bad), (.readTime, .bad),
        (.readTime, .bad)] :=
  ⟨quiet0_reach, comparisons_run _ _ _, by decide +kernel, by decide +kernel⟩

theorem cmp_prev {env : Env} {d : Ts} {w : World} {r : World × Nat × Ts} (he : Errnos env) (h : Cmp env d w r) :
    r.1.phc.method ≠ .pps →
    r.1.phc.ppsPrev = w.phc.ppsPrev ∧ (w.phc.method = .pps → w.phc.ppsPrev = (0, 0)) := by
  induction h with
  | @plain w v t x d' rc hv hm ht hx =>
    intro _
    have hsame := reselect_same env w
    rw [hv] at hsame
    exact ⟨hsame.2.2.1, fun hc => absurd (hsame.2.1 hc) hm⟩
  | early hv hm _ => intro hr; exact absurd hm hr
  | failed hv hm _ _ => intro hr; exact absurd hm hr
  | same hv hm _ _ _ => intro hr; exact absurd hm hr
  | @pulse w v p hv hm _ _ _ =>
    intro hr
    exact absurd ((pulse_method env he v.next.next (env.mono v.tick) p d).trans hm) hr
  | @giveUp w v t j hv hm _ hz _ =>
    intro _
    have hsame := reselect_same env w
    rw [hv] at hsame
    exact ⟨(noPulse_ppsPrev _ _).trans hsame.2.2.1, fun _ => hsame.2.2.1 ▸ hz⟩
  | @other w v t j m r hv hm _ hz _ hne hcmp ih =>
    intro hr
    have hsame := reselect_same env w
    rw [hv] at hsame
    refine ⟨((ih hr).1.trans (noPulse_ppsPrev _ _)).trans hsame.2.2.1, fun _ => hsame.2.2.1 ▸ hz⟩

theorem ppsDiff_second (x : Ts) (n : Int) : ∃ k : Int, ns (ppsDiff x n) = k * 1000000000 - n := by
  unfold ppsDiff ns
  simp only
  generalize (if 1000000000 - n ≥ 500000000 then (if x.nsec ≥ 500000000 then x.sec + 1 else x.sec) - 1
    else (if x.nsec ≥ 500000000 then x.sec + 1 else x.sec)) = s
  refine ⟨s + 1, ?_⟩
  push_cast
  ring

/-- A comparison in which pulses get their second chance. -/
theorem cmp_second {env : Env} {d : Ts} {w1 : World} {r : World × Nat × Ts} {p : Int × Int} (i : Nat) (he : Errnos env)
    (h : Cmp env d w1 r) (hres : reselect env w1 = w1.next.set fun p => { p with index := i, method := .pps })
    (hprev : w1.phc.ppsPrev = (0, 0))
    (ht : val w1.phc.prevMono + 2200000001 * 4294967296 ≤ val (env.mono (w1.tick + 1)))
    (hf : env.fetch (w1.tick + 2) = .ok p) (hp : p ≠ (0, 0)) :
    r.1.phc.method = .pps ∧ (r.2.1 = 0 → r.1.phc.ppsPrev = p ∧ ∃ k : Int, ns r.2.2 = k * 1000000000 - p.2) := by
  cases h with
  | @plain _ v t x d' rc hv hm' _ _ => rw [hres] at hv; subst hv; exact absurd rfl hm'
  | @early _ v hv _ hlt =>
    rw [hres] at hv
    subst hv
    simp only [World.set, World.next] at hlt
    omega
  | @failed _ v e hv _ _ hfe =>
    rw [hres] at hv
    subst hv
    simp only [World.set, World.next] at hfe
    rw [hf] at hfe
    cases hfe
  | @same _ v hv _ _ hfe hz =>
    rw [hres] at hv
    subst hv
    exact absurd hprev hz
  | @giveUp _ v t j hv _ hfe _ _ =>
    rw [hres] at hv
    subst hv
    simp only [World.set, World.next] at hfe
    rw [hf] at hfe
    cases hfe
    exact absurd rfl hp
  | @other _ v t j m r hv _ hfe _ _ _ _ =>
    rw [hres] at hv
    subst hv
    simp only [World.set, World.next] at hfe
    rw [hf] at hfe
    cases hfe
    exact absurd rfl hp
  | @pulse _ v q hv hmv _ hfe hq =>
    rw [hres] at hv
    have hft : env.fetch (v.tick + 1) = .ok p := by rw [← hv]; exact hf
    rw [hft] at hfe
    cases hfe
    rcases newPulse_cases env he v.next.next (env.mono v.tick) p d with ⟨t, rc, _, hrc, h⟩ | ⟨t, x, _, _, h⟩
    · rw [h]
      exact ⟨hmv, fun hc => absurd hc hrc⟩
    · rw [h]
      exact ⟨hmv, fun _ => ⟨rfl, ppsDiff_second x p.2⟩⟩

/-- C168, third part. Unless pulses have been given up for good, the first
comparison after that time tries them again: a pulse that has arrived is used. -/
theorem C168_second_chance (env : Env) (ms : List Method) (pms : List PpsMethod) (he : Errnos env) (hs : ShortNames env)
    (hl : Listed env) (hg : GoodTable ms) (w0 w1 w' : World) (d d' d1 : Ts) (rc : Nat) (p : Int × Int)
    (h : Reach env ms pms w0) (h1 : step env w0 (.compare d1) = .ok w1) (hm : w0.phc.method = .pps)
    (hm1 : w1.phc.method ≠ .pps) (hns : w1.phc.synth ≠ .bad) (hc : compare env w1 d = .ok (w', rc, d'))
    (ht : val (env.mono w0.tick) + 2200000001 * 4294967296 ≤ val (env.mono w1.tick))
    (ht' : val (env.mono w1.tick) ≤ val (env.mono (w1.tick + 1)))
    (hf : env.fetch (w1.tick + 2) = .ok p) (hp : p ≠ (0, 0)) :
    w'.phc.method = .pps ∧ (rc = 0 → w'.phc.ppsPrev = p ∧ ∃ k : Int, ns d' = k * 1000000000 - p.2) := by
  obtain ⟨hi, ho⟩ := reach_inv env ms pms he hs hl hg _ h
  obtain ⟨w2, rc2, d2, h2, hi1, _⟩ := compare_ok env ms w0 d1 hi
  have hw : w2 = w1 := by
    simp only [step, h2] at h1
    cases h1
    rfl
  subst hw
  have hcmp := compare_cmp hi h2
  have hprev : w2.phc.ppsPrev = (0, 0) := (cmp_prev he hcmp hm1).1.trans ((cmp_prev he hcmp hm1).2 hm)
  rcases cmp_leave he hcmp hi hm hm1 with hb | ⟨hn, _, hT⟩
  · exact absurd hb hns
  · simp only at hn hT
    have hrl : val retryTime ≤ 2200000001 * 4294967296 := by decide
    have hres : ∃ i : Nat, reselect env w2 = w2.next.set fun p => { p with index := i, method := .pps } := by
      rcases reselect_cases env w2 with ⟨_, h'⟩ | ⟨_, _, h' | h'⟩ | ⟨i, _, _, _, h'⟩
      · exact absurd hn h'
      · rw [hT] at h'; omega
      · obtain ⟨⟨pre, rest, _, _, e3⟩, _⟩ := hi1.notReady hn
        rw [hi1.methods, e3] at h'
        cases h'
      · exact ⟨i, h'⟩
    obtain ⟨i, hres⟩ := hres
    exact cmp_second i he (compare_cmp hi1 hc) hres hprev (by rw [hT]; omega) hf hp

/-- As `noPulses`, but a pulse has arrived by the time of the 30th call. -/
def latePulse : Env := { noPulses with fetch := fun t => if t < 30 then .ok (0, 0) else .ok (1002, 250) }

-- pulses are used once they arrive, if they arrive in time for the second chance
example : ok (begun latePulse two [.devPps, .devPtp, .max] 0 false) (fun r =>
    (comparisons latePulse 4 r.1).map (fun w => (w.phc.method, w.tick)) =
      [(.readTime, 21), (.readTime, 34), (.pps, 49), (.pps, 51)]) = true := by decide +kernel

end Verif.Phc
