import Verif.Slave.Support

/-!
# What the events that do not matter leave alone, and the timers
-/

set_option linter.unusedSimpArgs false
set_option linter.unusedVariables false

namespace Verif.Slave

open Verif.Time

theorem run_append {c : Cfg} {s s' : State} {es es' : List Event} {tr : List Entry}
    (h : run c s (es ++ es') = some (s', tr)) :
    ∃ m t1 t2, run c s es = some (m, t1) ∧ run c m es' = some (s', t2) ∧ tr = t1 ++ t2 := by
  induction es generalizing s tr with
  | nil => exact ⟨s, [], tr, rfl, h, rfl⟩
  | cons e es ih =>
    simp only [List.cons_append, run, Option.bind_eq_bind] at h
    cases hs : step c s e with
    | none => simp [hs] at h
    | some p =>
      simp only [hs, Option.bind_some] at h
      cases hr : run c p.1 (es ++ es') with
      | none => simp [hr] at h
      | some q =>
        simp only [hr, Option.bind_some, Option.some.injEq, Prod.mk.injEq] at h
        obtain ⟨rfl, rfl⟩ := h
        obtain ⟨m, t1, t2, a1, a2, a3⟩ := ih hr
        refine ⟨m, ⟨s, e, p.2⟩ :: t1, t2, ?_, a2, by simp [a3]⟩
        simp [run, hs, a1]

theorem run_one {c : Cfg} {s s' : State} {e : Event} {tr : List Entry}
    (h : run c s [e] = some (s', tr)) :
    ∃ o, step c s e = some (s', o) ∧ tr = [⟨s, e, o⟩] := by
  simp only [run, Option.bind_eq_bind] at h
  cases hs : step c s e with
  | none => simp [hs] at h
  | some p =>
    simp only [hs, Option.bind_some, Option.some.injEq, Prod.mk.injEq] at h
    obtain ⟨rfl, rfl⟩ := h
    exact ⟨p.2, rfl, rfl⟩

theorem run_cons {c : Cfg} {s s' : State} {e : Event} {es : List Event} {tr : List Entry}
    (h : run c s (e :: es) = some (s', tr)) :
    ∃ m o t, step c s e = some (m, o) ∧ run c m es = some (s', t) ∧ tr = ⟨s, e, o⟩ :: t := by
  obtain ⟨m, t1, t2, h1, h2, h3⟩ := run_append (es := [e]) (es' := es) h
  obtain ⟨o, h4, h5⟩ := run_one h1
  exact ⟨m, o, t2, h4, h2, by rw [h3, h5]; rfl⟩

/-- The role of a port. -/
def role (s : State) : PState × PortId × Mech × Utc := (s.port, s.parent, s.mech, s.utc)

theorem step_notForUs {c : Cfg} {s s' : State} {e : Event} {o : List Out} (he : NotForUs c e)
    (hs : step c s e = some (s', o)) :
    dPart s' = dPart s ∧ role s' = role s ∧ (SyncLike e → s'.tmpReq = s.tmpReq) := by
  cases e with
  | sync h len w t =>
    simp only [step] at hs
    by_cases h1 : h.src = c.self
    · rw [if_pos h1] at hs
      simp only [Option.some.injEq, Prod.mk.injEq] at hs
      obtain ⟨rfl, rfl⟩ := hs
      exact ⟨rfl, rfl, fun _ => rfl⟩
    rw [if_neg h1] at hs
    have key : ∀ u, handleSync { s with tmpTime := w } h len w u = some (s', o) →
        dPart s' = dPart s ∧ role s' = role s ∧ (SyncLike (.sync h len w t) → s'.tmpReq = s.tmpReq) := by
      intro u hu
      obtain ⟨a1, a2, a3, a4, a5, -⟩ := handleSync_result hu
      simp only [Prod.mk.injEq] at a5
      exact ⟨a1, by simp only [role] at *; simp [a2, a3, a4, a5.1], fun _ => a5.2⟩
    cases t with
    | none => exact key _ hs
    | some raw =>
      simp only [Option.bind_eq_bind] at hs
      cases hr : rxTime c s raw with
      | none => simp [hr] at hs
      | some t =>
        simp only [hr, Option.bind_some] at hs
        exact key _ hs
  | followUp h len w =>
    simp only [step] at hs
    by_cases h1 : h.src = c.self
    · rw [if_pos h1] at hs
      simp only [Option.some.injEq, Prod.mk.injEq] at hs
      obtain ⟨rfl, rfl⟩ := hs
      exact ⟨rfl, rfl, fun _ => rfl⟩
    rw [if_neg h1] at hs
    obtain ⟨-, -, a1, a2, a3, a4, a5, -⟩ := handleFollowUp_result hs
    simp only [Prod.mk.injEq] at a5
    exact ⟨a1, by simp only [role] at *; simp [a2, a3, a4, a5.1], fun _ => a5.2⟩
  | otherMsg w r =>
    simp only [step, Option.some.injEq, Prod.mk.injEq] at hs
    obtain ⟨rfl, rfl⟩ := hs
    exact ⟨rfl, rfl, fun h => h.elim⟩
  | delayResp h len w r =>
    have hr : r ≠ c.self := he
    simp only [step] at hs
    by_cases h1 : h.src = c.self
    · rw [if_pos h1] at hs
      simp only [Option.some.injEq, Prod.mk.injEq] at hs
      obtain ⟨rfl, rfl⟩ := hs
      exact ⟨rfl, rfl, fun h => h.elim⟩
    rw [if_neg h1] at hs
    obtain ⟨-, a2, a3, a4, a5, -, a7, a8, a9, a10, a11⟩ := handleDelayResp_result hs
    simp only at a2 a3 a4 a5 a7 a8 a9 a10 a11
    refine ⟨?_, by simp [role, a2, a3, a4, a5], fun h => h.elim⟩
    rcases a11 with ⟨-, b2, b3, -⟩ | ⟨-, -, -, -, -, -, -, b, -⟩ | ⟨-, -, -, -, -, b, -⟩
    · simp [dPart, a7, a8, a9, a10, b2, b3]
    · exact absurd b hr
    · exact absurd b hr
  | txTime | reqExpired | respExpired | syncExpired | bmc | goto | setMech | setUtc | reinit =>
    exact he.elim

theorem run_notForUs {c : Cfg} {es : List Event} {s s' : State} {tr : List Entry}
    (he : ∀ e ∈ es, NotForUs c e) (h : run c s es = some (s', tr)) :
    dPart s' = dPart s ∧ role s' = role s ∧
      ((∀ e ∈ es, SyncLike e) → s'.tmpReq = s.tmpReq) := by
  induction es generalizing s tr with
  | nil =>
    simp only [run, Option.some.injEq, Prod.mk.injEq] at h
    obtain ⟨rfl, rfl⟩ := h
    exact ⟨rfl, rfl, fun _ => rfl⟩
  | cons e es ih =>
    obtain ⟨m, o, t, h1, h2, -⟩ := run_cons h
    obtain ⟨a1, a2, a3⟩ := step_notForUs (he e (by simp)) h1
    obtain ⟨b1, b2, b3⟩ := ih (fun x hx => he x (by simp [hx])) h2
    exact ⟨b1.trans a1, b2.trans a2, fun hn => (b3 fun x hx => hn x (by simp [hx])).trans
      (a3 (hn e (by simp)))⟩

theorem syncLike_notForUs {c : Cfg} {e : Event} (h : SyncLike e) : NotForUs c e := by
  cases e <;> trivial

theorem step_unrelated {c : Cfg} {s s' : State} {e : Event} {o : List Out}
    (he : Unrelated s.parent e) (hs : step c s e = some (s', o)) :
    sPart s' = sPart s ∧ s'.port = s.port ∧ s'.parent = s.parent := by
  cases e with
  | sync h len w t =>
    have hne : h.src ≠ s.parent := he
    simp only [step] at hs
    by_cases h1 : h.src = c.self
    · rw [if_pos h1] at hs
      simp only [Option.some.injEq, Prod.mk.injEq] at hs
      obtain ⟨rfl, rfl⟩ := hs
      exact ⟨rfl, rfl, rfl⟩
    rw [if_neg h1] at hs
    have key : ∀ u, handleSync { s with tmpTime := w } h len w u = some (s', o) →
        sPart s' = sPart s ∧ s'.port = s.port ∧ s'.parent = s.parent := by
      intro u hu
      obtain ⟨a1, a2, a3, a4, a5, a6, a7⟩ := handleSync_result hu
      refine ⟨?_, a3, a4⟩
      rcases a7 with ⟨-, b, -⟩ | ⟨_, _, -, -, -, b, -⟩
      · exact b
      · exact absurd b hne
    cases t with
    | none => exact key _ hs
    | some raw =>
      simp only [Option.bind_eq_bind] at hs
      cases hr : rxTime c s raw with
      | none => simp [hr] at hs
      | some t =>
        simp only [hr, Option.bind_some] at hs
        exact key _ hs
  | followUp h len w =>
    have hne : h.src ≠ s.parent := he
    simp only [step] at hs
    by_cases h1 : h.src = c.self
    · rw [if_pos h1] at hs
      simp only [Option.some.injEq, Prod.mk.injEq] at hs
      obtain ⟨rfl, rfl⟩ := hs
      exact ⟨rfl, rfl, rfl⟩
    rw [if_neg h1] at hs
    unfold handleFollowUp at hs
    have h4 : ¬ isParent { s with tmpTime := w } h = true := by
      simpa [isParent] using hne
    by_cases c1 : len < 44
    · rw [if_pos c1] at hs
      simp only [Option.some.injEq, Prod.mk.injEq] at hs
      obtain ⟨rfl, rfl⟩ := hs
      exact ⟨rfl, rfl, rfl⟩
    rw [if_neg c1] at hs
    dsimp only at hs
    by_cases c2 : idle s.port ∨ s.port = .master ∨ s.port = .passive
    · rw [if_pos c2] at hs
      simp only [Option.some.injEq, Prod.mk.injEq] at hs
      obtain ⟨rfl, rfl⟩ := hs
      exact ⟨rfl, rfl, rfl⟩
    rw [if_neg c2] at hs
    by_cases c3 : s.port = .uncalibrated ∨ s.port = .slave
    · rw [if_pos c3, if_pos h4] at hs
      simp only [Option.some.injEq, Prod.mk.injEq] at hs
      obtain ⟨rfl, rfl⟩ := hs
      exact ⟨rfl, rfl, rfl⟩
    · rw [if_neg c3] at hs
      simp only [Option.some.injEq, Prod.mk.injEq] at hs
      obtain ⟨rfl, rfl⟩ := hs
      exact ⟨rfl, rfl, rfl⟩
  | otherMsg w r =>
    simp only [step, Option.some.injEq, Prod.mk.injEq] at hs
    obtain ⟨rfl, rfl⟩ := hs
    exact ⟨rfl, rfl, rfl⟩
  | delayResp h len w r =>
    simp only [step] at hs
    by_cases h1 : h.src = c.self
    · rw [if_pos h1] at hs
      simp only [Option.some.injEq, Prod.mk.injEq] at hs
      obtain ⟨rfl, rfl⟩ := hs
      exact ⟨rfl, rfl, rfl⟩
    rw [if_neg h1] at hs
    obtain ⟨a1, a2, a3, a4, -⟩ := handleDelayResp_result hs
    exact ⟨a1, a3, a4⟩
  | txTime loop seq tk t =>
    simp only [step] at hs
    by_cases h1 : s.ticket = some tk ∧ seq = s.sentSeq
    · rw [if_pos h1] at hs
      simp only [Option.bind_eq_bind] at hs
      cases hf : fromSelf c s (applyUtc c s (if loop = true then applyUtc c s t else t)) with
      | none => simp [hf] at hs
      | some p =>
        simp only [hf, Option.bind_some, Option.some.injEq, Prod.mk.injEq] at hs
        obtain ⟨rfl, rfl⟩ := hs
        obtain ⟨a1, a2, a3, a4, -⟩ := fromSelf_result hf
        exact ⟨a1, a3, a4⟩
    · rw [if_neg h1] at hs
      simp only [Option.some.injEq, Prod.mk.injEq] at hs
      obtain ⟨rfl, rfl⟩ := hs
      exact ⟨rfl, rfl, rfl⟩
  | reqExpired | respExpired | syncExpired | bmc | goto | setMech | setUtc | reinit =>
    exact he.elim

theorem run_unrelated {c : Cfg} {es : List Event} {s s' : State} {tr : List Entry}
    (he : ∀ e ∈ es, Unrelated s.parent e) (h : run c s es = some (s', tr)) :
    sPart s' = sPart s ∧ s'.port = s.port ∧ s'.parent = s.parent := by
  induction es generalizing s tr with
  | nil =>
    simp only [run, Option.some.injEq, Prod.mk.injEq] at h
    obtain ⟨rfl, rfl⟩ := h
    exact ⟨rfl, rfl, rfl⟩
  | cons e es ih =>
    obtain ⟨m, o, t, h1, h2, -⟩ := run_cons h
    obtain ⟨a1, a2, a3⟩ := step_unrelated (he e (by simp)) h1
    obtain ⟨b1, b2, b3⟩ := ih (fun x hx => by rw [a3]; exact he x (by simp [hx])) h2
    exact ⟨b1.trans a1, b2.trans a2, b3.trans a3⟩

/-! ## Exact effects -/

theorem dPart_eq {s s' : State} (h : dPart s' = dPart s) :
    s'.sentSeq = s.sentSeq ∧ s'.txPending = s.txPending ∧ s'.rxPending = s.rxPending ∧
    s'.ticket = s.ticket ∧ s'.dSend = s.dSend ∧ s'.stash = s.stash := by
  simpa only [dPart, Prod.mk.injEq] using h

theorem role_eq {s s' : State} (h : role s' = role s) :
    s'.port = s.port ∧ s'.parent = s.parent ∧ s'.mech = s.mech ∧ s'.utc = s.utc := by
  simpa only [role, Prod.mk.injEq] using h

/-- A response that can be used gives a measurement. -/
theorem delayResp_used {c : Cfg} {s : State} {h : Hdr} {len : Nat} {w : Wire} {d : Bool}
    {r : State × List Out} (hl : 54 ≤ len) (hm : s.mech = .e2e) (hp : s.port = .slave)
    (hreq : s.tmpReq = c.self) (hsrc : h.src = s.parent) (hseq : h.seq = s.sentSeq)
    (hd : d = true ∨ (s.rxPending = true ∧ s.txPending = false))
    (hr : handleDelayResp c s h len w d = some r) : ∃ corr, r.2 = [.s2m s.dSend (toInternalTime w) corr] := by
  unfold handleDelayResp at hr
  rw [if_neg (by omega), if_neg (by simp [hm]), if_neg (by simp [idle, hp]), if_pos hp,
    if_pos ⟨hreq.symm, by simp [isParent, hsrc]⟩,
    if_neg (by rcases hd with h | h <;> simp [h]), if_neg (by rcases hd with h | h <;> simp [h]),
    if_neg (by simp [hseq])] at hr
  cases hc : fromNs16 h.corr with
  | none => simp [hc] at hr
  | some corr =>
    simp only [hc, Option.bind_eq_bind, Option.bind_some, Option.some.injEq] at hr
    subst hr
    exact ⟨corr, rfl⟩

/-- A response that comes before the timestamp is kept. -/
theorem delayResp_kept {c : Cfg} {s : State} {h : Hdr} {len : Nat} {w : Wire}
    {r : State × List Out} (hl : 54 ≤ len) (hz : len - 34 ≤ c.stashSize) (hm : s.mech = .e2e)
    (hp : s.port = .slave) (hreq : s.tmpReq = c.self) (hsrc : h.src = s.parent)
    (hrx : s.rxPending = true) (htx : s.txPending = true)
    (hr : handleDelayResp c s h len w false = some r) :
    r.1.stash = some (h, len - 34, s.tmpTime) ∧ r.1.rxPending = false ∧ r.1.tmpReq = s.tmpReq := by
  unfold handleDelayResp at hr
  rw [if_neg (by omega), if_neg (by simp [hm]), if_neg (by simp [idle, hp]), if_pos hp,
    if_pos ⟨hreq.symm, by simp [isParent, hsrc]⟩, if_pos (by simp [hrx, htx])] at hr
  simp only [Option.some.injEq] at hr
  subst hr
  unfold stashMessage
  cases hst : s.stash <;> simp [hst, Nat.not_lt.mpr hz]

/-! ## The timers -/

/-- A slave asks when it has got a Sync, and not before. -/
def TimersOk (s : State) : Prop :=
  s.port = .slave →
    (s.firstSync = true → s.reqTimer = false ∧ s.respTimer = false ∧ s.txPending = false ∧
      s.rxPending = false) ∧
    (s.firstSync = false → s.respTimer = !s.reqTimer)

theorem timersOk_toState (s : State) (p : PState)
    (hp : p ≠ .uninitialized ∧ p ≠ .preMaster) : TimersOk (toState s p) := by
  intro hs
  simp [toState, hp] at hs
  simp [toState, hs]

theorem timersOk_of {s s' : State} (hp : s'.port = s.port) (h1 : s'.firstSync = s.firstSync)
    (h2 : s'.reqTimer = s.reqTimer) (h3 : s'.respTimer = s.respTimer)
    (h4 : s'.txPending = true → s.txPending = true) (h5 : s'.rxPending = true → s.rxPending = true)
    (h : TimersOk s) : TimersOk s' := by
  intro hs
  obtain ⟨a, b⟩ := h (hp ▸ hs)
  rw [h1, h2, h3]
  refine ⟨fun hf => ?_, b⟩
  obtain ⟨a1, a2, a3, a4⟩ := a hf
  refine ⟨a1, a2, ?_, ?_⟩
  · cases ht : s'.txPending with
    | false => rfl
    | true => rw [h4 ht] at a3; cases a3
  · cases ht : s'.rxPending with
    | false => rfl
    | true => rw [h5 ht] at a4; cases a4

/-- The events of a port whose delay mechanism stays end-to-end. -/
def KeepsE2e : Event → Prop
  | .setMech m => m = .e2e
  | .goto p => p ≠ .uninitialized ∧ p ≠ .preMaster
  | .bmc _ p => p ≠ .uninitialized ∧ p ≠ .preMaster
  | _ => True

theorem timers_step {c : Cfg} {s s' : State} {e : Event} {o : List Out} (hk : KeepsE2e e)
    (hm : s.mech = .e2e) (hi : TimersOk s) (hs : step c s e = some (s', o)) :
    s'.mech = .e2e ∧ TimersOk s' := by
  cases e with
  | sync h len w t =>
    simp only [step] at hs
    by_cases h1 : h.src = c.self
    · rw [if_pos h1] at hs
      simp only [Option.some.injEq, Prod.mk.injEq] at hs
      obtain ⟨rfl, rfl⟩ := hs
      exact ⟨hm, hi⟩
    rw [if_neg h1] at hs
    have key : ∀ u, handleSync { s with tmpTime := w } h len w u = some (s', o) →
        s'.mech = .e2e ∧ TimersOk s' := by
      intro u hu
      obtain ⟨a1, a2, a3, a4, a5, a6, a7⟩ := handleSync_result hu
      obtain ⟨d1, d2, d3, d4, d5, d6⟩ := dPart_eq a1
      simp only [Prod.mk.injEq] at a5
      refine ⟨a5.1.trans hm, ?_⟩
      rcases a7 with ⟨-, -, b1, b2, -⟩ | ⟨_, _, -, -, -, -, -, -, -, -, b1, b2, -⟩
      · exact timersOk_of a3 b2 b1 a6 (fun h => d2 ▸ h) (fun h => d3 ▸ h) hi
      · simp only [hm, decide_true, Bool.and_true] at b2
        intro hsl
        simp only at a3 a6 b1 b2
        rw [b1, b2, a6]
        refine ⟨fun h => by (cases h), fun _ => ?_⟩
        obtain ⟨i1, i2⟩ := hi (a3 ▸ hsl)
        cases hf : s.firstSync with
        | true => obtain ⟨j1, j2, -⟩ := i1 hf; simp [j1, j2]
        | false => simp [i2 hf]
    cases t with
    | none => exact key _ hs
    | some raw =>
      simp only [Option.bind_eq_bind] at hs
      cases hr : rxTime c s raw with
      | none => simp [hr] at hs
      | some t =>
        simp only [hr, Option.bind_some] at hs
        exact key _ hs
  | followUp h len w =>
    simp only [step] at hs
    by_cases h1 : h.src = c.self
    · rw [if_pos h1] at hs
      simp only [Option.some.injEq, Prod.mk.injEq] at hs
      obtain ⟨rfl, rfl⟩ := hs
      exact ⟨hm, hi⟩
    rw [if_neg h1] at hs
    obtain ⟨-, -, a1, a2, a3, a4, a5, a6, a7, a8, -⟩ := handleFollowUp_result hs
    obtain ⟨d1, d2, d3, d4, d5, d6⟩ := dPart_eq a1
    simp only [Prod.mk.injEq] at a5
    exact ⟨a5.1.trans hm, timersOk_of a3 a8 a6 a7 (fun h => d2 ▸ h) (fun h => d3 ▸ h) hi⟩
  | otherMsg w r =>
    simp only [step, Option.some.injEq, Prod.mk.injEq] at hs
    obtain ⟨rfl, rfl⟩ := hs
    exact ⟨hm, hi⟩
  | delayResp h len w r =>
    simp only [step] at hs
    by_cases h1 : h.src = c.self
    · rw [if_pos h1] at hs
      simp only [Option.some.injEq, Prod.mk.injEq] at hs
      obtain ⟨rfl, rfl⟩ := hs
      exact ⟨hm, hi⟩
    rw [if_neg h1] at hs
    obtain ⟨a1, a2, a3, a4, a5, a6, a7, a8, a9, a10, a11⟩ := handleDelayResp_result hs
    simp only at a2 a3 a4 a5 a6 a7 a8 a9 a10 a11
    refine ⟨a5.trans hm, ?_⟩
    rcases a11 with ⟨-, b2, b3, b4, b5⟩ | ⟨-, -, -, -, b1, b2, b3, -⟩ |
      ⟨b1, b2, b3, b4, b5, b6, b7, b8, b9, b10, -⟩
    · exact timersOk_of a3 a6 b4 b5 (fun h => a8 ▸ h) (fun h => b2 ▸ h) hi
    · exact timersOk_of a3 a6 b2 b3 (fun h => a8 ▸ h) (fun h => by rw [b1] at h; cases h) hi
    · have hrx := (b10 trivial).1
      intro _
      rw [b3, b4, a6]
      refine ⟨fun hf => ?_, fun _ => rfl⟩
      obtain ⟨-, -, -, j⟩ := (hi b7).1 hf
      rw [j] at hrx
      cases hrx
  | txTime loop seq tk t =>
    simp only [step] at hs
    by_cases h1 : s.ticket = some tk ∧ seq = s.sentSeq
    · rw [if_pos h1] at hs
      simp only [Option.bind_eq_bind] at hs
      cases hf : fromSelf c s (applyUtc c s (if loop = true then applyUtc c s t else t)) with
      | none => simp [hf] at hs
      | some p =>
        simp only [hf, Option.bind_some, Option.some.injEq, Prod.mk.injEq] at hs
        obtain ⟨rfl, rfl⟩ := hs
        obtain ⟨a1, a2, a3, a4, a5, a6, a7, a8, a9, a10, a11⟩ := fromSelf_result hf
        refine ⟨a5.trans hm, ?_⟩
        rcases a11 with ⟨b1, b2, -, b3, b4⟩ |
          ⟨b1, b2, b3, b4, b5, b6, -⟩
        · exact timersOk_of a3 a6 b3 b4 (fun h => by rw [a8] at h; cases h) (fun h => b2 ▸ h) hi
        · intro hsl
          simp only at hsl
          simp only [b5, b6, a6]
          refine ⟨fun hf => ?_, by simp⟩
          obtain ⟨-, -, j, -⟩ := (hi (a3 ▸ hsl)).1 hf
          rw [j] at b1
          cases b1
    · rw [if_neg h1] at hs
      simp only [Option.some.injEq, Prod.mk.injEq] at hs
      obtain ⟨rfl, rfl⟩ := hs
      exact ⟨hm, hi⟩
  | reqExpired x =>
    simp only [step] at hs
    by_cases h1 : slaveLike s.port ∧ s.mech = .e2e ∧ s.reqTimer
    · rw [if_pos h1] at hs
      simp only [Option.some.injEq, Prod.mk.injEq] at hs
      obtain ⟨rfl, rfl⟩ := hs
      cases x with
      | noCaps => exact ⟨hm, timersOk_of (s := s) rfl rfl rfl rfl (by simp [issueDelayReq])
          (by simp [issueDelayReq]) hi⟩
      | failed =>
        refine ⟨hm, timersOk_toState _ _ ?_⟩
        split <;> decide
      | sent t =>
        refine ⟨hm, fun hsl => ?_⟩
        refine ⟨fun hf => ?_, fun _ => rfl⟩
        obtain ⟨j, -⟩ := (hi hsl).1 hf
        rw [j] at h1
        simp at h1
    · rw [if_neg h1] at hs
      simp only [Option.some.injEq, Prod.mk.injEq] at hs
      obtain ⟨rfl, rfl⟩ := hs
      exact ⟨hm, hi⟩
  | respExpired =>
    simp only [step] at hs
    by_cases h1 : slaveLike s.port ∧ s.respTimer
    · rw [if_pos h1] at hs
      simp only [Option.some.injEq, Prod.mk.injEq] at hs
      obtain ⟨rfl, rfl⟩ := hs
      refine ⟨hm, fun hsl => ⟨fun hf => ?_, fun _ => rfl⟩⟩
      obtain ⟨-, j, -⟩ := (hi hsl).1 hf
      rw [j] at h1
      simp at h1
    · rw [if_neg h1] at hs
      simp only [Option.some.injEq, Prod.mk.injEq] at hs
      obtain ⟨rfl, rfl⟩ := hs
      exact ⟨hm, hi⟩
  | syncExpired =>
    simp only [step] at hs
    split at hs <;> simp only [Option.some.injEq, Prod.mk.injEq] at hs <;>
      obtain ⟨rfl, rfl⟩ := hs <;> exact ⟨hm, hi⟩
  | bmc q p =>
    simp only [step] at hs
    split at hs
    · simp only [Option.some.injEq, Prod.mk.injEq] at hs
      obtain ⟨rfl, rfl⟩ := hs
      split
      · exact ⟨hm, timersOk_toState _ _ hk⟩
      · exact ⟨hm, hi⟩
    · simp only [Option.some.injEq, Prod.mk.injEq] at hs
      obtain ⟨rfl, rfl⟩ := hs
      exact ⟨hm, hi⟩
  | goto p =>
    simp only [step, Option.some.injEq, Prod.mk.injEq] at hs
    obtain ⟨rfl, rfl⟩ := hs
    exact ⟨hm, timersOk_toState _ _ hk⟩
  | setMech m =>
    simp only [step, Option.some.injEq, Prod.mk.injEq] at hs
    obtain ⟨rfl, rfl⟩ := hs
    exact ⟨hk, hi⟩
  | setUtc u =>
    simp only [step, Option.some.injEq, Prod.mk.injEq] at hs
    obtain ⟨rfl, rfl⟩ := hs
    exact ⟨hm, hi⟩
  | reinit =>
    simp only [step, Option.some.injEq, Prod.mk.injEq] at hs
    obtain ⟨rfl, rfl⟩ := hs
    exact ⟨hm, hi⟩

theorem timers_run {c : Cfg} {es : List Event} {s s' : State} {tr : List Entry}
    (hk : ∀ e ∈ es, KeepsE2e e) (hm : s.mech = .e2e) (hi : TimersOk s)
    (h : run c s es = some (s', tr)) : s'.mech = .e2e ∧ TimersOk s' := by
  induction es generalizing s tr with
  | nil =>
    simp only [run, Option.some.injEq, Prod.mk.injEq] at h
    obtain ⟨rfl, rfl⟩ := h
    exact ⟨hm, hi⟩
  | cons e es ih =>
    obtain ⟨m, o, t, h1, h2, -⟩ := run_cons h
    obtain ⟨a1, a2⟩ := timers_step (hk e (by simp)) hm hi h1
    exact ih (fun x hx => hk x (by simp [hx])) a1 a2 h2

end Verif.Slave
