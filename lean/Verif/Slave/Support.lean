import Verif.Slave.Spec
import Verif.Time.Props
import Mathlib.Tactic.SplitIfs

/-! Lemmas about the slave model. -/

set_option linter.unusedSimpArgs false
set_option linter.unusedVariables false

namespace Verif.Slave

open Verif.Time Verif.CInt

/-! ## Histories built at the end -/

/-- Histories, by their last event. -/
inductive Hist (c : Cfg) (s0 : State) : State → List Entry → Prop
  | nil : Hist c s0 s0 []
  | snoc {s s' tr e o} : Hist c s0 s tr → step c s e = some (s', o) →
      Hist c s0 s' (tr ++ [⟨s, e, o⟩])

theorem Hist.run_from {c : Cfg} {s0 : State} : ∀ (es : List Event) (s : State) (tr : List Entry)
    (s' : State) (tr' : List Entry), Hist c s0 s tr → run c s es = some (s', tr') →
    Hist c s0 s' (tr ++ tr')
  | [], s, tr, s', tr', hh, h => by
    simp only [run, Option.some.injEq, Prod.mk.injEq] at h
    obtain ⟨rfl, rfl⟩ := h
    simpa using hh
  | e :: es, s, tr, s', tr', hh, h => by
    simp only [run, Option.bind_eq_bind] at h
    cases hs : step c s e with
    | none => simp [hs] at h
    | some p =>
      obtain ⟨s1, o⟩ := p
      simp only [hs, Option.bind_some] at h
      cases hr : run c s1 es with
      | none => simp [hr] at h
      | some p =>
        obtain ⟨s2, t2⟩ := p
        simp only [hr, Option.bind_some, Option.some.injEq, Prod.mk.injEq] at h
        obtain ⟨rfl, rfl⟩ := h
        have := Hist.run_from es s1 _ s2 t2 (hh.snoc hs) hr
        simpa using this

theorem run_hist {c : Cfg} {s0 s : State} {es : List Event} {tr : List Entry}
    (h : run c s0 es = some (s, tr)) : Hist c s0 s tr := by
  simpa using Hist.run_from es s0 [] s tr .nil h

theorem Hist.split {c : Cfg} {s0 s : State} {tr : List Entry} (h : Hist c s0 s tr) :
    ∀ {pre : List Entry} {e : Entry} {post : List Entry}, tr = pre ++ e :: post →
      Hist c s0 e.before pre ∧ ∃ s', step c e.before e.ev = some (s', e.outs) := by
  induction h with
  | nil => intro pre e post h; simp at h
  | snoc hh hs ih =>
    rename_i s s' tr e o
    intro pre x post h
    rcases List.eq_nil_or_concat post with rfl | ⟨q, y, rfl⟩
    · have := List.append_inj' h rfl
      obtain ⟨rfl, h2⟩ := this
      simp only [List.cons.injEq, and_true] at h2
      subst h2
      exact ⟨hh, s', hs⟩
    · rw [List.concat_eq_append, ← List.cons_append, ← List.append_assoc] at h
      have := List.append_inj' h rfl
      exact ih this.1

theorem run_events {c : Cfg} {s0 s : State} {tr : List Entry} {es : List Event}
    (h : run c s0 es = some (s, tr)) : tr.map (·.ev) = es := by
  induction es generalizing s0 s tr with
  | nil => simp [run] at h; simp [h]
  | cons e es ih =>
    simp only [run, Option.bind_eq_bind] at h
    cases hs : step c s0 e with
    | none => simp [hs] at h
    | some p =>
      simp only [hs, Option.bind_some] at h
      cases hr : run c p.1 es with
      | none => simp [hr] at h
      | some p2 =>
        simp only [hr, Option.bind_some, Option.some.injEq, Prod.mk.injEq] at h
        obtain ⟨rfl, rfl⟩ := h
        simp [ih hr]

/-! ## The parts of the state -/

/-- What concerns the pairing of Sync and Follow_Up. -/
def sPart (s : State) : Bool × Nat × Ts × Hdr × Wire :=
  (s.waiting, s.recvSeq, s.recvTime, s.cacheHdr, s.cacheBody)

/-- What concerns the pairing of Delay_Req and Delay_Resp. -/
def dPart (s : State) : Nat × Bool × Bool × Option Ticket × Ts × Option (Hdr × Nat × Wire) :=
  (s.sentSeq, s.txPending, s.rxPending, s.ticket, s.dSend, s.stash)

/-- The cache of `s'` is empty, that of `s`, or the given one. -/
def CacheOk (s s' : State) (h : Hdr) (w : Wire) : Prop :=
  s'.cacheHdr.seq = 0 ∨ (s'.cacheHdr = s.cacheHdr ∧ s'.cacheBody = s.cacheBody) ∨
    (s'.cacheHdr = h ∧ s'.cacheBody = w)

/-- What `handleFollowUp` can do. -/
def FollowResult (s : State) (h : Hdr) (w : Wire) (r : State × List Out) : Prop :=
  r.1.recvSeq = s.recvSeq ∧ r.1.recvTime = s.recvTime ∧ dPart r.1 = dPart s ∧
  r.1.utc = s.utc ∧ r.1.port = s.port ∧ r.1.parent = s.parent ∧ (r.1.mech, r.1.tmpReq) = (s.mech, s.tmpReq) ∧
  r.1.reqTimer = s.reqTimer ∧ r.1.respTimer = s.respTimer ∧ r.1.firstSync = s.firstSync ∧
  CacheOk s r.1 h s.tmpTime ∧
  ((r.2 = [] ∧ r.1.waiting = s.waiting) ∨
   (s.waiting = true ∧ r.1.waiting = false ∧ h.seq = s.recvSeq ∧ h.src = s.parent ∧
    ∃ corr, fromNs16 h.corr = some corr ∧ r.2 = [.m2s (toInternalTime w) s.recvTime corr]))

theorem handleFollowUp_result {s : State} {h : Hdr} {len : Nat} {w : Wire} {d : Bool}
    {r : State × List Out} (hr : handleFollowUp s h len w d = some r) : FollowResult s h w r := by
  unfold handleFollowUp at hr
  by_cases h1 : len < 44
  · rw [if_pos h1] at hr
    simp only [Option.some.injEq] at hr
    subst hr
    exact ⟨rfl, rfl, rfl, rfl, rfl, rfl, rfl, rfl, rfl, rfl, .inr (.inl ⟨rfl, rfl⟩), .inl ⟨rfl, rfl⟩⟩
  rw [if_neg h1] at hr
  by_cases h2 : idle s.port ∨ s.port = .master ∨ s.port = .passive
  · rw [if_pos h2] at hr
    simp only [Option.some.injEq] at hr
    subst hr
    exact ⟨rfl, rfl, rfl, rfl, rfl, rfl, rfl, rfl, rfl, rfl, .inr (.inl ⟨rfl, rfl⟩), .inl ⟨rfl, rfl⟩⟩
  rw [if_neg h2] at hr
  by_cases h3 : s.port = .uncalibrated ∨ s.port = .slave
  · rw [if_pos h3] at hr
    by_cases h4 : ¬ isParent s h
    · rw [if_pos h4] at hr
      simp only [Option.some.injEq] at hr
      subst hr
      exact ⟨rfl, rfl, rfl, rfl, rfl, rfl, rfl, rfl, rfl, rfl, .inr (.inl ⟨rfl, rfl⟩),
        .inl ⟨rfl, rfl⟩⟩
    rw [if_neg h4] at hr
    have hp : h.src = s.parent := by simpa [isParent] using h4
    dsimp only at hr
    by_cases h5 : s.cacheHdr.seq ≠ 0 ∧ ¬ d = true
    · simp only [if_pos h5] at hr
      by_cases h6 : ¬ s.waiting = true
      · rw [if_pos h6] at hr
        simp only [Option.some.injEq] at hr
        subst hr
        exact ⟨rfl, rfl, rfl, rfl, rfl, rfl, rfl, rfl, rfl, rfl, .inr (.inr ⟨rfl, rfl⟩),
          .inl ⟨rfl, rfl⟩⟩
      rw [if_neg h6] at hr
      by_cases h7 : s.recvSeq ≠ h.seq
      · rw [if_pos h7] at hr
        simp only [Option.some.injEq] at hr
        subst hr
        exact ⟨rfl, rfl, rfl, rfl, rfl, rfl, rfl, rfl, rfl, rfl, .inl rfl, .inl ⟨rfl, rfl⟩⟩
      rw [if_neg h7] at hr
      cases hc : fromNs16 h.corr with
      | none => simp [hc] at hr
      | some corr =>
        simp only [hc, Option.bind_eq_bind, Option.bind_some, Option.some.injEq] at hr
        subst hr
        exact ⟨rfl, rfl, rfl, rfl, rfl, rfl, rfl, rfl, rfl, rfl, .inl rfl,
          .inr ⟨by simpa using h6, rfl, by simpa using Eq.symm (Decidable.not_not.mp h7), hp, corr, hc, rfl⟩⟩
    · simp only [if_neg h5] at hr
      by_cases h6 : ¬ s.waiting = true
      · rw [if_pos h6] at hr
        simp only [Option.some.injEq] at hr
        subst hr
        exact ⟨rfl, rfl, rfl, rfl, rfl, rfl, rfl, rfl, rfl, rfl, .inr (.inr ⟨rfl, rfl⟩),
          .inl ⟨rfl, rfl⟩⟩
      rw [if_neg h6] at hr
      by_cases h7 : s.recvSeq ≠ h.seq
      · rw [if_pos h7] at hr
        simp only [Option.some.injEq] at hr
        subst hr
        exact ⟨rfl, rfl, rfl, rfl, rfl, rfl, rfl, rfl, rfl, rfl, .inr (.inl ⟨rfl, rfl⟩),
          .inl ⟨rfl, rfl⟩⟩
      rw [if_neg h7] at hr
      cases hc : fromNs16 h.corr with
      | none => simp [hc] at hr
      | some corr =>
        simp only [hc, Option.bind_eq_bind, Option.bind_some, Option.some.injEq] at hr
        subst hr
        exact ⟨rfl, rfl, rfl, rfl, rfl, rfl, rfl, rfl, rfl, rfl, .inr (.inl ⟨rfl, rfl⟩),
          .inr ⟨by simpa using h6, rfl, by simpa using Eq.symm (Decidable.not_not.mp h7), hp, corr, hc, rfl⟩⟩
  · rw [if_neg h3] at hr
    simp only [Option.some.injEq] at hr
    subst hr
    exact ⟨rfl, rfl, rfl, rfl, rfl, rfl, rfl, rfl, rfl, rfl, .inr (.inl ⟨rfl, rfl⟩), .inl ⟨rfl, rfl⟩⟩

/-- What the use of the cached Follow_Up can do. -/
def CachedResult (s : State) (r : State × List Out) : Prop :=
  r.1.recvSeq = s.recvSeq ∧ r.1.recvTime = s.recvTime ∧ dPart r.1 = dPart s ∧
  r.1.utc = s.utc ∧ r.1.port = s.port ∧ r.1.parent = s.parent ∧ (r.1.mech, r.1.tmpReq) = (s.mech, s.tmpReq) ∧
  r.1.reqTimer = s.reqTimer ∧ r.1.respTimer = s.respTimer ∧ r.1.firstSync = s.firstSync ∧
  r.1.cacheHdr.seq = 0 ∧
  ((r.2 = [] ∧ r.1.waiting = s.waiting) ∨
   (s.waiting = true ∧ r.1.waiting = false ∧ s.cacheHdr.seq ≠ 0 ∧ s.cacheHdr.seq = s.recvSeq ∧
    s.cacheHdr.src = s.parent ∧
    ∃ corr, fromNs16 s.cacheHdr.corr = some corr ∧
      r.2 = [.m2s (toInternalTime s.cacheBody) s.recvTime corr]))

theorem useCached_result {s : State} {r : State × List Out} (hr : useCached s = some r) :
    CachedResult s r := by
  unfold useCached at hr
  by_cases h1 : s.cacheHdr.seq = 0
  · rw [if_pos h1] at hr
    simp only [Option.some.injEq] at hr
    subst hr
    exact ⟨rfl, rfl, rfl, rfl, rfl, rfl, rfl, rfl, rfl, rfl, h1, .inl ⟨rfl, rfl⟩⟩
  rw [if_neg h1] at hr
  by_cases h2 : s.cacheHdr.seq = s.recvSeq
  · rw [if_pos h2] at hr
    cases hf : handleFollowUp s s.cacheHdr 44 s.cacheBody true with
    | none => simp [hf] at hr
    | some p =>
      simp only [hf, Option.bind_eq_bind, Option.bind_some, Option.some.injEq] at hr
      subst hr
      obtain ⟨a1, a2, a3, a4, a5, a6, a7, a8, a9, a10, a11, a12⟩ := handleFollowUp_result hf
      refine ⟨a1, a2, a3, a4, a5, a6, a7, a8, a9, a10, rfl, ?_⟩
      rcases a12 with ⟨b1, b2⟩ | ⟨b1, b2, b3, b4, b5⟩
      · exact .inl ⟨b1, b2⟩
      · exact .inr ⟨b1, b2, h1, h2, b4, b5⟩
  · rw [if_neg h2] at hr
    simp only [Option.some.injEq] at hr
    subst hr
    exact ⟨rfl, rfl, rfl, rfl, rfl, rfl, rfl, rfl, rfl, rfl, rfl, .inl ⟨rfl, rfl⟩⟩

/-- What `handleSync` can do. -/
def SyncResult (s : State) (h : Hdr) (len : Nat) (w : Wire) (t : Option Ts)
    (r : State × List Out) : Prop :=
  dPart r.1 = dPart s ∧ r.1.utc = s.utc ∧ r.1.port = s.port ∧ r.1.parent = s.parent ∧
  (r.1.mech, r.1.tmpReq) = (s.mech, s.tmpReq) ∧ r.1.respTimer = s.respTimer ∧
  ((r.2 = [] ∧ sPart r.1 = sPart s ∧ r.1.reqTimer = s.reqTimer ∧ r.1.firstSync = s.firstSync ∧
    ¬ (t.isSome = true ∧ 44 ≤ len ∧ h.src = s.parent ∧
       (s.port = .slave ∨ s.port = .uncalibrated))) ∨
   ∃ u corr, t = some u ∧ fromNs16 h.corr = some corr ∧ 44 ≤ len ∧ h.src = s.parent ∧
    (s.port = .slave ∨ s.port = .uncalibrated) ∧
    r.1.recvSeq = h.seq ∧ r.1.recvTime = u ∧ r.1.cacheHdr.seq = 0 ∧ r.1.firstSync = false ∧
    r.1.reqTimer = (s.reqTimer || (s.firstSync && decide (s.mech = .e2e))) ∧
    ∃ miss, (miss = [] ∨ miss = [.missM2s]) ∧
    ((h.twoStep = false ∧ r.1.waiting = false ∧ r.2 = miss ++ [.m2s (toInternalTime w) u corr]) ∨
     (h.twoStep = true ∧ r.1.waiting = true ∧ r.2 = miss) ∨
     (h.twoStep = true ∧ r.1.waiting = false ∧ s.cacheHdr.seq ≠ 0 ∧ s.cacheHdr.seq = h.seq ∧
      s.cacheHdr.src = s.parent ∧
      ∃ corr', fromNs16 s.cacheHdr.corr = some corr' ∧
        r.2 = miss ++ [.m2s (toInternalTime s.cacheBody) u corr'])))

theorem handleSync_result {s : State} {h : Hdr} {len : Nat} {w : Wire} {t : Option Ts}
    {r : State × List Out} (hr : handleSync s h len w t = some r) : SyncResult s h len w t r := by
  unfold handleSync at hr
  by_cases h1 : len < 44
  · rw [if_pos h1] at hr
    simp only [Option.some.injEq] at hr
    subst hr
    exact ⟨rfl, rfl, rfl, rfl, rfl, rfl, .inl ⟨rfl, rfl, rfl, rfl, by omega⟩⟩
  rw [if_neg h1] at hr
  by_cases h2 : idle s.port ∨ s.port = .master
  · rw [if_pos h2] at hr
    simp only [Option.some.injEq] at hr
    subst hr
    refine ⟨rfl, rfl, rfl, rfl, rfl, rfl, .inl ⟨rfl, rfl, rfl, rfl, ?_⟩⟩
    rintro ⟨-, -, -, h | h⟩ <;> rw [h] at h2 <;> simp [idle] at h2
  rw [if_neg h2] at hr
  by_cases h3 : s.port = .uncalibrated ∨ s.port = .slave
  · rw [if_pos h3] at hr
    by_cases h4 : isParent s h
    · rw [if_pos h4] at hr
      have hp : h.src = s.parent := by simpa [isParent] using h4
      cases t with
      | none =>
        simp only [Option.some.injEq] at hr
        subst hr
        exact ⟨rfl, rfl, rfl, rfl, rfl, rfl, .inl ⟨rfl, rfl, rfl, rfl, by simp⟩⟩
      | some u =>
        cases hc : fromNs16 h.corr with
        | none => simp [hc] at hr
        | some corr =>
          simp only [hc, Option.bind_eq_bind, Option.bind_some] at hr
          cases hu : useCached (recordSync s h u w corr).1 with
          | none => simp [hu] at hr
          | some p =>
            simp only [hu, Option.bind_some, Option.some.injEq] at hr
            subst hr
            obtain ⟨a1, a2, a3, a4, a5, a6, a7, a8, a9, a10, a11, a12⟩ := useCached_result hu
            refine ⟨a3, a4, a5, a6, a7, a9, .inr ⟨u, corr, rfl, hc, by omega, hp, h3.symm, a1, a2,
              a11, a10, a8, (if s.waiting then [.missM2s] else []), ?_, ?_⟩⟩
            · cases s.waiting <;> simp
            · rcases a12 with ⟨b1, b2⟩ | ⟨b1, b2, b3, b4, b5, corr', b6, b7⟩
              · rw [b1]
                cases ht : h.twoStep with
                | true =>
                  refine .inr (.inl ⟨rfl, by rw [b2]; exact ht, ?_⟩)
                  simp [recordSync, ht]
                | false =>
                  refine .inl ⟨rfl, by rw [b2]; exact ht, ?_⟩
                  simp [recordSync, ht]
              · have ht : h.twoStep = true := b1
                refine .inr (.inr ⟨ht, b2, b3, b4, b5, corr', b6, ?_⟩)
                rw [b7]
                simp [recordSync, ht]
    · rw [if_neg h4] at hr
      simp only [Option.some.injEq] at hr
      subst hr
      refine ⟨rfl, rfl, rfl, rfl, rfl, rfl, .inl ⟨rfl, rfl, rfl, rfl, ?_⟩⟩
      rintro ⟨-, -, h, -⟩
      exact h4 (by simpa [isParent] using h)
  · rw [if_neg h3] at hr
    simp only [Option.some.injEq] at hr
    subst hr
    refine ⟨rfl, rfl, rfl, rfl, rfl, rfl, .inl ⟨rfl, rfl, rfl, rfl, ?_⟩⟩
    rintro ⟨-, -, -, h⟩
    exact h3 h.symm

/-- What `handleDelayResp` can do. -/
def RespResult (c : Cfg) (s : State) (h : Hdr) (len : Nat) (w : Wire) (d : Bool)
    (r : State × List Out) : Prop :=
  sPart r.1 = sPart s ∧ r.1.utc = s.utc ∧ r.1.port = s.port ∧ r.1.parent = s.parent ∧
  r.1.mech = s.mech ∧ r.1.firstSync = s.firstSync ∧
  r.1.sentSeq = s.sentSeq ∧ r.1.txPending = s.txPending ∧ r.1.ticket = s.ticket ∧
  r.1.dSend = s.dSend ∧
  ((r.2 = [] ∧ r.1.rxPending = s.rxPending ∧ r.1.stash = s.stash ∧
    r.1.reqTimer = s.reqTimer ∧ r.1.respTimer = s.respTimer) ∨
   (r.2 = [] ∧ d = false ∧ s.rxPending = true ∧ s.txPending = true ∧ r.1.rxPending = false ∧
    r.1.reqTimer = s.reqTimer ∧ r.1.respTimer = s.respTimer ∧ s.tmpReq = c.self ∧ 54 ≤ len ∧
    (h.src = s.parent ∨ c.ignorePort = true) ∧
    (r.1.stash = none ∨ r.1.stash = some (h, len - 34, s.tmpTime))) ∨
   (r.1.rxPending = false ∧ r.1.stash = s.stash ∧ r.1.reqTimer = true ∧ r.1.respTimer = false ∧
    h.seq = s.sentSeq ∧ s.tmpReq = c.self ∧ s.port = .slave ∧ 54 ≤ len ∧
    (h.src = s.parent ∨ c.ignorePort = true) ∧
    (d = false → s.rxPending = true ∧ s.txPending = false) ∧
    ∃ corr, fromNs16 h.corr = some corr ∧ r.2 = [.s2m s.dSend (toInternalTime w) corr]))

theorem handleDelayResp_result {c : Cfg} {s : State} {h : Hdr} {len : Nat} {w : Wire} {d : Bool}
    {r : State × List Out} (hr : handleDelayResp c s h len w d = some r) :
    RespResult c s h len w d r := by
  unfold handleDelayResp at hr
  by_cases h1 : len < 54
  · rw [if_pos h1] at hr
    simp only [Option.some.injEq] at hr
    subst hr
    exact ⟨rfl, rfl, rfl, rfl, rfl, rfl, rfl, rfl, rfl, rfl, .inl ⟨rfl, rfl, rfl, rfl, rfl⟩⟩
  rw [if_neg h1] at hr
  by_cases h2 : s.mech ≠ .e2e
  · rw [if_pos h2] at hr
    simp only [Option.some.injEq] at hr
    subst hr
    exact ⟨rfl, rfl, rfl, rfl, rfl, rfl, rfl, rfl, rfl, rfl, .inl ⟨rfl, rfl, rfl, rfl, rfl⟩⟩
  rw [if_neg h2] at hr
  by_cases h3 : idle s.port ∨ s.port = .uncalibrated
  · rw [if_pos h3] at hr
    simp only [Option.some.injEq] at hr
    subst hr
    exact ⟨rfl, rfl, rfl, rfl, rfl, rfl, rfl, rfl, rfl, rfl, .inl ⟨rfl, rfl, rfl, rfl, rfl⟩⟩
  rw [if_neg h3] at hr
  by_cases h4 : s.port = .slave
  · rw [if_pos h4] at hr
    by_cases h5 : c.self = s.tmpReq ∧ (isParent s h ∨ c.ignorePort)
    · rw [if_pos h5] at hr
      have hp : h.src = s.parent ∨ c.ignorePort = true := by simpa [isParent] using h5.2
      by_cases h6 : ¬ d = true ∧ s.rxPending = true ∧ s.txPending = true
      · rw [if_pos h6] at hr
        simp only [Option.some.injEq] at hr
        subst hr
        have hd : d = false := by simpa using h6.1
        refine ⟨?_, ?_, ?_, ?_, ?_, ?_, ?_, ?_, ?_, ?_, .inr (.inl
          ⟨rfl, hd, h6.2.1, h6.2.2, rfl, ?_, ?_, h5.1.symm, by omega, hp, ?_⟩)⟩ <;>
          (unfold stashMessage; cases hst : s.stash <;>
            by_cases hl : len - 34 > c.stashSize <;> simp [hl, sPart, hst])
      rw [if_neg h6] at hr
      by_cases h7 : ¬ d = true ∧ ¬ s.rxPending = true
      · rw [if_pos h7] at hr
        simp only [Option.some.injEq] at hr
        subst hr
        exact ⟨rfl, rfl, rfl, rfl, rfl, rfl, rfl, rfl, rfl, rfl, .inl ⟨rfl, rfl, rfl, rfl, rfl⟩⟩
      rw [if_neg h7] at hr
      by_cases h8 : s.sentSeq ≠ h.seq
      · rw [if_pos h8] at hr
        simp only [Option.some.injEq] at hr
        subst hr
        exact ⟨rfl, rfl, rfl, rfl, rfl, rfl, rfl, rfl, rfl, rfl, .inl ⟨rfl, rfl, rfl, rfl, rfl⟩⟩
      rw [if_neg h8] at hr
      cases hc : fromNs16 h.corr with
      | none => simp [hc] at hr
      | some corr =>
        simp only [hc, Option.bind_eq_bind, Option.bind_some, Option.some.injEq] at hr
        subst hr
        refine ⟨rfl, rfl, rfl, rfl, rfl, rfl, rfl, rfl, rfl, rfl, .inr (.inr
          ⟨rfl, rfl, rfl, rfl, (Decidable.not_not.mp h8).symm, h5.1.symm, h4, by omega, hp, ?_, corr, hc,
            rfl⟩)⟩
        intro hd
        subst hd
        simp at h6 h7
        refine ⟨h7, ?_⟩
        have := h6 h7
        simpa using this
    · rw [if_neg h5] at hr
      simp only [Option.some.injEq] at hr
      subst hr
      exact ⟨rfl, rfl, rfl, rfl, rfl, rfl, rfl, rfl, rfl, rfl, .inl ⟨rfl, rfl, rfl, rfl, rfl⟩⟩
  · rw [if_neg h4] at hr
    simp only [Option.some.injEq] at hr
    subst hr
    exact ⟨rfl, rfl, rfl, rfl, rfl, rfl, rfl, rfl, rfl, rfl, .inl ⟨rfl, rfl, rfl, rfl, rfl⟩⟩

/-! ## Summaries of a step for Sync and Follow_Up -/

/-- The measurements from master to slave. -/
def isM2s : Out → Bool
  | .m2s .. => true
  | _ => false

/-- The measurements from slave to master. -/
def isS2m : Out → Bool
  | .s2m .. => true
  | _ => false

/-- Nothing was accepted or measured. -/
def Quiet (c : Cfg) (s : State) (e : Event) (s' : State) (o : List Out) : Prop :=
  (s'.waiting = true → s.waiting = true ∧ s'.recvSeq = s.recvSeq ∧ s'.recvTime = s.recvTime) ∧
  (s'.cacheHdr.seq = 0 ∨ (s'.cacheHdr = s.cacheHdr ∧ s'.cacheBody = s.cacheBody) ∨
    ∃ len, e = .followUp s'.cacheHdr len s'.cacheBody) ∧
  (∀ x ∈ o, isM2s x = false) ∧ ¬ AcceptedSync c ⟨s, e, o⟩

/-- A Follow_Up completed a measurement. -/
def Followed (c : Cfg) (s : State) (e : Event) (s' : State) (o : List Out) : Prop :=
  ∃ h len w corr, e = .followUp h len w ∧ s.waiting = true ∧ s'.waiting = false ∧
    h.seq = s.recvSeq ∧ h.src = s.parent ∧ fromNs16 h.corr = some corr ∧
    o = [.m2s (toInternalTime w) s.recvTime corr] ∧ CacheOk s s' h w

/-- A Sync was accepted. -/
def Synced (c : Cfg) (s : State) (e : Event) (s' : State) (o : List Out) : Prop :=
  ∃ h len w raw t corr, e = .sync h len w (some raw) ∧ AcceptedSync c ⟨s, e, o⟩ ∧
    rxTime c s raw = some t ∧ fromNs16 h.corr = some corr ∧ s'.recvSeq = h.seq ∧
    s'.recvTime = t ∧ s'.cacheHdr.seq = 0 ∧
    ∃ miss, (miss = [] ∨ miss = [.missM2s]) ∧
    ((h.twoStep = false ∧ s'.waiting = false ∧ o = miss ++ [.m2s (toInternalTime w) t corr]) ∨
     (h.twoStep = true ∧ s'.waiting = true ∧ o = miss) ∨
     (h.twoStep = true ∧ s'.waiting = false ∧ s.cacheHdr.seq ≠ 0 ∧ s.cacheHdr.seq = h.seq ∧
      s.cacheHdr.src = s.parent ∧
      ∃ corr', fromNs16 s.cacheHdr.corr = some corr' ∧
        o = miss ++ [.m2s (toInternalTime s.cacheBody) t corr']))

theorem quiet_of {c : Cfg} {s s' : State} {e : Event} {o : List Out} (h : sPart s' = sPart s)
    (ho : ∀ x ∈ o, isM2s x = false) (ha : ¬ AcceptedSync c ⟨s, e, o⟩) : Quiet c s e s' o := by
  simp only [sPart, Prod.mk.injEq] at h
  obtain ⟨a, b, d, f, g⟩ := h
  exact ⟨fun hw => ⟨a ▸ hw, b, d⟩, .inr (.inl ⟨f, g⟩), ho, ha⟩

/-- What `processDelayReqFromSelf` can do. -/
def SelfResult (c : Cfg) (s : State) (t : Ts) (r : State × List Out) : Prop :=
  sPart r.1 = sPart s ∧ r.1.utc = s.utc ∧ r.1.port = s.port ∧ r.1.parent = s.parent ∧
  r.1.mech = s.mech ∧ r.1.firstSync = s.firstSync ∧
  r.1.sentSeq = s.sentSeq ∧ r.1.txPending = false ∧ r.1.ticket = s.ticket ∧
  add t c.outbound = some r.1.dSend ∧
  ((r.2 = [] ∧ r.1.rxPending = s.rxPending ∧ (r.1.stash = s.stash ∨ r.1.stash = none) ∧
    r.1.reqTimer = s.reqTimer ∧ r.1.respTimer = s.respTimer) ∨
   (s.txPending = true ∧ s.rxPending = false ∧ r.1.rxPending = false ∧ r.1.stash = none ∧
    r.1.reqTimer = true ∧ r.1.respTimer = false ∧
    ∃ h plen w corr, s.stash = some (h, plen, w) ∧ h.seq = s.sentSeq ∧ s.tmpReq = c.self ∧
      s.port = .slave ∧ (h.src = s.parent ∨ c.ignorePort = true) ∧ fromNs16 h.corr = some corr ∧
      r.2 = [.s2m r.1.dSend (toInternalTime w) corr]))

theorem fromSelf_result {c : Cfg} {s : State} {t : Ts} {r : State × List Out}
    (hr : fromSelf c s t = some r) : SelfResult c s t r := by
  unfold fromSelf at hr
  cases ha : add t c.outbound with
  | none => simp [ha] at hr
  | some d =>
    simp only [ha, Option.bind_eq_bind, Option.bind_some] at hr
    by_cases h1 : ¬ s.txPending = true
    · rw [if_pos h1] at hr
      simp only [Option.some.injEq] at hr
      subst hr
      exact ⟨rfl, rfl, rfl, rfl, rfl, rfl, rfl, by simpa using h1, rfl, ha,
        .inl ⟨rfl, rfl, .inl rfl, rfl, rfl⟩⟩
    rw [if_neg h1] at hr
    have htx : s.txPending = true := by simpa using h1
    by_cases h2 : ¬ s.rxPending = true
    · rw [if_pos h2] at hr
      have hrx : s.rxPending = false := by simpa using h2
      cases hst : s.stash with
      | none =>
        simp only [hst, Option.some.injEq] at hr
        subst hr
        exact ⟨rfl, rfl, rfl, rfl, rfl, rfl, rfl, rfl, rfl, ha,
          .inl ⟨rfl, rfl, .inr rfl, rfl, rfl⟩⟩
      | some p =>
        obtain ⟨h, plen, w⟩ := p
        simp only [hst] at hr
        obtain ⟨a1, a2, a3, a4, a5, a6, a7, a8, a9, a10, a11⟩ := handleDelayResp_result hr
        refine ⟨a1, a2, a3, a4, a5, a6, a7, a8, a9, by rw [a10]; exact ha, ?_⟩
        rcases a11 with ⟨b1, b2, b3, b4, b5⟩ | ⟨b1, b2, b3, b4, b5, b6, b7, b8⟩ |
          ⟨b1, b2, b3, b4, b5, b6, b7, b8, b9, b10, corr, b11, b12⟩
        · exact .inl ⟨b1, b2, .inr b3, b4, b5⟩
        · cases b2
        · refine .inr ⟨htx, hrx, b1, b2, b3, b4, h, plen, w, corr, hst, b5, b6, b7, b9, b11, ?_⟩
          rw [a10]; exact b12
    · rw [if_neg h2] at hr
      simp only [Option.some.injEq] at hr
      subst hr
      exact ⟨rfl, rfl, rfl, rfl, rfl, rfl, rfl, rfl, rfl, ha,
        .inl ⟨rfl, rfl, .inl rfl, rfl, rfl⟩⟩

theorem step_sync {c : Cfg} {s s' : State} {e : Event} {o : List Out}
    (hs : step c s e = some (s', o)) :
    Quiet c s e s' o ∨ Followed c s e s' o ∨ Synced c s e s' o := by
  cases e with
  | sync h len w t =>
    simp only [step] at hs
    by_cases h1 : h.src = c.self
    · rw [if_pos h1] at hs
      simp only [Option.some.injEq, Prod.mk.injEq] at hs
      obtain ⟨rfl, rfl⟩ := hs
      refine .inl (quiet_of rfl (by simp) ?_)
      cases t <;> simp [AcceptedSync, h1]
    rw [if_neg h1] at hs
    cases t with
    | none =>
      simp only at hs
      obtain ⟨-, -, -, -, -, -, h2⟩ := handleSync_result hs
      rcases h2 with ⟨b1, b2, -⟩ | ⟨u, _, hu, _⟩
      · simp only at b1 b2
        subst b1
        exact .inl (quiet_of b2 (by simp) (by simp [AcceptedSync]))
      · cases hu
    | some raw =>
      simp only [Option.bind_eq_bind] at hs
      cases hr : rxTime c s raw with
      | none => simp [hr] at hs
      | some t =>
        simp only [hr, Option.bind_some] at hs
        obtain ⟨-, -, -, -, -, -, h2⟩ := handleSync_result hs
        rcases h2 with ⟨b1, b2, b3, b4, b5⟩ | ⟨u, corr, b1, b2, b3, b4, b5, b6, b7, b8, b9, b10, b11⟩
        · simp only at b1 b2
          subst b1
          refine .inl (quiet_of b2 (by simp) ?_)
          rintro ⟨d1, d2, d3, d4⟩
          exact b5 ⟨rfl, d3, d1, d4⟩
        · simp only [Option.some.injEq] at b1
          subst b1
          exact .inr (.inr ⟨h, len, w, raw, t, corr, rfl, ⟨b4, h1, b3, b5⟩, hr, b2, b6, b7, b8, b11⟩)
  | followUp h len w =>
    simp only [step] at hs
    by_cases h1 : h.src = c.self
    · rw [if_pos h1] at hs
      simp only [Option.some.injEq, Prod.mk.injEq] at hs
      obtain ⟨rfl, rfl⟩ := hs
      exact .inl (quiet_of rfl (by simp) (by simp [AcceptedSync]))
    rw [if_neg h1] at hs
    obtain ⟨a1, a2, a3, a4, a5, a6, a7, a8, a9, a10, a11, a12⟩ := handleFollowUp_result hs
    simp only at a1 a2 a11 a12
    rcases a12 with ⟨b1, b2⟩ | ⟨b1, b2, b3, b4, corr, b5, b6⟩
    · subst b1
      refine .inl ⟨fun hw => ⟨b2 ▸ hw, a1, a2⟩, ?_, by simp, by simp [AcceptedSync]⟩
      rcases a11 with a | a | ⟨a, b⟩
      · exact .inl a
      · exact .inr (.inl a)
      · exact .inr (.inr ⟨len, by rw [a, b]⟩)
    · exact .inr (.inl ⟨h, len, w, corr, rfl, b1, b2, b3, b4, b5, b6, a11⟩)
  | delayResp h len w r =>
    simp only [step] at hs
    by_cases h1 : h.src = c.self
    · rw [if_pos h1] at hs
      simp only [Option.some.injEq, Prod.mk.injEq] at hs
      obtain ⟨rfl, rfl⟩ := hs
      exact .inl (quiet_of rfl (by simp) (by simp [AcceptedSync]))
    rw [if_neg h1] at hs
    obtain ⟨a1, -, -, -, -, -, -, -, -, -, a11⟩ := handleDelayResp_result hs
    refine .inl (quiet_of a1 ?_ (by simp [AcceptedSync]))
    rcases a11 with ⟨b, -⟩ | ⟨b, -⟩ | ⟨-, -, -, -, -, -, -, -, -, -, corr, -, b⟩ <;>
      simp only at b <;> subst b <;> simp [isM2s]
  | otherMsg w r =>
    simp only [step, Option.some.injEq, Prod.mk.injEq] at hs
    obtain ⟨rfl, rfl⟩ := hs
    exact .inl (quiet_of rfl (by simp) (by simp [AcceptedSync]))
  | txTime loop seq tk t =>
    simp only [step] at hs
    by_cases h1 : s.ticket = some tk ∧ seq = s.sentSeq
    · rw [if_pos h1] at hs
      simp only [Option.bind_eq_bind] at hs
      cases hf : fromSelf c s (applyUtc c s (if loop = true then applyUtc c s t else t)) with
      | none => simp [hf] at hs
      | some p =>
        simp only [hf, Option.bind_some, Option.some.injEq, Prod.mk.injEq] at hs
        obtain ⟨rfl, rfl⟩ := hs
        obtain ⟨a1, -, -, -, -, -, -, -, -, -, a11⟩ := fromSelf_result hf
        refine .inl (quiet_of a1 ?_ (by simp [AcceptedSync]))
        rcases a11 with ⟨b, -⟩ | ⟨-, -, -, -, -, -, h, plen, w, corr, -, -, -, -, -, -, b⟩ <;>
          rw [b] <;> simp [isM2s]
    · rw [if_neg h1] at hs
      simp only [Option.some.injEq, Prod.mk.injEq] at hs
      obtain ⟨rfl, rfl⟩ := hs
      exact .inl (quiet_of rfl (by simp) (by simp [AcceptedSync]))
  | reqExpired x =>
    simp only [step] at hs
    by_cases h1 : slaveLike s.port ∧ s.mech = .e2e ∧ s.reqTimer
    · rw [if_pos h1] at hs
      simp only [Option.some.injEq, Prod.mk.injEq] at hs
      obtain ⟨rfl, rfl⟩ := hs
      cases x with
      | noCaps => exact .inl (quiet_of rfl (by simp) (by simp [AcceptedSync]))
      | failed =>
        refine .inl ⟨?_, .inr (.inl ⟨rfl, rfl⟩), by simp, by simp [AcceptedSync]⟩
        intro hw
        simp only [issueDelayReq, toState, Bool.and_eq_true] at hw
        exact ⟨hw.1, rfl, rfl⟩
      | sent t => exact .inl (quiet_of rfl (by simp) (by simp [AcceptedSync]))
    · rw [if_neg h1] at hs
      simp only [Option.some.injEq, Prod.mk.injEq] at hs
      obtain ⟨rfl, rfl⟩ := hs
      exact .inl (quiet_of rfl (by simp) (by simp [AcceptedSync]))
  | respExpired =>
    simp only [step] at hs
    split at hs <;> simp only [Option.some.injEq, Prod.mk.injEq] at hs <;>
      obtain ⟨rfl, rfl⟩ := hs <;>
      exact .inl (quiet_of rfl (by simp [isM2s]) (by simp [AcceptedSync]))
  | syncExpired =>
    simp only [step] at hs
    split at hs <;> simp only [Option.some.injEq, Prod.mk.injEq] at hs <;>
      obtain ⟨rfl, rfl⟩ := hs <;>
      exact .inl (quiet_of rfl (by simp [isM2s]) (by simp [AcceptedSync]))
  | bmc q p =>
    simp only [step] at hs
    split at hs
    · simp only [Option.some.injEq, Prod.mk.injEq] at hs
      obtain ⟨rfl, rfl⟩ := hs
      split
      · refine .inl ⟨?_, .inr (.inl ⟨rfl, rfl⟩), by simp, by simp [AcceptedSync]⟩
        intro hw
        simp only [toState, Bool.and_eq_true] at hw
        exact ⟨hw.1, rfl, rfl⟩
      · exact .inl (quiet_of rfl (by simp) (by simp [AcceptedSync]))
    · simp only [Option.some.injEq, Prod.mk.injEq] at hs
      obtain ⟨rfl, rfl⟩ := hs
      exact .inl (quiet_of rfl (by simp) (by simp [AcceptedSync]))
  | goto p =>
    simp only [step, Option.some.injEq, Prod.mk.injEq] at hs
    obtain ⟨rfl, rfl⟩ := hs
    refine .inl ⟨?_, .inr (.inl ⟨rfl, rfl⟩), by simp, by simp [AcceptedSync]⟩
    intro hw
    simp only [toState, Bool.and_eq_true] at hw
    exact ⟨hw.1, rfl, rfl⟩
  | setMech m =>
    simp only [step, Option.some.injEq, Prod.mk.injEq] at hs
    obtain ⟨rfl, rfl⟩ := hs
    exact .inl (quiet_of rfl (by simp) (by simp [AcceptedSync]))
  | setUtc u =>
    simp only [step, Option.some.injEq, Prod.mk.injEq] at hs
    obtain ⟨rfl, rfl⟩ := hs
    exact .inl (quiet_of rfl (by simp) (by simp [AcceptedSync]))
  | reinit =>
    simp only [step, Option.some.injEq, Prod.mk.injEq] at hs
    obtain ⟨rfl, rfl⟩ := hs
    exact .inl (quiet_of rfl (by simp) (by simp [AcceptedSync]))

/-! ## The invariant for Sync and Follow_Up -/

/-- The Sync that is waiting for its Follow_Up, found in the history. -/
def Awaited (c : Cfg) (s : State) (tr : List Entry) : Prop :=
  ∃ a y b h len w raw, tr = a ++ y :: b ∧ (∀ x ∈ b, ¬ AcceptedSync c x) ∧ AcceptedSync c y ∧
    y.ev = .sync h len w (some raw) ∧ h.twoStep = true ∧ h.seq = s.recvSeq ∧
    rxTime c y.before raw = some s.recvTime

/-- The Follow_Up in the cache, found in the history. -/
def Cached (s : State) (tr : List Entry) : Prop :=
  ∃ f ∈ tr, ∃ len, f.ev = .followUp s.cacheHdr len s.cacheBody

structure SInv (c : Cfg) (s : State) (tr : List Entry) : Prop where
  sync : s.waiting = true → Awaited c s tr
  cache : s.cacheHdr.seq ≠ 0 → Cached s tr
  count : measurements isM2s tr + (if s.waiting then 1 else 0) ≤
    tr.countP fun e => decide (AcceptedSync c e)

theorem measurements_snoc (p : Out → Bool) (tr : List Entry) (e : Entry) :
    measurements p (tr ++ [e]) = measurements p tr + e.outs.countP p := by
  simp [measurements]

theorem countP_zero {p : Out → Bool} {o : List Out} (h : ∀ x ∈ o, p x = false) :
    o.countP p = 0 := by
  rw [List.countP_eq_zero]
  intro x hx
  simp [h x hx]

theorem sInv_step {c : Cfg} {s s' : State} {e : Event} {o : List Out} {tr : List Entry}
    (hi : SInv c s tr) (hs : step c s e = some (s', o)) : SInv c s' (tr ++ [⟨s, e, o⟩]) := by
  have keep : ∀ {a : State}, Cached a tr → Cached a (tr ++ [⟨s, e, o⟩]) := by
    rintro a ⟨f, hf, hr⟩
    exact ⟨f, List.mem_append_left _ hf, hr⟩
  rcases step_sync hs with ⟨q1, q2, q3, q4⟩ | ⟨h, len, w, corr, rfl, f1, f2, f3, f4, f5, f6, f7⟩ |
      ⟨h, len, w, raw, t, corr, rfl, g1, g2, g3, g4, g5, g6, miss, g7, g8⟩
  · refine ⟨?_, ?_, ?_⟩
    · intro hw
      obtain ⟨w1, w2, w3⟩ := q1 hw
      obtain ⟨a, y, b, h, len, w, raw, r1, r2, r3, r4, r5, r6, r7⟩ := hi.sync w1
      refine ⟨a, y, b ++ [⟨s, e, o⟩], h, len, w, raw, by simp [r1], ?_, r3, r4, r5, by rw [w2]; exact r6,
        by rw [w3]; exact r7⟩
      intro x hx
      rcases List.mem_append.mp hx with hx | hx
      · exact r2 x hx
      · simp only [List.mem_singleton] at hx
        rw [hx]; exact q4
    · intro hc
      rcases q2 with q | ⟨q, q'⟩ | ⟨len, q⟩
      · exact absurd q hc
      · have := hi.cache (by rw [← q]; exact hc)
        have := keep this
        unfold Cached at this ⊢
        rw [q, q']; exact this
      · exact ⟨⟨s, e, o⟩, by simp, len, q⟩
    · rw [measurements_snoc, List.countP_append, countP_zero q3]
      have := hi.count
      cases hw : s'.waiting with
      | false => simp only [Bool.false_eq_true, if_false]; omega
      | true =>
        simp only [if_true]
        rw [(q1 hw).1] at this
        simp only [if_true] at this
        omega
  · refine ⟨?_, ?_, ?_⟩
    · intro hw; rw [f2] at hw; cases hw
    · intro hc
      rcases f7 with q | ⟨q, q'⟩ | ⟨q, q'⟩
      · exact absurd q hc
      · have := keep (hi.cache (by rw [← q]; exact hc))
        unfold Cached at this ⊢
        rw [q, q']; exact this
      · exact ⟨⟨s, .followUp h len w, o⟩, by simp, len, by rw [q, q']⟩
    · rw [measurements_snoc, List.countP_append, f6, f2]
      have := hi.count
      rw [f1] at this
      simp only [if_true] at this
      simp [isM2s]
      omega
  · refine ⟨?_, ?_, ?_⟩
    · intro hw
      rcases g8 with ⟨-, k, -⟩ | ⟨k1, k2, k3⟩ | ⟨-, k, -⟩
      · rw [k] at hw; cases hw
      · exact ⟨tr, ⟨s, .sync h len w (some raw), o⟩, [], h, len, w, raw, rfl, by simp, g1, rfl, k1,
          g4.symm, by rw [g5]; exact g2⟩
      · rw [k] at hw; cases hw
    · intro hc; exact absurd g6 hc
    · rw [measurements_snoc, List.countP_append]
      have := hi.count
      have hm : miss.countP isM2s = 0 := by
        rcases g7 with rfl | rfl <;> simp [isM2s]
      have hone : List.countP (fun e => decide (AcceptedSync c e))
          [⟨s, .sync h len w (some raw), o⟩] = 1 := by simp [g1]
      rw [hone]
      rcases g8 with ⟨-, k, ko⟩ | ⟨-, k, ko⟩ | ⟨-, k, -, -, -, corr', -, ko⟩
      · simp only [k, ko, List.countP_append, hm]
        simp [isM2s]; omega
      · simp only [k, ko, hm]
        simp; omega
      · simp only [k, ko, List.countP_append, hm]
        simp [isM2s]; omega

theorem sInv_hist {c : Cfg} {s0 s : State} {tr : List Entry} (h : Hist c s0 s tr)
    (h0 : s0.waiting = false) (h1 : s0.cacheHdr.seq = 0) : SInv c s tr := by
  induction h with
  | nil => exact ⟨by simp [h0], by simp [h1], by simp [measurements, h0]⟩
  | snoc _ hs ih => exact sInv_step ih hs

/-! ## Summaries of a step for Delay_Req and Delay_Resp -/

/-- Nothing was requested or measured. -/
def DQuiet (s : State) (e : Event) (s' : State) (o : List Out) : Prop :=
  s'.sentSeq = s.sentSeq ∧ (s'.ticket = s.ticket ∨ s'.ticket = none) ∧ s'.dSend = s.dSend ∧
  s'.stash = s.stash ∧
  ((s'.txPending = s.txPending ∧ s'.rxPending = s.rxPending) ∨
   (s'.txPending = false ∧ s'.rxPending = false)) ∧
  (∀ x ∈ o, isS2m x = false) ∧ ∀ x, ¬ Attempted ⟨s, e, o⟩ x

/-- A Delay_Req was sent or attempted. -/
def Issued (s : State) (e : Event) (s' : State) (o : List Out) : Prop :=
  ∃ x, Attempted ⟨s, e, o⟩ x ∧ s'.sentSeq = (s.sentSeq + 1) % 65536 ∧ o = [] ∧
    ((s'.ticket = s.ticket ∧ s'.txPending = false ∧ s'.rxPending = false ∧ (∀ t, x ≠ .sent t)) ∨
     ∃ t, x = .sent t ∧ s'.ticket = t.or s.ticket ∧ s'.txPending = true ∧ s'.rxPending = true)

/-- A Delay_Resp came before the timestamp of the request. -/
def Stashed (c : Cfg) (s : State) (e : Event) (s' : State) (o : List Out) : Prop :=
  ∃ h len w, e = .delayResp h len w c.self ∧ s'.sentSeq = s.sentSeq ∧ s'.ticket = s.ticket ∧
    s'.dSend = s.dSend ∧ s.txPending = true ∧ s.rxPending = true ∧
    s'.txPending = true ∧ s'.rxPending = false ∧ 54 ≤ len ∧
    (h.src = s.parent ∨ c.ignorePort = true) ∧ o = [] ∧
    (s'.stash = none ∨ s'.stash = some (h, len - 34, w))

/-- A Delay_Resp came after the timestamp of the request. -/
def Answered (c : Cfg) (s : State) (e : Event) (s' : State) (o : List Out) : Prop :=
  ∃ h len w corr, e = .delayResp h len w c.self ∧ s'.sentSeq = s.sentSeq ∧
    s'.ticket = s.ticket ∧ s.txPending = false ∧ s.rxPending = true ∧ s'.txPending = false ∧
    s'.rxPending = false ∧ h.seq = s.sentSeq ∧ (h.src = s.parent ∨ c.ignorePort = true) ∧
    fromNs16 h.corr = some corr ∧ o = [.s2m s.dSend (toInternalTime w) corr]

/-- The timestamp of the request came. -/
def Stamped (c : Cfg) (s : State) (e : Event) (s' : State) (o : List Out) : Prop :=
  ∃ loop tk raw, e = .txTime loop s.sentSeq tk raw ∧ s.ticket = some tk ∧ s'.ticket = none ∧
    s'.sentSeq = s.sentSeq ∧ s'.txPending = false ∧
    add (applyUtc c s (if loop = true then applyUtc c s raw else raw)) c.outbound =
      some s'.dSend ∧
    ((o = [] ∧ s'.rxPending = s.rxPending) ∨
     (s.txPending = true ∧ s.rxPending = false ∧ s'.rxPending = false ∧
      ∃ h plen w corr, s.stash = some (h, plen, w) ∧ h.seq = s.sentSeq ∧ s.tmpReq = c.self ∧
        (h.src = s.parent ∨ c.ignorePort = true) ∧ fromNs16 h.corr = some corr ∧
        o = [.s2m s'.dSend (toInternalTime w) corr]))

theorem dquiet_of {s s' : State} {e : Event} {o : List Out} (h : dPart s' = dPart s)
    (ho : ∀ x ∈ o, isS2m x = false) (ha : ∀ x, ¬ Attempted ⟨s, e, o⟩ x) : DQuiet s e s' o := by
  simp only [dPart, Prod.mk.injEq] at h
  obtain ⟨a, b, d, f, g, i⟩ := h
  exact ⟨a, .inl f, g, i, .inl ⟨b, d⟩, ho, ha⟩

theorem dquiet_toState {s : State} {p : PState} {e : Event} {o : List Out}
    (ho : ∀ x ∈ o, isS2m x = false) (ha : ∀ x, ¬ Attempted ⟨s, e, o⟩ x) :
    DQuiet s e (toState s p) o := by
  refine ⟨rfl, .inl rfl, rfl, rfl, ?_, ho, ha⟩
  by_cases hp : p = .slave
  · right; simp [toState, hp]
  · left; simp [toState, hp]

theorem slaveLike_iff {p : PState} : slaveLike p = true ↔
    (p = .listening ∨ p = .uncalibrated ∨ p = .slave ∨ p = .passive) := by
  simp [slaveLike]

theorem step_delay {c : Cfg} {s s' : State} {e : Event} {o : List Out}
    (hs : step c s e = some (s', o)) :
    DQuiet s e s' o ∨ Issued s e s' o ∨ Stashed c s e s' o ∨ Answered c s e s' o ∨
      Stamped c s e s' o := by
  cases e with
  | sync h len w t =>
    have na : ∀ x, ¬ Attempted ⟨s, .sync h len w t, o⟩ x := by simp [Attempted]
    simp only [step] at hs
    by_cases h1 : h.src = c.self
    · rw [if_pos h1] at hs
      simp only [Option.some.injEq, Prod.mk.injEq] at hs
      obtain ⟨rfl, rfl⟩ := hs
      exact .inl (dquiet_of rfl (by simp) na)
    rw [if_neg h1] at hs
    have key : ∀ u, handleSync { s with tmpTime := w } h len w u = some (s', o) →
        DQuiet s (.sync h len w t) s' o := by
      intro u hu
      obtain ⟨a1, -, -, -, -, -, h2⟩ := handleSync_result hu
      refine dquiet_of a1 ?_ na
      rcases h2 with ⟨b1, -⟩ | ⟨u, corr, b1, b2, b3, b4, b5, b6, b7, b8, b9, b10, miss, b11, b12⟩
      · simp only at b1; subst b1; simp
      · simp only at b12
        rcases b12 with ⟨-, -, k⟩ | ⟨-, -, k⟩ | ⟨-, -, -, -, -, _, -, k⟩ <;>
          rcases b11 with rfl | rfl <;> subst k <;> simp [isS2m]
    cases t with
    | none => exact .inl (key _ hs)
    | some raw =>
      simp only [Option.bind_eq_bind] at hs
      cases hr : rxTime c s raw with
      | none => simp [hr] at hs
      | some t =>
        simp only [hr, Option.bind_some] at hs
        exact .inl (key _ hs)
  | followUp h len w =>
    have na : ∀ x, ¬ Attempted ⟨s, .followUp h len w, o⟩ x := by simp [Attempted]
    simp only [step] at hs
    by_cases h1 : h.src = c.self
    · rw [if_pos h1] at hs
      simp only [Option.some.injEq, Prod.mk.injEq] at hs
      obtain ⟨rfl, rfl⟩ := hs
      exact .inl (dquiet_of rfl (by simp) na)
    rw [if_neg h1] at hs
    obtain ⟨a1, a2, a3, a4, a5, a6, a7, a8, a9, a10, a11, a12⟩ := handleFollowUp_result hs
    refine .inl (dquiet_of a3 ?_ na)
    simp only at a12
    rcases a12 with ⟨b1, b2⟩ | ⟨b1, b2, b3, b4, corr, b5, b6⟩
    · subst b1; simp
    · subst b6; simp [isS2m]
  | delayResp h len w r =>
    have na : ∀ x, ¬ Attempted ⟨s, .delayResp h len w r, o⟩ x := by simp [Attempted]
    simp only [step] at hs
    by_cases h1 : h.src = c.self
    · rw [if_pos h1] at hs
      simp only [Option.some.injEq, Prod.mk.injEq] at hs
      obtain ⟨rfl, rfl⟩ := hs
      exact .inl (dquiet_of rfl (by simp) na)
    rw [if_neg h1] at hs
    obtain ⟨a1, a2, a3, a4, a5, a6, a7, a8, a9, a10, a11⟩ := handleDelayResp_result hs
    simp only at a7 a8 a9 a10 a11
    rcases a11 with ⟨b1, b2, b3, b4, b5⟩ | ⟨b1, b2, b3, b4, b5, b6, b7, b8, b9, b10, b11⟩ |
      ⟨b1, b2, b3, b4, b5, b6, b7, b8, b9, b10, corr, b11, b12⟩
    · subst b1
      exact .inl ⟨a7, .inl a9, a10, b3, .inl ⟨a8, b2⟩, by simp, na⟩
    · subst b8
      exact .inr (.inr (.inl ⟨h, len, w, rfl, a7, a9, a10, b4, b3, by rw [a8]; exact b4, b5, b9, b10,
        b1, b11⟩))
    · subst b6
      obtain ⟨b13, b14⟩ := b10 trivial
      exact .inr (.inr (.inr (.inl ⟨h, len, w, corr, rfl, a7, a9, b14, b13, by rw [a8]; exact b14, b1,
        b5, b9, b11, b12⟩)))
  | otherMsg w r =>
    simp only [step, Option.some.injEq, Prod.mk.injEq] at hs
    obtain ⟨rfl, rfl⟩ := hs
    exact .inl (dquiet_of rfl (by simp) (by simp [Attempted]))
  | txTime loop seq tk t =>
    simp only [step] at hs
    by_cases h1 : s.ticket = some tk ∧ seq = s.sentSeq
    · rw [if_pos h1] at hs
      simp only [Option.bind_eq_bind] at hs
      cases hf : fromSelf c s (applyUtc c s (if loop = true then applyUtc c s t else t)) with
      | none => simp [hf] at hs
      | some p =>
        simp only [hf, Option.bind_some, Option.some.injEq, Prod.mk.injEq] at hs
        obtain ⟨rfl, rfl⟩ := hs
        obtain ⟨a1, a2, a3, a4, a5, a6, a7, a8, a9, a10, a11⟩ := fromSelf_result hf
        obtain ⟨h1, rfl⟩ := h1
        refine .inr (.inr (.inr (.inr ⟨loop, tk, t, rfl, h1, rfl, a7, a8, a10, ?_⟩)))
        rcases a11 with ⟨b1, b2, -⟩ |
          ⟨b1, b2, b3, -, -, -, h, plen, w, corr, b4, b5, b6, b7, b8, b9, b10⟩
        · exact .inl ⟨b1, b2⟩
        · exact .inr ⟨b1, b2, b3, h, plen, w, corr, b4, b5, b6, b8, b9, b10⟩
    · rw [if_neg h1] at hs
      simp only [Option.some.injEq, Prod.mk.injEq] at hs
      obtain ⟨rfl, rfl⟩ := hs
      exact .inl (dquiet_of rfl (by simp) (by simp [Attempted]))
  | reqExpired x =>
    simp only [step] at hs
    by_cases h1 : slaveLike s.port ∧ s.mech = .e2e ∧ s.reqTimer
    · rw [if_pos h1] at hs
      simp only [Option.some.injEq, Prod.mk.injEq] at hs
      obtain ⟨rfl, rfl⟩ := hs
      have ha : Attempted ⟨s, .reqExpired x, []⟩ x :=
        ⟨rfl, h1.2.2, h1.2.1, slaveLike_iff.mp h1.1⟩
      refine .inr (.inl ⟨x, ha, ?_, rfl, ?_⟩)
      · cases x <;> rfl
      · cases x with
        | noCaps => exact .inl ⟨rfl, rfl, rfl, by simp⟩
        | failed => exact .inl ⟨rfl, rfl, rfl, by simp⟩
        | sent t => exact .inr ⟨t, rfl, rfl, rfl, rfl⟩
    · rw [if_neg h1] at hs
      simp only [Option.some.injEq, Prod.mk.injEq] at hs
      obtain ⟨rfl, rfl⟩ := hs
      refine .inl (dquiet_of rfl (by simp) ?_)
      rintro y ⟨-, d1, d2, d3⟩
      exact h1 ⟨slaveLike_iff.mpr d3, d2, d1⟩
  | respExpired =>
    simp only [step] at hs
    split at hs <;> simp only [Option.some.injEq, Prod.mk.injEq] at hs <;>
      obtain ⟨rfl, rfl⟩ := hs <;>
      exact .inl (dquiet_of rfl (by simp [isS2m]) (by simp [Attempted]))
  | syncExpired =>
    simp only [step] at hs
    split at hs <;> simp only [Option.some.injEq, Prod.mk.injEq] at hs <;>
      obtain ⟨rfl, rfl⟩ := hs <;>
      exact .inl (dquiet_of rfl (by simp [isS2m]) (by simp [Attempted]))
  | bmc q p =>
    simp only [step] at hs
    split at hs
    · simp only [Option.some.injEq, Prod.mk.injEq] at hs
      obtain ⟨rfl, rfl⟩ := hs
      split
      · left
        refine ⟨rfl, .inl rfl, rfl, rfl, ?_, by simp, by simp [Attempted]⟩
        by_cases hp : p = .slave
        · right; simp [toState, hp]
        · left; simp [toState, hp]
      · exact .inl (dquiet_of rfl (by simp) (by simp [Attempted]))
    · simp only [Option.some.injEq, Prod.mk.injEq] at hs
      obtain ⟨rfl, rfl⟩ := hs
      exact .inl (dquiet_of rfl (by simp) (by simp [Attempted]))
  | goto p =>
    simp only [step, Option.some.injEq, Prod.mk.injEq] at hs
    obtain ⟨rfl, rfl⟩ := hs
    exact .inl (dquiet_toState (by simp) (by simp [Attempted]))
  | setMech m =>
    simp only [step, Option.some.injEq, Prod.mk.injEq] at hs
    obtain ⟨rfl, rfl⟩ := hs
    exact .inl (dquiet_of rfl (by simp) (by simp [Attempted]))
  | setUtc u =>
    simp only [step, Option.some.injEq, Prod.mk.injEq] at hs
    obtain ⟨rfl, rfl⟩ := hs
    exact .inl (dquiet_of rfl (by simp) (by simp [Attempted]))
  | reinit =>
    simp only [step, Option.some.injEq, Prod.mk.injEq] at hs
    obtain ⟨rfl, rfl⟩ := hs
    exact .inl ⟨rfl, .inr rfl, rfl, rfl, .inl ⟨rfl, rfl⟩, by simp, by simp [Attempted]⟩

/-! ## The invariant for Delay_Req and Delay_Resp -/

/-- The ticket `t` is that of the request `q`, sent with `tk`, or, if it got
none, that of an earlier request. -/
def TicketOf (t : Ticket) (tk : Option Ticket) (a : List Entry) : Prop :=
  tk = some t ∨ (tk = none ∧ ∃ q' ∈ a, Requested q' (some t))

/-- The transmit timestamp of the pending request, found in `b`. -/
def Stamp (c : Cfg) (seq : Nat) (tk : Option Ticket) (a b : List Entry) (d : Ts) : Prop :=
  ∃ x ∈ b, ∃ loop t raw, x.ev = .txTime loop seq t raw ∧ TicketOf t tk a ∧
    add (applyUtc c x.before (if loop = true then applyUtc c x.before raw else raw)) c.outbound =
      some d

/-- The response, found in `b`. -/
def Response (c : Cfg) (b : List Entry) (h : Hdr) (w : Wire) : Prop :=
  ∃ x ∈ b, ∃ len, x.ev = .delayResp h len w c.self ∧
    (h.src = x.before.parent ∨ c.ignorePort = true)

structure DInv (c : Cfg) (s : State) (tr : List Entry) : Prop where
  ticket : ∀ t, s.ticket = some t → ∃ q ∈ tr, Requested q (some t)
  pending : s.txPending = true ∨ s.rxPending = true →
    ∃ a q b tk, tr = a ++ q :: b ∧ Requested q tk ∧ (∀ x ∈ b, ∀ o, ¬ Attempted x o) ∧
      s.sentSeq = (q.before.sentSeq + 1) % 65536 ∧
      (∀ t, s.ticket = some t → TicketOf t tk a) ∧
      (s.txPending = false → Stamp c s.sentSeq tk a b s.dSend) ∧
      (s.txPending = true → s.rxPending = false →
        ∀ h plen w, s.stash = some (h, plen, w) → Response c b h w)
  count : measurements isS2m tr + (if s.txPending || s.rxPending then 1 else 0) ≤
    tr.countP IsRequest

theorem isRequest_of {e : Entry} {t : Option Ticket} (h : Requested e t) : IsRequest e = true := by
  obtain ⟨h1, h2⟩ := h
  simp only [IsRequest, h1, decide_eq_true_eq]
  exact ⟨h1, h2⟩

theorem isRequest_not {e : Entry} (h : ∀ o, ¬ Attempted e o) : IsRequest e = false := by
  unfold IsRequest
  split
  · simp [h]
  · rfl

theorem Stamp.mono {c : Cfg} {seq : Nat} {tk : Option Ticket} {a b : List Entry} {d : Ts}
    (h : Stamp c seq tk a b d) (e : Entry) : Stamp c seq tk a (b ++ [e]) d := by
  obtain ⟨x, hx, r⟩ := h
  exact ⟨x, List.mem_append_left _ hx, r⟩

theorem Response.mono {c : Cfg} {b : List Entry} {h : Hdr} {w : Wire}
    (hr : Response c b h w) (e : Entry) : Response c (b ++ [e]) h w := by
  obtain ⟨x, hx, r⟩ := hr
  exact ⟨x, List.mem_append_left _ hx, r⟩

theorem dInv_step {c : Cfg} {s s' : State} {e : Event} {o : List Out} {tr : List Entry}
    (hi : DInv c s tr) (hs : step c s e = some (s', o)) : DInv c s' (tr ++ [⟨s, e, o⟩]) := by
  have keepT : ∀ t, s.ticket = some t → ∃ q ∈ tr ++ [⟨s, e, o⟩], Requested q (some t) := by
    intro t ht
    obtain ⟨q, hq, hr⟩ := hi.ticket t ht
    exact ⟨q, List.mem_append_left _ hq, hr⟩
  have noAtt : ∀ {b : List Entry}, (∀ x ∈ b, ∀ o, ¬ Attempted x o) →
      (∀ x, ¬ Attempted ⟨s, e, o⟩ x) → ∀ x ∈ b ++ [⟨s, e, o⟩], ∀ o, ¬ Attempted x o := by
    intro b h1 h2 x hx
    rcases List.mem_append.mp hx with hx | hx
    · exact h1 x hx
    · simp only [List.mem_singleton] at hx
      rw [hx]; exact h2
  rcases step_delay hs with ⟨q1, q2, q3, q4, q5, q6, q7⟩ | ⟨x, i1, i2, i3, i4⟩ |
    ⟨h, len, w, rfl, t1, t2, t3, t4, t5, t6, t7, t8, t9, t10, t11⟩ |
    ⟨h, len, w, corr, rfl, n1, n2, n3, n4, n5, n6, n7, n8, n9, n10⟩ |
    ⟨loop, tk, raw, rfl, m1, m2, m3, m4, m5, m6⟩
  · -- quiet
    have hz : IsRequest ⟨s, e, o⟩ = false := isRequest_not q7
    refine ⟨?_, ?_, ?_⟩
    · intro t ht
      rcases q2 with q | q
      · exact keepT t (q ▸ ht)
      · rw [q] at ht; cases ht
    · intro hp
      rcases q5 with ⟨p1, p2⟩ | ⟨p1, p2⟩
      · rw [p1, p2] at hp
        obtain ⟨a, q, b, tk, r1, r2, r3, r4, r5, r6, r7⟩ := hi.pending hp
        refine ⟨a, q, b ++ [⟨s, e, o⟩], tk, by simp [r1], r2, noAtt r3 q7, by rw [q1]; exact r4, ?_,
          ?_, ?_⟩
        · intro t ht
          rcases q2 with q | q
          · exact r5 t (q ▸ ht)
          · rw [q] at ht; cases ht
        · intro ht
          rw [q1, q3]
          exact (r6 (p1 ▸ ht)).mono _
        · intro ht hr h plen w hst
          exact (r7 (p1 ▸ ht) (p2 ▸ hr) h plen w (q4 ▸ hst)).mono _
      · rw [p1, p2] at hp; simp at hp
    · rw [measurements_snoc, List.countP_append, countP_zero q6]
      have := hi.count
      simp only [List.countP_cons, List.countP_nil, hz]
      rcases q5 with ⟨p1, p2⟩ | ⟨p1, p2⟩
      · rw [p1, p2]; simpa using this
      · rw [p1, p2]; simp; omega
  · -- a request
    subst i3
    rcases i4 with ⟨j1, j2, j3, j4⟩ | ⟨t, rfl, j1, j2, j3⟩
    · refine ⟨fun t ht => keepT t (j1 ▸ ht), fun hp => by rw [j2, j3] at hp; simp at hp, ?_⟩
      rw [measurements_snoc, List.countP_append, j2, j3]
      have := hi.count
      simp
      omega
    · have hreq : Requested ⟨s, e, []⟩ t := i1
      have hz := isRequest_of hreq
      have tick : ∀ t', s'.ticket = some t' → TicketOf t' t tr := by
        intro t' ht
        rw [j1] at ht
        cases t with
        | none => exact .inr ⟨rfl, hi.ticket t' (by simpa using ht)⟩
        | some u => left; simpa using ht
      refine ⟨?_, ?_, ?_⟩
      · intro t' ht
        rcases tick t' ht with rfl | ⟨-, q', hq, hr⟩
        · exact ⟨⟨s, e, []⟩, by simp, hreq⟩
        · exact ⟨q', List.mem_append_left _ hq, hr⟩
      · intro _
        refine ⟨tr, ⟨s, e, []⟩, [], t, rfl, hreq, by simp, i2, tick, ?_, ?_⟩
        · intro h; rw [j2] at h; cases h
        · intro _ h; rw [j3] at h; cases h
      · rw [measurements_snoc, List.countP_append]
        have := hi.count
        simp [hz, j2, j3]
        omega
  · -- a response stashed
    have na : ∀ x, ¬ Attempted ⟨s, .delayResp h len w c.self, o⟩ x := by simp [Attempted]
    have hz := isRequest_not na
    refine ⟨fun t ht => keepT t (t2 ▸ ht), ?_, ?_⟩
    · intro _
      obtain ⟨a, q, b, tk, r1, r2, r3, r4, r5, r6, r7⟩ := hi.pending (.inl t4)
      refine ⟨a, q, b ++ [⟨s, .delayResp h len w c.self, o⟩], tk, by simp [r1], r2, noAtt r3 na,
        by rw [t1]; exact r4, fun t ht => r5 t (t2 ▸ ht), ?_, ?_⟩
      · intro h; rw [t6] at h; cases h
      · intro _ _ h' plen w' hst
        rcases t11 with t | t
        · rw [t] at hst; cases hst
        · rw [t] at hst
          simp only [Option.some.injEq, Prod.mk.injEq] at hst
          obtain ⟨rfl, rfl, rfl⟩ := hst
          exact ⟨⟨s, .delayResp h len w c.self, o⟩, by simp, len, rfl, t9⟩
    · subst t10
      rw [measurements_snoc, List.countP_append, t6, t7]
      have := hi.count
      rw [t4, t5] at this
      simp only [List.countP_cons, List.countP_nil, hz]
      simp at this ⊢
      omega
  · -- a response used
    have na : ∀ x, ¬ Attempted ⟨s, .delayResp h len w c.self, o⟩ x := by simp [Attempted]
    have hz := isRequest_not na
    refine ⟨fun t ht => keepT t (n2 ▸ ht), fun hp => by rw [n5, n6] at hp; simp at hp, ?_⟩
    rw [measurements_snoc, List.countP_append, n5, n6]
    have := hi.count
    rw [n3, n4] at this
    simp only [List.countP_cons, List.countP_nil, hz, n10]
    simp [isS2m] at this ⊢
    omega
  · -- a timestamp
    have na : ∀ x, ¬ Attempted ⟨s, .txTime loop s.sentSeq tk raw, o⟩ x := by simp [Attempted]
    have hz := isRequest_not na
    refine ⟨fun t ht => (by rw [m2] at ht; cases ht), ?_, ?_⟩
    · intro hp
      rw [m4] at hp
      rcases m6 with ⟨k1, k2⟩ | ⟨k1, k2, k3, k4⟩
      · have hp' : s.rxPending = true := by rw [← k2]; simpa using hp
        obtain ⟨a, q, b, tk', r1, r2, r3, r4, r5, r6, r7⟩ := hi.pending (.inr hp')
        refine ⟨a, q, b ++ [⟨s, .txTime loop s.sentSeq tk raw, o⟩], tk', by simp [r1], r2,
          noAtt r3 na, by rw [m3]; exact r4, fun t ht => (by rw [m2] at ht; cases ht), ?_, ?_⟩
        · intro _
          rw [m3]
          exact ⟨⟨s, .txTime loop s.sentSeq tk raw, o⟩, by simp, loop, tk, raw, rfl, r5 tk m1, m5⟩
        · intro h; rw [m4] at h; cases h
      · rw [k3] at hp; simp at hp
    · rw [measurements_snoc, List.countP_append, m4]
      have := hi.count
      simp only [List.countP_cons, List.countP_nil, hz]
      rcases m6 with ⟨k1, k2⟩ | ⟨k1, k2, k3, h, plen, w, corr, k4, k5, k6, k7, k8, k9⟩
      · subst k1
        rw [k2]
        cases hr : s.rxPending <;> simp [hr] at this ⊢ <;> omega
      · rw [k1] at this
        simp only [k9, k3]
        simp [isS2m] at this ⊢
        omega

theorem dInv_hist {c : Cfg} {s0 s : State} {tr : List Entry} (h : Hist c s0 s tr)
    (h0 : s0.txPending = false) (h1 : s0.rxPending = false) (h2 : s0.ticket = none) :
    DInv c s tr := by
  induction h with
  | nil => exact ⟨by simp [h2], by simp [h0, h1], by simp [measurements, h0, h1]⟩
  | snoc _ hs ih => exact dInv_step ih hs

/-! ## Times -/

theorem applyUtc_eq (c : Cfg) (s : State) (t : Ts) :
    applyUtc c s t = { t with sec := t.sec + utcShift c s } := by
  unfold applyUtc utcShift
  by_cases hm : s.port = .master
  · cases hv : s.utc.valid <;> cases ht : s.utc.timescale <;> simp [hm, hv, ht] <;> omega
  · cases hv : s.utc.valid <;> cases ht : c.alwaysUtc <;> simp [hm, hv, ht] <;> omega

/-- The UTC offset in a state is small. -/
def SmallUtc (u : Utc) : Prop :=
  -2147483648 ≤ u.offset ∧ u.offset < 2147483648 ∧ -2147483648 ≤ u.fake ∧ u.fake < 2147483648

theorem utcShift_small {c : Cfg} {s : State} (h : SmallUtc s.utc) :
    -4294967296 < utcShift c s ∧ utcShift c s < 4294967296 := by
  unfold SmallUtc at h
  unfold utcShift
  split_ifs <;> omega

theorem rxTime_received {c : Cfg} {s : State} {raw t : Ts} (hc : SaneCfg c) (ht : SaneTs raw)
    (hu : SmallUtc s.utc) (h : rxTime c s raw = some t) : Received c s raw t := by
  have hs := utcShift_small (c := c) hu
  generalize hg : utcShift c s = d at *
  unfold rxTime at h
  rw [applyUtc_eq, hg] at h
  simp only at h
  obtain ⟨⟨hc1, hc2, hc3⟩, -⟩ := hc
  obtain ⟨ht1, ht2, ht3⟩ := ht
  unfold Received
  rw [hg]
  by_cases h0 : raw.sec + d > 0
  · rw [if_pos h0] at h
    rw [if_pos h0]
    obtain ⟨r, hr, -, hv⟩ := C01_subtract_exact { raw with sec := raw.sec + d } c.inbound ht1 hc1
      (by unfold InS64; simp only; omega)
      (by unfold InS64 val; unfold Norm at ht1 hc1; simp only; omega)
    rw [hr] at h
    simp only [Option.some.injEq] at h
    subst h
    rw [hv]
    unfold val
    simp only
    omega
  · rw [if_neg h0] at h
    rw [if_neg h0]
    simp only [Option.some.injEq] at h
    subst h
    unfold val
    simp only
    omega

theorem add_transmitted {c : Cfg} {s : State} {raw d : Ts} {loop : Bool} (hc : SaneCfg c)
    (ht : SaneTs raw) (hu : SmallUtc s.utc)
    (h : add (applyUtc c s (if loop = true then applyUtc c s raw else raw)) c.outbound = some d) :
    Transmitted c s (if loop = true then 2 else 1) raw d := by
  have hs := utcShift_small (c := c) hu
  unfold Transmitted
  simp only [applyUtc_eq] at h
  generalize hg : utcShift c s = k at *
  obtain ⟨-, ⟨hc1, hc2, hc3⟩⟩ := hc
  obtain ⟨ht1, ht2, ht3⟩ := ht
  cases loop with
  | false =>
    simp only [Bool.false_eq_true, if_false] at h ⊢
    obtain ⟨r, hr, -, hv⟩ := C01_add_exact { raw with sec := raw.sec + k } c.outbound ht1 hc1
      (by unfold InS64; simp only; omega)
      (by unfold InS64 val; unfold Norm at ht1 hc1; simp only; omega)
    rw [hr] at h
    simp only [Option.some.injEq] at h
    subst h
    rw [hv]
    unfold val
    simp only
    omega
  | true =>
    simp only [if_true] at h ⊢
    obtain ⟨r, hr, -, hv⟩ := C01_add_exact { raw with sec := raw.sec + k + k } c.outbound ht1 hc1
      (by unfold InS64; simp only; omega)
      (by unfold InS64 val; unfold Norm at ht1 hc1; simp only; omega)
    rw [hr] at h
    simp only [Option.some.injEq] at h
    subst h
    rw [hv]
    unfold val
    simp only
    omega

theorem correction_of {x : Int} {t : Ts} (h : -9223372036854775808 ≤ x ∧ x < 9223372036854775808)
    (hf : fromNs16 x = some t) : Correction x t := by
  by_cases hm : x = -9223372036854775808
  · rw [hm, C04_from_ns16_min] at hf; cases hf
  · obtain ⟨r, hr, -, hv⟩ := C04_from_ns16_exact x (by omega)
    rw [hr] at hf
    simp only [Option.some.injEq] at hf
    subst hf
    exact hv

theorem written_internal (w : Wire) : Written w (toInternalTime w) := ⟨rfl, rfl, rfl⟩

/-! ## Small UTC offsets, and which field changes where -/

theorem utc_step {c : Cfg} {s s' : State} {e : Event} {o : List Out}
    (hs : step c s e = some (s', o)) : s'.utc = s.utc ∨ e = .setUtc s'.utc := by
  cases e with
  | sync h len w t =>
    simp only [step] at hs
    by_cases h1 : h.src = c.self
    · rw [if_pos h1] at hs
      simp only [Option.some.injEq, Prod.mk.injEq] at hs
      left; rw [hs.1]
    rw [if_neg h1] at hs
    cases t with
    | none => exact .inl (handleSync_result hs).2.1
    | some raw =>
      simp only [Option.bind_eq_bind] at hs
      cases hr : rxTime c s raw with
      | none => simp [hr] at hs
      | some t =>
        simp only [hr, Option.bind_some] at hs
        exact .inl (handleSync_result hs).2.1
  | followUp h len w =>
    simp only [step] at hs
    by_cases h1 : h.src = c.self
    · rw [if_pos h1] at hs
      simp only [Option.some.injEq, Prod.mk.injEq] at hs
      left; rw [hs.1]
    rw [if_neg h1] at hs
    exact .inl (handleFollowUp_result hs).2.2.2.1
  | delayResp h len w r =>
    simp only [step] at hs
    by_cases h1 : h.src = c.self
    · rw [if_pos h1] at hs
      simp only [Option.some.injEq, Prod.mk.injEq] at hs
      left; rw [hs.1]
    rw [if_neg h1] at hs
    exact .inl (handleDelayResp_result hs).2.1
  | txTime loop seq tk t =>
    simp only [step] at hs
    by_cases h1 : s.ticket = some tk ∧ seq = s.sentSeq
    · rw [if_pos h1] at hs
      simp only [Option.bind_eq_bind] at hs
      cases hf : fromSelf c s (applyUtc c s (if loop = true then applyUtc c s t else t)) with
      | none => simp [hf] at hs
      | some p =>
        simp only [hf, Option.bind_some, Option.some.injEq, Prod.mk.injEq] at hs
        obtain ⟨rfl, rfl⟩ := hs
        exact .inl (fromSelf_result hf).2.1
    · rw [if_neg h1] at hs
      simp only [Option.some.injEq, Prod.mk.injEq] at hs
      left; rw [hs.1]
  | otherMsg | respExpired | syncExpired | bmc | goto | setMech | setUtc | reinit =>
    simp only [step] at hs
    repeat' split at hs
    all_goals
      simp only [Option.some.injEq, Prod.mk.injEq] at hs
      obtain ⟨rfl, rfl⟩ := hs
      first
      | exact .inl rfl
      | exact .inr rfl
  | reqExpired x =>
    simp only [step] at hs
    split at hs <;> simp only [Option.some.injEq, Prod.mk.injEq] at hs <;>
      obtain ⟨rfl, rfl⟩ := hs
    · left; cases x <;> rfl
    · left; rfl

theorem smallUtc_hist {c : Cfg} {s0 s : State} {tr : List Entry} (h : Hist c s0 s tr)
    (h0 : SmallUtc s0.utc) (ht : ∀ e ∈ tr, SaneEvent e.ev) : SmallUtc s.utc := by
  induction h with
  | nil => exact h0
  | snoc hh hs ih =>
    rename_i s s' tr e o
    have ih := ih (fun x hx => ht x (List.mem_append_left _ hx))
    rcases utc_step hs with h | h
    · rw [h]; exact ih
    · have := ht ⟨s, e, o⟩ (by simp)
      rw [h] at this
      exact this

end Verif.Slave
