import Verif.Peer.Support
import Mathlib.Data.List.Induction

/-! Lemmas about the model of the messages sent by a port: the sides of the
Syncs and of the answers to Pdelay_Reqs, the counters and the timers. -/

set_option linter.unusedSimpArgs false
set_option linter.unusedVariables false
set_option linter.unusedTactic false
set_option linter.unreachableTactic false

namespace Verif.Peer

open Verif.Slave (PortId PState Mech Utc Ticket)

/-! ## Measurements -/

theorem measured {c : Cfg} {s0 s : State} {tr : List Entry} (hh : Hist c s0 s tr) (h0 : Idle s0)
    {pre post : List Entry} {e : Entry} (ht : tr = pre ++ e :: post) {t1 t2 t3 t4 corr : Int}
    (hm : Out.measure t1 t2 t3 t4 corr ∈ e.outs) :
    ∃ n m, Open c pre n t1 m ∧
      ((∃ h, Answer c e h t2 t4 ∧ h.seq = n ∧ h.src ≠ c.self ∧ h.twoStep = false ∧ t3 = t2 ∧
          corr = h.corr) ∨
       (∃ m1 p m2 h g, m = m1 ++ p :: m2 ∧ Answer c p h t2 t4 ∧ h.seq = n ∧ h.src ≠ c.self ∧
          h.twoStep = true ∧ Completes c e g t3 ∧ g.seq = n ∧ g.src ≠ c.self ∧ corr = g.corr)) := by
  obtain ⟨hp, ho⟩ := hh.split ht
  have hi := hp.inv h0
  obtain ⟨s, ev, outs⟩ := e
  simp only at ho hm hp hi
  rw [ho] at hm
  have mv := step_move c s ev
  generalize (step c s ev).1 = s' at mv
  rw [← ho] at mv hm
  cases mv with
  | quiet _ _ _ hs hq => exact absurd (hq _ hm) (by simp [Plain])
  | attempt => cases hm
  | ask => simp at hm
  | stamp => cases hm
  | answer h len t2' raw _ _ h0' h1 h2 h3 h4 h5 h6 =>
    cases hts : h.twoStep with
    | true => rw [if_pos hts] at h5; rw [h5.2] at hm; cases hm
    | false =>
      rw [if_neg (by simp [hts])] at h5
      rw [h5.2] at hm
      simp only [List.mem_singleton, Out.measure.injEq] at hm
      obtain ⟨a1, a2, a3, a4, a5⟩ := hm
      obtain ⟨⟨m, hop⟩, _⟩ := hi.resp h2
      refine ⟨s.reqSeq, m, a1 ▸ hop, Or.inl ⟨h, ⟨len, raw, ?_, h1, ?_⟩, h3, h0', hts, ?_, a5⟩⟩
      · rw [a2]
      · rw [a4]; exact rxTime_received c s raw
      · rw [a3, a2]
  | follow h len t3' _ h0' h1 h2 h3 h3' h4 =>
    simp only [List.mem_singleton, Out.measure.injEq] at hm
    obtain ⟨a1, a2, a3, a4, a5⟩ := hm
    obtain ⟨m, p, m', g, hop, ha, hq, hsrc, hts⟩ := hi.half h2
    refine ⟨s.reqSeq, m ++ p :: m', a1 ▸ hop, Or.inr ⟨m, p, m', g, h, rfl, ?_, hq, hsrc, hts,
      ⟨len, ?_, h1⟩, h3, h0', a5⟩⟩
    · rw [a2, a4]; exact ha
    · rw [a3]

/-! ## Counters -/

/-- The messages of a sort among some outputs. -/
def tally (P : Msg → Bool) (l : List Out) : Nat :=
  l.countP (fun o => match o with | .send m => P m | _ => false)

theorem count_snoc (P : Msg → Bool) (tr : List Entry) (e : Entry) :
    count P (tr ++ [e]) = count P tr + tally P e.outs := by
  simp [count, tally, List.countP_append]
  rfl

/-- What the counters count. -/
structure Counts (s s' : State) (outs : List Out) : Prop where
  announce : s'.nAnnounce = s.nAnnounce + tally isAnnounce outs
  sync : s'.nSync = s.nSync + tally isSync outs
  followUp : s'.nFollowUp = s.nFollowUp + tally isFollowUp outs
  preq : s'.nPreq = s.nPreq + tally isPreq outs
  presp : s'.nPresp = s.nPresp + tally isPresp outs +
    tally isDelayResp outs
  prespFollowUp : s'.nPrespFollowUp = s.nPrespFollowUp +
    tally isPrespFollowUp outs
  delayResp : s'.nDelayResp = s.nDelayResp

theorem step_counts (c : Cfg) (s : State) (e : Event) : Counts s (step c s e).1 (step c s e).2 := by
  cases e with
  | delayReq h len t addr ok =>
    simp only [step, handleDelayReq, issueDelayResp]
    repeat' split
    all_goals exact ⟨rfl, rfl, rfl, rfl, rfl, rfl, rfl⟩
  | preq h len t o =>
    simp only [step, handlePDelayReq, issuePDelayResp]
    repeat' split
    all_goals exact ⟨rfl, rfl, rfl, rfl, rfl, rfl, rfl⟩
  | presp h len t2 r t =>
    simp only [step, handlePDelayResp]
    repeat' split
    all_goals exact ⟨rfl, rfl, rfl, rfl, rfl, rfl, rfl⟩
  | prespFollowUp h len t3 r =>
    simp only [step, handlePDelayRespFollowUp]
    repeat' split
    all_goals exact ⟨rfl, rfl, rfl, rfl, rfl, rfl, rfl⟩
  | txTime tk t ok =>
    simp only [step, txTime, issueFollowup, issuePDelayRespFollowUp]
    repeat' split
    all_goals exact ⟨rfl, rfl, rfl, rfl, rfl, rfl, rfl⟩
  | syncExpired o =>
    simp only [step, issueSync]
    repeat' split
    all_goals exact ⟨rfl, rfl, rfl, rfl, rfl, rfl, rfl⟩
  | announceExpired ok =>
    simp only [step, issueAnnounce]
    repeat' split
    all_goals exact ⟨rfl, rfl, rfl, rfl, rfl, rfl, rfl⟩
  | reqExpired o =>
    simp only [step, issuePDelayReq]
    repeat' split
    all_goals exact ⟨rfl, rfl, rfl, rfl, rfl, rfl, rfl⟩
  | respExpired =>
    simp only [step]
    repeat' split
    all_goals exact ⟨rfl, rfl, rfl, rfl, rfl, rfl, rfl⟩
  | reinit =>
    simp only [step]
    repeat' split
    all_goals exact ⟨rfl, rfl, rfl, rfl, rfl, rfl, rfl⟩
  | _ => exact ⟨rfl, rfl, rfl, rfl, rfl, rfl, rfl⟩

/-! ## Sequence numbers -/

/-- What happens to the sequence numbers. -/
structure Numbers (s s' : State) (e : Event) (outs : List Out) : Prop where
  announce : (s'.annSeq = s.annSeq ∧ ∀ n, .send (.announce n) ∉ outs) ∨
    (outs = [.send (.announce s.annSeq)] ∧ s'.annSeq = next s.annSeq)
  sync : (s'.syncSeq = s.syncSeq ∧ ∀ n, .send (.sync n) ∉ outs) ∨
    (outs = [.send (.sync s'.syncSeq)] ∧ s'.syncSeq = next s.syncSeq) ∨
    (outs = [] ∧ e = .syncExpired .failed)
  preq : (s'.reqSeq = s.reqSeq ∧ ∀ n, .send (.preq n) ∉ outs) ∨
    (outs = [.send (.preq s'.reqSeq)] ∧ s'.reqSeq = next s.reqSeq) ∨
    (outs = [] ∧ e = .reqExpired .failed)

theorem step_numbers (c : Cfg) (s : State) (e : Event) :
    Numbers s (step c s e).1 e (step c s e).2 := by
  cases e with
  | delayReq h len t addr ok =>
    simp only [step, handleDelayReq, issueDelayResp]
    repeat' split
    all_goals exact ⟨Or.inl ⟨rfl, by simp⟩, Or.inl ⟨rfl, by simp⟩, Or.inl ⟨rfl, by simp⟩⟩
  | preq h len t o =>
    simp only [step, handlePDelayReq, issuePDelayResp]
    repeat' split
    all_goals exact ⟨Or.inl ⟨rfl, by simp⟩, Or.inl ⟨rfl, by simp⟩, Or.inl ⟨rfl, by simp⟩⟩
  | presp h len t2 r t =>
    simp only [step, handlePDelayResp]
    repeat' split
    all_goals exact ⟨Or.inl ⟨rfl, by simp⟩, Or.inl ⟨rfl, by simp⟩, Or.inl ⟨rfl, by simp⟩⟩
  | prespFollowUp h len t3 r =>
    simp only [step, handlePDelayRespFollowUp]
    repeat' split
    all_goals exact ⟨Or.inl ⟨rfl, by simp⟩, Or.inl ⟨rfl, by simp⟩, Or.inl ⟨rfl, by simp⟩⟩
  | txTime tk t ok =>
    simp only [step, txTime, issueFollowup, issuePDelayRespFollowUp]
    repeat' split
    all_goals exact ⟨Or.inl ⟨rfl, by simp⟩, Or.inl ⟨rfl, by simp⟩, Or.inl ⟨rfl, by simp⟩⟩
  | syncExpired o =>
    simp only [step]
    split
    · cases o with
      | failed => exact ⟨Or.inl ⟨rfl, by simp [issueSync]⟩, Or.inr (Or.inr ⟨rfl, rfl⟩),
          Or.inl ⟨rfl, by simp [issueSync]⟩⟩
      | sent tk => exact ⟨Or.inl ⟨rfl, by simp [issueSync]⟩, Or.inr (Or.inl ⟨rfl, rfl⟩),
          Or.inl ⟨rfl, by simp [issueSync]⟩⟩
    · exact ⟨Or.inl ⟨rfl, by simp⟩, Or.inl ⟨rfl, by simp⟩, Or.inl ⟨rfl, by simp⟩⟩
  | announceExpired ok =>
    simp only [step]
    split
    · cases ok with
      | false => exact ⟨Or.inl ⟨rfl, by simp [issueAnnounce]⟩, Or.inl ⟨rfl, by simp [issueAnnounce]⟩,
          Or.inl ⟨rfl, by simp [issueAnnounce]⟩⟩
      | true => exact ⟨Or.inr ⟨rfl, rfl⟩, Or.inl ⟨rfl, by simp [issueAnnounce]⟩,
          Or.inl ⟨rfl, by simp [issueAnnounce]⟩⟩
    · exact ⟨Or.inl ⟨rfl, by simp⟩, Or.inl ⟨rfl, by simp⟩, Or.inl ⟨rfl, by simp⟩⟩
  | reqExpired o =>
    simp only [step]
    split
    · cases o with
      | failed => exact ⟨Or.inl ⟨rfl, by simp [issuePDelayReq]⟩, Or.inl ⟨rfl, by simp [issuePDelayReq]⟩,
          Or.inr (Or.inr ⟨rfl, rfl⟩)⟩
      | sent tk => exact ⟨Or.inl ⟨rfl, by simp [issuePDelayReq]⟩,
          Or.inl ⟨rfl, by simp [issuePDelayReq]⟩, Or.inr (Or.inl ⟨rfl, rfl⟩)⟩
    · exact ⟨Or.inl ⟨rfl, by simp⟩, Or.inl ⟨rfl, by simp⟩, Or.inl ⟨rfl, by simp⟩⟩
  | respExpired =>
    simp only [step]
    repeat' split
    all_goals exact ⟨Or.inl ⟨rfl, by simp⟩, Or.inl ⟨rfl, by simp⟩, Or.inl ⟨rfl, by simp⟩⟩
  | reinit =>
    simp only [step]
    repeat' split
    all_goals exact ⟨Or.inl ⟨rfl, by simp⟩, Or.inl ⟨rfl, by simp⟩, Or.inl ⟨rfl, by simp⟩⟩
  | _ => exact ⟨Or.inl ⟨rfl, by simp [step]⟩, Or.inl ⟨rfl, by simp [step]⟩, Or.inl ⟨rfl, by simp [step]⟩⟩

theorem tally_zero {P : Msg → Bool} {l : List Out} (h : ∀ m, P m = true → Out.send m ∉ l) :
    tally P l = 0 := by
  unfold tally
  rw [List.countP_eq_zero]
  intro o ho
  cases o with
  | send m =>
    intro hc
    exact h m hc ho
  | _ => simp

theorem Hist.annSeq {c : Cfg} {s0 s : State} {tr : List Entry} (h : Hist c s0 s tr)
    (h0 : s0.annSeq = 0) :
    s.annSeq = count isAnnounce tr % 65536 := by
  induction h with
  | nil => simp [h0, count]
  | snoc e hh ih =>
    rw [count_snoc]
    rcases (step_numbers c _ e).announce with ⟨h1, h2⟩ | ⟨h1, h2⟩
    · rw [h1, ih, tally_zero]; · rfl
      intro m hm; cases m <;> simp_all [isAnnounce, isSync, isPreq]
    · rw [h2, ih]; simp only [h1]
      show next _ = (_ + 1) % 65536
      unfold next; omega

theorem Hist.syncSeq {c : Cfg} {s0 s : State} {tr : List Entry} (h : Hist c s0 s tr)
    (h0 : s0.syncSeq = 0) (hf : ∀ e ∈ tr, e.ev ≠ .syncExpired .failed) :
    s.syncSeq = count isSync tr % 65536 := by
  induction h with
  | nil => simp [h0, count]
  | snoc e hh ih =>
    have ih' := ih (fun e he => hf e (List.mem_append_left _ he))
    rw [count_snoc]
    rcases (step_numbers c _ e).sync with ⟨h1, h2⟩ | ⟨h1, h2⟩ | ⟨_, h2⟩
    · rw [h1, ih', tally_zero]; · rfl
      intro m hm; cases m <;> simp_all [isAnnounce, isSync, isPreq]
    · rw [h2, ih']; simp only [h1]
      show next _ = (_ + 1) % 65536
      unfold next; omega
    · exact absurd h2 (hf _ (List.mem_append_right _ (List.mem_singleton.2 rfl)))

theorem Hist.reqSeq {c : Cfg} {s0 s : State} {tr : List Entry} (h : Hist c s0 s tr)
    (h0 : s0.reqSeq = 0) (hf : ∀ e ∈ tr, e.ev ≠ .reqExpired .failed) :
    s.reqSeq = count isPreq tr % 65536 := by
  induction h with
  | nil => simp [h0, count]
  | snoc e hh ih =>
    have ih' := ih (fun e he => hf e (List.mem_append_left _ he))
    rw [count_snoc]
    rcases (step_numbers c _ e).preq with ⟨h1, h2⟩ | ⟨h1, h2⟩ | ⟨_, h2⟩
    · rw [h1, ih', tally_zero]; · rfl
      intro m hm; cases m <;> simp_all [isAnnounce, isSync, isPreq]
    · rw [h2, ih']; simp only [h1]
      show next _ = (_ + 1) % 65536
      unfold next; omega
    · exact absurd h2 (hf _ (List.mem_append_right _ (List.mem_singleton.2 rfl)))

/-! ## Timers -/

/-- A timer of the peer delay mechanism runs whenever it should. -/
def Ticking (s : State) : Prop :=
  s.mech = .p2p → (s.port = .listening ∨ s.port = .slave ∨ s.port = .master ∨ s.port = .passive) →
    s.reqTimer = true ∨ s.respTimer = true

theorem ticking_toState {s : State} (h : Ticking s) (p : PState) (u m : Bool) :
    Ticking (toState s p u m) := by
  intro h1 h2
  have h1' : s.mech = .p2p := h1
  have h3 := h h1'
  cases p <;> simp_all [toState]

theorem Ticking.of {s s' : State} (h : Ticking s) (h1 : s'.mech = s.mech) (h2 : s'.port = s.port)
    (h3 : s'.reqTimer = s.reqTimer) (h4 : s'.respTimer = s.respTimer) : Ticking s' := by
  intro a b
  rw [h3, h4]
  exact h (h1 ▸ a) (by rw [← h2]; exact b)

theorem Ticking.on {s : State} (h : s.reqTimer = true ∨ s.respTimer = true) : Ticking s :=
  fun _ _ => h

theorem ticking_failure {c : Cfg} {s : State} (h : Ticking s) : Ticking (failure c s) := by
  unfold failure
  exact ticking_toState h _ _ _

theorem step_ticking {c : Cfg} {s : State} {e : Event} (h : Ticking s) (he : e ≠ .setMech .p2p) :
    Ticking (step c s e).1 := by
  cases e with
  | delayReq h' len t addr ok =>
    simp only [step, handleDelayReq, issueDelayResp]
    repeat' split
    all_goals first
      | exact h
      | exact ticking_failure h
      | exact h.of rfl rfl rfl rfl
  | preq h' len t o =>
    simp only [step, handlePDelayReq, issuePDelayResp]
    repeat' split
    all_goals first
      | exact h
      | exact h.of rfl rfl rfl rfl
      | exact ticking_failure (h.of rfl rfl rfl rfl)
  | presp h' len t2 r t =>
    simp only [step, handlePDelayResp]
    repeat' split
    all_goals first
      | exact h
      | exact h.of rfl rfl rfl rfl
      | exact Ticking.on (Or.inl rfl)
  | prespFollowUp h' len t3 r =>
    simp only [step, handlePDelayRespFollowUp]
    repeat' split
    all_goals first
      | exact h
      | exact h.of rfl rfl rfl rfl
      | exact Ticking.on (Or.inl rfl)
  | txTime tk t ok =>
    simp only [step, txTime, issueFollowup, issuePDelayRespFollowUp]
    repeat' split
    all_goals first
      | exact h
      | exact h.of rfl rfl rfl rfl
      | exact (ticking_failure h).of rfl rfl rfl rfl
  | syncExpired o =>
    simp only [step, issueSync]
    repeat' split
    all_goals first
      | exact h
      | exact h.of rfl rfl rfl rfl
      | exact ticking_failure (h.of rfl rfl rfl rfl)
  | announceExpired ok =>
    simp only [step, issueAnnounce]
    repeat' split
    all_goals first
      | exact h
      | exact ticking_failure h
      | exact h.of rfl rfl rfl rfl
  | reqExpired o =>
    simp only [step, issuePDelayReq]
    repeat' split
    all_goals first
      | exact h
      | exact Ticking.on (Or.inr rfl)
      | exact ticking_failure (h.of rfl rfl rfl rfl)
  | respExpired =>
    simp only [step]
    repeat' split
    all_goals first
      | exact h
      | exact Ticking.on (Or.inl rfl)
  | goto p u m => exact ticking_toState h _ _ _
  | setMech m =>
    intro h1 h2
    simp only [step] at h1
    exact absurd (by rw [h1]) he
  | setUtc u => exact h.of rfl rfl rfl rfl
  | reinit =>
    simp only [step]
    split
    · rename_i hp
      intro _ h2
      simp [hp] at h2
    · exact h

/-! ## The side of the Syncs -/

/-- Neither a Sync nor a Follow_Up. -/
def NoSync : Out → Prop
  | .send (.sync _) => False
  | .send (.followUp ..) => False
  | _ => True

/-- The events, by what they do to the side of the Syncs. -/
inductive MoveS (c : Cfg) (s : State) : Event → State → List Out → Prop
  | quiet (e : Event) (s' : State) (outs : List Out)
      (ht : s'.syncTicket = s.syncTicket ∨ s'.syncTicket = none)
      (hc : ∀ tk n, lookup tk s'.cache = some (.sync, n) → lookup tk s.cache = some (.sync, n))
      (ho : ∀ o ∈ outs, NoSync o) : MoveS c s e s' outs
  | send (tk : Ticket) (s' : State) (n : Nat) (ht : s'.syncTicket = some tk)
      (hc : lookup tk s'.cache = some (.sync, n)) (hp : s.port = .master) :
      MoveS c s (.syncExpired (.sent tk)) s' [.send (.sync n)]
  | follow (tk : Ticket) (raw : Int) (ok : Bool) (n : Nat) (s' : State) (outs : List Out)
      (ht : s.syncTicket = some tk) (hc : lookup tk s.cache = some (.sync, n))
      (ht' : s'.syncTicket = none) (hc' : s'.cache = s.cache)
      (ho : outs = if ok then [.send (.followUp n (applyUtc c s raw + c.outbound))] else []) :
      MoveS c s (.txTime tk raw ok) s' outs

theorem lookup_other' {tk : Ticket} {k k' : Kind} {m : Nat} {l : List (Ticket × Kind × Nat)}
    (hk : k ≠ k') (t : Ticket) (n : Nat) (h : lookup t ((tk, k, m) :: l) = some (k', n)) :
    lookup t l = some (k', n) := by
  unfold lookup at h
  split at h
  · simp only [Option.some.injEq, Prod.mk.injEq] at h
    exact absurd h.1 hk
  · exact h

theorem noSync_nil : ∀ o ∈ ([] : List Out), NoSync o := by simp

theorem step_moveS (c : Cfg) (s : State) (e : Event) : MoveS c s e (step c s e).1 (step c s e).2 := by
  cases e with
  | delayReq h len t addr ok =>
    simp only [step, handleDelayReq, issueDelayResp]
    repeat' split
    all_goals exact .quiet _ _ _ (Or.inl rfl) (fun _ _ h => h) (by simp [NoSync])
  | preq h len t o =>
    simp only [step, handlePDelayReq, issuePDelayResp]
    repeat' split
    all_goals first
      | exact .quiet _ _ _ (Or.inl rfl) (fun _ _ h => h) (by simp [NoSync])
      | exact .quiet _ _ _ (Or.inl rfl) (fun t n h => lookup_other' (by decide) t n h) (by simp [NoSync])
  | presp h len t2 r t =>
    simp only [step, handlePDelayResp]
    repeat' split
    all_goals exact .quiet _ _ _ (Or.inl rfl) (fun _ _ h => h) (by simp [NoSync])
  | prespFollowUp h len t3 r =>
    simp only [step, handlePDelayRespFollowUp]
    repeat' split
    all_goals exact .quiet _ _ _ (Or.inl rfl) (fun _ _ h => h) (by simp [NoSync])
  | txTime tk t ok =>
    simp only [step, txTime]
    split
    · exact .quiet _ _ _ (Or.inl rfl) (fun _ _ h => h) (by simp [NoSync])
    · rename_i n hl
      split
      · rename_i hh
        refine .follow tk t ok n _ _ hh.1 hl rfl ?_ ?_
        · unfold issueFollowup; split <;> rfl
        · unfold issueFollowup; split <;> rfl
      · exact .quiet _ _ _ (Or.inl rfl) (fun _ _ h => h) (by simp [NoSync])
    · split
      · exact .quiet _ _ _ (Or.inl rfl) (fun _ _ h => h) (by simp [NoSync])
      · exact .quiet _ _ _ (Or.inl rfl) (fun _ _ h => h) (by simp [NoSync])
    · simp only [issuePDelayRespFollowUp]
      repeat' split
      all_goals exact .quiet _ _ _ (Or.inl rfl) (fun _ _ h => h) (by simp [NoSync])
  | syncExpired o =>
    simp only [step]
    split
    · rename_i hp
      cases o with
      | failed => exact .quiet _ _ _ (Or.inl rfl) (fun _ _ h => h) noSync_nil
      | sent tk => exact .send tk _ _ rfl (by simp [issueSync, expect, lookup]) hp
    · exact .quiet _ _ _ (Or.inl rfl) (fun _ _ h => h) (by simp [NoSync])
  | announceExpired ok =>
    simp only [step, issueAnnounce]
    repeat' split
    all_goals exact .quiet _ _ _ (Or.inl rfl) (fun _ _ h => h) (by simp [NoSync])
  | reqExpired o =>
    simp only [step, issuePDelayReq]
    repeat' split
    all_goals first
      | exact .quiet _ _ _ (Or.inl rfl) (fun _ _ h => h) (by simp [NoSync])
      | exact .quiet _ _ _ (Or.inl rfl) (fun t n h => lookup_other' (by decide) t n h) (by simp [NoSync])
  | respExpired =>
    simp only [step]
    repeat' split
    all_goals exact .quiet _ _ _ (Or.inl rfl) (fun _ _ h => h) (by simp [NoSync])
  | reinit =>
    simp only [step]
    split
    · exact .quiet _ _ _ (Or.inr rfl) (fun _ _ h => h) (by simp [NoSync])
    · exact .quiet _ _ _ (Or.inl rfl) (fun _ _ h => h) (by simp [NoSync])
  | _ => exact .quiet _ _ _ (Or.inl rfl) (fun _ _ h => h) (by simp [step, NoSync])

theorem not_syncTurns {s : State} {e : Event} {outs : List Out} (h : ∀ o ∈ outs, NoSync o) :
    ¬ SyncTurns ⟨s, e, outs⟩ := by
  rintro ⟨m, hm, hp⟩
  have := h _ hm
  cases m <;> simp_all [NoSync]

/-- The Sync whose transmit time is awaited. -/
def AwaitedS (s : State) (tr : List Entry) : Prop :=
  ∀ tk n, s.syncTicket = some tk → lookup tk s.cache = some (.sync, n) →
    ∃ a r b, tr = a ++ r :: b ∧ r.ev = .syncExpired (.sent tk) ∧ r.before.port = .master ∧
      r.outs = [.send (.sync n)] ∧ ∀ e ∈ b, ¬ SyncTurns e

theorem Hist.awaitedS {c : Cfg} {s0 s : State} {tr : List Entry} (h : Hist c s0 s tr)
    (h0 : s0.syncTicket = none) : AwaitedS s tr := by
  induction h with
  | nil => intro tk n h; rw [h0] at h; cases h
  | @snoc s tr ev hh ih =>
    have mv := step_moveS c s ev
    generalize (step c s ev).1 = s' at mv
    generalize (step c s ev).2 = outs at mv
    cases mv with
    | quiet _ _ _ ht hc ho =>
      intro tk n h1 h2
      rcases ht with ht | ht
      · obtain ⟨a, r, b, e1, e2, e3, e4, e5⟩ := ih tk n (ht ▸ h1) (hc _ _ h2)
        refine ⟨a, r, b ++ [⟨s, ev, outs⟩], by simp [e1], e2, e3, e4, ?_⟩
        intro y hy
        rcases List.mem_append.1 hy with hy | hy
        · exact e5 y hy
        · rw [List.mem_singleton.1 hy]; exact not_syncTurns ho
      · rw [ht] at h1; cases h1
    | send tk _ n ht hc hp =>
      intro tk' n' h1 h2
      rw [ht] at h1; cases h1
      rw [hc] at h2; cases h2
      exact ⟨tr, _, [], rfl, rfl, hp, rfl, by simp⟩
    | follow tk raw ok n _ _ ht hc ht' hc' ho =>
      intro tk' n' h1
      rw [ht'] at h1; cases h1

theorem follow_up_sent {c : Cfg} {s0 s : State} {tr : List Entry} (hh : Hist c s0 s tr)
    (h0 : s0.syncTicket = none) {pre post : List Entry} {e : Entry} (ht : tr = pre ++ e :: post)
    {n : Nat} {t : Int} (hm : Out.send (.followUp n t) ∈ e.outs) :
    ∃ a r b tk, pre = a ++ r :: b ∧ r.ev = .syncExpired (.sent tk) ∧ r.before.port = .master ∧
      r.outs = [.send (.sync n)] ∧ (∀ y ∈ b, ¬ SyncTurns y) ∧ Stamped c e tk t := by
  obtain ⟨hp, ho⟩ := hh.split ht
  have hi := hp.awaitedS h0
  obtain ⟨s, ev, outs⟩ := e
  simp only at ho hm hp hi
  have mv := step_moveS c s ev
  generalize (step c s ev).1 = s' at mv
  rw [← ho] at mv
  cases mv with
  | quiet _ _ _ _ _ hq => exact absurd (hq _ hm) (by simp [NoSync])
  | send => simp at hm
  | follow tk raw ok n' _ _ htk hc ht' hc' ho' =>
    rw [ho'] at hm
    split at hm
    · simp only [List.mem_singleton, Out.send.injEq, Msg.followUp.injEq] at hm
      obtain ⟨rfl, rfl⟩ := hm
      obtain ⟨a, r, b, e1, e2, e3, e4, e5⟩ := hi tk n htk hc
      exact ⟨a, r, b, tk, e1, e2, e3, e4, e5, raw, ok, rfl, by rw [applyUtc_eq]⟩
    · cases hm

/-! ## The side of the answers -/

/-- Neither a Pdelay_Resp nor its follow-up. -/
def NoResp : Out → Prop
  | .send (.presp ..) => False
  | .send (.prespFollowUp ..) => False
  | _ => True

/-- The events, by what they do to the side of the answers. -/
inductive MoveP (c : Cfg) (s : State) : Event → State → List Out → Prop
  | quiet (e : Event) (s' : State) (outs : List Out)
      (ht : s'.prespTicket = s.prespTicket ∨ s'.prespTicket = none)
      (hc : ∀ tk n, lookup tk s'.cache = some (.presp, n) → lookup tk s.cache = some (.presp, n))
      (hh : s'.preqHdr = s.preqHdr) (ho : ∀ o ∈ outs, NoResp o) : MoveP c s e s' outs
  | fail (h : Hdr) (len : Nat) (t : Option Int) (s' : State) (ht : s'.prespTicket = s.prespTicket)
      (hc : s'.cache = s.cache) : MoveP c s (.preq h len t .failed) s' []
  | answer (h : Hdr) (len : Nat) (raw : Int) (tk : Ticket) (s' : State)
      (ht : s'.prespTicket = some tk) (hc : lookup tk s'.cache = some (.presp, h.seq))
      (hh : s'.preqHdr = h) (hs : h.src ≠ c.self) (hl : 54 ≤ len) (hm : s.mech = .p2p) :
      MoveP c s (.preq h len (some raw) (.sent tk)) s' [.send (.presp h.src h.seq (rxTime c s raw))]
  | follow (tk : Ticket) (raw : Int) (ok : Bool) (n : Nat) (s' : State) (outs : List Out)
      (ht : s.prespTicket = some tk) (hc : lookup tk s.cache = some (.presp, n))
      (ht' : s'.prespTicket = none)
      (ho : outs = if ok then [.send (.prespFollowUp s.preqHdr.src n
        (applyUtc c s raw + c.outbound) s.preqHdr.corr)] else []) :
      MoveP c s (.txTime tk raw ok) s' outs

theorem step_moveP (c : Cfg) (s : State) (e : Event) : MoveP c s e (step c s e).1 (step c s e).2 := by
  cases e with
  | delayReq h len t addr ok =>
    simp only [step, handleDelayReq, issueDelayResp]
    repeat' split
    all_goals exact .quiet _ _ _ (Or.inl rfl) (fun _ _ h => h) rfl (by simp [NoResp])
  | preq h len t o =>
    simp only [step, handlePDelayReq]
    split
    · exact .quiet _ _ _ (Or.inl rfl) (fun _ _ h => h) rfl (by simp [NoResp])
    · rename_i hself
      split
      · exact .quiet _ _ _ (Or.inl rfl) (fun _ _ h => h) rfl (by simp [NoResp])
      · split
        · exact .quiet _ _ _ (Or.inl rfl) (fun _ _ h => h) rfl (by simp [NoResp])
        · rename_i hmech
          split
          · cases t with
            | none => exact .quiet _ _ _ (Or.inl rfl) (fun _ _ h => h) rfl (by simp [NoResp])
            | some t =>
              cases o with
              | failed => exact .fail h len _ _ rfl rfl
              | sent tk =>
                exact .answer h len t tk _ rfl (by simp [issuePDelayResp, expect, lookup]) rfl hself
                  (by omega) (Classical.not_not.1 hmech)
          · exact .quiet _ _ _ (Or.inl rfl) (fun _ _ h => h) rfl (by simp [NoResp])
  | presp h len t2 r t =>
    simp only [step, handlePDelayResp]
    repeat' split
    all_goals exact .quiet _ _ _ (Or.inl rfl) (fun _ _ h => h) rfl (by simp [NoResp])
  | prespFollowUp h len t3 r =>
    simp only [step, handlePDelayRespFollowUp]
    repeat' split
    all_goals exact .quiet _ _ _ (Or.inl rfl) (fun _ _ h => h) rfl (by simp [NoResp])
  | txTime tk t ok =>
    simp only [step, txTime]
    split
    · exact .quiet _ _ _ (Or.inl rfl) (fun _ _ h => h) rfl (by simp [NoResp])
    · simp only [issueFollowup]
      repeat' split
      all_goals exact .quiet _ _ _ (Or.inl rfl) (fun _ _ h => h) rfl (by simp [NoResp])
    · split
      · exact .quiet _ _ _ (Or.inl rfl) (fun _ _ h => h) rfl (by simp [NoResp])
      · exact .quiet _ _ _ (Or.inl rfl) (fun _ _ h => h) rfl (by simp [NoResp])
    · rename_i n hl
      split
      · rename_i hh
        refine .follow tk t ok n _ _ hh hl rfl ?_
        unfold issuePDelayRespFollowUp; split <;> rfl
      · exact .quiet _ _ _ (Or.inl rfl) (fun _ _ h => h) rfl (by simp [NoResp])
  | syncExpired o =>
    simp only [step, issueSync]
    repeat' split
    all_goals first
      | exact .quiet _ _ _ (Or.inl rfl) (fun _ _ h => h) rfl (by simp [NoResp])
      | exact .quiet _ _ _ (Or.inl rfl) (fun t n h => lookup_other' (by decide) t n h) rfl
          (by simp [NoResp])
  | announceExpired ok =>
    simp only [step, issueAnnounce]
    repeat' split
    all_goals exact .quiet _ _ _ (Or.inl rfl) (fun _ _ h => h) rfl (by simp [NoResp])
  | reqExpired o =>
    simp only [step, issuePDelayReq]
    repeat' split
    all_goals first
      | exact .quiet _ _ _ (Or.inl rfl) (fun _ _ h => h) rfl (by simp [NoResp])
      | exact .quiet _ _ _ (Or.inl rfl) (fun t n h => lookup_other' (by decide) t n h) rfl
          (by simp [NoResp])
  | respExpired =>
    simp only [step]
    repeat' split
    all_goals exact .quiet _ _ _ (Or.inl rfl) (fun _ _ h => h) rfl (by simp [NoResp])
  | reinit =>
    simp only [step]
    split
    · exact .quiet _ _ _ (Or.inr rfl) (fun _ _ h => h) rfl (by simp [NoResp])
    · exact .quiet _ _ _ (Or.inl rfl) (fun _ _ h => h) rfl (by simp [NoResp])
  | _ => exact .quiet _ _ _ (Or.inl rfl) (fun _ _ h => h) rfl (by simp [step, NoResp])

theorem not_respTurns {s : State} {e : Event} {outs : List Out} (h : ∀ o ∈ outs, NoResp o) :
    ¬ RespTurns ⟨s, e, outs⟩ := by
  rintro ⟨m, hm, hp⟩
  have := h _ hm
  cases m <;> simp_all [NoResp]

/-- The response whose transmit time is awaited. -/
def AwaitedP (c : Cfg) (s : State) (tr : List Entry) : Prop :=
  ∀ tk n, s.prespTicket = some tk → lookup tk s.cache = some (.presp, n) →
    ∃ a r b h len raw t, tr = a ++ r :: b ∧ r.ev = .preq h len (some raw) (.sent tk) ∧ h.seq = n ∧
      Received c r.before raw t ∧ r.outs = [.send (.presp h.src n t)] ∧ (∀ e ∈ b, ¬ RespTurns e) ∧
      ((∀ e ∈ b, ¬ RespFails e) → s.preqHdr = h)

theorem Hist.awaitedP {c : Cfg} {s0 s : State} {tr : List Entry} (h : Hist c s0 s tr)
    (h0 : s0.prespTicket = none) : AwaitedP c s tr := by
  induction h with
  | nil => intro tk n h; rw [h0] at h; cases h
  | @snoc s tr ev hh ih =>
    have mv := step_moveP c s ev
    generalize (step c s ev).1 = s' at mv
    generalize (step c s ev).2 = outs at mv
    cases mv with
    | quiet _ _ _ ht hc hhd ho =>
      intro tk n h1 h2
      rcases ht with ht | ht
      · obtain ⟨a, r, b, h, len, raw, t, e1, e2, e3, e4, e5, e6, e7⟩ := ih tk n (ht ▸ h1) (hc _ _ h2)
        refine ⟨a, r, b ++ [⟨s, ev, outs⟩], h, len, raw, t, by simp [e1], e2, e3, e4, e5, ?_, ?_⟩
        · intro y hy
          rcases List.mem_append.1 hy with hy | hy
          · exact e6 y hy
          · rw [List.mem_singleton.1 hy]; exact not_respTurns ho
        · intro hf
          rw [hhd]
          exact e7 (fun y hy => hf y (List.mem_append_left _ hy))
      · rw [ht] at h1; cases h1
    | fail h' len' t' _ ht hc =>
      intro tk n h1 h2
      obtain ⟨a, r, b, h, len, raw, t, e1, e2, e3, e4, e5, e6, e7⟩ := ih tk n (ht ▸ h1) (hc ▸ h2)
      refine ⟨a, r, b ++ [_], h, len, raw, t, by rw [e1]; simp; rfl, e2, e3, e4, e5, ?_, ?_⟩
      · intro y hy
        rcases List.mem_append.1 hy with hy | hy
        · exact e6 y hy
        · rw [List.mem_singleton.1 hy]; exact not_respTurns (by simp)
      · intro hf
        exact absurd ⟨h', len', t', rfl⟩ (hf _ (List.mem_append_right _ (List.mem_singleton.2 rfl)))
    | answer h len raw tk _ ht hc hhd hs hl hm =>
      intro tk' n' h1 h2
      rw [ht] at h1; cases h1
      rw [hc] at h2; cases h2
      exact ⟨tr, _, [], h, len, raw, _, rfl, rfl, rfl, rxTime_received c s raw, rfl, by simp,
        fun _ => hhd⟩
    | follow tk raw ok n _ _ ht hc ht' ho =>
      intro tk' n' h1
      rw [ht'] at h1; cases h1

theorem presp_follow_up_sent {c : Cfg} {s0 s : State} {tr : List Entry} (hh : Hist c s0 s tr)
    (h0 : s0.prespTicket = none) {pre post : List Entry} {e : Entry} (ht : tr = pre ++ e :: post)
    {dst : PortId} {n : Nat} {t corr : Int} (hm : Out.send (.prespFollowUp dst n t corr) ∈ e.outs) :
    ∃ a r b tk h len raw t2, pre = a ++ r :: b ∧ r.ev = .preq h len (some raw) (.sent tk) ∧
      h.seq = n ∧ Received c r.before raw t2 ∧ r.outs = [.send (.presp h.src n t2)] ∧
      (∀ e ∈ b, ¬ RespTurns e) ∧ Stamped c e tk t ∧
      ((∀ e ∈ b, ¬ RespFails e) → dst = h.src ∧ corr = h.corr) := by
  obtain ⟨hp, ho⟩ := hh.split ht
  have hi := hp.awaitedP h0
  obtain ⟨s, ev, outs⟩ := e
  simp only at ho hm hp hi
  have mv := step_moveP c s ev
  generalize (step c s ev).1 = s' at mv
  rw [← ho] at mv
  cases mv with
  | quiet _ _ _ _ _ _ hq => exact absurd (hq _ hm) (by simp [NoResp])
  | fail => cases hm
  | answer => simp at hm
  | follow tk raw ok n' _ _ htk hc ht' ho' =>
    rw [ho'] at hm
    split at hm
    · simp only [List.mem_singleton, Out.send.injEq, Msg.prespFollowUp.injEq] at hm
      obtain ⟨rfl, rfl, rfl, rfl⟩ := hm
      obtain ⟨a, r, b, h, len, raw', t2, e1, e2, e3, e4, e5, e6, e7⟩   := hi tk n htk hc
      exact ⟨a, r, b, tk, h, len, raw', t2, e1, e2, e3, e4, e5, e6, ⟨raw, ok, rfl, by rw [applyUtc_eq]⟩,
        fun hf => by rw [e7 hf]; exact ⟨rfl, rfl⟩⟩
    · cases hm

/-! ## Keeping something through a stretch of history -/

theorem Hist.unsnoc {c : Cfg} {s0 s : State} {tr : List Entry} {y : Entry}
    (h : Hist c s0 s (tr ++ [y])) : Hist c s0 y.before tr ∧ s = (step c y.before y.ev).1 := by
  generalize hl : tr ++ [y] = l at h
  cases h with
  | nil => simp at hl
  | snoc e hh =>
    have := List.append_inj' hl rfl
    obtain ⟨rfl, h2⟩ := this
    simp only [List.cons.injEq, and_true] at h2
    subst h2
    exact ⟨hh, rfl⟩

theorem Hist.keep {c : Cfg} {s0 : State} {P : State → Prop} {a : List Entry} {r : Entry} :
    ∀ (b : List Entry) {s : State}, Hist c s0 s (a ++ r :: b) → P (step c r.before r.ev).1 →
      (∀ y ∈ b, P y.before → P (step c y.before y.ev).1) → P s := by
  intro b
  induction b using List.reverseRecOn with
  | nil =>
    intro s h hr _
    rw [(Hist.unsnoc h).2]; exact hr
  | append_singleton b y ih =>
    intro s h hr hb
    have h' : Hist c s0 s ((a ++ r :: b) ++ [y]) := by simpa using h
    obtain ⟨h1, h2⟩ := h'.unsnoc
    rw [h2]
    exact hb y (by simp) (ih h1 hr (fun z hz => hb z (by simp [hz])))

theorem lookup_skip {tk t : Ticket} {k : Kind} {m : Nat} {l : List (Ticket × Kind × Nat)}
    (h : t ≠ tk) : lookup tk ((t, k, m) :: l) = lookup tk l := by
  simp [lookup, h]

/-- A Sync is awaiting its transmit time. -/
def WaitS (tk : Ticket) (n : Nat) (s : State) : Prop :=
  s.syncTicket = some tk ∧ lookup tk s.cache = some (.sync, n) ∧ s.syncSeq = n

theorem keepS {c : Cfg} {tk : Ticket} {n : Nat} {y : Entry} (hy : CalmS tk y)
    (h : WaitS tk n y.before) : WaitS tk n (step c y.before y.ev).1 := by
  obtain ⟨s, ev, outs⟩ := y
  obtain ⟨h1, h2, h3⟩ := h
  simp only at h1 h2 h3 ⊢
  unfold CalmS at hy
  cases ev with
  | delayReq h len t addr ok =>
    simp only [step, handleDelayReq, issueDelayResp]
    repeat' split
    all_goals exact ⟨h1, h2, h3⟩
  | preq h len t o =>
    simp only [step, handlePDelayReq, issuePDelayResp]
    repeat' split
    all_goals first
      | exact ⟨h1, h2, h3⟩
      | exact ⟨h1, (lookup_skip hy).trans h2, h3⟩
  | presp h len t2 r t =>
    simp only [step, handlePDelayResp]
    repeat' split
    all_goals exact ⟨h1, h2, h3⟩
  | prespFollowUp h len t3 r =>
    simp only [step, handlePDelayRespFollowUp]
    repeat' split
    all_goals exact ⟨h1, h2, h3⟩
  | txTime t raw ok =>
    have hne : ¬ s.syncTicket = some t := by
      rw [h1]
      intro hc
      exact hy (Option.some.inj hc).symm
    simp only [step, txTime, issuePDelayRespFollowUp, hne, false_and, if_false]
    repeat' split
    all_goals exact ⟨h1, h2, h3⟩
  | syncExpired o => exact absurd hy (by simp)
  | announceExpired ok =>
    simp only [step, issueAnnounce]
    repeat' split
    all_goals exact ⟨h1, h2, h3⟩
  | reqExpired o =>
    simp only [step, issuePDelayReq]
    repeat' split
    all_goals first
      | exact ⟨h1, h2, h3⟩
      | exact ⟨h1, (lookup_skip hy).trans h2, h3⟩
  | respExpired =>
    simp only [step]
    repeat' split
    all_goals exact ⟨h1, h2, h3⟩
  | reinit => exact absurd hy (by simp)
  | _ => exact ⟨h1, h2, h3⟩

theorem follow_up_due {c : Cfg} {s0 s : State} {tr : List Entry} (hh : Hist c s0 s tr)
    {a b post : List Entry} {r e : Entry} (ht : tr = a ++ r :: (b ++ e :: post))
    {n : Nat} {tk : Ticket} (hr : r.ev = .syncExpired (.sent tk))
    (hs : Out.send (.sync n) ∈ r.outs) (hb : ∀ y ∈ b, CalmS tk y) {raw : Int}
    (he : e.ev = .txTime tk raw true) :
    e.outs = [.send (.followUp n (raw + secs (shift c e.before) + c.outbound))] := by
  obtain ⟨hp, ho⟩ := hh.split (pre := a ++ r :: b) (e := e) (post := post) (by simp [ht])
  obtain ⟨_, hro⟩ := hh.split (pre := a) (e := r) (post := b ++ e :: post) ht
  have hw : WaitS tk n e.before := by
    refine Hist.keep b hp ?_ (fun y hy h => keepS (hb y hy) h)
    rw [hro, hr] at hs
    rw [hr]
    simp only [step] at hs ⊢
    split at hs
    · rename_i hm
      rw [if_pos hm]
      simp only [issueSync, expect, List.mem_singleton, Out.send.injEq, Msg.sync.injEq] at hs ⊢
      subst hs
      exact ⟨rfl, by simp [lookup], rfl⟩
    · cases hs
  obtain ⟨h1, h2, h3⟩ := hw
  rw [ho, he]
  simp only [step, txTime, h2, h1, h3, and_self, if_true, issueFollowup, applyUtc_eq]

/-! ## Complete exchanges -/

/-- A request is awaiting its transmit time. -/
def WaitR (tk : Ticket) (n : Nat) (s : State) : Prop :=
  s.reqTicket = some tk ∧ lookup tk s.cache = some (.preq, n) ∧ s.reqSeq = n

theorem keepR {c : Cfg} {tk : Ticket} {n : Nat} {y : Entry} (hy : Calm tk y)
    (h : WaitR tk n y.before) : WaitR tk n (step c y.before y.ev).1 := by
  obtain ⟨s, ev, outs⟩ := y
  obtain ⟨h1, h2, h3⟩ := h
  simp only at h1 h2 h3 ⊢
  unfold Calm at hy
  cases ev with
  | delayReq h len t addr ok =>
    simp only [step, handleDelayReq, issueDelayResp]
    repeat' split
    all_goals exact ⟨h1, h2, h3⟩
  | preq h len t o =>
    simp only [step, handlePDelayReq, issuePDelayResp]
    repeat' split
    all_goals first
      | exact ⟨h1, h2, h3⟩
      | exact ⟨h1, (lookup_skip hy).trans h2, h3⟩
  | presp h len t2 r t => exact absurd hy (by simp)
  | prespFollowUp h len t3 r => exact absurd hy (by simp)
  | txTime t raw ok =>
    have hne : ¬ s.reqTicket = some t := by
      rw [h1]
      intro hc
      exact hy (Option.some.inj hc).symm
    simp only [step, txTime, issuePDelayRespFollowUp, issueFollowup, hne, false_and, if_false]
    repeat' split
    all_goals exact ⟨h1, h2, h3⟩
  | syncExpired o =>
    simp only [step, issueSync]
    repeat' split
    all_goals first
      | exact ⟨h1, h2, h3⟩
      | exact ⟨h1, (lookup_skip hy).trans h2, h3⟩
  | announceExpired ok =>
    simp only [step, issueAnnounce]
    repeat' split
    all_goals exact ⟨h1, h2, h3⟩
  | reqExpired o => exact absurd hy (by simp)
  | respExpired =>
    simp only [step]
    repeat' split
    all_goals exact ⟨h1, h2, h3⟩
  | reinit => exact absurd hy (by simp)
  | _ => exact ⟨h1, h2, h3⟩

/-- Calm events do nothing to the asking side once the transmit time is known. -/
theorem calm_same {c : Cfg} {tk : Ticket} {y : Entry} (hy : Calm tk y)
    (hn : y.before.reqTicket = none) : Same y.before (step c y.before y.ev).1 := by
  obtain ⟨s, ev, outs⟩ := y
  simp only at hn ⊢
  have mv := step_move c s ev
  generalize (step c s ev).1 = s' at mv
  generalize (step c s ev).2 = o at mv
  cases mv with
  | quiet _ _ _ hs _ => exact hs
  | attempt => exact absurd hy (by simp [Calm])
  | ask => exact absurd hy (by simp [Calm])
  | stamp tk raw ok h1 h2 => rw [hn] at h1; cases h1
  | answer => exact absurd hy (by simp [Calm])
  | follow => exact absurd hy (by simp [Calm])

/-- A request is awaiting an answer. -/
def WaitA (n : Nat) (s : State) : Prop :=
  s.reqTicket = none ∧ s.waitResp = true ∧ s.reqSeq = n

theorem keepA {c : Cfg} {tk : Ticket} {n : Nat} {y : Entry} (hy : Calm tk y)
    (h : WaitA n y.before) : WaitA n (step c y.before y.ev).1 := by
  have hs := calm_same (c := c) hy h.1
  refine ⟨?_, hs.waitResp.trans h.2.1, hs.reqSeq.trans h.2.2⟩
  rcases hs.ticket with ht | ht
  · rw [ht]; exact h.1
  · exact ht

/-- A request is awaiting the follow-up of its answer. -/
def WaitF (n : Nat) (s : State) : Prop :=
  s.reqTicket = none ∧ s.waitFollow = true ∧ s.reqSeq = n ∧ s.respSeq = n

theorem keepF {c : Cfg} {tk : Ticket} {n : Nat} {y : Entry} (hy : Calm tk y)
    (h : WaitF n y.before) : WaitF n (step c y.before y.ev).1 := by
  have hs := calm_same (c := c) hy h.1
  refine ⟨?_, hs.waitFollow.trans h.2.1, hs.reqSeq.trans h.2.2.1, hs.respSeq.trans h.2.2.2⟩
  rcases hs.ticket with ht | ht
  · rw [ht]; exact h.1
  · exact ht

theorem waits_answer {c : Cfg} {s0 s : State} {a b m : List Entry} {r x : Entry}
    (hh : Hist c s0 s (a ++ r :: (b ++ x :: m))) {n : Nat} {tk : Ticket} (hr : Asked r n tk)
    {raw : Int} {ok : Bool} (hx : x.ev = .txTime tk raw ok) (hb : ∀ y ∈ b, Calm tk y)
    (hm : ∀ y ∈ m, Calm tk y) : WaitA n s := by
  obtain ⟨hp, hxo⟩ := hh.split (pre := a ++ r :: b) (e := x) (post := m) (by simp)
  obtain ⟨_, hro⟩ := hh.split (pre := a) (e := r) (post := b ++ x :: m) rfl
  have hw : WaitR tk n x.before := by
    refine Hist.keep b hp ?_ (fun y hy h => keepR (hb y hy) h)
    obtain ⟨hr1, hs⟩ := hr
    rw [hro, hr1] at hs
    rw [hr1]
    simp only [step] at hs ⊢
    split at hs
    · rename_i hm
      rw [if_pos hm]
      simp only [issuePDelayReq, expect, List.mem_singleton, Out.send.injEq, Msg.preq.injEq] at hs ⊢
      subst hs
      exact ⟨rfl, by simp [lookup], rfl⟩
    · cases hs
  have hh' : Hist c s0 s ((a ++ r :: b) ++ x :: m) := by simpa using hh
  refine Hist.keep m hh' ?_ (fun y hy h => keepA (hm y hy) h)
  obtain ⟨h1, h2, h3⟩ := hw
  rw [hx]
  simp only [step, txTime, h2, h1, h3, and_self, if_true]
  exact ⟨rfl, rfl, rfl⟩

theorem answer_effect {c : Cfg} {s : State} {n : Nat} (hw : WaitA n s) (hp : Hears s) {h : Hdr}
    {len : Nat} {t2 raw : Int} (hl : 54 ≤ len) (hq : h.seq = n) (hs : h.src ≠ c.self) :
    (h.twoStep = false → ∃ t1 t4, (step c s (.presp h len t2 c.self (some raw))).2 =
      [.measure t1 t2 t2 t4 h.corr]) ∧
    (h.twoStep = true → WaitF n (step c s (.presp h len t2 c.self (some raw))).1) := by
  obtain ⟨h1, h2, h3⟩ := hw
  have hlen : ¬ len < 54 := by omega
  have hmech : ¬ s.mech ≠ .p2p := by simp [hp.1]
  have hseq : ¬ s.reqSeq ≠ h.seq := by rw [h3, hq]; simp
  have hwait : ¬ ¬ s.waitResp = true := by simp [h2]
  simp only [step, if_neg hs, handlePDelayResp, if_neg hlen, if_neg hmech, if_pos hp.2, if_true,
    Option.map_some, if_neg hwait, if_neg hseq]
  constructor
  · intro hts
    rw [if_neg (by simp [hts])]
    exact ⟨_, _, rfl⟩
  · intro hts
    rw [if_pos hts]
    exact ⟨h1, rfl, h3, hq⟩

theorem follow_effect {c : Cfg} {s : State} {n : Nat} (hw : WaitF n s) (hp : Hears s) {h : Hdr}
    {len : Nat} {t3 : Int} (hl : 54 ≤ len) (hq : h.seq = n) (hs : h.src ≠ c.self) :
    ∃ t1 t2 t4, (step c s (.prespFollowUp h len t3 c.self)).2 = [.measure t1 t2 t3 t4 h.corr] := by
  obtain ⟨h1, h2, h3, h4⟩ := hw
  have hlen : ¬ len < 54 := by omega
  have hmech : ¬ s.mech ≠ .p2p := by simp [hp.1]
  have hseq : ¬ (h.seq ≠ s.reqSeq ∨ h.seq ≠ s.respSeq) := by rw [h3, h4, hq]; simp
  have hwait : ¬ ¬ s.waitFollow = true := by simp [h2]
  simp only [step, if_neg hs, handlePDelayRespFollowUp, if_neg hlen, if_neg hmech, if_pos hp.2,
    if_true, if_neg hwait, if_neg hseq]
  exact ⟨_, _, _, rfl⟩

end Verif.Peer
