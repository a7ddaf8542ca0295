import Verif.Peer.Spec

/-! Lemmas about the model of the messages sent by a port. -/

set_option linter.unusedSimpArgs false
set_option linter.unusedVariables false

namespace Verif.Peer

open Verif.Slave (PortId PState Mech Utc Ticket)

/-! ## Histories built at the end -/

/-- Histories, by their last event. -/
inductive Hist (c : Cfg) (s0 : State) : State → List Entry → Prop
  | nil : Hist c s0 s0 []
  | snoc {s tr} (e : Event) : Hist c s0 s tr →
      Hist c s0 (step c s e).1 (tr ++ [⟨s, e, (step c s e).2⟩])

theorem Hist.run_from {c : Cfg} {s0 : State} : ∀ (es : List Event) (s : State) (tr : List Entry),
    Hist c s0 s tr → Hist c s0 (run c s es).1 (tr ++ (run c s es).2)
  | [], s, tr, hh => by simpa [run] using hh
  | e :: es, s, tr, hh => by
    have := Hist.run_from es _ _ (hh.snoc e)
    simpa [run] using this

theorem run_hist (c : Cfg) (s0 : State) (es : List Event) :
    Hist c s0 (run c s0 es).1 (run c s0 es).2 := by
  simpa using Hist.run_from es s0 [] .nil

theorem Hist.split {c : Cfg} {s0 s : State} {tr : List Entry} (h : Hist c s0 s tr) :
    ∀ {pre : List Entry} {e : Entry} {post : List Entry}, tr = pre ++ e :: post →
      Hist c s0 e.before pre ∧ e.outs = (step c e.before e.ev).2 := by
  induction h with
  | nil => intro pre e post h; simp at h
  | snoc ev hh ih =>
    intro pre x post h
    rcases List.eq_nil_or_concat post with rfl | ⟨q, y, rfl⟩
    · have := List.append_inj' h rfl
      obtain ⟨rfl, h2⟩ := this
      simp only [List.cons.injEq, and_true] at h2
      subst h2
      exact ⟨hh, rfl⟩
    · rw [List.concat_eq_append, ← List.cons_append, ← List.append_assoc] at h
      have := List.append_inj' h rfl
      exact ih this.1

/-! ## Times -/

theorem applyUtc_eq (c : Cfg) (s : State) (t : Int) :
    applyUtc c s t = t + secs (shift c s) := by
  unfold applyUtc shift secs second
  by_cases hm : s.port = .master
  · by_cases hv : s.utc.valid = true ∧ s.utc.timescale = true
    · obtain ⟨h1, h2⟩ := hv
      simp [hm, h1, h2]; omega
    · have : (s.utc.valid && s.utc.timescale) = false := by
        cases h1 : s.utc.valid <;> cases h2 : s.utc.timescale <;> simp_all
      simp only [hm, this]
      simp [hv]
  · by_cases hv : s.utc.valid = true ∨ c.alwaysUtc = true
    · have : (s.utc.valid || c.alwaysUtc) = true := by simpa using hv
      simp [hm, this, hv]; omega
    · have : (s.utc.valid || c.alwaysUtc) = false := by simpa using hv
      simp only [hm, this]
      simp [hm, hv]

theorem rxTime_received (c : Cfg) (s : State) (t : Int) : Received c s t (rxTime c s t) := by
  unfold Received rxTime
  rw [applyUtc_eq]
  have : secs 1 = second := by decide
  rw [this]
  split <;> omega

/-! ## What an event does to the asking side -/

/-- Neither a request nor a measurement. -/
def Plain : Out → Prop
  | .send (.preq _) => False
  | .measure .. => False
  | _ => True

/-- The asking side is unchanged, but for the ticket, which may be dropped. -/
structure Same (s s' : State) : Prop where
  waitResp : s'.waitResp = s.waitResp
  waitFollow : s'.waitFollow = s.waitFollow
  t1 : s'.t1 = s.t1
  t2 : s'.t2 = s.t2
  t4 : s'.t4 = s.t4
  reqSeq : s'.reqSeq = s.reqSeq
  respSeq : s'.respSeq = s.respSeq
  ticket : s'.reqTicket = s.reqTicket ∨ s'.reqTicket = none
  cache : ∀ tk n, lookup tk s'.cache = some (.preq, n) → lookup tk s.cache = some (.preq, n)

theorem Same.refl (s : State) : Same s s := ⟨rfl, rfl, rfl, rfl, rfl, rfl, rfl, Or.inl rfl, fun _ _ h => h⟩

/-- The events, by what they do to the asking side. -/
inductive Move (c : Cfg) (s : State) : Event → State → List Out → Prop
  | quiet (e : Event) (s' : State) (outs : List Out) (hs : Same s s') (ho : ∀ o ∈ outs, Plain o) :
      Move c s e s' outs
  | attempt (s' : State) (h1 : s'.waitResp = false) (h2 : s'.waitFollow = false)
      (h3 : s'.reqTicket = s.reqTicket) (h4 : s'.cache = s.cache) : Move c s (.reqExpired .failed) s' []
  | ask (tk : Ticket) (s' : State) (h1 : s'.waitResp = false) (h2 : s'.waitFollow = false)
      (h3 : s'.reqTicket = some tk) (h4 : lookup tk s'.cache = some (.preq, s'.reqSeq)) :
      Move c s (.reqExpired (.sent tk)) s' [.send (.preq s'.reqSeq)]
  | stamp (tk : Ticket) (raw : Int) (ok : Bool) (h1 : s.reqTicket = some tk)
      (h2 : lookup tk s.cache = some (.preq, s.reqSeq)) :
      Move c s (.txTime tk raw ok)
        { s with waitResp := true, waitFollow := false, t1 := applyUtc c s raw + c.outbound,
                 reqTicket := none } []
  | answer (h : Hdr) (len : Nat) (t2 raw : Int) (s' : State) (outs : List Out) (h0 : h.src ≠ c.self)
      (h1 : 54 ≤ len) (h2 : s.waitResp = true) (h3 : h.seq = s.reqSeq)
      (h4 : s'.waitResp = false ∧ s'.t1 = s.t1 ∧ s'.t2 = t2 ∧ s'.t4 = rxTime c s raw ∧
        s'.reqSeq = s.reqSeq ∧ s'.respSeq = s.reqSeq ∧ s'.reqTicket = s.reqTicket ∧ s'.cache = s.cache)
      (h5 : if h.twoStep then s'.waitFollow = true ∧ outs = []
        else s'.waitFollow = s.waitFollow ∧ outs = [.measure s.t1 t2 t2 (rxTime c s raw) h.corr])
      (h6 : s.mech = .p2p ∧ (s.port = .listening ∨ s.port = .slave ∨ s.port = .master)) :
      Move c s (.presp h len t2 c.self (some raw)) s' outs
  | follow (h : Hdr) (len : Nat) (t3 : Int) (s' : State) (h0 : h.src ≠ c.self) (h1 : 54 ≤ len)
      (h2 : s.waitFollow = true) (h3 : h.seq = s.reqSeq) (h3' : h.seq = s.respSeq)
      (h4 : s'.waitFollow = false ∧ s'.waitResp = s.waitResp ∧ s'.t1 = s.t1 ∧
        s'.reqSeq = s.reqSeq ∧ s'.reqTicket = s.reqTicket ∧ s'.cache = s.cache) :
      Move c s (.prespFollowUp h len t3 c.self) s' [.measure s.t1 s.t2 t3 s.t4 h.corr]

theorem same_failure (c : Cfg) (s : State) : Same s (failure c s) := by
  unfold failure toState
  exact ⟨rfl, rfl, rfl, rfl, rfl, rfl, rfl, Or.inl rfl, fun _ _ h => h⟩

theorem plain_nil : ∀ o ∈ ([] : List Out), Plain o := by simp

theorem lookup_other {tk : Ticket} {k : Kind} {m : Nat} {l : List (Ticket × Kind × Nat)}
    (hk : k ≠ .preq) (t : Ticket) (n : Nat) (h : lookup t ((tk, k, m) :: l) = some (.preq, n)) :
    lookup t l = some (.preq, n) := by
  unfold lookup at h
  split at h
  · simp only [Option.some.injEq, Prod.mk.injEq] at h
    exact absurd h.1 hk
  · exact h

theorem step_move (c : Cfg) (s : State) (e : Event) : Move c s e (step c s e).1 (step c s e).2 := by
  have stay : ∀ e, Move c s e s [] := fun e => .quiet e s [] (.refl s) plain_nil
  have fail : ∀ e, Move c s e (failure c s) [] := fun e => .quiet e _ [] (same_failure c s) plain_nil
  cases e with
  | delayReq h len t addr ok =>
    simp only [step]
    split
    · exact stay _
    · unfold handleDelayReq
      split
      · exact stay _
      · split
        · exact stay _
        · split
          · cases t with
            | none => exact stay _
            | some t =>
              simp only [Option.map_some]
              unfold issueDelayResp
              split
              · split
                · exact .quiet _ _ _ (⟨rfl, rfl, rfl, rfl, rfl, rfl, rfl, Or.inl rfl, fun _ _ h => h⟩)
                    (by simp [Plain])
                · exact fail _
              · split
                · exact stay _
                · split
                  · exact .quiet _ _ _ (⟨rfl, rfl, rfl, rfl, rfl, rfl, rfl, Or.inl rfl, fun _ _ h => h⟩)
                      (by simp [Plain])
                  · exact fail _
          · exact stay _
  | preq h len t o =>
    simp only [step]
    split
    · exact stay _
    · unfold handlePDelayReq
      split
      · exact stay _
      · split
        · exact stay _
        · split
          · cases t with
            | none => exact stay _
            | some t =>
              simp only [Option.map_some]
              unfold issuePDelayResp
              cases o with
              | failed =>
                exact .quiet _ _ _ (⟨rfl, rfl, rfl, rfl, rfl, rfl, rfl, Or.inl rfl, fun _ _ h => h⟩)
                  plain_nil
              | sent tk =>
                exact .quiet _ _ _ (⟨rfl, rfl, rfl, rfl, rfl, rfl, rfl, Or.inl rfl,
                  fun t n h => lookup_other (by decide) t n h⟩) (by simp [Plain])
          · exact stay _
  | presp h len t2 r t =>
    simp only [step]
    split
    · exact stay _
    · rename_i hself
      unfold handlePDelayResp
      split
      · exact stay _
      · rename_i hlen
        split
        · exact stay _
        · rename_i hmech
          split
          · rename_i hport
            split
            · rename_i hr
              subst hr
              cases t with
              | none => exact stay _
              | some t =>
                simp only [Option.map_some]
                split
                · exact stay _
                · rename_i hw
                  split
                  · exact stay _
                  · rename_i hq
                    have hq' : h.seq = s.reqSeq := (Classical.not_not.1 hq).symm
                    have hw' : s.waitResp = true := Classical.not_not.1 hw
                    by_cases h2 : h.twoStep = true
                    · rw [if_pos h2]
                      exact .answer h len t2 t _ _ hself (by omega) hw' hq'
                        ⟨rfl, rfl, rfl, rfl, rfl, hq', rfl, rfl⟩
                        (by rw [if_pos h2]; exact ⟨rfl, rfl⟩)
                        ⟨Classical.not_not.1 hmech, hport⟩
                    · rw [if_neg h2]
                      exact .answer h len t2 t _ _ hself (by omega) hw' hq'
                        ⟨rfl, rfl, rfl, rfl, rfl, hq', rfl, rfl⟩
                        (by rw [if_neg h2]; exact ⟨rfl, rfl⟩)
                        ⟨Classical.not_not.1 hmech, hport⟩
            · exact stay _
          · exact stay _
  | prespFollowUp h len t3 r =>
    simp only [step]
    split
    · exact stay _
    · rename_i hself
      unfold handlePDelayRespFollowUp
      split
      · exact stay _
      · split
        · exact stay _
        · split
          · split
            · rename_i hr
              subst hr
              split
              · exact stay _
              · rename_i hw
                split
                · exact stay _
                · rename_i hq
                  have hq1 : h.seq = s.reqSeq := Classical.byContradiction fun h => hq (Or.inl h)
                  have hq2 : h.seq = s.respSeq := Classical.byContradiction fun h => hq (Or.inr h)
                  exact .follow h len t3 _ hself (by omega) (Classical.not_not.1 hw) hq1 hq2
                    ⟨rfl, rfl, rfl, rfl, rfl, rfl⟩
            · exact stay _
          · exact stay _
  | txTime tk t ok =>
    simp only [step, txTime]
    split
    · exact stay _
    · split
      · unfold issueFollowup
        split
        · exact .quiet _ _ _ (⟨rfl, rfl, rfl, rfl, rfl, rfl, rfl, Or.inl rfl, fun _ _ h => h⟩)
            (by simp [Plain])
        · exact .quiet _ _ _ (⟨rfl, rfl, rfl, rfl, rfl, rfl, rfl, Or.inl rfl, fun _ _ h => h⟩)
            plain_nil
      · exact stay _
    · rename_i n hl
      split
      · rename_i hh
        exact .stamp tk t ok hh.1 (by rw [hl, hh.2])
      · exact stay _
    · split
      · unfold issuePDelayRespFollowUp
        split
        · exact .quiet _ _ _ (⟨rfl, rfl, rfl, rfl, rfl, rfl, rfl, Or.inl rfl, fun _ _ h => h⟩)
            (by simp [Plain])
        · exact .quiet _ _ _ (⟨rfl, rfl, rfl, rfl, rfl, rfl, rfl, Or.inl rfl, fun _ _ h => h⟩)
            plain_nil
      · exact stay _
  | syncExpired o =>
    simp only [step]
    split
    · unfold issueSync
      cases o with
      | failed =>
        exact .quiet _ _ _ (⟨rfl, rfl, rfl, rfl, rfl, rfl, rfl, Or.inl rfl, fun _ _ h => h⟩) plain_nil
      | sent tk =>
        exact .quiet _ _ _ (⟨rfl, rfl, rfl, rfl, rfl, rfl, rfl, Or.inl rfl,
                  fun t n h => lookup_other (by decide) t n h⟩) (by simp [Plain])
    · exact stay _
  | announceExpired ok =>
    simp only [step]
    split
    · unfold issueAnnounce
      split
      · exact .quiet _ _ _ (⟨rfl, rfl, rfl, rfl, rfl, rfl, rfl, Or.inl rfl, fun _ _ h => h⟩)
          (by simp [Plain])
      · exact fail _
    · exact stay _
  | reqExpired o =>
    simp only [step]
    split
    · unfold issuePDelayReq
      cases o with
      | failed => exact .attempt _ rfl rfl rfl rfl
      | sent tk => exact .ask tk _ rfl rfl rfl (by simp [expect, lookup])
    · exact stay _
  | respExpired =>
    simp only [step]
    split
    · exact .quiet _ _ _ (⟨rfl, rfl, rfl, rfl, rfl, rfl, rfl, Or.inl rfl, fun _ _ h => h⟩)
          (by simp [Plain])
    · exact stay _
  | goto p u m =>
    exact .quiet _ _ _ (⟨rfl, rfl, rfl, rfl, rfl, rfl, rfl, Or.inl rfl, fun _ _ h => h⟩) plain_nil
  | setMech m =>
    exact .quiet _ _ _ (⟨rfl, rfl, rfl, rfl, rfl, rfl, rfl, Or.inl rfl, fun _ _ h => h⟩) plain_nil
  | setUtc u =>
    exact .quiet _ _ _ (⟨rfl, rfl, rfl, rfl, rfl, rfl, rfl, Or.inl rfl, fun _ _ h => h⟩) plain_nil
  | reinit =>
    simp only [step]
    split
    · exact .quiet _ _ _ (⟨rfl, rfl, rfl, rfl, rfl, rfl, rfl, Or.inr rfl, fun _ _ h => h⟩) plain_nil
    · exact stay _

/-! ## The invariant of the asking side -/

/-- Nothing begins or ends at the entry last added. -/
theorem not_asks {s : State} {e : Event} {outs : List Out} (h : ∀ o ∈ outs, Plain o) :
    ¬ Turns ⟨s, e, outs⟩ := by
  rintro (⟨m, hm, hp⟩ | ⟨t1, t2, t3, t4, corr, hm⟩)
  · have := h _ hm
    cases m <;> simp_all [Plain]
  · exact h _ hm

theorem Open.snoc {c : Cfg} {pre : List Entry} {n : Nat} {t1 : Int} {m : List Entry} {e : Entry}
    (h : Open c pre n t1 m) (he : ¬ Turns e) : Open c (pre ++ [e]) n t1 (m ++ [e]) := by
  obtain ⟨a, r, b, x, tk, h1, h2, h3, h4, h5⟩ := h
  refine ⟨a, r, b, x, tk, by simp [h1], h2, h3, h4, ?_⟩
  intro y hy
  rcases List.mem_append.1 hy with hy | hy
  · exact h5 y hy
  · rw [List.mem_singleton.1 hy]; exact he

/-- The request whose transmit time is awaited. -/
def Awaited (s : State) (tr : List Entry) : Prop :=
  ∀ tk n, s.reqTicket = some tk → lookup tk s.cache = some (.preq, n) →
    ∃ a r b, tr = a ++ r :: b ∧ Asked r n tk ∧ ∀ e ∈ b, ¬ Turns e

/-- A Pdelay_Resp in two steps that has been accepted. -/
def Half (c : Cfg) (s : State) (tr : List Entry) : Prop :=
  s.waitFollow = true → ∃ m p m' h, Open c tr s.reqSeq s.t1 (m ++ p :: m') ∧
    Answer c p h s.t2 s.t4 ∧ h.seq = s.reqSeq ∧ h.src ≠ c.self ∧ h.twoStep = true

structure Inv (c : Cfg) (s : State) (tr : List Entry) : Prop where
  awaited : Awaited s tr
  resp : s.waitResp = true → (∃ m, Open c tr s.reqSeq s.t1 m) ∧ s.waitFollow = false
  idle : s.waitResp = true ∨ s.waitFollow = true → s.reqTicket = none
  half : Half c s tr

theorem Awaited.mono {s s' : State} {tr : List Entry} {e : Entry} (h : Awaited s tr)
    (ht : s'.reqTicket = s.reqTicket ∨ s'.reqTicket = none)
    (hc : ∀ tk n, lookup tk s'.cache = some (.preq, n) → lookup tk s.cache = some (.preq, n))
    (he : ¬ Turns e) : Awaited s' (tr ++ [e]) := by
  intro tk n h1 h2
  rcases ht with ht | ht
  · obtain ⟨a, r, b, hb1, hb2, hb3⟩ := h tk n (ht ▸ h1) (hc tk n h2)
    refine ⟨a, r, b ++ [e], by simp [hb1], hb2, ?_⟩
    intro y hy
    rcases List.mem_append.1 hy with hy | hy
    · exact hb3 y hy
    · rw [List.mem_singleton.1 hy]; exact he
  · rw [ht] at h1; cases h1

theorem Awaited.none {s : State} {tr : List Entry} (h : s.reqTicket = none) : Awaited s tr := by
  intro tk n h1
  rw [h] at h1; cases h1

theorem Inv.step {c : Cfg} {s : State} {tr : List Entry} (hi : Inv c s tr) {e : Event} {s' : State}
    {outs : List Out} (hm : Move c s e s' outs) : Inv c s' (tr ++ [⟨s, e, outs⟩]) := by
  cases hm with
  | quiet e s' outs hs ho =>
    have na : ¬ Turns ⟨s, e, outs⟩ := not_asks ho
    refine ⟨hi.awaited.mono hs.ticket hs.cache na, ?_, ?_, ?_⟩
    · intro hw
      obtain ⟨⟨m, hm⟩, hf⟩ := hi.resp (hs.waitResp ▸ hw)
      refine ⟨⟨m ++ [⟨s, e, outs⟩], ?_⟩, hs.waitFollow ▸ hf⟩
      rw [hs.reqSeq, hs.t1]
      exact hm.snoc na
    · intro hw
      rw [hs.waitResp, hs.waitFollow] at hw
      have := hi.idle hw
      rcases hs.ticket with h | h <;> simp [h, this]
    · intro hw
      obtain ⟨m, p, m', h, ho', ha, hq, hsrc, h2⟩ := hi.half (hs.waitFollow ▸ hw)
      refine ⟨m, p, m' ++ [⟨s, e, outs⟩], h, ?_, ?_, ?_, hsrc, h2⟩
      · rw [hs.reqSeq, hs.t1]
        have := ho'.snoc na
        simpa using this
      · rw [hs.t2, hs.t4]; exact ha
      · rw [hs.reqSeq]; exact hq
  | attempt _ h1 h2 h3 h4 =>
    refine ⟨hi.awaited.mono (Or.inl h3) (by rw [h4]; exact fun _ _ h => h) (not_asks plain_nil),
      ?_, ?_, ?_⟩
    · intro h; rw [h1] at h; cases h
    · rintro (h | h)
      · rw [h1] at h; cases h
      · rw [h2] at h; cases h
    · intro h; rw [h2] at h; cases h
  | ask tk _ h1 h2 h3 h4 =>
    refine ⟨?_, ?_, ?_, ?_⟩
    · intro tk' n ht hl
      rw [h3] at ht
      cases ht
      rw [h4] at hl
      cases hl
      exact ⟨tr, _, [], rfl, ⟨rfl, by simp⟩, by simp⟩
    · intro h; rw [h1] at h; cases h
    · rintro (h | h)
      · rw [h1] at h; cases h
      · rw [h2] at h; cases h
    · intro h; rw [h2] at h; cases h
  | stamp tk raw ok h1 h2 =>
    refine ⟨Awaited.none rfl, ?_, fun _ => rfl, fun h => (by cases h)⟩
    intro _
    obtain ⟨a, r, b, hb1, hb2, hb3⟩ := hi.awaited tk _ h1 h2
    refine ⟨⟨[], a, r, b, ⟨s, .txTime tk raw ok, []⟩, tk, by rw [hb1]; simp, hb2, ?_, hb3,
      by simp⟩, rfl⟩
    exact ⟨raw, ok, rfl, by rw [← applyUtc_eq]⟩
  | answer h len t2 raw _ _ h0 h1 h2 h3 h4 h5 h6 =>
    obtain ⟨e1, e2, e3, e4, e5, e6, e7, e8⟩ := h4
    refine ⟨Awaited.none (e7.trans (hi.idle (Or.inl h2))), ?_,
      fun _ => e7.trans (hi.idle (Or.inl h2)), ?_⟩
    · intro hw; rw [e1] at hw; cases hw
    · intro hw
      obtain ⟨⟨m, hm⟩, hf⟩ := hi.resp h2
      have h2s : h.twoStep = true := by
        cases hts : h.twoStep with
        | true => rfl
        | false =>
          rw [if_neg (by simp [hts])] at h5
          rw [h5.1, hf] at hw; cases hw
      rw [if_pos h2s] at h5
      have na : ¬ Turns ⟨s, .presp h len t2 c.self (some raw), outs⟩ := by
        rw [h5.2]; exact not_asks plain_nil
      refine ⟨m, ⟨s, .presp h len t2 c.self (some raw), outs⟩, [], h, ?_,
        ⟨len, raw, by rw [e3], h1, ?_⟩, by rw [h3, e5], h0, h2s⟩
      · rw [e5, e2]; exact hm.snoc na
      · rw [e4]; exact rxTime_received c s raw
  | follow h len t3 _ h0 h1 h2 h3 h3' h4 =>
    obtain ⟨e1, e2, e3, e5, e7, e8⟩ := h4
    refine ⟨Awaited.none (e7.trans (hi.idle (Or.inr h2))), ?_,
      fun _ => e7.trans (hi.idle (Or.inr h2)), ?_⟩
    · intro hw
      have := (hi.resp (e2 ▸ hw)).2
      rw [h2] at this; cases this
    · intro hw; rw [e1] at hw; cases hw

/-- Nothing pending on the asking side. -/
def Idle (s : State) : Prop := s.reqTicket = none ∧ s.waitResp = false ∧ s.waitFollow = false

theorem Hist.inv {c : Cfg} {s0 s : State} {tr : List Entry} (h : Hist c s0 s tr) (h0 : Idle s0) :
    Inv c s tr := by
  induction h with
  | nil =>
    obtain ⟨a, b, d⟩ := h0
    exact ⟨fun tk n h => (by rw [a] at h; cases h), fun h => (by rw [b] at h; cases h),
      fun _ => a, fun h => (by rw [d] at h; cases h)⟩
  | snoc e hh ih => exact ih.step (step_move c _ e)

end Verif.Peer
