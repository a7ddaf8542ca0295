import Verif.TxCache.Support

set_option linter.unusedSimpArgs false
set_option linter.unusedVariables false

/-!
# Transmit timestamps are used for the messages they belong to
-/

namespace Verif.TxCache

/-! ## C73: the message a timestamp is used for -/

/-- A timestamp is used only for the latest message of its type sent by the port; the packet it
came with carries that message, whose sequence number is the one given; no timestamp was used for
the message before, the port was not initialised since, and no check found the message more than
ten seconds old.  Messages of the type that could not be sent may have been numbered in between,
but only a multiple of 65536 of them. -/
theorem C73_belongs (es : List Event) (a b : List (Event × Out)) (e : Event) (p n : Nat) (k : Kind)
    (ts : Int) (h : (run .init es).2 = a ++ (e, .stamp p k n ts) :: b) :
    ∃ pre mid r pdu tl now o pkt,
      a = pre ++ (.send p k r pdu tl now, o) :: mid ∧
      (∀ x ∈ mid, x.1.sends p k = false ∧ x.1 ≠ .reinit p ∧ x.2.stamps p k = false ∧
        ∀ t, x.1 = .check p t → t - now < 10 * sec) ∧
      e.reads = some (pkt, some ts) ∧ Carries pkt pdu tl ∧
      n = idOf pre p k r ∧
      (k ≠ .pdelayResp → k ≠ .monitoringSync →
        mid.countP (fun x => x.1.numbers p k) % 65536 = 0) := by
  obtain ⟨xs, ys, rfl, rfl, ho, _⟩ := run_split h
  have hi := inv_run xs
  obtain ⟨pkt, i, h1, h2, h3, h4, ⟨q, h5⟩, h6⟩ := step_stamp ho.symm
  obtain ⟨pre, mid, r, pdu, tl, now, o, e1, e2, e3⟩ := hi.tick p k _ h5
  obtain ⟨hst, hlate⟩ := e3 (by rw [h4]) (by rw [h4])
  have hn : n = idOf pre p k r := by
    have := hst.2.2.1
    rw [h4] at this
    simpa using this
  refine ⟨pre, mid, r, pdu, tl, now, o, pkt, e1, ?_, h1, ?_, hn, ?_⟩
  · intro x hx
    exact ⟨(e2 x hx).1, (e2 x hx).2.1, (e2 x hx).2.2, hlate h2 x hx⟩
  · obtain ⟨a, b, h7, h8⟩ := matchPdu_iff.1 h3
    rw [hst.1] at h7
    rw [hst.2.1] at h8
    exact ⟨a, b, h7, h8⟩
  · intro k1 k2
    have hk : k.counted = true := counted_of k k1 k2
    unfold State.seqId at h6
    rw [if_pos hk, hi.ids p k hk, hn, counted_idOf hk, e1] at h6
    unfold numberOf at h6
    rw [List.countP_append, List.countP_cons] at h6
    have : Event.numbers p k (.send p k r pdu tl now) = true := by simp [Event.numbers]
    rw [if_pos (by exact this)] at h6
    omega

/-- Two ports, messages of two types, a stale timestamp and one used. -/
def sample1 : List Event :=
  [.send 0 .delayReq 0 [1, 2] 0 0, .send 1 .sync 0 [3, 4] 2 5, .send 0 .delayReq 0 [5, 6] 0 10,
   .tx [9, 1, 2] 20 (some 7), .tx [9, 9, 3, 4, 0, 0] 21 (some 8), .tx [5, 6] 22 (some 9)]

example : (run .init sample1).2.map Prod.snd =
    [.quiet, .quiet, .quiet, .discard, .stamp 1 .sync 1 8, .stamp 0 .delayReq 2 9] := by
  decide +kernel

/-! ## C74: a timestamp retrieved is used -/

/-- What is expected: the timestamp of a message is used when it is retrieved, if no later message
of its type was sent or numbered, the port was not initialised, no packet that carries the message
was read before, no check found the message ten seconds old, fewer than 32 messages were sent
since and no other message fits the packet. -/
def C74_statement : Prop :=
  ∀ (pre mid : List Event) (p : Nat) (k : Kind) (r : Nat) (pdu : List Nat) (tl : Nat) (now : Int)
    (e : Event) (pkt : List Nat) (ts : Int),
    (∀ x ∈ mid, x.numbers p k = false ∧ x ≠ .reinit p ∧
      (∀ pkt' ts', x.reads = some (pkt', ts') → ¬ Carries pkt' pdu tl) ∧
      ∀ t, x = .check p t → t - now < 10 * sec) →
    mid.countP Event.isSend < 32 →
    e.reads = some (pkt, some ts) → Carries pkt pdu tl →
    (∀ p' k' r' pdu' tl' now', Event.send p' k' r' pdu' tl' now' ∈ pre ++ mid →
      ¬ Carries pkt pdu' tl') →
    (run .init (pre ++ .send p k r pdu tl now :: mid ++ [e])).2.getLast? =
      some (e, .stamp p k (idOf (run .init pre).2 p k r) ts)

/-- Thirty-two messages without timestamps. -/
def filler : List Event := (List.range 32).map fun i => .send 1 .sync 0 [i] 0 0

/-- When the cache is full the request dropped is the one in the first slot, not the oldest; so
the second message sent displaces the first, though 32 are older. -/
theorem C74_violated : ¬ C74_statement := by
  intro h
  have := h filler [.send 1 .sync 0 [101] 0 0] 0 .delayReq 0 [100] 0 0 (.tx [100] 0 (some 7)) [100] 7
    (by
      intro x hx
      rw [List.mem_singleton] at hx
      subst hx
      exact ⟨by decide, by simp, by simp [Event.reads], by simp⟩)
    (by decide) rfl ⟨[], [], rfl, rfl⟩
    (by
      intro p' k' r' pdu' tl' now' hm
      rintro ⟨x, y, h1, h2⟩
      have hp : pdu' = [101] ∨ ∃ i < 32, pdu' = [i] := by
        rw [List.mem_append] at hm
        rcases hm with hm | hm
        · simp only [filler, List.mem_map, List.mem_range] at hm
          obtain ⟨i, hi, he⟩ := hm
          simp only [Event.send.injEq] at he
          exact .inr ⟨i, hi, he.2.2.2.1.symm⟩
        · simp at hm
          exact .inl hm.2.2.2.1
      have hin : ∀ v ∈ pdu'.take 54, v ∈ [100] := fun v hv => by rw [h1]; simp [hv]
      rcases hp with rfl | ⟨i, hi, rfl⟩
      · have := hin 101 (by simp)
        simp at this
      · have := hin i (by simp)
        simp at this
        omega)
  exact absurd this (by decide +kernel)

/-- The timestamp of a message is used when it is retrieved, if moreover no message sent since
found the cache full. -/
theorem C74_used_partial (pre mid : List Event) (p : Nat) (k : Kind) (r : Nat) (pdu : List Nat)
    (tl : Nat) (now : Int) (e : Event) (pkt : List Nat) (ts : Int)
    (hmid : ∀ x ∈ mid, x.numbers p k = false ∧ x ≠ .reinit p ∧
      (∀ pkt' ts', x.reads = some (pkt', ts') → ¬ Carries pkt' pdu tl) ∧
      ∀ t, x = .check p t → t - now < 10 * sec)
    (hfull : ∀ x ∈ (run (run .init (pre ++ [.send p k r pdu tl now])).1 mid).2, x.2 ≠ .beyond)
    (he : e.reads = some (pkt, some ts)) (hc : Carries pkt pdu tl)
    (hno : ∀ p' k' r' pdu' tl' now', Event.send p' k' r' pdu' tl' now' ∈ pre ++ mid →
      ¬ Carries pkt pdu' tl') :
    (run .init (pre ++ .send p k r pdu tl now :: mid ++ [e])).2.getLast? =
      some (e, .stamp p k (idOf (run .init pre).2 p k r) ts) := by
  obtain ⟨sl, ho⟩ := own_send (inv_run pre) p k r pdu tl now
  rw [run_snoc] at hfull
  have ho := own_run ho mid
    (fun x hx => ⟨(hmid x hx).1, (hmid x hx).2.1, (hmid x hx).2.2.1, (hmid x hx).2.2.2⟩) hfull
  have hs := own_stamp ho he hc (by rw [run_events]; exact hno)
  have hr : (run .init (pre ++ .send p k r pdu tl now :: mid)).1 =
      (run (step (run .init pre).1 (.send p k r pdu tl now)).1 mid).1 := by
    rw [run_append]; rfl
  rw [run_snoc, hr, hs]
  simp

example : (∀ x ∈ [Event.send 1 .sync 0 [3, 4] 2 5, .check 0 6, .tx [3, 4, 0, 0] 7 (some 3)],
      x.numbers 0 .delayReq = false ∧ x ≠ .reinit 0 ∧
      (∀ pkt' ts', x.reads = some (pkt', ts') → ¬ Carries pkt' [1, 2] 0) ∧
      ∀ t, x = .check 0 t → t - 0 < 10 * sec) ∧
    Carries [9, 1, 2] [1, 2] 0 ∧
    (run .init ([.send 1 .sync 0 [8, 8] 2 5] ++ .send 0 .delayReq 0 [1, 2] 0 0 ::
      [.send 1 .sync 0 [3, 4] 2 5, .check 0 6, .tx [3, 4, 0, 0] 7 (some 3)] ++
      [.tx [9, 1, 2] 9 (some 4)])).2.getLast? = some (.tx [9, 1, 2] 9 (some 4), .stamp 0 .delayReq 1 4) := by
  refine ⟨?_, ⟨[9], [], rfl, rfl⟩, by decide +kernel⟩
  intro x hx
  simp only [List.mem_cons, List.not_mem_nil, or_false] at hx
  rcases hx with rfl | rfl | rfl
  · exact ⟨by decide, by simp, by simp [Event.reads], by simp⟩
  · refine ⟨by decide, by simp, by simp [Event.reads], ?_⟩
    intro t ht
    simp only [Event.check.injEq, true_and] at ht
    subst ht; decide
  · refine ⟨by decide, by simp, ?_, by simp⟩
    intro pkt' ts' h
    simp only [Event.reads, Option.some.injEq, Prod.mk.injEq] at h
    rw [← h.1]
    rintro ⟨a, b, h1, h2⟩
    have : ∀ v ∈ List.take 54 [1, 2], v ∈ [3, 4, 0, 0] := fun v hv => by
      rw [h1, List.mem_append, List.mem_append]; exact .inl (.inr hv)
    exact absurd (this 1 (by simp)) (by simp)

/-! ## C75: the alarm for missing timestamps -/

/-- What is expected: if a message got no timestamp within a second, a check raises the alarm of
its port. -/
def C75_statement : Prop :=
  ∀ (es : List Event) (p : Nat) (k : Kind) (r : Nat) (pdu : List Nat) (tl : Nat) (t u : Int),
    (∀ e ∈ es, ∀ v, e.time = some v → v ≤ t) → t + sec ≤ u →
    (run .init (es ++ [.send p k r pdu tl t, .check p u])).1.alarm p = true

/-- A check never raises an alarm: it compares the result so far, `TRISTATE_OFF` at the start, with
the value of `TRISTATE_OFF`, and goes on only if they differ. -/
theorem C75_violated : ¬ C75_statement := by
  intro h
  have := h [] 0 .delayReq 0 [1] 0 0 (2 * sec) (by simp) (by decide)
  exact absurd this (by decide +kernel)

/-- What the alarm tells: it is raised exactly if, of the checks for the port, its timestamps used
and its timestamps of the wrong kind, the latest was one of the wrong kind. -/
theorem C75_alarm_partial (es : List Event) (p : Nat) :
    (run .init es).1.alarm p = alarmAfter p (run .init es).2 := by
  induction es using List.reverseRecOn with
  | nil => rfl
  | append_singleton es e ih =>
    rw [run_snoc]
    simp only
    rw [alarm_step, ih]
    unfold alarmAfter
    rw [List.foldl_append]
    rfl

example : (run .init [.send 0 .delayReq 0 [1] 0 0, .tx [1] 1 none]).1.alarm 0 = true ∧
    (run .init [.send 0 .delayReq 0 [1] 0 0, .tx [1] 1 none, .check 0 2]).1.alarm 0 = false := by
  decide +kernel

/-! ## C76: the accounts of timestamps -/

theorem held_pending (c : Cache) : c.held = c.pending := by
  unfold Cache.held Cache.pending
  apply List.countP_congr
  intro i hi
  have := List.mem_range.1 hi
  simp [Cache.busy, bit, this]

/-- Since the statistics were last printed: each message sent was counted, each timestamp
retrieved was counted in one class, and the requests held then and made since are those found,
those counted as dropped and those still held. -/
theorem C76_accounts (a b : List Event) (hb : Event.report ∉ b)
    (ht : ∀ e ∈ a ++ b, ∀ t, e.time = some t → 0 ≤ t ∧ t < 2 ^ 63 * sec) :
    let s := (run .init (a ++ [.report])).1
    let r := run s b
    r.1.cache.stats.total = b.countP Event.isSend ∧
    r.1.cache.stats.resolved.sum = r.2.countP (fun x => x.2.found) ∧
    r.1.cache.held + r.1.cache.stats.evicted + r.2.countP (fun x => x.2.found) =
      s.cache.held + b.countP Event.isSend := by
  intro s r
  have hs : s.cache.stats = noStats := by
    show (run .init (a ++ [.report])).1.cache.stats = noStats
    rw [run_snoc]; rfl
  have h1 := run_acct s b hb
  have h2 := run_resolved (inv_run (a ++ [.report])) b hb (by
    show s.cache.stats.resolved.length = 7
    rw [hs]; rfl) (by
    rw [run_events]
    intro e he t het
    have := ht e (by
      rw [List.mem_append, List.mem_append] at he
      rw [List.mem_append]
      rcases he with (he | he) | he
      · exact .inl he
      · rw [List.mem_singleton] at he
        subst he; simp [Event.time] at het
      · exact .inr he) t het
    exact this)
  rw [hs] at h1
  have hz : s.cache.stats.resolved.sum = 0 := by rw [hs]; rfl
  have h2 : r.1.cache.stats.resolved.sum =
      s.cache.stats.resolved.sum + r.2.countP (fun x => x.2.found) := h2
  rw [hz] at h2
  rw [held_pending, held_pending]
  have e1 : noStats.evicted = 0 := rfl
  have e2 : noStats.total = 0 := rfl
  rw [e1, e2] at h1
  exact ⟨by have := h1.2; simpa using this, by simpa using h2, by have := h1.1; simpa using this⟩

/-- So at the start, with nothing held. -/
theorem C76_start (b : List Event) (hb : Event.report ∉ b)
    (ht : ∀ e ∈ b, ∀ t, e.time = some t → 0 ≤ t ∧ t < 2 ^ 63 * sec) :
    let r := run .init b
    r.1.cache.stats.total = b.countP Event.isSend ∧
    r.1.cache.stats.resolved.sum = r.2.countP (fun x => x.2.found) ∧
    r.1.cache.held + r.1.cache.stats.evicted + r.2.countP (fun x => x.2.found) =
      b.countP Event.isSend := by
  intro r
  have h1 := run_acct .init b hb
  have h2 := run_resolved inv_init b hb rfl (fun e he t het => ht e (by simpa using he) t het)
  rw [pending_init] at h1
  rw [held_pending]
  have e1 : State.init.cache.stats.evicted = 0 := rfl
  have e2 : State.init.cache.stats.total = 0 := rfl
  have e3 : State.init.cache.stats.resolved.sum = 0 := rfl
  rw [e1, e2] at h1
  rw [e3] at h2
  exact ⟨by have := h1.2; simpa using this, by simpa using h2, by have := h1.1; simpa using this⟩

/-- The class of the time taken: at least the least time of the class, and less than that of the
next if there is one. -/
theorem C76_class (d : Int) (q : Nat) :
    quantile d = some q ↔ q < 7 ∧ (∀ l, leastOf q = some l → l ≤ d) ∧
      (q < 6 → ∀ l, leastOf (q + 1) = some l → d < l) ∧ d < 2 ^ 63 * sec := by
  have hb : bounds = [429496729600000, 4294967296000000, 42949672960000000, 429496729600000000,
      4294967296000000000, 42949672960000000000, 39614081257132168796771975168000000000] := by decide
  have hs : (2 : Int) ^ 63 * sec = 39614081257132168796771975168000000000 := by decide
  unfold quantile leastOf
  rw [hb, hs]
  simp only [List.findIdx?_cons, List.findIdx?_nil, decide_eq_true_eq]
  constructor
  · intro h
    split at h
    · simp at h; subst h; simp; omega
    · split at h
      · simp at h; subst h; simp; omega
      · split at h
        · simp at h; subst h; simp; omega
        · split at h
          · simp at h; subst h; simp; omega
          · split at h
            · simp at h; subst h; simp; omega
            · split at h
              · simp at h; subst h; simp; omega
              · split at h
                · simp at h; subst h; simp; omega
                · simp at h
  · rintro ⟨h7, h1, h2, h3⟩
    have hq : q = 0 ∨ q = 1 ∨ q = 2 ∨ q = 3 ∨ q = 4 ∨ q = 5 ∨ q = 6 := by omega
    rcases hq with rfl | rfl | rfl | rfl | rfl | rfl | rfl
    all_goals simp at h1 h2
    · rw [if_pos (by omega)]
    · rw [if_neg (by omega), if_pos (by omega)]; rfl
    · rw [if_neg (by omega), if_neg (by omega), if_pos (by omega)]; rfl
    · rw [if_neg (by omega), if_neg (by omega), if_neg (by omega), if_pos (by omega)]; rfl
    · rw [if_neg (by omega), if_neg (by omega), if_neg (by omega), if_neg (by omega),
        if_pos (by omega)]; rfl
    · rw [if_neg (by omega), if_neg (by omega), if_neg (by omega), if_neg (by omega),
        if_neg (by omega), if_pos (by omega)]; rfl
    · rw [if_neg (by omega), if_neg (by omega), if_neg (by omega), if_neg (by omega),
        if_neg (by omega), if_neg (by omega), if_pos (by omega)]; rfl

example : Event.report ∉ sample1 ∧ (run .init sample1).1.cache.stats.total = 3 ∧
    (run .init sample1).1.cache.stats.resolved = [3, 0, 0, 0, 0, 0, 0] ∧
    (run .init (filler ++ [.report, .send 0 .delayReq 0 [100] 0 0])).1.cache.stats.evicted = 1 := by
  decide +kernel

example : quantile (2 * second) = some 5 := by decide

/-! ## C77: memory -/

/-- What is expected: nothing is read beyond the array or without having been assigned. -/
def C77_statement : Prop :=
  ∀ (es : List Event), ∀ x ∈ (run .init es).2, x.2 ≠ .beyond ∧ x.2 ≠ .uninitialised

/-- When the cache is full, `packet[32]` is read. -/
theorem C77_full_violated :
    ¬ ∀ (es : List Event), ∀ x ∈ (run .init es).2, x.2 ≠ .beyond := by
  intro h
  have := h (filler ++ [.send 0 .delayReq 0 [100] 0 0]) (.send 0 .delayReq 0 [100] 0 0, .beyond)
    (by decide +kernel)
  simp at this

/-- When a message of our own is received with a timestamp of the kernel and no request fits it,
the user of the request, which was not assigned, is used. -/
theorem C77_loop_violated :
    ¬ ∀ (es : List Event), ∀ x ∈ (run .init es).2, x.2 ≠ .uninitialised := by
  intro h
  have := h [.loop [1] 0 0] (.loop [1] 0 0, .uninitialised) (by decide +kernel)
  simp at this

theorem C77_violated : ¬ C77_statement := by
  intro h
  exact C77_full_violated fun es x hx => (h es x hx).1

/-- Memory is read beyond the array only when a message is sent, and at least 32 more were sent
before than had their requests found. -/
theorem C77_full_partial (es : List Event) (a b : List (Event × Out)) (e : Event)
    (h : (run .init es).2 = a ++ (e, .beyond) :: b) :
    e.isSend = true ∧ a.countP (fun x => x.2.found) + 32 ≤ a.countP (fun x => x.1.isSend) := by
  obtain ⟨xs, ys, rfl, rfl, ho, _⟩ := run_split h
  obtain ⟨h1, h2⟩ := beyond_step ho.symm
  have h3 := pending_le .init xs
  rw [pending_init, h2] at h3
  refine ⟨h1, ?_⟩
  have : (run .init xs).2.countP (fun x => x.1.isSend) = xs.countP Event.isSend := by
    conv_rhs => rw [← run_events .init xs]
    rw [List.countP_map]; rfl
  rw [this]; omega

/-- A variable is used unassigned only when a message is received with a timestamp of the kernel. -/
theorem C77_loop_partial (es : List Event) (a b : List (Event × Out)) (e : Event)
    (h : (run .init es).2 = a ++ (e, .uninitialised) :: b) : ∃ pkt t v, e = .loop pkt t v := by
  obtain ⟨xs, ys, rfl, rfl, ho, _⟩ := run_split h
  generalize (run .init xs).1 = s at ho
  cases e with
  | loop pkt t v => exact ⟨pkt, t, v, rfl⟩
  | send p k r pdu tl now => simp only [step, State.send] at ho; split at ho <;> simp at ho
  | attempt p k => simp [step] at ho
  | tx pkt now ts =>
    cases hm : (s.cache.match pkt now).2 with
    | none => simp [step, hm] at ho
    | some x =>
      cases ts with
      | none => simp [step, hm] at ho
      | some v =>
        simp only [step, hm] at ho
        have := process_found { s with cache := (s.cache.match pkt now).1 } x.1 x.2 v
        rw [← ho] at this; simp [Out.found] at this
  | check p now => simp [step] at ho
  | reinit p => simp [step] at ho
  | report => simp [step] at ho

example : (run .init (filler ++ [.send 0 .delayReq 0 [100] 0 0])).2.getLast? =
      some (.send 0 .delayReq 0 [100] 0 0, .beyond) ∧
    (run .init [.loop [1] 0 0]).2 = [(.loop [1] 0 0, .uninitialised)] := by decide +kernel

end Verif.TxCache
