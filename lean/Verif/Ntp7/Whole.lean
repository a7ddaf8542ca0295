import Verif.Ntp7.Trace

/-!
# Queries of the mode 7 client
-/

set_option linter.unusedSimpArgs false
set_option linter.unusedVariables false

namespace Verif.Ntp7

/-- The client is as `create` makes it, whatever has happened since. -/
structure Sound (c : Client) : Prop where
  legacy : c.legacy ≤ 2
  size : c.size = legacySize c.legacy
  buf : c.buf.length = 4096

/-- `p` is a datagram that the client builds for the question. -/
def Built.For (digest : List Nat → List Nat) (q : Ask) (p : List Nat) : Prop :=
  ∃ (now : Int × Nat) (len : Nat), (len = 188 ∨ len = 160 ∨ len = 48) ∧
    request digest now len q.code q.auth q.num q.size q.data = .packet p

theorem legacySize_cases (n : Nat) : legacySize n = 188 ∨ legacySize n = 160 ∨ legacySize n = 48 := by
  match n with
  | 0 => exact Or.inl rfl
  | 1 => exact Or.inr (Or.inl rfl)
  | n + 2 => exact Or.inr (Or.inr rfl)

/-- What a query changes: `k` retries. -/
structure Step (q : Ask) (c c' : Client) (k : Nat) : Prop where
  sound : Sound c'
  key : c'.key = c.key
  timeout : c'.timeout = c.timeout
  digest : c'.digest = c.digest
  legacy : c'.legacy = c.legacy + k
  out : ∃ new, c'.out = c.out ++ new ∧ new.length ≤ k + 1 ∧ ∀ p ∈ new, Built.For c.digest q p

/-- A message with an error code outside the table arrives. -/
def BadCode (code : Nat) (ns : List Net) : Prop :=
  ∃ n ∈ ns, ∃ t b, (t, Rx.packet b) ∈ n.arrivals ∧ 8 ≤ errOf b ∧ check b code = true

theorem request_ok {digest : List Nat → List Nat} {now : Int × Nat} {len : Nat} {q : Ask} (hd : q.data.length ≤ 200) :
    (∃ p, request digest now len q.code q.auth q.num q.size q.data = .packet p) ∨
      request digest now len q.code q.auth q.num q.size q.data = .err 5 := by
  unfold request
  rw [if_neg (by omega)]
  cases q.auth
  · exact Or.inl ⟨_, rfl⟩
  · simp only [Bool.not_true, Bool.false_eq_true, if_false]
    split
    · exact Or.inr rfl
    · exact Or.inl ⟨_, rfl⟩

theorem attempt_step {c : Client} {n : Net} {q : Ask} (hs : Sound c) (hd : q.data.length ≤ 200) :
    Step q c (attempt c n q).2 0 ∧
      (∀ f, (attempt c n q).1 = .fault f → f = .table ∧
        ∃ t b, (t, Rx.packet b) ∈ n.arrivals ∧ 8 ≤ errOf b ∧ check b q.code = true) := by
  unfold attempt
  rcases request_ok (digest := c.digest) (now := n.clock) (len := c.size) hd with ⟨p, hp⟩ | hp
  · rw [hp]
    have hfor : Built.For c.digest q p := ⟨n.clock, c.size, by rw [hs.size]; exact legacySize_cases _, hp⟩
    by_cases hsent : n.sent ≠ 0
    · simp only [if_pos hsent]
      exact ⟨⟨⟨hs.legacy, hs.size, hs.buf⟩, rfl, rfl, rfl, rfl, [p], rfl, by simp, by simpa using hfor⟩, fun f h => by simp at h⟩
    · simp only [if_neg hsent]
      obtain ⟨i1, i2, -⟩ := loop_safe (code := q.code) (req := q.req) (until_ := n.start + c.timeout) n.arrivals
        ⟨0, 2147483647, 0, 0, c.buf⟩ (by simp)
      refine ⟨⟨⟨hs.legacy, hs.size, ?_⟩, rfl, rfl, rfl, rfl, [p], rfl, by simp, by simpa using hfor⟩, i2⟩
      simp only [response]
      rw [i1]
      exact hs.buf
  · rw [hp]
    exact ⟨⟨hs, rfl, rfl, rfl, rfl, [], by simp, by simp, by simp⟩, fun f h => by simp at h⟩

theorem retry_step {q : Ask} (hd : q.data.length ≤ 200) : ∀ (fuel : Nat) (c : Client) (ns : List Net), Sound c → c.legacy + fuel = 2 →
    (∃ k, Step q c (retry fuel c ns q).2 k) ∧ (∀ f, (retry fuel c ns q).1 = .fault f → f = .table ∧ BadCode q.code ns)
  | 0, c, ns, hs, _ => by
    obtain ⟨h1, h2⟩ := attempt_step (n := ns.headD {}) hs hd
    refine ⟨⟨0, h1⟩, ?_⟩
    intro f hf
    obtain ⟨g1, t, b, g2, g3⟩ := h2 f hf
    refine ⟨g1, ?_⟩
    cases ns with
    | nil => simp [Net.arrivals, drain] at g2
    | cons n ns => exact ⟨n, by simp, t, b, g2, g3⟩
  | fuel + 1, c, ns, hs, hl => by
    obtain ⟨h1, h2⟩ := attempt_step (n := ns.headD {}) hs hd
    have hbad : ∀ f, (attempt c (ns.headD {}) q).1 = .fault f → f = .table ∧ BadCode q.code ns := by
      intro f hf
      obtain ⟨g1, t, b, g2, g3⟩ := h2 f hf
      refine ⟨g1, ?_⟩
      cases ns with
      | nil => simp [Net.arrivals, drain] at g2
      | cons n ns => exact ⟨n, by simp, t, b, g2, g3⟩
    unfold retry
    simp only
    rcases request_ok (digest := c.digest) (now := (ns.headD {}).clock) (len := c.size) hd with ⟨p, hp⟩ | hp
    · rw [hp]
      simp only
      by_cases hc : (decide ((ns.headD {}).sent = 0) && decide ((attempt c (ns.headD {}) q).1 = .rc 90) &&
          decide ((attempt c (ns.headD {}) q).2.legacy < 2)) = true
      · rw [if_pos hc]
        have hleg := h1.legacy
        have hlt : (attempt c (ns.headD {}) q).2.legacy < 2 := by
          simp only [Bool.and_eq_true, decide_eq_true_eq] at hc
          exact hc.2
        obtain ⟨⟨k, j⟩, i2⟩ := retry_step hd fuel
          { (attempt c (ns.headD {}) q).2 with
            legacy := (attempt c (ns.headD {}) q).2.legacy + 1
            size := legacySize ((attempt c (ns.headD {}) q).2.legacy + 1) } ns.tail
          ⟨by simp only; omega, rfl, h1.sound.buf⟩ (by simp only; omega)
        refine ⟨⟨k + 1, ⟨j.sound, j.key.trans h1.key, j.timeout.trans h1.timeout, j.digest.trans h1.digest, ?_, ?_⟩⟩, ?_⟩
        · rw [j.legacy]; simp only; omega
        · obtain ⟨n1, o1, o2, o3⟩ := h1.out
          obtain ⟨n2, o4, o5, o6⟩ := j.out
          refine ⟨n1 ++ n2, ?_, ?_, ?_⟩
          · rw [o4]; simp only; rw [o1]; simp
          · simp; omega
          · intro x hx
            rcases List.mem_append.1 hx with hx | hx
            · exact o3 x hx
            · have := o6 x hx
              simp only [h1.digest] at this
              exact this
        · intro f hf
          obtain ⟨g1, n, hn, g2⟩ := i2 f hf
          exact ⟨g1, n, List.mem_of_mem_tail hn, g2⟩
      · rw [if_neg hc]
        exact ⟨⟨0, h1⟩, hbad⟩
    · rw [hp]
      exact ⟨⟨0, h1⟩, hbad⟩

theorem query_step {q : Ask} {c : Client} {ns : List Net} (hd : q.data.length ≤ 200) (hs : Sound c) :
    (∃ k, Step q c (query c ns q).2 k) ∧ (∀ f, (query c ns q).1 = .fault f → f = .table ∧ BadCode q.code ns) :=
  retry_step hd (2 - c.legacy) c ns hs (by have := hs.legacy; omega)

/-! ## A query that is answered -/

/-- The request is sent and the messages of the answer arrive, in the order `ms'`. -/
structure Answered (c : Client) (q : Ask) (n : Net) (ms' : List Msg) : Prop where
  sent : n.sent = 0
  arrive : ∃ tms, tms.map (·.2) = ms' ∧ Arrives q.code (n.start + c.timeout) n.arrivals tms
  split : ∃ ms, Split q.code ms ∧ ms'.Perm ms
  size : ∀ m ∈ ms'.tail, m.size ≤ q.req
  room : (content q.req ms').length ≤ 4096

theorem answered_response {c : Client} {q : Ask} {n : Net} {ms : List Msg} (hb : c.buf.length = 4096) (h : Answered c q n ms) :
    ∃ t, response q.code q.req c.timeout n.start c.buf n.arrivals =
      ⟨.ok (ms.flatMap (·.items)).length, content q.req ms ++ c.buf.drop (content q.req ms).length, t⟩ := by
  obtain ⟨tms, h1, h2⟩ := h.arrive
  obtain ⟨ms0, h3, h4⟩ := h.split
  have hne : tms ≠ [] := by
    rintro rfl
    simp at h1
    subst h1
    exact h3.some_ h4.symm.eq_nil
  have hr := ready_of_perm (buf := c.buf) h3 h4 h.size (by rw [hb]; exact h.room)
  subst h1
  obtain ⟨t, -, h5⟩ := loop_ready _ hne h2 hr
  refine ⟨t, ?_⟩
  unfold response
  rw [h5]
  simp only [Nat.zero_add]
  rw [blit_take (by rw [hb]; exact h.room)]

theorem answered_query {c : Client} {q : Ask} {n : Net} {ns : List Net} {ms : List Msg} {p : List Nat} (hb : c.buf.length = 4096)
    (hp : request c.digest n.clock c.size q.code q.auth q.num q.size q.data = .packet p) (h : Answered c q n ms) :
    query c (n :: ns) q = (.ok (ms.flatMap (·.items)).length,
      { c with out := c.out ++ [p], buf := content q.req ms ++ c.buf.drop (content q.req ms).length }) := by
  obtain ⟨t, h1⟩ := answered_response hb h
  have ha : attempt c n q = (.ok (ms.flatMap (·.items)).length,
      { c with out := c.out ++ [p], buf := content q.req ms ++ c.buf.drop (content q.req ms).length }) := by
    unfold attempt
    rw [hp]
    simp only [h.sent, ne_eq, not_true_eq_false, if_false]
    rw [h1]
  unfold query
  cases hf : 2 - c.legacy with
  | zero => unfold retry; simpa using ha
  | succ k =>
    unfold retry
    simp only [List.headD_cons, hp, ha]
    simp

end Verif.Ntp7
