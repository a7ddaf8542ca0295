import Verif.Peer.Frames

/-!
# The messages a port sends and the peer delay (C104-C113)
-/

set_option linter.unusedSimpArgs false
set_option linter.unusedVariables false

namespace Verif.Peer

open Verif.Slave (PortId PState Mech Utc Ticket)

/-- A configuration and messages for the examples. -/
def c0 (m : Mech) : Cfg where
  self := ⟨1, 1⟩
  mech := m
  inbound := 0
  outbound := 0
  alwaysUtc := false
  tolerant := true

/-- A ticket for the examples. -/
def tkt (n : Nat) : Ticket := ⟨n, n⟩

/-- A header for the examples. -/
def hdr (src seq : Nat) (two : Bool) (corr : Int) : Hdr := ⟨⟨src, 1⟩, seq, two, false, corr⟩

/-- What came out, for the examples. -/
def outsOf (c : Cfg) (evs : List Event) : List (List Out) := (run c (init c) evs).2.map (·.outs)

theorem init_idle (c : Cfg) : Idle (init c) := ⟨rfl, rfl, rfl⟩

/-! ## C104: which messages a measurement comes from -/

/-- The measurement at `e` is made from one exchange: of the latest request,
its transmit time, and an answer to it, in one step or two.  `same` says what
is asked of the sources of the answer and of its follow-up. -/
def FromExchange (c : Cfg) (same : PortId → PortId → Prop) (pre : List Entry) (e : Entry)
    (t1 t2 t3 t4 : Int) : Prop :=
  ∃ n m, Open c pre n t1 m ∧
    ((∃ h, Answer c e h t2 t4 ∧ h.seq = n ∧ h.src ≠ c.self ∧ h.twoStep = false ∧ t3 = t2) ∨
     (∃ m1 p m2 h g, m = m1 ++ p :: m2 ∧ Answer c p h t2 t4 ∧ h.seq = n ∧ h.src ≠ c.self ∧
        h.twoStep = true ∧ Completes c e g t3 ∧ g.seq = n ∧ same h.src g.src))

/-- C104, full statement: every measurement is made from one exchange with one
peer, and no exchange gives two. -/
def C104_statement : Prop :=
  ∀ (c : Cfg) (evs : List Event) (pre post : List Entry) (e : Entry) (t1 t2 t3 t4 corr : Int),
    (run c (init c) evs).2 = pre ++ e :: post → .measure t1 t2 t3 t4 corr ∈ e.outs →
    FromExchange c (· = ·) pre e t1 t2 t3 t4

/-- C104: every measurement is made from one exchange.  Missing from the full
statement: the answer and its follow-up may come from two ports, see
`C104_violated`. -/
theorem C104_exchange_partial (c : Cfg) (evs : List Event) (pre post : List Entry) (e : Entry)
    (t1 t2 t3 t4 corr : Int) (ht : (run c (init c) evs).2 = pre ++ e :: post)
    (hm : .measure t1 t2 t3 t4 corr ∈ e.outs) :
    FromExchange c (fun _ b => b ≠ c.self) pre e t1 t2 t3 t4 := by
  obtain ⟨n, m, ho, h⟩ := measured (run_hist c (init c) evs) (init_idle c) ht hm
  refine ⟨n, m, ho, ?_⟩
  rcases h with ⟨h, h1, h2, h3, h4, h5, _⟩ | ⟨m1, p, m2, h, g, h1, h2, h3, h4, h5, h6, h7, h8, _⟩
  · exact Or.inl ⟨h, h1, h2, h3, h4, h5⟩
  · exact Or.inr ⟨m1, p, m2, h, g, h1, h2, h3, h4, h5, h6, h7, h8⟩

/-- C104: where a single other port is heard, it is made from one exchange with
it. -/
theorem C104_one_peer (c : Cfg) (evs : List Event) (peer : PortId)
    (hp : ∀ ev ∈ evs, (∀ h len t2 r t, ev = .presp h len t2 r t → h.src = peer ∨ h.src = c.self) ∧
      ∀ h len t3 r, ev = .prespFollowUp h len t3 r → h.src = peer ∨ h.src = c.self)
    (pre post : List Entry) (e : Entry) (t1 t2 t3 t4 corr : Int)
    (ht : (run c (init c) evs).2 = pre ++ e :: post)
    (hm : .measure t1 t2 t3 t4 corr ∈ e.outs) :
    FromExchange c (· = ·) pre e t1 t2 t3 t4 := by
  have evin : ∀ (s : State) (l : List Event) (y : Entry), y ∈ (run c s l).2 → y.ev ∈ l := by
    intro s l
    induction l generalizing s with
    | nil => intro y hy; simp [run] at hy
    | cons a l ih =>
      intro y hy
      simp only [run, List.mem_cons] at hy
      rcases hy with rfl | hy
      · simp
      · exact List.mem_cons_of_mem _ (ih _ y hy)
  obtain ⟨n, m, ho, h⟩ := C104_exchange_partial c evs pre post e t1 t2 t3 t4 corr ht hm
  refine ⟨n, m, ho, ?_⟩
  rcases h with h | ⟨m1, p, m2, h, g, h1, h2, h3, h4, h5, h6, h7, h8⟩
  · exact Or.inl h
  · refine Or.inr ⟨m1, p, m2, h, g, h1, h2, h3, h4, h5, h6, h7, ?_⟩
    have hpin : p ∈ (run c (init c) evs).2 := by
      obtain ⟨a, r, b, x, tk, hpre, _⟩ := ho
      rw [ht, hpre, h1]; simp
    have hein : e ∈ (run c (init c) evs).2 := by rw [ht]; simp
    obtain ⟨len, raw, hev, _⟩ := h2
    obtain ⟨len', hev', _⟩ := h6
    have k1 := (hp _ (evin _ _ p hpin)).1 _ _ _ _ _ hev
    have k2 := (hp _ (evin _ _ e hein)).2 _ _ _ _ hev'
    rcases k1 with k1 | k1
    · rcases k2 with k2 | k2
      · rw [k1, k2]
      · exact absurd k2 h8
    · exact absurd k1 h4

/-- An exchange in two steps whose follow-up comes from another port. -/
def strangers : List Event :=
  [.goto .listening false true, .reqExpired (.sent (tkt 1)), .txTime (tkt 1) 1000 true,
   .presp (hdr 2 1 true 0) 54 400 ⟨1, 1⟩ (some 1300),
   .prespFollowUp (hdr 3 1 true 0) 54 900 ⟨1, 1⟩]

example : outsOf (c0 .p2p) strangers =
    [[], [.send (.preq 1)], [], [], [.measure 1000 400 900 1300 0]] := by decide

/-- The measurement of an exchange in two steps is the last entry. -/
theorem C104_violated : ¬ C104_statement := by
  intro h
  let tr := (run (c0 .p2p) (init (c0 .p2p)) strangers).2
  have := h (c0 .p2p) strangers (tr.take 4) [] (tr.getLast (by decide)) 1000 400 900 1300 0 rfl
    (by decide)
  obtain ⟨n, m, ho, h | h⟩ := this
  · obtain ⟨g, ⟨len, raw, hev, _⟩, _⟩ := h
    cases hev
  · obtain ⟨m1, p, m2, g, f, hm, ⟨len, raw, hev, _⟩, _, _, _, ⟨len', hev', _⟩, _, hs⟩ := h
    obtain ⟨a, r, b, x, tk, hpre, _⟩ := ho
    have hp : p ∈ tr.take 4 := by rw [hpre, hm]; simp
    cases hev'
    simp only [tr, run, strangers, List.take, List.mem_cons, List.not_mem_nil, or_false] at hp
    rcases hp with rfl | rfl | rfl | rfl
    · cases hev
    · cases hev
    · cases hev
    · cases hev
      exact absurd hs (by decide)

/-! ## C105: the correction of a measurement -/

/-- C105, full statement: a measurement is corrected by the correction field of
the answer and, in two steps, that of its follow-up too (IEEE 1588-2019,
11.4.2). -/
def C105_statement : Prop :=
  ∀ (c : Cfg) (evs : List Event) (pre post : List Entry) (e : Entry) (t1 t2 t3 t4 corr : Int),
    (run c (init c) evs).2 = pre ++ e :: post → .measure t1 t2 t3 t4 corr ∈ e.outs →
    (∃ h, Answer c e h t2 t4 ∧ corr = h.corr) ∨
    (∃ p ∈ pre, ∃ h g, Answer c p h t2 t4 ∧ h.twoStep = true ∧ Completes c e g t3 ∧
      h.seq = g.seq ∧ corr = h.corr + g.corr)

/-- C105: in one step the correction is that of the answer; in two steps it is
that of the follow-up only, which is right if the answer's is zero. -/
theorem C105_correction_partial (c : Cfg) (evs : List Event) (pre post : List Entry) (e : Entry)
    (t1 t2 t3 t4 corr : Int) (ht : (run c (init c) evs).2 = pre ++ e :: post)
    (hm : .measure t1 t2 t3 t4 corr ∈ e.outs) :
    (∃ h, Answer c e h t2 t4 ∧ corr = h.corr) ∨
    (∃ p ∈ pre, ∃ h g, Answer c p h t2 t4 ∧ h.twoStep = true ∧ Completes c e g t3 ∧
      h.seq = g.seq ∧ corr = h.corr + g.corr - h.corr) := by
  obtain ⟨n, m, ho, h⟩ := measured (run_hist c (init c) evs) (init_idle c) ht hm
  rcases h with ⟨h, h1, h2, h3, h4, h5, h6⟩ | ⟨m1, p, m2, h, g, h1, h2, h3, h4, h5, h6, h7, h8, h9⟩
  · exact Or.inl ⟨h, h1, h6⟩
  · refine Or.inr ⟨p, ?_, h, g, h2, h5, h6, by rw [h3, h7], by omega⟩
    obtain ⟨a, r, b, x, tk, hpre, _⟩ := ho
    rw [hpre, h1]; simp

/-- An exchange through a transparent clock that corrects both messages. -/
def corrected : List Event :=
  [.goto .listening false true, .reqExpired (.sent (tkt 1)), .txTime (tkt 1) 1000 true,
   .presp (hdr 2 1 true 70) 54 400 ⟨1, 1⟩ (some 1300),
   .prespFollowUp (hdr 2 1 true 5) 54 900 ⟨1, 1⟩]

example : outsOf (c0 .p2p) corrected =
    [[], [.send (.preq 1)], [], [], [.measure 1000 400 900 1300 5]] := by decide

example : ∀ ev ∈ corrected,
    (∀ h len t2 r t, ev = .presp h len t2 r t → h.src = ⟨2, 1⟩ ∨ h.src = (c0 .p2p).self) ∧
      ∀ h len t3 r, ev = .prespFollowUp h len t3 r → h.src = ⟨2, 1⟩ ∨ h.src = (c0 .p2p).self := by
  intro ev hev
  simp only [corrected, List.mem_cons, List.not_mem_nil, or_false] at hev
  rcases hev with rfl | rfl | rfl | rfl | rfl
  all_goals refine ⟨fun h len t2 r t e => ?_, fun h len t3 r e => ?_⟩ <;> cases e
  · exact Or.inl rfl
  · exact Or.inl rfl

example : ∀ y ∈ (run (c0 .p2p) (init (c0 .p2p)) corrected).2, shift (c0 .p2p) y.before = 0 := by
  decide

/-- C105 does not hold: the correction of the answer is overwritten. -/
theorem C105_violated : ¬ C105_statement := by
  intro h
  let tr := (run (c0 .p2p) (init (c0 .p2p)) corrected).2
  have := h (c0 .p2p) corrected (tr.take 4) [] (tr.getLast (by decide)) 1000 400 900 1300 5 rfl
    (by decide)
  rcases this with ⟨g, ⟨len, raw, hev, _⟩, _⟩ | ⟨p, hp, g, f, ⟨len, raw, hev, _⟩, _, ⟨len', hev', _⟩, _, hc⟩
  · cases hev
  · cases hev'
    simp only [tr, run, corrected, List.take, List.mem_cons, List.not_mem_nil, or_false] at hp
    rcases hp with rfl | rfl | rfl | rfl
    · cases hev
    · cases hev
    · cases hev
    · cases hev
      exact absurd hc (by decide)

/-! ## C106: the two local times of a measurement -/

/-- C106, full statement: the two local times of a measurement differ by the
time that passed on the local clock, less the latencies. -/
def C106_statement : Prop :=
  ∀ (c : Cfg) (evs : List Event) (pre post : List Entry) (e : Entry) (t1 t2 t3 t4 corr : Int),
    (run c (init c) evs).2 = pre ++ e :: post → .measure t1 t2 t3 t4 corr ∈ e.outs →
    ∃ x p raw1 raw4, Exchange c pre e x p t2 raw1 raw4 ∧
      t4 - t1 = raw4 - raw1 - c.outbound - taken c p.before raw4

/-- C106: the two local times differ by the time that passed on the local
clock, less the latencies, plus the change meanwhile of the shift between the
local timescale and that of the messages. -/
theorem C106_elapsed_partial (c : Cfg) (evs : List Event) (pre post : List Entry) (e : Entry)
    (t1 t2 t3 t4 corr : Int) (ht : (run c (init c) evs).2 = pre ++ e :: post)
    (hm : .measure t1 t2 t3 t4 corr ∈ e.outs) :
    ∃ x p raw1 raw4, Exchange c pre e x p t2 raw1 raw4 ∧
      t4 - t1 = raw4 - raw1 - c.outbound - taken c p.before raw4
        + secs (shift c p.before) - secs (shift c x.before) := by
  obtain ⟨n, m, ⟨a, r, b, x, tk, hpre, hr, ⟨raw1, ok, hx, ht1⟩, hb, hm'⟩, h⟩ :=
    measured (run_hist c (init c) evs) (init_idle c) ht hm
  rcases h with ⟨h, ⟨len, raw4, h1, _, hrec⟩, h2, h3, h4, h5, h6⟩ |
    ⟨m1, p, m2, h, g, h1, ⟨len, raw4, h2, _, hrec⟩, h3, h4, h5, h6, h7, h8, h9⟩
  · refine ⟨x, e, raw1, raw4, ⟨a, r, b, m, n, tk, ok, h, len, hpre, hr, hx, by simp, h1, h2⟩, ?_⟩
    unfold Received at hrec
    unfold taken
    omega
  · refine ⟨x, p, raw1, raw4, ⟨a, r, b, m, n, tk, ok, h, len, hpre, hr, hx, by simp [h1], h2, h3⟩, ?_⟩
    unfold Received at hrec
    unfold taken
    omega

/-- C106: the two local times differ as they should if the shift is the same
at all entries of the history. -/
theorem C106_same_shift (c : Cfg) (evs : List Event) (k : Int)
    (hk : ∀ y ∈ (run c (init c) evs).2, shift c y.before = k)
    (pre post : List Entry) (e : Entry) (t1 t2 t3 t4 corr : Int)
    (ht : (run c (init c) evs).2 = pre ++ e :: post)
    (hm : .measure t1 t2 t3 t4 corr ∈ e.outs) :
    ∃ x p raw1 raw4, Exchange c pre e x p t2 raw1 raw4 ∧
      t4 - t1 = raw4 - raw1 - c.outbound - taken c p.before raw4 := by
  obtain ⟨x, p, raw1, raw4, hx, heq⟩ := C106_elapsed_partial c evs pre post e t1 t2 t3 t4 corr ht hm
  refine ⟨x, p, raw1, raw4, hx, ?_⟩
  obtain ⟨a, r, b, m, n, tk, ok, h, len, hpre, _, _, hp, _⟩ := hx
  have h1 := hk x (by rw [ht, hpre]; simp)
  have h2 := hk p (by
    rw [ht, hpre]
    rcases List.mem_append.1 hp with hp | hp
    · simp [hp]
    · rw [List.mem_singleton.1 hp]; simp)
  rw [h1, h2] at heq
  omega

/-- The master's UTC offset becomes known between the sending of the request
and the answer. -/
def shifted : List Event :=
  [.goto .listening false true, .reqExpired (.sent (tkt 1)), .txTime (tkt 1) 1000 true,
   .setUtc ⟨true, 37, 0, true⟩,
   .presp (hdr 2 1 false 0) 54 400 ⟨1, 1⟩ (some 1300)]

example : outsOf (c0 .p2p) shifted =
    [[], [.send (.preq 1)], [], [], [.measure 1000 400 400 (1300 + secs 37) 0]] := by decide

/-- C106 does not hold: a change of the UTC offset during an exchange gives a
path delay that is wrong by half of it. -/
theorem C106_violated : ¬ C106_statement := by
  intro h
  let tr := (run (c0 .p2p) (init (c0 .p2p)) shifted).2
  have := h (c0 .p2p) shifted (tr.take 4) [] (tr.getLast (by decide)) 1000 400 400 (1300 + secs 37) 0
    rfl (by decide)
  obtain ⟨x, p, raw1, raw4, ⟨a, r, b, m, n, tk, ok, g, len, hpre, _, hx, hp, hpe, _⟩, heq⟩ := this
  have hxin : x ∈ tr.take 4 := by rw [hpre]; simp
  have hpin : p ∈ tr := by
    have : tr = tr.take 4 ++ [tr.getLast (by decide)] := rfl
    rw [this, hpre]
    rcases List.mem_append.1 hp with hp | hp
    · simp [hp]
    · rw [List.mem_singleton.1 hp]; simp
  have h1 : raw1 = 1000 := by
    simp only [tr, run, shifted, List.take, List.mem_cons, List.not_mem_nil, or_false] at hxin
    rcases hxin with rfl | rfl | rfl | rfl
    · cases hx
    · cases hx
    · cases hx; rfl
    · cases hx
  have h4 : raw4 = 1300 := by
    simp only [tr, run, shifted, List.mem_cons, List.not_mem_nil, or_false] at hpin
    rcases hpin with rfl | rfl | rfl | rfl | rfl
    · cases hpe
    · cases hpe
    · cases hpe
    · cases hpe
    · cases hpe; rfl
  have h0 : taken (c0 .p2p) p.before raw4 = 0 := by
    unfold taken
    split <;> rfl
  rw [h0, h1, h4] at heq
  exact absurd heq (by decide)

/-! ## C107: the answers to Pdelay_Reqs -/

/-- C107: a Pdelay_Resp answers the request just received: it goes to its
sender, with its number and the time at which it arrived. -/
theorem C107_answers (c : Cfg) (s : State) (ev : Event) (dst : PortId) (n : Nat) (t : Int)
    (h : .send (.presp dst n t) ∈ (step c s ev).2) :
    ∃ g len raw tk, ev = .preq g len (some raw) (.sent tk) ∧ s.mech = .p2p ∧ 54 ≤ len ∧
      g.src ≠ c.self ∧ dst = g.src ∧ n = g.seq ∧ Received c s raw t := by
  have mv := step_moveP c s ev
  generalize (step c s ev).1 = s' at mv
  generalize (step c s ev).2 = outs at mv h
  cases mv with
  | quiet _ _ _ _ _ _ hq => exact absurd (hq _ h) (by simp [NoResp])
  | fail => cases h
  | answer g len raw tk _ ht hc hh hs hl hm =>
    simp only [List.mem_singleton, Out.send.injEq, Msg.presp.injEq] at h
    obtain ⟨rfl, rfl, rfl⟩ := h
    exact ⟨g, len, raw, tk, rfl, hm, hl, hs, rfl, rfl, rxTime_received c s raw⟩
  | follow tk raw ok n' _ _ ht hc ht' ho =>
    rw [ho] at h
    split at h
    · simp at h
    · cases h

example : (step (c0 .p2p) { init (c0 .p2p) with port := .listening }
    (.preq (hdr 2 7 false 0) 54 (some 500) (.sent (tkt 4)))).2 = [.send (.presp ⟨2, 1⟩ 7 500)] := by decide

/-- C107, full statement: the follow-up of a Pdelay_Resp goes to the sender of
the request that was answered, with the request's number and correction and
the time at which that answer was sent. -/
def C107_statement : Prop :=
  ∀ (c : Cfg) (evs : List Event) (pre post : List Entry) (e : Entry) (dst : PortId) (n : Nat)
    (t corr : Int), (run c (init c) evs).2 = pre ++ e :: post →
    .send (.prespFollowUp dst n t corr) ∈ e.outs →
    ∃ r ∈ pre, ∃ tk g len raw t2, r.ev = .preq g len (some raw) (.sent tk) ∧
      .send (.presp g.src n t2) ∈ r.outs ∧ Stamped c e tk t ∧ dst = g.src ∧ n = g.seq ∧
      corr = g.corr

/-- C107: the follow-up has the number of the latest answer sent and the time
at which it was sent, each answer is followed up at most once, and the
follow-up goes to the sender of that request with its correction unless the
sending of an answer to another one has failed meanwhile. -/
theorem C107_follow_up_partial (c : Cfg) (evs : List Event) (pre post : List Entry) (e : Entry)
    (dst : PortId) (n : Nat) (t corr : Int) (ht : (run c (init c) evs).2 = pre ++ e :: post)
    (hm : .send (.prespFollowUp dst n t corr) ∈ e.outs) :
    ∃ a r b tk g len raw t2, pre = a ++ r :: b ∧ r.ev = .preq g len (some raw) (.sent tk) ∧
      r.outs = [.send (.presp g.src n t2)] ∧ n = g.seq ∧ Stamped c e tk t ∧
      (∀ y ∈ b, ¬ RespTurns y) ∧
      ((∀ y ∈ b, ¬ RespFails y) → dst = g.src ∧ corr = g.corr) := by
  obtain ⟨a, r, b, tk, g, len, raw, t2, h1, h2, h3, h4, h5, h6, h7, h8⟩ :=
    presp_follow_up_sent (run_hist c (init c) evs) rfl ht hm
  exact ⟨a, r, b, tk, g, len, raw, t2, h1, h2, h5, h3.symm, h7, h6, h8⟩

/-- A second request whose answer cannot be sent, before the transmit time of
the first answer comes. -/
def crossed : List Event :=
  [.goto .listening false true, .preq (hdr 2 7 false 0) 54 (some 500) (.sent (tkt 1)),
   .preq (hdr 3 9 false 60) 54 (some 600) .failed, .txTime (tkt 1) 700 true]

example : outsOf (c0 .p2p) crossed =
    [[], [.send (.presp ⟨2, 1⟩ 7 500)], [], [.send (.prespFollowUp ⟨3, 1⟩ 7 700 60)]] := by decide

/-- C107 does not hold: the follow-up goes to another port. -/
theorem C107_violated : ¬ C107_statement := by
  intro h
  let tr := (run (c0 .p2p) (init (c0 .p2p)) crossed).2
  have := h (c0 .p2p) crossed (tr.take 3) [] (tr.getLast (by decide)) ⟨3, 1⟩ 7 700 60 rfl (by decide)
  obtain ⟨r, hr, tk, g, len, raw, t2, hev, _, _, hd, _⟩ := this
  simp only [tr, run, crossed, List.take, List.mem_cons, List.not_mem_nil, or_false] at hr
  rcases hr with rfl | rfl | rfl
  · cases hev
  · cases hev
    exact absurd hd (by decide)
  · cases hev

/-- C107, the other way: each Pdelay_Resp whose transmit time comes is followed
up (nothing but requests from others happening meanwhile). -/
def C107_each_statement : Prop :=
  ∀ (c : Cfg) (evs : List Event) (a b post : List Entry) (r e : Entry) (dst : PortId) (n : Nat)
    (t raw : Int) (tk : Ticket) (g : Hdr) (len : Nat) (q : Option Int),
    (run c (init c) evs).2 = a ++ r :: (b ++ e :: post) → r.ev = .preq g len q (.sent tk) →
    .send (.presp dst n t) ∈ r.outs →
    (∀ y ∈ b, ∃ g len q tk', y.ev = .preq g len q (.sent tk') ∧ tk' ≠ tk) →
    e.ev = .txTime tk raw true → ∃ t3 corr, .send (.prespFollowUp dst n t3 corr) ∈ e.outs

/-- Two requests before the transmit time of the first answer comes. -/
def overtaken : List Event :=
  [.goto .listening false true, .preq (hdr 2 7 false 0) 54 (some 500) (.sent (tkt 1)),
   .preq (hdr 3 9 false 0) 54 (some 600) (.sent (tkt 2)), .txTime (tkt 1) 700 true, .txTime (tkt 2) 800 true]

example : outsOf (c0 .p2p) overtaken =
    [[], [.send (.presp ⟨2, 1⟩ 7 500)], [.send (.presp ⟨3, 1⟩ 9 600)], [],
     [.send (.prespFollowUp ⟨3, 1⟩ 9 800 0)]] := by decide

/-- C107 does not hold the other way either: the answer to the first of two
requests is never followed up. -/
theorem C107_each_violated : ¬ C107_each_statement := by
  intro h
  let tr := (run (c0 .p2p) (init (c0 .p2p)) overtaken).2
  have := h (c0 .p2p) overtaken (tr.take 1) [tr[2]'(by decide)] (tr.drop 4) (tr[1]'(by decide))
    (tr[3]'(by decide)) ⟨2, 1⟩ 7 500 700 (tkt 1) (hdr 2 7 false 0) 54 (some 500) rfl rfl (by decide)
    (by
      intro y hy
      rw [List.mem_singleton.1 hy]
      exact ⟨hdr 3 9 false 0, 54, some 600, tkt 2, rfl, by decide⟩) rfl
  obtain ⟨t3, corr, hm⟩ := this
  have he : (tr[3]'(by decide)).outs = [] := by decide
  rw [he] at hm
  cases hm

/-! ## C108: Follow_Ups -/

/-- C108: a Follow_Up belongs to the latest Sync, has its number and the time
at which it was sent, and there is at most one. -/
theorem C108_follow_up (c : Cfg) (evs : List Event) (pre post : List Entry) (e : Entry) (n : Nat)
    (t : Int) (ht : (run c (init c) evs).2 = pre ++ e :: post)
    (hm : .send (.followUp n t) ∈ e.outs) :
    ∃ a r b tk, pre = a ++ r :: b ∧ r.ev = .syncExpired (.sent tk) ∧
      r.outs = [.send (.sync n)] ∧ (∀ y ∈ b, ¬ SyncTurns y) ∧ Stamped c e tk t := by
  obtain ⟨a, r, b, tk, h1, h2, _, h4, h5, h6⟩ := follow_up_sent (run_hist c (init c) evs) rfl ht hm
  exact ⟨a, r, b, tk, h1, h2, h4, h5, h6⟩

/-- C108: when the transmit time of a Sync comes before the next Sync is due,
its Follow_Up is sent. -/
theorem C108_due (c : Cfg) (evs : List Event) (a b post : List Entry) (r e : Entry) (n : Nat)
    (tk : Ticket) (raw : Int) (ht : (run c (init c) evs).2 = a ++ r :: (b ++ e :: post))
    (hr : r.ev = .syncExpired (.sent tk)) (hs : .send (.sync n) ∈ r.outs)
    (hb : ∀ y ∈ b, CalmS tk y) (he : e.ev = .txTime tk raw true) :
    e.outs = [.send (.followUp n (raw + secs (shift c e.before) + c.outbound))] :=
  follow_up_due (run_hist c (init c) evs) ht hr hs hb he

/-- A master sends a Sync and its Follow_Up, with an Announce in between. -/
def mastering : List Event :=
  [.goto .listening false true, .goto .master false true, .syncExpired (.sent (tkt 1)),
   .announceExpired true, .txTime (tkt 1) 1000 true]

example : outsOf (c0 .e2e) mastering =
    [[], [], [.send (.sync 1)], [.send (.announce 0)], [.send (.followUp 1 1000)]] := by decide

/-! ## C109: what only a master sends -/

/-- C109, full statement: Announce, Sync, Follow_Up and Delay_Resp are sent by
a master only. -/
def C109_statement : Prop :=
  ∀ (c : Cfg) (evs : List Event) (e : Entry), e ∈ (run c (init c) evs).2 →
    ∀ m, .send m ∈ e.outs →
      (match m with | .announce _ | .sync _ | .followUp .. | .delayResp .. => True | _ => False) →
      e.before.port = .master

/-- C109: Announce, Sync and Delay_Resp are sent by a master only. -/
theorem C109_master_partial (c : Cfg) (s : State) (ev : Event) (m : Msg)
    (h : .send m ∈ (step c s ev).2)
    (hm : match m with | .announce _ | .sync _ | .delayResp .. => True | _ => False) :
    s.port = .master := by
  cases ev with
  | delayReq g len t addr ok =>
    simp only [step, handleDelayReq, issueDelayResp] at h
    repeat' split at h
    all_goals first
      | assumption
      | simp at h
  | preq g len t o =>
    simp only [step, handlePDelayReq, issuePDelayResp] at h
    repeat' split at h
    all_goals first
      | (simp at h; done)
      | (simp only [List.mem_singleton, Out.send.injEq] at h; subst h; exact hm.elim)
  | presp g len t2 r t =>
    simp only [step, handlePDelayResp] at h
    repeat' split at h
    all_goals simp at h
  | prespFollowUp g len t3 r =>
    simp only [step, handlePDelayRespFollowUp] at h
    repeat' split at h
    all_goals simp at h
  | txTime tk t ok =>
    simp only [step, txTime, issueFollowup, issuePDelayRespFollowUp] at h
    repeat' split at h
    all_goals first
      | (simp at h; done)
      | (simp only [List.mem_singleton, Out.send.injEq] at h; subst h; exact hm.elim)
  | syncExpired o =>
    simp only [step] at h
    split at h
    · assumption
    · cases h
  | announceExpired ok =>
    simp only [step] at h
    split at h
    · assumption
    · cases h
  | reqExpired o =>
    simp only [step, issuePDelayReq] at h
    repeat' split at h
    all_goals first
      | (simp at h; done)
      | (simp only [List.mem_singleton, Out.send.injEq] at h; subst h; exact hm.elim)
  | respExpired =>
    simp only [step] at h
    split at h <;> simp at h
  | reinit =>
    simp only [step] at h
    split at h <;> simp at h
  | _ => simp [step] at h

/-- C109: a Follow_Up is of a Sync that was sent as a master. -/
theorem C109_follow_up (c : Cfg) (evs : List Event) (pre post : List Entry) (e : Entry) (n : Nat)
    (t : Int) (ht : (run c (init c) evs).2 = pre ++ e :: post)
    (hm : .send (.followUp n t) ∈ e.outs) :
    ∃ r ∈ pre, .send (.sync n) ∈ r.outs ∧ r.before.port = .master := by
  obtain ⟨a, r, b, tk, h1, h2, h3, h4, _⟩ := follow_up_sent (run_hist c (init c) evs) rfl ht hm
  exact ⟨r, by rw [h1]; simp, by rw [h4]; simp, h3⟩

/-- A master that becomes a slave before the transmit time of its Sync comes. -/
def dethroned : List Event :=
  [.goto .listening false true, .goto .master false true, .syncExpired (.sent (tkt 1)),
   .goto .slave false true, .txTime (tkt 1) 1000 true]

example : outsOf (c0 .e2e) dethroned =
    [[], [], [.send (.sync 1)], [], [.send (.followUp 1 1000)]] := by decide

/-- C109 does not hold: a slave sends a Follow_Up. -/
theorem C109_violated : ¬ C109_statement := by
  intro h
  let tr := (run (c0 .e2e) (init (c0 .e2e)) dethroned).2
  have := h (c0 .e2e) dethroned (tr.getLast (by decide)) (List.getLast_mem _) (.followUp 1 1000)
    (by decide) trivial
  exact absurd this (by decide)

/-- C109: a Delay_Resp is sent just for each Delay_Req that a master in
end-to-end mode receives with a time stamp: to the sender, with the request's
number, correction and time of arrival; by unicast if the request was and the
port may, else by multicast if the port may. -/
theorem C109_delay_resp (c : Cfg) (s : State) (ev : Event) (dst : PortId) (n : Nat) (t corr : Int)
    (a : Option Nat) :
    .send (.delayResp dst n t corr a) ∈ (step c s ev).2 ↔
      ∃ g len raw addr, ev = .delayReq g len (some raw) addr true ∧ g.src ≠ c.self ∧ 44 ≤ len ∧
        s.mech = .e2e ∧ s.port = .master ∧ Received c s raw t ∧ dst = g.src ∧ n = g.seq ∧
        corr = g.corr ∧
        ((g.unicast = true ∧ s.unicastOk = true ∧ a = some addr) ∨
         (¬ (g.unicast = true ∧ s.unicastOk = true) ∧ s.multicastOk = true ∧ a = none)) := by
  have uniq : ∀ raw, Received c s raw t ↔ t = rxTime c s raw := by
    intro raw
    have := rxTime_received c s raw
    unfold Received at this ⊢
    rw [← this]
  constructor
  · intro h
    cases ev with
    | delayReq g len q addr ok =>
      simp only [step, handleDelayReq] at h
      split at h
      · cases h
      · rename_i h1
        split at h
        · cases h
        · rename_i h2
          split at h
          · cases h
          · rename_i h3
            split at h
            · rename_i h4
              cases q with
              | none => cases h
              | some raw =>
                have k3 : s.mech = .e2e := Classical.not_not.1 h3
                simp only [Option.map_some, issueDelayResp] at h
                split at h
                · rename_i h5
                  split at h
                  · rename_i h6
                    subst h6
                    simp only [List.mem_singleton, Out.send.injEq, Msg.delayResp.injEq] at h
                    obtain ⟨e1, e2, e3, e4, e5⟩ := h
                    exact ⟨g, len, raw, addr, rfl, h1, by omega, k3, h4, (uniq raw).2 e3, e1, e2, e4,
                      Or.inl ⟨h5.1, h5.2, e5⟩⟩
                  · cases h
                · rename_i h5
                  split at h
                  · cases h
                  · rename_i h6
                    split at h
                    · rename_i h7
                      subst h7
                      simp only [List.mem_singleton, Out.send.injEq, Msg.delayResp.injEq] at h
                      obtain ⟨e1, e2, e3, e4, e5⟩ := h
                      exact ⟨g, len, raw, addr, rfl, h1, by omega, k3, h4, (uniq raw).2 e3, e1, e2, e4,
                        Or.inr ⟨h5, Classical.not_not.1 h6, e5⟩⟩
                    · cases h
            · cases h
    | preq g len q o =>
      simp only [step, handlePDelayReq, issuePDelayResp] at h
      repeat' split at h
      all_goals simp at h
    | presp g len t2 r q =>
      simp only [step, handlePDelayResp] at h
      repeat' split at h
      all_goals simp at h
    | prespFollowUp g len t3 r =>
      simp only [step, handlePDelayRespFollowUp] at h
      repeat' split at h
      all_goals simp at h
    | txTime tk q ok =>
      simp only [step, txTime, issueFollowup, issuePDelayRespFollowUp] at h
      repeat' split at h
      all_goals simp at h
    | syncExpired o =>
      simp only [step, issueSync] at h
      repeat' split at h
      all_goals simp at h
    | announceExpired ok =>
      simp only [step, issueAnnounce] at h
      repeat' split at h
      all_goals simp at h
    | reqExpired o =>
      simp only [step, issuePDelayReq] at h
      repeat' split at h
      all_goals simp at h
    | respExpired =>
      simp only [step] at h
      split at h <;> simp at h
    | reinit =>
      simp only [step] at h
      split at h <;> simp at h
    | _ => simp [step] at h
  · rintro ⟨g, len, raw, addr, rfl, h1, h2, h3, h4, h5, rfl, rfl, rfl, h6⟩
    have hl : ¬ len < 44 := by omega
    have hm : ¬ s.mech ≠ .e2e := by simp [h3]
    rw [uniq] at h5
    simp only [step, if_neg h1, handleDelayReq, if_neg hl, if_neg hm, if_pos h4, Option.map_some,
      issueDelayResp]
    rcases h6 with ⟨u1, u2, rfl⟩ | ⟨u1, u2, rfl⟩
    · rw [if_pos ⟨u1, u2⟩]
      simp [h5]
    · rw [if_neg u1]
      simp [u2, h5]

example : (step (c0 .e2e) { init (c0 .e2e) with port := .master }
    (.delayReq (hdr 2 7 false 11) 44 (some 500) 99 true)).2 =
      [.send (.delayResp ⟨2, 1⟩ 7 500 11 none)] := by decide

/-! ## C110: the counters of messages sent -/

/-- C110, full statement: each counter of messages sent counts the messages of
its kind. -/
def C110_statement : Prop :=
  ∀ (c : Cfg) (evs : List Event),
    let s := (run c (init c) evs).1
    let tr := (run c (init c) evs).2
    s.nAnnounce = count isAnnounce tr ∧
    s.nSync = count isSync tr ∧
    s.nFollowUp = count isFollowUp tr ∧
    s.nDelayResp = count isDelayResp tr ∧
    s.nPreq = count isPreq tr ∧
    s.nPresp = count isPresp tr ∧
    s.nPrespFollowUp = count isPrespFollowUp tr

/-- C110: the counters are right but for Delay_Resps, which are counted as
Pdelay_Resps. -/
theorem C110_counters_partial (c : Cfg) (evs : List Event) :
    let s := (run c (init c) evs).1
    let tr := (run c (init c) evs).2
    s.nAnnounce = count isAnnounce tr ∧
    s.nSync = count isSync tr ∧
    s.nFollowUp = count isFollowUp tr ∧
    s.nDelayResp = 0 ∧
    s.nPreq = count isPreq tr ∧
    s.nPresp = count isPresp tr +
      count isDelayResp tr ∧
    s.nPrespFollowUp = count isPrespFollowUp tr := by
  show _
  have hh := run_hist c (init c) evs
  generalize (run c (init c) evs).1 = s at hh ⊢
  generalize (run c (init c) evs).2 = tr at hh ⊢
  simp only
  induction hh with
  | nil => exact ⟨rfl, rfl, rfl, rfl, rfl, rfl, rfl⟩
  | @snoc s tr e hh ih =>
    obtain ⟨h1, h2, h3, h4, h5, h6, h7⟩ := ih
    have k := step_counts c s e
    simp only [count_snoc]
    refine ⟨?_, ?_, ?_, ?_, ?_, ?_, ?_⟩
    · rw [k.announce, h1]
    · rw [k.sync, h2]
    · rw [k.followUp, h3]
    · rw [k.delayResp, h4]
    · rw [k.preq, h5]
    · rw [k.presp, h6]; omega
    · rw [k.prespFollowUp, h7]

/-- A master that has answered a Delay_Req. -/
def answered : List Event :=
  [.goto .listening false true, .goto .master false true,
   .delayReq (hdr 2 7 false 11) 44 (some 500) 99 true]

/-- C110 does not hold: the counter of Delay_Resps stays zero. -/
theorem C110_violated : ¬ C110_statement := by
  intro h
  have := (h (c0 .e2e) answered).2.2.2.1
  exact absurd this (by decide)

example : (run (c0 .e2e) (init (c0 .e2e)) answered).1.nPresp = 1 := by decide

/-! ## C111: the peer delay mechanism does not stop -/

/-- C111, full statement: in peer-to-peer mode, a port that takes part has one
of the timers running that make it ask again. -/
def C111_statement : Prop :=
  ∀ (c : Cfg) (evs : List Event), let s := (run c (init c) evs).1
    s.mech = .p2p → (s.port = .listening ∨ s.port = .slave ∨ s.port = .master ∨ s.port = .passive) →
    s.reqTimer = true ∨ s.respTimer = true

/-- C111: so it is if the mechanism is never switched to peer-to-peer. -/
theorem C111_asks_again_partial (c : Cfg) (evs : List Event) (he : .setMech .p2p ∉ evs) :
    let s := (run c (init c) evs).1
    s.mech = .p2p → (s.port = .listening ∨ s.port = .slave ∨ s.port = .master ∨ s.port = .passive) →
    s.reqTimer = true ∨ s.respTimer = true := by
  have main : ∀ (evs : List Event) (s : State), .setMech .p2p ∉ evs → Ticking s →
      Ticking (run c s evs).1 := by
    intro evs
    induction evs with
    | nil => intro s _ h; exact h
    | cons e evs ih =>
      intro s hn h
      simp only [List.mem_cons, not_or] at hn
      simp only [run]
      exact ih _ hn.2 (step_ticking h (fun hc => hn.1 hc.symm))
  have h0 : Ticking (init c) := by
    intro _ h
    simp [init] at h
  exact main evs (init c) he h0

example : (run (c0 .p2p) (init (c0 .p2p)) [.goto .listening false true]).1.reqTimer = true := by decide

/-- C111 does not hold: a port told by a management message to change to
peer-to-peer never asks. -/
theorem C111_violated : ¬ C111_statement := by
  intro h
  have := h (c0 .e2e) [.goto .listening false true, .setMech .p2p] (by decide) (by decide)
  exact absurd this (by decide)

/-! ## C112: complete exchanges are used -/

/-- C112, full statement: when a port in peer-to-peer mode sends a request and
both its transmit time and an answer in one step come before the next request,
in either order, a measurement is made. -/
def C112_statement : Prop :=
  ∀ (c : Cfg) (evs : List Event) (a b post : List Entry) (r x p : Entry) (n : Nat) (tk : Ticket)
    (raw1 raw4 t2 : Int) (ok : Bool) (h : Hdr),
    (run c (init c) evs).2 = a ++ r :: (b ++ post) → Asked r n tk → x ∈ b → p ∈ b →
    x.ev = .txTime tk raw1 ok → p.ev = .presp h 54 t2 c.self (some raw4) → h.seq = n →
    h.src ≠ c.self → h.twoStep = false → (∀ y ∈ b, y = x ∨ y = p) → p.before.mech = .p2p →
    ∃ y ∈ b, Measured y

/-- C112: so it is, in the states other than passive, if the transmit time comes
before the answer. -/
theorem C112_one_step_partial (c : Cfg) (evs : List Event) (a b m post : List Entry)
    (r x p : Entry) (n len : Nat) (tk : Ticket) (raw1 raw4 t2 : Int) (ok : Bool) (h : Hdr)
    (ht : (run c (init c) evs).2 = a ++ r :: (b ++ x :: (m ++ p :: post))) (hr : Asked r n tk)
    (hx : x.ev = .txTime tk raw1 ok) (hp : p.ev = .presp h len t2 c.self (some raw4))
    (hl : 54 ≤ len) (hq : h.seq = n) (hs : h.src ≠ c.self) (h1 : h.twoStep = false)
    (hb : ∀ y ∈ b, Calm tk y) (hm : ∀ y ∈ m, Calm tk y) (hh : Hears p.before) : Measured p := by
  obtain ⟨hpre, ho⟩ := (run_hist c (init c) evs).split (pre := a ++ r :: (b ++ x :: m)) (e := p)
    (post := post) (by rw [ht]; simp)
  have hw := waits_answer hpre hr hx hb hm
  obtain ⟨t1, t4, he⟩ := (answer_effect (t2 := t2) (raw := raw4) hw hh hl hq hs).1 h1
  exact ⟨t1, t2, t2, t4, h.corr, by rw [ho, hp, he]; simp⟩

/-- C112: the same in two steps: the follow-up gives a measurement. -/
theorem C112_two_step_partial (c : Cfg) (evs : List Event) (a b m m' post : List Entry)
    (r x p f : Entry) (n len len' : Nat) (tk : Ticket) (raw1 raw4 t2 t3 : Int) (ok : Bool)
    (h g : Hdr)
    (ht : (run c (init c) evs).2 = a ++ r :: (b ++ x :: (m ++ p :: (m' ++ f :: post))))
    (hr : Asked r n tk) (hx : x.ev = .txTime tk raw1 ok)
    (hp : p.ev = .presp h len t2 c.self (some raw4)) (hl : 54 ≤ len) (hq : h.seq = n)
    (hs : h.src ≠ c.self) (h1 : h.twoStep = true)
    (hf : f.ev = .prespFollowUp g len' t3 c.self) (hl' : 54 ≤ len') (hq' : g.seq = n)
    (hs' : g.src ≠ c.self) (hb : ∀ y ∈ b, Calm tk y) (hm : ∀ y ∈ m, Calm tk y)
    (hm' : ∀ y ∈ m', Calm tk y) (hh : Hears p.before) (hh' : Hears f.before) : Measured f := by
  obtain ⟨hpre, _⟩ := (run_hist c (init c) evs).split (pre := a ++ r :: (b ++ x :: m)) (e := p)
    (post := m' ++ f :: post) (by rw [ht]; simp)
  obtain ⟨hpre', ho⟩ := (run_hist c (init c) evs).split
    (pre := (a ++ r :: (b ++ x :: m)) ++ p :: m') (e := f) (post := post) (by rw [ht]; simp)
  have hw := waits_answer hpre hr hx hb hm
  have hwf := (answer_effect (t2 := t2) (raw := raw4) hw hh hl hq hs).2 h1
  have hwf' : WaitF n f.before := by
    refine Hist.keep m' hpre' ?_ (fun y hy h => keepF (hm' y hy) h)
    rw [hp]; exact hwf
  obtain ⟨t1, t2', t4, he⟩ := follow_effect (t3 := t3) hwf' hh' hl' hq' hs'
  exact ⟨t1, t2', t3, t4, g.corr, by rw [ho, hf, he]; simp⟩

/-- A complete exchange in one step. -/
def complete : List Event :=
  [.goto .listening false true, .reqExpired (.sent (tkt 1)), .txTime (tkt 1) 1000 true,
   .announceExpired true, .presp (hdr 2 1 false 3) 54 400 ⟨1, 1⟩ (some 1300)]

example : outsOf (c0 .p2p) complete =
    [[], [.send (.preq 1)], [], [], [.measure 1000 400 400 1300 3]] := by decide

/-- The answer is handled before the transmit time. -/
def early : List Event :=
  [.goto .listening false true, .reqExpired (.sent (tkt 1)),
   .presp (hdr 2 1 false 0) 54 400 ⟨1, 1⟩ (some 1300), .txTime (tkt 1) 1000 true]

/-- A passive port asks, too. -/
def bystander : List Event :=
  [.goto .passive false true, .reqExpired (.sent (tkt 1)), .txTime (tkt 1) 1000 true,
   .presp (hdr 2 1 false 0) 54 400 ⟨1, 1⟩ (some 1300)]

example : outsOf (c0 .p2p) early = [[], [.send (.preq 1)], [], []] := by decide

example : outsOf (c0 .p2p) bystander = [[], [.send (.preq 1)], [], []] := by decide

theorem measured_outs {y : Entry} (h : Measured y) : y.outs ≠ [] := by
  obtain ⟨t1, t2, t3, t4, k, hm⟩ := h
  intro hc
  rw [hc] at hm; cases hm

/-- C112 does not hold: an answer handled before the request's transmit time is
lost. -/
theorem C112_violated : ¬ C112_statement := by
  intro h
  let tr := (run (c0 .p2p) (init (c0 .p2p)) early).2
  have := h (c0 .p2p) early (tr.take 1) (tr.drop 2) [] (tr[1]'(by decide)) (tr[3]'(by decide))
    (tr[2]'(by decide)) 1 (tkt 1) 1000 1300 400 true (hdr 2 1 false 0) rfl ⟨rfl, by decide⟩
    (by show _ ∈ [_, _]; simp; exact Or.inr rfl) (by show _ ∈ [_, _]; simp; exact Or.inl rfl) rfl rfl rfl
    (by decide) rfl
    (by
      intro y hy
      have hy' : y ∈ [tr[2]'(by decide), tr[3]'(by decide)] := hy
      simp only [List.mem_cons, List.not_mem_nil, or_false] at hy'
      exact hy'.symm) (by decide)
  obtain ⟨y, hy, hm⟩ := this
  have hy' : y ∈ [tr[2]'(by decide), tr[3]'(by decide)] := hy
  simp only [List.mem_cons, List.not_mem_nil, or_false] at hy'
  rcases hy' with rfl | rfl
  · exact measured_outs hm (by decide)
  · exact measured_outs hm (by decide)

/-- C112 does not hold: a passive port sends requests and ignores the answers. -/
theorem C112_passive_violated : ¬ C112_statement := by
  intro h
  let tr := (run (c0 .p2p) (init (c0 .p2p)) bystander).2
  have := h (c0 .p2p) bystander (tr.take 1) (tr.drop 2) [] (tr[1]'(by decide)) (tr[2]'(by decide))
    (tr[3]'(by decide)) 1 (tkt 1) 1000 1300 400 true (hdr 2 1 false 0) rfl ⟨rfl, by decide⟩
    (by show _ ∈ [_, _]; simp; exact Or.inl rfl) (by show _ ∈ [_, _]; simp; exact Or.inr rfl) rfl rfl rfl
    (by decide) rfl
    (by
      intro y hy
      have hy' : y ∈ [tr[2]'(by decide), tr[3]'(by decide)] := hy
      simpa only [List.mem_cons, List.not_mem_nil, or_false] using hy') (by decide)
  obtain ⟨y, hy, hm⟩ := this
  have hy' : y ∈ [tr[2]'(by decide), tr[3]'(by decide)] := hy
  simp only [List.mem_cons, List.not_mem_nil, or_false] at hy'
  rcases hy' with rfl | rfl
  · exact measured_outs hm (by decide)
  · exact measured_outs hm (by decide)

/-! ## C113: sequence numbers -/

/-- C113, full statement: the messages of a kind are numbered consecutively. -/
def C113_statement : Prop :=
  ∀ (c : Cfg) (evs : List Event) (pre post : List Entry) (e : Entry),
    (run c (init c) evs).2 = pre ++ e :: post →
    (∀ n, .send (.announce n) ∈ e.outs →
      n = count isAnnounce pre % 65536) ∧
    (∀ n, .send (.sync n) ∈ e.outs →
      n = (count isSync pre + 1) % 65536) ∧
    (∀ n, .send (.preq n) ∈ e.outs →
      n = (count isPreq pre + 1) % 65536)

/-- C113: Announces always are, Syncs and Pdelay_Reqs if none fails to be
sent. -/
theorem C113_numbers_partial (c : Cfg) (evs : List Event) (pre post : List Entry) (e : Entry)
    (ht : (run c (init c) evs).2 = pre ++ e :: post) :
    (∀ n, .send (.announce n) ∈ e.outs →
      n = count isAnnounce pre % 65536) ∧
    ((∀ y ∈ pre, y.ev ≠ .syncExpired .failed) → ∀ n, .send (.sync n) ∈ e.outs →
      n = (count isSync pre + 1) % 65536) ∧
    ((∀ y ∈ pre, y.ev ≠ .reqExpired .failed) → ∀ n, .send (.preq n) ∈ e.outs →
      n = (count isPreq pre + 1) % 65536) := by
  obtain ⟨hp, ho⟩ := (run_hist c (init c) evs).split ht
  have k := step_numbers c e.before e.ev
  rw [ho]
  refine ⟨?_, ?_, ?_⟩
  · intro n hn
    rcases k.announce with ⟨_, h⟩ | ⟨h, _⟩
    · exact absurd hn (h n)
    · rw [h] at hn
      simp only [List.mem_singleton, Out.send.injEq, Msg.announce.injEq] at hn
      rw [hn, hp.annSeq rfl]
  · intro hf n hn
    rcases k.sync with ⟨_, h⟩ | ⟨h, h'⟩ | ⟨h, _⟩
    · exact absurd hn (h n)
    · rw [h] at hn
      simp only [List.mem_singleton, Out.send.injEq, Msg.sync.injEq] at hn
      rw [hn, h', hp.syncSeq rfl hf]
      unfold next; omega
    · rw [h] at hn; cases hn
  · intro hf n hn
    rcases k.preq with ⟨_, h⟩ | ⟨h, h'⟩ | ⟨h, _⟩
    · exact absurd hn (h n)
    · rw [h] at hn
      simp only [List.mem_singleton, Out.send.injEq, Msg.preq.injEq] at hn
      rw [hn, h', hp.reqSeq rfl hf]
      unfold next; omega
    · rw [h] at hn; cases hn

/-- A Sync that cannot be sent, and the next. -/
def gap : List Event :=
  [.goto .listening false true, .goto .master false true, .syncExpired .failed,
   .goto .master false true, .syncExpired (.sent (tkt 1))]

example : outsOf (c0 .e2e) gap = [[], [], [], [], [.send (.sync 2)]] := by decide

/-- C113 does not hold: the number of a Sync that could not be sent is left
out. -/
theorem C113_violated : ¬ C113_statement := by
  intro h
  let tr := (run (c0 .e2e) (init (c0 .e2e)) gap).2
  have := (h (c0 .e2e) gap (tr.take 4) [] (tr.getLast (by decide)) rfl).2.1 2 (by decide)
  exact absurd this (by decide)

end Verif.Peer
