import Verif.Ntp.Trace

/-!
# Properties of the NTP module
-/

set_option linter.unusedVariables false
set_option linter.unusedSimpArgs false

namespace Verif.Ntp

/-! ## Concrete circumstances -/

/-- A life that is there and ends as described. -/
def check (c : Conf) (e : StartEnv) (es : List Ev) (f : Mod → List Out → Bool) : Bool :=
  (start c e).1 = 0 &&
    match run es (start c e).2.1 with
    | .error _ => false
    | .ok (m, o) => f m ((start c e).2.2 ++ o)

theorem witness {c : Conf} {e : StartEnv} {es : List Ev} {f : Mod → List Out → Bool} (h : check c e es f = true) :
    ∃ m o, Life c e es m o ∧ f m o = true := by
  unfold check at h
  simp only [Bool.and_eq_true, decide_eq_true_eq] at h
  cases hr : run es (start c e).2.1 with
  | error x => rw [hr] at h; cases h.2
  | ok r =>
    obtain ⟨m, o⟩ := r
    rw [hr] at h
    exact ⟨m, _, ⟨h.1, o, hr, rfl⟩, h.2⟩

/-- An answering ntpd that speaks mode 7, at a time. -/
def env0 (now : Int) (cc : Bool) (l : List Peer) : Env :=
  ⟨fun _ _ => true, fun _ => .ok (some cc), fun _ => .ok l, 0, now, true, 5⟩

/-- An ntpd that does not answer: no protocol works and every query is refused. -/
def gone (now : Int) : Env := ⟨fun _ _ => false, fun _ => .error 111, fun _ => .error 111, 111, now, false, 0⟩

/-- A peer that is followed. -/
def peerA : Peer := ⟨7, 3, true, false, false, false, 250, 90, 2⟩

/-- A candidate. -/
def peerB : Peer := ⟨8, 5, false, false, true, false, -40, 70, 3⟩

/-- A reference clock. -/
def peerR : Peer := ⟨0, 0, true, false, true, true, 0, 0, 0⟩

/-- An instance with a key, and no instance. -/
def confA : Conf := ⟨true, true, 16, false, true⟩
def confP : Conf := ⟨false, false, 16, false, true⟩

/-- A start in given circumstances. -/
def begin_ (env : Env) : StartEnv := ⟨env, 0, false⟩

/-- A poll with the wait before it. -/
def poll (env : Env) : List Ev := [.timer env, .timer env, .timer env]

/-! ## C176 -/

/-- **C176**: as long as the clock is not stepped, the state is the one that the documented rules give for what ntpd
answered last; and in whatever circumstances, in the state slave the offset, the dispersion and the stratum are those of
the peer that ntpd's latest list shows as followed. -/
theorem C176_state {c : Conf} {e : StartEnv} {es : List Ev} {m : Mod} {o : List Out} (h : Life c e es m o) :
    ((∀ ev ∈ es, ev ≠ .step) → m.state.st = ruled (lastCode o) (latest o)) ∧
    (m.state.st = .slave → ruled (lastCode o) (latest o) = .slave ∧ ∃ p, chosen (latest o) = some p ∧
      m.state.offset = p.offset ∧ m.state.disp = some p.disp ∧ m.state.stratum = p.stratum) := by
  refine ⟨fun hn => (h.plain hn).2, fun hs => ⟨h.known.slave hs, ?_⟩⟩
  obtain ⟨i, _, _, p, _, hc, h1, h2, h3⟩ := h.known.follows hs
  exact ⟨p, by rw [← h.known.peers]; exact hc, h1, h2, h3⟩

/-- A reference clock is passed over, a peer is followed, then ntpd loses it. -/
example : check confA (begin_ (env0 0 true [peerR, peerA])) [.run (env0 1 false []), .timer (env0 2 false [])]
      (fun m o => m.state.st = .slave && m.state.offset = 250 && chosen (latest o) = some peerA) ∧
    check confA (begin_ (env0 0 true [peerR, peerA])) ([.run (env0 1 false [])] ++ (poll (env0 2 false [peerR, peerB])).take 2)
      (fun m o => m.state.st = .selection && m.state.disp = none) ∧
    check confA (begin_ (env0 0 true [peerA])) [.run (env0 1 false []), .timer (gone 2)]
      (fun m o => m.state.st = .faulty && lastCode o = some (some 111)) := by decide +kernel

/-! ## C177 -/

/-- An answer to the query for peers that shows a peer with an address being followed. -/
def Out.shows (x : Out) (f : Peer → Prop) : Prop :=
  (∀ t rc, x ≠ .sys t (.error rc)) ∧ ∀ a, x = .peers a → ∃ l p, a = .ok l ∧ chosen l = some p ∧ p.addr ≠ 0 ∧ f p

/-- **C177**: after a step of the clock the module becomes slave again when ntpd has a new offset: once three polls
have been answered that all show another packet received from the peer than before the step. -/
def C177_statement : Prop :=
  ∀ (c : Conf) (e : StartEnv) (es es' : List Ev) (m m' : Mod) (o o' : List Out) (p : Peer),
    Life c e es m o → chosen (latest o) = some p → run (.step :: es') m = .ok (m', o') → (∀ ev ∈ es', ev ≠ .step) →
    (∀ x ∈ o', x.shows fun q => q.addr = p.addr ∧ q.received ≠ p.received) → 3 ≤ (polls o').length →
    lastCode o' = some none → m'.state.st = .slave

/-- **C177**, the other half: as long as ntpd shows the offset it had before the step, the module is not slave. -/
def C177_old_statement : Prop :=
  ∀ (c : Conf) (e : StartEnv) (es es' : List Ev) (m m' : Mod) (o o' : List Out) (p : Peer),
    Life c e es m o → chosen (latest o) = some p → run (.step :: es') m = .ok (m', o') →
    (∀ l q, Out.peers (.ok l) ∈ o' → chosen l = some q → q = p) → lastCode o' ≠ none → m'.state.st ≠ .slave

/-- The peer with another packet received. -/
def peerA' (n : Nat) : Peer := { peerA with received := 3 + n, offset := 11 }

/-- The module waits for the identity of the offset to become invalid, not for a new one. -/
theorem C177_violated : ¬ C177_statement := by
  intro h
  obtain ⟨m, o, hl, hm⟩ := witness (c := confA) (e := begin_ (env0 0 true [peerA]))
    (es := [.run (env0 1 false [])]) (f := fun m o => chosen (latest o) = some peerA &&
      match run (.step :: (poll (env0 (100 * 1000000000) false [peerA' 1]) ++ poll (env0 (200 * 1000000000) false [peerA' 2]) ++ poll (env0 (300 * 1000000000) false [peerA' 3]))) m with
      | .ok (m', o') => m'.state.st ≠ .slave && (polls o').length = 3 && lastCode o' = some none &&
          o'.all (fun x => match x with
            | .sys _ (.error _) => false
            | .peers (.ok l) => (chosen l = some (peerA' 1)) || (chosen l = some (peerA' 2)) || (chosen l = some (peerA' 3))
            | .peers (.error _) => false
            | _ => true)
      | .error _ => false) (by decide +kernel)
  simp only [Bool.and_eq_true, decide_eq_true_eq] at hm
  obtain ⟨hc, hm⟩ := hm
  split at hm
  · rename_i m' o' hr
    simp only [Bool.and_eq_true, decide_eq_true_eq, List.all_eq_true] at hm
    refine hm.1.1.1 (h _ _ _ _ m m' o o' peerA hl hc hr ?_ ?_ (by omega) hm.1.2)
    · intro ev hev
      simp only [poll, List.cons_append, List.nil_append, List.mem_cons, List.not_mem_nil, or_false] at hev
      rcases hev with rfl | rfl | rfl | rfl | rfl | rfl | rfl | rfl | rfl <;> exact nofun
    · intro x hx
      have := hm.2 x hx
      refine ⟨fun t rc hh => (by subst hh; cases this), fun a ha => ?_⟩
      subst ha
      cases a with
      | error rc => cases this
      | ok l =>
        simp only [Bool.or_eq_true, decide_eq_true_eq] at this
        rcases this with (this | this) | this <;> exact ⟨l, _, rfl, this, by decide, by decide, by decide⟩
  · cases hm

/-- One failed query is enough for the old offset to be used again. -/
theorem C177_old_violated : ¬ C177_old_statement := by
  intro h
  obtain ⟨m, o, hl, hm⟩ := witness (c := confA) (e := begin_ (env0 0 true [peerA]))
    (es := [.run (env0 1 false [])]) (f := fun m o => chosen (latest o) = some peerA &&
      match run (.step :: ([.timer (gone 2)] ++ [.timer (gone 3), .timer (env0 4 false []), .timer (env0 4 false []), .timer (env0 4 false [peerA])])) m with
      | .ok (m', o') => m'.state.st = .slave && lastCode o' = some none &&
          o'.all (fun x => match x with
            | .peers (.ok l) => l = [peerA]
            | _ => true)
      | .error _ => false) (by decide +kernel)
  simp only [Bool.and_eq_true, decide_eq_true_eq] at hm
  obtain ⟨hc, hm⟩ := hm
  split at hm
  · rename_i m' o' hr
    simp only [Bool.and_eq_true, decide_eq_true_eq, List.all_eq_true] at hm
    refine h _ _ _ _ m m' o o' peerA hl hc hr ?_ (by rw [hm.1.2]; exact nofun) hm.1.1
    intro l q hx hq
    have := hm.2 _ hx
    simp only [decide_eq_true_eq] at this
    subst this
    simpa [chosen, peerA] using hq.symm
  · cases hm

/-- The identity of the offset is that of the peer followed. -/
def Named (m : Mod) : Prop := m.state.id = (chosen m.state.peers).bind offsetId

theorem sysState_named (s : State) (bad : Bool) (score : Int) (a : Ans (Option Bool)) :
    (sysState s bad score a).id = (chosen (sysState s bad score a).peers).bind offsetId := by
  cases a with
  | error rc => rfl
  | ok c =>
    obtain ⟨_, _, _, h4, _, _, _, _, _, h10⟩ := parseOk_spec { s with cc := c.getD s.cc } bad score
    show (parseOk _ _ _).id = (chosen (parseOk _ _ _).peers).bind offsetId
    rw [h10, h4]

theorem peerState_named (s : State) (bad : Bool) (score : Int) (a : Ans (List Peer)) :
    (peerState s bad score a).id = (chosen (peerState s bad score a).peers).bind offsetId := by
  cases a with
  | error rc => rfl
  | ok l =>
    obtain ⟨_, _, _, h4, _, _, _, _, _, h10⟩ := parseOk_spec { s with peers := l } bad score
    show (parseOk _ _ _).id = (chosen (parseOk _ _ _).peers).bind offsetId
    rw [h10, h4]

theorem Named.same {m m' : Mod} (k : Named m) (h : SameView m'.state m.state) : Named m' := by
  unfold Named; rw [h.id, h.peers]; exact k

theorem step_named {m m' : Mod} {e : Ev} {o : List Out} (k : Named m) (hstep : step m e = .ok (m', o)) : Named m' := by
  cases step_move hstep with
  | run h hm => subst hm; exact k
  | @sys env _ q hq h =>
    unfold Named
    rw [h.state, (stored_view _ _ _).id, (stored_view _ _ _).peers]
    exact sysState_named _ _ _ _
  | @peers env _ q hq h =>
    unfold Named
    rw [h.state, (stored_view _ _ _).id, (stored_view _ _ _).peers]
    exact peerState_named _ _ _ _
  | control => exact k.same (onControl_spec _ _ _ _).view
  | _ => exact k

theorem Life.named {c : Conf} {e : StartEnv} {es : List Ev} {m : Mod} {o : List Out} (h : Life c e es m o) : Named m := by
  refine h.induct (P := fun m _ _ => Named m) (fun _ _ hs => ?_) (fun _ _ _ _ _ _ k hs => step_named k hs)
  cases hs with
  | silent h => rfl
  | failed hp h => rfl
  | @known p cc l hp h hl ht hk =>
    obtain ⟨_, _, _, h4, _, _, _, _, _, h10⟩ := parseOk_spec
      (passiveCheck c (takeControl c e.env (some p) { cc := cc.getD true, peers := l }).2.2.1).2 false e.env.score
    show (parseOk _ _ _).id = (chosen (parseOk _ _ _).peers).bind offsetId
    rw [h10, h4]

/-- After a step, with ntpd in good health: the module holds the offset back. -/
def Stuck (m : Mod) (o : List Out) : Prop := m.unsafe_ = true ∧ Named m ∧ (lastCode o ≠ none → m.state.st ≠ .slave)

theorem Stuck.same {m m' : Mod} {o p : List Out} (k : Stuck m o) (hv : SameView m'.state m.state) (hu : m'.unsafe_ = m.unsafe_)
    (hq : ∀ x ∈ p, Quiet x) : Stuck m' (o ++ p) :=
  ⟨by rw [hu]; exact k.1, k.2.1.same hv, by rw [code_quiet _ _ hq, hv.st]; exact k.2.2⟩

theorem step_stuck {m m' : Mod} {e : Ev} {o o' : List Out} (k : Stuck m o) (he : ∀ env, e ≠ .run env)
    (hx : ∀ x ∈ o', x.shows fun _ => True) (hstep : step m e = .ok (m', o')) : Stuck m' (o ++ o') := by
  have hn := step_named k.2.1 hstep
  cases step_move hstep with
  | run h hm => exact absurd rfl (he _)
  | @sys env _ q hq h =>
    have hv := stored_view env { m with proto := (getSys env m.proto).1, query := .peerInfo }
      (sysState m.state m.unsafe_ env.score (getSys env m.proto).2)
    have h0 := (hx _ (List.mem_cons_self ..)).1
    cases ha : (getSys env m.proto).2 with
    | error rc => rw [ha] at h0; exact absurd rfl (h0 _ _)
    | ok cc =>
      obtain ⟨_, _, _, h4, _, h6, _, _, _, h10⟩ := parseOk_spec { m.state with cc := cc.getD m.state.cc } m.unsafe_ env.score
      refine ⟨?_, hn, fun _ hs => ?_⟩
      · rw [h.unsafe_, if_neg]
        · exact k.1
        · rw [hv.id, ha]
          simp only [ne_eq, Decidable.not_not]
          exact h10.trans k.2.1.symm
      · rw [h.state, hv.st, ha] at hs
        have := h6 hs
        rw [k.1] at this; cases this
  | @peers env _ q hq h =>
    have hv := stored_view env { m with proto := (getPeers env m.proto).1, query := .sleep }
      (peerState m.state m.unsafe_ env.score (getPeers env m.proto).2)
    obtain ⟨l, p, ha, hc, hp, _⟩ := (hx _ (List.mem_cons_self ..)).2 _ rfl
    obtain ⟨_, _, _, h4, _, h6, _, _, _, h10⟩ := parseOk_spec { m.state with peers := l } m.unsafe_ env.score
    refine ⟨?_, hn, fun _ hs => ?_⟩
    · rw [h.unsafe_]
      split
      · unfold newUnsafe
        rw [hv.id, ha]
        have : (peerState m.state m.unsafe_ env.score (.ok l)).id = some (p.addr, p.received) := by
          refine h10.trans ?_
          simp [hc, offsetId, hp]
        rw [this]
        simpa using k.1
      · exact k.1
    · rw [h.state, hv.st, ha] at hs
      have := h6 hs
      rw [k.1] at this; cases this
  | wake hq hn => exact k.same (.rfl' _) rfl (by simp)
  | asleep hq hn => exact k.same (.rfl' _) rfl (by simp)
  | control => exact k.same (onControl_spec _ _ _ _).view (onControl_spec _ _ _ _).unsafe_ (onControl_spec _ _ _ _).quiet
  | step => exact (k.same (m' := m) (.rfl' _) rfl (p := []) (by simp)).imp (fun _ => rfl) (fun h => h)
  | logStats hi => exact k.same (.rfl' _) rfl fun x hx => (hi x hx).quiet
  | getStatus => exact k.same (.rfl' _) rfl fun x hx => by rw [List.mem_singleton] at hx; subst hx; exact ⟨nofun, nofun⟩
  | saveState => exact k.same (.rfl' _) rfl (by simp)
  | topology => exact k.same (.rfl' _) rfl (by simp)

/-- **C177, what holds.** After a step, once ntpd has answered, the module is not slave until ntpd either fails to
answer or shows no peer that it follows: as long as ntpd is in good health the offset is never used again, whatever
packets it receives. -/
theorem C177_partial {c : Conf} {e : StartEnv} {es es' : List Ev} {m m' : Mod} {o o' : List Out} (h : Life c e es m o)
    (hr : run (.step :: es') m = .ok (m', o')) (hn : ∀ env, Ev.run env ∉ es')
    (hx : ∀ x ∈ o', x.shows fun _ => True) (ha : lastCode o' ≠ none) : m'.state.st ≠ .slave := by
  rw [run] at hr
  simp only [step] at hr
  cases hr' : run es' { m with unsafe_ := true } with
  | error f => rw [hr'] at hr; cases hr
  | ok r =>
    obtain ⟨m2, o2⟩ := r
    rw [hr'] at hr
    cases hr
    have := run_effects (P := fun m es o => (∀ env, Ev.run env ∉ es) → (∀ x ∈ o, x.shows fun _ => True) → Stuck m o)
      (es0 := []) (o0 := []) (fun m es o ev m' o' k hs h1 h2 =>
        step_stuck (k (fun env hm => h1 env (by simp [hm])) (fun x hx => h2 x (by simp [hx])))
          (fun env hh => h1 env (by simp [hh])) (fun x hx => h2 x (by simp [hx])) hs)
      (m := { m with unsafe_ := true }) (fun _ _ => ⟨rfl, h.named, fun hh => absurd rfl hh⟩) hr'
    exact (this (by simpa using hn) (by simpa using hx)).2.2 (by simpa using ha)

/-- Such a step, and the polls after it. -/
example : check confA (begin_ (env0 0 true [peerA])) [.run (env0 1 false [])] (fun m o => m.state.st = .slave &&
    match run (.step :: (poll (env0 (100 * 1000000000) false [peerA' 1]) ++ poll (env0 (200 * 1000000000) false [peerA' 2]))) m with
    | .ok (m', o') => m'.state.st = .listening && lastCode o' = some none && o'.length = 5
    | .error _ => false) := by decide +kernel

/-- **C177, what holds.** Throughout, the offset has an identity exactly when ntpd follows a peer that has an address,
and it is the address and the count of packets received from that peer. -/
theorem C177_identity_partial {c : Conf} {e : StartEnv} {es : List Ev} {m : Mod} {o : List Out} (h : Life c e es m o) (a r : Nat) :
    m.state.id = some (a, r) ↔ ∃ p, chosen m.state.peers = some p ∧ p.addr = a ∧ p.received = r ∧ a ≠ 0 := by
  have hn := h.named
  unfold Named at hn
  rw [hn]
  cases hc : chosen m.state.peers with
  | none => simp
  | some p =>
    simp only [Option.bind_some, offsetId, Option.some.injEq, exists_eq_left']
    by_cases hp : p.addr = 0
    · simp only [hp, if_true]
      constructor
      · intro h; cases h
      · rintro ⟨rfl, -, h⟩; exact absurd rfl h
    · simp only [hp, if_false, Option.some.injEq, Prod.mk.injEq]
      constructor
      · rintro ⟨rfl, rfl⟩; exact ⟨rfl, rfl, hp⟩
      · rintro ⟨rfl, rfl, -⟩; exact ⟨rfl, rfl⟩

example : check confA (begin_ (env0 0 true [peerA])) [.run (env0 1 false [])] (fun m o => m.state.id = some (peerA.addr, peerA.received)) := by
  decide +kernel

end Verif.Ntp
