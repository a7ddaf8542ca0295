import Verif.Ntp.Props4

/-!
# Properties of the NTP module: statistics, conflicts over the clock, accuracy
-/

set_option linter.unusedVariables false
set_option linter.unusedSimpArgs false

namespace Verif.Ntp

/-! ## C185 -/

/-- **C185**: the statistics that are sent because ntpd has a new offset carry that offset. -/
def C185_statement : Prop :=
  ∀ (c : Conf) (e : StartEnv) (es : List Ev) (m m' : Mod) (o o' : List Out) (env : Env) (l : List Peer) (x : Int) (d s : Bool),
    Life c e es m o → step m (.timer env) = .ok (m', o') → Out.peers (.ok l) ∈ o' → Out.stats x d s ∈ o' →
    ∃ p, chosen l = some p ∧ x = p.offset

/-- They are sent before the new state is stored. -/
theorem C185_violated : ¬ C185_statement := by
  intro h
  obtain ⟨m, o, hl, hm⟩ := witness (c := confA) (e := begin_ (env0 0 false [peerA])) (es := [.run (env0 1 false []), .timer (env0 2 false [])])
    (f := fun m o => match step m (.timer (env0 2 false [peerA' 1])) with
      | .ok (m', o') => o'.contains (.peers (.ok [peerA' 1])) && o'.contains (.stats 250 false true)
      | .error _ => false) (by decide +kernel)
  split at hm
  · rename_i m' o' hs
    simp only [Bool.and_eq_true, List.contains_iff_mem] at hm
    obtain ⟨p, hp, hx⟩ := h _ _ _ m m' o o' _ [peerA' 1] 250 false true hl hs hm.1 hm.2
    have : p = peerA' 1 := by
      have hc : chosen [peerA' 1] = some (peerA' 1) := by decide
      rw [hc] at hp; exact (Option.some.inj hp).symm
    subst this
    revert hx; decide
  · cases hm

/-- The selected peer of a state that follows one. -/
theorem selPeer_slave {s : State} {p : Peer} (hf : Follows s) (hs : s.st = .slave) (h : selPeer s = .ok p) : chosen s.peers = some p := by
  obtain ⟨i, h1, h2, q, h3, h4, _⟩ := hf hs
  unfold selPeer at h
  rw [h1] at h
  have h' : (if i < 32 then Except.ok (peerAt s.peers i) else .error Fault.outside) = .ok p := h
  split at h'
  · cases h'; rw [h4, ← h3]
  · cases h'

theorem info_facts {m : Mod} {o : List Out} {x : Out} (k : Known m o) (h : Info m x) :
    (∀ off d s, x = .stats off d s → m.conf.inst = true ∧ m.state.st = .slave ∧ (∃ p, chosen (latest o) = some p ∧ off = p.offset) ∧
      (s = true → m.synced = true) ∧ (d = true → m.flags.selected = true ∧ m.state.cc = true)) ∧
    (∀ off, x = .cluster off true → m.state.st = .slave ∧ off ≠ 0 ∧ ∃ p, chosen (latest o) = some p ∧ off = p.offset) := by
  rcases h with ⟨h1, h2, p, hp, rfl⟩ | ⟨h1, p, hp, rfl⟩
  · refine ⟨fun off d s hx => ?_, nofun⟩
    cases hx
    exact ⟨h1, h2, ⟨p, by rw [← k.peers]; exact selPeer_slave k.follows h2 hp, rfl⟩, fun h => h, fun h => by simpa using h⟩
  · refine ⟨nofun, fun off hx => ?_⟩
    simp only [Out.cluster.injEq, Bool.and_eq_true, decide_eq_true_eq] at hx
    obtain ⟨rfl, h3, h4⟩ := hx
    exact ⟨h4, h3, p, by rw [← k.peers]; exact selPeer_slave k.follows h4 hp, rfl⟩

/-- Statistics and clustering inputs come from reports on the state before the event. -/
theorem step_info {m m' : Mod} {e : Ev} {o' : List Out} (hstep : step m e = .ok (m', o')) :
    ∀ x ∈ o', (∀ off d s, x ≠ .stats off d s) ∧ (∀ off v, x ≠ .cluster off v) ∨
      ∃ m1 : Mod, m1.state = m.state ∧ m1.conf = m.conf ∧ m1.flags = m.flags ∧ m1.synced = m.synced ∧ Info m1 x := by
  have app : ∀ {env : Env} {m1 m' : Mod} {new : State} {q : List Out}, Applied env m1 new m' q → m1.state = m.state → m1.conf = m.conf →
      m1.flags = m.flags → m1.synced = m.synced → ∀ x ∈ q, (∀ off d s, x ≠ .stats off d s) ∧ (∀ off v, x ≠ .cluster off v) ∨
      ∃ m1 : Mod, m1.state = m.state ∧ m1.conf = m.conf ∧ m1.flags = m.flags ∧ m1.synced = m.synced ∧ Info m1 x := by
    intro env m1 m' new q h a b c d x hx
    obtain ⟨info, hinfo, rfl⟩ := h.outs
    rcases List.mem_append.1 hx with hx | hx
    · rcases List.mem_append.1 hx with hx | hx
      · rcases tried_eq env m1 new with ⟨_, h'⟩ | ⟨_, sent, h'⟩
        · rw [h'] at hx; cases hx
        · rw [h', List.mem_singleton] at hx; subst hx; exact .inl ⟨nofun, nofun⟩
      · exact .inr ⟨m1, a, b, c, d, hinfo x hx⟩
    · unfold tells at hx
      split at hx
      · rw [List.mem_singleton] at hx; subst hx; exact .inl ⟨nofun, nofun⟩
      · cases hx
  cases step_move hstep with
  | run h hm =>
    obtain ⟨info, hinfo, rfl⟩ := h
    intro x hx
    rcases List.mem_append.1 hx with hx | hx
    · exact .inr ⟨_, rfl, rfl, rfl, rfl, hinfo x hx⟩
    · split at hx
      · rw [List.mem_singleton] at hx; subst hx; exact .inl ⟨nofun, nofun⟩
      · cases hx
  | sys hq h =>
    intro x hx
    rcases List.mem_cons.1 hx with rfl | hx
    · exact .inl ⟨nofun, nofun⟩
    · exact app h rfl rfl rfl rfl x hx
  | peers hq h =>
    intro x hx
    rcases List.mem_cons.1 hx with rfl | hx
    · exact .inl ⟨nofun, nofun⟩
    · exact app h rfl rfl rfl rfl x hx
  | @control env mask v =>
    intro x hx
    rw [(onControl_spec env m mask v).outs] at hx
    split at hx
    · obtain ⟨sent, hs⟩ := control_outs env m.conf.key m.proto (onControl env m mask v).1.flags.clockCtrl
      rw [hs, List.mem_singleton] at hx; subst hx; exact .inl ⟨nofun, nofun⟩
    · cases hx
  | logStats hi => intro x hx; exact .inr ⟨m, rfl, rfl, rfl, rfl, hi x hx⟩
  | getStatus => intro x hx; rw [List.mem_singleton] at hx; subst hx; exact .inl ⟨nofun, nofun⟩
  | _ => intro x hx; cases hx

/-- Being synchronized is a state of a slave whose timestamps are processed. -/
def SyncOk (m : Mod) : Prop := m.synced = true → m.state.st = .slave

theorem step_sync {m m' : Mod} {e : Ev} {o : List Out} (k : SyncOk m) (hstep : step m e = .ok (m', o)) : SyncOk m' := by
  cases step_move hstep with
  | run h hm => subst hm; exact k
  | sys hq h =>
    intro hs
    rw [h.synced] at hs
    simp only [Bool.and_eq_true, decide_eq_true_eq] at hs
    rw [h.state]; exact hs.1
  | peers hq h =>
    intro hs
    rw [h.synced] at hs
    simp only [Bool.and_eq_true, decide_eq_true_eq] at hs
    rw [h.state]; exact hs.1
  | control =>
    intro hs
    rw [(onControl_spec _ _ _ _).synced] at hs
    rw [(onControl_spec _ _ _ _).view.st]
    exact k hs
  | _ => exact k

/-- **C185, what holds.** Statistics are sent for an instance in the state slave only, with the offset of the peer
followed according to what ntpd had answered before the event; they say that the clock is disciplined only if the
instance is selected and ntpd is taken to control the clock. A valid input for clustering has the same offset, not 0.
And the module is in sync only in the state slave. -/
theorem C185_partial {c : Conf} {e : StartEnv} {es : List Ev} {m m' : Mod} {o o' : List Out} {ev : Ev} (h : Life c e es m o)
    (hs : step m ev = .ok (m', o')) :
    (∀ off d s, Out.stats off d s ∈ o' → c.inst = true ∧ m.state.st = .slave ∧ (∃ p, chosen (latest o) = some p ∧ off = p.offset) ∧
      (d = true → m.flags.selected = true ∧ m.state.cc = true)) ∧
    (∀ off, Out.cluster off true ∈ o' → m.state.st = .slave ∧ off ≠ 0 ∧ ∃ p, chosen (latest o) = some p ∧ off = p.offset) ∧
    (m'.synced = true → m'.state.st = .slave) := by
  have kn : ∀ {m1 : Mod}, m1.state = m.state → Known m1 o := fun hst =>
    ⟨by rw [hst]; exact h.known.peers, by rw [hst]; exact h.known.follows, by rw [hst]; exact h.known.slave⟩
  have hsy : SyncOk m := h.induct (P := fun m _ _ => SyncOk m) (fun m o hst => by cases hst <;> exact nofun)
    (fun _ _ _ _ _ _ k hs => step_sync k hs)
  refine ⟨fun off d s hx => ?_, fun off hx => ?_, step_sync hsy hs⟩
  · rcases step_info hs _ hx with hh | ⟨m1, a, b, f, g, hi⟩
    · exact absurd rfl (hh.1 off d s)
    · obtain ⟨h1, h2, h3, _, h5⟩ := (info_facts (kn a) hi).1 off d s rfl
      rw [b, h.conf] at h1
      rw [a] at h2 h5
      rw [f] at h5
      exact ⟨h1, h2, h3, h5⟩
  · rcases step_info hs _ hx with hh | ⟨m1, a, b, f, g, hi⟩
    · exact absurd rfl (hh.2 off true)
    · obtain ⟨h1, h2, h3⟩ := (info_facts (kn a) hi).2 off rfl
      rw [a] at h1
      exact ⟨h1, h2, h3⟩

example : check confA (begin_ (env0 0 false [peerA])) [.run (env0 1 false []), .timer (env0 2 false []), .timer (env0 2 false [peerA]), .logStats]
    (fun m o => o.contains (.stats 250 false true) && m.synced) := by decide +kernel

/-! ## C186 -/

/-- **C186**: unless told to ignore the conflict, the program does not carry on while ntpd controls a clock that it may
write itself, without having been asked to. -/
def C186_statement : Prop :=
  ∀ (c : Conf) (e : StartEnv) (es : List Ev) (m m' : Mod) (o o' : List Out) (env : Env) (t : Int), Life c e es m o →
    c.ignore = false → c.inst = false → c.writable = true →
    ¬ (step m (.timer env) = .ok (m', o') ∧ Out.sys t (.ok (some true)) ∈ o')

/-- ntpd is started later. -/
theorem C186_violated : ¬ C186_statement := by
  intro h
  obtain ⟨m, o, hl, hm⟩ := witness (c := confP) (e := begin_ (gone 0)) (es := [.run (gone 1)])
    (f := fun m o => match step m (.timer (env0 2 true [])) with
      | .ok (m', o') => o'.contains (.sys 2 (.ok (some true)))
      | .error _ => false) (by decide +kernel)
  split at hm
  · rename_i m' o' hs
    rw [List.contains_iff_mem] at hm
    exact h _ _ _ m m' o o' _ 2 hl rfl rfl rfl ⟨hs, hm⟩
  · cases hm

/-- **C186, what holds.** If a start succeeds with the conflict not ignored and ntpd having answered, then ntpd does not
control the clock as far as the module knows: it said so, or was successfully told to stop, or there is no instance and
the clock is not to be written. A start with an instance but without a key fails, and so does any start beside
systemd-timesyncd. -/
theorem C186_partial {c : Conf} {e : StartEnv} (h : (start c e).1 = 0) (hi : c.ignore = false) :
    (c.inst = true → c.key = true) ∧ e.timesyncd = false ∧
    (∀ l, Out.peers (.ok l) ∈ (start c e).2.2 →
      ((start c e).2.1.state.cc = false ∧ ((∃ t, Out.sys t (.ok (some false)) ∈ (start c e).2.2) ∨ (false, 0) ∈ attempts (start c e).2.2)) ∨
        (c.inst = false ∧ c.writable = false)) := by
  obtain ⟨h1, h2, h3⟩ := start_ok h
  refine ⟨fun hin => ?_, h2, ?_⟩
  · rw [hin, hi] at h1; simpa using h1
  · generalize (start c e).2.1 = m at h3 ⊢
    generalize (start c e).2.2 = o at h3 ⊢
    intro l hl
    cases h3 with
    | silent _ => cases hl
    | failed _ _ => simp at hl
    | @known p cc l' hp hsy hpe ht hk =>
      have hcc : (fresh c (takeControl c e.env (some p) { cc := cc.getD true, peers := l' }).2.1
          (parseOk (passiveCheck c (takeControl c e.env (some p) { cc := cc.getD true, peers := l' }).2.2.1).2 false e.env.score)).state.cc =
          (takeControl c e.env (some p) { cc := cc.getD true, peers := l' }).2.2.1.cc := by
        show (parseOk _ _ _).cc = _
        rw [(parseOk_spec _ _ _).2.2.1, (passiveCheck_spec _ _).2.2]
      rw [hcc]
      have hatt : attempts (Out.sys e.env.now (.ok cc) :: .peers (.ok l') :: (takeControl c e.env (some p) { cc := cc.getD true, peers := l' }).2.2.2) =
        attempts (takeControl c e.env (some p) { cc := cc.getD true, peers := l' }).2.2.2 := rfl
      rw [hatt]
      by_cases hcd : cc.getD true = true
      · by_cases hin : c.inst = true
        · left
          obtain ⟨sent, hs⟩ := control_outs e.env c.key (some p) false
          unfold takeControl at ht ⊢
          rw [if_pos (by simp [hin, hcd])] at ht ⊢
          dsimp only at ht ⊢
          by_cases hz : (control e.env c.key (some p) false).2.1 = 0
          · rw [if_pos hz]
            refine ⟨rfl, .inr ?_⟩
            rw [hs, hz]; simp [attempts, Out.trying]
          · rw [if_neg hz, hi] at ht; cases ht
        · right
          simp only [Bool.not_eq_true] at hin
          refine ⟨hin, ?_⟩
          have htc : takeControl c e.env (some p) { cc := cc.getD true, peers := l' } = (0, some p, { cc := cc.getD true, peers := l' }, []) := by
            unfold takeControl; rw [if_neg (by simp [hin])]
          rw [htc] at hk
          unfold passiveCheck at hk
          cases hw : c.writable
          · rfl
          · rw [if_pos (by simp [hin, hcd, hw]), hi] at hk; cases hk
      · left
        have hcf : cc = some false := by cases cc with | none => simp at hcd | some b => simpa using hcd
        subst hcf
        have htc : takeControl c e.env (some p) { cc := (some false).getD true, peers := l' } = (0, some p, { cc := (some false).getD true, peers := l' }, []) := by
          unfold takeControl; rw [if_neg (by simp)]
        rw [htc]
        exact ⟨rfl, .inl ⟨e.env.now, by simp⟩⟩

example : (start confA (begin_ (env0 0 true [peerA]))).1 = 0 ∧ (start confA (begin_ (stubborn 0 true [peerA]))).1 = 22 ∧
    (start confP (begin_ (env0 0 true [peerA]))).1 = 16 ∧ (start { confP with writable := false } (begin_ (env0 0 true [peerA]))).1 = 0 ∧
    (start { confA with key := false } (begin_ (env0 0 false [peerA]))).1 = 22 := by decide +kernel

/-! ## C187 -/

/-- **C187**: whenever ntpd reports that it does not control the clock as asked, it is told to. -/
def C187_statement : Prop :=
  ∀ (c : Conf) (e : StartEnv) (es : List Ev) (m m' : Mod) (o o' : List Out) (env : Env) (t : Int) (b : Bool), Life c e es m o →
    c.inst = true → step m (.timer env) = .ok (m', o') → Out.sys t (.ok (some b)) ∈ o' → b ≠ wanted es → attempts o' ≠ []

/-- After one failure it is not tried again. -/
theorem C187_violated : ¬ C187_statement := by
  intro h
  obtain ⟨m, o, hl, hm⟩ := witness (c := confA) (e := begin_ (env0 0 false [peerA]))
    (es := [.run (env0 1 false []), .timer (stubborn 2 true []), .timer (stubborn 2 true []), .timer (stubborn 2 true [])])
    (f := fun m o => match step m (.timer (env0 3 true [])) with
      | .ok (m', o') => o'.contains (.sys 3 (.ok (some true))) && attempts o' = []
      | .error _ => false) (by decide +kernel)
  split at hm
  · rename_i m' o' hs
    simp only [Bool.and_eq_true, List.contains_iff_mem, decide_eq_true_eq] at hm
    exact h _ _ _ m m' o o' _ 3 true hl rfl hs hm.1 (by simp [wanted]) hm.2
  · cases hm

/-- **C187, what holds.** If ntpd's report differs from what the module took the setting to be, ntpd is told what the
engine wants, once; on success that is then taken to be the setting, and no constraint is left. If it does not differ,
nothing is done. -/
theorem C187_partial {c : Conf} {e : StartEnv} {es : List Ev} {m m' : Mod} {o o' : List Out} {env : Env} {t : Int} {b : Bool}
    (h : Life c e es m o) (hi : c.inst = true) (hs : step m (.timer env) = .ok (m', o')) (hx : Out.sys t (.ok (some b)) ∈ o') :
    (b = m.state.cc → attempts o' = [] ∧ m'.state.cc = b) ∧
    (b ≠ m.state.cc → ∃ rc, attempts o' = [(wanted es, rc)] ∧
      if rc = 0 then m'.state.cc = wanted es ∧ m'.state.must = false ∧ m'.state.cannot = false
      else m'.state.cc = b ∧ (if wanted es then m'.state.cannot = true else m'.state.must = true)) := by
  have hf := h.flag
  cases step_move hs with
  | @sys _ _ q hq hap =>
    have hans : (getSys env m.proto).2 = .ok (some b) := by
      rcases List.mem_cons.1 hx with hx | hx
      · simp only [Out.sys.injEq] at hx; exact hx.2.symm
      · exact absurd rfl ((hap.quiet _ hx).1 t _)
    obtain ⟨p1, p2, p3, _, _, _, _, p8, _⟩ := parseOk_spec { m.state with cc := b } m.unsafe_ env.score
    have hres : restores { m with proto := (getSys env m.proto).1, query := .peerInfo } (sysState m.state m.unsafe_ env.score (getSys env m.proto).2) = decide (b ≠ m.state.cc) := by
      unfold restores
      rw [hans]
      show (decide ((parseOk { m.state with cc := b } m.unsafe_ env.score).cc ≠ m.state.cc) &&
        (m.conf.inst && decide ((parseOk { m.state with cc := b } m.unsafe_ env.score).st ≠ .disabled))) = _
      rw [p3, hf.1, hi]; simp [p8]
    have hatt : attempts (Out.sys env.now (getSys env m.proto).2 :: q) = attempts q := rfl
    rw [hatt, hap.attempts, hres, hap.state]
    unfold stored
    rw [hres]
    refine ⟨fun he => ?_, fun hne => ?_⟩
    · subst he
      simp only [ne_eq, not_true_eq_false, decide_false, Bool.false_eq_true, if_false, hans]
      exact ⟨trivial, p3⟩
    · simp only [ne_eq, hne, not_false_eq_true, decide_true, if_true]
      have hw : m.flags.clockCtrl = wanted es := by rw [hf.2, hi]; rfl
      rw [hw]
      refine ⟨_, rfl, ?_⟩
      unfold restored
      split
      · exact ⟨rfl, rfl, rfl⟩
      · rw [hans]
        cases wanted es
        · exact ⟨p3, rfl⟩
        · exact ⟨p3, rfl⟩
  | @peers _ _ q hq hap =>
    exfalso
    rcases List.mem_cons.1 hx with hx | hx
    · cases hx
    · exact absurd rfl ((hap.quiet _ hx).1 t _)
  | wake hq hn => cases hx
  | asleep hq hn => cases hx

example : check confA (begin_ (env0 0 false [peerA])) [.run (env0 1 false []), .timer (env0 2 true [])]
    (fun m o => attempts o = [(false, 0)] && !m.state.cc) := by decide +kernel

/-! ## C188 -/

/-- **C188**: in any state but slave the engine is told of no offset and no accuracy. -/
def C188_statement : Prop :=
  ∀ (c : Conf) (e : StartEnv) (es : List Ev) (m : Mod) (o : List Out) (s : Status), Life c e es m o → Out.told s ∈ o → s.st ≠ .slave →
    s.offset = 0 ∧ s.disp = none ∧ s.stratum = 0

/-- After an error the last offset and accuracy stay. -/
theorem C188_violated : ¬ C188_statement := by
  intro h
  obtain ⟨m, o, hl, hm⟩ := witness (c := confA) (e := begin_ (env0 0 false [peerA])) (es := [.run (env0 1 false []), .timer (gone 2)])
    (f := fun m o => o.contains (.told ⟨.faulty, false, false, 250, some 90, 2, 5, false⟩)) (by decide +kernel)
  rw [List.contains_iff_mem] at hm
  have := (h _ _ _ m o _ hl hm nofun).1
  revert this; decide

/-- Before ntpd has answered at all, the accuracy is perfect. -/
theorem C188_first_violated : ¬ C188_statement := by
  intro h
  obtain ⟨m, o, hl, hm⟩ := witness (c := confA) (e := begin_ (gone 0)) (es := [.run (gone 1)])
    (f := fun m o => o.contains (.told ⟨.listening, false, false, 0, some 0, 0, 0, false⟩)) (by decide +kernel)
  rw [List.contains_iff_mem] at hm
  have := (h _ _ _ m o _ hl hm nofun).2.1
  revert this; decide

/-- A state that is not slave has nothing to report. -/
theorem parseOk_blank (s : State) (bad : Bool) (score : Int) (h : (parseOk s bad score).st ≠ .slave) :
    (parseOk s bad score).offset = 0 ∧ (parseOk s bad score).disp = none ∧ (parseOk s bad score).stratum = 0 := by
  unfold parseOk at h ⊢
  split
  · rename_i i hi
    rw [hi] at h
    dsimp only at h
    cases bad
    · exact absurd rfl h
    · exact ⟨rfl, rfl, rfl⟩
  · exact ⟨rfl, rfl, rfl⟩

/-- The state after a success is blank unless slave. -/
def Blank (m : Mod) (o : List Out) : Prop :=
  lastCode o = some none → m.state.st ≠ .slave → m.state.offset = 0 ∧ m.state.disp = none ∧ m.state.stratum = 0

theorem Blank.same {m m' : Mod} {o p : List Out} (k : Blank m o) (hv : SameView m'.state m.state) (hq : ∀ x ∈ p, Quiet x) : Blank m' (o ++ p) := by
  unfold Blank
  rw [code_quiet _ _ hq, hv.st, hv.offset, hv.disp, hv.stratum]; exact k

theorem step_blank {m m' : Mod} {e : Ev} {o o' : List Out} (k : Blank m o) (hstep : step m e = .ok (m', o')) : Blank m' (o ++ o') := by
  cases step_move hstep with
  | run h hm =>
    obtain ⟨info, hinfo, rfl⟩ := h
    subst hm
    refine k.same (.rfl' _) fun x hx => ?_
    rcases List.mem_append.1 hx with hx | hx
    · exact (hinfo x hx).quiet
    · split at hx
      · rw [List.mem_singleton] at hx; subst hx; exact ⟨nofun, nofun⟩
      · cases hx
  | @sys env _ q hq h =>
    intro hc hs
    have hv := stored_view env { m with proto := (getSys env m.proto).1, query := .peerInfo } (sysState m.state m.unsafe_ env.score (getSys env m.proto).2)
    rw [code_sys _ _ _ _ h.quiet] at hc
    rw [h.state, hv.st] at hs
    rw [h.state, hv.offset, hv.disp, hv.stratum]
    cases ha : (getSys env m.proto).2 with
    | error rc => rw [ha] at hc; cases hc
    | ok a => rw [ha] at hs; exact parseOk_blank _ _ _ hs
  | @peers env _ q hq h =>
    intro hc hs
    have hv := stored_view env { m with proto := (getPeers env m.proto).1, query := .sleep } (peerState m.state m.unsafe_ env.score (getPeers env m.proto).2)
    rw [code_peers _ _ _ h.quiet] at hc
    rw [h.state, hv.st] at hs
    rw [h.state, hv.offset, hv.disp, hv.stratum]
    cases ha : (getPeers env m.proto).2 with
    | error rc => rw [ha] at hc; cases hc
    | ok a => rw [ha] at hs; exact parseOk_blank _ _ _ hs
  | control => exact k.same (onControl_spec _ _ _ _).view (onControl_spec _ _ _ _).quiet
  | wake hq hn => exact k.same (.rfl' _) (by simp)
  | asleep hq hn => exact k.same (.rfl' _) (by simp)
  | step => exact k.same (.rfl' _) (by simp)
  | logStats hi => exact k.same (.rfl' _) fun x hx => (hi x hx).quiet
  | getStatus => exact k.same (.rfl' _) fun x hx => by rw [List.mem_singleton] at hx; subst hx; exact ⟨nofun, nofun⟩
  | saveState => exact k.same (.rfl' _) (by simp)
  | topology => exact k.same (.rfl' _) (by simp)

/-- **C188, what holds.** As long as ntpd's last answer was a success, a state other than slave has no offset, no
accuracy and no stratum; and a reply to the engine never has an accuracy or a stratum in such a state. A report counts as
locked to a remote clock exactly in the state slave. -/
theorem C188_partial {c : Conf} {e : StartEnv} {es : List Ev} {m : Mod} {o : List Out} (h : Life c e es m o) :
    (lastCode o = some none → m.state.st ≠ .slave → m.state.offset = 0 ∧ m.state.disp = none ∧ m.state.stratum = 0) ∧
    (∀ m' o' s, step m .getStatus = .ok (m', o') → Out.reply s ∈ o' → s.st = m.state.st ∧ s.locked = decide (s.st = .slave) ∧
      (s.st ≠ .slave → s.disp = none ∧ s.stratum = 0) ∧ (s.st = .slave → s.disp = m.state.disp ∧ s.stratum = m.state.stratum) ∧
      s.must = m.state.must ∧ s.cannot = m.state.cannot) := by
  constructor
  · refine h.induct (P := fun m _ o => Blank m o) (fun m o hs => ?_) (fun _ _ _ _ _ _ k hs => step_blank k hs)
    cases hs with
    | silent h => exact nofun
    | failed hp h => exact nofun
    | known hp h hl ht hk => intro _ hs; exact parseOk_blank _ _ _ hs
  · intro m' o' s hs hx
    cases hs
    rw [List.mem_singleton] at hx
    cases hx
    unfold reply
    split
    · rename_i hsl
      exact ⟨rfl, by simp [hsl], fun hh => absurd hsl hh, fun _ => ⟨rfl, rfl⟩, rfl, rfl⟩
    · rename_i hsl
      exact ⟨rfl, by simp [hsl], fun _ => ⟨rfl, rfl⟩, fun hh => absurd hh hsl, rfl, rfl⟩

example : check confA (begin_ (env0 0 false [peerA])) [.run (env0 1 false []), .timer (env0 2 false []), .timer (env0 2 false [peerB]), .getStatus]
    (fun m o => m.state.st = .selection && m.state.offset = 0 && o.contains (.reply ⟨.selection, false, false, 0, none, 0, 5, false⟩)) := by decide +kernel

end Verif.Ntp
