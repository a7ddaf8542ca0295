import Verif.Ntp.Props2

/-!
# Properties of the NTP module: constraints and memory
-/

set_option linter.unusedVariables false
set_option linter.unusedSimpArgs false

namespace Verif.Ntp

/-! ## C180 -/

/-- **C180**: the module never says both that it must and that it cannot be selected. -/
def C180_statement : Prop :=
  ∀ (c : Conf) (e : StartEnv) (es : List Ev) (m : Mod) (o : List Out), Life c e es m o → ¬ (m.state.must = true ∧ m.state.cannot = true)

/-- ntpd turns its control on and refuses to turn it off; when it stops by itself, it refuses to be turned on. -/
theorem C180_violated : ¬ C180_statement := by
  intro h
  obtain ⟨m, o, hl, hm⟩ := witness (c := confA) (e := begin_ (env0 0 false [peerA]))
    (es := [.run (env0 1 false []), .timer (stubborn 2 true []), .timer (stubborn 2 true []), .timer (stubborn 2 true []),
      .timer (stubborn 3 false []), .control (stubborn 4 false []) ⟨true, false, false, false⟩ ⟨true, true, true, true⟩])
    (f := fun m o => m.state.must && m.state.cannot) (by decide +kernel)
  simp only [Bool.and_eq_true] at hm
  exact h _ _ _ m o hl hm

/-- Some attempt to switch this way failed and none has succeeded since. -/
def Pending (on : Bool) (l : List (Bool × Nat)) : Prop :=
  ∃ pre rc post, l = pre ++ (on, rc) :: post ∧ rc ≠ 0 ∧ ∀ x ∈ post, x.2 ≠ 0

theorem Pending.more {on b : Bool} {l : List (Bool × Nat)} {rc : Nat} (h : Pending on l) (hr : rc ≠ 0) : Pending on (l ++ [(b, rc)]) := by
  obtain ⟨pre, r, post, rfl, h1, h2⟩ := h
  refine ⟨pre, r, post ++ [(b, rc)], by simp, h1, fun x hx => ?_⟩
  rcases List.mem_append.1 hx with hx | hx
  · exact h2 x hx
  · rw [List.mem_singleton] at hx; subst hx; exact hr

theorem Pending.new {on : Bool} {l : List (Bool × Nat)} {rc : Nat} (hr : rc ≠ 0) : Pending on (l ++ [(on, rc)]) :=
  ⟨l, rc, [], rfl, hr, by simp⟩

/-- The constraints of a state are accounted for by attempts. -/
def Owing (s : State) (l : List (Bool × Nat)) : Prop := (s.must = true → Pending false l) ∧ (s.cannot = true → Pending true l)

theorem Owing.restored {s : State} {l : List (Bool × Nat)} (k : Owing s l) (on : Bool) (rc : Nat) :
    Owing (restored s on rc) (l ++ [(on, rc)]) := by
  unfold Verif.Ntp.restored
  split
  · exact ⟨nofun, nofun⟩
  · rename_i hr
    cases on
    · exact ⟨fun _ => .new hr, fun h => (k.2 h).more hr⟩
    · exact ⟨fun h => (k.1 h).more hr, fun _ => .new hr⟩

theorem Owing.commanded {s : State} {l : List (Bool × Nat)} (k : Owing s l) (on : Bool) (rc : Nat) :
    Owing (commanded s on rc) (l ++ [(on, rc)]) := by
  unfold Verif.Ntp.commanded refused
  split
  · exact ⟨nofun, nofun⟩
  · rename_i hr
    split
    · exact ⟨fun h => (k.1 h).more hr, fun h => (k.2 h).more hr⟩
    · cases on
      · exact ⟨fun _ => .new hr, fun h => (k.2 h).more hr⟩
      · exact ⟨fun h => (k.1 h).more hr, fun _ => .new hr⟩

theorem sysState_owing {s : State} {l : List (Bool × Nat)} (k : Owing s l) (bad : Bool) (score : Int) (a : Ans (Option Bool)) :
    Owing (sysState s bad score a) l := by
  cases a with
  | error rc => exact ⟨nofun, nofun⟩
  | ok c =>
    obtain ⟨h1, h2, _⟩ := parseOk_spec { s with cc := c.getD s.cc } bad score
    exact ⟨fun h => k.1 (h1.symm.trans h), fun h => k.2 (h2.symm.trans h)⟩

theorem peerState_owing {s : State} {l : List (Bool × Nat)} (k : Owing s l) (bad : Bool) (score : Int) (a : Ans (List Peer)) :
    Owing (peerState s bad score a) l := by
  cases a with
  | error rc => exact ⟨nofun, nofun⟩
  | ok x =>
    obtain ⟨h1, h2, _⟩ := parseOk_spec { s with peers := x } bad score
    exact ⟨fun h => k.1 (h1.symm.trans h), fun h => k.2 (h2.symm.trans h)⟩

theorem Applied.owing {env : Env} {m1 m' : Mod} {new : State} {o : List Out} (h : Applied env m1 new m' o) {l : List (Bool × Nat)}
    (k : Owing new l) : Owing m'.state (l ++ Verif.Ntp.attempts o) := by
  rw [h.state, h.attempts]
  unfold stored
  split
  · exact k.restored _ _
  · rw [List.append_nil]; exact k

theorem step_owing {m m' : Mod} {e : Ev} {o o' : List Out} (k : Owing m.state (attempts o)) (hstep : step m e = .ok (m', o')) :
    Owing m'.state (attempts (o ++ o')) := by
  rw [attempts_append]
  cases step_move hstep with
  | run h hm =>
    obtain ⟨info, hinfo, rfl⟩ := h
    rw [attempts_append, attempts_info hinfo]
    subst hm
    split
    · show Owing m.state (attempts o ++ ([] ++ []))
      simpa using k
    · show Owing m.state (attempts o ++ ([] ++ []))
      simpa using k
  | sys hq h => exact h.owing (sysState_owing k _ _ _)
  | peers hq h => exact h.owing (peerState_owing k _ _ _)
  | @control env mask v =>
    have hc := onControl_spec env m mask v
    rw [hc.attempts, hc.state]
    split
    · exact k.commanded _ _
    · rw [List.append_nil]; exact k
  | logStats hi => rw [attempts_info hi, List.append_nil]; exact k
  | getStatus => show Owing m.state (attempts o ++ []); rw [List.append_nil]; exact k
  | _ => simpa [attempts] using k

/-- **C180, what holds.** An instance that says it must be selected has failed to switch ntpd's control off, one that
says it cannot be selected has failed to switch it on, with no successful switch since. -/
theorem C180_partial {c : Conf} {e : StartEnv} {es : List Ev} {m : Mod} {o : List Out} (h : Life c e es m o) (hi : c.inst = true) :
    (m.state.must = true → Pending false (attempts o)) ∧ (m.state.cannot = true → Pending true (attempts o)) := by
  refine h.induct (P := fun m _ o => Owing m.state (attempts o)) (fun m o hs => ?_) (fun _ _ _ _ _ _ k hs => step_owing k hs)
  cases hs with
  | silent h => exact ⟨nofun, nofun⟩
  | failed hp h => exact ⟨nofun, nofun⟩
  | @known p cc l hp h hl ht hk =>
    obtain ⟨h1, h2, _⟩ := parseOk_spec
      (passiveCheck c (takeControl c e.env (some p) { cc := cc.getD true, peers := l }).2.2.1).2 false e.env.score
    have hpc : passiveCheck c (takeControl c e.env (some p) { cc := cc.getD true, peers := l }).2.2.1 =
        (0, (takeControl c e.env (some p) { cc := cc.getD true, peers := l }).2.2.1) := by
      simp [passiveCheck, hi]
    rw [hpc] at h1 h2 ⊢
    have hcan := (takeControl_spec c e.env (some p) { cc := cc.getD true, peers := l }).2.2
    refine ⟨fun hm => ?_, fun hm => ?_⟩
    · have hm' := h1.symm.trans hm
      show Pending false (attempts (takeControl c e.env (some p) { cc := cc.getD true, peers := l }).2.2.2)
      obtain ⟨sent, hs⟩ := control_outs e.env c.key (some p) false
      unfold takeControl at hm' ⊢
      split at hm'
      · rename_i hc
        dsimp only at hm' ⊢
        rw [if_pos hc]
        split at hm'
        · cases hm'
        · rename_i hr
          rw [if_neg hr]
          rw [hs]
          exact Pending.new (l := []) hr
      · cases hm'
    · have hm' := h2.symm.trans hm
      rw [hcan] at hm'
      cases hm'

example : check confA (begin_ (env0 0 false [peerA])) [.run (env0 1 false []), .timer (stubborn 2 true [])]
    (fun m o => m.state.must && attempts o = [(false, 1)]) := by decide +kernel

/-! ## C181 -/

/-- **C181**: nothing that ntpd answers makes the module fail an assertion or read outside an array, given that topology
is only asked of the selected instance. -/
def C181_statement : Prop :=
  ∀ (c : Conf) (e : StartEnv) (es : List Ev) (m : Mod) (o : List Out) (ev : Ev), Life c e es m o →
    (∀ x ∈ es, x.fits) → (∀ p l, e.env.peers p = .ok l → l.length ≤ 32) → ev.fits → (ev = .topology → m.flags.selected = true) →
    ∃ r, step m ev = .ok r

/-- The instance is selected and asked for the topology while ntpd follows no peer. -/
theorem C181_violated : ¬ C181_statement := by
  intro h
  obtain ⟨m, o, hl, hm⟩ := witness (c := confA) (e := begin_ (env0 0 false [peerB]))
    (es := [.run (env0 1 false []), .control (env0 4 false []) ⟨true, true, false, false⟩ ⟨true, true, true, true⟩])
    (f := fun m o => m.flags.selected && match step m .topology with | .ok _ => false | .error _ => true) (by decide +kernel)
  simp only [Bool.and_eq_true] at hm
  have hp : ∀ p l, (begin_ (env0 0 false [peerB])).env.peers p = .ok l → l.length ≤ 32 := by
    intro p l hl; cases hl; decide
  obtain ⟨r, hr⟩ := h _ _ _ m o .topology hl (by
    intro x hx; simp only [List.mem_cons, List.not_mem_nil, or_false] at hx; rcases hx with rfl | rfl <;> trivial) hp trivial (fun _ => hm.1)
  rw [hr] at hm
  cases hm.2

/-- The same with the input for clustering, at any event. -/
theorem C181_cluster_violated : ¬ C181_statement := by
  intro h
  obtain ⟨m, o, hl, hm⟩ := witness (c := confA) (e := begin_ (env0 0 false [peerB]))
    (es := [.run (env0 1 false []), .control (env0 4 false []) ⟨false, false, true, false⟩ ⟨true, true, true, true⟩])
    (f := fun m o => match step m .logStats with | .ok _ => false | .error _ => true) (by decide +kernel)
  have hp : ∀ p l, (begin_ (env0 0 false [peerB])).env.peers p = .ok l → l.length ≤ 32 := by
    intro p l hl; cases hl; decide
  obtain ⟨r, hr⟩ := h _ _ _ m o .logStats hl (by
    intro x hx; simp only [List.mem_cons, List.not_mem_nil, or_false] at hx; rcases hx with rfl | rfl <;> trivial) hp trivial nofun
  rw [hr] at hm
  cases hm

/-- The index of the selected peer makes sense. -/
def Indexed (s : State) : Prop := s.peers.length ≤ 32 ∧ ((s.sel = -1 ∧ chosen s.peers = none) ∨ ∃ i : Nat, s.sel = i ∧ i < 32)

theorem SameView.indexed {a b : State} (h : SameView a b) (k : Indexed b) : Indexed a := by
  unfold Indexed; rw [h.sel, h.peers]; exact k

theorem parseOk_indexed (s : State) (bad : Bool) (score : Int) (h : s.peers.length ≤ 32) : Indexed (parseOk s bad score) := by
  unfold parseOk
  split
  · rename_i i hi
    have := (peerAt_first hi).2
    split <;> exact ⟨h, .inr ⟨i, rfl, by omega⟩⟩
  · rename_i hi
    exact ⟨h, .inl ⟨rfl, firstSelected_none hi⟩⟩

theorem Indexed.error {s : State} {f : Fault} (k : Indexed s) (h : selPeer s = .error f) : f = .outside ∧ chosen s.peers = none := by
  unfold selPeer at h
  rcases k.2 with ⟨h1, h2⟩ | ⟨i, h1, h2⟩
  · rw [h1] at h
    cases h
    exact ⟨rfl, h2⟩
  · rw [h1] at h
    have h' : (if i < 32 then Except.ok (peerAt s.peers i) else .error .outside) = .error f := h
    rw [if_pos h2] at h'; cases h'

theorem Indexed.slave {s : State} (k : Indexed s) (hf : Follows s) (hs : s.st = .slave) : s.sel ≠ -1 ∧ ∃ p, selPeer s = .ok p := by
  obtain ⟨i, h1, h2, _⟩ := hf hs
  refine ⟨by omega, ?_⟩
  unfold selPeer
  rw [h1]
  exact ⟨peerAt s.peers i, if_pos (by have := k.1; omega)⟩

theorem sysState_indexed {s : State} (k : Indexed s) (bad : Bool) (score : Int) (a : Ans (Option Bool)) : Indexed (sysState s bad score a) := by
  cases a with
  | error rc => exact ⟨by simp [sysState, parseError], .inl ⟨rfl, rfl⟩⟩
  | ok c => exact parseOk_indexed _ _ _ k.1

theorem peerState_indexed (s : State) (bad : Bool) (score : Int) (a : Ans (List Peer)) (h : ∀ l, a = .ok l → l.length ≤ 32) :
    Indexed (peerState s bad score a) := by
  cases a with
  | error rc => exact ⟨by simp [peerState, parseError], .inl ⟨rfl, rfl⟩⟩
  | ok l => exact parseOk_indexed _ _ _ (h l rfl)

theorem getPeers_fits {env : Env} (h : (Ev.timer env).fits) (p : Option Proto) : ∀ l, (getPeers env p).2 = .ok l → l.length ≤ 32 := by
  intro l hl
  unfold getPeers at hl
  cases hs : selectProto env .peers p with
  | none => rw [hs] at hl; cases hl
  | some q => rw [hs] at hl; exact h q l hl

theorem step_indexed {m m' : Mod} {e : Ev} {o : List Out} (k : Indexed m.state) (hf : e.fits) (hstep : step m e = .ok (m', o)) :
    Indexed m'.state := by
  cases step_move hstep with
  | run h hm => subst hm; exact k
  | sys hq h => rw [h.state]; exact (stored_view _ _ _).indexed (sysState_indexed k _ _ _)
  | peers hq h => rw [h.state]; exact (stored_view _ _ _).indexed (peerState_indexed _ _ _ _ (getPeers_fits hf _))
  | control => exact (onControl_spec _ _ _ _).view.indexed k
  | _ => exact k

theorem Life.indexed {c : Conf} {e : StartEnv} {es : List Ev} {m : Mod} {o : List Out} (h : Life c e es m o)
    (hf : ∀ x ∈ es, x.fits) (hp : ∀ p l, e.env.peers p = .ok l → l.length ≤ 32) : Indexed m.state := by
  refine h.induct (P := fun m es _ => (∀ x ∈ es, x.fits) → Indexed m.state) (fun m o hs _ => ?_)
    (fun _ _ _ ev _ _ k hs hf => step_indexed (k fun x hx => hf x (by simp [hx])) (hf ev (by simp)) hs) hf
  cases hs with
  | silent h => exact ⟨Nat.zero_le _, .inr ⟨0, rfl, by decide⟩⟩
  | failed hp h => exact ⟨Nat.zero_le _, .inl ⟨rfl, rfl⟩⟩
  | @known p cc l hp' h hl ht hk =>
    refine parseOk_indexed _ _ _ ?_
    rw [(passiveCheck_spec _ _).1.peers, (takeControl_spec _ _ _ _).1.peers]
    exact hp p l hl

theorem sendStats_ok {m : Mod} (k : Indexed m.state) (hf : Follows m.state) : ∃ o, sendStats m = .ok o := by
  unfold sendStats
  split
  · rename_i hc
    simp only [Bool.and_eq_true, decide_eq_true_eq] at hc
    obtain ⟨_, p, hp⟩ := k.slave hf hc.2
    rw [hp]; exact ⟨_, rfl⟩
  · exact ⟨_, rfl⟩

theorem sendCluster_error {m : Mod} {f : Fault} (k : Indexed m.state) (h : sendCluster m = .error f) :
    f = .outside ∧ chosen m.state.peers = none ∧ m.flags.cluster = true := by
  unfold sendCluster at h
  split at h
  · rename_i hc
    cases hp : selPeer m.state with
    | error g =>
      rw [hp] at h; cases h
      exact ⟨(k.error hp).1, (k.error hp).2, hc⟩
    | ok p => rw [hp] at h; cases h
  · cases h

/-- The one way for a report to fail. -/
def Bad (m : Mod) (f : Fault) : Prop := f = .outside ∧ chosen m.state.peers = none ∧ m.flags.cluster = true

theorem both_stats_cluster_error {m : Mod} {f : Fault} {u : Bool} (k : Indexed m.state) (hf : Follows m.state)
    (h : both (sendStats { m with unsafe_ := u }) (sendCluster m) = .error f) : Bad m f := by
  obtain ⟨o, ho⟩ := sendStats_ok (m := { m with unsafe_ := u }) k hf
  rw [ho] at h
  unfold both at h
  dsimp only at h
  cases hc : sendCluster m with
  | error g => rw [hc] at h; cases h; exact sendCluster_error k hc
  | ok y => rw [hc] at h; cases h

theorem idChange_error {m : Mod} {s : State} {f : Fault} (k : Indexed m.state) (hf : Follows m.state) (h : idChange m s = .error f) :
    Bad m f := by
  unfold idChange at h
  cases hb : both (sendStats { m with unsafe_ := newUnsafe m s }) (sendCluster m) with
  | error g => rw [hb] at h; cases h; exact both_stats_cluster_error k hf hb
  | ok q => rw [hb] at h; cases h

theorem finish_ok (env : Env) {m : Mod} (k : Indexed m.state) (hf : Follows m.state) : ∃ r, finish env m = .ok r := by
  unfold finish
  split
  · rename_i hs
    obtain ⟨h1, p, hp⟩ := k.slave hf hs
    rw [if_neg h1, hp]; exact ⟨_, rfl⟩
  · exact ⟨_, rfl⟩

theorem applied_error {env : Env} {m : Mod} {new : State} {f : Fault} (k : Indexed m.state) (hf : Follows m.state)
    (k' : Indexed new) (hf' : Follows new) (h : applied env m new = .error f) : Bad m f := by
  unfold applied at h
  rw [restore_eq] at h
  dsimp only at h
  have kS := (stored_view env m new).indexed k'
  have fS := (stored_view env m new).follows hf'
  generalize hr2 : (if (stored env m new).id ≠ m.state.id then
    idChange { m with proto := chosenProto env m new } (stored env m new)
    else Except.ok ({ m with proto := chosenProto env m new }, [])) = r2 at h
  cases r2 with
  | error g =>
    cases h
    split at hr2
    · exact idChange_error (m := { m with proto := chosenProto env m new }) k hf hr2
    · cases hr2
  | ok q =>
    obtain ⟨m2, o2⟩ := q
    dsimp only at h
    have hm2 : m2.state = m.state ∧ m2.flags = m.flags := by
      split at hr2
      · obtain ⟨rfl, _⟩ := idChange_spec hr2; exact ⟨rfl, rfl⟩
      · cases hr2; exact ⟨rfl, rfl⟩
    cases hsc : stateChange m2 (stored env m new) with
    | error g =>
      rw [hsc] at h
      cases h
      unfold stateChange both at hsc
      cases hc : sendCluster m2 with
      | error g' =>
        rw [hc] at hsc; cases hsc
        have := sendCluster_error (m := m2) (by rw [hm2.1]; exact k) hc
        rw [hm2.1, hm2.2] at this
        exact this
      | ok y => rw [hc] at hsc; cases hsc
    | ok o3 =>
      rw [hsc] at h
      dsimp only at h
      obtain ⟨r, hr⟩ := finish_ok env (m := { m2 with state := stored env m new }) kS fS
      rw [hr] at h
      cases h

/-- **C181, what holds.** The module fails in one way only: by reading before the array of peers, while ntpd's latest
answer shows no peer being followed, with the flag for clustering set or when asked for the topology. (Being asked for
the topology while not selected fails an assertion.) -/
theorem C181_partial {c : Conf} {e : StartEnv} {es : List Ev} {m : Mod} {o : List Out} {ev : Ev} {f : Fault} (h : Life c e es m o)
    (hf : ∀ x ∈ es, x.fits) (hp : ∀ p l, e.env.peers p = .ok l → l.length ≤ 32) (he : ev.fits) (hs : step m ev = .error f) :
    (f = .outside ∧ chosen (latest o) = none ∧ (m.flags.cluster = true ∨ ev = .topology)) ∨
    (f = .assertion ∧ ev = .topology ∧ m.flags.selected = false) := by
  have k := h.indexed hf hp
  have fo := h.known.follows
  have hb : Bad m f → (f = .outside ∧ chosen (latest o) = none ∧ (m.flags.cluster = true ∨ ev = .topology)) := fun hb =>
    ⟨hb.1, by rw [← h.known.peers]; exact hb.2.1, .inl hb.2.2⟩
  cases ev with
  | run env =>
    replace hs : onRun env m = .error f := hs
    unfold onRun at hs
    dsimp only at hs
    split at hs
    · split at hs
      · rename_i g hg
        cases hs
        exact .inl (hb (idChange_error (m := { m with next := env.now, query := .sysInfo, unsafe_ := false }) k fo hg))
      · rename_i m1 o1 hg
        obtain ⟨hm1, _⟩ := idChange_spec hg
        have hst : m1.state = m.state := by rw [hm1]
        split at hs
        · rename_i g hu
          exfalso
          unfold statsUpdate at hu
          rw [hst] at hu
          split at hu
          · rename_i hsl
            obtain ⟨h1, p, hp⟩ := k.slave fo hsl
            rw [if_neg h1, hp] at hu; cases hu
          · cases hu
        · cases hs
    · cases hs
  | timer env =>
    replace hs : timer env m = .error f := hs
    unfold timer at hs
    split at hs
    · dsimp only at hs
      split at hs
      · rename_i g hg
        cases hs
        exact .inl (hb (applied_error (m := { m with proto := (getSys env m.proto).1, query := .peerInfo }) k fo (sysState_indexed k _ _ _)
          (sysState_agrees (o := o) (p := []) (t := env.now) h.known.peers (by simp)).2.1 hg))
      · cases hs
    · dsimp only at hs
      split at hs
      · rename_i g hg
        cases hs
        exact .inl (hb (applied_error (m := { m with proto := (getPeers env m.proto).1, query := .sleep }) k fo
          (peerState_indexed _ _ _ _ (getPeers_fits he _)) (peerState_agrees (o := o) (p := []) (by simp)).2.1 hg))
      · cases hs
    · split at hs <;> cases hs
  | control env mask v => cases (show Except.ok (onControl env m mask v) = Except.error f from hs)
  | step => cases hs
  | logStats =>
    unfold step at hs
    dsimp only at hs
    split at hs
    · rename_i g hg
      cases hs
      exact .inl (hb (both_stats_cluster_error (u := m.unsafe_) k fo hg))
    · cases hs
  | getStatus => cases hs
  | saveState =>
    exfalso
    replace hs : onSave m = .error f := hs
    unfold onSave at hs
    split at hs
    · rename_i hsl
      obtain ⟨_, p, hp⟩ := k.slave fo hsl
      rw [hp] at hs; cases hs
    · cases hs
  | topology =>
    replace hs : onTopology m = .error f := hs
    unfold onTopology at hs
    split at hs
    · rename_i hsel
      cases hs
      exact .inr ⟨rfl, rfl, by simpa using hsel⟩
    · split at hs
      · rename_i g hg
        cases hs
        exact .inl ⟨(k.error hg).1, by rw [← h.known.peers]; exact (k.error hg).2, .inr rfl⟩
      · cases hs

/-- With a peer followed, everything works with every flag set. -/
example : check confA (begin_ (env0 0 false [peerR, peerA])) ([.run (env0 1 false []),
    .control (env0 4 false []) ⟨true, true, true, true⟩ ⟨true, true, true, true⟩, .topology, .logStats, .saveState] ++ poll (env0 5 false [peerA]))
    (fun m o => m.state.st = .slave && o.contains (.cluster 250 true)) := by decide +kernel

end Verif.Ntp
