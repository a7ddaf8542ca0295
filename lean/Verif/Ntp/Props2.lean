import Verif.Ntp.Props

/-!
# Properties of the NTP module: commands, reports, constraints
-/

set_option linter.unusedVariables false
set_option linter.unusedSimpArgs false

namespace Verif.Ntp

/-! ## C178 -/

theorem attempts_append (a b : List Out) : attempts (a ++ b) = attempts a ++ attempts b := List.filterMap_append

theorem attempts_info {m : Mod} {o : List Out} (h : ∀ x ∈ o, Info m x) : attempts o = [] := by
  unfold attempts
  rw [List.filterMap_eq_nil_iff]
  intro x hx
  rcases h x hx with ⟨_, _, p, _, rfl⟩ | ⟨_, p, _, rfl⟩ <;> rfl

theorem attempts_tells (m : Mod) (s : State) : attempts (tells m s) = [] := by
  unfold tells; split <;> rfl

theorem attempts_tried (env : Env) (m : Mod) (new : State) : attempts (tried env m new) =
    if restores m new then [(m.flags.clockCtrl, (control env m.conf.key m.proto m.flags.clockCtrl).2.1)] else [] := by
  rcases tried_eq env m new with ⟨h, h'⟩ | ⟨h, sent, h'⟩ <;> rw [h', h] <;> rfl

theorem Applied.attempts {env : Env} {m m' : Mod} {new : State} {o : List Out} (h : Applied env m new m' o) :
    attempts o = if restores m new then [(m.flags.clockCtrl, (control env m.conf.key m.proto m.flags.clockCtrl).2.1)] else [] := by
  obtain ⟨info, hi, rfl⟩ := h.outs
  rw [attempts_append, attempts_append, attempts_info hi, attempts_tells, attempts_tried]
  simp

theorem Controlled.attempts {env : Env} {m m' : Mod} {mask v : Flags} {o : List Out} (h : Controlled env m mask v m' o) :
    attempts o = if m'.flags.clockCtrl ≠ m.flags.clockCtrl
      then [(m'.flags.clockCtrl, (control env m.conf.key m.proto m'.flags.clockCtrl).2.1)] else [] := by
  rw [h.outs]
  split
  · obtain ⟨sent, hs⟩ := control_outs env m.conf.key m.proto m'.flags.clockCtrl
    rw [hs]; rfl
  · rfl

/-- **C178**: ntpd's control of the clock is only ever switched to what the engine last asked for (off at the start),
never without a configured instance; and a control message that changes what is asked for is passed on at once, exactly
once. -/
theorem C178_commands {c : Conf} {e : StartEnv} {es : List Ev} {m : Mod} {o : List Out} (h : Life c e es m o)
    {ev : Ev} {m' : Mod} {o' : List Out} (hs : step m ev = .ok (m', o')) :
    (∀ x ∈ attempts (start c e).2.2, x.1 = false) ∧
    (∀ x ∈ attempts o', c.inst = true ∧ x.1 = wanted (es ++ [ev])) ∧
    (c.inst = true → wanted (es ++ [ev]) ≠ wanted es → (attempts o').length = 1) ∧
    (c.inst = false → attempts (o ++ o') = []) := by
  have hinit : ∀ m o, Started c e m o → (∀ x ∈ attempts o, x.1 = false) ∧ (c.inst = false → attempts o = []) := by
    intro m o hst
    cases hst with
    | silent h => exact ⟨by simp [attempts], fun _ => rfl⟩
    | failed hp h => exact ⟨by simp [attempts, Out.trying], fun _ => rfl⟩
    | @known p cc l hp h hl ht hk =>
      have : attempts (.sys e.env.now (.ok cc) :: .peers (.ok l) :: (takeControl c e.env (some p) { cc := cc.getD true, peers := l }).2.2.2) =
          attempts (takeControl c e.env (some p) { cc := cc.getD true, peers := l }).2.2.2 := rfl
      rw [this]
      obtain ⟨sent, hs⟩ := control_outs e.env c.key (some p) false
      unfold takeControl
      split
      · rename_i hi
        simp only [Bool.and_eq_true] at hi
        dsimp only
        split
        · exact ⟨by simp [hs, attempts, Out.trying], by simp [hi.1]⟩
        · exact ⟨by simp [hs, attempts, Out.trying], by simp [hi.1]⟩
      · exact ⟨by simp [attempts], fun _ => rfl⟩
  have hstep : ∀ (es : List Ev) (m : Mod) (ev : Ev) (m' : Mod) (o' : List Out), m.conf = c → m.flags.clockCtrl = (c.inst && wanted es) →
      step m ev = .ok (m', o') → (∀ x ∈ attempts o', c.inst = true ∧ x.1 = wanted (es ++ [ev])) ∧
        (c.inst = true → wanted (es ++ [ev]) ≠ wanted es → (attempts o').length = 1) := by
    intro es m ev m' o' hc hf hs
    have hw := wanted_append es ev
    have happ : ∀ {env : Env} {m1 m' : Mod} {new : State} {o : List Out}, Applied env m1 new m' o → m1.conf = m.conf → m1.flags = m.flags →
        wanted (es ++ [ev]) = wanted es → (∀ x ∈ attempts o, c.inst = true ∧ x.1 = wanted (es ++ [ev])) := by
      intro env m1 m2 new o h h1 h2 h3 x hx
      rw [h.attempts] at hx
      split at hx
      · rename_i hr
        rw [List.mem_singleton] at hx
        have hi : c.inst = true := by
          unfold restores at hr
          rw [h1, hc] at hr
          simp only [Bool.and_eq_true] at hr
          exact hr.2.1
        refine ⟨hi, ?_⟩
        rw [hx, h2, hf, h3, hi]; rfl
      · cases hx
    cases step_move hs with
    | run h hm =>
      obtain ⟨info, hi, rfl⟩ := h
      have : attempts (info ++ if m.conf.inst then [.told (status m.state)] else []) = [] := by
        rw [attempts_append, attempts_info hi]; split <;> rfl
      rw [this]
      exact ⟨by simp, fun _ hh => absurd hw hh⟩
    | sys hq h =>
      have := happ h rfl rfl hw
      exact ⟨fun x hx => this x hx, fun _ hh => absurd hw hh⟩
    | peers hq h =>
      have := happ h rfl rfl hw
      exact ⟨fun x hx => this x hx, fun _ hh => absurd hw hh⟩
    | @control env mask v =>
      have hk := onControl_spec env m mask v
      have hfl : (onControl env m mask v).1.flags.clockCtrl = (c.inst && wanted (es ++ [.control env mask v])) := by
        rw [hk.flags, hc, hw]
        cases hi : c.inst
        · simpa [hi] using hf
        · simp only [if_true, Flags.update, Bool.true_and]
          rw [hf, hi]; simp
      rw [hk.attempts, hfl, hf]
      refine ⟨fun x hx => ?_, fun hi hne => ?_⟩
      · split at hx
        · rename_i hne
          rw [List.mem_singleton] at hx
          cases hi : c.inst
          · rw [hi] at hne; exact absurd rfl hne
          · refine ⟨rfl, ?_⟩
            rw [hx, hi]; rfl
        · cases hx
      · rw [if_pos]
        · rfl
        · rw [hi]; simpa using hne
    | logStats hi => exact ⟨by rw [attempts_info hi]; simp, fun _ hh => absurd hw hh⟩
    | getStatus => exact ⟨by simp [attempts, Out.trying], fun _ hh => absurd hw hh⟩
    | _ => exact ⟨by simp [attempts], fun _ hh => absurd hw hh⟩
  have hst := (start_ok h.1).2.2
  refine ⟨(hinit _ _ hst).1, (hstep es m ev m' o' h.flag.1 h.flag.2 hs).1, (hstep es m ev m' o' h.flag.1 h.flag.2 hs).2, fun hi => ?_⟩
  have hall : m.conf = c ∧ m.flags.clockCtrl = (c.inst && wanted es) ∧ (c.inst = false → attempts o = []) := by
    refine h.induct (P := fun m es o => m.conf = c ∧ m.flags.clockCtrl = (c.inst && wanted es) ∧ (c.inst = false → attempts o = []))
      (fun m o hst => ?_) (fun m es o ev m' o' k hs => ?_)
    · have : Life c e [] (start c e).2.1 ((start c e).2.2 ++ []) := ⟨h.1, [], rfl, rfl⟩
      refine ⟨?_, ?_, (hinit m o hst).2⟩
      · cases hst <;> rfl
      · cases hst <;> simp [wanted, fresh, Flags.default]
    · have a := (hstep es m ev m' o' k.1 k.2.1 hs).1
      have hmc : m'.conf = c ∧ m'.flags.clockCtrl = (c.inst && wanted (es ++ [ev])) := by
        rw [wanted_append]
        cases step_move hs with
        | run h hm => subst hm; exact ⟨k.1, k.2.1⟩
        | sys hq h => rw [h.conf, h.flags]; exact ⟨k.1, k.2.1⟩
        | peers hq h => rw [h.conf, h.flags]; exact ⟨k.1, k.2.1⟩
        | @control env mask v =>
          have hc := onControl_spec env m mask v
          refine ⟨hc.conf.trans k.1, ?_⟩
          rw [hc.flags, k.1]
          cases hi : c.inst
          · simpa [hi] using k.2.1
          · simp only [if_true, Flags.update, Bool.true_and]
            rw [k.2.1, hi]; simp
        | _ => exact ⟨k.1, k.2.1⟩
      refine ⟨hmc.1, hmc.2, fun hi => ?_⟩
      rw [attempts_append, k.2.2 hi, List.nil_append]
      cases hat : attempts o' with
      | nil => rfl
      | cons x l =>
        have := (a x (by rw [hat]; simp)).1
        rw [hi] at this; cases this
  rw [attempts_append, hall.2.2 hi, List.nil_append]
  cases hat : attempts o' with
  | nil => rfl
  | cons x l =>
    have := ((hstep es m ev m' o' h.flag.1 h.flag.2 hs).1 x (by rw [hat]; simp)).1
    rw [hi] at this; cases this

/-- ntpd is switched off at the start, on for the engine, and on again when it turns itself off; without an instance it
is left alone. -/
example : check confA (begin_ (env0 0 true [peerA])) [.run (env0 1 false []), .control (env0 1 false []) ⟨true, false, false, false⟩ ⟨true, true, true, true⟩,
      .timer (env0 2 false [])] (fun m o => attempts o = [(false, 0), (true, 0), (true, 0)]) ∧
    check confP (begin_ (env0 0 false [peerA])) [.run (env0 1 false []), .control (env0 1 false []) ⟨true, false, false, false⟩ ⟨true, true, true, true⟩,
      .timer (env0 2 true [])] (fun m o => attempts o = [] && m.state.cc) := by decide +kernel

/-! ## C179 -/

/-- **C179**: once the module runs, the engine always has the state, the offset, the accuracy and the constraints of an
instance: a change is reported as it happens. -/
def C179_statement : Prop :=
  ∀ (c : Conf) (e : StartEnv) (env : Env) (es : List Ev) (m : Mod) (o : List Out), Life c e (.run env :: es) m o → c.inst = true →
    ∃ s, lastTold o = some s ∧ s.st = m.state.st ∧ s.must = m.state.must ∧ s.cannot = m.state.cannot ∧
      s.offset = m.state.offset ∧ s.disp = m.state.disp ∧ s.stratum = m.state.stratum

/-- Circumstances in which ntpd answers but refuses commands. -/
def stubborn (now : Int) (cc : Bool) (l : List Peer) : Env := { env0 now cc l with command := 1 }

/-- A failed command of the engine sets a constraint without a word. -/
theorem C179_violated : ¬ C179_statement := by
  intro h
  obtain ⟨m, o, hl, hm⟩ := witness (c := confA) (e := begin_ (env0 0 true [peerA]))
    (es := [.run (env0 1 false []), .control (stubborn 1 false []) ⟨true, false, false, false⟩ ⟨true, true, true, true⟩])
    (f := fun m o => m.state.cannot && match lastTold o with | some s => !s.cannot | none => false) (by decide +kernel)
  obtain ⟨s, hs, _, _, h3, _⟩ := h _ _ _ _ m o hl rfl
  rw [hs] at hm
  simp only [Bool.and_eq_true, Bool.not_eq_true'] at hm
  rw [h3, hm.1] at hm
  cases hm.2

/-- What the engine was told agrees with the state, as to the constraints where they are included. -/
def Told (con : Prop) (m : Mod) (o : List Out) : Prop :=
  ∃ s, lastTold o = some s ∧ s.st = m.state.st ∧ s.offset = m.state.offset ∧ s.disp = m.state.disp ∧ s.stratum = m.state.stratum ∧
    (s.locked = decide (m.state.st = .slave)) ∧ (con → s.must = m.state.must ∧ s.cannot = m.state.cannot)

/-- No report. -/
def Mute (x : Out) : Prop := ∀ s, x ≠ .told s

theorem lastTold_mute (o : List Out) {p : List Out} (h : ∀ x ∈ p, Mute x) : lastTold (o ++ p) = lastTold o := by
  unfold lastTold
  rw [List.filterMap_append, show p.filterMap Out.telling = [] from ?_, List.append_nil]
  rw [List.filterMap_eq_nil_iff]
  intro x hx
  cases x with
  | told s => exact absurd rfl (h _ hx s)
  | _ => rfl

theorem Info.mute {m : Mod} {x : Out} (h : Info m x) : Mute x := by
  rcases h with ⟨_, _, p, _, rfl⟩ | ⟨_, p, _, rfl⟩ <;> exact nofun

theorem told_of_state (con : Prop) (m : Mod) (o : List Out) (s : State) (hs : m.state = s) : Told con m (o ++ [.told (status s)]) := by
  refine ⟨status s, by simp [lastTold, Out.telling], ?_⟩
  rw [hs]
  exact ⟨rfl, rfl, rfl, rfl, rfl, fun _ => ⟨rfl, rfl⟩⟩

theorem differs_false {a b : State} (h : differs a b = false) :
    a.st = b.st ∧ a.must = b.must ∧ a.cannot = b.cannot ∧ a.offset = b.offset ∧ a.disp = b.disp ∧ a.stratum = b.stratum := by
  unfold differs at h
  simp only [Bool.or_eq_false_iff, decide_eq_false_iff_not, ne_eq, Decidable.not_not] at h
  obtain ⟨⟨⟨⟨⟨h1, h2⟩, h3⟩, h4⟩, h5⟩, h6⟩ := h
  exact ⟨h1, h2, h3, h4, h5, h6⟩

theorem Applied.told {con : Prop} {env : Env} {m m1 m' : Mod} {new : State} {o o' : List Out} {x : Out} (h : Applied env m1 new m' o')
    (hst : m1.state = m.state) (hi : m1.conf.inst = true) (k : Told con m o) (hx : Mute x) : Told con m' (o ++ x :: o') := by
  obtain ⟨info, hinfo, rfl⟩ := h.outs
  have hm : ∀ y ∈ x :: (tried env m1 new ++ info), Mute y := by
    intro y hy
    rcases List.mem_cons.1 hy with rfl | hy
    · exact hx
    · rcases List.mem_append.1 hy with hy | hy
      · rcases tried_eq env m1 new with ⟨_, h'⟩ | ⟨_, sent, h'⟩
        · rw [h'] at hy; cases hy
        · rw [h', List.mem_singleton] at hy; subst hy; exact nofun
      · exact (hinfo y hy).mute
  rw [show o ++ x :: (tried env m1 new ++ info ++ tells m1 (stored env m1 new)) =
    (o ++ (x :: (tried env m1 new ++ info))) ++ tells m1 (stored env m1 new) by simp]
  unfold tells
  rw [hi, Bool.true_and]
  cases hd : differs (stored env m1 new) m1.state
  · rw [if_neg (by simp), List.append_nil]
    obtain ⟨s, h1, h2, h3, h4, h5, h6, h7⟩ := k
    obtain ⟨d1, d2, d3, d4, d5, d6⟩ := differs_false hd
    rw [hst] at d1 d2 d3 d4 d5 d6
    refine ⟨s, by rw [lastTold_mute _ hm]; exact h1, ?_⟩
    rw [h.state, d1, d2, d3, d4, d5, d6]
    exact ⟨h2, h3, h4, h5, h6, h7⟩
  · rw [if_pos rfl]
    exact told_of_state _ _ _ _ h.state

/-- An event that asks for a change of the control of the clock. -/
def Ev.asks : Ev → Bool
  | .control _ mask _ => mask.clockCtrl
  | _ => false

theorem step_told {con : Prop} {m m' : Mod} {e : Ev} {o o' : List Out} (hi : m.conf.inst = true) (k : Told con m o)
    (he : con → e.asks = false) (hstep : step m e = .ok (m', o')) : Told con m' (o ++ o') := by
  have same : ∀ {p : List Out}, (∀ x ∈ p, Mute x) → Told con m (o ++ p) := by
    intro p hp
    obtain ⟨s, h1, h2⟩ := k
    exact ⟨s, by rw [lastTold_mute _ hp]; exact h1, h2⟩
  cases step_move hstep with
  | run h hm =>
    obtain ⟨info, hinfo, rfl⟩ := h
    rw [if_pos hi, ← List.append_assoc]
    exact told_of_state _ _ _ _ (by subst hm; rfl)
  | sys hq h => exact h.told rfl hi k nofun
  | peers hq h => exact h.told rfl hi k nofun
  | @control env mask v =>
    have hc := onControl_spec env m mask v
    have hv := hc.view
    obtain ⟨s, h1, h2, h3, h4, h5, h6, h7⟩ := k
    refine ⟨s, ?_, h2.trans hv.st.symm, h3.trans hv.offset.symm, h4.trans hv.disp.symm, h5.trans hv.stratum.symm,
      by rw [hv.st]; exact h6, fun hcon => ?_⟩
    · rw [lastTold_mute]
      · exact h1
      · rw [hc.outs]
        split <;> intro x hx
        · obtain ⟨sent, hs⟩ := control_outs env m.conf.key m.proto (onControl env m mask v).1.flags.clockCtrl
          rw [hs, List.mem_singleton] at hx; subst hx; exact nofun
        · cases hx
    · have ha : mask.clockCtrl = false := he hcon
      rw [hc.state, if_neg]
      · exact h7 hcon
      · rw [hc.flags, hi]; simp [Flags.update, ha]
  | logStats hinfo => exact same fun x hx => (hinfo x hx).mute
  | getStatus => exact same fun x hx => by rw [List.mem_singleton] at hx; subst hx; exact nofun
  | _ => exact same (by simp)

/-- **C179, what holds.** Once the module runs, the engine always has the state, offset, accuracy and stratum of an
instance; and the constraints too unless the engine itself has asked for a change of the control of the clock. -/
theorem C179_partial {c : Conf} {e : StartEnv} {env : Env} {es : List Ev} {m : Mod} {o : List Out}
    (h : Life c e (.run env :: es) m o) (hi : c.inst = true) :
    ∃ s, lastTold o = some s ∧ s.st = m.state.st ∧ s.offset = m.state.offset ∧ s.disp = m.state.disp ∧ s.stratum = m.state.stratum ∧
      (s.locked = decide (m.state.st = .slave)) ∧
      ((∀ ev ∈ es, ev.asks = false) → s.must = m.state.must ∧ s.cannot = m.state.cannot) := by
  obtain ⟨hr, o', hrun, rfl⟩ := h
  rw [run] at hrun
  have hmi : (start c e).2.1.conf.inst = true := by
    have : (start c e).2.1.conf = c := Life.conf (es := []) (o := (start c e).2.2 ++ []) ⟨hr, [], rfl, rfl⟩
    rw [this]; exact hi
  cases hs : step (start c e).2.1 (.run env) with
  | error f => rw [hs] at hrun; cases hrun
  | ok r =>
    obtain ⟨m1, o1⟩ := r
    rw [hs] at hrun
    dsimp only at hrun
    cases hrun' : run es m1 with
    | error f => rw [hrun'] at hrun; cases hrun
    | ok r =>
      obtain ⟨m2, o2⟩ := r
      rw [hrun'] at hrun
      cases hrun
      have hinit : m1.conf.inst = true ∧ ∀ con, Told con m1 ((start c e).2.2 ++ o1) := by
        cases step_move hs with
        | run h hm =>
          obtain ⟨info, hinfo, rfl⟩ := h
          subst hm
          refine ⟨hmi, fun con => ?_⟩
          rw [if_pos hmi, ← List.append_assoc]
          exact told_of_state _ _ _ _ rfl
      have := run_effects (P := fun m es o => m.conf.inst = true ∧ Told (∀ ev ∈ es, ev.asks = false) m o) (es0 := [])
        (fun m es o ev m' o' k hs => ⟨by
          cases step_move hs with
          | run h hm => subst hm; exact k.1
          | sys hq h => rw [h.conf]; exact k.1
          | peers hq h => rw [h.conf]; exact k.1
          | control => rw [(onControl_spec _ _ _ _).conf]; exact k.1
          | _ => exact k.1,
          step_told k.1 (by
            obtain ⟨s, h1, h2, h3, h4, h5, h6, h7⟩ := k.2
            exact ⟨s, h1, h2, h3, h4, h5, h6, fun hh => h7 fun ev hev => hh ev (by simp [hev])⟩)
            (fun hh => hh _ (by simp)) hs⟩)
        ⟨hinit.1, hinit.2 _⟩ hrun'
      rw [List.append_assoc] at this
      exact this.2

example : check confA (begin_ (env0 0 true [peerA])) ([.run (env0 1 false [])] ++ (poll (env0 2 true [peerB])).take 2)
    (fun m o => match lastTold o with
      | some s => s.st = .selection && s.disp = none && !s.must && !s.locked
      | none => false) := by decide +kernel

end Verif.Ntp
