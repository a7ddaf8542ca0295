import Verif.Ntp.Moves

/-!
# Facts about runs of the NTP module
-/

set_option linter.unusedVariables false
set_option linter.unusedSimpArgs false

namespace Verif.Ntp

/-! ## The answers among the effects -/

/-- Not an answer of ntpd's. -/
def Quiet (x : Out) : Prop := (∀ t a, x ≠ .sys t a) ∧ ∀ a, x ≠ .peers a

theorem latest_quiet (o : List Out) : ∀ (p : List Out), (∀ x ∈ p, Quiet x) → latest (o ++ p) = latest o := by
  intro p h
  unfold latest
  rw [List.foldl_append]
  induction p generalizing o with
  | nil => rfl
  | cons x p ih =>
    have hx := h x (by simp)
    rw [List.foldl_cons]
    cases x with
    | sys t a => exact absurd rfl (hx.1 t a)
    | peers a => exact absurd rfl (hx.2 a)
    | told s => exact ih o (fun y hy => h y (by simp [hy]))
    | reply s => exact ih o (fun y hy => h y (by simp [hy]))
    | attempt a b c => exact ih o (fun y hy => h y (by simp [hy]))
    | cluster a b => exact ih o (fun y hy => h y (by simp [hy]))
    | stats a b c => exact ih o (fun y hy => h y (by simp [hy]))

theorem code_quiet (o : List Out) : ∀ (p : List Out), (∀ x ∈ p, Quiet x) → lastCode (o ++ p) = lastCode o := by
  intro p h
  unfold lastCode
  rw [List.foldl_append]
  induction p generalizing o with
  | nil => rfl
  | cons x p ih =>
    have hx := h x (by simp)
    rw [List.foldl_cons]
    cases x with
    | sys t a => exact absurd rfl (hx.1 t a)
    | peers a => exact absurd rfl (hx.2 a)
    | told s => exact ih o (fun y hy => h y (by simp [hy]))
    | reply s => exact ih o (fun y hy => h y (by simp [hy]))
    | attempt a b c => exact ih o (fun y hy => h y (by simp [hy]))
    | cluster a b => exact ih o (fun y hy => h y (by simp [hy]))
    | stats a b c => exact ih o (fun y hy => h y (by simp [hy]))

theorem latest_sys (o p : List Out) (t : Int) (a : Ans (Option Bool)) (h : ∀ x ∈ p, Quiet x) :
    latest (o ++ .sys t a :: p) = match a with | .error _ => [] | .ok _ => latest o := by
  rw [show o ++ .sys t a :: p = (o ++ [.sys t a]) ++ p by simp, latest_quiet _ _ h]
  unfold latest
  rw [List.foldl_append]
  cases a <;> rfl

theorem latest_peers (o p : List Out) (a : Ans (List Peer)) (h : ∀ x ∈ p, Quiet x) :
    latest (o ++ .peers a :: p) = match a with | .error _ => [] | .ok l => l := by
  rw [show o ++ .peers a :: p = (o ++ [.peers a]) ++ p by simp, latest_quiet _ _ h]
  unfold latest
  rw [List.foldl_append]
  cases a <;> rfl

theorem code_sys (o p : List Out) (t : Int) (a : Ans (Option Bool)) (h : ∀ x ∈ p, Quiet x) :
    lastCode (o ++ .sys t a :: p) = match a with | .error rc => some (some rc) | .ok _ => some none := by
  rw [show o ++ .sys t a :: p = (o ++ [.sys t a]) ++ p by simp, code_quiet _ _ h]
  unfold lastCode
  rw [List.foldl_append]
  cases a <;> rfl

theorem code_peers (o p : List Out) (a : Ans (List Peer)) (h : ∀ x ∈ p, Quiet x) :
    lastCode (o ++ .peers a :: p) = match a with | .error rc => some (some rc) | .ok _ => some none := by
  rw [show o ++ .peers a :: p = (o ++ [.peers a]) ++ p by simp, code_quiet _ _ h]
  unfold lastCode
  rw [List.foldl_append]
  cases a <;> rfl

/-! ## Effects are quiet -/

theorem Info.quiet {m : Mod} {x : Out} (h : Info m x) : Quiet x := by
  rcases h with ⟨_, _, p, _, rfl⟩ | ⟨_, p, _, rfl⟩ <;> exact ⟨nofun, nofun⟩

/-- The one effect of a command. -/
theorem control_outs (env : Env) (key : Bool) (p : Option Proto) (on : Bool) :
    ∃ sent, (control env key p on).2.2 = [.attempt on sent (control env key p on).2.1] := by
  unfold control
  split
  · exact ⟨_, rfl⟩
  · split
    · exact ⟨_, rfl⟩
    · exact ⟨_, rfl⟩

theorem tried_eq (env : Env) (m : Mod) (new : State) :
    (restores m new = false ∧ tried env m new = []) ∨ (restores m new = true ∧ ∃ sent,
      tried env m new = [.attempt m.flags.clockCtrl sent (control env m.conf.key m.proto m.flags.clockCtrl).2.1]) := by
  unfold tried
  cases h : restores m new
  · exact .inl ⟨rfl, rfl⟩
  · exact .inr ⟨rfl, control_outs _ _ _ _⟩

theorem tried_quiet (env : Env) (m : Mod) (new : State) : ∀ x ∈ tried env m new, Quiet x := by
  rcases tried_eq env m new with ⟨_, h⟩ | ⟨_, sent, h⟩ <;> rw [h] <;> intro x hx
  · cases hx
  · rw [List.mem_singleton] at hx; subst hx; exact ⟨nofun, nofun⟩

theorem tells_quiet (m : Mod) (new : State) : ∀ x ∈ tells m new, Quiet x := by
  unfold tells
  split <;> intro x hx
  · rw [List.mem_singleton] at hx; subst hx; exact ⟨nofun, nofun⟩
  · cases hx

theorem Applied.quiet {env : Env} {m m' : Mod} {new : State} {o : List Out} (h : Applied env m new m' o) :
    ∀ x ∈ o, Quiet x := by
  obtain ⟨info, hi, rfl⟩ := h.outs
  intro x hx
  rcases List.mem_append.1 hx with hx | hx
  · rcases List.mem_append.1 hx with hx | hx
    · exact tried_quiet _ _ _ x hx
    · exact (hi x hx).quiet
  · exact tells_quiet _ _ x hx

theorem Controlled.quiet {env : Env} {m m' : Mod} {mask v : Flags} {o : List Out} (h : Controlled env m mask v m' o) :
    ∀ x ∈ o, Quiet x := by
  rw [h.outs]
  split <;> intro x hx
  · obtain ⟨sent, hs⟩ := control_outs env m.conf.key m.proto m'.flags.clockCtrl
    rw [hs, List.mem_singleton] at hx; subst hx; exact ⟨nofun, nofun⟩
  · cases hx

/-! ## What is stored -/

/-- The parts of a state that the control of the clock does not touch. -/
structure SameView (a b : State) : Prop where
  st : a.st = b.st
  id : a.id = b.id
  sel : a.sel = b.sel
  peers : a.peers = b.peers
  offset : a.offset = b.offset
  disp : a.disp = b.disp
  stratum : a.stratum = b.stratum
  score : a.score = b.score

theorem SameView.rfl' (a : State) : SameView a a := ⟨rfl, rfl, rfl, rfl, rfl, rfl, rfl, rfl⟩

theorem restored_view (s : State) (on : Bool) (rc : Nat) : SameView (restored s on rc) s := by
  unfold restored
  split
  · exact ⟨rfl, rfl, rfl, rfl, rfl, rfl, rfl, rfl⟩
  · split <;> exact ⟨rfl, rfl, rfl, rfl, rfl, rfl, rfl, rfl⟩

theorem stored_view (env : Env) (m : Mod) (new : State) : SameView (stored env m new) new := by
  unfold stored
  split
  · exact restored_view _ _ _
  · exact .rfl' _

theorem commanded_view (s : State) (on : Bool) (rc : Nat) : SameView (commanded s on rc) s := by
  unfold commanded refused
  split
  · exact ⟨rfl, rfl, rfl, rfl, rfl, rfl, rfl, rfl⟩
  · split
    · exact .rfl' _
    · split <;> exact ⟨rfl, rfl, rfl, rfl, rfl, rfl, rfl, rfl⟩

theorem Controlled.view {env : Env} {m m' : Mod} {mask v : Flags} {o : List Out} (h : Controlled env m mask v m' o) :
    SameView m'.state m.state := by
  rw [h.state]
  split
  · exact commanded_view _ _ _
  · exact .rfl' _

theorem SameView.follows {a b : State} (h : SameView a b) (hf : Follows b) : Follows a := by
  intro hs
  rw [h.st] at hs
  obtain ⟨i, h1, h2, p, h3, h4, h5, h6, h7⟩ := hf hs
  exact ⟨i, by rw [h.sel, h1], by rw [h.peers]; exact h2, p, by rw [h.peers]; exact h3, by rw [h.peers]; exact h4,
    by rw [h.offset, h5], by rw [h.disp, h6], by rw [h.stratum, h7]⟩

theorem parseError_follows (s : State) (rc : Nat) : Follows (parseError s rc) := by
  intro h
  simp only [parseError] at h
  split at h
  · cases h
  · split at h <;> cases h

/-! ## The state and the answers -/

/-- The state after an answer to the first query. -/
theorem sysState_agrees {s : State} {bad : Bool} {score : Int} {a : Ans (Option Bool)} {o p : List Out} {t : Int}
    (hp : s.peers = latest o) (hq : ∀ x ∈ p, Quiet x) :
    (sysState s bad score a).peers = latest (o ++ .sys t a :: p) ∧ Follows (sysState s bad score a) ∧
      ((sysState s bad score a).st = .slave → bad = false) ∧
      (bad = false → (sysState s bad score a).st = ruled (lastCode (o ++ .sys t a :: p)) (latest (o ++ .sys t a :: p))) := by
  rw [latest_sys _ _ _ _ hq, code_sys _ _ _ _ hq]
  cases a with
  | error rc =>
    refine ⟨rfl, parseError_follows _ _, fun h => ?_, fun _ => parseError_ruled _ _⟩
    simp only [sysState, parseError] at h
    split at h
    · cases h
    · split at h <;> cases h
  | ok c =>
    obtain ⟨_, _, _, h4, h5, h6, h7, _⟩ := parseOk_spec { s with cc := c.getD s.cc } bad score
    refine ⟨?_, h5, h6, fun hb => ?_⟩
    · exact h4.trans hp
    · exact (h7 hb).trans (by show ruled (some none) s.peers = _; rw [hp])

/-- The state after an answer to the second query. -/
theorem peerState_agrees {s : State} {bad : Bool} {score : Int} {a : Ans (List Peer)} {o p : List Out}
    (hq : ∀ x ∈ p, Quiet x) :
    (peerState s bad score a).peers = latest (o ++ .peers a :: p) ∧ Follows (peerState s bad score a) ∧
      ((peerState s bad score a).st = .slave → bad = false) ∧
      (bad = false → (peerState s bad score a).st = ruled (lastCode (o ++ .peers a :: p)) (latest (o ++ .peers a :: p))) := by
  rw [latest_peers _ _ _ hq, code_peers _ _ _ hq]
  cases a with
  | error rc =>
    refine ⟨rfl, parseError_follows _ _, fun h => ?_, fun _ => parseError_ruled _ _⟩
    simp only [peerState, parseError] at h
    split at h
    · cases h
    · split at h <;> cases h
  | ok l =>
    obtain ⟨_, _, _, h4, h5, h6, h7, _⟩ := parseOk_spec { s with peers := l } bad score
    exact ⟨h4, h5, h6, h7⟩

/-- The state follows from the answers, and the offset is that of the peer followed. -/
structure Known (m : Mod) (o : List Out) : Prop where
  peers : m.state.peers = latest o
  follows : Follows m.state
  slave : m.state.st = .slave → ruled (lastCode o) (latest o) = .slave

theorem Known.same {m m' : Mod} {o p : List Out} (k : Known m o) (hv : SameView m'.state m.state) (hq : ∀ x ∈ p, Quiet x) :
    Known m' (o ++ p) :=
  ⟨by rw [hv.peers, latest_quiet _ _ hq, k.peers], hv.follows k.follows,
    fun hs => by rw [latest_quiet _ _ hq, code_quiet _ _ hq]; exact k.slave (by rw [← hv.st]; exact hs)⟩

theorem step_known {m m' : Mod} {e : Ev} {o o' : List Out} (k : Known m o) (hstep : step m e = .ok (m', o')) : Known m' (o ++ o') := by
  cases step_move hstep with
  | @run env _ _ h hm =>
    obtain ⟨info, hi, rfl⟩ := h
    subst hm
    refine k.same (.rfl' _) fun x hx => ?_
    rcases List.mem_append.1 hx with hx | hx
    · exact (hi x hx).quiet
    · split at hx
      · rw [List.mem_singleton] at hx; subst hx; exact ⟨nofun, nofun⟩
      · cases hx
  | @sys env _ q hq h =>
    have := sysState_agrees (bad := m.unsafe_) (score := env.score) (a := (getSys env m.proto).2) (t := env.now) k.peers h.quiet
    have hv := stored_view env { m with proto := (getSys env m.proto).1, query := .peerInfo }
      (sysState m.state m.unsafe_ env.score (getSys env m.proto).2)
    refine ⟨by rw [h.state, hv.peers]; exact this.1, by rw [h.state]; exact hv.follows this.2.1, fun hs => ?_⟩
    rw [h.state, hv.st] at hs
    rw [← this.2.2.2 (this.2.2.1 hs)]; exact hs
  | @peers env _ q hq h =>
    have := peerState_agrees (s := m.state) (bad := m.unsafe_) (score := env.score) (a := (getPeers env m.proto).2) (o := o) h.quiet
    have hv := stored_view env { m with proto := (getPeers env m.proto).1, query := .sleep }
      (peerState m.state m.unsafe_ env.score (getPeers env m.proto).2)
    refine ⟨by rw [h.state, hv.peers]; exact this.1, by rw [h.state]; exact hv.follows this.2.1, fun hs => ?_⟩
    rw [h.state, hv.st] at hs
    rw [← this.2.2.2 (this.2.2.1 hs)]; exact hs
  | wake hq hn => exact k.same (.rfl' _) (by simp)
  | asleep hq hn => exact k.same (.rfl' _) (by simp)
  | control => exact k.same (onControl_spec _ _ _ _).view (onControl_spec _ _ _ _).quiet
  | step => exact k.same (.rfl' _) (by simp)
  | logStats hi => exact k.same (.rfl' _) fun x hx => (hi x hx).quiet
  | getStatus => exact k.same (.rfl' _) fun x hx => by rw [List.mem_singleton] at hx; subst hx; exact ⟨nofun, nofun⟩
  | saveState => exact k.same (.rfl' _) (by simp)
  | topology => exact k.same (.rfl' _) (by simp)

/-- Without steps of the clock the state is the one the rules give. -/
def Plain (m : Mod) (o : List Out) : Prop := m.unsafe_ = false ∧ m.state.st = ruled (lastCode o) (latest o)

theorem Plain.same {m m' : Mod} {o p : List Out} (k : Plain m o) (hv : SameView m'.state m.state) (hu : m'.unsafe_ = m.unsafe_)
    (hq : ∀ x ∈ p, Quiet x) : Plain m' (o ++ p) :=
  ⟨by rw [hu]; exact k.1, by rw [hv.st, latest_quiet _ _ hq, code_quiet _ _ hq]; exact k.2⟩

theorem newUnsafe_false {m : Mod} (h : m.unsafe_ = false) (s : State) : newUnsafe m s = false := by simp [newUnsafe, h]

theorem step_plain {m m' : Mod} {e : Ev} {o o' : List Out} (hk : Known m o) (k : Plain m o) (he : e ≠ .step)
    (hstep : step m e = .ok (m', o')) : Plain m' (o ++ o') := by
  cases step_move hstep with
  | @run env _ _ h hm =>
    obtain ⟨info, hi, rfl⟩ := h
    subst hm
    refine ⟨rfl, ?_⟩
    have := Plain.same (m' := m) (p := info ++ (if m.conf.inst then [.told (status m.state)] else [])) k (.rfl' _) rfl
      fun x hx => by
        rcases List.mem_append.1 hx with hx | hx
        · exact (hi x hx).quiet
        · split at hx
          · rw [List.mem_singleton] at hx; subst hx; exact ⟨nofun, nofun⟩
          · cases hx
    exact this.2
  | @sys env _ q hq h =>
    have := sysState_agrees (bad := m.unsafe_) (score := env.score) (a := (getSys env m.proto).2) (t := env.now) hk.peers h.quiet
    have hv := stored_view env { m with proto := (getSys env m.proto).1, query := .peerInfo }
      (sysState m.state m.unsafe_ env.score (getSys env m.proto).2)
    refine ⟨?_, by rw [h.state, hv.st]; exact this.2.2.2 k.1⟩
    rw [h.unsafe_]
    split
    · exact newUnsafe_false k.1 _
    · exact k.1
  | @peers env _ q hq h =>
    have := peerState_agrees (s := m.state) (bad := m.unsafe_) (score := env.score) (a := (getPeers env m.proto).2) (o := o) h.quiet
    have hv := stored_view env { m with proto := (getPeers env m.proto).1, query := .sleep }
      (peerState m.state m.unsafe_ env.score (getPeers env m.proto).2)
    refine ⟨?_, by rw [h.state, hv.st]; exact this.2.2.2 k.1⟩
    rw [h.unsafe_]
    split
    · exact newUnsafe_false k.1 _
    · exact k.1
  | wake hq hn => exact k.same (.rfl' _) rfl (by simp)
  | asleep hq hn => exact k.same (.rfl' _) rfl (by simp)
  | control =>
    exact k.same (onControl_spec _ _ _ _).view (onControl_spec _ _ _ _).unsafe_ (onControl_spec _ _ _ _).quiet
  | step => exact absurd rfl he
  | logStats hi => exact k.same (.rfl' _) rfl fun x hx => (hi x hx).quiet
  | getStatus => exact k.same (.rfl' _) rfl fun x hx => by rw [List.mem_singleton] at hx; subst hx; exact ⟨nofun, nofun⟩
  | saveState => exact k.same (.rfl' _) rfl (by simp)
  | topology => exact k.same (.rfl' _) rfl (by simp)

/-! ## The start -/

theorem takeControl_spec (c : Conf) (env : Env) (p : Option Proto) (s : State) :
    SameView (takeControl c env p s).2.2.1 s ∧ (∀ x ∈ (takeControl c env p s).2.2.2, Quiet x) ∧
    (takeControl c env p s).2.2.1.cannot = s.cannot := by
  unfold takeControl
  split
  · have hq : ∀ x ∈ (control env c.key p false).2.2, Quiet x := by
      obtain ⟨sent, h⟩ := control_outs env c.key p false
      rw [h]; intro x hx; rw [List.mem_singleton] at hx; subst hx; exact ⟨nofun, nofun⟩
    dsimp only
    split
    · exact ⟨⟨rfl, rfl, rfl, rfl, rfl, rfl, rfl, rfl⟩, hq, rfl⟩
    · exact ⟨⟨rfl, rfl, rfl, rfl, rfl, rfl, rfl, rfl⟩, hq, rfl⟩
  · exact ⟨.rfl' _, by simp, rfl⟩

theorem passiveCheck_spec (c : Conf) (s : State) :
    SameView (passiveCheck c s).2 s ∧ (passiveCheck c s).2.cannot = s.cannot ∧ (passiveCheck c s).2.cc = s.cc := by
  unfold passiveCheck
  split
  · exact ⟨⟨rfl, rfl, rfl, rfl, rfl, rfl, rfl, rfl⟩, rfl, rfl⟩
  · exact ⟨.rfl' _, rfl, rfl⟩

/-- A module that has been started. -/
def fresh (c : Conf) (p : Option Proto) (s : State) : Mod := { conf := c, proto := p, state := s }

/-- A start that succeeds. -/
theorem settled_ok {c : Conf} {env : Env} {p : Proto} {s : State} (h : (settled c env p s).1 = 0) :
    (takeControl c env (some p) s).1 = 0 ∧ (passiveCheck c (takeControl c env (some p) s).2.2.1).1 = 0 ∧
    settled c env p s = (0, fresh c (takeControl c env (some p) s).2.1
      (parseOk (passiveCheck c (takeControl c env (some p) s).2.2.1).2 false env.score),
      (takeControl c env (some p) s).2.2.2) := by
  unfold settled at h ⊢
  dsimp only at h ⊢
  by_cases h1 : (takeControl c env (some p) s).1 ≠ 0
  · rw [if_pos h1] at h; exact absurd h h1
  · rw [if_neg h1] at h ⊢
    by_cases h2 : (passiveCheck c (takeControl c env (some p) s).2.2.1).1 ≠ 0
    · rw [if_pos h2] at h; exact absurd h h2
    · rw [if_neg h2]
      exact ⟨by omega, by omega, rfl⟩

/-- The ways in which a start succeeds. -/
inductive Started (c : Conf) (e : StartEnv) : Mod → List Out → Prop
  | silent (h : ∀ p, e.env.test .create p = false) : Started c e (fresh c none {}) []
  | failed {p rc} (hp : selectProto e.env .create none = some p) (h : e.env.sys p = .error rc) :
      Started c e (fresh c (some p) (parseError { cc := true } rc)) [.sys e.env.now (.error rc)]
  | known {p cc l} (hp : selectProto e.env .create none = some p) (h : e.env.sys p = .ok cc) (hl : e.env.peers p = .ok l)
      (ht : (takeControl c e.env (some p) { cc := cc.getD true, peers := l }).1 = 0)
      (hk : (passiveCheck c (takeControl c e.env (some p) { cc := cc.getD true, peers := l }).2.2.1).1 = 0) :
      Started c e (fresh c (takeControl c e.env (some p) { cc := cc.getD true, peers := l }).2.1
        (parseOk (passiveCheck c (takeControl c e.env (some p) { cc := cc.getD true, peers := l }).2.2.1).2 false e.env.score))
        (.sys e.env.now (.ok cc) :: .peers (.ok l) :: (takeControl c e.env (some p) { cc := cc.getD true, peers := l }).2.2.2)

theorem start_ok {c : Conf} {e : StartEnv} (h : (start c e).1 = 0) :
    (c.inst && !c.key && !c.ignore) = false ∧ e.timesyncd = false ∧ Started c e (start c e).2.1 (start c e).2.2 := by
  unfold start at h ⊢
  by_cases h1 : (c.inst && !c.key && !c.ignore) = true
  · rw [if_pos h1] at h; cases h
  · rw [if_neg h1] at h ⊢
    by_cases h2 : e.timesyncd = true
    · rw [if_pos h2] at h; cases h
    · rw [if_neg h2] at h ⊢
      by_cases h3 : e.create ≠ 0
      · rw [if_pos h3] at h; exact absurd h h3
      · rw [if_neg h3] at h ⊢
        refine ⟨by simpa using h1, by simpa using h2, ?_⟩
        cases hs : selectProto e.env .create none with
        | none =>
          refine .silent fun p => ?_
          unfold selectProto at hs
          dsimp only at hs
          split at hs
          · cases hs
          · split at hs
            · cases hs
            · rename_i a b; cases p <;> simp_all
        | some p =>
          rw [hs] at h
          dsimp only at h ⊢
          unfold configured at h ⊢
          cases hsys : e.env.sys p with
          | error rc => exact .failed hs hsys
          | ok cc =>
            rw [hsys] at h
            dsimp only at h ⊢
            cases hl : e.env.peers p with
            | error rc =>
              rw [hl] at h
              dsimp only at h ⊢
              exfalso; omega
            | ok l =>
              rw [hl] at h
              dsimp only at h ⊢
              obtain ⟨a, b, d⟩ := settled_ok h
              rw [d]
              exact .known hs hsys hl a b

theorem started_known {c : Conf} {e : StartEnv} {m : Mod} {o : List Out} (h : Started c e m o) : Known m o ∧ Plain m o := by
  cases h with
  | silent h => exact ⟨⟨rfl, nofun, nofun⟩, rfl, rfl⟩
  | @failed p rc hp h =>
    refine ⟨⟨rfl, parseError_follows _ _, fun hs => ?_⟩, rfl, parseError_ruled _ _⟩
    exact (parseError_ruled { cc := true } rc).symm.trans hs
  | @known p cc l hp h hl ht hk =>
    obtain ⟨tv, tq, _⟩ := takeControl_spec c e.env (some p) { cc := cc.getD true, peers := l }
    obtain ⟨pv, _⟩ := passiveCheck_spec c (takeControl c e.env (some p) { cc := cc.getD true, peers := l }).2.2.1
    have hlat := latest_peers [.sys e.env.now (.ok cc)] _ (.ok l) tq
    have hcode := code_peers [.sys e.env.now (.ok cc)] _ (.ok l) tq
    obtain ⟨_, _, _, h4, h5, h6, h7, _⟩ := parseOk_spec
      (passiveCheck c (takeControl c e.env (some p) { cc := cc.getD true, peers := l }).2.2.1).2 false e.env.score
    have hps : (passiveCheck c (takeControl c e.env (some p) { cc := cc.getD true, peers := l }).2.2.1).2.peers = l := by
      rw [pv.peers, tv.peers]
    rw [hps] at h4 h7
    simp only [List.cons_append, List.nil_append] at hlat hcode
    refine ⟨⟨?_, h5, fun hs => ?_⟩, rfl, ?_⟩
    · exact h4.trans hlat.symm
    · rw [hlat, hcode, ← h7 rfl]; exact hs
    · rw [hlat, hcode]; exact h7 rfl

/-! ## Lives -/

/-- Induction over a life. -/
theorem Life.induct {P : Mod → List Ev → List Out → Prop} {c : Conf} {e : StartEnv} {es : List Ev} {m : Mod} {o : List Out}
    (h : Life c e es m o) (h0 : ∀ m o, Started c e m o → P m [] o)
    (hs : ∀ m es o ev m' o', P m es o → step m ev = .ok (m', o') → P m' (es ++ [ev]) (o ++ o')) : P m es o := by
  obtain ⟨hr, o', hrun, rfl⟩ := h
  exact run_effects hs (es0 := []) (h0 _ _ (start_ok hr).2.2) hrun

theorem Life.known {c : Conf} {e : StartEnv} {es : List Ev} {m : Mod} {o : List Out} (h : Life c e es m o) : Known m o :=
  h.induct (P := fun m _ o => Known m o) (fun _ _ hs => (started_known hs).1) (fun _ _ _ _ _ _ k hs => step_known k hs)

theorem Life.plain {c : Conf} {e : StartEnv} {es : List Ev} {m : Mod} {o : List Out} (h : Life c e es m o)
    (hn : ∀ ev ∈ es, ev ≠ .step) : Plain m o :=
  (h.induct (P := fun m es o => Known m o ∧ ((∀ ev ∈ es, ev ≠ .step) → Plain m o))
    (fun _ _ hs => ⟨(started_known hs).1, fun _ => (started_known hs).2⟩)
    (fun _ _ _ _ _ _ k hs => ⟨step_known k.1 hs, fun hn =>
      step_plain k.1 (k.2 fun ev hev => hn ev (by simp [hev])) (hn _ (by simp)) hs⟩)).2 hn

theorem Life.conf {c : Conf} {e : StartEnv} {es : List Ev} {m : Mod} {o : List Out} (h : Life c e es m o) : m.conf = c := by
  refine h.induct (P := fun m _ _ => m.conf = c) (fun _ _ hs => ?_) (fun m es o ev m' o' k hs => ?_)
  · cases hs <;> rfl
  · cases step_move hs with
    | run h hm => subst hm; exact k
    | sys hq h => rw [h.conf]; exact k
    | peers hq h => rw [h.conf]; exact k
    | control => rw [(onControl_spec _ _ _ _).conf]; exact k
    | _ => exact k

/-- The flag for the control of the clock is what the engine asked for. -/
theorem wanted_append (es : List Ev) (ev : Ev) : wanted (es ++ [ev]) =
    match ev with | .control _ mask v => if mask.clockCtrl then v.clockCtrl else wanted es | _ => wanted es := by
  unfold wanted
  rw [List.foldl_append]
  cases ev <;> rfl

theorem Life.flag {c : Conf} {e : StartEnv} {es : List Ev} {m : Mod} {o : List Out} (h : Life c e es m o) :
    m.conf = c ∧ m.flags.clockCtrl = (c.inst && wanted es) := by
  refine h.induct (P := fun m es _ => m.conf = c ∧ m.flags.clockCtrl = (c.inst && wanted es)) (fun _ _ hs => ?_)
    (fun m es o ev m' o' k hs => ?_)
  · cases hs <;> exact ⟨rfl, by simp [wanted, fresh, Flags.default]⟩
  · rw [wanted_append]
    cases step_move hs with
    | run h hm => subst hm; exact k
    | sys hq h => rw [h.conf, h.flags]; exact k
    | peers hq h => rw [h.conf, h.flags]; exact k
    | @control env mask v =>
      have hc := onControl_spec env m mask v
      refine ⟨hc.conf.trans k.1, ?_⟩
      rw [hc.flags, k.1]
      cases hi : c.inst
      · simpa [hi] using k.2
      · simp only [if_true, Flags.update, Bool.true_and]
        rw [k.2, hi]; simp
    | _ => exact k

end Verif.Ntp
