import Verif.Ntp.Support

/-!
# What each handler of the NTP module does
-/

set_option linter.unusedVariables false
set_option linter.unusedSimpArgs false

namespace Verif.Ntp

/-- Statistics and inputs for clustering sent from a state of the module. -/
def Info (m : Mod) (x : Out) : Prop :=
  (m.conf.inst = true ∧ m.state.st = .slave ∧ ∃ p, selPeer m.state = .ok p ∧
      x = .stats p.offset (m.flags.selected && m.state.cc) m.synced) ∨
    (m.flags.cluster = true ∧ ∃ p, selPeer m.state = .ok p ∧ x = .cluster p.offset (p.offset ≠ 0 && m.state.st = .slave))

theorem both_ok {a b : Except Fault (List Out)} {o : List Out} (h : both a b = .ok o) :
    ∃ x y, a = .ok x ∧ b = .ok y ∧ o = x ++ y := by
  unfold both at h
  cases a with
  | error f => cases h
  | ok x =>
    cases b with
    | error f => cases h
    | ok y => cases h; exact ⟨x, y, rfl, rfl, rfl⟩

theorem sendStats_info {m : Mod} {o : List Out} (h : sendStats m = .ok o) : ∀ x ∈ o, Info m x := by
  unfold sendStats at h
  split at h
  · rename_i hc
    simp only [Mod.active, Bool.and_eq_true, decide_eq_true_eq] at hc
    cases hp : selPeer m.state with
    | error f => rw [hp] at h; cases h
    | ok p =>
      rw [hp] at h
      cases h
      intro x hx
      rw [List.mem_singleton] at hx
      exact .inl ⟨hc.1, hc.2, p, hp, hx⟩
  · cases h; intro x hx; cases hx

theorem sendCluster_info {m : Mod} {o : List Out} (h : sendCluster m = .ok o) : ∀ x ∈ o, Info m x := by
  unfold sendCluster at h
  split at h
  · rename_i hc
    cases hp : selPeer m.state with
    | error f => rw [hp] at h; cases h
    | ok p =>
      rw [hp] at h
      cases h
      intro x hx
      rw [List.mem_singleton] at hx
      exact .inr ⟨hc, p, hp, hx⟩
  · cases h; intro x hx; cases hx

theorem idChange_spec {m m' : Mod} {new : State} {o : List Out} (h : idChange m new = .ok (m', o)) :
    m' = { m with unsafe_ := newUnsafe m new } ∧ ∀ x ∈ o, Info m x := by
  unfold idChange at h
  cases hb : both (sendStats { m with unsafe_ := newUnsafe m new }) (sendCluster m) with
  | error f => rw [hb] at h; cases h
  | ok q =>
    rw [hb] at h
    cases h
    obtain ⟨x, y, hx, hy, rfl⟩ := both_ok hb
    refine ⟨rfl, fun z hz => ?_⟩
    rcases List.mem_append.1 hz with hz | hz
    · exact sendStats_info hx z hz
    · exact sendCluster_info hy z hz

/-- Whether control of the clock is to be restored. -/
def restores (m : Mod) (new : State) : Bool := decide (new.cc ≠ m.state.cc) && (m.conf.inst && decide (new.st ≠ .disabled))

/-- The state that is stored after an answer. -/
def stored (env : Env) (m : Mod) (new : State) : State :=
  if restores m new then restored new m.flags.clockCtrl (control env m.conf.key m.proto m.flags.clockCtrl).2.1 else new

/-- The attempt made after an answer. -/
def tried (env : Env) (m : Mod) (new : State) : List Out :=
  if restores m new then (control env m.conf.key m.proto m.flags.clockCtrl).2.2 else []

/-- The protocol after an answer. -/
def chosenProto (env : Env) (m : Mod) (new : State) : Option Proto :=
  if restores m new then (control env m.conf.key m.proto m.flags.clockCtrl).1 else m.proto

/-- The step of `applied` that restores the control of the clock. -/
theorem restore_eq (env : Env) (m : Mod) (new : State) :
    (if new.cc ≠ m.state.cc then ccChange env m new else (m, new, [])) =
      ({ m with proto := chosenProto env m new }, stored env m new, tried env m new) := by
  unfold chosenProto stored tried restores ccChange Mod.active
  by_cases h1 : new.cc = m.state.cc
  · simp [h1]
  · by_cases h2 : m.conf.inst = true
    · by_cases h3 : new.st = .disabled
      · simp [h1, h2, h3]
      · simp [h1, h2, h3]
    · simp only [Bool.not_eq_true] at h2
      simp [h1, h2]

/-- What is told to the engine after an answer. -/
def tells (m : Mod) (new : State) : List Out := if m.conf.inst && differs new m.state then [.told (status new)] else []

/-- The module after an answer. -/
structure Applied (env : Env) (m : Mod) (new : State) (m' : Mod) (o : List Out) : Prop where
  conf : m'.conf = m.conf
  flags : m'.flags = m.flags
  query : m'.query = m.query
  next : m'.next = m.next
  state : m'.state = stored env m new
  proto : m'.proto = chosenProto env m new
  unsafe_ : m'.unsafe_ = if (stored env m new).id ≠ m.state.id then newUnsafe m (stored env m new) else m.unsafe_
  synced : m'.synced = (decide ((stored env m new).st = .slave) && (m.flags.tsProc && env.converged))
  outs : ∃ info, (∀ x ∈ info, Info m x) ∧ o = tried env m new ++ info ++ tells m (stored env m new)

theorem finish_spec {env : Env} {m m' : Mod} (h : finish env m = .ok m') :
    m' = { m with synced := decide (m.state.st = .slave) && (m.flags.tsProc && env.converged) } := by
  unfold finish at h
  split at h
  · rename_i hs
    split at h
    · cases h
    · cases hp : selPeer m.state with
      | error f => rw [hp] at h; cases h
      | ok p => rw [hp] at h; cases h; simp [hs]
  · rename_i hs; cases h; simp [hs]

theorem applied_spec {env : Env} {m m' : Mod} {new : State} {o : List Out} (h : applied env m new = .ok (m', o)) :
    Applied env m new m' o := by
  unfold applied at h
  rw [restore_eq] at h
  dsimp only at h
  generalize hr2 : (if (stored env m new).id ≠ m.state.id then
    idChange { m with proto := chosenProto env m new } (stored env m new)
    else Except.ok ({ m with proto := chosenProto env m new }, [])) = r2 at h
  cases r2 with
  | error f => cases h
  | ok q =>
    obtain ⟨m2, o2⟩ := q
    dsimp only at h
    have hm2 : m2 = { m with proto := chosenProto env m new, unsafe_ :=
          (if (stored env m new).id ≠ m.state.id then newUnsafe m (stored env m new) else m.unsafe_) } ∧ ∀ x ∈ o2, Info m x := by
      split at hr2
      · rename_i hc
        obtain ⟨rfl, hx⟩ := idChange_spec hr2
        rw [if_pos hc]
        exact ⟨rfl, hx⟩
      · rename_i hc
        cases hr2
        rw [if_neg hc]
        exact ⟨rfl, fun x hx => by cases hx⟩
    obtain ⟨rfl, hi2⟩ := hm2
    cases hsc : stateChange { m with proto := chosenProto env m new, unsafe_ :=
          (if (stored env m new).id ≠ m.state.id then newUnsafe m (stored env m new) else m.unsafe_) } (stored env m new) with
    | error f => rw [hsc] at h; cases h
    | ok o3 =>
      rw [hsc] at h
      dsimp only at h
      generalize hf : finish env _ = fr at h
      cases fr with
      | error f => cases h
      | ok m3 =>
        cases h
        have := finish_spec hf
        subst this
        unfold stateChange at hsc
        obtain ⟨x, y, hx, hy, rfl⟩ := both_ok hsc
        cases hy
        refine ⟨rfl, rfl, rfl, rfl, rfl, rfl, rfl, rfl, o2 ++ x, ?_, ?_⟩
        · intro z hz
          rcases List.mem_append.1 hz with hz | hz
          · exact hi2 z hz
          · exact sendCluster_info hx z hz
        · simp [tells, Mod.active, List.append_assoc]

/-- The module after a control message. -/
structure Controlled (env : Env) (m : Mod) (mask v : Flags) (m' : Mod) (o : List Out) : Prop where
  conf : m'.conf = m.conf
  query : m'.query = m.query
  next : m'.next = m.next
  unsafe_ : m'.unsafe_ = m.unsafe_
  synced : m'.synced = m.synced
  flags : m'.flags = if m.conf.inst then m.flags.update mask v else m.flags
  state : m'.state = if m'.flags.clockCtrl ≠ m.flags.clockCtrl
    then commanded m.state m'.flags.clockCtrl (control env m.conf.key m.proto m'.flags.clockCtrl).2.1 else m.state
  proto : m'.proto = if m'.flags.clockCtrl ≠ m.flags.clockCtrl
    then (control env m.conf.key m.proto m'.flags.clockCtrl).1 else m.proto
  outs : o = if m'.flags.clockCtrl ≠ m.flags.clockCtrl
    then (control env m.conf.key m.proto m'.flags.clockCtrl).2.2 else []

theorem onControl_spec (env : Env) (m : Mod) (mask v : Flags) :
    Controlled env m mask v (onControl env m mask v).1 (onControl env m mask v).2 := by
  unfold onControl Mod.active
  cases hi : m.conf.inst
  · simp only [Bool.not_false, if_true]
    exact ⟨rfl, rfl, rfl, rfl, rfl, by simp [hi], by simp, by simp, by simp⟩
  · simp only [Bool.not_true, Bool.false_eq_true, if_false]
    by_cases hc : (m.flags.update mask v).clockCtrl = m.flags.clockCtrl
    · rw [if_neg (by simp [hc])]
      exact ⟨rfl, rfl, rfl, rfl, rfl, by simp [hi], by simp [hc], by simp [hc], by simp [hc]⟩
    · rw [if_pos hc]
      exact ⟨rfl, rfl, rfl, rfl, rfl, by simp [hi], (if_pos hc).symm, (if_pos hc).symm, (if_pos hc).symm⟩

/-- What a handler may do. -/
inductive Move (m : Mod) : Ev → Mod → List Out → Prop
  | run {env m' o} (h : ∃ info, (∀ x ∈ info, Info { m with next := env.now, query := .sysInfo, unsafe_ := false } x) ∧
        o = info ++ (if m.conf.inst then [.told (status m.state)] else []))
      (hm : m' = { m with next := env.now, query := .sysInfo, unsafe_ := false }) : Move m (.run env) m' o
  | sys {env m' o} (hq : m.query = .sysInfo)
      (h : Applied env { m with proto := (getSys env m.proto).1, query := .peerInfo }
        (sysState m.state m.unsafe_ env.score (getSys env m.proto).2) m' o) :
      Move m (.timer env) m' (.sys env.now (getSys env m.proto).2 :: o)
  | peers {env m' o} (hq : m.query = .peerInfo)
      (h : Applied env { m with proto := (getPeers env m.proto).1, query := .sleep }
        (peerState m.state m.unsafe_ env.score (getPeers env m.proto).2) m' o) :
      Move m (.timer env) m' (.peers (getPeers env m.proto).2 :: o)
  | wake {env} (hq : m.query = .sleep) (hn : m.next < env.now) :
      Move m (.timer env) { m with query := .sysInfo, next := m.next + m.conf.interval * 1000000000 } []
  | asleep {env} (hq : m.query = .sleep) (hn : ¬ m.next < env.now) : Move m (.timer env) m []
  | control {env mask v} : Move m (.control env mask v) (onControl env m mask v).1 (onControl env m mask v).2
  | step : Move m .step { m with unsafe_ := true } []
  | logStats {o} (h : ∀ x ∈ o, Info m x) : Move m .logStats m o
  | getStatus : Move m .getStatus m [.reply (reply m.state)]
  | saveState : Move m .saveState m []
  | topology : Move m .topology m []

theorem step_move {m m' : Mod} {e : Ev} {o : List Out} (h : step m e = .ok (m', o)) : Move m e m' o := by
  cases e with
  | run env =>
    replace h : onRun env m = .ok (m', o) := h
    unfold onRun at h
    dsimp only at h
    split at h
    · rename_i ha
      cases hi : idChange { m with next := env.now, query := .sysInfo, unsafe_ := false }
          ({ m with next := env.now, query := .sysInfo, unsafe_ := false } : Mod).state with
      | error f => rw [hi] at h; cases h
      | ok r =>
        obtain ⟨m1, o1⟩ := r
        rw [hi] at h
        dsimp only at h
        obtain ⟨hm1, hinfo⟩ := idChange_spec hi
        cases hsu : statsUpdate m1 with
        | error f => rw [hsu] at h; cases h
        | ok u =>
          rw [hsu] at h
          cases h
          have : m.conf.inst = true := ha
          refine .run ⟨o1, hinfo, ?_⟩ ?_
          · rw [if_pos this, hm1]
          · rw [hm1]; simp [newUnsafe]
    · rename_i ha
      cases h
      have : ¬ m.conf.inst = true := ha
      exact .run ⟨[], nofun, by rw [if_neg this]; rfl⟩ rfl
  | timer env =>
    replace h : timer env m = .ok (m', o) := h
    unfold timer at h
    split at h
    · rename_i hq
      dsimp only at h
      split at h
      · cases h
      · rename_i mm oo hh; cases h; exact .sys hq (applied_spec hh)
    · rename_i hq
      dsimp only at h
      split at h
      · cases h
      · rename_i mm oo hh; cases h; exact .peers hq (applied_spec hh)
    · rename_i hq
      split at h
      · rename_i hn; cases h; exact .wake hq hn
      · rename_i hn; cases h; exact .asleep hq hn
  | control env mask v =>
    replace h : Except.ok (onControl env m mask v) = Except.ok (m', o) := h
    have h' := Except.ok.inj h
    rw [show m' = (onControl env m mask v).1 by rw [h'], show o = (onControl env m mask v).2 by rw [h']]
    exact .control
  | step => unfold step at h; cases h; exact .step
  | logStats =>
    unfold step at h
    cases hb : both (sendStats m) (sendCluster m) with
    | error f => rw [hb] at h; cases h
    | ok q =>
      rw [hb] at h
      cases h
      obtain ⟨x, y, hx, hy, rfl⟩ := both_ok hb
      refine .logStats fun z hz => ?_
      rcases List.mem_append.1 hz with hz | hz
      · exact sendStats_info hx z hz
      · exact sendCluster_info hy z hz
  | getStatus => unfold step at h; cases h; exact .getStatus
  | saveState =>
    replace h : onSave m = .ok (m', o) := h
    unfold onSave at h
    split at h
    · split at h
      · cases h
      · cases h; exact .saveState
    · cases h; exact .saveState
  | topology =>
    replace h : onTopology m = .ok (m', o) := h
    unfold onTopology at h
    split at h
    · cases h
    · split at h
      · cases h
      · cases h; exact .topology

end Verif.Ntp
