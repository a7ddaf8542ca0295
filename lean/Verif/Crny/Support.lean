import Verif.Crny.Model

/-!
# Lemmas about the chrony module
-/

set_option linter.unusedVariables false
set_option linter.unusedSimpArgs false

namespace Verif.Crny

/-! ## What clock control leaves alone -/

/-- The parts of the module that clock control does not touch. -/
structure Kept (m m' : Mod) : Prop where
  conf : m'.conf = m.conf
  flags : m'.flags = m.flags
  query : m'.query = m.query
  srcIdx : m'.srcIdx = m.srcIdx
  state : m'.state = m.state
  next : m'.next = m.next
  sock : m'.sock = true → m.sock = true
  phase : m'.phase = m.phase
  nextPoll : m'.nextPoll = m.nextPoll
  blocked : m'.blocked = m.blocked

theorem Kept.refl (m : Mod) : Kept m m := ⟨rfl, rfl, rfl, rfl, rfl, rfl, id, rfl, rfl, rfl⟩

theorem Kept.trans {a b c : Mod} (h : Kept a b) (k : Kept b c) : Kept a c :=
  ⟨k.conf.trans h.conf, k.flags.trans h.flags, k.query.trans h.query, k.srcIdx.trans h.srcIdx, k.state.trans h.state,
   k.next.trans h.next, fun x => h.sock (k.sock x), k.phase.trans h.phase, k.nextPoll.trans h.nextPoll,
   k.blocked.trans h.blocked⟩

theorem look_kept (m : Mod) (p : Proc) : Kept m (look m p).1 := ⟨rfl, rfl, rfl, rfl, rfl, rfl, id, rfl, rfl, rfl⟩

theorem doControl_kept (m : Mod) (op : Op) (p : Proc) (ok : Bool) : Kept m (doControl m op p ok).1 := by
  unfold doControl
  split
  · exact .refl m
  · dsimp only
    split
    · exact look_kept m p
    · cases op with
      | save => exact ⟨rfl, rfl, rfl, rfl, rfl, rfl, id, rfl, rfl, rfl⟩
      | enable => exact ⟨rfl, rfl, rfl, rfl, rfl, rfl, (fun h => nomatch h), rfl, rfl, rfl⟩
      | disable => exact ⟨rfl, rfl, rfl, rfl, rfl, rfl, (fun h => nomatch h), rfl, rfl, rfl⟩

theorem saveState_kept (m : Mod) (p : Proc) (ok : Bool) : Kept m (saveState m p ok).1 := by
  unfold saveState
  split
  · exact .refl m
  · exact (doControl_kept m .save p ok).trans ⟨rfl, rfl, rfl, rfl, rfl, rfl, id, rfl, rfl, rfl⟩

theorem control_kept (m : Mod) (b : Bool) (p : Proc) (ok : Bool) (p' : Proc) (ok' : Bool) :
    Kept m (control m b p ok p' ok').1 :=
  (saveState_kept m p ok).trans (doControl_kept _ _ p' ok')

theorem constrain_kept (m : Mod) : Kept m (constrain m) := by
  unfold constrain
  split
  · exact .refl m
  · split
    · exact ⟨rfl, rfl, rfl, rfl, rfl, rfl, id, rfl, rfl, rfl⟩
    · split
      · exact ⟨rfl, rfl, rfl, rfl, rfl, rfl, id, rfl, rfl, rfl⟩
      · exact .refl m

/-- Equal but for clock control and the synchronised flag. -/
structure Alike (s s' : State) : Prop where
  st : s'.st = s.st
  numPeers : s'.numPeers = s.numPeers
  peers : s'.peers = s.peers
  sel : s'.sel = s.sel
  unsafe_ : s'.unsafe_ = s.unsafe_
  meas : s'.meas = s.meas

theorem Alike.refl (s : State) : Alike s s := ⟨rfl, rfl, rfl, rfl, rfl, rfl⟩

theorem Alike.trans {a b c : State} (h : Alike a b) (k : Alike b c) : Alike a c :=
  ⟨k.st.trans h.st, k.numPeers.trans h.numPeers, k.peers.trans h.peers, k.sel.trans h.sel,
   k.unsafe_.trans h.unsafe_, k.meas.trans h.meas⟩

/-- The parts untouched by an update. -/
structure Upd (m m' : Mod) : Prop where
  conf : m'.conf = m.conf
  flags : m'.flags = m.flags
  query : m'.query = m.query
  srcIdx : m'.srcIdx = m.srcIdx
  next : Alike m.next m'.next
  sock : m'.sock = true → m.sock = true
  phase : m'.phase = m.phase
  nextPoll : m'.nextPoll = m.nextPoll

theorem Kept.upd {m m' : Mod} (h : Kept m m') : Upd m m' :=
  ⟨h.conf, h.flags, h.query, h.srcIdx, h.next ▸ .refl _, h.sock, h.phase, h.nextPoll⟩

theorem Upd.trans {a b c : Mod} (h : Upd a b) (k : Upd b c) : Upd a c :=
  ⟨k.conf.trans h.conf, k.flags.trans h.flags, k.query.trans h.query, k.srcIdx.trans h.srcIdx, h.next.trans k.next,
   fun x => h.sock (k.sock x), k.phase.trans h.phase, k.nextPoll.trans h.nextPoll⟩

theorem Upd.refl (m : Mod) : Upd m m := (Kept.refl m).upd

theorem setBlock_upd (m : Mod) (b : Bool) : Upd m (setBlock m b).1 := by
  unfold setBlock
  split
  · exact .refl m
  · exact ⟨rfl, rfl, rfl, rfl, .refl _, id, rfl, rfl⟩

theorem setBlock_state (m : Mod) (b : Bool) : (setBlock m b).1.state = m.state ∧ (setBlock m b).1.next = m.next ∧
    (setBlock m b).1.blocked = b := by
  unfold setBlock
  split
  · exact ⟨rfl, rfl, by assumption⟩
  · exact ⟨rfl, rfl, rfl⟩

theorem putBack_upd (m : Mod) (env : Env) : Upd m (putBack m env).1 ∧ (putBack m env).1.state = m.state ∧
    (putBack m env).1.blocked = m.blocked := by
  unfold putBack
  split
  · dsimp only
    have k := control_kept m m.flags.clockCtrl (env.look .save') (env.script .save') (env.look .op') (env.script .op')
    split
    · exact ⟨⟨k.conf, k.flags, k.query, k.srcIdx, by rw [k.next]; exact ⟨rfl, rfl, rfl, rfl, rfl, rfl⟩, k.sock, k.phase, k.nextPoll⟩,
        k.state, k.blocked⟩
    · exact ⟨k.upd, k.state, k.blocked⟩
  · exact ⟨.refl m, rfl, rfl⟩

theorem onChange_upd (m : Mod) (env : Env) : Upd m (onChange m env).1 ∧ (onChange m env).1.state = m.state ∧
    (onChange m env).1.blocked = m.next.cc := by
  have h := putBack_upd (constrain (setBlock m m.next.cc).1) env
  have k := constrain_kept (setBlock m m.next.cc).1
  have b := setBlock_state m m.next.cc
  exact ⟨((setBlock_upd m m.next.cc).trans k.upd).trans h.1, h.2.1.trans (k.state.trans b.1),
    h.2.2.trans (k.blocked.trans b.2.2)⟩

theorem changeIf_upd (m : Mod) (env : Env) : Upd m (changeIf m env).1 ∧ (changeIf m env).1.state = m.state := by
  unfold changeIf
  split
  · exact ⟨(onChange_upd m env).1, (onChange_upd m env).2.1⟩
  · exact ⟨.refl m, rfl⟩

theorem stateChange_kept (m : Mod) : Kept m (stateChange m).1 := by
  unfold stateChange
  dsimp only
  split
  · exact ⟨rfl, rfl, rfl, rfl, rfl, rfl, id, rfl, rfl, rfl⟩
  · exact .refl m

/-- What the engine is told. -/
theorem stateChange_outs (m : Mod) : (stateChange m).2 =
    if m.next.st ≠ m.state.st ∨ m.next.meas ≠ m.state.meas then
      [.told m.next.st (stateChange m).1.must (stateChange m).1.cannot] else [] := by
  unfold stateChange
  dsimp only
  by_cases h : m.next.st ≠ m.state.st ∧ m.next.st = .disabled ∧ ¬ m.conf.control
  · rw [if_pos h]
  · rw [if_neg h]

theorem converge_alike {s s' : State} {c : Bool} (h : converge s c = some s') : Alike s s' ∧ s'.cc = s.cc := by
  unfold converge at h
  split at h
  · cases h; exact ⟨⟨rfl, rfl, rfl, rfl, rfl, rfl⟩, rfl⟩
  · split at h
    · cases h
    · cases h; exact ⟨⟨rfl, rfl, rfl, rfl, rfl, rfl⟩, rfl⟩

/-- What an update does. -/
theorem updateState_spec {m m' : Mod} {env : Env} {o : List Out} (h : updateState m env = some (m', o)) :
    Upd m m' ∧ m'.state = m'.next ∧ m'.next.cc = (changeIf m env).1.next.cc ∧
    m'.blocked = (changeIf m env).1.blocked ∧ m'.must = (stateChange (changeIf m env).1).1.must ∧
    m'.cannot = (stateChange (changeIf m env).1).1.cannot ∧
    ∃ o1 o2, o = (changeIf m env).2 ++ o1 ++ o2 ++ (stateChange (changeIf m env).1).2 ∧
      (o1 = [] ∨ rtStats m'.next = some o1) ∧
      (o2 = [] ∨ clustering (stateChange (changeIf m env).1).1 m'.next = some o2) := by
  have hc := changeIf_upd m env
  have ht := stateChange_kept (changeIf m env).1
  unfold updateState at h
  dsimp only at h
  generalize hs : converge (stateChange (changeIf m env).1).1.next env.converged = r at h
  match r, h with
  | none, h => exact absurd h (by simp)
  | some s, h =>
    have ha := converge_alike hs
    dsimp only at h
    split at h
    · rename_i o1 o2 h1 h2
      split at h
      · cases h
        refine ⟨(hc.1.trans ht.upd).trans ⟨rfl, rfl, rfl, rfl, ha.1, id, rfl, rfl⟩, rfl, ?_, ht.blocked, rfl, rfl,
          o1, o2, rfl, ?_, ?_⟩
        · exact ha.2.trans (by rw [ht.next])
        · split at h1
          · exact Or.inr h1
          · exact Or.inl (by simpa using h1.symm)
        · split at h2
          · exact Or.inr h2
          · exact Or.inl (by simpa using h2.symm)
      · cases h
    · cases h

/-! ## No source is ever selected -/

/-- Nothing of the flags of sources is left, and not slave. -/
structure NoSel (s : State) : Prop where
  st : s.st ≠ .slave
  peers : ∀ p ∈ s.peers, p.selected = false ∧ p.shortlist = false ∧ p.self = false

theorem NoSel.alike {s s' : State} (h : NoSel s) (a : Alike s s') : NoSel s' :=
  ⟨a.st ▸ h.st, a.peers ▸ h.peers⟩

theorem scan_nosel (ps : List Peer) (h : ∀ p ∈ ps, p.selected = false ∧ p.shortlist = false ∧ p.self = false)
    (i : Nat) (b : Bool) : scan ps i (-1, b) = (-1, b || ps.any Peer.candidate) := by
  induction ps generalizing i b with
  | nil => simp [scan]
  | cons p ps ih =>
    have hp := h p List.mem_cons_self
    have ih := ih (fun q hq => h q (List.mem_cons_of_mem _ hq)) (i + 1) (b || p.candidate)
    simp [scan, hp.1, hp.2.1, hp.2.2, ih, Bool.or_assoc]

/-- The state parsed when nothing is selected. -/
theorem parse_nosel {s : State} (h : ∀ p ∈ s.peers, p.selected = false ∧ p.shortlist = false ∧ p.self = false) :
    parse s = if s.numPeers ≤ 32 then
      some { s with st := if (s.peers.take s.numPeers).any Peer.candidate then .selection else .listening, sel := -1,
                    meas := some none } else none := by
  unfold parse
  have := scan_nosel (s.peers.take s.numPeers) (fun p hp => h p (List.mem_of_mem_take hp)) 0 false
  rw [this]
  simp [maxPeers]

theorem parse_some {s s' : State} (h : NoSel s) (hp : parse s = some s') : NoSel s' ∧ s'.sel = -1 ∧ s'.cc = s.cc ∧
    s'.numPeers = s.numPeers ∧ s'.peers = s.peers ∧ s.numPeers ≤ 32 := by
  rw [parse_nosel h.peers] at hp
  split at hp
  · cases hp
    refine ⟨⟨?_, h.peers⟩, rfl, rfl, rfl, rfl, by assumption⟩
    dsimp only
    split <;> simp
  · cases hp

theorem parseError_nosel {s : State} (h : NoSel s) (rc : Nat) : NoSel (parseError s rc) := by
  refine ⟨?_, h.peers⟩
  unfold parseError
  dsimp only
  split
  · simp
  · split <;> simp

theorem set_clear {ps : List Peer} {i : Nat} {q : Peer}
    (h : ∀ p ∈ ps, p.selected = false ∧ p.shortlist = false ∧ p.self = false)
    (hq : q.selected = false ∧ q.shortlist = false ∧ q.self = false) :
    ∀ p ∈ ps.set i q, p.selected = false ∧ p.shortlist = false ∧ p.self = false := by
  intro p hp
  rcases List.mem_or_eq_of_mem_set hp with hp | rfl
  · exact h p hp
  · exact hq

/-- What writing a peer does. -/
theorem setPeer_spec {m m' : Mod} {i : Nat} {f : Peer → Peer} (h : setPeer m i f = some m') :
    ∃ p, m.next.peers[i]? = some p ∧
      m' = { m with next := { m.next with peers := m.next.peers.set i (f p) } } := by
  unfold setPeer at h
  split at h
  · cases h
  · cases h
    exact ⟨_, by assumption, rfl⟩

end Verif.Crny
