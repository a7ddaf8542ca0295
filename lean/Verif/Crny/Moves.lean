import Verif.Crny.Support

/-!
# One move of the query machine
-/

set_option linter.unusedVariables false
set_option linter.unusedSimpArgs false

namespace Verif.Crny

/-- The looks at chronyd among effects. -/
def saws : List Out → List Proc
  | [] => []
  | .saw p :: o => p :: saws o
  | _ :: o => saws o

theorem saws_cons (x : Out) (o : List Out) (h : ∀ p, x ≠ .saw p) : saws (x :: o) = saws o := by
  cases x with
  | saw p => exact absurd rfl (h p)
  | _ => rfl

theorem saws_append (a b : List Out) : saws (a ++ b) = saws a ++ saws b := by
  induction a with
  | nil => rfl
  | cons x a ih => cases x <;> simp [saws, ih]

/-- Between events. -/
structure Inv (m : Mod) : Prop where
  noS : NoSel m.state
  noN : NoSel m.next
  cc : m.next.cc = m.state.cc
  st : m.next.st = m.state.st

/-- A move of the machine. -/
structure Mv (env : Env) (m m' : Mod) (upd : Bool) (o : List Out) : Prop where
  conf : m'.conf = m.conf
  flags : m'.flags = m.flags
  phase : m'.phase = m.phase
  blocked : m'.blocked = m.blocked
  state : m'.state = m.state
  noN : NoSel m'.next
  look : (saws o = [] ∧ m'.must = m.must ∧ m'.cannot = m.cannot ∧ m'.next.cc = m.state.cc) ∨
    (saws o = [env.look .next] ∧ m'.must = (!m.conf.control && decide (env.look .next = .normal)) ∧
      m'.cannot = (!m.conf.control && decide (env.look .next = .minusX)) ∧
      m'.next.cc = decide (env.look .next = .normal) ∧ (m.state.cc = decide (env.look .next = .normal) ∨ upd = true))
  quiet : ∀ x ∈ o, (∃ p, x = .saw p) ∨ ∃ c s i, x = .sent c s i
  dis : m'.next.st = .disabled → m.state.st = .disabled ∨ env.look .next = .absent ∧ .saw .absent ∈ o ∨
    env.conn = .error 92 ∧ saws o = []

/-- A move without a look, that changes nothing but the query. -/
theorem Mv.plain {env : Env} {m m' : Mod} {upd : Bool} {o : List Out} (h : Inv m) (conf : m'.conf = m.conf)
    (flags : m'.flags = m.flags) (phase : m'.phase = m.phase) (blocked : m'.blocked = m.blocked)
    (state : m'.state = m.state) (noN : NoSel m'.next) (must : m'.must = m.must) (cannot : m'.cannot = m.cannot)
    (cc : m'.next.cc = m.state.cc) (ho : ∀ x ∈ o, ∃ c s i, x = .sent c s i)
    (hd : m'.next.st = .disabled → m.state.st = .disabled ∨ env.conn = .error 92) :
    Mv env m m' upd o := by
  have hs : saws o = [] := by
    clear hd
    induction o with
    | nil => rfl
    | cons x o ih =>
      obtain ⟨c, s, i, rfl⟩ := ho x List.mem_cons_self
      exact ih (fun y hy => ho y (List.mem_cons_of_mem _ hy))
  exact ⟨conf, flags, phase, blocked, state, noN, Or.inl ⟨hs, must, cannot, cc⟩, fun x hx => Or.inr (ho x hx),
    fun hx => (hd hx).imp_right (fun h => Or.inr ⟨h, hs⟩)⟩

/-- What `issue` and the end of a request may change. -/
theorem goOn_issue (upd : Bool) (q : Query) (m : Mod) (env : Env) :
    let r := goOn upd q (issue m env)
    r.1.conf = m.conf ∧ r.1.flags = m.flags ∧ r.1.phase = m.phase ∧ r.1.blocked = m.blocked ∧ r.1.state = m.state ∧
    r.1.next = m.next ∧ r.1.must = m.must ∧ r.1.cannot = m.cannot ∧ (∀ x ∈ r.2.2, ∃ c s i, x = .sent c s i) ∧
    (r.2.1 = upd ∨ r.2.1 = true) ∧ (r.1.query = q ∨ r.1.query = .sleepDis ∧ r.1.sock = false) ∧ r.1.srcIdx = m.srcIdx ∧
    (r.1.sock = true → m.sock = true) := by
  have hr : issue m env = (m, false, []) ∨
      issue m env = ({ m with expiry := env.now + 2000000000 }, true, [.sent m.reqCmd m.reqSeq m.srcIdx]) ∨
      issue m env = ({ m with expiry := env.now + 2000000000, sock := false }, false, []) ∨
      issue m env = ({ m with expiry := env.now + 2000000000 }, false, []) := by
    unfold issue
    by_cases hs : m.sock
    · rw [if_neg (fun h => h hs)]
      dsimp only
      match env.send with
      | .ok => exact Or.inr (Or.inl rfl)
      | .dead => exact Or.inr (Or.inr (Or.inl rfl))
      | .fail => exact Or.inr (Or.inr (Or.inr rfl))
    · rw [if_pos hs]
      exact Or.inl rfl
  rcases hr with hr | hr | hr | hr <;> rw [hr] <;> simp [goOn, disconnect]

theorem stay {env : Env} {m : Mod} (h : Inv m) (q : Query) : Mv env m { m with query := q } false [] :=
  .plain h rfl rfl rfl rfl rfl h.noN rfl rfl h.cc (by simp) (fun x => Or.inl (h.st ▸ x))

theorem stay' {env : Env} {m : Mod} (h : Inv m) : Mv env m m false [] :=
  .plain h rfl rfl rfl rfl rfl h.noN rfl rfl h.cc (by simp) (fun x => Or.inl (h.st ▸ x))

/-- A request is issued from a module `n` that differs in the query and in sources only. -/
theorem goOn_mv {env : Env} {m n : Mod} (h : Inv m) (upd : Bool) (q : Query) (conf : n.conf = m.conf)
    (flags : n.flags = m.flags) (phase : n.phase = m.phase) (blocked : n.blocked = m.blocked)
    (state : n.state = m.state) (noN : NoSel n.next) (must : n.must = m.must) (cannot : n.cannot = m.cannot)
    (cc : n.next.cc = m.state.cc) (hd : n.next.st = .disabled → m.state.st = .disabled) :
    Mv env m (goOn upd q (issue n env)).1 (goOn upd q (issue n env)).2.1 (goOn upd q (issue n env)).2.2 := by
  have g := goOn_issue upd q n env
  dsimp only at g
  obtain ⟨g1, g2, g3, g4, g5, g6, g7, g8, g9, -⟩ := g
  refine .plain h (g1.trans conf) (g2.trans flags) (g3.trans phase) (g4.trans blocked) (g5.trans state) ?_
    (g7.trans must) (g8.trans cannot) ?_ g9 ?_
  · rw [g6]; exact noN
  · rw [g6]; exact cc
  · rw [g6]; exact fun x => Or.inl (hd x)

theorem zero_clear : Peer.zero.selected = false ∧ Peer.zero.shortlist = false ∧ Peer.zero.self = false := ⟨rfl, rfl, rfl⟩

/-- Closeness of a module in the course of a move without a look. -/
structure Near (m n : Mod) : Prop where
  conf : n.conf = m.conf
  flags : n.flags = m.flags
  phase : n.phase = m.phase
  blocked : n.blocked = m.blocked
  state : n.state = m.state
  st : n.next.st ≠ .slave
  must : n.must = m.must
  cannot : n.cannot = m.cannot
  cc : n.next.cc = m.state.cc
  dis : n.next.st = .disabled → m.state.st = .disabled

theorem Near.of {m : Mod} (h : Inv m) : Near m m :=
  ⟨rfl, rfl, rfl, rfl, rfl, h.noN.st, rfl, rfl, h.cc, fun x => h.st ▸ x⟩

def Clear (ps : List Peer) : Prop := ∀ p ∈ ps, p.selected = false ∧ p.shortlist = false ∧ p.self = false

theorem issueDatum_mv {env : Env} {m n : Mod} (h : Inv m) (near : Near m n) (cl : Clear n.next.peers) (q : Query) {r}
    (hr : (issueDatum n env).map (goOn false q) = some r) : Mv env m r.1 r.2.1 r.2.2 := by
  unfold issueDatum at hr
  split at hr
  · cases hr
  · rename_i n' hn
    obtain ⟨p, hp, rfl⟩ := setPeer_spec hn
    simp only [Option.map_some, Option.some.injEq] at hr
    subst hr
    exact goOn_mv h false q near.conf near.flags near.phase near.blocked near.state
      ⟨near.st, set_clear cl zero_clear⟩ near.must near.cannot near.cc near.dis

theorem nextSource_mv {env : Env} {m n : Mod} (h : Inv m) (near : Near m n) (cl : Clear n.next.peers) (q : Query) {r}
    (hr : nextSource n env q = some r) : Mv env m r.1 r.2.1 r.2.2 := by
  unfold nextSource at hr
  dsimp only at hr
  split at hr
  · split at hr
    · cases hr
    · rename_i s hs
      have ps := parse_some ⟨near.st, cl⟩ hs
      cases hr
      refine .plain h near.conf near.flags near.phase near.blocked near.state ps.1 near.must near.cannot
        (ps.2.2.1.trans near.cc) (by simp) ?_
      intro hd
      rw [parse_nosel cl] at hs
      split at hs
      · cases hs
        dsimp only at hd
        split at hd <;> cases hd
      · cases hs
  · exact issueDatum_mv (n := { n with srcIdx := n.srcIdx + 1 }) h
      ⟨near.conf, near.flags, near.phase, near.blocked, near.state, near.st, near.must, near.cannot, near.cc, near.dis⟩ cl q hr

/-! ## The states of the query -/

theorem atConnect_mv {env : Env} {m : Mod} (h : Inv m) {r} (hr : atConnect m env = some r) : Mv env m r.1 r.2.1 r.2.2 := by
  unfold atConnect at hr
  split at hr
  · cases hr
  · split at hr
    · cases hr
      exact goOn_mv h false .sysInfo rfl rfl rfl rfl rfl h.noS rfl rfl rfl id
    · cases hr
      exact stay h _
    · rename_i rc hc
      cases hr
      refine .plain h rfl rfl rfl rfl rfl (parseError_nosel h.noN rc) rfl rfl h.cc (by simp) ?_
      intro hd
      right
      rw [hc]
      unfold parseError at hd
      dsimp only at hd
      split at hd
      · simpa using by assumption
      · split at hd <;> cases hd

theorem atWait_mv {env : Env} {m : Mod} (h : Inv m) {e : QEv} {r} (hr : atWait m env e = some r) :
    Mv env m r.1 r.2.1 r.2.2 := by
  cases e with
  | traffic a =>
    simp only [atWait] at hr
    split at hr
    · cases hr
      exact .plain h rfl rfl rfl rfl rfl h.noN rfl rfl h.cc (by simp) (fun x => Or.inl (h.st ▸ x))
    · cases hr
      exact goOn_mv h false .sysInfo rfl rfl rfl rfl rfl h.noS rfl rfl rfl id
  | timeout => cases hr; exact stay h _
  | run => cases hr; exact stay' h
  | tick => cases hr; exact stay' h

/-- What the look at chronyd during a poll does. -/
theorem nextControl_spec {m : Mod} (h : Inv m) (p : Proc) :
    let c := nextControl m p
    c.1.conf = m.conf ∧ c.1.flags = m.flags ∧ c.1.phase = m.phase ∧ c.1.blocked = m.blocked ∧ c.1.state = m.state ∧
    Alike m.next c.1.next ∧ c.1.must = (!m.conf.control && decide (p = .normal)) ∧
    c.1.cannot = (!m.conf.control && decide (p = .minusX)) ∧ c.1.next.cc = decide (p = .normal) ∧
    (m.state.cc = decide (p = .normal) ∨ c.2 = true) ∧ c.1.running = decide (p ≠ .absent) ∧ c.1.query = m.query ∧
    c.1.srcIdx = m.srcIdx ∧ c.1.sock = m.sock ∧ c.1.nextPoll = m.nextPoll ∧
    (c.2 = true → m.state.cc ≠ decide (p = .normal)) := by
  unfold nextControl look
  dsimp only
  split
  · rename_i hc
    exact ⟨rfl, rfl, rfl, rfl, rfl, ⟨rfl, rfl, rfl, rfl, rfl, rfl⟩, rfl, rfl, rfl, Or.inr rfl, by simp, rfl, rfl, rfl, rfl,
      fun _ => hc⟩
  · rename_i hc
    have hc : m.state.cc = decide (p = .normal) := by simpa using hc
    exact ⟨rfl, rfl, rfl, rfl, rfl, .refl _, rfl, rfl, h.cc.trans hc, Or.inl hc, by simp, rfl, rfl, rfl, rfl,
      fun x => nomatch x⟩

theorem atSysInfo_mv {env : Env} {m : Mod} (h : Inv m) {e : QEv} {r} (hr : atSysInfo m env e = some r) :
    Mv env m r.1 r.2.1 r.2.2 := by
  cases e with
  | traffic a =>
    unfold atSysInfo at hr
    dsimp only at hr
    cases hr
    have c := nextControl_spec h (env.look .next)
    dsimp only at c
    obtain ⟨c1, c2, c3, c4, c5, c6, c7, c8, c9, c10, -⟩ := c
    have g := goOn_issue (nextControl m (env.look .next)).2 .count (initReq (nextControl m (env.look .next)).1 14 env) env
    dsimp only at g
    obtain ⟨g1, g2, g3, g4, g5, g6, g7, g8, g9, g10, -⟩ := g
    have hs : saws (goOn (nextControl m (env.look .next)).2 .count
        (issue (initReq (nextControl m (env.look .next)).1 14 env) env)).2.2 = [] := by
      generalize (goOn (nextControl m (env.look .next)).2 .count
        (issue (initReq (nextControl m (env.look .next)).1 14 env) env)).2.2 = o at g9
      induction o with
      | nil => rfl
      | cons x o ih =>
        obtain ⟨c, s, i, rfl⟩ := g9 x List.mem_cons_self
        exact ih (fun y hy => g9 y (List.mem_cons_of_mem _ hy))
    refine ⟨g1.trans c1, g2.trans c2, g3.trans c3, g4.trans c4, g5.trans c5, ?_, Or.inr ⟨?_, g7.trans c7, g8.trans c8, ?_, ?_⟩,
      ?_, ?_⟩
    · rw [g6]; exact h.noN.alike c6
    · show _ :: saws _ = _
      rw [hs]
    · rw [g6]; exact c9
    · rcases c10 with c10 | c10
      · exact Or.inl c10
      · exact Or.inr (g10.elim (fun x => x.trans c10) id)
    · intro x hx
      rcases List.mem_cons.1 hx with rfl | hx
      · exact Or.inl ⟨_, rfl⟩
      · exact Or.inr (g9 x hx)
    · rw [g6]
      intro hd
      exact Or.inl (h.st ▸ c6.st ▸ hd)
  | timeout => cases hr; exact stay h _
  | run => cases hr; exact stay' h
  | tick => cases hr; exact stay' h

theorem handleCount_near {m : Mod} (h : Inv m) (r : Reply) :
    Near m (handleCount m r) ∧ (handleCount m r).next.peers = m.next.peers := by
  unfold handleCount
  split
  · exact ⟨⟨rfl, rfl, rfl, rfl, rfl, h.noN.st, rfl, rfl, h.cc, fun x => h.st ▸ x⟩, rfl⟩
  · exact ⟨.of h, rfl⟩

theorem atCount_mv {env : Env} {m : Mod} (h : Inv m) {e : QEv} {r} (hr : atCount m env e = some r) :
    Mv env m r.1 r.2.1 r.2.2 := by
  cases e with
  | traffic a =>
    have n := handleCount_near h a
    have cl : Clear (handleCount m a).next.peers := by rw [n.2]; exact h.noN.peers
    unfold atCount at hr
    dsimp only at hr
    split at hr
    · exact issueDatum_mv (n := { handleCount m a with srcIdx := 0 }) h
        ⟨n.1.conf, n.1.flags, n.1.phase, n.1.blocked, n.1.state, n.1.st, n.1.must, n.1.cannot, n.1.cc, n.1.dis⟩ cl .datum hr
    · cases hr
      exact .plain h n.1.conf n.1.flags n.1.phase n.1.blocked n.1.state ⟨n.1.st, cl⟩ n.1.must n.1.cannot n.1.cc (by simp)
        (fun x => Or.inl (n.1.dis x))
  | timeout => cases hr; exact stay h _
  | run => cases hr; exact stay' h
  | tick => cases hr; exact stay' h

theorem atDatum_mv {env : Env} {m : Mod} (h : Inv m) {e : QEv} {r} (hr : atDatum m env e = some r) :
    Mv env m r.1 r.2.1 r.2.2 := by
  cases e with
  | traffic a =>
    unfold atDatum at hr
    dsimp only at hr
    split at hr
    · cases hr
    · rename_i n hn
      unfold handleDatum at hn
      split at hn
      · split at hn <;> cases hn
      · cases hn
        exact nextSource_mv h (.of h) h.noN.peers .datum hr
    · rename_i n hn
      unfold handleDatum at hn
      split at hn
      · split at hn
        · cases hn
        · rename_i n' hn'
          obtain ⟨p, hp, rfl⟩ := setPeer_spec hn'
          cases hn
          unfold issueStats at hr
          split at hr
          · cases hr
          · rename_i n'' hn''
            obtain ⟨p', hp', rfl⟩ := setPeer_spec hn''
            simp only [Option.map_some, Option.some.injEq] at hr
            subst hr
            refine goOn_mv h false .stats rfl rfl rfl rfl rfl ⟨h.noN.st, ?_⟩ rfl rfl h.cc (fun x => h.st ▸ x)
            show Clear _
            simp only [initReq, List.set_set]
            exact set_clear h.noN.peers zero_clear
      · cases hn
  | timeout => cases hr; exact stay h _
  | run => cases hr; exact stay' h
  | tick => cases hr; exact stay' h

theorem set_same_clear {ps : List Peer} {i : Nat} {p : Peer} {q : Peer} (h : Clear ps) (hp : ps[i]? = some p)
    (hq : q.selected = p.selected ∧ q.shortlist = p.shortlist ∧ q.self = p.self) : Clear (ps.set i q) := by
  have := h p (List.mem_of_getElem? hp)
  exact set_clear h ⟨hq.1.trans this.1, hq.2.1.trans this.2.1, hq.2.2.trans this.2.2⟩

theorem handleStats_near {env : Env} {m n : Mod} (h : Inv m) (a : Reply) {b : Bool}
    (hn : handleStats m a env = some (n, b)) : Near m n ∧ Clear n.next.peers := by
  unfold handleStats at hn
  split at hn
  · split at hn
    · cases hn
    · rename_i n' hn'
      obtain ⟨p, hp, rfl⟩ := setPeer_spec hn'
      have cl := set_same_clear (q := { p with meas := a.meas }) h.noN.peers hp ⟨rfl, rfl, rfl⟩
      split at hn
      · cases hn
        exact ⟨⟨rfl, rfl, rfl, rfl, rfl, h.noN.st, rfl, rfl, h.cc, fun x => h.st ▸ x⟩, cl⟩
      · cases hn
        exact ⟨⟨rfl, rfl, rfl, rfl, rfl, h.noN.st, rfl, rfl, h.cc, fun x => h.st ▸ x⟩, cl⟩
  · cases hn
    exact ⟨.of h, h.noN.peers⟩

theorem atStats_mv {env : Env} {m : Mod} (h : Inv m) {e : QEv} {r} (hr : atStats m env e = some r) :
    Mv env m r.1 r.2.1 r.2.2 := by
  cases e with
  | traffic a =>
    unfold atStats at hr
    dsimp only at hr
    split at hr
    · cases hr
    · rename_i n hn
      have := handleStats_near h a hn
      exact nextSource_mv h this.1 this.2 .stats hr
    · rename_i n hn
      have := handleStats_near h a hn
      cases hr
      exact goOn_mv h false .ntp this.1.conf this.1.flags this.1.phase this.1.blocked this.1.state ⟨this.1.st, this.2⟩
        this.1.must this.1.cannot this.1.cc this.1.dis
  | timeout => cases hr; exact stay h _
  | run => cases hr; exact stay' h
  | tick => cases hr; exact stay' h

theorem handleNtp_near {m n : Mod} (h : Inv m) (a : Reply) (hn : handleNtp m a = some n) :
    Near m n ∧ Clear n.next.peers := by
  unfold handleNtp at hn
  split at hn
  · obtain ⟨p, hp, rfl⟩ := setPeer_spec hn
    exact ⟨⟨rfl, rfl, rfl, rfl, rfl, h.noN.st, rfl, rfl, h.cc, fun x => h.st ▸ x⟩,
      set_same_clear h.noN.peers hp ⟨rfl, rfl, rfl⟩⟩
  · cases hn
    exact ⟨.of h, h.noN.peers⟩

theorem atNtp_mv {env : Env} {m : Mod} (h : Inv m) {e : QEv} {r} (hr : atNtp m env e = some r) :
    Mv env m r.1 r.2.1 r.2.2 := by
  cases e with
  | traffic a =>
    unfold atNtp at hr
    dsimp only at hr
    split at hr
    · cases hr
    · rename_i n hn
      have := handleNtp_near h a hn
      exact nextSource_mv h this.1 this.2 .datum hr
  | timeout => cases hr; exact stay h _
  | run => cases hr; exact stay' h
  | tick => cases hr; exact stay' h

theorem atSleepDis_mv {env : Env} {m : Mod} (h : Inv m) {e : QEv} {r} (hr : atSleepDis m env e = some r) :
    Mv env m r.1 r.2.1 r.2.2 := by
  unfold atSleepDis at hr
  split at hr
  · have c := nextControl_spec h (env.look .next)
    dsimp only at c
    obtain ⟨c1, c2, c3, c4, c5, c6, c7, c8, c9, c10, c11, -⟩ := c
    dsimp only at hr
    split at hr
    · cases hr
      refine ⟨c1, c2, c3, c4, c5, h.noN.alike c6, Or.inr ⟨rfl, c7, c8, c9, c10⟩, ?_, ?_⟩
      · intro x hx
        exact Or.inl ⟨_, List.mem_singleton.1 hx⟩
      · intro hd
        exact Or.inl (h.st ▸ c6.st ▸ hd)
    · rename_i hrun
      cases hr
      refine ⟨c1, c2, c3, c4, c5, parseError_nosel (h.noN.alike c6) 92, Or.inr ⟨rfl, c7, c8, c9, c10⟩, ?_, ?_⟩
      · intro x hx
        exact Or.inl ⟨_, List.mem_singleton.1 hx⟩
      · intro _
        have : env.look .next = .absent := by
          rw [c11] at hrun
          simpa using hrun
        refine Or.inr (Or.inl ⟨this, ?_⟩)
        rw [this]
        exact List.mem_singleton.2 rfl
  · cases hr
    exact stay' h

theorem atSleepCon_mv {env : Env} {m : Mod} (h : Inv m) {r} (hr : atSleepCon m env = some r) :
    Mv env m r.1 r.2.1 r.2.2 := by
  unfold atSleepCon at hr
  split at hr
  · have g : Mv env m (goOn false .sysInfo (issueSysInfo m env)).1 (goOn false .sysInfo (issueSysInfo m env)).2.1
        (goOn false .sysInfo (issueSysInfo m env)).2.2 := goOn_mv h false .sysInfo rfl rfl rfl rfl rfl h.noS rfl rfl rfl id
    unfold goOn at g
    dsimp only at hr
    split at hr
    · cases hr
      rename_i hi
      rw [if_pos hi] at g
      exact ⟨g.conf, g.flags, g.phase, g.blocked, g.state, g.noN, g.look, g.quiet, g.dis⟩
    · cases hr
      rename_i hi
      rw [if_neg hi] at g
      exact g
  · cases hr
    exact stay' h

/-- A move of the machine. -/
theorem machine_mv {env : Env} {m : Mod} (h : Inv m) {e : QEv} {r} (hr : machine m env e = some r) :
    Mv env m r.1 r.2.1 r.2.2 := by
  unfold machine at hr
  dsimp only at hr
  split at hr
  · exact atConnect_mv h hr
  · exact atWait_mv h hr
  · exact atSysInfo_mv h hr
  · exact atCount_mv h hr
  · exact atDatum_mv h hr
  · exact atStats_mv h hr
  · exact atNtp_mv h hr
  · exact atSleepDis_mv h hr
  · exact atSleepCon_mv h hr

end Verif.Crny
