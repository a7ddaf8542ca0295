import Verif.Crny.Props2

/-!
# Properties of the chrony module: memory, constraints and late replies
-/

set_option linter.unusedVariables false
set_option linter.unusedSimpArgs false

namespace Verif.Crny

/-! ## C133 -/

/-- **C133**: no sequence of events and replies makes the module fail an assertion or use memory it may not. -/
def C133_statement : Prop :=
  ∀ (c : Conf) (p : Proc) (es : List Ev), (run (start c p).1 es).isSome = true

/-- A negative number of sources, followed by answers that there is no such source. -/
def w133 : List Ev :=
  opened .normal ++ [.traffic (env0 6 .normal) (answer [] (33, 7, 0)),
    .traffic (env0 7 .normal) { answer [] (14, 7, 0) with count := -1 }] ++
  List.replicate 32 (.traffic (env0 8 .normal) (answer [] (15, 7, 0)))

theorem C133_violated : ¬ C133_statement := by
  intro h
  have := h confN .normal w133
  have hc : (run (start confN .normal).1 w133).isSome = false := by decide +kernel
  rw [hc] at this
  cases this

/-- Without any reply: being the determinant for clustering after a poll without a selected source. -/
theorem C133_violated_cluster : ¬ ∀ (c : Conf) (p : Proc) (es : List Ev),
    (∀ e ∈ es, match e with | .traffic _ r => 0 ≤ r.count | _ => True) → (run (start c p).1 es).isSome = true := by
  intro h
  have := h confN .normal (opened .normal ++ [.traffic (env0 6 .normal) (answer [server] (33, 7, 0)),
    .traffic (env0 7 .normal) (answer [server] (14, 7, 0)), .traffic (env0 8 .normal) (answer [server] (15, 7, 0)),
    .traffic (env0 9 .normal) (answer [server] (34, 7, 0)), .traffic (env0 10 .normal) (answer [server] (57, 7, 0)),
    .control ⟨false, true⟩ ⟨false, true⟩ (env0 11 .normal), .log]) (by
      intro e he
      simp only [opened, List.cons_append, List.nil_append, List.mem_cons, List.not_mem_nil, or_false] at he
      rcases he with rfl | rfl | rfl | rfl | rfl | rfl | rfl | rfl | rfl <;> simp [answer])
  have hc : (run (start confN .normal).1 (opened .normal ++ [.traffic (env0 6 .normal) (answer [server] (33, 7, 0)),
    .traffic (env0 7 .normal) (answer [server] (14, 7, 0)), .traffic (env0 8 .normal) (answer [server] (15, 7, 0)),
    .traffic (env0 9 .normal) (answer [server] (34, 7, 0)), .traffic (env0 10 .normal) (answer [server] (57, 7, 0)),
    .control ⟨false, true⟩ ⟨false, true⟩ (env0 11 .normal), .log])).isSome = false := by decide +kernel
  rw [hc] at this
  cases this

/-- **C133, the part that holds.** It is so if no reply says that there is a negative number of sources and the module is not
made the determinant for clustering. Replies may otherwise be anything, at any time. Missing: the two exceptions. -/
theorem C133_partial (c : Conf) (p : Proc) (es : List Ev) (h : ∀ e ∈ es, Tame e) : (run (start c p).1 es).isSome = true := by
  obtain ⟨m, tr, hr, -⟩ := run_safe h (start_safe c p)
  rw [hr]
  rfl

example : ∀ e ∈ opened .normal ++ [.traffic (env0 6 .normal) ⟨9, 1, 77, 3, 400, 8, 8, true, 0, 9⟩, .lost (env0 7 .absent), .log, .step,
    .control ⟨true, false⟩ ⟨true, true⟩ (env0 8 .normal)], Tame e := by
  intro e he
  simp only [opened, List.cons_append, List.nil_append, List.mem_cons, List.not_mem_nil, or_false] at he
  rcases he with rfl | rfl | rfl | rfl | rfl | rfl | rfl <;> simp [Tame]

/-! ## C134 -/

/-- What the engine knows: that the module must be selected (as it was at the start, or as it was last told). -/
def knownMust (c : Conf) (p : Proc) (o : List Out) : Bool :=
  match lastTold o with
  | some t => t.2.1
  | none => !c.control && decide (p = .normal)

/-- **C134**: without control of chronyd, when the module rests after a poll, the engine knows that the module must be selected
exactly if chronyd was last seen to discipline the clock. -/
def C134_statement : Prop :=
  ∀ (c : Conf) (p : Proc) (es : List Ev) (m : Mod) (tr : List Entry), c.control = false → (∀ e ∈ es, Tame e) →
    run (start c p).1 es = some (m, tr) → m.query = .sleepCon →
    knownMust c p (effects (start c p).2 tr) = decide (lastSeen (effects (start c p).2 tr) = some .normal)

/-- Chronyd with `-x`, polled; restarted without it. -/
def w134 : List Ev :=
  opened .minusX ++ [.traffic (env0 6 .minusX) (answer [server] (33, 7, 0)), .traffic (env0 7 .minusX) (answer [server] (14, 7, 0)),
    .traffic (env0 8 .minusX) (answer [server] (15, 7, 0)), .traffic (env0 9 .minusX) (answer [server] (34, 7, 0)),
    .traffic (env0 10 .minusX) (answer [server] (57, 7, 0)), .lost (env0 11 .normal), .tick (env0 2000000000 .normal),
    .tick (env0 2000000001 .normal)]

/-- The answers to the poll after that. -/
def w134r : List Ev :=
  [.traffic (env0 6 .normal) (answer [server] (33, 7, 0)), .traffic (env0 6 .normal) (answer [server] (14, 7, 0)),
    .traffic (env0 6 .normal) (answer [server] (15, 7, 0)), .traffic (env0 6 .normal) (answer [server] (34, 7, 0)),
    .traffic (env0 6 .normal) (answer [server] (57, 7, 0))]

/-- The engine is not told that the module must now be selected. -/
theorem C134_violated : ¬ C134_statement := by
  intro h
  have hc : check (run (start confN .minusX).1 (w134 ++ w134r)) (fun x => x.1.query = .sleepCon ∧
      knownMust confN .minusX (effects (start confN .minusX).2 x.2) = false ∧
      lastSeen (effects (start confN .minusX).2 x.2) = some .normal) = true := by decide +kernel
  obtain ⟨⟨m, tr⟩, hr, hx⟩ := witness hc
  simp only [decide_eq_true_eq] at hx
  have := h confN .minusX (w134 ++ w134r) m tr rfl (by
    intro e he
    simp only [w134, w134r, opened, List.cons_append, List.nil_append, List.mem_cons, List.not_mem_nil, or_false] at he
    rcases he with rfl | rfl | rfl | rfl | rfl | rfl | rfl | rfl | rfl | rfl | rfl | rfl | rfl | rfl | rfl <;> simp [Tame, answer]) hr hx.1
  rw [hx.2.1, hx.2.2] at this
  cases this

/-- The constraints that go with how chronyd was last seen. -/
structure Fits (q : Proc) (mu ca : Bool) : Prop where
  must : mu = decide (q = .normal)
  cannot : q = .minusX → ca = true
  only : ca = true → q ≠ .normal

theorem lastSeen_append (a b : List Out) : lastSeen (a ++ b) = (lastSeen b).or (lastSeen a) := by
  unfold lastSeen
  rw [List.filterMap_append, List.getLast?_append]

theorem Fits.look (q : Proc) {c : Bool} (hc : c = false) : Fits q (!c && decide (q = .normal)) (!c && decide (q = .minusX)) := by
  subst hc
  cases q <;> exact ⟨by decide, by decide, by decide⟩

theorem stateChange_must (m : Mod) : ((stateChange m).1.must = m.must ∧ (stateChange m).1.cannot = m.cannot) ∨
    (m.next.st ≠ m.state.st ∧ m.next.st = .disabled ∧ (stateChange m).1.must = false ∧ (stateChange m).1.cannot = true) := by
  unfold stateChange
  dsimp only
  split
  · rename_i h
    exact Or.inr ⟨h.1, h.2.1, rfl, rfl⟩
  · exact Or.inl ⟨rfl, rfl⟩

theorem setBlock_must (m : Mod) (b : Bool) : (setBlock m b).1.must = m.must ∧ (setBlock m b).1.cannot = m.cannot := by
  unfold setBlock
  split <;> exact ⟨rfl, rfl⟩

/-- The constraints after an update, without control. -/
theorem Adv.fits {env : Env} {m n m' : Mod} {o o' outs : List Out} (h : m.conf.control = false)
    (hno : env.conn ≠ .error 92) (a : Adv env m n m' o o' outs) {q : Proc} (hf : Fits q m.must m.cannot) :
    Fits ((lastSeen outs).getD q) m'.must m'.cannot := by
  obtain ⟨upd, mv⟩ := a.mv
  have key : ∀ {q' : Proc}, ((saws o = [] ∧ q' = q) ∨ (saws o = [q'])) → Fits q' n.must n.cannot := by
    intro q' hq
    rcases mv.look with l | l
    · rcases hq with ⟨-, rfl⟩ | hq
      · rw [l.2.1, l.2.2.1]; exact hf
      · rw [l.1] at hq; cases hq
    · rcases hq with hq | hq
      · rw [l.1] at hq; exact nomatch hq.1
      · rw [l.1] at hq
        cases hq
        rw [l.2.1, l.2.2.1]
        exact .look _ h
  have seen : (saws o = [] ∧ (lastSeen o).getD q = q) ∨ saws o = [(lastSeen o).getD q] := by
    unfold lastSeen
    rw [← saws_seen]
    rcases mv.look with l | l
    · rw [l.1]; exact Or.inl ⟨rfl, rfl⟩
    · rw [l.1]; exact Or.inr rfl
  have hn := key seen
  rcases a.same with ⟨rfl, rfl, -⟩ | hu
  · rw [a.outs, List.append_nil]; exact hn
  · have u := updateState_spec hu
    have hnc : n.conf.control = false := by rw [mv.conf]; exact h
    have co := changeIf_off hnc env
    obtain ⟨o2, ho', h2⟩ := updateState_outs mv.noN hu
    have hseen : lastSeen outs = lastSeen o := by
      unfold lastSeen
      rw [a.outs, ho']
      simp only [List.filterMap_append, co.2.2, List.nil_append]
      rw [filterMap_none (o := o2) (fun x hx => by rw [h2 x hx]; rfl),
        filterMap_none (o := (stateChange (changeIf n env).1).2) (fun x hx => by rw [stateChange_told _ x hx]; rfl)]
      simp
    rw [hseen, u.2.2.2.2.1, u.2.2.2.2.2.1]
    -- the change of clock control
    have hc : Fits ((lastSeen o).getD q) (changeIf n env).1.must (changeIf n env).1.cannot := by
      by_cases hcc : n.next.cc ≠ n.state.cc
      · have hcg : changeIf n env = onChange n env := by unfold changeIf; rw [if_pos hcc]
        rw [hcg]
        have hk : (constrain (setBlock n n.next.cc).1).conf.control = false := by
          rw [(constrain_kept _).conf, (setBlock_upd n n.next.cc).conf]; exact hnc
        have pb := putBack_off hk env
        show Fits _ (putBack (constrain (setBlock n n.next.cc).1) env).1.must (putBack (constrain (setBlock n n.next.cc).1) env).1.cannot
        rw [pb.2.2.1, pb.2.2.2]
        have hcn : n.next.cc = decide ((lastSeen o).getD q = .normal) := by
          rcases mv.look with l | l
          · rw [l.2.2.2, mv.state] at hcc; exact absurd rfl hcc
          · rcases seen with s | s
            · rw [l.1] at s; exact nomatch s.1
            · rw [l.1] at s
              simp only [List.cons.injEq, and_true] at s
              rw [← s]
              exact l.2.2.2.1
        unfold constrain
        rw [(setBlock_upd n n.next.cc).conf, (setBlock_state n n.next.cc).2.1, hcn]
        generalize (lastSeen o).getD q = w at hn
        split
        · rw [(setBlock_must n _).1, (setBlock_must n _).2]; exact hn
        · split
          · rename_i hx
            have hw : w = .normal := by simpa using hx.1
            subst hw
            exact ⟨rfl, (fun h => nomatch h), (fun h => nomatch h)⟩
          · split
            · rename_i hx
              have hw : w ≠ .normal := by simpa using hx.1
              exact ⟨by simp [hw], fun _ => rfl, fun _ => hw⟩
            · rw [(setBlock_must n _).1, (setBlock_must n _).2]; exact hn
      · have hcg : changeIf n env = (n, []) := by unfold changeIf; rw [if_neg hcc]
        rw [hcg]; exact hn
    rcases stateChange_must (changeIf n env).1 with x | x
    · rw [x.1, x.2]; exact hc
    · rw [x.2.2.1, x.2.2.2]
      have cu := changeIf_upd n env
      have hd : n.next.st = .disabled := by rw [← cu.1.next.st]; exact x.2.1
      have hs : n.next.st ≠ m.state.st := by
        rw [← cu.1.next.st, ← mv.state, ← cu.2]; exact x.1
      rcases mv.dis hd with y | y | y
      · exact absurd (hd.trans y.symm) hs
      · have hm : .absent ∈ saws o := by
          rw [saws_seen]; exact List.mem_filterMap.2 ⟨_, y.2, rfl⟩
        have : (lastSeen o).getD q = .absent := by
          rcases seen with s | s
          · rw [s.1] at hm; cases hm
          · rw [s] at hm
            exact (List.mem_singleton.1 hm).symm
        rw [this]
        exact ⟨rfl, by decide, by decide⟩
      · exact absurd y.1 hno

theorem runControl_off {m : Mod} (h : m.conf.control = false) (env : Env) :
    (runControl m env).1.must = decide (env.look .first = .normal) ∧ (runControl m env).1.cannot = decide (env.look .first = .minusX) ∧
    (runControl m env).2.filterMap Out.seen = [env.look .first] := by
  unfold runControl
  dsimp only
  split
  · simp [look, h, Out.seen]
  · rw [if_neg (by simp [h])]
    split
    · simp [look, h, Out.seen]
    · refine ⟨by simp [look, h], by simp [look, h], ?_⟩
      split <;> rfl

/-- Whether the connection would be refused for want of the protocol. -/
def Ev.proto (e : Ev) : Prop := ¬ e.noProto

theorem step_fits {m m' : Mod} {e : Ev} {outs : List Out} (i : Inv m) (h : m.conf.control = false) (he : e.proto) {q : Proc}
    (hf : Fits q m.must m.cannot) (hs : step m e = some (m', outs)) :
    m'.conf.control = false ∧ Fits ((lastSeen outs).getD q) m'.must m'.cannot := by
  have conf : ∀ {env : Env} {k n : Mod} {a b d : List Out}, k.conf.control = false → Adv env k n m' a b d → m'.conf.control = false := by
    intro env k n a b d hk ad
    obtain ⟨upd, mv⟩ := ad.mv
    rcases ad.same with ⟨rfl, -⟩ | hu
    · rw [mv.conf]; exact hk
    · rw [(updateState_spec hu).1.conf, mv.conf]; exact hk
  cases step_kind i hs with
  | idle hm ho => subst hm ho; exact ⟨h, hf⟩
  | ran env n o o' outs' a ho =>
    have pr := prepared_state m env
    have hp : (prepared m env).conf.control = false := by rw [pr.2.1]; exact h
    have rc := runControl_off (m := { m with phase := true, nextPoll := env.now, query := .sleepDis, state := { m.state with unsafe_ := false } }) h env
    have hpf : Fits (env.look .first) (prepared m env).must (prepared m env).cannot := by
      show Fits _ (runControl _ env).1.must (runControl _ env).1.cannot
      rw [rc.1, rc.2.1]
      have := Fits.look (env.look .first) (c := false) rfl
      simpa using this
    refine ⟨conf hp a, ?_⟩
    have := a.fits hp he hpf
    rw [ho, lastSeen_append]
    have hl : lastSeen (preparedOuts m env) = some (env.look .first) := by
      unfold lastSeen preparedOuts
      rw [rc.2.2]; rfl
    rw [hl]
    cases hx : lastSeen outs' with
    | none => rw [hx] at this; exact this
    | some w => rw [hx] at this; exact this
  | ticked env n o o' a => exact ⟨conf h a, a.fits h he hf⟩
  | got env r n o o' a => exact ⟨conf h a, a.fits h he hf⟩
  | gone env n o o' a => exact ⟨conf h a, a.fits h he hf⟩
  | asked mask flags env hm =>
    unfold onControl at hm
    dsimp only at hm
    have hl := Fits.look (env.look .first) h
    split at hm
    · split at hm
      · cases hm; exact ⟨h, hl⟩
      · rw [if_pos (by simp [h])] at hm
        cases hm; exact ⟨h, hl⟩
    · cases hm; exact ⟨h, hf⟩
  | stepped hm ho => subst hm ho; exact ⟨h, hf⟩
  | logged hm o1 o2 h1 h2 ho =>
    subst hm
    refine ⟨h, ?_⟩
    have : lastSeen outs = none := by
      unfold lastSeen
      rw [filterMap_none]
      · rfl
      · rw [rtStats_off i.noS.st] at h1
        cases h1
        rw [ho]
        intro x hx
        unfold clustering at h2
        split at h2
        · split at h2
          · cases h2
          · cases h2
            rw [List.mem_singleton.1 hx]; rfl
        · cases h2; cases hx
    rw [this]
    exact hf

/-- **C134, the part that holds.** Whenever the engine is told, the constraints are right for how chronyd was last seen to run:
it must be selected exactly if chronyd disciplines the clock, cannot be if chronyd runs with `-x`, and may be otherwise only
if chronyd does not discipline. Missing: it is not told of constraints alone. Excepted is refusal of the connection with ENOPROTOOPT. -/
theorem C134_partial (c : Conf) (p : Proc) (es : List Ev) (e : Ev) (m : Mod) (tr : List Entry) (o : List Out) (st : St)
    (mu ca : Bool) (hc : c.control = false) (hno : ∀ x ∈ es ++ [e], x.proto)
    (h : run (start c p).1 (es ++ [e]) = some (m, tr)) (ho : tr.getLast?.map Entry.outs = some o) (ht : .told st mu ca ∈ o) :
    ∃ q, lastSeen (effects (start c p).2 tr) = some q ∧ mu = decide (q = .normal) ∧ (q = .minusX → ca = true) ∧
      (ca = true → q ≠ .normal) := by
  have s := start_spec c p
  have inv := run_effects (P := fun m es o => (∀ x ∈ es, x.proto) → Inv m ∧ m.conf.control = false ∧
      ∃ q, lastSeen o = some q ∧ Fits q m.must m.cannot) (es := []) (o := (start c p).2)
    (fun m es o e m' o' hp hs hx => by
      obtain ⟨h1, h2, q, h3, h4⟩ := hp (fun x hx' => hx x (List.mem_append_left _ hx'))
      have sf := step_fits h1 h2 (hx e (List.mem_append_right _ (List.mem_singleton.2 rfl))) h4 hs
      refine ⟨step_inv h1 hs, sf.1, (lastSeen o').getD q, ?_, sf.2⟩
      rw [lastSeen_append, h3]
      cases lastSeen o' <;> rfl)
    (fun _ => ⟨s.1, by rw [s.2.1]; exact hc, p, by
      rw [s.2.2.2.2.2.2.2.1]
      cases p <;> rfl, by
      rw [s.2.2.2.2.2.2.2.2.1, s.2.2.2.2.2.2.2.2.2.1]
      exact .look p hc⟩) h
  obtain ⟨-, -, q, h3, h4⟩ := inv (by simpa using hno)
  obtain ⟨n, tr1, o1, h1, h2, rfl⟩ := run_append h
  simp only [List.getLast?_append, List.getLast?_singleton, Option.some_or, Option.map_some, Option.some.injEq] at ho
  subst ho
  have ao := (step_outs (run_inv s.1 h1) h2).told st mu ca ht
  exact ⟨q, h3, by rw [ao.2.1]; exact h4.must, by rw [ao.2.2]; exact h4.cannot, by rw [ao.2.2]; exact h4.only⟩

example : check (run (start confN .absent).1 [.run (env0 0 .absent), .tick (env0 2000000000 .normal), .tick (env0 2000000001 .normal),
    .traffic (env0 2000000002 .normal) (answer [server] (33, 7, 0)), .traffic (env0 2000000002 .normal) (answer [server] (14, 7, 0)),
    .traffic (env0 2000000002 .normal) (answer [server] (15, 7, 0)), .traffic (env0 2000000002 .normal) (answer [server] (34, 7, 0)),
    .traffic (env0 2000000002 .normal) (answer [server] (57, 7, 0))])
    (fun x => check (x.2.getLast?.map Entry.outs) (fun o => .told .selection true false ∈ o)) = true := by decide +kernel

/-- With control of chronyd, no constraint is ever set. -/
theorem step_free {m m' : Mod} {e : Ev} {outs : List Out} (i : Inv m) (h : m.conf.control = true)
    (hf : m.must = false ∧ m.cannot = false) (hs : step m e = some (m', outs)) :
    m'.conf.control = true ∧ m'.must = false ∧ m'.cannot = false := by
  have lk : ∀ (k : Mod) p, k.conf.control = true → (look k p).1.must = false ∧ (look k p).1.cannot = false := by
    intro k p hk
    simp [look, hk]
  have dc : ∀ (k : Mod) op p ok, k.conf.control = true → (doControl k op p ok).1.must = false ∧ (doControl k op p ok).1.cannot = false := by
    intro k op p ok hk
    unfold doControl
    rw [if_neg (by simp [hk])]
    dsimp only
    split
    · exact lk k p hk
    · cases op <;> exact lk k p hk
  have ct : ∀ (k : Mod) b p ok p' ok', k.conf.control = true → (control k b p ok p' ok').1.must = false ∧
      (control k b p ok p' ok').1.cannot = false := by
    intro k b p ok p' ok' hk
    exact dc _ _ _ _ (by rw [(saveState_kept k p ok).conf]; exact hk)
  have adv : ∀ {env : Env} {k n : Mod} {a b d : List Out}, k.conf.control = true → k.must = false ∧ k.cannot = false →
      Adv env k n m' a b d → m'.conf.control = true ∧ m'.must = false ∧ m'.cannot = false := by
    intro env k n a b d hk hkf ad
    obtain ⟨upd, mv⟩ := ad.mv
    have hn : n.conf.control = true := by rw [mv.conf]; exact hk
    have hnf : n.must = false ∧ n.cannot = false := by
      rcases mv.look with l | l
      · rw [l.2.1, l.2.2.1]; exact hkf
      · rw [l.2.1, l.2.2.1, hk]; exact ⟨rfl, rfl⟩
    rcases ad.same with ⟨rfl, -⟩ | hu
    · exact ⟨hn, hnf⟩
    · have u := updateState_spec hu
      refine ⟨by rw [u.1.conf]; exact hn, ?_⟩
      rw [u.2.2.2.2.1, u.2.2.2.2.2.1]
      have cu := changeIf_upd n env
      have hc : (changeIf n env).1.must = false ∧ (changeIf n env).1.cannot = false := by
        by_cases hcc : n.next.cc ≠ n.state.cc
        · have hcg : changeIf n env = onChange n env := by unfold changeIf; rw [if_pos hcc]
          rw [hcg]
          have hsb : (setBlock n n.next.cc).1.conf.control = true := by rw [(setBlock_upd n n.next.cc).conf]; exact hn
          have hcs : constrain (setBlock n n.next.cc).1 = (setBlock n n.next.cc).1 := by
            unfold constrain; rw [if_pos hsb]
          show (putBack (constrain (setBlock n n.next.cc).1) env).1.must = false ∧ (putBack (constrain (setBlock n n.next.cc).1) env).1.cannot = false
          rw [hcs]
          unfold putBack
          split
          · dsimp only
            split <;> exact ct _ _ _ _ _ _ hsb
          · rw [(setBlock_must n _).1, (setBlock_must n _).2]; exact hnf
        · have hcg : changeIf n env = (n, []) := by unfold changeIf; rw [if_neg hcc]
          rw [hcg]; exact hnf
      have hcc : (changeIf n env).1.conf.control = true := by rw [cu.1.conf]; exact hn
      unfold stateChange
      dsimp only
      rw [if_neg (by simp [hcc])]
      exact hc
  cases step_kind i hs with
  | idle hm ho => subst hm ho; exact ⟨h, hf⟩
  | ran env n o o' outs' a ho =>
    have pr := prepared_state m env
    refine adv (by rw [pr.2.1]; exact h) ?_ a
    unfold prepared runControl
    dsimp only
    have hl := lk { m with phase := true, nextPoll := env.now, query := .sleepDis, state := { m.state with unsafe_ := false } } (env.look .first) h
    have hc := ct (look { m with phase := true, nextPoll := env.now, query := .sleepDis, state := { m.state with unsafe_ := false } } (env.look .first)).1
      m.flags.clockCtrl (env.look .save) (env.script .save) (env.look .op) (env.script .op) h
    split
    · exact hl
    · split
      · exact hc
      · split <;> exact hc
  | ticked env n o o' a => exact adv h hf a
  | got env r n o o' a => exact adv h hf a
  | gone env n o o' a => exact adv h hf a
  | asked mask flags env hm =>
    have k := onControl_kept m mask flags env
    rw [hm] at k
    refine ⟨by rw [k.2.2.2.1]; exact h, ?_⟩
    unfold onControl at hm
    dsimp only at hm
    split at hm
    · split at hm
      · cases hm; exact lk m _ h
      · cases hm
        exact ct _ _ _ _ _ _ h
    · cases hm; exact hf
  | stepped hm ho => subst hm ho; exact ⟨h, hf⟩
  | logged hm => subst hm; exact ⟨h, hf⟩

/-- **C134, with control of chronyd.** The engine is never told of a constraint. -/
theorem C134_controlled (c : Conf) (p : Proc) (es : List Ev) (m : Mod) (tr : List Entry) (st : St) (mu ca : Bool)
    (hc : c.control = true) (h : run (start c p).1 es = some (m, tr)) (ht : .told st mu ca ∈ effects (start c p).2 tr) :
    mu = false ∧ ca = false := by
  have s := start_spec c p
  have inv := run_effects (P := fun m _ o => Inv m ∧ (m.conf.control = true ∧ m.must = false ∧ m.cannot = false) ∧
      ∀ st mu ca, .told st mu ca ∈ o → mu = false ∧ ca = false) (es := []) (o := (start c p).2)
    (fun m es o e m' o' hp hs => by
      have sf := step_free hp.1 hp.2.1.1 hp.2.1.2 hs
      refine ⟨step_inv hp.1 hs, sf, fun st mu ca hx => ?_⟩
      rcases List.mem_append.1 hx with hx | hx
      · exact hp.2.2 st mu ca hx
      · have ao := (step_outs hp.1 hs).told st mu ca hx
        exact ⟨ao.2.1.trans sf.2.1, ao.2.2.trans sf.2.2⟩)
    ⟨s.1, ⟨by rw [s.2.1]; exact hc, by rw [s.2.2.2.2.2.2.2.2.1, hc]; rfl, by rw [s.2.2.2.2.2.2.2.2.2.1, hc]; rfl⟩, by
      rw [s.2.2.2.2.2.2.2.1]
      intro st mu ca hx
      rcases List.mem_cons.1 hx with hx | hx
      · cases hx
      · split at hx
        · cases List.mem_singleton.1 hx
        · cases hx⟩ h
  exact inv.2.2 st mu ca ht

example : check (run (start confC .absent).1 [.run (env0 0 .absent), .tick (env0 2000000000 .normal), .tick (env0 2000000001 .normal),
    .traffic (env0 2000000002 .normal) (answer [server] (33, 7, 0)), .traffic (env0 2000000002 .normal) (answer [server] (14, 7, 0)),
    .traffic (env0 2000000002 .normal) (answer [server] (15, 7, 0)), .traffic (env0 2000000002 .normal) (answer [server] (34, 7, 0)),
    .traffic (env0 2000000002 .normal) (answer [server] (57, 7, 0))])
    (fun x => .told .selection false false ∈ effects (start confC .absent).2 x.2) = true := by decide +kernel

/-! ## C135 -/

/-- A conversation in which requests are answered in the order they were made, those not yet answered first. -/
def talkInOrder (srcs : List Source) : Mod → List (Nat × Nat × Nat) → List Env → Option Mod
  | m, [], _ => some m
  | m, _, [] => some m
  | m, q :: qs, e :: es =>
    match step m (.traffic e (answer srcs q)) with
    | none => none
    | some (m', o') => talkInOrder srcs m' (qs ++ o'.filterMap Out.request) es

/-- **C135**: it does not matter to a poll whether an answer to an earlier poll, which was given up, still comes. -/
def C135_statement : Prop :=
  ∀ (c : Conf) (p q : Proc) (es : List Ev) (m : Mod) (tr : List Entry) (srcs : List Source) (envs : List Env) (r : Mod) (old : Nat × Nat × Nat),
    (∀ e ∈ es, Tame e) → run (start c p).1 es = some (m, tr) → Asking m → old ∈ (effects (start c p).2 tr).filterMap Out.request →
    old.2.1 ≠ m.reqSeq → m.state.cc = decide (q = .normal) → srcs ≠ [] →
    srcs.length ≤ 32 → (∀ s ∈ srcs, s.refClock = false ∧ s.unresolved = false) → (∀ e ∈ envs, Steady q e) →
    3 + 3 * srcs.length ≤ envs.length → talkInOrder srcs m [old, (33, m.reqSeq, 0)] envs = some r →
    r.state.st = if srcs.any Source.server then .selection else .listening

/-- The late answer is taken for the answer to the new request, and every further one for the next. -/
theorem C135_violated : ¬ C135_statement := by
  intro h
  have hc : check (run (start confN .normal).1 (opened .normal ++ [.tick (env0 2000000005 .normal), .tick { env0 2000000006 .normal with rand := 8 }]))
      (fun x => Asking x.1 && x.1.state.cc && ((33, 7, 0) ∈ (effects (start confN .normal).2 x.2).filterMap Out.request) && (7 ≠ x.1.reqSeq) &&
        check (talkInOrder [server] x.1 [(33, 7, 0), (33, x.1.reqSeq, 0)] (List.replicate 6 (env0 2000000007 .normal)))
          (fun r => r.state.st = .listening)) = true := by decide +kernel
  obtain ⟨⟨m, tr⟩, hr, hx⟩ := witness hc
  simp only [Bool.and_eq_true, decide_eq_true_eq] at hx
  obtain ⟨⟨⟨⟨ha, hcc⟩, hold⟩, hseq⟩, hx⟩ := hx
  obtain ⟨r, ht, hf⟩ := witness hx
  have := h confN .normal .normal _ m tr [server] _ r (33, 7, 0) (by
      intro e he
      simp only [opened, List.cons_append, List.nil_append, List.mem_cons, List.not_mem_nil, or_false] at he
      rcases he with rfl | rfl | rfl | rfl <;> trivial) hr ha hold hseq hcc (by simp) (by decide) (by decide)
    (fun e he => by rw [List.eq_of_mem_replicate he]; exact ⟨rfl, rfl⟩) (by decide) ht
  rw [this] at hf
  exact absurd hf (by decide)

/-- **C135, the part that holds.** What such an answer says is not used: two replies with the wrong sequence number
have the same effect, and one that comes between polls has none. Missing: it still moves the query on. -/
theorem C135_partial (m : Mod) (env : Env) (r r' : Reply) :
    (r.seq ≠ m.reqSeq → r'.seq ≠ m.reqSeq → step m (.traffic env r) = step m (.traffic env r')) ∧
    (Inv m → m.query = .sleepCon ∨ m.query = .sleepDis → env.now ≤ m.nextPoll → step m (.traffic env r) = some (m, [])) := by
  constructor
  · intro h h'
    have v : ∀ (k : Nat), valid m r k = false ∧ valid m r' k = false := by
      intro k
      simp [valid, h, h']
    have hm : machine m env (.traffic r) = machine m env (.traffic r') := by
      unfold machine
      simp only [QEv.late, reduceCtorEq, false_and, if_false]
      split
      · rfl
      · rfl
      · rfl
      · simp only [atCount, handleCount, v, Bool.false_eq_true, if_false]
      · simp only [atDatum, handleDatum, v, Bool.false_eq_true, if_false]
      · simp only [atStats, handleStats, v, Bool.false_eq_true, if_false]
      · simp only [atNtp, handleNtp, v, Bool.false_eq_true, if_false]
      · simp only [atSleepDis, reduceCtorEq, or_false]
      · rfl
    simp only [step, hm]
  · intro hi hq hn
    have hm : machine m env (.traffic r) = some (m, false, []) := by
      unfold machine
      simp only [QEv.late, reduceCtorEq, false_and, if_false]
      rcases hq with hq | hq
      · rw [hq]
        simp only [atSleepCon]
        rw [if_neg (by omega)]
      · rw [hq]
        simp only [atSleepDis, reduceCtorEq, or_false]
        rw [if_neg (by omega)]
    simp only [step]
    split
    · rw [hm]
      simp [advance, hi.st]
    · rfl

example : check (run (start confN .normal).1 (opened .normal)) (fun x => x.1.reqSeq = 7) &&
  check (run (start confN .normal).1 (opened .normal ++ [.tick (env0 2000000005 .normal)]))
    (fun x => x.1.query = .sleepCon && x.1.sock) = true := by decide +kernel

end Verif.Crny
