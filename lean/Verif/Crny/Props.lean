import Verif.Crny.Trace

/-!
# Properties of the chrony module
-/

set_option linter.unusedVariables false
set_option linter.unusedSimpArgs false

namespace Verif.Crny

/-! ## Concrete circumstances -/

/-- A result that is there and as described. -/
def check {α : Type} (o : Option α) (f : α → Bool) : Bool :=
  match o with
  | none => false
  | some a => f a

theorem witness {α : Type} {o : Option α} {f : α → Bool} (h : check o f = true) : ∃ a, o = some a ∧ f a = true := by
  cases o with
  | none => cases h
  | some a => exact ⟨a, rfl, h⟩

/-- At a time, chronyd running in one way, everything succeeding. -/
def env0 (now : Int) (p : Proc) : Env := ⟨now, fun _ => p, fun _ => true, .ok, false, .ok, 7, false⟩

/-- Clock control not configured, and configured. -/
def confN : Conf := ⟨false, 1, false⟩
def confC : Conf := ⟨true, 1, false⟩

/-- Up to the request that opens a poll. -/
def opened (p : Proc) : List Ev := [.run (env0 0 p), .tick (env0 5 p)]

/-- A server, and a reference clock. -/
def server : Source := ⟨false, false, false, false, true, 5⟩
def refclk : Source := ⟨false, false, true, false, false, 3⟩

/-- The module is waiting for the first answer of a poll. -/
def Asking (m : Mod) : Prop := m.query = .sysInfo ∧ m.sock = true

instance (m : Mod) : Decidable (Asking m) := inferInstanceAs (Decidable (_ ∧ _))

/-! ## C128 -/

/-- **C128**: when chronyd answers truthfully that it is synchronised to one of its sources, the module becomes slave. -/
def C128_statement : Prop :=
  ∀ (c : Conf) (p q : Proc) (es : List Ev) (m : Mod) (tr : List Entry) (srcs : List Source) (envs : List Env) (r : Mod × List Out),
    run (start c p).1 es = some (m, tr) → (∀ e ∈ es, e ≠ .step) → Asking m → m.state.cc = decide (q = .normal) →
    srcs.length ≤ 32 → (∃ s ∈ srcs, s.selected = true ∧ s.refClock = false) → (∀ e ∈ envs, Steady q e) →
    2 + 3 * srcs.length ≤ envs.length → talk srcs m [.sent 33 m.reqSeq 0] envs = some r → r.1.state.st = .slave

/-- What was learnt of a source is erased before it is used. -/
theorem C128_violated : ¬ C128_statement := by
  intro h
  have hc : check (run (start confN .normal).1 (opened .normal)) (fun x => Asking x.1 && x.1.state.cc &&
      check (talk [{ server with selected := true }] x.1 [.sent 33 x.1.reqSeq 0] (List.replicate 5 (env0 6 .normal)))
        (fun r => r.1.state.st ≠ .slave)) = true := by decide +kernel
  obtain ⟨⟨m, tr⟩, hr, hx⟩ := witness hc
  simp only [Bool.and_eq_true, decide_eq_true_eq] at hx
  obtain ⟨⟨ha, hcc⟩, hx⟩ := hx
  obtain ⟨r, ht, hf⟩ := witness hx
  have := h confN .normal .normal (opened .normal) m tr [{ server with selected := true }] (List.replicate 5 (env0 6 .normal)) r hr
    (by intro e he; simp only [opened, List.mem_cons, List.not_mem_nil, or_false] at he; rcases he with rfl | rfl <;> simp)
    ha hcc (by decide) ⟨_, List.mem_singleton.2 rfl, rfl, rfl⟩
    (fun e he => by rw [List.eq_of_mem_replicate he]; exact ⟨rfl, rfl⟩) (by decide) ht
  simp [this] at hf

/-- **C128, what holds instead.** Whatever happens, the module is never slave, never says so to the engine, and never
gives it statistics or an input for clustering that is valid. -/
theorem C128_never (c : Conf) (p : Proc) (es : List Ev) (m : Mod) (tr : List Entry)
    (h : run (start c p).1 es = some (m, tr)) :
    m.state.st ≠ .slave ∧ ∀ x ∈ effects (start c p).2 tr, (∀ mu ca, x ≠ .told .slave mu ca) ∧ (∀ d, x ≠ .rtStats d) ∧ x ≠ .cluster true := by
  have s := start_spec c p
  have := run_effects (P := fun m _ o => Inv m ∧ ∀ x ∈ o, (∀ mu ca, x ≠ .told .slave mu ca) ∧ (∀ d, x ≠ .rtStats d) ∧ x ≠ .cluster true)
    (es := []) (o := (start c p).2)
    (fun m es o e m' o' hp hs => by
      have i := step_inv hp.1 hs
      have ao := step_outs hp.1 hs
      refine ⟨i, fun x hx => ?_⟩
      rcases List.mem_append.1 hx with hx | hx
      · exact hp.2 x hx
      · refine ⟨fun mu ca he => ?_, fun d he => ao.rt d (he ▸ hx), fun he => ao.cl (he ▸ hx)⟩
        subst he
        exact i.noS.st (ao.told _ _ _ hx).1.symm)
    ⟨s.1, by
      rw [s.2.2.2.2.2.2.2.1]
      intro x hx
      rcases List.mem_cons.1 hx with rfl | hx
      · simp
      · split at hx
        · rw [List.mem_singleton.1 hx]; simp
        · cases hx⟩ h
  exact ⟨this.1.noS.st, this.2⟩

example : check (run (start confN .normal).1 (opened .normal)) (fun x => x.1.state.st = .listening) = true := by decide +kernel

/-! ## C129 -/

/-- **C129**: when chronyd answers truthfully that it has sources, none of them selected yet, the module is in selection
if one of them (other than a reference clock) answers as a server, and listening otherwise. -/
def C129_statement : Prop :=
  ∀ (c : Conf) (p q : Proc) (es : List Ev) (m : Mod) (tr : List Entry) (srcs : List Source) (envs : List Env) (r : Mod × List Out),
    run (start c p).1 es = some (m, tr) → Asking m → m.state.cc = decide (q = .normal) → srcs ≠ [] →
    srcs.length ≤ 32 → (∀ s ∈ srcs, s.selected = false ∧ s.combined = false) → (∀ e ∈ envs, Steady q e) →
    2 + 3 * srcs.length ≤ envs.length → talk srcs m [.sent 33 m.reqSeq 0] envs = some r →
    r.1.state.st = if (srcs.any (fun s => s.server && !s.refClock)) then .selection else .listening

/-- After a reference clock, the answers about all further sources are taken for the wrong ones. -/
theorem C129_violated : ¬ C129_statement := by
  intro h
  have hc : check (run (start confN .normal).1 (opened .normal)) (fun x => Asking x.1 && x.1.state.cc &&
      check (talk [refclk, server] x.1 [.sent 33 x.1.reqSeq 0] (List.replicate 8 (env0 6 .normal)))
        (fun r => r.1.state.st = .listening)) = true := by decide +kernel
  obtain ⟨⟨m, tr⟩, hr, hx⟩ := witness hc
  simp only [Bool.and_eq_true, decide_eq_true_eq] at hx
  obtain ⟨⟨ha, hcc⟩, hx⟩ := hx
  obtain ⟨r, ht, hf⟩ := witness hx
  have := h confN .normal .normal (opened .normal) m tr [refclk, server] (List.replicate 8 (env0 6 .normal)) r hr
    ha hcc (by simp) (by decide) (by decide)
    (fun e he => by rw [List.eq_of_mem_replicate he]; exact ⟨rfl, rfl⟩) (by decide) ht
  rw [this] at hf
  exact absurd hf (by decide)

/-- Events that do no harm to memory. -/
def Tame : Ev → Prop
  | .traffic _ r => 0 ≤ r.count
  | .control mask flags _ => mask.cluster = true → flags.cluster = false
  | _ => True

/-- Between harmless events. -/
structure Safe (m : Mod) : Prop where
  inv : Inv m
  bnd : Bnd m
  idle : m.phase = false → m.sock = false ∧ m.query = .sleepDis

theorem step_safe {m : Mod} (h : Safe m) {e : Ev} (he : Tame e) : ∃ m' o, step m e = some (m', o) ∧ Safe m' := by
  have adv : ∀ (k : Mod), Inv k → Bnd k → k.phase = true → ∀ (env : Env) (q : QEv), q.sane →
      ∃ m' o, advance k env (machine k env q) = some (m', o) ∧ Safe m' := by
    intro k hi hb hp env q hq
    obtain ⟨m', o, ha, hb'⟩ := advance_total hi hb env q hq
    obtain ⟨n, o1, o2, ad, -⟩ := advance_adv hi ha
    refine ⟨m', o, ha, ad.inv hi, hb', fun hph => ?_⟩
    exfalso
    obtain ⟨upd, mv⟩ := ad.mv
    rcases ad.same with ⟨rfl, -⟩ | hu
    · rw [mv.phase, hp] at hph; cases hph
    · rw [(updateState_spec hu).1.phase, mv.phase, hp] at hph; cases hph
  cases e with
  | run env =>
    unfold step
    cases hp : m.phase with
    | true => exact ⟨m, [], by simp, h⟩
    | false =>
      have hpr : (prepared m env).phase = true := by
        have := runControl_state
          { m with phase := true, nextPoll := env.now, query := .sleepDis, state := { m.state with unsafe_ := false } } env
        unfold prepared
        dsimp only
        unfold runControl
        dsimp only
        have k := control_kept (look { m with phase := true, nextPoll := env.now, query := .sleepDis, state := { m.state with unsafe_ := false } } (env.look .first)).1
          m.flags.clockCtrl (env.look .save) (env.script .save) (env.look .op) (env.script .op)
        split
        · rfl
        · split
          · split
            · exact k.phase
            · split <;> exact k.phase
          · split <;> rfl
      obtain ⟨m', o, ha, hs⟩ := adv (prepared m env) (prepared_inv h.inv env) (prepared_bnd h.bnd (h.idle hp).1 env) hpr env .run trivial
      refine ⟨m', preparedOuts m env ++ o, ?_, hs⟩
      have : onRun m env = (advance (prepared m env) env (machine (prepared m env) env .run)).map
          (fun x => (x.1, preparedOuts m env ++ x.2)) := rfl
      simp only [Bool.false_eq_true, if_false]
      rw [this, ha]
      rfl
  | tick env =>
    unfold step
    cases hp : m.phase with
    | false => exact ⟨m, [], by simp, h⟩
    | true =>
      simp only [if_true]
      exact adv m h.inv h.bnd hp env .tick trivial
  | traffic env r =>
    unfold step
    cases hsk : m.sock with
    | false => exact ⟨m, [], by simp, h⟩
    | true =>
      simp only [if_true]
      have hp : m.phase = true := by
        cases hp : m.phase with
        | true => rfl
        | false => rw [(h.idle hp).1] at hsk; cases hsk
      exact adv m h.inv h.bnd hp env (.traffic r) he
  | lost env =>
    cases hsk : m.sock with
    | false => exact ⟨m, [], by simp [step, hsk], h⟩
    | true =>
      have hb : Bnd (disconnect m).1 := ⟨h.bnd.lenS, h.bnd.lenN, h.bnd.numS, h.bnd.numN, by simp [disconnect], fun _ => rfl, h.bnd.cl⟩
      obtain ⟨m', o, hu⟩ := updateState_total (m := (disconnect m).1) h.inv.noN h.bnd.cl env
      have u := updateState_spec hu
      have hst : step m (.lost env) = some (m', o) := by
        simp [step, hsk, advance, hu]
      refine ⟨m', o, hst, step_inv h.inv hst, u.1.bnd hb u.2.1, fun hph => ?_⟩
      exfalso
      rw [u.1.phase] at hph
      have : m.sock = false := (h.idle hph).1
      rw [hsk] at this; cases this
  | control mask flags env =>
    have k := onControl_kept m mask flags env
    dsimp only at k
    obtain ⟨k1, k2, k3, k4, k5, k6, k7, k8, k9⟩ := k
    have hst : step m (.control mask flags env) = some (onControl m mask flags env) := rfl
    refine ⟨(onControl m mask flags env).1, (onControl m mask flags env).2, hst, step_inv h.inv hst, ?_, ?_⟩
    · refine ⟨by rw [k1]; exact h.bnd.lenS, by rw [k2]; exact h.bnd.lenN, by rw [k1]; exact h.bnd.numS, by rw [k2]; exact h.bnd.numN,
        by rw [k5, k6, k2]; exact h.bnd.idx, ?_, ?_⟩
      · rw [k5]
        intro hq
        have := h.bnd.sock hq
        cases hs : (onControl m mask flags env).1.sock with
        | false => rfl
        | true => rw [k7 hs] at this; exact this
      · rw [k8]
        cases hm : mask.cluster with
        | false => exact h.bnd.cl
        | true => exact he hm
    · rw [k9, k5]
      intro hph
      have := h.idle hph
      refine ⟨?_, this.2⟩
      cases hs : (onControl m mask flags env).1.sock with
      | false => rfl
      | true => rw [k7 hs] at this; exact this.1
  | step =>
    exact ⟨_, _, rfl, ⟨⟨h.inv.noS.st, h.inv.noS.peers⟩, h.inv.noN, h.inv.cc, h.inv.st⟩,
      ⟨h.bnd.lenS, h.bnd.lenN, h.bnd.numS, h.bnd.numN, h.bnd.idx, h.bnd.sock, h.bnd.cl⟩, h.idle⟩
  | log =>
    refine ⟨m, [], ?_, h⟩
    unfold step
    rw [rtStats_off h.inv.noS.st, clustering_off h.bnd.cl]
    rfl

theorem start_safe (c : Conf) (p : Proc) : Safe (start c p).1 := by
  obtain ⟨s1, s2, s3, s4, s5, s6, s7, s8, s9, s10, s11, s12, s13, s14⟩ := start_spec c p
  refine ⟨s1, ⟨by rw [s11]; exact List.length_replicate, by rw [s12, s11]; exact List.length_replicate, by omega, by rw [s12]; omega, ?_, fun _ => s7, by rw [s5]⟩, fun _ => ⟨s7, s14⟩⟩
  rw [s14]
  simp

theorem run_safe {es : List Ev} (he : ∀ e ∈ es, Tame e) {m : Mod} (h : Safe m) :
    ∃ m' tr, run m es = some (m', tr) ∧ Safe m' := by
  induction es generalizing m with
  | nil => exact ⟨m, [], rfl, h⟩
  | cons e es ih =>
    obtain ⟨a, o, hs, ha⟩ := step_safe h (he e List.mem_cons_self)
    obtain ⟨b, tr, hr, hb⟩ := ih (fun x hx => he x (List.mem_cons_of_mem _ hx)) ha
    exact ⟨b, ⟨e, o⟩ :: tr, by simp [run, hs, hr], hb⟩

/-- **C129, the part that holds.** It is so if chronyd has an address of every source and none is a reference clock, whether
or not a source is selected; the poll then comes to its end within three answers for each source, and the engine
is told if the state changes. Missing: sources after a reference clock or after one without an address. -/
theorem C129_partial (c : Conf) (p q : Proc) (es : List Ev) (m : Mod) (tr : List Entry) (srcs : List Source)
    (envs : List Env) (he : ∀ e ∈ es, Tame e) (hr : run (start c p).1 es = some (m, tr)) (ha : Asking m)
    (hcc : m.state.cc = decide (q = .normal)) (hne : srcs ≠ []) (hlen : srcs.length ≤ 32)
    (hpl : ∀ s ∈ srcs, s.refClock = false ∧ s.unresolved = false) (hst : ∀ e ∈ envs, Steady q e)
    (hn : 2 + 3 * srcs.length ≤ envs.length) :
    ∃ r, talk srcs m [.sent 33 m.reqSeq 0] envs = some r ∧
      (r.1.state.st = if (srcs.any (fun s => s.server && !s.refClock)) then .selection else .listening) ∧
      (r.1.state.st ≠ m.state.st → ∃ mu ca, .told r.1.state.st mu ca ∈ r.2) := by
  obtain ⟨m1, tr1, hr1, hs⟩ := run_safe he (start_safe c p)
  rw [hr] at hr1
  cases hr1
  obtain ⟨m', o', ov, ht, htold⟩ := poll_over (o := [.sent 33 m.reqSeq 0]) hpl hs.inv hs.bnd
    ⟨ha.1, ha.2, ⟨0, rfl⟩⟩ hne hlen hcc envs hst hn
  refine ⟨(m', o'), ht, ?_, htold⟩
  rw [ov.st]
  have : srcs.any Source.server = srcs.any (fun s => s.server && !s.refClock) := by
    apply Bool.eq_iff_iff.2
    simp only [List.any_eq_true, Bool.and_eq_true, Bool.not_eq_true']
    exact ⟨fun ⟨s, h, k⟩ => ⟨s, h, k, (hpl s h).1⟩, fun ⟨s, h, k, _⟩ => ⟨s, h, k⟩⟩
  rw [this]

example : check (run (start confN .normal).1 (opened .normal)) (fun x => Asking x.1 && x.1.state.cc &&
    check (talk [{ server with server := false }, server] x.1 [.sent 33 x.1.reqSeq 0] (List.replicate 8 (env0 6 .normal)))
      (fun r => r.1.state.st = .selection ∧ .told .selection true false ∈ r.2)) = true := by decide +kernel

/-! ## C130 -/

/-- **C130**: after a poll that found how chronyd runs, the system clock is blocked exactly if chronyd is disciplining it. -/
def C130_statement : Prop :=
  ∀ (c : Conf) (p q : Proc) (es : List Ev) (e : Ev) (m : Mod) (tr : List Entry) (o : List Out),
    run (start c p).1 (es ++ [e]) = some (m, tr) → tr.getLast?.map Entry.outs = some o → e.poll = true →
    lastSeen o = some q → blockedBy (effects (start c p).2 tr) = decide (q = .normal)

/-- The circumstances: chronyd with `-x` and one source, polled; restarted without `-x`, which the module reverses; polled again. -/
def w130 : List Ev :=
  opened .minusX ++ [.traffic (env0 6 .minusX) (answer [server] (33, 7, 0)), .traffic (env0 7 .normal) (answer [server] (14, 7, 0)),
    .lost (env0 8 .normal), .tick (env0 2000000000 .normal), .tick (env0 2000000001 .minusX)]

def w130e : Ev := .traffic (env0 2000000002 .minusX) (answer [server] (33, 7, 0))

/-- After the module has taken the discipline of the clock from chronyd, the clock remains blocked. -/
theorem C130_violated : ¬ C130_statement := by
  intro h
  have hc : check (run (start confC .minusX).1 (w130 ++ [w130e])) (fun x => check (x.2.getLast?.map Entry.outs) (fun o => lastSeen o = some .minusX ∧
      blockedBy (effects (start confC .minusX).2 x.2) = true)) = true := by decide +kernel
  obtain ⟨⟨m, tr⟩, hr, hx⟩ := witness hc
  obtain ⟨o, ho, hf⟩ := witness hx
  simp only [decide_eq_true_eq] at hf
  have := h confC .minusX .minusX _ w130e m tr o hr ho rfl hf.1
  rw [hf.2] at this
  exact absurd this (by decide)

theorem control_off {m : Mod} (h : m.conf.control = false) (b : Bool) (p : Proc) (ok : Bool) (p' : Proc) (ok' : Bool) :
    (control m b p ok p' ok').2 = (false, []) := by
  have hd : ∀ (k : Mod), k.conf.control = false → ∀ op p ok, doControl k op p ok = (k, false, []) := by
    intro k hk op p ok
    simp [doControl, hk]
  have hs : (saveState m p ok).1.conf.control = false := by rw [(saveState_kept m p ok).conf]; exact h
  have hs2 : (saveState m p ok).2 = [] := by
    unfold saveState
    split
    · rfl
    · simp [hd m h]
  unfold control
  dsimp only
  rw [hd _ hs, hs2]
  rfl

theorem putBack_off {m : Mod} (h : m.conf.control = false) (env : Env) :
    (putBack m env).1.next = m.next ∧ (putBack m env).2 = [] ∧ (putBack m env).1.must = m.must ∧
    (putBack m env).1.cannot = m.cannot := by
  have hm : ∀ (b : Bool) (p : Proc) (ok : Bool) (p' : Proc) (ok' : Bool), (control m b p ok p' ok').1.must = m.must ∧
      (control m b p ok p' ok').1.cannot = m.cannot := by
    intro b p ok p' ok'
    have hs : (saveState m p ok).1.conf.control = false := by rw [(saveState_kept m p ok).conf]; exact h
    unfold control
    dsimp only
    have hd : doControl (saveState m p ok).1 (if b = true then .enable else .disable) p' ok' = ((saveState m p ok).1, false, []) := by
      unfold doControl
      simp [hs]
    rw [hd]
    unfold saveState
    split
    · exact ⟨rfl, rfl⟩
    · simp [doControl, h]
  unfold putBack
  split
  · dsimp only
    rw [control_off h]
    simp only [Bool.false_eq_true, if_false]
    exact ⟨(control_kept _ _ _ _ _ _).next, by simp, (hm _ _ _ _ _).1, (hm _ _ _ _ _).2⟩
  · exact ⟨rfl, rfl, rfl, rfl⟩

/-- Without clock control, what a change does. -/
theorem changeIf_off {m : Mod} (h : m.conf.control = false) (env : Env) :
    (changeIf m env).1.next.cc = m.next.cc ∧ (m.blocked = m.state.cc → (changeIf m env).1.blocked = m.next.cc) ∧
    (changeIf m env).2.filterMap Out.seen = [] := by
  have hk : (constrain (setBlock m m.next.cc).1).conf.control = false := by
    rw [(constrain_kept _).conf, (setBlock_upd m m.next.cc).conf]; exact h
  rw [changeIf_outs]
  by_cases hc : m.next.cc ≠ m.state.cc
  · rw [if_pos hc]
    have hcg : changeIf m env = onChange m env := by unfold changeIf; rw [if_pos hc]
    rw [hcg]
    refine ⟨?_, fun _ => (onChange_upd m env).2.2, ?_⟩
    · show (putBack (constrain (setBlock m m.next.cc).1) env).1.next.cc = _
      rw [(putBack_off hk env).1, (constrain_kept _).next, (setBlock_state m m.next.cc).2.1]
    · rw [(putBack_off hk env).2.1, List.append_nil, setBlock_outs]
      split <;> rfl
  · rw [if_neg hc]
    have hcg : changeIf m env = (m, []) := by unfold changeIf; rw [if_neg hc]
    rw [hcg]
    have hc : m.next.cc = m.state.cc := by simpa using hc
    exact ⟨rfl, fun hb => hb.trans hc.symm, rfl⟩

theorem saws_seen (o : List Out) : saws o = o.filterMap Out.seen := by
  induction o with
  | nil => rfl
  | cons x o ih =>
    rw [List.filterMap_cons]
    cases x <;> simp [saws, Out.seen, ih]

/-- Without clock control, what a move and its update do. -/
theorem Adv.off {env : Env} {m n m' : Mod} {o o' outs : List Out} (h : m.conf.control = false)
    (hb : m.blocked = m.state.cc) (a : Adv env m n m' o o' outs) :
    m'.conf.control = false ∧ m'.blocked = m'.state.cc ∧ outs.filterMap Out.seen = o.filterMap Out.seen ∧
    ∀ q, lastSeen outs = some q → m'.state.cc = decide (q = .normal) := by
  obtain ⟨upd, mv⟩ := a.mv
  have hcl : ∀ q, lastSeen o = some q → n.next.cc = decide (q = .normal) := by
    intro q hq
    unfold lastSeen at hq
    rw [← saws_seen] at hq
    rcases mv.look with l | l
    · rw [l.1] at hq; cases hq
    · rw [l.1] at hq
      simp only [List.getLast?_singleton, Option.some.injEq] at hq
      rw [l.2.2.2.1, hq]
  rcases a.same with ⟨rfl, rfl, hc, hs⟩ | hu
  · have ho : outs = o := by simpa using a.outs
    subst ho
    exact ⟨by rw [mv.conf]; exact h, by rw [mv.blocked, mv.state]; exact hb, rfl, fun q hq => hc.symm.trans (hcl q hq)⟩
  · have u := updateState_spec hu
    have hnc : n.conf.control = false := by rw [mv.conf]; exact h
    have co := changeIf_off hnc env
    obtain ⟨o2, ho', h2⟩ := updateState_outs mv.noN hu
    have hcc : m'.state.cc = n.next.cc := by rw [u.2.1, u.2.2.1, co.1]
    have hseen : outs.filterMap Out.seen = o.filterMap Out.seen := by
      rw [a.outs, ho']
      simp only [List.filterMap_append, co.2.2, List.nil_append]
      rw [filterMap_none (o := o2) (fun x hx => by rw [h2 x hx]; rfl),
        filterMap_none (o := (stateChange (changeIf n env).1).2) (fun x hx => by rw [stateChange_told _ x hx]; rfl)]
      simp
    refine ⟨by rw [u.1.conf]; exact hnc, ?_, hseen, fun q hq => ?_⟩
    · rw [u.2.2.2.1, co.2.1 (by rw [mv.blocked, mv.state]; exact hb), hcc]
    · rw [hcc]
      unfold lastSeen at hq
      rw [hseen] at hq
      exact hcl q hq

theorem step_off {m m' : Mod} {e : Ev} {outs : List Out} (i : Inv m) (h : m.conf.control = false)
    (hb : m.blocked = m.state.cc) (hs : step m e = some (m', outs)) :
    m'.conf.control = false ∧ m'.blocked = m'.state.cc ∧
    (e.poll = true → ∀ q, lastSeen outs = some q → m'.state.cc = decide (q = .normal)) := by
  cases step_kind i hs with
  | idle hm ho => subst hm ho; exact ⟨h, hb, fun _ q hq => nomatch hq⟩
  | ran env n o o' outs' a ho =>
    have pr := prepared_state m env
    have := a.off (by rw [pr.2.1]; exact h) (by rw [pr.1, pr.2.2.1]; exact hb)
    exact ⟨this.1, this.2.1, fun hp => nomatch hp⟩
  | ticked env n o o' a => have := a.off h hb; exact ⟨this.1, this.2.1, fun _ => this.2.2.2⟩
  | got env r n o o' a => have := a.off h hb; exact ⟨this.1, this.2.1, fun _ => this.2.2.2⟩
  | gone env n o o' a => have := a.off h hb; exact ⟨this.1, this.2.1, fun _ => this.2.2.2⟩
  | asked mask flags env hm =>
    have k := onControl_kept m mask flags env
    rw [hm] at k
    exact ⟨by rw [k.2.2.2.1]; exact h, by rw [k.2.2.1, k.1]; exact hb, fun hp => nomatch hp⟩
  | stepped hm ho => subst hm ho; exact ⟨h, hb, fun hp => nomatch hp⟩
  | logged hm o1 o2 h1 h2 ho => subst hm; exact ⟨h, hb, fun hp => nomatch hp⟩

theorem getD_append {β : Type} (a b : List β) (d : β) : (a ++ b).getLast?.getD d = b.getLast?.getD (a.getLast?.getD d) := by
  rw [List.getLast?_append]
  cases b.getLast? <;> rfl

/-- The blocking of the clock as effects show it is the module's own record. -/
theorem run_blocked {c : Conf} {p : Proc} {es : List Ev} {m : Mod} {tr : List Entry}
    (h : run (start c p).1 es = some (m, tr)) : Inv m ∧ blockedBy (effects (start c p).2 tr) = m.blocked := by
  have s := start_spec c p
  refine run_effects (P := fun m _ o => Inv m ∧ blockedBy o = m.blocked) (es := []) (o := (start c p).2)
    (fun m es o e m' o' hp hs => ?_) ⟨s.1, ?_⟩ h
  · refine ⟨step_inv hp.1 hs, ?_⟩
    have ao := (step_outs hp.1 hs).blk
    rw [← hp.2] at ao
    rw [← ao]
    unfold blockedBy
    rw [List.filterMap_append, getD_append]
  · rw [s.2.2.1, s.2.2.2.2.2.2.2.1]
    cases p <;> rfl

/-- **C130, the part that holds.** It is so if control of chronyd is not configured. Missing: with it, the clock stays
blocked after the module itself has taken the discipline from chronyd, and unblocked after it has given it back. -/
theorem C130_partial (c : Conf) (hcn : c.control = false) (p q : Proc) (es : List Ev) (e : Ev) (m : Mod) (tr : List Entry)
    (o : List Out) (h : run (start c p).1 (es ++ [e]) = some (m, tr)) (ho : tr.getLast?.map Entry.outs = some o)
    (he : e.poll = true) (hq : lastSeen o = some q) :
    blockedBy (effects (start c p).2 tr) = decide (q = .normal) := by
  rw [(run_blocked h).2]
  obtain ⟨n, tr', o1, h1, h2, rfl⟩ := run_append h
  have s := start_spec c p
  have hp := run_ind (P := fun m => Inv m ∧ m.conf.control = false ∧ m.blocked = m.state.cc)
    (fun m e m' o hp hs => ⟨step_inv hp.1 hs, (step_off hp.1 hp.2.1 hp.2.2 hs).1, (step_off hp.1 hp.2.1 hp.2.2 hs).2.1⟩)
    ⟨s.1, by rw [s.2.1]; exact hcn, by rw [s.2.2.1, s.2.2.2.1]⟩ h1
  have so := step_off hp.1 hp.2.1 hp.2.2 h2
  simp only [List.getLast?_append, List.getLast?_singleton, Option.some_or, Option.map_some, Option.some.injEq] at ho
  subst ho
  rw [so.2.1]
  exact so.2.2 he q hq

example : check (run (start confN .minusX).1 (opened .minusX ++ [.lost (env0 8 .normal)] ++ [.tick (env0 2000000000 .normal)]))
    (fun x => check (x.2.getLast?.map Entry.outs) (fun o => lastSeen o = some .normal ∧
      blockedBy (effects (start confN .minusX).2 x.2) = true)) = true := by decide +kernel

end Verif.Crny
