import Verif.Crny.Props

/-!
# Properties of the chrony module, continued
-/

set_option linter.unusedVariables false
set_option linter.unusedSimpArgs false

namespace Verif.Crny

/-! ## C131 -/

/-- **C131**: with control of chronyd configured, a poll that finds chronyd disciplining the clock while the engine does not want
it to runs the script to stop that, unless chronyd has stopped of itself meanwhile. -/
def C131_statement : Prop :=
  ∀ (c : Conf) (p : Proc) (es : List Ev) (e : Ev) (m : Mod) (tr : List Entry) (o : List Out),
    c.control = true → run (start c p).1 (es ++ [e]) = some (m, tr) → tr.getLast?.map Entry.outs = some o → e.poll = true →
    wanted es = false → firstSeen o = some .normal → (∃ ok, .script .disable ok ∈ o) ∨ lastSeen o ≠ some .normal

/-- A chronyd that was started after the module is left to discipline the clock. -/
theorem C131_violated : ¬ C131_statement := by
  intro h
  have hc : check (run (start confC .absent).1 ([.run (env0 0 .absent)] ++ [.tick (env0 2000000000 .normal)]))
      (fun x => check (x.2.getLast?.map Entry.outs) (fun o => firstSeen o = some .normal ∧ lastSeen o = some .normal ∧
        o.all (fun x => match x with | .script _ _ => false | _ => true))) = true := by decide +kernel
  obtain ⟨⟨m, tr⟩, hr, hx⟩ := witness hc
  obtain ⟨o, ho, hf⟩ := witness hx
  simp only [decide_eq_true_eq] at hf
  obtain ⟨h1, h2, h3⟩ := hf
  rcases h confC .absent _ _ m tr o rfl hr ho rfl rfl h1 with ⟨ok, hx⟩ | hx
  · have := List.all_eq_true.1 h3 _ hx
    simp at this
  · exact hx h2

/-- The flag is set only if the engine asked for it. -/
theorem run_wanted {c : Conf} (hc : c.control = true) {p : Proc} {es : List Ev} {m : Mod} {tr : List Entry}
    (h : run (start c p).1 es = some (m, tr)) :
    Inv m ∧ m.conf = c ∧ (m.flags.clockCtrl = true → wanted es = true) := by
  have s := start_spec c p
  have := run_effects (P := fun m es _ => Inv m ∧ m.conf = c ∧ (m.flags.clockCtrl = true → wanted es = true)) (es := [])
    (o := []) (fun m es o e m' o' hp hs => ?_) ⟨s.1, s.2.1, by rw [s.2.2.2.2.1]; intro h; cases h⟩ h
  · simpa using this
  obtain ⟨hi, hcf, hw⟩ := hp
  refine ⟨step_inv hi hs, ?_⟩
  have same : (∀ mask flags env, e ≠ .control mask flags env) → wanted (es ++ [e]) = wanted es := by
    intro hne
    unfold wanted
    rw [List.foldl_append]
    cases e with
    | control mask flags env => exact absurd rfl (hne mask flags env)
    | _ => rfl
  have viaAdv : ∀ {env : Env} {k n : Mod} {a b d : List Out}, Adv env k n m' a b d → m'.conf = k.conf ∧ m'.flags = k.flags := by
    intro env k n a b d ad
    obtain ⟨upd, mv⟩ := ad.mv
    rcases ad.same with ⟨rfl, -⟩ | hu
    · exact ⟨mv.conf, mv.flags⟩
    · have u := updateState_spec hu
      exact ⟨u.1.conf.trans mv.conf, u.1.flags.trans mv.flags⟩
  cases step_kind hi hs with
  | idle hm ho he hst => rw [same he, hm]; exact ⟨hcf, hw⟩
  | ran env n o o' outs' a ho =>
    have v := viaAdv a
    have pr := prepared_state m env
    refine ⟨by rw [v.1, pr.2.1]; exact hcf, ?_⟩
    rw [same (by intro _ _ _ h; cases h), v.2]
    intro hf
    apply hw
    revert hf
    unfold prepared runControl
    dsimp only
    have k := control_kept (look { m with phase := true, nextPoll := env.now, query := .sleepDis, state := { m.state with unsafe_ := false } } (env.look .first)).1
      m.flags.clockCtrl (env.look .save) (env.script .save) (env.look .op) (env.script .op)
    split
    · exact id
    · split
      · split
        · intro hf; rw [k.flags] at hf; exact hf
        · split
          · intro hf; cases hf
          · intro hf; rw [k.flags] at hf; exact hf
      · split
        · intro hf; cases hf
        · exact id
  | ticked env n o o' a =>
    have v := viaAdv a
    exact ⟨v.1.trans hcf, by rw [same (by intro _ _ _ h; cases h), v.2]; exact hw⟩
  | got env r n o o' a =>
    have v := viaAdv a
    exact ⟨v.1.trans hcf, by rw [same (by intro _ _ _ h; cases h), v.2]; exact hw⟩
  | gone env n o o' a =>
    have v := viaAdv a
    exact ⟨v.1.trans hcf, by rw [same (by intro _ _ _ h; cases h), v.2]; exact hw⟩
  | asked mask flags env hm =>
    have k := onControl_kept m mask flags env
    rw [hm] at k
    refine ⟨k.2.2.2.1.trans hcf, ?_⟩
    have hf : m'.flags.clockCtrl = (m.flags.apply mask flags).clockCtrl := by
      unfold onControl at hm
      dsimp only at hm
      have hcc : m.conf.control = true := by rw [hcf]; exact hc
      split at hm
      · split at hm
        · cases hm; rfl
        · cases hm; rfl
      · cases hm; rfl
    rw [hf]
    unfold wanted Flags.apply at *
    rw [List.foldl_append]
    dsimp only [List.foldl_cons, List.foldl_nil]
    split
    · exact id
    · exact hw
  | stepped hm ho => subst hm; exact ⟨hcf, by rw [same (by intro _ _ _ h; cases h)]; exact hw⟩
  | logged hm o1 o2 h1 h2 ho => subst hm; exact ⟨hcf, by rw [same (by intro _ _ _ h; cases h)]; exact hw⟩

/-- Chronyd is told to stop, or has. -/
theorem putBack_stop {m : Mod} (hc : m.conf.control = true) (hf : m.flags.clockCtrl = false) (hcc : m.next.cc = true)
    (hst : m.next.st ≠ .disabled) (env : Env) :
    (.script .disable (env.script .op') ∈ (putBack m env).2) ∨
    ((putBack m env).2.filterMap Out.seen).getLast? = some (env.look .op') ∧ env.look .op' ≠ .normal := by
  have hs : (saveState m (env.look .save') (env.script .save')).1.conf.control = true := by
    rw [(saveState_kept _ _ _).conf]; exact hc
  have ho : (putBack m env).2 = (control m m.flags.clockCtrl (env.look .save') (env.script .save') (env.look .op') (env.script .op')).2.2 := by
    unfold putBack
    rw [if_pos ⟨by rw [hcc, hf]; decide, hst⟩]
    dsimp only
    split <;> rfl
  rw [ho, hf]
  unfold control
  dsimp only
  generalize saveState m (env.look .save') (env.script .save') = s at hs
  by_cases hn : env.look .op' = .normal
  · left
    apply List.mem_append_right
    simp [doControl, hs, look, hn]
  · right
    refine ⟨?_, hn⟩
    simp [doControl, hs, look, hn, Out.seen]

/-- **C131, the part that holds.** It is so unless the module was disabled, or already took chronyd to be disciplining the
clock. Missing: a chronyd started after the module, and a script that has failed before. -/
theorem C131_partial (c : Conf) (p : Proc) (es : List Ev) (e : Ev) (m n : Mod) (tr tr' : List Entry) (o : List Out)
    (hc : c.control = true) (h : run (start c p).1 (es ++ [e]) = some (m, tr)) (ho : tr.getLast?.map Entry.outs = some o)
    (he : e.poll = true) (hw : wanted es = false) (hf : firstSeen o = some .normal)
    (hb : run (start c p).1 es = some (n, tr')) (hd : n.state.st ≠ .disabled) (hcc : n.state.cc = false) :
    (∃ ok, .script .disable ok ∈ o) ∨ lastSeen o ≠ some .normal := by
  obtain ⟨n', tr1, o1, h1, h2, rfl⟩ := run_append h
  rw [hb] at h1
  cases h1
  simp only [List.getLast?_append, List.getLast?_singleton, Option.some_or, Option.map_some, Option.some.injEq] at ho
  subst ho
  obtain ⟨hi, hcf, hw'⟩ := run_wanted hc hb
  have hfl : n.flags.clockCtrl = false := by
    cases hx : n.flags.clockCtrl with
    | false => rfl
    | true => rw [hw' hx] at hw; cases hw
  have core : ∀ {env : Env} {k : Mod} {a b : List Out}, Adv env n k m a b o1 →
      (∃ ok, .script .disable ok ∈ o1) ∨ lastSeen o1 ≠ some .normal := by
    intro env k a b ad
    obtain ⟨upd, mv⟩ := ad.mv
    have lookd : env.look .next = .normal ∧ k.next.cc = true ∧ saws a = [.normal] ∧ updateState k env = some (m, b) := by
      rcases mv.look with l | l
      · exfalso
        have hsa : a.filterMap Out.seen = [] := by rw [← saws_seen]; exact l.1
        unfold firstSeen at hf
        rcases ad.same with ⟨-, rfl, -⟩ | hu
        · rw [ad.outs, List.append_nil, hsa] at hf; cases hf
        · obtain ⟨o2, ho', h2⟩ := updateState_outs mv.noN hu
          have hci : (changeIf k env).2 = [] := by
            rw [changeIf_outs, if_neg (by rw [l.2.2.2, mv.state]; simp)]
          rw [ad.outs, ho', hci] at hf
          simp only [List.filterMap_append, hsa, List.nil_append, List.filterMap_nil] at hf
          rw [filterMap_none (o := o2) (fun x hx => by rw [h2 x hx]; rfl),
            filterMap_none (o := (stateChange (changeIf k env).1).2) (fun x hx => by rw [stateChange_told _ x hx]; rfl)] at hf
          cases hf
      · have hn : env.look .next = .normal := by
          unfold firstSeen at hf
          rw [ad.outs, List.filterMap_append, ← saws_seen a, l.1] at hf
          simpa using hf
        have hk : k.next.cc = true := by rw [l.2.2.2.1, hn]; rfl
        refine ⟨hn, hk, by rw [l.1, hn], ?_⟩
        rcases ad.same with ⟨-, -, hx, -⟩ | hu
        · rw [hk, mv.state, hcc] at hx; cases hx
        · exact hu
    obtain ⟨hn, hk, hsa, hu⟩ := lookd
    obtain ⟨o2, ho', h2⟩ := updateState_outs mv.noN hu
    have hst : k.next.st ≠ .disabled := by
      intro hx
      rcases mv.dis hx with x | x | x
      · exact hd x
      · rw [hn] at x; exact nomatch x.1
      · rw [hsa] at x; exact nomatch x.2
    have hkc : (constrain (setBlock k k.next.cc).1).conf.control = true := by
      rw [(constrain_kept _).conf, (setBlock_upd k k.next.cc).conf, mv.conf, hcf]; exact hc
    have hkf : (constrain (setBlock k k.next.cc).1).flags.clockCtrl = false := by
      rw [(constrain_kept _).flags, (setBlock_upd k k.next.cc).flags, mv.flags]; exact hfl
    have hkn : (constrain (setBlock k k.next.cc).1).next = k.next := by
      rw [(constrain_kept _).next, (setBlock_state k k.next.cc).2.1]
    have hch : (changeIf k env).2 = (setBlock k k.next.cc).2 ++ (putBack (constrain (setBlock k k.next.cc).1) env).2 := by
      rw [changeIf_outs, if_pos (by rw [hk, mv.state, hcc]; decide)]
    rcases putBack_stop hkc hkf (by rw [hkn]; exact hk) (by rw [hkn]; exact hst) env with hp | hp
    · left
      refine ⟨env.script .op', ?_⟩
      rw [ad.outs, ho', hch]
      simp only [List.mem_append]
      exact Or.inr (Or.inl (Or.inl (Or.inr hp)))
    · right
      unfold lastSeen
      rw [ad.outs, ho', hch]
      simp only [List.filterMap_append]
      rw [filterMap_none (o := o2) (fun x hx => by rw [h2 x hx]; rfl),
        filterMap_none (o := (stateChange (changeIf k env).1).2) (fun x hx => by rw [stateChange_told _ x hx]; rfl)]
      simp only [List.append_nil]
      rw [List.getLast?_append, List.getLast?_append, hp.1]
      simpa using hp.2
  cases e with
  | tick env =>
    cases step_kind hi h2 with
    | idle hm ho => subst ho; cases hf
    | ticked env n o o' a => exact core a
  | traffic env r =>
    cases step_kind hi h2 with
    | idle hm ho => subst ho; cases hf
    | got env r n o o' a => exact core a
  | _ => cases he

example : check (run (start confC .minusX).1 (opened .minusX ++ [.lost (env0 8 .normal)]))
    (fun x => x.1.state.st ≠ .disabled && !x.1.state.cc) &&
  check (run (start confC .minusX).1 (opened .minusX ++ [.lost (env0 8 .normal)] ++ [.tick (env0 2000000000 .normal)]))
    (fun x => check (x.2.getLast?.map Entry.outs) (fun o => firstSeen o = some .normal ∧ .script .disable true ∈ o)) = true := by
  decide +kernel

/-! ## C132 -/

/-- **C132**: after a poll that chronyd, running, answers truthfully, the module is not disabled. -/
def C132_statement : Prop :=
  ∀ (c : Conf) (p q : Proc) (es : List Ev) (m : Mod) (tr : List Entry) (srcs : List Source) (envs : List Env) (r : Mod × List Out),
    q ≠ .absent → run (start c p).1 es = some (m, tr) → Asking m → m.state.cc = decide (q = .normal) →
    srcs.length ≤ 32 → (∀ e ∈ envs, Steady q e) → 2 + 3 * srcs.length ≤ envs.length →
    talk srcs m [.sent 33 m.reqSeq 0] envs = some r → r.1.state.st ≠ .disabled

/-- A chronyd without sources is left as disabled. -/
theorem C132_violated : ¬ C132_statement := by
  intro h
  have hc : check (run (start confN .absent).1 [.run (env0 0 .absent), .tick (env0 2000000000 .normal), .tick (env0 2000000001 .normal)])
      (fun x => Asking x.1 && x.1.state.cc && check (talk [] x.1 [.sent 33 x.1.reqSeq 0] (List.replicate 2 (env0 2000000002 .normal)))
        (fun r => r.1.state.st = .disabled)) = true := by decide +kernel
  obtain ⟨⟨m, tr⟩, hr, hx⟩ := witness hc
  simp only [Bool.and_eq_true, decide_eq_true_eq] at hx
  obtain ⟨⟨ha, hcc⟩, hx⟩ := hx
  obtain ⟨r, ht, hf⟩ := witness hx
  have := h confN .absent .normal _ m tr [] _ r (by decide) hr ha hcc (by decide)
    (fun e he => by rw [List.eq_of_mem_replicate he]; exact ⟨rfl, rfl⟩) (by decide) ht
  simp [this] at hf

/-- **C132, the part that holds.** It is so if chronyd has sources, none of them a reference clock or without an address.
Missing: a chronyd without sources. -/
theorem C132_partial (c : Conf) (p q : Proc) (es : List Ev) (m : Mod) (tr : List Entry) (srcs : List Source)
    (envs : List Env) (he : ∀ e ∈ es, Tame e) (hr : run (start c p).1 es = some (m, tr)) (ha : Asking m)
    (hcc : m.state.cc = decide (q = .normal)) (hne : srcs ≠ []) (hlen : srcs.length ≤ 32)
    (hpl : ∀ s ∈ srcs, s.refClock = false ∧ s.unresolved = false) (hst : ∀ e ∈ envs, Steady q e)
    (hn : 2 + 3 * srcs.length ≤ envs.length) :
    ∃ r, talk srcs m [.sent 33 m.reqSeq 0] envs = some r ∧ r.1.state.st ≠ .disabled ∧
      (m.state.st = .disabled → ∃ mu ca, .told r.1.state.st mu ca ∈ r.2) := by
  obtain ⟨r, h1, h2, h3⟩ := C129_partial c p q es m tr srcs envs he hr ha hcc hne hlen hpl hst hn
  have hd : r.1.state.st ≠ .disabled := by
    rw [h2]
    split <;> decide
  exact ⟨r, h1, hd, fun hm => h3 (by rw [hm]; exact hd)⟩

example : check (run (start confN .absent).1 [.run (env0 0 .absent), .tick (env0 2000000000 .normal), .tick (env0 2000000001 .normal)])
    (fun x => Asking x.1 && x.1.state.cc && (x.1.state.st = .disabled) &&
      check (talk [server] x.1 [.sent 33 x.1.reqSeq 0] (List.replicate 5 (env0 2000000002 .normal)))
        (fun r => r.1.state.st = .selection ∧ .told .selection true false ∈ r.2)) = true := by decide +kernel

/-- Whether the connection is refused for want of the protocol at this event. -/
def Ev.noProto : Ev → Prop
  | .run env | .tick env | .traffic env _ | .lost env => env.conn = .error 92
  | _ => False

/-- **C132, the cause.** The module becomes disabled only when it has just found that chronyd does not run, or
the connection was refused with ENOPROTOOPT. -/
theorem C132_cause (c : Conf) (p : Proc) (es : List Ev) (e : Ev) (m n : Mod) (tr tr' : List Entry) (o : List Out)
    (h : run (start c p).1 (es ++ [e]) = some (m, tr)) (ho : tr.getLast?.map Entry.outs = some o)
    (hb : run (start c p).1 es = some (n, tr')) (hn : n.state.st ≠ .disabled) (hm : m.state.st = .disabled) :
    .saw .absent ∈ o ∨ e.noProto := by
  obtain ⟨n', tr1, o1, h1, h2, rfl⟩ := run_append h
  rw [hb] at h1
  cases h1
  simp only [List.getLast?_append, List.getLast?_singleton, Option.some_or, Option.map_some, Option.some.injEq] at ho
  subst ho
  have hi := run_inv (start_spec c p).1 hb
  have core : ∀ {env : Env} {k j : Mod} {a b d : List Out}, k.state.st ≠ .disabled → Adv env k j m a b d →
      .saw .absent ∈ d ∨ env.conn = .error 92 := by
    intro env k j a b d hk ad
    obtain ⟨upd, mv⟩ := ad.mv
    have hj : j.next.st = .disabled := by
      rcases ad.same with ⟨rfl, -, -, hx⟩ | hu
      · exact hx.trans hm
      · have u := updateState_spec hu
        rw [← u.1.next.st, ← u.2.1]; exact hm
    rcases mv.dis hj with x | x | x
    · exact absurd x hk
    · left; rw [ad.outs]; exact List.mem_append_left _ x.2
    · exact Or.inr x.1
  cases step_kind hi h2 with
  | idle hm' ho => subst hm'; exact absurd hm hn
  | ran env n o o' outs' a ho =>
    rcases core (by rw [(prepared_state _ env).2.2.2]; exact hn) a with x | x
    · left; rw [ho]; exact List.mem_append_right _ x
    · exact Or.inr x
  | ticked env n o o' a => exact core hn a
  | got env r n o o' a => exact core hn a
  | gone env n o o' a => exact core hn a
  | asked mask flags env hk =>
    have k := onControl_kept n mask flags env
    rw [hk] at k
    rw [k.1] at hm
    exact absurd hm hn
  | stepped hm' ho => subst hm'; exact absurd hm hn
  | logged hm' => subst hm'; exact absurd hm hn

example : check (run (start confN .minusX).1 (opened .minusX ++ [.lost (env0 8 .absent)])) (fun x => x.1.state.st ≠ .disabled) &&
  check (run (start confN .minusX).1 (opened .minusX ++ [.lost (env0 8 .absent)] ++ [.tick (env0 2000000000 .absent)]))
    (fun x => x.1.state.st = .disabled) = true := by decide +kernel

/-- **C132, absence.** A poll that is due while there is no connection and finds no chronyd leaves the module disabled, and the
engine is told if it was not. -/
theorem C132_absent (c : Conf) (p : Proc) (es : List Ev) (env : Env) (m n : Mod) (tr tr' : List Entry) (o : List Out)
    (h : run (start c p).1 (es ++ [.tick env]) = some (m, tr)) (ho : tr.getLast?.map Entry.outs = some o)
    (hb : run (start c p).1 es = some (n, tr')) (hq : n.query = .sleepDis) (hp : n.phase = true)
    (hdue : n.nextPoll < env.now) (ha : env.look .next = .absent) :
    m.state.st = .disabled ∧ (n.state.st ≠ .disabled → ∃ mu ca, .told .disabled mu ca ∈ o) := by
  obtain ⟨n', tr1, o1, h1, h2, rfl⟩ := run_append h
  rw [hb] at h1
  cases h1
  simp only [List.getLast?_append, List.getLast?_singleton, Option.some_or, Option.map_some, Option.some.injEq] at ho
  subst ho
  have hi := run_inv (start_spec c p).1 hb
  have hs : advance n env (machine n env .tick) = some (m, o1) := by simpa [step, hp] using h2
  obtain ⟨k, a, b, ad, upd, hm⟩ := advance_adv hi hs
  have mv := machine_mv hi hm
  have hk : k.next.st = .disabled := by
    unfold machine at hm
    rw [hq] at hm
    simp only [QEv.late, hq, ne_eq, not_true_eq_false, false_and, and_false, if_false] at hm
    unfold atSleepDis at hm
    rw [if_pos (Or.inl hdue)] at hm
    have c := nextControl_spec hi (env.look .next)
    dsimp only at c hm
    rw [c.2.2.2.2.2.2.2.2.2.2.1, ha] at hm
    simp only [ne_eq, not_true_eq_false, decide_false, Bool.false_eq_true, if_false, Option.some.injEq, Prod.mk.injEq] at hm
    rw [← hm.1]
    rfl
  rcases ad.same with ⟨rfl, rfl, -, hx⟩ | hu
  · refine ⟨hx.symm.trans hk, fun hn => ?_⟩
    rw [hk, mv.state] at hx
    exact absurd hx.symm hn
  · have u := updateState_spec hu
    have hms : m.state.st = .disabled := by rw [u.2.1, u.1.next.st]; exact hk
    refine ⟨hms, fun hn => ?_⟩
    obtain ⟨o2, ho', h2⟩ := updateState_outs mv.noN hu
    have cu := changeIf_upd k env
    refine ⟨(stateChange (changeIf k env).1).1.must, (stateChange (changeIf k env).1).1.cannot, ?_⟩
    rw [ad.outs, ho']
    apply List.mem_append_right
    apply List.mem_append_right
    rw [stateChange_outs]
    have h1 : (changeIf k env).1.next.st = .disabled := by rw [cu.1.next.st]; exact hk
    have h2 : (changeIf k env).1.state.st = n.state.st := by rw [cu.2, mv.state]
    rw [if_pos (Or.inl (by rw [h1, h2]; exact fun x => hn x.symm)), h1]
    exact List.mem_singleton.2 rfl

example : check (run (start confN .minusX).1 (opened .minusX ++ [.lost (env0 8 .absent)])) (fun x => x.1.query = .sleepDis && x.1.phase
    && (x.1.nextPoll < 2000000000)) = true := by decide +kernel

end Verif.Crny
