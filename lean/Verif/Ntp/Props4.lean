import Verif.Ntp.Props3
import Mathlib.Tactic.Linarith
import Mathlib.Tactic.Ring

/-!
# Properties of the NTP module: protocols, polling, statistics, conflicts
-/

set_option linter.unusedVariables false
set_option linter.unusedSimpArgs false

namespace Verif.Ntp

/-! ## C182 -/

/-- ntpd does not run: no protocol can be established and every query is refused (`ECONNREFUSED` is 111). -/
def NotRunning (env : Env) : Prop :=
  ∀ p, (∀ c, env.test c p = false) ∧ env.sys p = .error 111 ∧ env.peers p = .error 111

/-- An event that sees an ntpd that does not run. -/
def Ev.sees (f : Env → Prop) : Ev → Prop
  | .timer env => f env
  | .control env _ _ => f env
  | _ => True

/-- Something was asked of ntpd. -/
def asked (o : List Out) : Bool := o.any fun x => match x with | .sys _ _ => true | .peers _ => true | _ => false

/-- **C182**: when ntpd is asked and does not run, the module is in the state disabled. -/
def C182_statement : Prop :=
  ∀ (c : Conf) (e : StartEnv) (es : List Ev) (m m' : Mod) (o o' : List Out) (env : Env), Life c e es m o → NotRunning env →
    step m (.timer env) = .ok (m', o') → asked o' = true → m'.state.st = .disabled

/-- ntpd is stopped after it has been seen. -/
theorem C182_violated : ¬ C182_statement := by
  intro h
  obtain ⟨m, o, hl, hm⟩ := witness (c := confA) (e := begin_ (env0 0 false [peerA])) (es := [.run (env0 1 false [])])
    (f := fun m o => match step m (.timer (gone 2)) with | .ok (m', o') => asked o' && m'.state.st = .faulty | .error _ => false) (by decide +kernel)
  split at hm
  · rename_i m' o' hs
    simp only [Bool.and_eq_true, decide_eq_true_eq] at hm
    have := h _ _ _ m m' o o' (gone 2) hl (fun p => ⟨fun _ => rfl, rfl, rfl⟩) hs hm.1
    rw [this] at hm
    cases hm.2
  · cases hm

/-- A chosen protocol is kept. -/
theorem selectProto_some (env : Env) (c : Call) (p : Proto) : selectProto env c (some p) = some p := rfl

theorem control_proto_some (env : Env) (key : Bool) (p : Proto) (on : Bool) : (control env key (some p) on).1 = some p := by
  unfold control
  rw [selectProto_some]
  dsimp only
  split <;> rfl

theorem getSys_some (env : Env) (p : Proto) : getSys env (some p) = (some p, env.sys p) := rfl
theorem getPeers_some (env : Env) (p : Proto) : getPeers env (some p) = (some p, env.peers p) := rfl

theorem chosenProto_some {env : Env} {m : Mod} {new : State} {p : Proto} (h : m.proto = some p) : chosenProto env m new = some p := by
  unfold chosenProto
  split
  · rw [h, control_proto_some]
  · exact h

theorem step_proto_some {m m' : Mod} {e : Ev} {o : List Out} {p : Proto} (h : m.proto = some p) (hstep : step m e = .ok (m', o)) :
    m'.proto = some p := by
  cases step_move hstep with
  | run h' hm => subst hm; exact h
  | sys hq h' => rw [h'.proto]; exact chosenProto_some (by rw [h]; rfl)
  | peers hq h' => rw [h'.proto]; exact chosenProto_some (by rw [h]; rfl)
  | control =>
    rw [(onControl_spec _ _ _ _).proto]
    split
    · rw [h, control_proto_some]
    · exact h
  | _ => exact h

theorem Life.proto {c : Conf} {e : StartEnv} {es : List Ev} {m : Mod} {o : List Out} (h : Life c e es m o) {p : Proto}
    (hp : (start c e).2.1.proto = some p) : m.proto = some p := by
  obtain ⟨_, o', hr, rfl⟩ := h
  exact run_effects (P := fun m _ _ => m.proto = some p) (es0 := []) (o0 := []) (fun _ _ _ _ _ _ k hs => step_proto_some k hs) hp hr

/-- **C182, what holds.** While nothing has ever answered, the module is disabled from the first poll on, as far as it
has polled; but once ntpd has been seen at the start, a poll of an ntpd that does not run gives the state faulty. -/
theorem C182_partial {c : Conf} {e : StartEnv} {es : List Ev} {m : Mod} {o : List Out} (h : Life c e es m o) :
    (NotRunning e.env → (∀ ev ∈ es, ev.sees NotRunning) → if asked o then m.state.st = .disabled else m.state.st = .listening) ∧
    (asked (start c e).2.2 = true → ∀ env m' o', NotRunning env → step m (.timer env) = .ok (m', o') → asked o' = true →
      m'.state.st = .faulty) := by
  constructor
  · intro h0 hes
    have nsel : ∀ env c, NotRunning env → selectProto env c none = none := by
      intro env c hn; simp [selectProto, (hn .mode7).1 c, (hn .mode6).1 c]
    have ncon : ∀ env key on, NotRunning env → (control env key none on).1 = none := by
      intro env key on hn; unfold control; rw [nsel _ _ hn]
    have quietAsked : ∀ {p : List Out}, (∀ x ∈ p, Quiet x) → asked p = false := by
      intro p hp
      unfold asked
      rw [List.any_eq_false]
      intro x hx
      cases x with
      | sys t a => exact absurd rfl ((hp _ hx).1 t a)
      | peers a => exact absurd rfl ((hp _ hx).2 a)
      | _ => simp
    have askedApp : ∀ a b, asked (a ++ b) = (asked a || asked b) := fun a b => List.any_append
    have := h.induct (P := fun m es o => (∀ ev ∈ es, ev.sees NotRunning) → m.proto = none ∧ if asked o then m.state.st = .disabled else m.state.st = .listening)
      (fun m o hs _ => by
        cases hs with
        | silent _ => exact ⟨rfl, rfl⟩
        | failed hp _ => rw [nsel _ _ h0] at hp; cases hp
        | known hp _ _ _ _ => rw [nsel _ _ h0] at hp; cases hp)
      (fun m es o ev m' o' k hs hes => by
        have k := k fun x hx => hes x (by simp [hx])
        have hev := hes ev (by simp)
        have same : ∀ {p : List Out} {m1 : Mod}, (∀ x ∈ p, Quiet x) → m1.state.st = m.state.st →
            if asked (o ++ p) then m1.state.st = .disabled else m1.state.st = .listening := by
          intro p m1 hp hst
          rw [askedApp, quietAsked hp, Bool.or_false, hst]; exact k.2
        cases step_move hs with
        | run h hm =>
          obtain ⟨info, hinfo, rfl⟩ := h
          subst hm
          refine ⟨k.1, same (fun x hx => ?_) rfl⟩
          rcases List.mem_append.1 hx with hx | hx
          · exact (hinfo x hx).quiet
          · split at hx
            · rw [List.mem_singleton] at hx; subst hx; exact ⟨nofun, nofun⟩
            · cases hx
        | @sys env _ q hq h =>
          have hev : NotRunning env := hev
          have hg : getSys env m.proto = (none, .error 92) := by unfold getSys; rw [k.1, nsel _ _ hev]; rfl
          have hst : (stored env { m with proto := (getSys env m.proto).1, query := .peerInfo } (sysState m.state m.unsafe_ env.score (getSys env m.proto).2)).st = .disabled := by
            rw [(stored_view _ _ _).st, hg]; rfl
          refine ⟨?_, ?_⟩
          · rw [h.proto]
            unfold chosenProto
            split
            · rw [hg]; exact ncon _ _ _ hev
            · rw [hg]
          · rw [askedApp]
            have : asked (Out.sys env.now (getSys env m.proto).2 :: q) = true := rfl
            rw [this, Bool.or_true, if_pos rfl, h.state, hst]
        | @peers env _ q hq h =>
          have hev : NotRunning env := hev
          have hg : getPeers env m.proto = (none, .error 92) := by unfold getPeers; rw [k.1, nsel _ _ hev]; rfl
          have hst : (stored env { m with proto := (getPeers env m.proto).1, query := .sleep } (peerState m.state m.unsafe_ env.score (getPeers env m.proto).2)).st = .disabled := by
            rw [(stored_view _ _ _).st, hg]; rfl
          refine ⟨?_, ?_⟩
          · rw [h.proto]
            unfold chosenProto
            split
            · rw [hg]; exact ncon _ _ _ hev
            · rw [hg]
          · rw [askedApp]
            have : asked (Out.peers (getPeers env m.proto).2 :: q) = true := rfl
            rw [this, Bool.or_true, if_pos rfl, h.state, hst]
        | @control env mask v =>
          have hc := onControl_spec env m mask v
          refine ⟨?_, same hc.quiet hc.view.st⟩
          rw [hc.proto]
          split
          · rw [k.1]; exact ncon _ _ _ hev
          · exact k.1
        | wake hq hn => exact ⟨k.1, same (by simp) rfl⟩
        | asleep hq hn => exact ⟨k.1, same (by simp) rfl⟩
        | step => exact ⟨k.1, same (by simp) rfl⟩
        | logStats hi => exact ⟨k.1, same (fun x hx => (hi x hx).quiet) rfl⟩
        | getStatus => exact ⟨k.1, same (fun x hx => by rw [List.mem_singleton] at hx; subst hx; exact ⟨nofun, nofun⟩) rfl⟩
        | saveState => exact ⟨k.1, same (by simp) rfl⟩
        | topology => exact ⟨k.1, same (by simp) rfl⟩)
    exact (this hes).2
  · intro ha env m' o' hn hs ho
    have hp : ∃ p, (start c e).2.1.proto = some p := by
      have hst := (start_ok h.1).2.2
      generalize (start c e).2.1 = m0 at hst
      generalize (start c e).2.2 = o0 at hst ha
      cases hst with
      | silent _ => cases ha
      | @failed p rc _ _ => exact ⟨p, rfl⟩
      | @known p cc l _ _ _ _ _ =>
        refine ⟨p, ?_⟩
        show (takeControl c e.env (some p) { cc := cc.getD true, peers := l }).2.1 = some p
        unfold takeControl
        split
        · dsimp only
          split
          · exact control_proto_some _ _ _ _
          · exact control_proto_some _ _ _ _
        · rfl
    obtain ⟨p, hp⟩ := hp
    have hmp := h.proto hp
    cases step_move hs with
    | sys hq h => rw [h.state, (stored_view _ _ _).st, hmp, getSys_some, (hn p).2.1]; rfl
    | peers hq h => rw [h.state, (stored_view _ _ _).st, hmp, getPeers_some, (hn p).2.2]; rfl
    | wake hq hn => cases ho
    | asleep hq hn => cases ho

example : check confA (begin_ (gone 0)) ([.run (gone 1)] ++ poll (gone 2)) (fun m o => m.state.st = .disabled && asked o) ∧
    check confA (begin_ (gone 0)) [.run (gone 1)] (fun m o => m.state.st = .listening && !asked o) := by decide +kernel

/-! ## C183 -/

/-- An ntpd that answers one protocol only. -/
def Speaks (p : Proto) (env : Env) : Prop :=
  ∀ q, if q = p then (∀ c, env.test c q = true) ∧ (∃ a, env.sys q = .ok a) ∧ ∃ l, env.peers q = .ok l
    else (∀ c, env.test c q = false) ∧ (∃ rc, rc ≠ 0 ∧ env.sys q = .error rc) ∧ ∃ rc, rc ≠ 0 ∧ env.peers q = .error rc

/-- **C183**: whichever of the two protocols ntpd speaks, the module can talk to it. -/
def C183_statement : Prop :=
  ∀ (c : Conf) (e : StartEnv) (es : List Ev) (m m' : Mod) (o o' : List Out) (env : Env) (p : Proto), Life c e es m o → Speaks p env →
    step m (.timer env) = .ok (m', o') → lastCode o' = none ∨ lastCode o' = some none

/-- An ntpd that speaks mode 6 only. -/
def six (now : Int) (l : List Peer) : Env :=
  ⟨fun _ p => p = .mode6, fun p => if p = .mode6 then .ok none else .error 110, fun p => if p = .mode6 then .ok l else .error 110, 0, now, true, 1⟩

/-- ntpd is replaced by a version that no longer speaks mode 7. -/
theorem C183_violated : ¬ C183_statement := by
  intro h
  obtain ⟨m, o, hl, hm⟩ := witness (c := confA) (e := begin_ (env0 0 false [peerA])) (es := [.run (env0 1 false [])])
    (f := fun m o => match step m (.timer (six 2 [])) with | .ok (m', o') => lastCode o' = some (some 110) | .error _ => false) (by decide +kernel)
  split at hm
  · rename_i m' o' hs
    simp only [decide_eq_true_eq] at hm
    have := h _ _ _ m m' o o' (six 2 []) .mode6 hl (fun q => by
      cases q
      · exact ⟨fun _ => rfl, ⟨110, by decide, rfl⟩, ⟨110, by decide, rfl⟩⟩
      · exact ⟨fun _ => rfl, ⟨none, rfl⟩, ⟨[], rfl⟩⟩) hs
    rw [hm] at this
    rcases this with h | h <;> cases h
  · cases hm

/-- **C183, what holds.** The first protocol to answer is used, mode 7 before mode 6; it is never given up; and with
none in use yet, an ntpd that speaks either is understood at the next poll. -/
theorem C183_partial {c : Conf} {e : StartEnv} {es : List Ev} {m m' : Mod} {o o' : List Out} {env : Env} {p : Proto}
    (h : Life c e es m o) (hsp : Speaks p env) (hs : step m (.timer env) = .ok (m', o')) :
    (∀ q, m.proto = some q → m'.proto = some q) ∧
    (m.proto = none ∨ m.proto = some p → lastCode o' = none ∨ lastCode o' = some none) ∧
    (m.proto = none → lastCode o' ≠ none → m'.proto = some p) := by
  have sel : ∀ c, selectProto env c none = some p := by
    intro c
    unfold selectProto
    have h7 := hsp .mode7
    have h6 := hsp .mode6
    cases p
    · simp only [if_true] at h7
      simp [h7.1 c]
    · simp only [if_true, reduceCtorEq, if_false] at h6 h7
      simp [h7.1 c, h6.1 c]
  have hp := hsp p
  simp only [if_true] at hp
  obtain ⟨_, ⟨a, ha⟩, l, hl⟩ := hp
  have gs : m.proto = none ∨ m.proto = some p → getSys env m.proto = (some p, .ok a) := by
    rintro (hn | hn) <;> rw [hn]
    · unfold getSys; rw [sel]; simp only [ha]
    · rw [getSys_some, ha]
  have gp : m.proto = none ∨ m.proto = some p → getPeers env m.proto = (some p, .ok l) := by
    rintro (hn | hn) <;> rw [hn]
    · unfold getPeers; rw [sel]; simp only [hl]
    · rw [getPeers_some, hl]
  refine ⟨fun q hq => step_proto_some hq hs, fun hn => ?_, fun hn hcode => ?_⟩
  · cases step_move hs with
    | @sys _ _ q hq h =>
      right
      rw [gs hn]
      have := code_sys [] q env.now (.ok a) h.quiet
      simpa using this
    | @peers _ _ q hq h =>
      right
      rw [gp hn]
      have := code_peers [] q (.ok l) h.quiet
      simpa using this
    | wake hq hn => exact .inl rfl
    | asleep hq hn => exact .inl rfl
  · cases step_move hs with
    | sys hq h => rw [h.proto]; exact chosenProto_some (by rw [gs (.inl hn)])
    | peers hq h => rw [h.proto]; exact chosenProto_some (by rw [gp (.inl hn)])
    | wake hq hn => exact absurd rfl hcode
    | asleep hq hn => exact absurd rfl hcode

example : check confP (begin_ (gone 0)) ([.run (gone 1), .timer (gone 2), .timer (six 2 [peerA])])
    (fun m o => m.proto = some .mode6 && m.state.st = .slave) := by decide +kernel

/-! ## C184 -/

/-- **C184**: ntpd is polled at intervals no shorter than the configured one. -/
def C184_statement : Prop :=
  ∀ (c : Conf) (e : StartEnv) (env : Env) (es : List Ev) (m0 m : Mod) (o0 o : List Out), Life c e [] m0 o0 →
    run (.run env :: es) m0 = .ok (m, o) → (∀ env', Ev.run env' ∉ es) → ((Ev.run env :: es).filterMap Ev.time).Pairwise (· ≤ ·) →
    ∀ (i : Nat) (a b : Int), (polls o)[i]? = some a → (polls o)[i + 1]? = some b → a + c.interval * 1000000000 ≤ b

/-- The time of the next poll is the start of the present one. -/
theorem C184_violated : ¬ C184_statement := by
  intro h
  have hc : (match run (.run (env0 0 false []) :: (poll (env0 1 false []) ++ poll (env0 2 false []))) (start confA (begin_ (env0 0 false []))).2.1 with
    | .ok (m, o) => polls o = [1, 2]
    | .error _ => false) = true := by decide +kernel
  split at hc
  · rename_i m o hr
    simp only [decide_eq_true_eq] at hc
    have := h confA (begin_ (env0 0 false [])) (env0 0 false []) _ _ m _ o ⟨by decide +kernel, [], rfl, rfl⟩ hr
      (by intro env' hm; simp [poll] at hm) (by decide) 0 1 2 (by rw [hc]; rfl) (by rw [hc]; rfl)
    revert this; decide
  · cases hc

/-- The progress of the polls. `k` polls were made since the run at `t`, the last time seen is `s`. -/
def Paced (t : Int) (iv : Nat) (m : Mod) (k : Nat) (s : Int) : Prop :=
  m.conf.interval = iv ∧ t ≤ s ∧
  match m.query with
  | .sysInfo => m.next = t + k * (iv * 1000000000) ∧ (0 < k → t + (k - 1) * (iv * 1000000000) < s)
  | _ => 0 < k ∧ m.next = t + (k - 1) * (iv * 1000000000)

theorem polls_append (a b : List Out) : polls (a ++ b) = polls a ++ polls b := List.filterMap_append

theorem polls_quiet {o : List Out} (h : ∀ x ∈ o, Quiet x) : polls o = [] := by
  unfold polls
  rw [List.filterMap_eq_nil_iff]
  intro x hx
  cases x with
  | sys t a => exact absurd rfl ((h _ hx).1 t a)
  | _ => rfl

/-- Each poll but the first is late enough. -/
def Spaced (t : Int) (iv : Nat) (l : List Int) : Prop :=
  ∀ (i : Nat) (b : Int), l[i + 1]? = some b → t + i * (iv * 1000000000) < b

theorem step_paced {t : Int} {iv : Nat} {m m' : Mod} {e : Ev} {o o' : List Out} {s : Int}
    (k : Paced t iv m (polls o).length s) (sp : Spaced t iv (polls o)) (hne : ∀ env, e ≠ .run env)
    (hle : ∀ x, e.time = some x → s ≤ x) (hstep : step m e = .ok (m', o')) :
    Paced t iv m' (polls (o ++ o')).length (e.time.getD s) ∧ Spaced t iv (polls (o ++ o')) := by
  obtain ⟨k1, k2, k3⟩ := k
  have same : ∀ {p : List Out} {s' : Int} {m1 : Mod}, (∀ x ∈ p, Quiet x) → m1.query = m.query → m1.next = m.next → m1.conf = m.conf → s ≤ s' →
      Paced t iv m1 (polls (o ++ p)).length s' ∧ Spaced t iv (polls (o ++ p)) := by
    intro p s' m1 hp h1 h2 h3 h4
    rw [polls_append, polls_quiet hp, List.append_nil]
    refine ⟨⟨by rw [h3]; exact k1, by omega, ?_⟩, sp⟩
    rw [h1, h2]
    cases hq : m.query with
    | sysInfo =>
      rw [hq] at k3
      exact ⟨k3.1, fun hk => lt_of_lt_of_le (k3.2 hk) h4⟩
    | peerInfo => rw [hq] at k3; exact k3
    | sleep => rw [hq] at k3; exact k3
  cases step_move hstep with
  | run h hm => exact absurd rfl (hne _)
  | @sys env _ q hq h =>
    have hs := hle env.now rfl
    rw [hq] at k3
    have hp : polls (o ++ .sys env.now (getSys env m.proto).2 :: q) = polls o ++ [env.now] := by
      rw [polls_append]
      show polls o ++ (env.now :: polls q) = _
      rw [polls_quiet h.quiet]
    rw [hp, List.length_append, List.length_singleton]
    refine ⟨⟨by rw [h.conf]; exact k1, by show t ≤ env.now; omega, ?_⟩, ?_⟩
    · rw [h.query, h.next]
      refine ⟨by omega, ?_⟩
      show m.next = _
      rw [k3.1]; push_cast; ring
    · intro i b hb
      by_cases hi : i + 1 < (polls o).length
      · rw [List.getElem?_append_left hi] at hb; exact sp i b hb
      · rw [List.getElem?_append_right (by omega)] at hb
        have : i + 1 - (polls o).length = 0 := by
          cases hx : i + 1 - (polls o).length with
          | zero => rfl
          | succ n => rw [hx] at hb; simp at hb
        rw [this] at hb
        simp only [List.getElem?_cons_zero, Option.some.injEq] at hb
        have hlen : (polls o).length = i + 1 := by omega
        have := k3.2 (by omega)
        rw [hlen] at this
        push_cast at this
        rw [show ((i : Int) + 1 - 1) = i by ring] at this
        omega
  | @peers env _ q hq h =>
    have hs := hle env.now rfl
    rw [hq] at k3
    have hp : polls (o ++ .peers (getPeers env m.proto).2 :: q) = polls o := by
      rw [polls_append]
      show polls o ++ polls q = _
      rw [polls_quiet h.quiet, List.append_nil]
    rw [hp]
    refine ⟨⟨by rw [h.conf]; exact k1, by show t ≤ env.now; omega, ?_⟩, sp⟩
    rw [h.query, h.next]
    exact k3
  | @wake env hq hn =>
    have hs := hle env.now rfl
    rw [hq] at k3
    rw [List.append_nil]
    refine ⟨⟨k1, by show t ≤ env.now; omega, ?_, fun _ => ?_⟩, sp⟩
    · show m.next + m.conf.interval * 1000000000 = _
      rw [k3.2, k1]; ring
    · show _ < env.now
      rw [← k3.2]; exact hn
  | @asleep env hq hn => exact same (by simp) rfl rfl rfl (hle env.now rfl)
  | @control env mask v =>
    have hc := onControl_spec env m mask v
    exact same hc.quiet hc.query hc.next hc.conf (Int.le_refl _)
  | step => exact same (by simp) rfl rfl rfl (Int.le_refl _)
  | logStats hi => exact same (fun x hx => (hi x hx).quiet) rfl rfl rfl (Int.le_refl _)
  | getStatus => exact same (fun x hx => by rw [List.mem_singleton] at hx; subst hx; exact ⟨nofun, nofun⟩) rfl rfl rfl (Int.le_refl _)
  | saveState => exact same (by simp) rfl rfl rfl (Int.le_refl _)
  | topology => exact same (by simp) rfl rfl rfl (Int.le_refl _)

theorem run_paced {t : Int} {iv : Nat} {es : List Ev} : ∀ {m m' : Mod} {o o' : List Out} {s : Int},
    Paced t iv m (polls o).length s → Spaced t iv (polls o) → (∀ env, Ev.run env ∉ es) → (s :: es.filterMap Ev.time).Pairwise (· ≤ ·) →
    run es m = .ok (m', o') → Spaced t iv (polls (o ++ o')) := by
  induction es with
  | nil => intro m m' o o' s k sp hn hp hr; cases hr; simpa using sp
  | cons e es ih =>
    intro m m' o o' s k sp hn hp hr
    rw [run] at hr
    cases hs : step m e with
    | error f => rw [hs] at hr; cases hr
    | ok r =>
      obtain ⟨m1, o1⟩ := r
      rw [hs] at hr
      dsimp only at hr
      cases hr' : run es m1 with
      | error f => rw [hr'] at hr; cases hr
      | ok r =>
        obtain ⟨m2, o2⟩ := r
        rw [hr'] at hr
        cases hr
        have hle : ∀ x, e.time = some x → s ≤ x := by
          intro x hx
          rw [List.filterMap_cons, hx] at hp
          exact (List.pairwise_cons.1 hp).1 x (by simp)
        have h1 := step_paced k sp (fun env hh => hn env (by simp [hh])) hle hs
        rw [← List.append_assoc]
        refine ih h1.1 h1.2 (fun env hm => hn env (by simp [hm])) ?_ hr'
        cases ht : e.time with
        | none => rw [List.filterMap_cons, ht] at hp; exact hp
        | some x => rw [List.filterMap_cons, ht] at hp; exact (List.pairwise_cons.1 hp).2

/-- **C184, what holds.** Counting from the time at which the module was told to run, the second poll comes at once and
every further one after another interval has passed; so there are never more than two polls above the number of full
intervals. -/
theorem C184_partial {c : Conf} {e : StartEnv} {env : Env} {es : List Ev} {m0 m : Mod} {o0 o : List Out} (h : Life c e [] m0 o0)
    (hr : run (.run env :: es) m0 = .ok (m, o)) (hn : ∀ env', Ev.run env' ∉ es)
    (ht : ((Ev.run env :: es).filterMap Ev.time).Pairwise (· ≤ ·)) :
    ∀ (i : Nat) (b : Int), (polls o)[i + 1]? = some b → env.now + i * (c.interval * 1000000000) < b := by
  rw [run] at hr
  cases hs : step m0 (.run env) with
  | error f => rw [hs] at hr; cases hr
  | ok r =>
    obtain ⟨m1, o1⟩ := r
    rw [hs] at hr
    dsimp only at hr
    cases hr' : run es m1 with
    | error f => rw [hr'] at hr; cases hr
    | ok r =>
      obtain ⟨m2, o2⟩ := r
      rw [hr'] at hr
      cases hr
      have hi : polls o1 = [] ∧ m1.query = .sysInfo ∧ m1.next = env.now ∧ m1.conf = m0.conf := by
        cases step_move hs with
        | run h hm =>
          obtain ⟨info, hinfo, rfl⟩ := h
          subst hm
          refine ⟨polls_quiet fun x hx => ?_, rfl, rfl, rfl⟩
          rcases List.mem_append.1 hx with hx | hx
          · exact (hinfo x hx).quiet
          · split at hx
            · rw [List.mem_singleton] at hx; subst hx; exact ⟨nofun, nofun⟩
            · cases hx
      refine run_paced (t := env.now) (iv := c.interval) (s := env.now) ?_ ?_ hn ht hr'
      · refine ⟨by rw [hi.2.2.2, h.conf], Int.le_refl _, ?_⟩
        rw [hi.2.1, hi.1, hi.2.2.1]
        exact ⟨by simp, by simp⟩
      · rw [hi.1]; intro i b hb; simp at hb

example : (match run (.run (env0 0 false []) :: (poll (env0 1 false []) ++ poll (env0 2 false []) ++ poll (env0 (17 * 1000000000) false []) ++ poll (env0 (18 * 1000000000) false [])))
      (start confA (begin_ (env0 0 false []))).2.1 with
    | .ok (m, o) => polls o = [1, 2, 17 * 1000000000]
    | .error _ => false) = true := by decide +kernel

end Verif.Ntp
