import Verif.PtpConf.Spec

set_option linter.unusedSimpArgs false
set_option linter.unusedVariables false

/-
# Lemmas: the options of PTP instances
-/

namespace Verif.PtpConf

variable {α : Type}

/-! ## Lines -/

theorem applyInsts_some {env : Env α} {f : Fn} {ps : List Text} : ∀ {cs cs' : List (Cfg α)},
    applyInsts env f ps cs = some cs' →
    cs'.length = cs.length ∧ ∀ (i : Nat) s', cs'[i]? = some s' → ∃ s, cs[i]? = some s ∧ parse env f s ps = .ok s' := by
  intro cs
  induction cs with
  | nil =>
    intro cs' h
    simp only [applyInsts, Option.some.injEq] at h
    subst h
    simp
  | cons c cs ih =>
    intro cs' h
    unfold applyInsts at h
    cases hp : parse env f c ps with
    | error e => rw [hp] at h; simp at h
    | ok c1 =>
      rw [hp] at h
      simp only [Option.map_eq_some_iff] at h
      obtain ⟨r, hr, rfl⟩ := h
      obtain ⟨h1, h2⟩ := ih hr
      refine ⟨by simp [h1], ?_⟩
      intro i s' hs
      cases i with
      | zero =>
        simp only [List.getElem?_cons_zero, Option.some.injEq] at hs
        subst hs
        exact ⟨c, rfl, hp⟩
      | succ i =>
        simp only [List.getElem?_cons_succ] at hs ⊢
        exact h2 i s' hs

theorem applyInsts_none {env : Env α} {f : Fn} {ps : List Text} : ∀ {cs : List (Cfg α)},
    applyInsts env f ps cs = none → ∃ s ∈ cs, ∃ e, parse env f s ps = .error e := by
  intro cs
  induction cs with
  | nil => intro h; simp [applyInsts] at h
  | cons c cs ih =>
    intro h
    unfold applyInsts at h
    cases hp : parse env f c ps with
    | error e => exact ⟨c, List.mem_cons_self .., e, hp⟩
    | ok c1 =>
      rw [hp] at h
      simp only [Option.map_eq_none_iff] at h
      obtain ⟨s, hs, e, he⟩ := ih h
      exact ⟨s, List.mem_cons_of_mem _ hs, e, he⟩

/-- An accepted option in the global section. -/
theorem step_global {env : Env α} {c c' : Conf α} {name : Text} {ps : List Text}
    (h : step env c (.opt none name ps) = .ok c') :
    Accepts env name ps c.glob c'.glob ∧ c'.insts.length = c.insts.length ∧
    ∀ (i : Nat) s', c'.insts[i]? = some s' → ∃ s, c.insts[i]? = some s ∧ Accepts env name ps s s' := by
  unfold step at h
  dsimp only at h
  cases hl : lookup name with
  | none => rw [hl] at h; cases h
  | some o =>
    rw [hl] at h
    dsimp only at h
    unfold globalOption at h
    split at h
    · cases h
    · rename_i ha
      have ha : arityOk o.arity ps.length = true := by simpa using ha
      cases hp : parse env o.fn c.glob ps with
      | error e => rw [hp] at h; cases h
      | ok g =>
        rw [hp] at h
        dsimp only at h
        cases hi : applyInsts env o.fn ps c.insts with
        | none => rw [hi] at h; cases h
        | some is =>
          rw [hi] at h
          cases h
          obtain ⟨h1, h2⟩ := applyInsts_some hi
          refine ⟨⟨o, hl, ha, hp⟩, h1, ?_⟩
          intro i s' hs
          obtain ⟨s, h3, h4⟩ := h2 i s' hs
          exact ⟨s, h3, o, hl, ha, h4⟩

/-- An accepted option of an instance. -/
theorem step_instance {env : Env α} {c c' : Conf α} {name : Text} {ps : List Text} {i : Nat}
    (h : step env c (.opt (some i) name ps) = .ok c') :
    ∃ s s', c.insts[i]? = some s ∧ Accepts env name ps s s' ∧ c'.glob = c.glob ∧ c'.insts = c.insts.set i s' ∧
      (∀ o, lookup name = some o → o.isGlobal = false) := by
  unfold step at h
  dsimp only at h
  cases hl : lookup name with
  | none => rw [hl] at h; cases h
  | some o =>
    rw [hl] at h
    dsimp only at h
    unfold instOption at h
    cases hs : c.insts[i]? with
    | none => rw [hs] at h; cases h
    | some s =>
      rw [hs] at h
      dsimp only at h
      split at h
      · cases h
      · rename_i hg
        split at h
        · cases h
        · rename_i ha
          have ha : arityOk o.arity ps.length = true := by simpa using ha
          cases hp : parse env o.fn s ps with
          | error e => rw [hp] at h; cases h
          | ok s' =>
            rw [hp] at h
            cases h
            refine ⟨s, s', rfl, ⟨o, hl, ha, hp⟩, rfl, rfl, ?_⟩
            intro o' ho
            cases ho
            simpa using hg

/-- An invariant of the settings of every section. -/
theorem run_inv {env : Env α} (Inv : Cfg α → Prop) (Ok : Text → Prop)
    (hdom : ∀ c d, 0 ≤ d → d ≤ 255 → Inv c → Inv { c with domain := d })
    (hif : ∀ (c : Cfg α) t, Inv c → Inv { c with misc := { c.misc with interfaceName := ifName t } })
    (hopt : ∀ name ps c c', Ok name → Inv c → Accepts env name ps c c' → Inv c') :
    ∀ (ls : List Line) (c c' : Conf α), (∀ sec name ps, .opt sec name ps ∈ ls → Ok name) →
      (∀ s ∈ c.glob :: c.insts, Inv s) → run env c ls = .ok c' → ∀ s ∈ c'.glob :: c'.insts, Inv s := by
  intro ls
  induction ls with
  | nil =>
    intro c c' _ h0 h
    simp only [run, Out.ok.injEq] at h
    subst h
    exact h0
  | cons l ls ih =>
    intro c c' hok h0 h
    unfold run at h
    cases hs : step env c l with
    | err e => rw [hs] at h; cases h
    | abort => rw [hs] at h; cases h
    | ok c1 =>
      rw [hs] at h
      refine ih c1 c' (fun sec name ps hm => hok sec name ps (List.mem_cons_of_mem _ hm)) ?_ h
      have hg := h0 c.glob (List.mem_cons_self ..)
      have hi : ∀ s ∈ c.insts, Inv s := fun s hs => h0 s (List.mem_cons_of_mem _ hs)
      cases l with
      | cliDomain d =>
        simp only [step] at hs
        split at hs
        · cases hs; exact h0
        · rename_i hd
          cases hs
          intro s hm
          rcases List.mem_cons.1 hm with rfl | hm
          · exact hdom _ d (by omega) (by omega) hg
          · exact hi s hm
      | cliInterface t =>
        simp only [step, Out.ok.injEq] at hs
        subst hs
        intro s hm
        rcases List.mem_cons.1 hm with rfl | hm
        · exact hif _ t hg
        · exact hi s hm
      | inst =>
        simp only [step, Out.ok.injEq] at hs
        subst hs
        intro s hm
        rcases List.mem_cons.1 hm with rfl | hm
        · exact hg
        · rcases List.mem_append.1 hm with hm | hm
          · exact hi s hm
          · rw [List.mem_singleton.1 hm]; exact hg
      | opt sec name ps =>
        have hn := hok sec name ps (List.mem_cons_self ..)
        cases sec with
        | none =>
          obtain ⟨h1, h2, h3⟩ := step_global hs
          intro s hm
          rcases List.mem_cons.1 hm with rfl | hm
          · exact hopt _ _ _ _ hn hg h1
          · obtain ⟨i, hlt, rfl⟩ := List.mem_iff_getElem.1 hm
            obtain ⟨s0, h4, h5⟩ := h3 i _ (List.getElem?_eq_getElem hlt)
            exact hopt _ _ _ _ hn (hi s0 (List.mem_of_getElem? h4)) h5
        | some i =>
          obtain ⟨s0, s1, h1, h2, h3, h4, _⟩ := step_instance hs
          intro s hm
          rw [h3, h4] at hm
          rcases List.mem_cons.1 hm with rfl | hm
          · exact hg
          · rcases List.mem_or_eq_of_mem_set hm with hm | rfl
            · exact hi s hm
            · exact hopt _ _ _ _ hn (hi s0 (List.mem_of_getElem? h1)) h2

/-! ## Numbers -/

theorem intIn_ok {lo hi : Int} {t : Text} {v : Int} (h : intIn lo hi t = .ok v) :
    scanI t = some v ∧ lo ≤ v ∧ v ≤ hi := by
  unfold intIn at h
  cases hs : scanI t with
  | none => rw [hs] at h; cases h
  | some w =>
    rw [hs] at h
    dsimp only at h
    split at h
    · cases h
    · cases h
      refine ⟨rfl, by omega, by omega⟩

theorem scanU_lt {t : Text} {v : Nat} (h : scanU t = some v) : v < 4294967296 := by
  unfold scanU at h
  simp only [Option.map_eq_some_iff] at h
  obtain ⟨m, _, rfl⟩ := h
  exact Nat.mod_lt _ (by decide)

theorem monLoop_le {env : Env α} {b : Bool} : ∀ {ts : List Text} {ds ds' : List α},
    monLoop env b ts ds = .ok ds' → ds.length ≤ 6 → ds'.length ≤ 6 := by
  intro ts
  induction ts with
  | nil => intro ds ds' h; cases h; exact id
  | cons t ts ih =>
    intro ds ds' h hl
    unfold monLoop at h
    split at h
    · cases h
    · rename_i hn
      split at h
      · cases h
      · split at h
        · cases h
        · refine ih h ?_
          simp only [maxDests] at hn
          simp
          omega

/-! ## Limits -/

/-- The invariant of the settings. -/
def Inv (c : Cfg α) : Prop :=
  Allowed (c.profile.getD .defaultE2E) c.timing.announce c.timing.sync c.timing.delayReq c.timing.pdelayReq
    c.timing.announceTimeout ∧ Fits c

theorem inv_init : Inv (Cfg.init α) := by
  refine ⟨?_, ?_⟩
  · simp only [Cfg.init, Option.getD_none, Allowed]; omega
  · constructor <;> simp [Cfg.init]

theorem profileDef_allowed (p : Profile) : Allowed p (profileDef p).announce.dflt (profileDef p).sync.dflt
    (profileDef p).delayReq.dflt (profileDef p).delayReq.dflt (profileDef p).timeout.dflt := by
  cases p <;> simp [profileDef, Allowed]

theorem inv_parse {env : Env α} {f : Fn} {c c' : Cfg α} {ps : List Text} (hi : Inv c)
    (h : parse env f c ps = .ok c') : Inv c' := by
  obtain ⟨ha, hf⟩ := hi
  cases f <;> simp only [parse] at h
  case profile =>
    simp only [parseProfile] at h
    split at h
    · cases h
    · rename_i p _
      cases h
      refine ⟨?_, ?_⟩
      · exact profileDef_allowed p
      · cases hf; constructor <;> assumption
  case mechanism =>
    simp only [parseMechanism] at h
    split at h
    · cases h
    · split at h
      · cases h
      · cases h
        refine ⟨ha, ?_⟩
        cases hf; constructor <;> assumption
  case interface =>
    simp only [parseInterface, Except.ok.injEq] at h
    subst h
    refine ⟨ha, ?_⟩
    cases hf
    constructor <;> first | assumption | skip
    simp only [ifName, List.length_take]
    omega
  case priority =>
    simp only [parsePriority] at h
    split at h
    · cases h
    · rename_i v hv
      cases h
      refine ⟨ha, ?_⟩
      cases hf
      constructor <;> first | assumption | exact scanU_lt hv
  case announce =>
    simp only [parseAnnounce] at h
    split at h
    · cases h
    · rename_i v hv
      cases h
      obtain ⟨_, h1, h2⟩ := intIn_ok hv
      refine ⟨?_, ?_⟩
      · revert ha h1 h2
        cases hp : c.profile with
        | none => simp only [getProfileDef, Option.getD_none, profileDef, Allowed]; omega
        | some p => cases p <;> simp only [getProfileDef, Option.getD_some, profileDef, Allowed] <;> omega
      · cases hf; constructor <;> assumption
  case announceTimeout =>
    simp only [parseAnnounceTimeout] at h
    split at h
    · cases h
    · rename_i v hv
      cases h
      obtain ⟨_, h1, h2⟩ := intIn_ok hv
      refine ⟨?_, ?_⟩
      · revert ha h1 h2
        cases hp : c.profile with
        | none => simp only [getProfileDef, Option.getD_none, profileDef, Allowed]; omega
        | some p => cases p <;> simp only [getProfileDef, Option.getD_some, profileDef, Allowed] <;> omega
      · cases hf; constructor <;> assumption
  case sync =>
    simp only [parseSync] at h
    split at h
    · cases h
    · rename_i v hv
      cases h
      obtain ⟨_, h1, h2⟩ := intIn_ok hv
      refine ⟨?_, ?_⟩
      · revert ha h1 h2
        cases hp : c.profile with
        | none => simp only [getProfileDef, Option.getD_none, profileDef, Allowed]; omega
        | some p => cases p <;> simp only [getProfileDef, Option.getD_some, profileDef, Allowed] <;> omega
      · cases hf; constructor <;> assumption
  case delayReq =>
    simp only [parseDelayReq] at h
    split at h
    · cases h
    · rename_i v hv
      cases h
      obtain ⟨_, h1, h2⟩ := intIn_ok hv
      refine ⟨?_, ?_⟩
      · revert ha h1 h2
        cases hp : c.profile with
        | none => simp only [getProfileDef, Option.getD_none, profileDef, Allowed]; omega
        | some p => cases p <;> simp only [getProfileDef, Option.getD_some, profileDef, Allowed] <;> omega
      · cases hf; constructor <;> assumption
  case missing =>
    simp only [parseMissing] at h
    split at h
    · cases h
    · rename_i a hv
      split at h
      · cases h
      · rename_i b hw
        cases h
        obtain ⟨_, h1⟩ := intIn_ok hv
        obtain ⟨_, h2⟩ := intIn_ok hw
        refine ⟨ha, ?_⟩
        cases hf
        constructor <;> assumption
  case monAddr =>
    simp only [parseMonAddr] at h
    split at h
    · cases h
    · rename_i ds hd
      cases h
      have := monLoop_le hd hf.dests
      refine ⟨ha, ?_⟩
      cases hf
      constructor <;> assumption
  case discriminator =>
    simp only [parseDiscriminator] at h
    split at h
    · cases h
    · rename_i hn
      split at h
      · cases h
      · cases h
        have : (p0 ps).length < 64 := by simp only [nameMax] at hn; omega
        refine ⟨ha, ?_⟩
        cases hf
        constructor <;> assumption
  case utcHandling =>
    simp only [parseUtcHandling] at h
    repeat' split at h
    all_goals first | (cases h; done) | skip
    all_goals
      simp only [Except.ok.injEq] at h
      subst h
      refine ⟨ha, ?_⟩
      cases hf
      constructor <;> assumption
  case commCaps =>
    simp only [parseCommCaps] at h
    repeat' split at h
    all_goals first | (cases h; done) | skip
    all_goals
      simp only [Except.ok.injEq] at h
      subst h
      refine ⟨ha, ?_⟩
      cases hf
      constructor <;> assumption
  case ageing =>
    simp only [parseAgeing] at h
    repeat' split at h
    all_goals first | (cases h; done) | skip
    all_goals
      simp only [Except.ok.injEq] at h
      subst h
      refine ⟨ha, ?_⟩
      cases hf
      constructor <;> assumption
  all_goals
    try simp only [parseVersion, parseMode, parseTransport, parseScope, parseThreshold, parseTimestamping,
      parseTxLatency, parseRxLatency, parseNetworkMode, parseTtl, parseUtcOffset, parseTimescale, parseDomain,
      parseMgmt, parseTimingAllow, parseTimingDeny, parseTimingOrder, parseMgmtAllow, parseMgmtDeny,
      parseMgmtOrder, parseMonAllow, parseMonDeny, parseMonOrder, parseSyncTimeout, parseDelayRespTimeout,
      parseMaxForeign, parsePriority1, parsePriority2, parseTrace, parseIgnorePort, parseKp, parseKi,
      parseOutlierSize, parseAdaption, parseMpdSize, parseFirSize, parseRxTiming, parseRxComputed, parseTxEvent,
      parseOnload, parseBypass] at h
    try
      repeat' split at h
    all_goals first | (cases h; done) | skip
    all_goals
      simp only [Except.ok.injEq] at h
      subst h
      refine ⟨ha, ?_⟩
      cases hf
      constructor <;> first | assumption | exact (intIn_ok (by assumption)).2

theorem accepts_parse {env : Env α} {name : Text} {ps : List Text} {c c' : Cfg α}
    (h : Accepts env name ps c c') : ∃ f, parse env f c ps = .ok c' := by
  obtain ⟨o, _, _, h⟩ := h
  exact ⟨o.fn, h⟩

theorem inv_sound {c : Cfg α} (h : Inv c) : Sound (created c) := by
  obtain ⟨ha, hf⟩ := h
  unfold created
  cases hp : c.profile with
  | none =>
    rw [hp] at ha
    dsimp only
    split
    · refine ⟨⟨_, rfl, ?_⟩, ?_⟩
      · dsimp only
        split <;> exact ha
      · cases hf; constructor <;> assumption
    · refine ⟨⟨_, rfl, ?_⟩, ?_⟩
      · dsimp only
        split <;> exact ha
      · cases hf; constructor <;> assumption
  | some p =>
    rw [hp] at ha
    dsimp only
    split
    · exact ⟨⟨p, hp, ha⟩, by cases hf; constructor <;> assumption⟩
    · exact ⟨⟨p, hp, ha⟩, hf⟩

end Verif.PtpConf
