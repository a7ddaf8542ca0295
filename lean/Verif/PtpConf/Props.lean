import Verif.PtpConf.Names

set_option linter.unusedSimpArgs false
set_option linter.unusedVariables false

/-
# Properties C331 to C335: limits, profiles, modes and keywords
-/

namespace Verif.PtpConf

variable {α : Type}

/-- A C library for the examples: words for not-a-number and one half; all
addresses can be resolved. -/
def libc : Env Nat where
  scanF t := if t = "nan".toList then some .nan else if t = "0.5".toList then some (.num (1 / 2)) else none
  resolve _ n _ := some n.length

/-- An option line for the examples. -/
def o (sec : Option Nat) (name : String) (ps : List String) : Line := .opt sec name.toList (ps.map String.toList)

/-- Whether a configuration is accepted. -/
def Out.isOk : Out α → Bool
  | .ok _ => true
  | _ => false

/-- The instances of an accepted configuration. -/
def Out.insts : Out α → List (Cfg α)
  | .ok c => c.insts
  | _ => []

/-- The global settings of an accepted configuration. -/
def Out.glob? : Out α → Option (Cfg α)
  | .ok c => some c.glob
  | _ => none

/-! ## C331: limits -/

/-- C331: whatever the configuration, if it is accepted then every instance is
created with settings within the limits of its profile and of the fields and
filters they are used for. -/
theorem C331_limits (env : Env α) (ls : List Line) (c : Conf α) (h : run env (.init α) ls = .ok c) :
    ∀ s ∈ c.insts, Sound (created s) := by
  intro s hs
  refine inv_sound ?_
  refine run_inv (env := env) Inv (fun _ => True) ?_ ?_ ?_ ls (.init α) c (fun _ _ _ _ => trivial) ?_ h s
    (List.mem_cons_of_mem _ hs)
  · intro c d h0 h1 hi
    obtain ⟨ha, hf⟩ := hi
    refine ⟨ha, ?_⟩
    cases hf
    constructor <;> first | assumption | exact ⟨h0, h1⟩
  · intro c t hi
    obtain ⟨ha, hf⟩ := hi
    refine ⟨ha, ?_⟩
    cases hf
    constructor <;> first | assumption | skip
    simp only [ifName, List.length_take]
    omega
  · intro name ps c c' _ hi h
    obtain ⟨f, hf⟩ := accepts_parse h
    exact inv_parse hi hf
  · intro s hs
    simp only [Conf.init, List.mem_singleton] at hs
    rw [hs]
    exact inv_init

example :
    ((run libc (.init Nat) [.cliDomain 300, .inst, o none "ptp_profile" ["enterprise"],
      o (some 0) "ptp_sync_pkt_interval" ["-3"], o (some 0) "ptp_domain" ["127"]]).insts.map
      (fun c => (c.timing.announce, c.timing.announceTimeout, c.timing.sync, c.domain))) = [(0, 3, -3, 127)] := by
  decide +kernel

/-! ## C332: the delay mechanism of the profile -/

/-- C332: an instance measures the path with a mechanism of its profile. -/
def C332_statement : Prop :=
  ∀ (α : Type) (env : Env α) (ls : List Line) (c : Conf α), run env (.init α) ls = .ok c →
    ∀ s ∈ c.insts, ∀ p, (created s).profile = some p → Supports p (created s).mech

/-- C332 does not hold: the peer-to-peer profile alone leaves the end-to-end
mechanism in place. -/
theorem C332_violated : ¬ C332_statement := by
  intro h
  have h1 := h Nat libc [.inst, o none "ptp_profile" ["default-p2p"]] _ rfl _ (List.mem_cons_self ..) .defaultP2P rfl
  cases h1

/-- The profile, if any is set, has the mechanism. -/
def Agrees (c : Cfg α) : Prop := ∀ p, c.profile = some p → Supports p c.mech

theorem agrees_created {c : Cfg α} (h : Agrees c) : ∀ p, (created c).profile = some p → Supports p (created c).mech := by
  intro p
  unfold created
  cases hp : c.profile with
  | none =>
    dsimp only
    cases hm : c.mech
    · simp only [reduceCtorEq, if_false]
      split
      · dsimp only; rintro ⟨⟩; exact .e2e
      · dsimp only; rintro ⟨⟩; exact .e2e
    · simp only [if_true]
      split
      · dsimp only; rintro ⟨⟩; exact .p2p
      · dsimp only; rintro ⟨⟩; exact .p2p
  | some q =>
    dsimp only
    split
    · exact h p
    · exact h p

/-- A mechanism that is accepted is one of the profile. -/
theorem agrees_mechanism {env : Env α} {ps : List Text} {c c' : Cfg α}
    (h : Accepts env "ptp_delay_mechanism".toList ps c c') : Agrees c' := by
  obtain ⟨o, hl, _, h⟩ := h
  have hl := Option.some.inj ((rfl : lookup _ = some _).symm.trans hl)
  rw [← hl] at h
  simp only [parse, parseMechanism] at h
  split at h
  · cases h
  · rename_i m _
    split at h
    · cases h
    · rename_i hn
      cases h
      intro p hp
      dsimp only at hp ⊢
      rw [hp] at hn
      simp only [ne_eq, reduceCtorEq, not_false_eq_true, and_true, Decidable.not_not] at hn
      cases p <;> cases m <;> first | constructor | (simp [getProfileDef, profileDef] at hn)

theorem agrees_other {env : Env α} {name : Text} {ps : List Text} {c c' : Cfg α} (hn : name ≠ "ptp_profile".toList)
    (hc : Agrees c) (h : Accepts env name ps c c') : Agrees c' := by
  by_cases hm : name = "ptp_delay_mechanism".toList
  · subst hm; exact agrees_mechanism h
  · obtain ⟨o, hl, _, h⟩ := h
    have hmem : o ∈ options := List.mem_of_find?_eq_some hl
    have hname : name = o.name := by simpa using List.find?_some hl
    have : c'.profile = c.profile ∧ c'.mech = c.mech := by
      rw [hname] at hn hm
      clear hl hname hc
      revert hmem
      have hf : o.fn ≠ .profile ∧ o.fn ≠ .mechanism ∨ o ∉ options := by
        by_cases hmem : o ∈ options
        · left
          have key : ∀ o ∈ options, o.name ≠ "ptp_profile".toList → o.name ≠ "ptp_delay_mechanism".toList →
              o.fn ≠ .profile ∧ o.fn ≠ .mechanism := by decide +kernel
          exact key o hmem hn hm
        · exact .inr hmem
      intro hmem
      rcases hf with ⟨hf1, hf2⟩ | hf
      · generalize o.fn = f at h hf1 hf2
        cases f <;> simp only [parse] at h
        case profile => exact absurd rfl hf1
        case mechanism => exact absurd rfl hf2
        all_goals
          try simp only [parseVersion, parseMode, parseInterface, parseTransport, parseScope, parsePriority,
            parseThreshold, parseTimestamping, parseTxLatency, parseRxLatency, parseNetworkMode, parseTtl,
            parseUtcOffset, parseUtcHandling, parseTimescale, parseDomain,
            parseMgmt, parseTimingAllow, parseTimingDeny, parseTimingOrder, parseMgmtAllow, parseMgmtDeny,
            parseMgmtOrder, parseMonAllow, parseMonDeny, parseMonOrder, parseAnnounce, parseAnnounceTimeout, parseSync,
            parseSyncTimeout, parseDelayReq, parseDelayRespTimeout, parseMissing,
            parseMaxForeign, parsePriority1, parsePriority2, parseTrace, parseIgnorePort, parseKp, parseKi,
            parseOutlierSize, parseAdaption, parseMpdSize, parseAgeing, parseFirSize, parseMonAddr, parseRxTiming,
            parseRxComputed, parseTxEvent, parseDiscriminator, parseCommCaps,
            parseOnload, parseBypass] at h
          try
            repeat' split at h
          all_goals first | (cases h; done) | skip
          all_goals
            have h := Except.ok.inj h
            subst h
            exact ⟨rfl, rfl⟩
      · exact absurd hmem hf
    intro p hp
    rw [this.2]
    exact hc p (this.1 ▸ hp)

theorem run_append {env : Env α} : ∀ {ls1 ls2 : List Line} {c c' : Conf α},
    run env c (ls1 ++ ls2) = .ok c' → ∃ c1, run env c ls1 = .ok c1 ∧ run env c1 ls2 = .ok c' := by
  intro ls1
  induction ls1 with
  | nil => intro ls2 c c' h; exact ⟨c, rfl, h⟩
  | cons l ls1 ih =>
    intro ls2 c c' h
    simp only [List.cons_append, run] at h
    cases hs : step env c l with
    | err e => rw [hs] at h; cases h
    | abort => rw [hs] at h; cases h
    | ok c0 =>
      rw [hs] at h
      obtain ⟨c1, h1, h2⟩ := ih h
      exact ⟨c1, by simp only [run, hs]; exact h1, h2⟩

/-- C332, partial: the mechanism is one of the profile if no profile is named
in the configuration, or if after the last profile the global section names a
mechanism. (Missing: a profile not followed by a mechanism in the global
section; its own mechanism is not applied.) -/
theorem C332_partial (env : Env α) (ls1 ls2 : List Line) (w : List Text) (c : Conf α)
    (hp : ∀ sec ps, .opt sec "ptp_profile".toList ps ∉ ls2)
    (h : run env (.init α) ls2 = .ok c ∨
      run env (.init α) (ls1 ++ .opt none "ptp_delay_mechanism".toList w :: ls2) = .ok c) :
    ∀ s ∈ c.insts, ∀ p, (created s).profile = some p → Supports p (created s).mech := by
  intro s hs
  refine agrees_created ?_
  have main : ∀ c0, (∀ s ∈ c0.glob :: c0.insts, Agrees s) → run env c0 ls2 = .ok c → Agrees s := by
    intro c0 h0 hr
    refine run_inv (env := env) Agrees (fun n => n ≠ "ptp_profile".toList) ?_ ?_ ?_ ls2 c0 c ?_ h0 hr s
      (List.mem_cons_of_mem _ hs)
    · intro c d _ _ hi; exact hi
    · intro c t hi; exact hi
    · intro name ps c c' hn hi h; exact agrees_other hn hi h
    · intro sec name ps hm he
      subst he
      exact hp sec ps hm
  rcases h with h | h
  · refine main (.init α) ?_ h
    intro s hs
    simp only [Conf.init, List.mem_singleton] at hs
    rw [hs]
    intro p hp
    cases hp
  · obtain ⟨c1, _, h1⟩ := run_append h
    unfold run at h1
    cases hs1 : step env c1 (.opt none "ptp_delay_mechanism".toList w) with
    | err e => rw [hs1] at h1; cases h1
    | abort => rw [hs1] at h1; cases h1
    | ok c2 =>
      rw [hs1] at h1
      refine main c2 ?_ h1
      obtain ⟨hg, _, hi⟩ := step_global hs1
      intro s hs
      rcases List.mem_cons.1 hs with rfl | hs
      · exact agrees_mechanism hg
      · obtain ⟨i, hlt, rfl⟩ := List.mem_iff_getElem.1 hs
        obtain ⟨s0, _, h5⟩ := hi i _ (List.getElem?_eq_getElem hlt)
        exact agrees_mechanism h5

example : ((run libc (.init Nat) [.inst, o none "ptp_profile" ["default-p2p"],
    o none "ptp_delay_mechanism" ["peer-to-peer"], .inst]).insts.map (fun c => ((created c).profile, (created c).mech))) =
    [(some .defaultP2P, .p2p), (some .defaultP2P, .p2p)] := by decide +kernel

example : ((run libc (.init Nat) [.inst, o (some 0) "ptp_delay_mechanism" ["peer-to-peer"], .inst]).insts.map
    (fun c => ((created c).profile, (created c).mech))) = [(some .defaultP2P, .p2p), (some .defaultE2E, .e2e)] := by
  decide +kernel

/-! ## C333: the version -/

/-- C333: an instance announces its communication capabilities only with
version 2.1, and asking for them with version 2.0 is refused. -/
theorem C333_capabilities (env : Env α) (c : Cfg α) :
    ((created c).commCaps = true → (created c).minor ≥ 1) ∧ (created c).minor = c.minor ∧
    (c.minor ≥ 1 → (created c).commCaps = c.commCaps) ∧
    (c.minor = 0 → ∀ c', ¬ Accepts env "announce_comm_caps".toList ["on".toList] c c') := by
  refine ⟨?_, ?_, ?_, ?_⟩
  · unfold created
    cases c.profile <;> dsimp only <;> split
    · intro h; cases h
    · intro _; dsimp only at *; omega
    · intro h; cases h
    · intro _; omega
  · unfold created
    cases c.profile <;> dsimp only <;> split <;> rfl
  · intro hm
    unfold created
    cases c.profile <;> dsimp only <;> rw [if_neg (by omega)]
  · intro hm c' h
    obtain ⟨o, hl, _, h⟩ := h
    have hl := Option.some.inj ((rfl : lookup _ = some _).symm.trans hl)
    rw [← hl] at h
    have h : parseCommCaps c ["on".toList] = .ok c' := h
    unfold parseCommCaps at h
    rw [show onOff (p0 ["on".toList]) = .ok true from rfl] at h
    dsimp only at h
    rw [if_pos ⟨hm, rfl⟩] at h
    cases h

example : ((run libc (.init Nat) [o none "ptp_version" ["2.1"], .inst, o (some 0) "announce_comm_caps" ["on"],
    o none "ptp_version" ["2.0"]]).insts.map (fun c => (c.commCaps, (created c).commCaps))) = [(true, false)] := by
  decide +kernel

/-! ## C334: the mode and the handling of UTC -/

/-- At most one way to handle the UTC offset is chosen. -/
def OneUtc (u : Utc) : Prop :=
  [u.override, u.always, u.prefer, u.require].count true ≤ 1 ∧ (u.override = false → u.overrideSecs = 0)

theorem mode_parse {env : Env α} {f : Fn} {c c' : Cfg α} {ps : List Text} (hi : IsMode c.role ∧ OneUtc c.utc)
    (h : parse env f c ps = .ok c') : IsMode c'.role ∧ OneUtc c'.utc := by
  cases f <;> simp only [parse] at h
  case mode =>
    simp only [parseMode] at h
    repeat' split at h
    all_goals first | (cases h; done) | skip
    all_goals
      have h := Except.ok.inj h
      subst h
      refine ⟨?_, hi.2⟩
      constructor
  case utcHandling =>
    simp only [parseUtcHandling] at h
    repeat' split at h
    all_goals first | (cases h; done) | skip
    all_goals
      have h := Except.ok.inj h
      subst h
      refine ⟨hi.1, ?_⟩
      simp [OneUtc]
  all_goals
    try simp only [parseProfile, parseVersion, parseInterface, parseTransport, parseScope, parsePriority,
      parseThreshold, parseTimestamping,
      parseTxLatency, parseRxLatency, parseMechanism, parseNetworkMode, parseTtl, parseUtcOffset,
      parseTimescale, parseDomain,
      parseMgmt, parseTimingAllow, parseTimingDeny, parseTimingOrder, parseMgmtAllow, parseMgmtDeny,
      parseMgmtOrder, parseMonAllow, parseMonDeny, parseMonOrder, parseAnnounce, parseAnnounceTimeout, parseSync,
      parseSyncTimeout, parseDelayReq, parseDelayRespTimeout, parseMissing,
      parseMaxForeign, parsePriority1, parsePriority2, parseTrace, parseIgnorePort, parseKp, parseKi,
      parseOutlierSize, parseAdaption, parseMpdSize, parseAgeing, parseFirSize, parseMonAddr, parseRxTiming,
      parseRxComputed, parseTxEvent, parseDiscriminator, parseCommCaps,
      parseOnload, parseBypass] at h
    try
      repeat' split at h
    all_goals first | (cases h; done) | skip
    all_goals
      have h := Except.ok.inj h
      subst h
      exact hi

/-- C334: every instance is in exactly one of the four modes, and follows at
most one rule about the validity of the UTC offset. -/
theorem C334_modes (env : Env α) (ls : List Line) (c : Conf α) (h : run env (.init α) ls = .ok c) :
    ∀ s ∈ c.insts, IsMode s.role ∧ OneUtc s.utc := by
  intro s hs
  refine run_inv (env := env) (fun s => IsMode s.role ∧ OneUtc s.utc) (fun _ => True) ?_ ?_ ?_ ls (.init α) c
    (fun _ _ _ _ => trivial) ?_ h s (List.mem_cons_of_mem _ hs)
  · intro c d _ _ hi; exact hi
  · intro c t hi; exact hi
  · intro name ps c c' _ hi h
    obtain ⟨f, hf⟩ := accepts_parse h
    exact mode_parse hi hf
  · intro s hs
    simp only [Conf.init, List.mem_singleton] at hs
    rw [hs]
    exact ⟨.slave, by simp [OneUtc, Cfg.init]⟩

/-- C334: the rules about the UTC offset are set by their words, and the
override with a number only. -/
theorem C334_utc (env : Env α) (c c' : Cfg α) (ps : List Text)
    (h : Accepts env "ptp_utc_valid_handling".toList ps c c') :
    (ps = ["default".toList] ∧ c'.utc.override = false ∧ c'.utc.always = false ∧ c'.utc.prefer = false ∧ c'.utc.require = false) ∨
    (ps = ["ignore".toList] ∧ c'.utc.always = true) ∨ (ps = ["prefer".toList] ∧ c'.utc.prefer = true) ∨
    (ps = ["require".toList] ∧ c'.utc.require = true) ∨
    (∃ t, ps = ["override".toList, t] ∧ c'.utc.override = true ∧
      ∀ n, IntText t n → -2147483648 ≤ n → n ≤ 2147483647 → c'.utc.overrideSecs = n) := by
  obtain ⟨o, hl, _, h⟩ := h
  have hl := Option.some.inj ((rfl : lookup _ = some _).symm.trans hl)
  rw [← hl] at h
  have h : parseUtcHandling c ps = .ok c' := h
  unfold parseUtcHandling at h
  by_cases ho : p0 ps = "override".toList
  · rw [if_pos ho] at h
    split at h
    · cases h
    · rename_i hl2
      have hl2 : ps.length = 2 := Decidable.not_not.1 hl2
      split at h
      · cases h
      · rename_i v hv
        cases h
        match ps, hl2 with
        | [a, b], _ =>
          right; right; right; right
          refine ⟨b, ?_, rfl, ?_⟩
          · rw [show a = "override".toList from ho]
          · intro n hn h1 h2
            have := scanI_text hn h1 h2
            rw [show p1 [a, b] = b from rfl, this] at hv
            exact (Option.some.inj hv).symm
  · rw [if_neg ho] at h
    split at h
    · cases h
    · rename_i hl1
      have hl1 : ps.length = 1 := Decidable.not_not.1 hl1
      match ps, hl1 with
      | [a], _ =>
        have e : p0 [a] = a := rfl
        dsimp only at h
        rw [e] at h
        split at h
        · rename_i hw
          cases h
          exact .inl ⟨by rw [hw], rfl, rfl, rfl, rfl⟩
        · split at h
          · rename_i hw
            cases h
            exact .inr (.inl ⟨by rw [hw], rfl⟩)
          · split at h
            · rename_i hw
              cases h
              exact .inr (.inr (.inl ⟨by rw [hw], rfl⟩))
            · split at h
              · rename_i hw
                cases h
                exact .inr (.inr (.inr (.inl ⟨by rw [hw], rfl⟩)))
              · cases h

example : ((run libc (.init Nat) [.inst, o none "ptp_mode" ["master-only"],
    o (some 0) "ptp_utc_valid_handling" ["override", "-37"], o (some 0) "ptp_utc_valid_handling" ["prefer"]]).insts.map
    (fun c => (c.role.masterOnly, c.utc.override, c.utc.overrideSecs, c.utc.prefer))) = [(true, false, 0, true)] := by
  decide +kernel

/-! ## C335: keywords -/

/-- C335: an accepted keyword sets what it is documented to set. -/
theorem C335_sets (env : Env α) : ∀ w ∈ words α, ∀ c c', Accepts env w.name [w.word] c c' → w.sets c' := by
  unfold words
  repeat' refine List.forall_mem_cons.2 ⟨?_, ?_⟩
  all_goals first | (intro o ho; exact absurd ho List.not_mem_nil) | skip
  all_goals
    intro c c' h
    obtain ⟨o, hl, _, h⟩ := h
    have hl := Option.some.inj ((rfl : lookup _ = some _).symm.trans hl)
    rw [← hl] at h
    clear hl
    dsimp only [parse] at h
    first
    | (have h := Except.ok.inj h; subst h; first | rfl | exact ⟨rfl, rfl⟩ | exact ⟨rfl, rfl, rfl⟩)
    | (simp only [parseMechanism, parseCommCaps] at h
       repeat' split at h
       all_goals first | (cases h; done) | skip
       all_goals
         have h := Except.ok.inj h
         subst h
         first
         | (rename_i hm _; exact (Option.some.inj hm).symm)
         | (rename_i hm _; exact (Except.ok.inj hm).symm))

end Verif.PtpConf
