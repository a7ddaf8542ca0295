import Verif.PtpConf.Props2

set_option linter.unusedSimpArgs false
set_option linter.unusedVariables false

/-
# Properties C337 to C339: what options change and where
-/

namespace Verif.PtpConf

variable {α : Type}

/-! ## C337: options change what they name -/

/-- The names of the options whose setting is specified. -/
theorem owned (α : Type) : ∀ o ∈ options, o.name ≠ "ptp_mgmt_acl_permit".toList → ∃ w ∈ owners α, w.name = o.name := by
  have hn : (owners α).map Owner.name = (owners Unit).map Owner.name := rfl
  have key : ∀ o ∈ options, o.name ≠ "ptp_mgmt_acl_permit".toList → o.name ∈ (owners Unit).map Owner.name := by
    decide +kernel
  intro o ho hne
  have h := key o ho hne
  rw [← hn] at h
  exact List.mem_map.1 h

/-- C337: every option other than `ptp_mgmt_acl_permit` has a setting of its own, and a line with the option changes
nothing else: in the global section it changes that setting of the global section and of every instance, in the
section of an instance that setting of this instance alone. -/
theorem C337_own_setting (env : Env α) (o : Opt) (ho : o ∈ options) (hne : o.name ≠ "ptp_mgmt_acl_permit".toList) :
    ∃ w ∈ owners α, w.name = o.name ∧ ∀ ps c c',
      (step env c (.opt none o.name ps) = .ok c' →
        w.own c.glob c'.glob = c.glob ∧ c'.insts.length = c.insts.length ∧
        ∀ (i : Nat) s s', c.insts[i]? = some s → c'.insts[i]? = some s' → w.own s s' = s) ∧
      ∀ i, step env c (.opt (some i) o.name ps) = .ok c' →
        c'.glob = c.glob ∧ c'.insts.length = c.insts.length ∧ (∀ (j : Nat), j ≠ i → c'.insts[j]? = c.insts[j]?) ∧
        ∀ s s', c.insts[i]? = some s → c'.insts[i]? = some s' → w.own s s' = s := by
  obtain ⟨w, hw, hn⟩ := owned α o ho hne
  refine ⟨w, hw, hn, fun ps c c' => ⟨fun h => ?_, fun i h => ?_⟩⟩
  · obtain ⟨hg, hl, hi⟩ := step_global h
    rw [← hn] at hg hi
    refine ⟨owners_all env w hw _ _ _ hg, hl, fun i s s' h1 h2 => ?_⟩
    obtain ⟨s0, h0, ha⟩ := hi i s' h2
    cases Option.some.inj (h1.symm.trans h0)
    exact owners_all env w hw _ _ _ ha
  · obtain ⟨s0, s1, h0, ha, hg, hi, _⟩ := step_instance h
    rw [← hn] at ha
    refine ⟨hg, by rw [hi, List.length_set], fun j hj => by rw [hi, List.getElem?_set_ne (Ne.symm hj)], ?_⟩
    intro s s' h1 h2
    cases Option.some.inj (h1.symm.trans h0)
    rw [hi] at h2
    have hlt : i < c.insts.length := by
      obtain ⟨hlt, _⟩ := List.getElem?_eq_some_iff.1 h0
      exact hlt
    rw [List.getElem?_set_self hlt] at h2
    cases h2
    exact owners_all env w hw _ _ _ ha

/-- A domain of one instance leaves the other one alone. -/
example : (run libc (Conf.init _) [.inst, .inst, o none "ptp_domain" ["7"], o (some 1) "ptp_domain" ["9"]]).insts.map
    (·.domain) = [7, 9] := by decide +kernel

/-! ## C338: permitted management stations -/

/-- C338: `ptp_mgmt_acl_permit`, the older name of `ptp_mgmt_acl_allow`, sets the list of management stations. -/
def C338_statement : Prop :=
  ∀ (α : Type) (env : Env α) (ps : List Text) (c c' : Cfg α), Accepts env "ptp_mgmt_acl_permit".toList ps c c' →
    (mgmtPermit α).own c c' = c ∧ c'.mgmtAcl.enabled = true

/-- The option sets the list of timing messages instead: management stays open to all, and time servers that are not
in the list are shut out. -/
theorem C338_violated : ¬ C338_statement := by
  intro h
  have h := (h Unit ⟨fun _ => none, fun _ _ _ => none⟩ ["10.0.0.1/32".toList] (Cfg.init Unit) _
    ⟨_, rfl, rfl, rfl⟩).2
  exact absurd h (by decide)

/-- C338, the part that holds: the older name of the list for timing messages means the same as the newer one; and
what the older name of the list of management stations does is exactly that. Missing: the list of management
stations. -/
theorem C338_partial (env : Env α) (ps : List Text) (c c' : Cfg α) :
    (Accepts env "ptp_timing_acl_permit".toList ps c c' ↔ Accepts env "ptp_timing_acl_allow".toList ps c c') ∧
    (Accepts env "ptp_mgmt_acl_permit".toList ps c c' ↔ Accepts env "ptp_timing_acl_allow".toList ps c c') := by
  have same : ∀ (n n' : Text) (o o' : Opt), lookup n = some o → lookup n' = some o' → o.arity = o'.arity → o.fn = o'.fn →
      (Accepts env n ps c c' ↔ Accepts env n' ps c c') := by
    intro n n' o o' h h' ha hf
    constructor
    · rintro ⟨u, hu, h1, h2⟩
      cases Option.some.inj (h.symm.trans hu)
      exact ⟨o', h', by rw [← ha]; exact h1, by rw [← hf]; exact h2⟩
    · rintro ⟨u, hu, h1, h2⟩
      cases Option.some.inj (h'.symm.trans hu)
      exact ⟨o, h, by rw [ha]; exact h1, by rw [hf]; exact h2⟩
  exact ⟨same _ _ _ _ rfl rfl rfl rfl, same _ _ _ _ rfl rfl rfl rfl⟩

/-! ## C339: sections -/

/-- Both succeed with the same profile and version, or both fail. -/
def Same (x y : Except Nat (Cfg α)) : Prop :=
  match x, y with
  | .ok a, .ok b => a.profile = b.profile ∧ a.minor = b.minor
  | .error _, .error _ => True
  | _, _ => False

set_option maxHeartbeats 1000000 in
theorem parse_same (env : Env α) (f : Fn) (hf : f ≠ .monAddr) (c d : Cfg α) (ps : List Text)
    (hp : c.profile = d.profile) (hm : c.minor = d.minor) : Same (parse env f c ps) (parse env f d ps) := by
  cases f <;> simp only [parse]
  all_goals first
    | exact absurd rfl hf
    | exact ⟨hp, hm⟩
    | skip
  all_goals
    simp only [parseProfile, parseVersion, parseMode, parseInterface, parseTransport, parseScope, parsePriority,
      parseThreshold, parseTimestamping, parseTxLatency, parseRxLatency, parseMechanism, parseNetworkMode, parseTtl,
      parseUtcOffset, parseUtcHandling, parseTimescale, parseDomain, parseMgmt, parseTimingAllow, parseTimingDeny,
      parseMgmtAllow, parseMgmtDeny, parseMonAllow, parseMonDeny, parseTimingOrder, parseMgmtOrder, parseMonOrder,
      parseAnnounce, parseAnnounceTimeout, parseSync, parseSyncTimeout, parseDelayReq, parseDelayRespTimeout,
      parseMissing, parseMaxForeign, parsePriority1, parsePriority2, parseTrace, parseIgnorePort, parseKp, parseKi,
      parseOutlierSize, parseAdaption, parseMpdSize, parseAgeing, parseFirSize, parseRxTiming, parseRxComputed,
      parseTxEvent, parseCommCaps, parseOnload, parseDiscriminator, parseBypass, hp, hm]
  all_goals first
    | exact ⟨hp, hm⟩
    | (generalize intIn _ _ (p0 ps) = x; cases x <;> first | trivial | exact ⟨hp, hm⟩)
    | (generalize scanI (p0 ps) = x; cases x <;> first | trivial | exact ⟨hp, hm⟩)
    | (generalize scanU (p0 ps) = x; cases x <;> first | trivial | exact ⟨hp, hm⟩)
    | (generalize env.scanF (p0 ps) = x; cases x <;> first | trivial | exact ⟨hp, hm⟩)
    | (generalize unitFloat _ _ = x; cases x <;> first | trivial | exact ⟨hp, hm⟩)
    | (generalize parseAclList ps = x; cases x <;> first | trivial | exact ⟨hp, hm⟩)
    | (generalize parseOrder (p0 ps) = x; cases x <;> first | trivial | exact ⟨hp, hm⟩)
    | (generalize onOff (p0 ps) = x; cases x <;> first | trivial | exact ⟨hp, hm⟩)
    | (repeat' split
       all_goals first | trivial | exact ⟨hp, hm⟩ | exact ⟨rfl, hm⟩ | exact ⟨hp, rfl⟩)
    | skip
  all_goals
    match ps with
    | [] => exact ⟨rfl, rfl⟩
    | [t] =>
      simp only [evt]
      generalize scanI t = x
      cases x with
      | none => trivial
      | some v => exact ⟨rfl, rfl⟩
    | _ :: _ :: _ => trivial

/-- Profile and version are the same in all sections. -/
def Uniform (c : Conf α) : Prop := ∀ s ∈ c.insts, s.profile = c.glob.profile ∧ s.minor = c.glob.minor

theorem apply_uniform (env : Env α) (f : Fn) (hf : f ≠ .monAddr) (g g' : Cfg α) (ps : List Text)
    (hg : parse env f g ps = .ok g') : ∀ is : List (Cfg α), (∀ s ∈ is, s.profile = g.profile ∧ s.minor = g.minor) →
      ∃ is', applyInsts env f ps is = some is' ∧ ∀ s ∈ is', s.profile = g'.profile ∧ s.minor = g'.minor := by
  intro is
  induction is with
  | nil => intro _; exact ⟨[], rfl, fun s hs => absurd hs List.not_mem_nil⟩
  | cons s is ih =>
    intro h
    obtain ⟨is', h1, h2⟩ := ih fun s hs => h s (List.mem_cons_of_mem _ hs)
    obtain ⟨hp, hm⟩ := h s List.mem_cons_self
    have hs := parse_same env f hf s g ps hp hm
    rw [hg] at hs
    cases hx : parse env f s ps with
    | error e => rw [hx] at hs; exact absurd hs id
    | ok s' =>
      rw [hx] at hs
      refine ⟨s' :: is', ?_, ?_⟩
      · simp only [applyInsts, hx, h1, Option.map_some]
      · intro u hu
        rcases List.mem_cons.1 hu with rfl | hu
        · exact hs
        · exact h2 u hu

theorem owners_keep (α : Type) : ∀ w ∈ owners α, w.name ≠ "ptp_profile".toList → w.name ≠ "ptp_version".toList →
    ∀ c c', (w.own c c').profile = c'.profile ∧ (w.own c c').minor = c'.minor := by
  unfold owners
  repeat' refine List.forall_mem_cons.2 ⟨?_, ?_⟩
  all_goals first | (intro o ho; exact absurd ho List.not_mem_nil) | skip
  all_goals
    intro h1 h2 c c'
    first
    | exact ⟨rfl, rfl⟩
    | exact absurd rfl h1
    | exact absurd rfl h2

theorem lookup_mem {name : Text} {o : Opt} (h : lookup name = some o) : o ∈ options ∧ o.name = name := by
  unfold lookup at h
  exact ⟨List.mem_of_find?_eq_some h, (by simpa using List.find?_some h : name = o.name).symm⟩

theorem keeps (env : Env α) (name : Text) (h1 : name ≠ "ptp_profile".toList) (h2 : name ≠ "ptp_version".toList)
    (ps : List Text) (c c' : Cfg α) (h : Accepts env name ps c c') : c'.profile = c.profile ∧ c'.minor = c.minor := by
  by_cases hp : name = "ptp_mgmt_acl_permit".toList
  · subst hp
    obtain ⟨o, hl, _, h⟩ := h
    cases Option.some.inj ((rfl : lookup _ = some _).symm.trans hl)
    simp only [parse, parseTimingAllow] at h
    split at h
    · cases h
    · cases h
      exact ⟨rfl, rfl⟩
  · obtain ⟨o, hl, ha, hq⟩ := h
    obtain ⟨ho, hn⟩ := lookup_mem hl
    obtain ⟨w, hw, hwn⟩ := owned α o ho (by rw [hn]; exact hp)
    have hk := owners_keep α w hw (by rw [hwn, hn]; exact h1) (by rw [hwn, hn]; exact h2) c c'
    have := owners_all env w hw ps c c' (by rw [hwn, hn]; exact ⟨o, hl, ha, hq⟩)
    rw [this] at hk
    exact ⟨hk.1.symm, hk.2.symm⟩

/-- C339: no configuration fails an assertion. -/
def C339_statement : Prop :=
  ∀ (α : Type) (env : Env α) (ls : List Line), run env (Conf.init α) ls ≠ .abort

/-- An instance with six monitoring stations, and one more for all instances. -/
theorem C339_violated : ¬ C339_statement := by
  intro h
  exact h Unit ⟨fun _ => none, fun _ _ _ => some ()⟩
    [.inst, .opt (some 0) "mon_monitor_address".toList (List.replicate 6 "a".toList),
      .opt none "mon_monitor_address".toList ["a".toList]] (by rfl)

theorem step_uniform (env : Env α) (c : Conf α) (hu : Uniform c) (l : Line)
    (hl : ∀ ps, l ≠ .opt none "mon_monitor_address".toList ps) :
    step env c l ≠ .abort ∧ ∀ c', step env c l = .ok c' → Uniform c' := by
  cases l with
  | cliDomain d =>
    unfold step
    dsimp only
    split
    · exact ⟨fun h => (nomatch h), fun c' h => by cases h; exact hu⟩
    · exact ⟨fun h => (nomatch h), fun c' h => by cases h; exact hu⟩
  | cliInterface t => exact ⟨fun h => (nomatch h), fun c' h => by cases h; exact hu⟩
  | inst =>
    refine ⟨fun h => (nomatch h), fun c' h => ?_⟩
    cases h
    intro s hs
    rcases List.mem_append.1 hs with hs | hs
    · exact hu s hs
    · cases List.mem_singleton.1 hs
      exact ⟨rfl, rfl⟩
  | opt sec name ps =>
    cases hl' : lookup name with
    | none =>
      unfold step
      dsimp only
      rw [hl']
      exact ⟨fun h => (nomatch h), fun c' h => (nomatch h)⟩
    | some o =>
      obtain ⟨ho, hn⟩ := lookup_mem hl'
      cases sec with
      | none =>
        have hname : name ≠ "mon_monitor_address".toList := fun h => hl ps (by rw [h])
        have hf : o.fn ≠ .monAddr := by
          have key : ∀ o ∈ options, o.fn = .monAddr → o.name = "mon_monitor_address".toList := by decide +kernel
          intro h
          exact hname (hn ▸ key o ho h)
        unfold step
        dsimp only
        rw [hl']
        dsimp only
        unfold globalOption
        split
        · exact ⟨fun h => (nomatch h), fun c' h => (nomatch h)⟩
        · cases hg : parse env o.fn c.glob ps with
          | error e => exact ⟨fun h => (nomatch h), fun c' h => (nomatch h)⟩
          | ok g =>
            obtain ⟨is', h1, h2⟩ := apply_uniform env o.fn hf c.glob g ps hg c.insts hu
            dsimp only
            rw [h1]
            exact ⟨fun h => (nomatch h), fun c' h => by cases h; exact h2⟩
      | some i =>
        refine ⟨?_, fun c' h => ?_⟩
        · unfold step
          dsimp only
          rw [hl']
          dsimp only
          unfold instOption
          repeat' split
          all_goals exact fun h => (nomatch h)
        · obtain ⟨s, s', h0, ha, hg, hi, hsc⟩ := step_instance h
          have hsc := hsc o hl'
          have key : ∀ o ∈ options, o.isGlobal = false →
              o.name ≠ "ptp_profile".toList ∧ o.name ≠ "ptp_version".toList := by decide +kernel
          obtain ⟨k1, k2⟩ := key o ho hsc
          rw [hn] at k1 k2
          obtain ⟨e1, e2⟩ := keeps env name k1 k2 ps s s' ha
          intro u hum
          rw [hi] at hum
          rw [hg]
          rcases List.mem_or_eq_of_mem_set hum with hum | rfl
          · exact hu u hum
          · have := hu s (List.mem_of_getElem? h0)
            rw [e1, e2]
            exact this

/-- C339, the part that holds: without monitoring stations for all instances. Missing: such a line after the sections
of instances, where the limit of six stations may be met by one of them. -/
theorem C339_partial (env : Env α) (ls : List Line) (h : ∀ ps, .opt none "mon_monitor_address".toList ps ∉ ls) :
    run env (Conf.init α) ls ≠ .abort := by
  have main : ∀ (ls : List Line) (c : Conf α), (∀ ps, .opt none "mon_monitor_address".toList ps ∉ ls) → Uniform c →
      run env c ls ≠ .abort := by
    intro ls
    induction ls with
    | nil => intro c _ _ h; cases h
    | cons l ls ih =>
      intro c hl hu hr
      obtain ⟨h1, h2⟩ := step_uniform env c hu l fun ps he => hl ps (he ▸ List.mem_cons_self)
      unfold run at hr
      cases hs : step env c l with
      | abort => exact h1 hs
      | err e => rw [hs] at hr; cases hr
      | ok c' =>
        rw [hs] at hr
        exact ih c' (fun ps hm => hl ps (List.mem_cons_of_mem _ hm)) (h2 c' hs) hr
  exact main ls _ h fun s hs => absurd hs List.not_mem_nil

/-- Profile and version are set for all, the delay mechanism by section; nothing aborts. -/
example : (run libc (Conf.init _) [.inst, .inst, o (some 0) "mon_monitor_address" ["a", "b"],
    o none "ptp_profile" ["default-p2p"], o (some 1) "ptp_delay_mechanism" ["peer-to-peer"]]).insts.map
      (fun c => (c.profile, c.mech, c.mon.dests.length)) =
    [(some .defaultP2P, .e2e, 2), (some .defaultP2P, .p2p, 0)] := by decide +kernel

/-- C339: an option in the global section holds for every instance; the options listed are refused in the sections of
instances. -/
theorem C339_sections (env : Env α) (c c' : Conf α) (name : Text) (ps : List Text) :
    (step env c (.opt none name ps) = .ok c' → Accepts env name ps c.glob c'.glob ∧
      c'.insts.length = c.insts.length ∧
      ∀ (i : Nat) s', c'.insts[i]? = some s' → ∃ s, c.insts[i]? = some s ∧ Accepts env name ps s s') ∧
    (name ∈ ["ptp_profile", "ptp_version", "scope", "ptp_mgmt_msgs", "ptp_max_foreign_records", "remote_monitor",
        "onload_ext", "lacp_bypass", "on_alarm_trace_ptp"].map String.toList →
      ∀ i, step env c (.opt (some i) name ps) ≠ .ok c') := by
  refine ⟨step_global, fun hm i h => ?_⟩
  obtain ⟨s, s', _, ⟨o, hl, _, _⟩, _, _, hsc⟩ := step_instance h
  have hsc := hsc o hl
  obtain ⟨ho, hn⟩ := lookup_mem hl
  have key : ∀ o ∈ options, o.name ∈ ["ptp_profile", "ptp_version", "scope", "ptp_mgmt_msgs", "ptp_max_foreign_records",
      "remote_monitor", "onload_ext", "lacp_bypass", "on_alarm_trace_ptp"].map String.toList → o.isGlobal = true := by
    decide +kernel
  rw [key o ho (by rw [hn]; exact hm)] at hsc
  cases hsc

example : (run libc (Conf.init _) [.inst, o (some 0) "ptp_profile" ["enterprise"]]).isOk = false := by decide +kernel

end Verif.PtpConf
