import Verif.PtpConf.Props

set_option linter.unusedSimpArgs false
set_option linter.unusedVariables false

/-
# Properties C335 and C336: keywords and numbers
-/

namespace Verif.PtpConf

variable {α : Type}

/-! ## C335: keywords -/

theorem words_keywords (α : Type) : (words α).map (fun w => (w.name, w.word)) = keywords := rfl

/-- The options with keywords. -/
def keyOptions : List Text :=
  ["ptp_profile".toList, "ptp_version".toList, "ptp_mode".toList, "transport".toList, "scope".toList,
   "timestamping".toList, "ptp_delay_mechanism".toList, "ptp_network_mode".toList, "ptp_timescale".toList,
   "ptp_mgmt_msgs".toList, "ptp_timing_acl_order".toList, "ptp_mgmt_acl_order".toList, "ptp_mon_acl_order".toList,
   "ptp_delay_resp_ignore_port_id".toList, "announce_comm_caps".toList, "onload_ext".toList, "lacp_bypass".toList]

theorem keywords_options : ∀ p ∈ keywords, p.1 ∈ keyOptions := by decide +kernel

set_option maxHeartbeats 1000000 in
theorem only_keywords (env : Env α) : ∀ n ∈ keyOptions, ∀ t c c', Accepts env n [t] c c' → (n, t) ∈ keywords := by
  unfold keyOptions
  repeat' refine List.forall_mem_cons.2 ⟨?_, ?_⟩
  all_goals first | (intro o ho; exact absurd ho List.not_mem_nil) | skip
  all_goals
    intro t c c' h
    obtain ⟨o, hl, _, h⟩ := h
    have hl := Option.some.inj ((rfl : lookup _ = some _).symm.trans hl)
    rw [← hl] at h
    clear hl
    dsimp only [parse] at h
    simp only [parseProfile, parseVersion, parseMode, parseTransport, parseScope, parseTimestamping, parseMechanism,
      parseNetworkMode, parseTimescale, parseMgmt, parseTimingOrder, parseMgmtOrder, parseMonOrder, parseOrder,
      parseIgnorePort, parseCommCaps, parseOnload, parseBypass, onOff] at h
    have e : p0 [t] = t := rfl
    rw [e] at h
    clear e
    repeat' split at h
    all_goals first | (cases h; done) | skip
    all_goals
      rename_i hw
      first
      | (cases (show t = _ from hw); decide +kernel)
      | (repeat' split at hw
         all_goals first | (cases hw; done) | skip
         all_goals
           rename_i hv
           cases (show t = _ from hv)
           decide +kernel)
      | (rename_i hu
         repeat' split at hu
         all_goals first | (cases hu; done) | skip
         all_goals
           rename_i hv
           cases (show t = _ from hv)
           decide +kernel)

/-- C335: an option with keywords accepts no other word. -/
theorem C335_only (env : Env α) : ∀ w ∈ words α, ∀ t c c', Accepts env w.name [t] c c' →
    ∃ w' ∈ words α, w'.name = w.name ∧ w'.word = t := by
  intro w hw t c c' h
  have hk : (w.name, w.word) ∈ keywords := by
    rw [← words_keywords α]
    exact List.mem_map.2 ⟨w, hw, rfl⟩
  have h := only_keywords env w.name (keywords_options _ hk) t c c' h
  rw [← words_keywords α] at h
  obtain ⟨v, hv, he⟩ := List.mem_map.1 h
  have he := Prod.mk.inj he
  exact ⟨v, hv, he.1, he.2⟩

set_option maxHeartbeats 1000000 in
/-- C335: every keyword is accepted, whatever was set before, save where the delay mechanism or the version of the
protocol matters (C333). -/
theorem C335_all (env : Env α) : ∀ w ∈ words α, w.name ≠ "ptp_delay_mechanism".toList →
    w.name ≠ "announce_comm_caps".toList → ∀ c, ∃ c', Accepts env w.name [w.word] c c' ∧ w.sets c' := by
  unfold words
  repeat' refine List.forall_mem_cons.2 ⟨?_, ?_⟩
  all_goals first | (intro o ho; exact absurd ho List.not_mem_nil) | skip
  all_goals
    intro h1 h2 c
    first
    | exact absurd rfl h1
    | exact absurd rfl h2
    | exact ⟨_, ⟨_, rfl, rfl, rfl⟩, by trivial⟩
    | exact ⟨_, ⟨_, rfl, rfl, rfl⟩, by simp⟩

example : Accepts libc "ptp_mode".toList ["master-only".toList] (Cfg.init _)
    { Cfg.init Nat with role := { slaveOnly := false, masterOnly := true, monitorNode := false } } :=
  ⟨_, rfl, rfl, rfl⟩

example : (run libc (Conf.init _) [o none "ptp_mode" ["boundary"]]).isOk = false := by decide +kernel

/-- C335: options with keywords take one word, and options with a number one number; more or fewer are refused. -/
theorem C335_single (env : Env α) (name : Text) (h : (∃ w ∈ words α, w.name = name) ∨ ∃ r ∈ nums α, r.name = name)
    (ps : List Text) (c c' : Cfg α) (ha : Accepts env name ps c c') : ∃ t, ps = [t] := by
  have hw : ∀ w ∈ words Unit, (lookup w.name).map (·.arity) = some 1 := by decide +kernel
  have hn : ∀ r ∈ nums Unit, (lookup r.name).map (·.arity) = some 1 := by decide +kernel
  have key : (lookup name).map (·.arity) = some 1 := by
    rcases h with ⟨w, hm, rfl⟩ | ⟨r, hm, rfl⟩
    · have : w.name ∈ (words Unit).map Word.name := by
        have e : (words Unit).map Word.name = (words α).map Word.name := rfl
        rw [e]
        exact List.mem_map.2 ⟨w, hm, rfl⟩
      obtain ⟨v, hv, he⟩ := List.mem_map.1 this
      rw [← he]
      exact hw v hv
    · have : r.name ∈ (nums Unit).map Num.name := by
        have e : (nums Unit).map Num.name = (nums α).map Num.name := rfl
        rw [e]
        exact List.mem_map.2 ⟨r, hm, rfl⟩
      obtain ⟨v, hv, he⟩ := List.mem_map.1 this
      rw [← he]
      exact hn v hv
  obtain ⟨o, hl, har, _⟩ := ha
  rw [hl] at key
  have ho : o.arity = 1 := Option.some.inj key
  rw [ho] at har
  have hlen : ps.length = 1 := by
    simp [arityOk] at har
    omega
  exact List.length_eq_one_iff.1 hlen

example : (run libc (Conf.init _) [o none "ptp_mode" ["slave", "master"]]).isOk = false := by decide +kernel

/-! ## C336: numbers -/

theorem num_row (env : Env α) (name : Text) (o : Opt) (lo hi : Int) (upd : Int → Cfg α) (get : Cfg α → Int) (c : Cfg α)
    (t : Text) (n : Int) (ht : IntText t n) (h1 : -2147483648 ≤ n) (h2 : n ≤ 2147483647)
    (hl : lookup name = some o) (ha : arityOk o.arity 1 = true)
    (hp : parse env o.fn c [t] = match intIn lo hi t with
      | .error e => .error e
      | .ok v => .ok (upd v)) (hg : ∀ v, get (upd v) = v) :
    ((∃ c', Accepts env name [t] c c') ↔ lo ≤ n ∧ n ≤ hi) ∧ ∀ c', Accepts env name [t] c c' → get c' = n := by
  rw [intIn_text ht h1 h2] at hp
  by_cases hb : n < lo ∨ n > hi
  · rw [if_pos hb] at hp
    have no : ∀ c', ¬ Accepts env name [t] c c' := by
      rintro c' ⟨o', hl', _, h⟩
      cases Option.some.inj (hl.symm.trans hl')
      rw [hp] at h
      cases h
    exact ⟨⟨fun ⟨c', h⟩ => absurd h (no c'), fun h => by omega⟩, fun c' h => absurd h (no c')⟩
  · rw [if_neg hb] at hp
    refine ⟨⟨fun _ => by omega, fun _ => ⟨upd n, o, hl, ha, hp⟩⟩, ?_⟩
    rintro c' ⟨o', hl', _, h⟩
    cases Option.some.inj (hl.symm.trans hl')
    rw [hp] at h
    cases h
    exact hg n

theorem num_free (env : Env α) (name : Text) (o : Opt) (upd : Int → Cfg α) (get : Cfg α → Int) (c : Cfg α)
    (t : Text) (n : Int) (ht : IntText t n) (h1 : -2147483648 ≤ n) (h2 : n ≤ 2147483647)
    (hl : lookup name = some o) (ha : arityOk o.arity 1 = true)
    (hp : parse env o.fn c [t] = match scanI t with
      | none => .error eINVAL
      | some v => .ok (upd v)) (hg : ∀ v, get (upd v) = v) :
    ((∃ c', Accepts env name [t] c c') ↔ -2147483648 ≤ n ∧ n ≤ 2147483647) ∧
      ∀ c', Accepts env name [t] c c' → get c' = n := by
  rw [scanI_text ht h1 h2] at hp
  refine ⟨⟨fun _ => ⟨h1, h2⟩, fun _ => ⟨upd n, o, hl, ha, hp⟩⟩, ?_⟩
  rintro c' ⟨o', hl', _, h⟩
  cases Option.some.inj (hl.symm.trans hl')
  rw [hp] at h
  cases h
  exact hg n

/-- C336: an option with an integer accepts the decimal numeral of a number (with or without a sign or blanks in
front) exactly if the number lies within its bounds, and then has that value. -/
theorem C336_numbers (env : Env α) : ∀ r ∈ nums α, ∀ t n, IntText t n → -2 ^ 31 ≤ n → n < 2 ^ 31 → ∀ c,
    ((∃ c', Accepts env r.name [t] c c') ↔ r.lo c.profile ≤ n ∧ n ≤ r.hi c.profile) ∧
      ∀ c', Accepts env r.name [t] c c' → r.get c' = n := by
  have bounds : ∀ (p : Option Profile),
      (getProfileDef p).announce.min = (if p = some .enterprise then 0 else -4) ∧
      (getProfileDef p).announce.max = (if p = some .enterprise then 0 else 4) ∧
      (getProfileDef p).timeout.min = (if p = some .enterprise then 3 else 2) ∧
      (getProfileDef p).timeout.max = (if p = some .enterprise then 3 else 127) ∧
      (getProfileDef p).sync.min = -4 ∧ (getProfileDef p).sync.max = 4 ∧
      (getProfileDef p).delayReq.min = -4 ∧ (getProfileDef p).delayReq.max = 5 := by
    intro p
    cases p with
    | none => decide
    | some p => cases p <;> decide
  unfold nums
  repeat' refine List.forall_mem_cons.2 ⟨?_, ?_⟩
  all_goals first | (intro o ho; exact absurd ho List.not_mem_nil) | skip
  all_goals
    intro t n ht h1 h2 c
    have h3 : -2147483648 ≤ n := h1
    have h4 : n ≤ 2147483647 := by omega
    have e : p0 [t] = t := rfl
    obtain ⟨b1, b2, b3, b4, b5, b6, b7, b8⟩ := bounds c.profile
    clear bounds
    clear e
    dsimp only
    first
    | (rw [← b1, ← b2]; exact num_row env _ _ _ _ _ _ c t n ht h3 h4 rfl rfl rfl (fun v => rfl))
    | (rw [← b3, ← b4]; exact num_row env _ _ _ _ _ _ c t n ht h3 h4 rfl rfl rfl (fun v => rfl))
    | (rw [← b5, ← b6]; exact num_row env _ _ _ _ _ _ c t n ht h3 h4 rfl rfl rfl (fun v => rfl))
    | (rw [← b7, ← b8]; exact num_row env _ _ _ _ _ _ c t n ht h3 h4 rfl rfl rfl (fun v => rfl))
    | exact num_row env _ _ _ _ _ _ c t n ht h3 h4 rfl rfl rfl (fun v => rfl)
    | exact num_free env _ _ _ _ c t n ht h3 h4 rfl rfl rfl (fun v => rfl)

/-- The limits of the profile decide: an announce interval of two is refused with the enterprise profile. -/
example : (run libc (Conf.init _) [o none "ptp_announce_interval" ["2"]]).isOk = true ∧
    (run libc (Conf.init _) [o none "ptp_profile" ["enterprise"], o none "ptp_announce_interval" ["2"]]).isOk = false ∧
    IntText "2".toList 2 := by
  refine ⟨by decide +kernel, by decide +kernel, .pos _ 2 (.digit 2 '2' rfl)⟩

end Verif.PtpConf
