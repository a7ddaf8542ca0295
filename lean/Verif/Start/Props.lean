import Verif.Start.Model

/-
# Properties of privileges at the start, and of the message to the supervisor
-/

set_option linter.unusedSimpArgs false
set_option linter.unusedVariables false

namespace Verif.Start

/-! ## Specification -/

/-- The four capabilities the daemon needs. -/
def Needed (x : Cap) : Prop := x = .sysTime ∨ x = .netBind ∨ x = .netAdmin ∨ x = .netRaw

/-- The identity that the option `user` asks for. -/
def AsConfigured (conf : Conf) (c : Cred) : Prop := c.uid = conf.uid ∧ c.gid = conf.gid ∧ c.groups = conf.groups

/-- Calls with which a program could try to change its identity and capabilities. -/
inductive Call
  | setgroups (gs : List Nat)
  | setresgid (g : Nat)
  | setresuid (u : Nat)
  | capset (want : List Cap)
  | keepcaps (b : Bool)

/-- A call; one that fails changes nothing. -/
def Call.run (k : Call) (c : Cred) : Cred :=
  match k with
  | .setgroups gs => (Start.setgroups gs c).getD c
  | .setresgid g => (Start.setresgid g c).getD c
  | .setresuid u => (Start.setresuid u c).getD c
  | .capset w => (Start.capset w c).getD c
  | .keepcaps b => { c with keep := b }

/-- The program is started by root with all capabilities it uses. -/
def Root (c : Cred) : Prop :=
  c.uid = 0 ∧ (∀ x, Needed x → x ∈ c.permitted) ∧ .dacOverride ∈ c.permitted ∧ .setuid ∈ c.effective ∧ .setgid ∈ c.effective

/-! ## Lemmas -/

theorem capset_some {w : List Cap} {c c' : Cred} (h : capset w c = some c') :
    c' = { c with permitted := w, effective := w } ∧ ∀ x ∈ w, x ∈ c.permitted := by
  unfold capset at h
  split at h
  · rename_i hw
    cases h
    refine ⟨rfl, fun x hx => ?_⟩
    simpa using List.all_eq_true.1 hw x hx
  · cases h

theorem start_some {env : Env} {conf : Conf} {c c' : Cred} (h : start env conf c = some c') :
    ∃ d, dropUser env conf c = some d ∧
      c' = { d with permitted := if conf.uid = 0 ∧ c.uid = 0 then capsForRoot else capsEssential,
                    effective := if conf.uid = 0 ∧ c.uid = 0 then capsForRoot else capsEssential } := by
  simp only [start, Option.bind_eq_some_iff, claimDrop] at h
  obtain ⟨d, h1, h2⟩ := h
  split at h2
  · exact ⟨d, h1, (capset_some h2).1⟩
  · cases h2

theorem setgroups_some {gs : List Nat} {c c' : Cred} (h : setgroups gs c = some c') : c' = { c with groups := gs } := by
  unfold setgroups at h
  split at h
  · cases h; rfl
  · cases h

theorem setresgid_some {g : Nat} {c c' : Cred} (h : setresgid g c = some c') : c' = { c with gid := g } := by
  unfold setresgid at h
  split at h
  · cases h; rfl
  · cases h

theorem setresuid_some {u : Nat} {c c' : Cred} (h : setresuid u c = some c') :
    c'.uid = u ∧ c'.gid = c.gid ∧ c'.groups = c.groups := by
  unfold setresuid at h
  repeat' split at h
  all_goals first | (cases h; exact ⟨rfl, rfl, rfl⟩) | cases h

theorem dropUser_some {env : Env} {conf : Conf} {c d : Cred} (h : dropUser env conf c = some d) :
    d.uid = (if conf.uid ≠ 0 then conf.uid else c.uid) ∧ d.gid = (if conf.gid ≠ 0 then conf.gid else c.gid) ∧
    d.groups = (if conf.uid ≠ 0 then conf.groups else c.groups) := by
  simp only [dropUser, Option.bind_eq_some_iff] at h
  obtain ⟨c2, h2, c3, h3, h4⟩ := h
  generalize hc1 : (if conf.gid ≠ 0 ∨ conf.uid ≠ 0 then (if env.prctl then { c with keep := true } else c) else c) = c1 at h2
  have e1 : c1.uid = c.uid ∧ c1.gid = c.gid ∧ c1.groups = c.groups := by
    subst hc1
    repeat' split
    all_goals exact ⟨rfl, rfl, rfl⟩
  have e2 : c2.uid = c.uid ∧ c2.gid = c.gid ∧ c2.groups = (if conf.uid ≠ 0 then conf.groups else c.groups) := by
    by_cases hu : conf.uid ≠ 0
    · simp only [hu, if_true, ne_eq, not_false_eq_true] at h2 ⊢
      split at h2
      · rw [setgroups_some h2]; exact ⟨e1.1, e1.2.1, rfl⟩
      · cases h2
    · simp only [hu, if_false, Option.some.injEq] at h2 ⊢
      subst h2; exact e1
  have e3 : c3.uid = c.uid ∧ c3.gid = (if conf.gid ≠ 0 then conf.gid else c.gid) ∧
      c3.groups = (if conf.uid ≠ 0 then conf.groups else c.groups) := by
    by_cases hg : conf.gid ≠ 0
    · rw [if_pos hg] at h3 ⊢
      split at h3
      · rw [setresgid_some h3]; exact ⟨e2.1, rfl, e2.2.2⟩
      · cases h3
    · rw [if_neg hg] at h3 ⊢
      cases h3; exact e2
  by_cases hu : conf.uid ≠ 0
  · simp only [hu, ne_eq, not_false_eq_true, if_true] at h4 e3 ⊢
    split at h4
    · obtain ⟨a1, a2, a3⟩ := setresuid_some h4
      exact ⟨a1, a2.trans e3.2.1, a3.trans e3.2.2⟩
    · cases h4
  · simp only [hu, if_false, Option.some.injEq] at h4 e3 ⊢
    subst h4; exact e3

/-! ## C377: the capabilities of the running daemon -/

/-- C377: after a successful start the daemon has exactly the capabilities it needs, effective and permitted,
and that to override file permissions only if it was started by root and runs as root. -/
theorem C377_capabilities (env : Env) (conf : Conf) (c c' : Cred) (h : start env conf c = some c') (x : Cap) :
    (x ∈ c'.effective ↔ Needed x ∨ (x = .dacOverride ∧ c.uid = 0 ∧ c'.uid = 0)) ∧
    (x ∈ c'.permitted ↔ Needed x ∨ (x = .dacOverride ∧ c.uid = 0 ∧ c'.uid = 0)) := by
  obtain ⟨d, h1, rfl⟩ := start_some h
  have hu := (dropUser_some h1).1
  simp only [hu]
  by_cases h0 : conf.uid = 0
  · by_cases hc : c.uid = 0
    · simp [h0, hc, capsForRoot, Needed, or_assoc]
    · simp [h0, hc, capsEssential, Needed, or_assoc]
  · simp [h0, capsEssential, Needed, or_assoc]

/-- The credentials of root. -/
def rootCred : Cred :=
  { uid := 0, gid := 0, groups := [0, 4], keep := false,
    permitted := [.sysTime, .netBind, .netAdmin, .netRaw, .dacOverride, .setuid, .setgid, .other 21],
    effective := [.sysTime, .netBind, .netAdmin, .netRaw, .dacOverride, .setuid, .setgid, .other 21] }

def allOk : Env := ⟨true, true, true, true, true⟩

example : (start allOk ⟨100, 200, [200, 5]⟩ rootCred).isSome = true ∧ (start allOk ⟨0, 0, []⟩ rootCred).isSome = true := by
  constructor <;> rfl

/-! ## C378: the identity of the running daemon -/

/-- C378: if the option `user` was given, the daemon runs with the user, group and groups it asks for. -/
def C378_statement : Prop :=
  ∀ env conf c c', start env conf c = some c' → (conf.uid ≠ 0 ∨ conf.gid ≠ 0) → AsConfigured conf c'

/-- `user root ptp`: the groups are not set. -/
theorem C378_violated : ¬ C378_statement := by
  intro h
  have := h allOk ⟨0, 200, [200]⟩ rootCred _ rfl (.inr (by decide))
  exact absurd this.2.2 (by decide)

/-- C378 if user and group are not 0. -/
theorem C378_identity_partial (env : Env) (conf : Conf) (c c' : Cred) (h : start env conf c = some c') (hu : conf.uid ≠ 0)
    (hg : conf.gid ≠ 0) : AsConfigured conf c' := by
  obtain ⟨d, h1, rfl⟩ := start_some h
  obtain ⟨a1, a2, a3⟩ := dropUser_some h1
  rw [if_pos hu] at a1 a3
  rw [if_pos hg] at a2
  exact ⟨a1, a2, a3⟩

/-- What is configured as 0 stays as it was. -/
theorem C378_rest_partial (env : Env) (conf : Conf) (c c' : Cred) (h : start env conf c = some c') :
    (conf.uid ≠ 0 → c'.uid = conf.uid ∧ c'.groups = conf.groups) ∧ (conf.uid = 0 → c'.uid = c.uid ∧ c'.groups = c.groups) ∧
    (conf.gid ≠ 0 → c'.gid = conf.gid) ∧ (conf.gid = 0 → c'.gid = c.gid) := by
  obtain ⟨d, h1, rfl⟩ := start_some h
  obtain ⟨a1, a2, a3⟩ := dropUser_some h1
  refine ⟨fun h => ?_, fun h => ?_, fun h => ?_, fun h => ?_⟩
  · rw [if_pos h] at a1 a3; exact ⟨a1, a3⟩
  · rw [if_neg (by simpa using h)] at a1 a3; exact ⟨a1, a3⟩
  · rw [if_pos h] at a2; exact a2
  · rw [if_neg (by simpa using h)] at a2; exact a2

example : ∃ c', start allOk ⟨100, 200, [200, 5]⟩ rootCred = some c' ∧ c'.groups = [200, 5] := ⟨_, rfl, rfl⟩

/-! ## C379: root can start the daemon as any user -/

/-- C379: started by root, the daemon starts whatever user and group are asked for, if no call fails for
reasons other than missing privilege. -/
theorem C379_root_starts (conf : Conf) (c : Cred) (hr : Root c) : ∃ c', start allOk conf c = some c' := by
  obtain ⟨h0, hn, hd, hs, hg⟩ := hr
  have hall : (capsForRoot.all fun x => decide (x ∈ c.permitted)) = true := by
    simp [capsForRoot, hd, hn _ (.inl rfl), hn _ (.inr (.inl rfl)), hn _ (.inr (.inr (.inl rfl))), hn _ (.inr (.inr (.inr rfl)))]
  have hess : (capsEssential.all fun x => decide (x ∈ c.permitted)) = true := by
    simp [capsEssential, hn _ (.inl rfl), hn _ (.inr (.inl rfl)), hn _ (.inr (.inr (.inl rfl))), hn _ (.inr (.inr (.inr rfl)))]
  by_cases hu : conf.uid = 0
  · by_cases hgid : conf.gid = 0
    · simp [start, dropUser, claimDrop, capset, allOk, hu, hgid, h0, hall]
    · simp [start, dropUser, claimDrop, capset, setresgid, allOk, hu, hgid, h0, hall, hg]
  · by_cases hgid : conf.gid = 0
    · simp [start, dropUser, claimDrop, capset, setgroups, setresuid, allOk, hu, hgid, h0, hess, hg, hs]
    · simp [start, dropUser, claimDrop, capset, setgroups, setresgid, setresuid, allOk, hu, hgid, h0, hess, hg, hs]

example : Root rootCred := by
  refine ⟨rfl, ?_, by decide, by decide, by decide⟩
  rintro x (rfl | rfl | rfl | rfl) <;> decide

/-! ## C380: no way back -/

theorem stays (u g : Nat) (gs : List Nat) (hu : u ≠ 0) (k : Call) (c : Cred) (h : c.uid = u ∧ c.gid = g ∧ c.groups = gs ∧
    (∀ x ∈ c.permitted, Needed x) ∧ (∀ x ∈ c.effective, Needed x)) :
    (k.run c).uid = u ∧ (k.run c).gid = g ∧ (k.run c).groups = gs ∧
    (∀ x ∈ (k.run c).permitted, Needed x) ∧ (∀ x ∈ (k.run c).effective, Needed x) := by
  obtain ⟨h1, h2, h3, h4, h5⟩ := h
  have hs : Cap.setuid ∉ c.effective := fun hc => by simpa [Needed] using h5 _ hc
  have hg : Cap.setgid ∉ c.effective := fun hc => by simpa [Needed] using h5 _ hc
  cases k with
  | setgroups l => simp only [Call.run, setgroups, hg, if_false, Option.getD_none]; exact ⟨h1, h2, h3, h4, h5⟩
  | setresgid l =>
    simp only [Call.run, setresgid, hg, false_or]
    split
    · rename_i e; exact ⟨h1, e.trans h2, h3, h4, h5⟩
    · exact ⟨h1, h2, h3, h4, h5⟩
  | setresuid l =>
    simp only [Call.run, setresuid, hs, false_or]
    split
    · rename_i e
      have hl : l ≠ 0 := by rw [e, h1]; exact hu
      have hc : c.uid ≠ 0 := by rw [h1]; exact hu
      rw [if_neg (fun h => hc h.1), if_neg (fun h => hl h.2)]
      exact ⟨e.trans h1, h2, h3, h4, h5⟩
    · exact ⟨h1, h2, h3, h4, h5⟩
  | capset w =>
    simp only [Call.run]
    cases hw : capset w c with
    | none => exact ⟨h1, h2, h3, h4, h5⟩
    | some d =>
      obtain ⟨rfl, hsub⟩ := capset_some hw
      exact ⟨h1, h2, h3, fun x hx => h4 x (hsub x hx), fun x hx => h4 x (hsub x hx)⟩
  | keepcaps b => exact ⟨h1, h2, h3, h4, h5⟩

/-- C380: once the daemon runs as a user other than root, no sequence of calls changes its user, group or groups, or gives
it a capability beyond the four it needs. -/
theorem C380_no_way_back (env : Env) (conf : Conf) (c c' : Cred) (h : start env conf c = some c') (hu : c'.uid ≠ 0)
    (ks : List Call) :
    let e := ks.foldl (fun c k => k.run c) c'
    e.uid = c'.uid ∧ e.gid = c'.gid ∧ e.groups = c'.groups ∧ (∀ x ∈ e.permitted, Needed x) ∧ (∀ x ∈ e.effective, Needed x) := by
  have key : ∀ (ks : List Call) (d : Cred), (d.uid = c'.uid ∧ d.gid = c'.gid ∧ d.groups = c'.groups ∧
      (∀ x ∈ d.permitted, Needed x) ∧ (∀ x ∈ d.effective, Needed x)) →
      let e := ks.foldl (fun c k => k.run c) d
      e.uid = c'.uid ∧ e.gid = c'.gid ∧ e.groups = c'.groups ∧ (∀ x ∈ e.permitted, Needed x) ∧ (∀ x ∈ e.effective, Needed x) := by
    intro ks
    induction ks with
    | nil => intro d hd; exact hd
    | cons k ks ih => intro d hd; exact ih _ (stays _ _ _ hu k d hd)
  refine key ks c' ⟨rfl, rfl, rfl, fun x hx => ?_, fun x hx => ?_⟩
  · rcases (C377_capabilities env conf c c' h x).2.1 hx with h1 | h1
    · exact h1
    · exact absurd h1.2.2 hu
  · rcases (C377_capabilities env conf c c' h x).1.1 hx with h1 | h1
    · exact h1
    · exact absurd h1.2.2 hu

example : ∃ c', start allOk ⟨100, 200, [200]⟩ rootCred = some c' ∧ c'.uid ≠ 0 ∧
    ((Call.setresuid 0).run c').uid = 100 := ⟨_, rfl, by decide, by decide⟩

/-! ## C381: what the supervisor is told -/

/-- C381: the supervisor is told that the daemon is ready if it has started, and otherwise the error. -/
def C381_statement : Prop :=
  ∀ path ret a n, notify path ret = some (a, n) → n = if ret = 0 then .ready else .errno ret

/-- The error told is always 0. -/
theorem C381_violated : ¬ C381_statement := by
  intro h
  have := h (some "/run/notify".toList) 22 _ _ rfl
  exact absurd this (by decide)

/-- C381 but for the number of the error: the daemon is said to be ready exactly if it has started. -/
theorem C381_ready_partial (path : Option (List Char)) (ret : Int) (a : Addr) (n : Notice) (h : notify path ret = some (a, n)) :
    n = .ready ↔ ret = 0 := by
  cases path with
  | none => cases h
  | some p =>
    simp only [notify] at h
    split at h
    · cases h
    · cases h
      by_cases hr : ret = 0 <;> simp [hr]

example : notify (some "/run/systemd/notify".toList) 0 = some (.path "/run/systemd/notify".toList, .ready) := by decide +kernel

/-! ## C382: where the supervisor is told -/

/-- The socket that the environment names: a path, or `@` and an abstract name. -/
inductive Names : List Char → Addr → Prop
  | path (r : List Char) : Names ('/' :: r) (.path ('/' :: r))
  | abstract (r : List Char) : Names ('@' :: r) (.abstract r)

/-- C382: the message goes to the socket named in the environment, if the name fits into an address. -/
def C382_statement : Prop :=
  ∀ p a ret, Names p a → p.length < 108 → '\x00' ∉ p → ∃ n, notify (some p) ret = some (a, n)

theorem copyN_length (n : Nat) (t : List Char) (hn : 0 < n) : (copyN n t).length = n := by
  simp only [copyN, List.length_append, List.length_take, List.length_replicate]; omega

/-- Messages never go to an abstract socket named in the environment. -/
theorem C382_abstract_never (r : List Char) (ret : Int) (n : Notice) (h0 : '\x00' ∉ r) :
    notify (some ('@' :: r)) ret ≠ some (.abstract r, n) := by
  intro h
  have e : kernelAddr (sunPath ('@' :: r)) = .abstract (copyN 107 ('@' :: r)) := by
    simp [sunPath, kernelAddr]
  have h1 : kernelAddr (sunPath ('@' :: r)) = .abstract r := by
    simp only [notify] at h
    split at h
    · cases h
    · exact congrArg Prod.fst (Option.some.inj h)
  rw [e] at h1
  have h2 : copyN 107 ('@' :: r) = r := by injection h1
  have hz : '\x00' ∈ copyN 107 ('@' :: r) := by
    simp only [copyN, List.mem_append, List.mem_replicate]
    refine .inr ⟨by simp only [List.length_take]; omega, ?_⟩
    trivial
  rw [h2] at hz
  exact h0 hz

theorem C382_violated : ¬ C382_statement := by
  intro h
  obtain ⟨n, hn⟩ := h "@notify".toList (.abstract "notify".toList) 0 (.abstract _) (by decide) (by decide)
  exact C382_abstract_never "notify".toList 0 n (by decide) hn

/-- C382 for paths. -/
theorem C382_path_partial (r : List Char) (ret : Int) (hl : ('/' :: r).length < 108) (h0 : '\x00' ∉ '/' :: r) :
    ∃ n, notify (some ('/' :: r)) ret = some (.path ('/' :: r), n) := by
  have e : kernelAddr (sunPath ('/' :: r)) = .path ('/' :: r) := by
    have e1 : sunPath ('/' :: r) = ('/' :: r) ++ List.replicate (108 - ('/' :: r).length) '\x00' := by
      simp only [sunPath, List.head?_cons, Option.some.injEq, show ¬ ('/' = '@') by decide, if_false, copyN]
      rw [List.take_of_length_le (by omega)]
    rw [e1]
    have e2 : (('/' :: r) ++ List.replicate (108 - ('/' :: r).length) '\x00').takeWhile (· ≠ '\x00') = '/' :: r := by
      rw [List.takeWhile_append_of_pos]
      · rw [List.takeWhile_replicate]
        simp
      · intro x hx
        simp only [decide_eq_true_eq]
        rintro rfl
        exact h0 hx
    simp only [List.cons_append] at e2 ⊢
    unfold kernelAddr
    split
    · rename_i heq; simp at heq
    · rw [e2]
  simp only [notify, List.head?_cons, e]
  simp

example : ("/run/systemd/notify".toList).length < 108 ∧ '\x00' ∉ "/run/systemd/notify".toList := by decide

end Verif.Start
