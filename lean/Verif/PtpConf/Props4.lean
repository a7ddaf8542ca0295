import Verif.PtpConf.Props3

set_option linter.unusedSimpArgs false
set_option linter.unusedVariables false

/-
# Properties C340 to C344: lists, addresses and texts
-/

namespace Verif.PtpConf

variable {α : Type}

/-! ## C340: access control lists -/

/-- The parameters, each with a blank. -/
def flat (ps : List Text) : Text := ps.flatMap (· ++ [' '])

theorem flat_length (ps : List Text) : (flat ps).length = (ps.map (·.length + 1)).sum := by
  induction ps with
  | nil => rfl
  | cons p ps ih =>
    simp only [flat, List.flatMap_cons, List.length_append, List.map_cons, List.sum_cons] at ih ⊢
    rw [ih]
    rfl

theorem aclLoop_eq : ∀ (ps : List Text) (full : Text), full.length ≤ 4096 →
    aclLoop ps (full.take 4095) full.length =
      if full.length + (flat ps).length > 4096 then .error e2BIG else .ok ((full ++ flat ps).take 4095) := by
  intro ps
  induction ps with
  | nil =>
    intro full h
    have : ¬ full.length + (flat []).length > 4096 := by simp only [flat, List.flatMap_nil, List.length_nil]; omega
    rw [if_neg this]
    simp [aclLoop, flat]
  | cons p ps ih =>
    intro full h
    have hc : flat (p :: ps) = (p ++ [' ']) ++ flat ps := by simp [flat]
    unfold aclLoop
    simp only [show aclSize = 4096 from rfl]
    by_cases hb : full.length + (p ++ [' ']).length > 4096
    · rw [if_pos hb, if_pos]
      rw [hc, List.length_append]
      omega
    · rw [if_neg hb]
      have h1 : full.take 4095 ++ (p ++ [' ']).take (4096 - full.length - 1) = (full ++ (p ++ [' '])).take 4095 := by
        have : 4096 - full.length - 1 = 4095 - full.length := by omega
        rw [this]
        exact (List.take_append).symm
      have h2 : full.length + (p ++ [' ']).length = (full ++ (p ++ [' '])).length := (List.length_append).symm
      rw [h1, h2, ih _ (by omega), hc, List.length_append, List.append_assoc]
      simp only [List.length_append]
      by_cases hx : full.length + (p.length + [' '].length) + (flat ps).length > 4096
      · rw [if_pos hx, if_pos (by omega)]
      · rw [if_neg hx, if_neg (by omega)]

theorem parseAclList_eq (ps : List Text) : parseAclList ps =
    if (ps.map (·.length + 1)).sum > 4096 then .error e2BIG else .ok ((flat ps).take 4095) := by
  have h := aclLoop_eq ps [] (by simp)
  simp only [List.take_nil, List.length_nil, Nat.zero_add, List.nil_append] at h
  rw [parseAclList, h, flat_length]

theorem words_flat : ∀ ps : List Text, (∀ p ∈ ps, p ≠ [] ∧ ' ' ∉ p) → Words (flat ps) ps := by
  intro ps
  induction ps with
  | nil => intro _; exact .done
  | cons p ps ih =>
    intro h
    have := Words.word p (flat ps) ps (h p List.mem_cons_self).1 (h p List.mem_cons_self).2
      (ih fun q hq => h q (List.mem_cons_of_mem _ hq))
    simpa [flat] using this

theorem words_short : ∀ (ps : List Text), (∀ p ∈ ps, p ≠ [] ∧ ' ' ∉ p) → ∀ n, n + 1 = (flat ps).length →
    Words ((flat ps).take n) ps := by
  intro ps
  induction ps with
  | nil => intro _ n h; simp [flat] at h
  | cons p ps ih =>
    intro h n hn
    have hp := h p List.mem_cons_self
    have hc : flat (p :: ps) = p ++ ' ' :: flat ps := by simp [flat]
    rw [hc] at hn ⊢
    cases ps with
    | nil =>
      have hf : flat [] = [] := rfl
      rw [hf] at hn ⊢
      simp only [List.length_append, List.length_cons, List.length_nil] at hn
      have : n = p.length := by omega
      rw [this, List.take_left]
      exact .last p hp.1 hp.2
    | cons q qs =>
      simp only [List.length_append, List.length_cons] at hn
      have hl : 1 ≤ (flat (q :: qs)).length := by
        rw [flat_length]
        simp only [List.map_cons, List.sum_cons]
        omega
      obtain ⟨m, hm⟩ : ∃ m, (flat (q :: qs)).length = m + 1 := ⟨_, (Nat.sub_add_cancel hl).symm⟩
      have hn' : n = p.length + (m + 1) := by omega
      rw [hn', List.take_append]
      have e1 : p.take (p.length + (m + 1)) = p := List.take_of_length_le (by omega)
      have e2 : p.length + (m + 1) - p.length = m + 1 := by omega
      rw [e1, e2, List.take_succ_cons]
      exact .word p _ _ hp.1 hp.2 (ih (fun r hr => h r (List.mem_cons_of_mem _ hr)) m hm.symm)

theorem words_take (ps : List Text) (h : ∀ p ∈ ps, p ≠ [] ∧ ' ' ∉ p) (hl : (flat ps).length ≤ 4096) :
    Words ((flat ps).take 4095) ps := by
  by_cases hx : (flat ps).length = 4096
  · exact words_short ps h 4095 hx.symm
  · rw [List.take_of_length_le (by omega)]
    exact words_flat ps h

/-- The words of a text are determined by the text. -/
theorem words_unique : ∀ {t : Text} {a : List Text}, Words t a → ∀ {u : Text} {b : List Text}, u = t → Words u b → a = b := by
  have split : ∀ (w w' t t' : Text), ' ' ∉ w → ' ' ∉ w' → w ++ ' ' :: t = w' ++ ' ' :: t' → w = w' ∧ t = t' := by
    intro w
    induction w with
    | nil =>
      intro w' t t' _ h2 h
      cases w' with
      | nil => exact ⟨rfl, (List.cons.inj h).2⟩
      | cons x xs =>
        have := (List.cons.inj h).1
        exact absurd (this ▸ List.mem_cons_self) h2
    | cons x xs ih =>
      intro w' t t' h1 h2 h
      cases w' with
      | nil =>
        have := (List.cons.inj h).1
        exact absurd (this ▸ List.mem_cons_self) h1
      | cons y ys =>
        obtain ⟨e1, e2⟩ := List.cons.inj h
        obtain ⟨e3, e4⟩ := ih ys t t' (fun hm => h1 (List.mem_cons_of_mem _ hm))
          (fun hm => h2 (List.mem_cons_of_mem _ hm)) e2
        exact ⟨by rw [e1, e3], e4⟩
  have head : ∀ (w t r : Text), w ≠ [] → ' ' ∉ w → w ++ r ≠ ' ' :: t := by
    intro w t r h1 h2 h
    cases w with
    | nil => exact h1 rfl
    | cons x xs => exact h2 ((List.cons.inj h).1 ▸ List.mem_cons_self)
  intro t a ha
  induction ha with
  | done =>
    intro u b hu hb
    cases hb with
    | done => rfl
    | blank t ws _ => cases hu
    | last w h _ => exact absurd hu h
    | word w t ws h _ _ => exact absurd (List.append_eq_nil_iff.1 hu).1 h
  | blank t ws h ih =>
    intro u b hu hb
    cases hb with
    | done => cases hu
    | blank t' ws' h' => exact ih (List.cons.inj hu).2 h'
    | last w h1 h2 => exact absurd (by rw [List.append_nil]; exact hu) (head _ t [] h1 h2)
    | word w t' ws' h1 h2 _ => exact absurd hu (head w t _ h1 h2)
  | last w h1 h2 =>
    intro u b hu hb
    cases hb with
    | done => exact absurd hu.symm h1
    | blank t ws _ => exact absurd (hu ▸ List.mem_cons_self) h2
    | last w' _ _ => rw [hu]
    | word w' t ws _ _ _ =>
      exact absurd (hu ▸ List.mem_append_right _ List.mem_cons_self) h2
  | word w t ws h1 h2 h ih =>
    intro u b hu hb
    cases hb with
    | done => exact absurd (List.append_eq_nil_iff.1 hu.symm).1 h1
    | blank t' ws' _ => exact absurd hu.symm (head w t' _ h1 h2)
    | last w' _ h4 => exact absurd (hu ▸ List.mem_append_right _ List.mem_cons_self) h4
    | word w' t' ws' h3 h4 h5 =>
      obtain ⟨e1, e2⟩ := split w' w t' t h4 h2 hu
      rw [e1, ih e2 h5]

/-- An option with a list: name, list the option belongs to, text of the option. -/
structure ListOpt (α : Type) where
  name : Text
  acl : Cfg α → Acl
  text : Acl → Text

/-- The options with lists of addresses. -/
def listOpts (α : Type) : List (ListOpt α) :=
  [⟨"ptp_timing_acl_allow".toList, (·.timingAcl), (·.allow)⟩, ⟨"ptp_timing_acl_permit".toList, (·.timingAcl), (·.allow)⟩,
   ⟨"ptp_timing_acl_deny".toList, (·.timingAcl), (·.deny)⟩, ⟨"ptp_mgmt_acl_allow".toList, (·.mgmtAcl), (·.allow)⟩,
   ⟨"ptp_mgmt_acl_deny".toList, (·.mgmtAcl), (·.deny)⟩, ⟨"ptp_mon_acl_allow".toList, (·.monAcl), (·.allow)⟩,
   ⟨"ptp_mon_acl_deny".toList, (·.monAcl), (·.deny)⟩]

theorem list_row (env : Env α) (name : Text) (o : Opt) (upd : Text → Cfg α) (acl : Cfg α → Acl) (text : Acl → Text)
    (c : Cfg α) (p : Text) (ps : List Text) (hl : lookup name = some o) (ha : o.arity = -2)
    (hp : parse env o.fn c (p :: ps) = match parseAclList (p :: ps) with
      | .error e => .error e
      | .ok v => .ok (upd v)) (hg : ∀ v, text (acl (upd v)) = v) (he : ∀ v, (acl (upd v)).enabled = true)
    (hw : ∀ q ∈ p :: ps, q ≠ [] ∧ ' ' ∉ q) :
    ((∃ c', Accepts env name (p :: ps) c c') ↔ ((p :: ps).map (·.length + 1)).sum ≤ 4096) ∧
      ∀ c', Accepts env name (p :: ps) c c' → (acl c').enabled = true ∧ Words (text (acl c')) (p :: ps) := by
  rw [parseAclList_eq] at hp
  by_cases hb : ((p :: ps).map (·.length + 1)).sum > 4096
  · rw [if_pos hb] at hp
    have no : ∀ c', ¬ Accepts env name (p :: ps) c c' := by
      rintro c' ⟨o', hl', _, h⟩
      cases Option.some.inj (hl.symm.trans hl')
      rw [hp] at h
      cases h
    exact ⟨⟨fun ⟨c', h⟩ => absurd h (no c'), fun h => by omega⟩, fun c' h => absurd h (no c')⟩
  · rw [if_neg hb] at hp
    refine ⟨⟨fun _ => by omega, fun _ => ⟨_, o, hl, ?_, hp⟩⟩, ?_⟩
    · rw [ha]
      simp only [arityOk, List.length_cons]
      simp
      omega
    · rintro c' ⟨o', hl', _, h⟩
      cases Option.some.inj (hl.symm.trans hl')
      rw [hp] at h
      cases h
      refine ⟨he _, ?_⟩
      rw [hg]
      exact words_take _ hw (by rw [flat_length]; omega)

/-- C340: a list is accepted exactly if it fits the buffer of 4096 characters with a blank after each address; the
text kept then consists of the addresses given, and no others (an earlier list is gone), and the list is in
force. -/
theorem C340_lists (env : Env α) : ∀ r ∈ listOpts α, ∀ p ps c, (∀ q ∈ p :: ps, q ≠ [] ∧ ' ' ∉ q) →
    ((∃ c', Accepts env r.name (p :: ps) c c') ↔ ((p :: ps).map (·.length + 1)).sum ≤ 4096) ∧
      ∀ c', Accepts env r.name (p :: ps) c c' → (r.acl c').enabled = true ∧ Words (r.text (r.acl c')) (p :: ps) ∧
        ∀ ws, Words (r.text (r.acl c')) ws → ws = p :: ps := by
  have fin : ∀ (P : Prop) (f : Cfg α → Text) (e : Cfg α → Prop) (A : Cfg α → Prop) (l : List Text),
      (P ∧ ∀ c', A c' → e c' ∧ Words (f c') l) →
      P ∧ ∀ c', A c' → e c' ∧ Words (f c') l ∧ ∀ ws, Words (f c') ws → ws = l := by
    intro P f e A l ⟨h1, h2⟩
    exact ⟨h1, fun c' h => ⟨(h2 c' h).1, (h2 c' h).2, fun ws hw => words_unique hw rfl (h2 c' h).2⟩⟩
  unfold listOpts
  repeat' refine List.forall_mem_cons.2 ⟨?_, ?_⟩
  all_goals first | (intro o ho; exact absurd ho List.not_mem_nil) | skip
  all_goals
    intro p ps c hw
    refine fin _ _ _ _ _ ?_
    exact list_row env _ _ _ _ _ c p ps rfl rfl rfl (fun v => rfl) (fun v => rfl) hw

/-- The first list is replaced. -/
example : (run libc (Conf.init _) [o none "ptp_timing_acl_allow" ["10.0.0.1", "10.0.0.2"],
    o none "ptp_timing_acl_permit" ["10.0.0.3", "10.0.0.4"]]).glob?.map (·.timingAcl.allow) =
      some "10.0.0.3 10.0.0.4 ".toList := by decide +kernel

/-! ## C341: monitoring stations -/

theorem quotedTail_none : ∀ t : Text, ']' ∉ t → quotedTail t = none := by
  intro t
  induction t with
  | nil => intro _; rfl
  | cons c t ih =>
    intro h
    unfold quotedTail
    rw [ih fun hm => h (List.mem_cons_of_mem _ hm)]
    dsimp only
    rw [if_neg fun hc : c = ']' => h (hc ▸ List.mem_cons_self)]

theorem quotedTail_end : ∀ n : Text, quotedTail (n ++ [']']) = some (n, none) := by
  intro n
  induction n with
  | nil => rfl
  | cons c n ih => simp only [List.cons_append, quotedTail, ih]

theorem quotedTail_port (s : Text) (h1 : ']' ∉ s) (h2 : ':' ∉ s) : ∀ n : Text,
    quotedTail (n ++ ']' :: ':' :: s) = some (n, some s) := by
  intro n
  induction n with
  | nil =>
    have : quotedTail (':' :: s) = none := quotedTail_none _ (by
      intro hm
      rcases List.mem_cons.1 hm with hm | hm
      · cases hm
      · exact h1 hm)
    rw [List.nil_append, quotedTail, this]
    dsimp only
    rw [if_pos rfl, if_pos ⟨rfl, h2⟩]
  | cons c n ih => simp only [List.cons_append, quotedTail, ih]

theorem split_plain (t : Text) (h : ∀ u, t ≠ '[' :: u) : splitAddr t = unquoted t := by
  unfold splitAddr
  cases t with
  | nil => rfl
  | cons c u =>
    have hc : c ≠ '[' := fun hc => h u (by rw [hc])
    split
    · next x hx => exact absurd (List.cons.inj hx).1 hc
    · rfl

theorem head_plain (n r : Text) (h : '[' ∉ n) (hr : ∀ u, r ≠ '[' :: u) : ∀ u, n ++ r ≠ '[' :: u := by
  intro u hu
  cases n with
  | nil => exact hr u hu
  | cons c n => exact h ((List.cons.inj hu).1 ▸ List.mem_cons_self)

theorem drop_plain : ∀ (n s : Text), ':' ∉ n → (n ++ ':' :: s).dropWhile (· ≠ ':') = ':' :: s ∧
    (n ++ ':' :: s).takeWhile (· ≠ ':') = n := by
  intro n
  induction n with
  | nil => intro s _; simp
  | cons c n ih =>
    intro s h
    have hc : c ≠ ':' := fun hc => h (hc ▸ List.mem_cons_self)
    obtain ⟨h1, h2⟩ := ih s fun hm => h (List.mem_cons_of_mem _ hm)
    simp [List.dropWhile_cons, List.takeWhile_cons, hc] at h1 h2 ⊢
    exact ⟨h1, h2⟩

theorem drop_all : ∀ n : Text, ':' ∉ n → n.dropWhile (· ≠ ':') = [] := by
  intro n
  induction n with
  | nil => intro _; rfl
  | cons c n ih =>
    intro h
    have hc : c ≠ ':' := fun hc => h (hc ▸ List.mem_cons_self)
    have h1 := ih fun hm => h (List.mem_cons_of_mem _ hm)
    simp [List.dropWhile_cons, hc] at h1 ⊢
    exact h1

theorem splitAddr_addr {t n : Text} {s : Option Text} (h : Addr t n s) : splitAddr t = some (n, s) := by
  cases h with
  | quoted n h =>
    simp only [splitAddr, List.cons_append]
    rw [quotedTail_end]
  | quotedPort n s h1 h2 h3 =>
    simp only [splitAddr, List.cons_append]
    rw [quotedTail_port s h2 h3]
  | plain _ h1 h2 =>
    have hn := head_plain t [] h2 (fun u => by simp)
    rw [List.append_nil] at hn
    rw [split_plain t hn, unquoted, drop_all t h1]
  | plainPort n s h1 h2 h3 =>
    rw [split_plain _ (head_plain n (':' :: s) h2 (fun u => by simp))]
    obtain ⟨e1, e2⟩ := drop_plain n s h1
    rw [unquoted, e1, e2]
    dsimp only
    rw [if_neg h3]

theorem monLoop_eq (env : Env α) (b : Bool) : ∀ (l : List (Text × α)),
    (∀ p ∈ l, ∃ n s, Addr p.1 n s ∧ env.resolve b n s = some p.2) → ∀ ds : List α, ds.length ≤ 6 →
    monLoop env b (l.map Prod.fst) ds =
      if ds.length + l.length ≤ 6 then .ok (ds ++ l.map Prod.snd) else .error e2BIG := by
  intro l
  induction l with
  | nil =>
    intro _ ds h
    rw [if_pos (by simpa using h)]
    simp [monLoop]
  | cons p l ih =>
    intro h ds hd
    obtain ⟨n, s, h1, h2⟩ := h p List.mem_cons_self
    rw [List.map_cons]
    unfold monLoop
    by_cases hx : ds.length ≥ 6
    · rw [if_pos (show ds.length ≥ maxDests from hx), if_neg (by simp only [List.length_cons]; omega)]
    · rw [if_neg (show ¬ ds.length ≥ maxDests from hx), splitAddr_addr h1]
      dsimp only
      rw [h2]
      dsimp only
      rw [ih (fun q hq => h q (List.mem_cons_of_mem _ hq)) _ (by simp only [List.length_append, List.length_singleton]; omega)]
      simp only [List.length_append, List.length_singleton, List.length_cons, List.map_cons, List.append_assoc,
        List.singleton_append, List.length_nil, Nat.zero_add]
      by_cases hy : ds.length + 1 + l.length ≤ 6
      · rw [if_pos hy, if_pos (by omega)]
      · rw [if_neg hy, if_neg (by omega)]

/-- C341: addresses of monitoring stations, written with or without brackets and port, are added in the order given,
and accepted exactly if there are no more than six in all. -/
theorem C341_monitors (env : Env α) (c : Cfg α) (hc : c.mon.dests.length ≤ 6) (p : Text × α) (l : List (Text × α))
    (h : ∀ q ∈ p :: l, ∃ n s, Addr q.1 n s ∧ env.resolve c.misc.ipv6 n s = some q.2) :
    ((∃ c', Accepts env "mon_monitor_address".toList ((p :: l).map Prod.fst) c c') ↔
      c.mon.dests.length + (p :: l).length ≤ 6) ∧
    ∀ c', Accepts env "mon_monitor_address".toList ((p :: l).map Prod.fst) c c' →
      c'.mon.dests = c.mon.dests ++ (p :: l).map Prod.snd := by
  have hm := monLoop_eq env c.misc.ipv6 (p :: l) h c.mon.dests hc
  by_cases hx : c.mon.dests.length + (p :: l).length ≤ 6
  · rw [if_pos hx] at hm
    have hp : parse env .monAddr c ((p :: l).map Prod.fst) =
        .ok { c with mon := { c.mon with dests := c.mon.dests ++ (p :: l).map Prod.snd } } := by
      simp only [parse, parseMonAddr, hm]
    refine ⟨⟨fun _ => hx, fun _ => ⟨_, _, rfl, ?_, hp⟩⟩, ?_⟩
    · simp [arityOk]
      omega
    · rintro c' ⟨o, hl, _, h⟩
      cases Option.some.inj ((rfl : lookup _ = some _).symm.trans hl)
      rw [hp] at h
      cases h
      rfl
  · rw [if_neg hx] at hm
    have no : ∀ c', ¬ Accepts env "mon_monitor_address".toList ((p :: l).map Prod.fst) c c' := by
      rintro c' ⟨o, hl, _, h⟩
      cases Option.some.inj ((rfl : lookup _ = some _).symm.trans hl)
      simp only [parse, parseMonAddr, hm] at h
      cases h
    exact ⟨⟨fun ⟨c', h⟩ => absurd h (no c'), fun h => absurd h hx⟩, fun c' h => absurd h (no c')⟩

/-- The ways to write an address. -/
example : splitAddr "[fe80::1%eth0]:319".toList = some ("fe80::1%eth0".toList, some "319".toList) ∧
    Addr "[fe80::1%eth0]:319".toList "fe80::1%eth0".toList (some "319".toList) ∧
    Addr "host.example:5000".toList "host.example".toList (some "5000".toList) :=
  ⟨by decide, .quotedPort "fe80::1%eth0".toList "319".toList (by decide) (by decide) (by decide),
    .plainPort "host.example".toList "5000".toList (by decide) (by decide) (by decide)⟩

example : (run libc (Conf.init _) [.inst, o (some 0) "mon_monitor_address" ["10.0.0.1", "[::1]"],
    o (some 0) "mon_monitor_address" ["ab:1"]]).insts.map (·.mon.dests) = [[8, 3, 2]] := by decide +kernel

/-! ## C342: fractions -/

/-- The options with a number between zero and one. -/
def fractions (α : Type) : List (Text × (Cfg α → FV)) :=
  [("pid_filter_p".toList, (·.filters.kp)), ("pid_filter_i".toList, (·.filters.ki)),
   ("outlier_filter_adaption".toList, (·.filters.adaption))]

/-- C342: coefficients of the filters are numbers between zero and one. -/
def C342_statement : Prop :=
  ∀ (α : Type) (env : Env α), ∀ r ∈ fractions α, ∀ t c c', Accepts env r.1 [t] c c' → InUnit (r.2 c')

/-- Not-a-number is neither below zero nor above one. -/
theorem C342_violated : ¬ C342_statement := by
  intro h
  obtain ⟨q, hq, _⟩ := h Nat libc _ List.mem_cons_self "nan".toList (Cfg.init Nat) _ ⟨_, rfl, rfl, rfl⟩
  cases hq

/-- C342, the part that holds: texts of numbers are accepted exactly if the number lies between zero and one, and
infinities not at all. Missing: the text `nan`. -/
theorem C342_partial (env : Env α) : ∀ r ∈ fractions α, ∀ t v, env.scanF t = some v → v ≠ .nan → ∀ c,
    ((∃ c', Accepts env r.1 [t] c c') ↔ InUnit v) ∧ ∀ c', Accepts env r.1 [t] c c' → r.2 c' = v := by
  have row : ∀ (name : Text) (o : Opt) (upd : FV → Cfg α) (get : Cfg α → FV) (c : Cfg α) (t : Text) (v : FV),
      env.scanF t = some v → v ≠ .nan → lookup name = some o → arityOk o.arity 1 = true →
      (parse env o.fn c [t] = match unitFloat env t with
        | .error e => .error e
        | .ok v => .ok (upd v)) → (∀ v, get (upd v) = v) →
      ((∃ c', Accepts env name [t] c c') ↔ InUnit v) ∧ ∀ c', Accepts env name [t] c c' → get c' = v := by
    intro name o upd get c t v hs hv hl ha hp hg
    have hu : (∃ w, unitFloat env t = .ok w) ↔ InUnit v := by
      unfold unitFloat InUnit
      rw [hs]
      dsimp only
      cases v with
      | nan => exact absurd rfl hv
      | ninf => simp [FV.lt]
      | pinf => simp [FV.lt, FV.gt]
      | num q =>
        simp only [FV.lt, FV.gt, Bool.or_eq_true, decide_eq_true_eq, FV.num.injEq, exists_eq_left']
        by_cases hx : q < 0 ∨ 1 < q
        · rw [if_pos hx]
          constructor
          · rintro ⟨w, hw⟩; cases hw
          · rintro ⟨h1, h2⟩
            rcases hx with hx | hx
            · exact absurd h1 (Rat.not_le.2 hx)
            · exact absurd h2 (Rat.not_le.2 hx)
        · rw [if_neg hx]
          exact ⟨fun _ => ⟨Rat.not_lt.1 fun h => hx (.inl h), Rat.not_lt.1 fun h => hx (.inr h)⟩, fun _ => ⟨_, rfl⟩⟩
    have hw : ∀ w, unitFloat env t = .ok w → w = v := by
      intro w h
      unfold unitFloat at h
      rw [hs] at h
      dsimp only at h
      split at h
      · cases h
      · cases h; rfl
    cases hx : unitFloat env t with
    | error e =>
      rw [hx] at hp
      have no : ∀ c', ¬ Accepts env name [t] c c' := by
        rintro c' ⟨o', hl', _, h⟩
        cases Option.some.inj (hl.symm.trans hl')
        rw [hp] at h
        cases h
      refine ⟨⟨fun ⟨c', h⟩ => absurd h (no c'), fun h => ?_⟩, fun c' h => absurd h (no c')⟩
      obtain ⟨w, hw⟩ := hu.2 h
      rw [hx] at hw
      cases hw
    | ok w =>
      have hwv := hw w hx
      rw [hx] at hp
      refine ⟨⟨fun _ => hu.1 ⟨w, hx⟩, fun _ => ⟨upd w, o, hl, ha, hp⟩⟩, ?_⟩
      rintro c' ⟨o', hl', _, h⟩
      cases Option.some.inj (hl.symm.trans hl')
      rw [hp] at h
      cases h
      rw [hg, hwv]
  unfold fractions
  repeat' refine List.forall_mem_cons.2 ⟨?_, ?_⟩
  all_goals first | (intro o ho; exact absurd ho List.not_mem_nil) | skip
  all_goals
    intro t v hs hv c
    exact row _ _ _ _ c t v hs hv rfl rfl rfl (fun v => rfl)

example : libc.scanF "0.5".toList = some (.num (1 / 2)) ∧ (run libc (Conf.init _) [o none "pid_filter_p" ["0.5"]]).isOk ∧
    InUnit (.num (1 / 2)) := ⟨by decide +kernel, by decide +kernel, 1 / 2, rfl, by decide +kernel, by decide +kernel⟩

/-! ## C343: names of interfaces -/

/-- C343: an instance uses the interface of the name given. -/
def C343_statement : Prop :=
  ∀ (α : Type) (env : Env α) t c c', Accepts env "interface".toList [t] c c' → c'.misc.interfaceName = t

/-- A name of 16 characters is cut without a word. -/
theorem C343_violated : ¬ C343_statement := by
  intro h
  exact absurd (h Nat libc "enp130s0f1np1v12".toList (Cfg.init Nat) _ ⟨_, rfl, rfl, rfl⟩) (by decide +kernel)

/-- C343, the part that holds: names that an interface can have, at most 15 characters. Longer names are cut to 15
characters. -/
theorem C343_partial (env : Env α) (t : Text) (c c' : Cfg α) (h : Accepts env "interface".toList [t] c c') :
    (t.length ≤ 15 → c'.misc.interfaceName = t) ∧ c'.misc.interfaceName.length ≤ 15 ∧
      ∃ r, t = c'.misc.interfaceName ++ r := by
  obtain ⟨o, hl, _, h⟩ := h
  cases Option.some.inj ((rfl : lookup _ = some _).symm.trans hl)
  simp only [parse, parseInterface] at h
  cases h
  refine ⟨fun h => List.take_of_length_le h, List.length_take_le _ _, t.drop 15, ?_⟩
  exact (List.take_append_drop 15 t).symm

example : (run libc (Conf.init _) [.inst, o (some 0) "interface" ["enp130s0f1np1"]]).insts.map (·.misc.interfaceName) =
    ["enp130s0f1np1".toList] := by decide +kernel

/-! ## C344: texts of numbers -/

/-- The characters of numbers. -/
def numberChars : Text := "0123456789abcdefABCDEFxX+-".toList

/-- C344: a text accepted for a number is the text of a number and nothing else, and a numeral has its value. -/
def C344_statement : Prop :=
  ∀ (α : Type) (env : Env α), ∀ r ∈ nums α, ∀ t c c', Accepts env r.name [t] c c' →
    (∀ x ∈ t, x ∈ numberChars) ∧ ∀ n, IntText t n → r.get c' = n

/-- What follows a number is ignored: `12,14` is the domain 12. -/
theorem C344_violated : ¬ C344_statement := by
  intro h
  exact absurd ((h Nat libc _ List.mem_cons_self "12,14".toList (Cfg.init Nat) _ ⟨_, rfl, rfl, rfl⟩).1 ',' (by decide))
    (by decide)

/-- Numbers that do not fit lose their upper bits: the domain 4294967299 is the domain 3. -/
theorem C344_overflow : ∃ (t : Text) (n : Int) (c' : Cfg Nat), IntText t n ∧
    Accepts libc "ptp_domain".toList [t] (Cfg.init Nat) c' ∧ n = 4294967299 ∧ c'.domain = 3 := by
  refine ⟨"4294967299".toList, 4294967299, _, ?_, ⟨_, rfl, rfl, rfl⟩, rfl, by decide +kernel⟩
  refine .pos _ 4294967299 ?_
  exact .more "429496729".toList 429496729 9 '9' (.more "42949672".toList 42949672 9 '9' (.more "4294967".toList 4294967 2 '2'
    (.more "429496".toList 429496 7 '7' (.more "42949".toList 42949 6 '6' (.more "4294".toList 4294 9 '9'
      (.more "429".toList 429 4 '4' (.more "42".toList 42 9 '9' (.more "4".toList 4 2 '2' (.digit 4 '4' rfl)
        (by decide) rfl) (by decide) rfl) (by decide) rfl) (by decide) rfl) (by decide) rfl) (by decide) rfl)
          (by decide) rfl) (by decide) rfl) (by decide) rfl

/-- C344, the part that holds: numerals of 32 bits have their value. Missing: longer numerals and texts with something
after the number. -/
theorem C344_partial (env : Env α) : ∀ r ∈ nums α, ∀ t n c c', IntText t n → -2 ^ 31 ≤ n → n < 2 ^ 31 →
    Accepts env r.name [t] c c' → r.get c' = n :=
  fun r hr t n c c' ht h1 h2 h => (C336_numbers env r hr t n ht h1 h2 c).2 c' h

end Verif.PtpConf
