import Verif.PtpConf.Support

set_option linter.unusedSimpArgs false
set_option linter.unusedVariables false

/-
# Lemmas: numerals, keywords and what options may change
-/

namespace Verif.PtpConf

variable {α : Type}

/-! ## Numerals -/

theorem decimal_digit {d : Nat} {c : Char} (h : decimal[d]? = some c) :
    digit 10 c = some d ∧ c ≠ '-' ∧ c ≠ '+' ∧ isSpace c = false ∧ (c = '0' → d = 0) := by
  have hd : d < 10 := by
    have := (List.getElem?_eq_some_iff.1 h).1
    exact this
  have key : ∀ d : Fin 10, ∀ c, decimal[d.1]? = some c →
      digit 10 c = some d.1 ∧ c ≠ '-' ∧ c ≠ '+' ∧ isSpace c = false ∧ (c = '0' → d.1 = 0) := by
    intro d c hc
    match d with
    | 0 => cases hc; decide
    | 1 => cases hc; decide
    | 2 => cases hc; decide
    | 3 => cases hc; decide
    | 4 => cases hc; decide
    | 5 => cases hc; decide
    | 6 => cases hc; decide
    | 7 => cases hc; decide
    | 8 => cases hc; decide
    | 9 => cases hc; decide
  exact key ⟨d, hd⟩ c h

theorem readDigits_append {base acc : Nat} {t r : Text} (h : ∀ x ∈ t, (digit base x).isSome) :
    readDigits base acc (t ++ r) = readDigits base (readDigits base acc t) r := by
  induction t generalizing acc with
  | nil => rfl
  | cons x t ih =>
    have hx := h x (List.mem_cons_self ..)
    obtain ⟨d, hd⟩ := Option.isSome_iff_exists.1 hx
    simp only [List.cons_append, readDigits, hd]
    exact ih (fun y hy => h y (List.mem_cons_of_mem _ hy))

theorem numeral_digits {t : Text} {n : Nat} (h : Numeral t n) : ∀ x ∈ t, (digit 10 x).isSome := by
  induction h with
  | digit d c hc =>
    intro x hx
    rw [List.mem_singleton.1 hx, (decimal_digit hc).1]
    rfl
  | more t n d c _ _ hc ih =>
    intro x hx
    rcases List.mem_append.1 hx with hx | hx
    · exact ih x hx
    · rw [List.mem_singleton.1 hx, (decimal_digit hc).1]
      rfl

theorem numeral_head {t : Text} {n : Nat} (h : Numeral t n) :
    ∃ (c : Char) (r : Text) (d : Nat), t = c :: r ∧ decimal[d]? = some c ∧ (c = '0' → r = [] ∧ n = 0) := by
  induction h with
  | digit d c hc => exact ⟨c, [], d, rfl, hc, fun h0 => ⟨rfl, (decimal_digit hc).2.2.2.2 h0⟩⟩
  | more t n d c _ hn hc ih =>
    obtain ⟨c0, r, d0, rfl, h1, h2⟩ := ih
    refine ⟨c0, r ++ [c], d0, rfl, h1, ?_⟩
    intro h0
    have := (h2 h0).2
    omega

theorem numeral_scan {t : Text} {n : Nat} (h : Numeral t n) : scanNat 10 t = some n := by
  induction h with
  | digit d c hc => simp [scanNat, (decimal_digit hc).1, readDigits]
  | more t n d c hn _ hc ih =>
    have hd := numeral_digits hn
    obtain ⟨c0, r, d0, rfl, h1, _⟩ := numeral_head hn
    have h0 := (decimal_digit h1).1
    simp only [List.cons_append, scanNat, h0, Option.map_some, Option.some.injEq] at ih ⊢
    rw [readDigits_append (fun x hx => hd x (List.mem_cons_of_mem _ hx)), ih]
    simp only [readDigits, (decimal_digit hc).1]
    omega

theorem numeral_magnitude {t : Text} {n : Nat} (h : Numeral t n) : magnitude t = some n := by
  have hs := numeral_scan h
  obtain ⟨c, r, d, rfl, h1, h2⟩ := numeral_head h
  unfold magnitude
  split
  · rename_i x r' he
    injection he with he1 he2
    obtain ⟨hr, _⟩ := h2 he1
    rw [hr] at he2
    cases he2
  · exact hs

theorem numeral_sign {t : Text} {n : Nat} (h : Numeral t n) : sign t = (false, t) := by
  obtain ⟨c, r, d, rfl, h1, h2⟩ := numeral_head h
  obtain ⟨_, hm, hp, _⟩ := decimal_digit h1
  unfold sign
  split
  · rename_i he; injection he with he1 _; exact absurd he1 hm
  · rename_i he; injection he with he1 _; exact absurd he1 hp
  · rfl

theorem numeral_space {t : Text} {n : Nat} (h : Numeral t n) : t.dropWhile isSpace = t := by
  obtain ⟨c, r, d, rfl, h1, h2⟩ := numeral_head h
  simp [List.dropWhile, (decimal_digit h1).2.2.2.1]

theorem small_int {v : Int} (h1 : -2147483648 ≤ v) (h2 : v ≤ 2147483647) : toInt32 (clamp64 v) = v := by
  unfold clamp64
  rw [if_neg (by omega), if_neg (by omega)]
  unfold toInt32
  omega

theorem scanI_text {t : Text} {v : Int} (h : IntText t v) (h1 : -2147483648 ≤ v) (h2 : v ≤ 2147483647) :
    scanI t = some v := by
  cases h with
  | pos t n hn =>
    unfold scanI
    rw [numeral_space hn, numeral_sign hn]
    simp only [numeral_magnitude hn, Option.map_some, Option.some.injEq, Bool.false_eq_true, if_false]
    exact small_int h1 h2
  | neg t n hn hp =>
    unfold scanI
    have : ('-' :: t).dropWhile isSpace = '-' :: t := by simp [List.dropWhile, show isSpace '-' = false from by decide]
    rw [this]
    simp only [sign, numeral_magnitude hn, Option.map_some, Option.some.injEq, if_true]
    exact small_int h1 h2

theorem scanU_text {t : Text} {n : Nat} (h : Numeral t n) (h1 : n < 4294967296) : scanU t = some n := by
  unfold scanU
  rw [numeral_space h, numeral_sign h]
  simp only [numeral_scan h, Option.map_some, Option.some.injEq, Bool.false_eq_true, if_false]
  rw [if_neg (by omega)]
  omega

theorem intIn_text {lo hi : Int} {t : Text} {v : Int} (h : IntText t v) (h1 : -2147483648 ≤ v) (h2 : v ≤ 2147483647) :
    intIn lo hi t = if v < lo ∨ v > hi then .error eRANGE else .ok v := by
  unfold intIn
  rw [scanI_text h h1 h2]

/-! ## What options may change -/

theorem owners_all (env : Env α) : ∀ o ∈ owners α, ∀ ps c c', Accepts env o.name ps c c' → o.own c c' = c := by
  unfold owners
  repeat' refine List.forall_mem_cons.2 ⟨?_, ?_⟩
  all_goals first | (intro o ho; exact absurd ho List.not_mem_nil) | skip
  all_goals
    intro ps c c' h
    obtain ⟨o, hl, _, h⟩ := h
    have hl := Option.some.inj ((rfl : lookup _ = some _).symm.trans hl)
    rw [← hl] at h
    clear hl
    dsimp only [parse] at h
    try simp only [parseProfile, parseVersion, parseMode, parseInterface, parseTransport, parseScope, parsePriority,
      parseThreshold, parseTimestamping,
      parseTxLatency, parseRxLatency, parseMechanism, parseNetworkMode, parseTtl, parseUtcOffset, parseUtcHandling,
      parseTimescale, parseDomain,
      parseMgmt, parseTimingAllow, parseTimingDeny, parseTimingOrder, parseMgmtAllow, parseMgmtDeny,
      parseMgmtOrder, parseMonAllow, parseMonDeny, parseMonOrder, parseAnnounce, parseAnnounceTimeout, parseSync,
      parseSyncTimeout, parseDelayReq, parseDelayRespTimeout, parseMissing,
      parseMaxForeign, parsePriority1, parsePriority2, parseTrace, parseIgnorePort, parseKp, parseKi,
      parseOutlierSize, parseAdaption, parseMpdSize, parseAgeing, parseFirSize, parseMonAddr, parseRxTiming,
      parseRxComputed, parseTxEvent, parseDiscriminator, parseCommCaps,
      parseOnload, parseBypass] at h
    try
      repeat' split at h
    all_goals first | (cases h; done) | skip
    all_goals
      have h := Except.ok.inj h
      subst h
      rfl

end Verif.PtpConf
