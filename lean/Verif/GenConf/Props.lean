import Verif.GenConf.Spec
import Verif.PtpConf.Names

/-
# Properties of the general options: trace levels and users
-/

set_option linter.unusedSimpArgs false
set_option linter.unusedVariables false

namespace Verif.GenConf

open Spec
open Verif.PtpConf (Text isSpace digit readDigits scanNat sign clamp64 scanI Numeral IntText numeral_scan numeral_space numeral_sign scanI_text)

/-! ## C353: verbosity never lowers a trace level -/

/-- C353: for trace levels in the documented range 0 to 6, a `-v` option leaves no
level lower than it was. -/
def C353_statement : Prop :=
  ∀ (v : Nat) (l : Levels), (∀ p ∈ traced, p.2 l ≤ 6) → ∀ p ∈ traced, p.2 l ≤ p.2 (setVerbose v l)

/-- The level of the servo goes from 5 to 1 with `-v -v`. -/
theorem C353_violated : ¬ C353_statement := by
  intro h
  have := h 2 { servo := 5 } (by decide) ("servo".toList, Levels.servo) (by simp [traced])
  exact absurd this (by decide)

theorem le_atLeast (n x : Nat) : n ≤ atLeast n x ∧ x ≤ atLeast n x := by
  unfold atLeast
  by_cases h : x < n
  · rw [if_pos h]; omega
  · rw [if_neg h]; omega

/-- C353 with the exception of the servo, which is lowered only if the verbosity is two
or more and the level of threading is zero; it is then 1. -/
theorem C353_verbose_raises_partial (v : Nat) (l : Levels) (h : ∀ p ∈ traced, p.2 l ≤ 6) :
    (∀ p ∈ traced, p.1 ≠ "servo".toList → p.2 l ≤ p.2 (setVerbose v l)) ∧
    (v < 2 ∨ 1 ≤ l.threading → l.servo ≤ (setVerbose v l).servo) ∧
    (2 ≤ v → l.threading = 0 → (setVerbose v l).servo = 1) := by
  simp only [traced, List.forall_mem_cons, List.not_mem_nil, false_imp_iff, implies_true, and_true] at h ⊢
  obtain ⟨h1, h2, h3, h4, h5, h6, h7⟩ := h
  rcases Nat.lt_or_ge v 1 with a | a
  · have b : ¬ v ≥ 1 := by omega
    have c : ¬ v ≥ 2 := by omega
    have d : ¬ v ≥ 3 := by omega
    simp [setVerbose, b, c, d]
  rcases Nat.lt_or_ge v 2 with b | b
  · have c : ¬ v ≥ 2 := by omega
    have d : ¬ v ≥ 3 := by omega
    simp only [setVerbose, a, c, d, verbose1, if_true, if_false]
    have g := le_atLeast 3 l.general
    have g1 := le_atLeast 1 l.netlink
    have g2 := le_atLeast 1 l.ntp
    have g3 := le_atLeast 2 l.clocks
    refine ⟨⟨?_, ?_, ?_, ?_, ?_, ?_, ?_⟩, ?_, ?_⟩ <;> intros <;> first | omega | simp_all
  rcases Nat.lt_or_ge v 3 with c | c
  · have d : ¬ v ≥ 3 := by omega
    simp only [setVerbose, a, b, d, verbose1, verbose2, atLeast, if_true, if_false]
    by_cases e : l.threading < 1
    · simp only [e, if_true]
      refine ⟨⟨?_, ?_, ?_, ?_, ?_, ?_, ?_⟩, ?_, ?_⟩ <;> intros <;> simp_all <;> omega
    · simp only [e, if_false]
      refine ⟨⟨?_, ?_, ?_, ?_, ?_, ?_, ?_⟩, ?_, ?_⟩ <;> intros <;> simp_all <;> omega
  · simp only [setVerbose, a, b, c, verbose1, verbose2, atLeast, if_true, if_false]
    by_cases e : l.threading < 1
    · simp only [e, if_true]
      refine ⟨⟨?_, ?_, ?_, ?_, ?_, ?_, ?_⟩, ?_, ?_⟩ <;> intros <;> simp_all <;> omega
    · simp only [e, if_false]
      refine ⟨⟨?_, ?_, ?_, ?_, ?_, ?_, ?_⟩, ?_, ?_⟩ <;> intros <;> simp_all <;> omega

example : (∀ p ∈ traced, p.2 ({ servo := 5, threading := 2, ntp := 4 } : Levels) ≤ 6) ∧
    (setVerbose 2 { servo := 5, threading := 2, ntp := 4 }).servo = 6 := by decide

/-! ## C354: the verbosity of the command line in force at the start -/

/-- C354: when the daemon starts with `n` options `-v`, the levels are at least those of
that verbosity whatever the file says: with one, general 3, netlink 1, ntp 1, clocks 2; with two,
6 for all but threading, which is at least 1; with three, 6 for threading too. -/
def C354_statement : Prop :=
  ∀ (n : Nat) (file : List (List Text)) (l : Levels), startLevels n file = .ok l →
    (1 ≤ n → 3 ≤ l.general ∧ 1 ≤ l.netlink ∧ 1 ≤ l.ntp ∧ 2 ≤ l.clocks) ∧
    (2 ≤ n → (∀ p ∈ traced, p.1 ≠ "threading".toList → 6 ≤ p.2 l) ∧ 1 ≤ l.threading) ∧
    (3 ≤ n → 6 ≤ l.threading)

/-- With `-v -v` and no configuration the servo has level 1 and threading level 0. -/
theorem C354_violated : ¬ C354_statement := by
  intro h
  have := (h 2 [] ⟨6, 0, 6, 6, 6, 1, 6⟩ (by decide)).2.1 (by decide)
  exact absurd this.2 (by decide)

theorem pass_threading (n : Nat) (l : Levels) : (pass n l).threading = if 3 ≤ n then 6 else l.threading := by
  induction n with
  | zero => simp [pass]
  | succ n ih =>
    simp only [pass, setVerbose]
    by_cases h3 : n + 1 ≥ 3
    · simp [h3]
    · have : ¬ 3 ≤ n := by omega
      simp only [this, if_false] at ih
      simp only [h3, if_false]
      by_cases h2 : n + 1 ≥ 2 <;> simp only [h2, if_true, if_false] <;>
        simp only [verbose2, verbose1] <;> (repeat' split) <;> simp_all

theorem setVerbose_servo (v : Nat) (l : Levels) (h : 2 ≤ v) :
    (setVerbose v l).servo = if l.threading < 1 then 1 else 6 := by
  have h1 : v ≥ 1 := by omega
  have h2 : v ≥ 2 := h
  simp only [setVerbose, h1, h2, if_true, verbose1, verbose2]
  by_cases e : l.threading < 1 <;> by_cases h3 : v ≥ 3 <;> simp [e, h3]

theorem setVerbose_rest (v : Nat) (l : Levels) (h : 2 ≤ v) :
    (setVerbose v l).general = 6 ∧ (setVerbose v l).netlink = 6 ∧ (setVerbose v l).ntp = 6 ∧
    (setVerbose v l).clocks = 6 ∧ (setVerbose v l).bic = 6 := by
  have h1 : v ≥ 1 := by omega
  have h2 : v ≥ 2 := h
  simp only [setVerbose, h1, h2, if_true, verbose1, verbose2]
  by_cases e : l.threading < 1 <;> by_cases h3 : v ≥ 3 <;> simp [e, h3]

theorem fileLevels_threading {file : List (List Text)}
    (hf : ∀ ps ∈ file, ∀ a b, parseTraceLevel a ps = .ok b → b.threading = a.threading) :
    ∀ {l l' : Levels}, fileLevels file l = .ok l' → l'.threading = l.threading := by
  induction file with
  | nil => intro l l' h; simp only [fileLevels] at h; cases h; rfl
  | cons ps r ih =>
    intro l l' h
    simp only [fileLevels] at h
    cases hp : parseTraceLevel l ps with
    | ok b =>
      simp only [hp] at h
      rw [ih (fun q hq => hf q (List.mem_cons_of_mem _ hq)) h]
      exact hf ps List.mem_cons_self l b hp
    | _ => simp only [hp] at h; cases h

/-- C354 but for the servo and threading with two options `-v`, and for files that set
the level of threading. -/
theorem C354_start_levels_partial (n : Nat) (file : List (List Text)) (l : Levels)
    (h : startLevels n file = .ok l) :
    (1 ≤ n → 3 ≤ l.general ∧ 1 ≤ l.netlink ∧ 1 ≤ l.ntp ∧ 2 ≤ l.clocks) ∧
    (2 ≤ n → (∀ p ∈ traced, p.1 ≠ "threading".toList → p.1 ≠ "servo".toList → 6 ≤ p.2 l) ∧ 1 ≤ l.servo) ∧
    (3 ≤ n → 6 ≤ l.threading) ∧
    (3 ≤ n → (∀ ps ∈ file, ∀ a b, parseTraceLevel a ps = .ok b → b.threading = a.threading) →
      6 ≤ l.servo) := by
  simp only [startLevels] at h
  cases hf : fileLevels file (pass n {}) with
  | ok m =>
    simp only [hf] at h
    cases h
    refine ⟨?_, ?_, ?_, ?_⟩
    · intro h1
      obtain ⟨k, rfl⟩ : ∃ k, n = k + 1 := ⟨n - 1, by omega⟩
      rcases Nat.eq_zero_or_pos k with rfl | hk
      · simp only [pass, setVerbose, verbose1]
        simp only [show ¬ (0 + 1 ≥ 2) by omega, show ¬ (0 + 1 ≥ 3) by omega, show (0 + 1 ≥ 1) by omega, if_true, if_false]
        exact ⟨(le_atLeast _ _).1, (le_atLeast _ _).1, (le_atLeast _ _).1, (le_atLeast _ _).1⟩
      · have := setVerbose_rest (k + 1) (pass k m) (by omega)
        simp only [pass]; omega
    · intro h2
      obtain ⟨k, rfl⟩ : ∃ k, n = k + 1 := ⟨n - 1, by omega⟩
      have a := setVerbose_rest (k + 1) (pass k m) h2
      have b := setVerbose_servo (k + 1) (pass k m) h2
      simp only [pass]
      refine ⟨?_, ?_⟩
      · simp only [traced, List.forall_mem_cons, List.not_mem_nil, false_imp_iff, implies_true, and_true]
        refine ⟨?_, ?_, ?_, ?_, ?_, ?_, ?_⟩ <;> intros <;> simp_all
      · rw [b]; split <;> omega
    · intro h3
      rw [pass_threading]; simp [h3]
    · intro h3 hs
      have ht := fileLevels_threading hs hf
      rw [pass_threading] at ht
      simp only [h3, if_true] at ht
      obtain ⟨k, rfl⟩ : ∃ k, n = k + 1 := ⟨n - 1, by omega⟩
      simp only [pass]
      rw [setVerbose_servo _ _ (by omega), pass_threading]
      split <;> split at * <;> omega
  | _ => simp only [hf] at h; cases h

example : startLevels 3 [["servo".toList, "2".toList]] = .ok ⟨6, 6, 6, 6, 6, 6, 6⟩ := by decide

/-! ## C355: the option `trace_level` -/

/-- C355: every `trace_level` line with at least one parameter, which is what the table of
options asks for, is accepted or refused, and naming a module and a level sets that level alone. -/
def C355_statement : Prop :=
  (∀ (l : Levels) (ps : List Text), 1 ≤ ps.length → Answered (parseTraceLevel l ps)) ∧
  (∀ (l : Levels) (t : Text) (v : Nat), Numeral t v → v ≤ 2147483647 → ∀ p ∈ traced,
    ∃ l', parseTraceLevel l [p.1, t] = .ok l' ∧ p.2 l' = v ∧ ∀ q ∈ traced, q.1 ≠ p.1 → q.2 l' = q.2 l)

/-- Three parameters fail an assertion. -/
theorem C355_violated : ¬ C355_statement := by
  intro h
  rcases h.1 {} ["a".toList, "b".toList, "c".toList] (by decide) with ⟨a, ha⟩ | ⟨n, hn⟩
  · exact absurd ha (by simp [parseTraceLevel])
  · exact absurd hn (by simp [parseTraceLevel])

/-- C355 for at most two parameters. -/
theorem C355_trace_level_partial :
    (∀ (l : Levels) (ps : List Text), 1 ≤ ps.length → ps.length ≤ 2 → Answered (parseTraceLevel l ps)) ∧
    (∀ (l : Levels) (t : Text) (v : Nat), Numeral t v → v ≤ 2147483647 →
      parseTraceLevel l [t] = .ok { l with general := v } ∧ ∀ p ∈ traced,
      ∃ l', parseTraceLevel l [p.1, t] = .ok l' ∧ p.2 l' = v ∧ ∀ q ∈ traced, q.1 ≠ p.1 → q.2 l' = q.2 l) := by
  refine ⟨?_, ?_⟩
  · intro l ps h1 h2
    match ps, h1, h2 with
    | [a], _, _ =>
      simp only [parseTraceLevel]
      split
      · exact .inr ⟨_, rfl⟩
      · exact .inl ⟨_, rfl⟩
    | [a, b], _, _ =>
      simp only [parseTraceLevel]
      repeat' split
      all_goals first | exact .inr ⟨_, rfl⟩ | exact .inl ⟨_, rfl⟩
  · intro l t v hv hle
    have hs : scanLevel t = some v := by
      have := scanI_text (IntText.pos t v hv) (by omega) (by omega)
      simp only [scanLevel, this, Option.map_some, Option.some.injEq]
      omega
    refine ⟨by simp only [parseTraceLevel, hs], ?_⟩
    simp only [traced, List.forall_mem_cons, List.not_mem_nil, false_imp_iff, implies_true, and_true]
    have w : ∀ m ∈ traced.map Prod.fst, scanWord m = some m := by decide
    simp only [traced, List.map_cons, List.map_nil, List.forall_mem_cons] at w
    obtain ⟨w1, w2, w3, w4, w5, w6, w7, _⟩ := w
    refine ⟨?_, ?_, ?_, ?_, ?_, ?_, ?_⟩
    · exact ⟨{ l with general := v }, by simp only [parseTraceLevel, w1, hs]; rfl, rfl, by simp⟩
    · exact ⟨{ l with threading := v }, by simp only [parseTraceLevel, w2, hs]; rfl, rfl, by simp⟩
    · exact ⟨{ l with bic := v }, by simp only [parseTraceLevel, w3, hs]; rfl, rfl, by simp⟩
    · exact ⟨{ l with netlink := v }, by simp only [parseTraceLevel, w4, hs]; rfl, rfl, by simp⟩
    · exact ⟨{ l with ntp := v }, by simp only [parseTraceLevel, w5, hs]; rfl, rfl, by simp⟩
    · exact ⟨{ l with servo := v }, by simp only [parseTraceLevel, w6, hs]; rfl, rfl, by simp⟩
    · exact ⟨{ l with clocks := v }, by simp only [parseTraceLevel, w7, hs]; rfl, rfl, by simp⟩

example : Numeral "12".toList 12 :=
  .more ['1'] 1 2 '2' (.digit 1 '1' rfl) (by decide) rfl

/-! ## C356: the user written is the user run as -/

/-- C356: if `user` is accepted, the daemon runs as the user with that name in the database,
or as the user whose number is written. -/
def C356_statement : Prop :=
  ∀ (db : Db) (t : Text) (r : List Text) (w : Who), Honest db → parseUser db {} (t :: r) = .ok w →
    (∃ p, db.pwnam t = (0, some p) ∧ p.uid = w.uid) ∨ Numeral t w.uid

/-- A database with the user root only. -/
def rootOnly : Db where
  pwnam t := if t = "root".toList then (0, some ⟨"root".toList, 0, 0⟩) else (0, none)
  pwuid u := if u = 0 then (0, some ⟨"root".toList, 0, 0⟩) else (0, none)
  grnam t := if t = "root".toList then (0, some 0) else (0, none)
  groups _ g := [g]

/-- `user 4294967296` runs the daemon as root. -/
theorem C356_violated : ¬ C356_statement := by
  intro h
  have hh : Honest rootOnly := by
    intro u rc r hr
    simp only [rootOnly] at hr
    split at hr
    · cases hr; simp_all
    · cases hr
  rcases h rootOnly "4294967296".toList [] ⟨0, 0, [0]⟩ hh (by decide +kernel) with ⟨p, hp, _⟩ | hn
  · exact absurd hp (by simp [rootOnly])
  · exact absurd (numeral_scan hn) (by decide +kernel)

theorem scanL_text {t : Text} {n : Nat} (h : Numeral t n) (hn : n < 4294967296) : scanL t = some (n : Int) := by
  simp only [scanL, numeral_space h, numeral_sign h, numeral_scan h, Option.map_some, Option.some.injEq, clamp64]
  have e : (if (false = true) then -(n : Int) else (n : Int)) = n := by simp
  rw [e]
  split
  · omega
  · split <;> omega

theorem toId_nat {n : Nat} (hn : n < 4294967296) : toId (n : Int) = n := by
  simp only [toId]; omega

/-- C356 for names in the database and for numbers of 32 bits. Also the groups: the group is
that of the user's record, or the one given; the list of groups is the database's. -/
theorem C356_user_partial (db : Db) (t : Text) (r : List Text) (w : Who) (h : parseUser db {} (t :: r) = .ok w) :
    (∀ p, db.pwnam t = (0, some p) → w.uid = p.uid ∧ w.groups = db.groups p.name w.gid ∧
      (r = [] → w.gid = p.gid)) ∧
    (Honest db → Nameless db t → ∀ n, n < 4294967296 → Numeral t n → w.uid = n) ∧
    (∀ g k, r = [g] → db.grnam g = (0, some k) → w.gid = k) ∧
    (∀ g k, r = [g] → k < 4294967296 → db.grnam g = (0, none) → Numeral g k → w.gid = k) := by
  simp only [parseUser] at h
  split at h
  · cases h
  rename_i hlen
  simp only [ne_eq, not_true_eq_false, or_self, if_false] at h
  have key : ∀ rc name uid gid, findUser db t = some (rc, some name, uid, gid) →
      w.uid = uid ∧ w.groups = db.groups name w.gid ∧ (r = [] → w.gid = gid) ∧
      (∀ g, r = [g] → findGroup db g = some (0, w.gid)) := by
    intro rc name uid gid hu
    simp only [hu] at h
    cases r with
    | nil =>
      simp only at h
      split at h
      · cases h; simp
      · cases h
    | cons g q =>
      simp only at h
      cases hg : findGroup db g with
      | none => simp only [hg] at h; cases h
      | some x =>
        obtain ⟨rc', gid'⟩ := x
        simp only [hg] at h
        split at h
        · rename_i h0
          cases h
          refine ⟨rfl, rfl, by simp, ?_⟩
          intro g' hg'
          cases hg'
          rw [hg, h0]
        · cases h
  have ex : ∃ rc name uid gid, findUser db t = some (rc, some name, uid, gid) := by
    cases hu : findUser db t with
    | none => simp only [hu] at h; cases h
    | some x =>
      obtain ⟨rc, name, uid, gid⟩ := x
      cases name with
      | none => simp only [hu] at h; cases h
      | some name => exact ⟨_, _, _, _, rfl⟩
  obtain ⟨rc, name, uid, gid, hu⟩ := ex
  obtain ⟨k1, k2, k3, k4⟩ := key rc name uid gid hu
  refine ⟨?_, ?_, ?_, ?_⟩
  · intro p hp
    have : findUser db t = some (0, some p.name, p.uid, p.gid) := by
      simp [findUser, hp, answer, absent, eNOENT, eSRCH, eBADF, ePERM]
    rw [hu] at this
    cases this
    exact ⟨k1, k2, k3⟩
  · intro hh hn n hlt hnum
    simp only [Nameless] at hn
    rw [k1]
    have ha : absent (answer ((0, none) : Nat × Option Pw)) = true := by decide
    rcases hb : db.pwuid n with ⟨rc', p⟩
    simp only [findUser, hn, ha, if_true, scanL_text hnum hlt, toId_nat hlt, hb] at hu
    by_cases hab : absent (answer (rc', p)) = true
    · rw [if_pos hab] at hu
      cases hu; rfl
    · rw [if_neg hab] at hu
      cases rc' with
      | succ k => simp only at hu; cases hu
      | zero =>
        cases p with
        | none => simp only at hu; cases hu
        | some q =>
          simp only at hu
          cases hu
          exact hh n 0 q hb
  · intro g k hr hg
    have := k4 g hr
    simp only [findGroup, hg, absent, eNOENT, eSRCH, eBADF, ePERM] at this
    simp at this
    exact this.symm
  · intro g k hr hlt hg hnum
    have := k4 g hr
    simp only [findGroup, hg, absent, eNOENT, eSRCH, eBADF, ePERM, scanL_text hnum hlt] at this
    simp only [Option.map_some, toId_nat hlt] at this
    simp at this
    exact this.symm

example : Honest rootOnly ∧ parseUser rootOnly {} ["root".toList, "7".toList] = .ok ⟨0, 7, [7]⟩ := by
  refine ⟨?_, by decide⟩
  intro u rc r hr
  simp only [rootOnly] at hr
  split at hr
  · cases hr; simp_all
  · cases hr

/-! ## C357: numbers of users without a record -/

/-- C357: the number of a user is accepted whether or not there is a record for it. -/
def C357_statement : Prop :=
  ∀ (db : Db) (t : Text) (n : Nat), Working db → Nameless db t → Numeral t n → n < 4294967296 →
    ∃ w, parseUser db {} [t] = .ok w

theorem rootOnly_working : Working rootOnly := by
  refine ⟨?_, ?_⟩
  · intro t
    by_cases h : t = "root".toList
    · exact .inl ⟨⟨"root".toList, 0, 0⟩, by simp only [rootOnly, if_pos h]⟩
    · exact .inr (by simp only [rootOnly, if_neg h])
  · intro u
    by_cases h : u = 0
    · exact .inl ⟨⟨"root".toList, 0, 0⟩, by simp only [rootOnly, if_pos h]⟩
    · exact .inr (by simp only [rootOnly, if_neg h])

/-- The number 7, without a record, is refused with "no such entry". -/
theorem C357_violated : ¬ C357_statement := by
  intro h
  obtain ⟨w, hw⟩ := h rootOnly "7".toList 7 rootOnly_working (by simp [Nameless, rootOnly]) (.digit 7 '7' rfl) (by decide)
  have e : parseUser rootOnly {} ["7".toList] = .err 2 := by decide
  rw [e] at hw
  cases hw

/-- C357 if there is a record for the number, or a known group is given as well. -/
theorem C357_numbers_partial (db : Db) (t : Text) (n : Nat) (hw : Working db) (hn : Nameless db t) (ht : Numeral t n)
    (hlt : n < 4294967296) :
    (∀ p, db.pwuid n = (0, some p) → ∃ w, parseUser db {} [t] = .ok w) ∧
    (∀ g k, db.grnam g = (0, some k) → ∃ w, parseUser db {} [t, g] = .ok w ∧ w.gid = k) := by
  simp only [Nameless] at hn
  refine ⟨?_, ?_⟩
  · intro p hp
    have : findUser db t = some (0, some p.name, p.uid, p.gid) := by
      simp [findUser, hn, answer, absent, eNOENT, eSRCH, eBADF, ePERM, scanL_text ht hlt, toId_nat hlt, hp]
    exact ⟨_, by simp [parseUser, this]; rfl⟩
  · intro g k hg
    have hfg : findGroup db g = some (0, k) := by
      simp [findGroup, hg, absent, eNOENT, eSRCH, eBADF, ePERM]
    rcases hw.2 n with ⟨p, hp⟩ | hp
    · have : findUser db t = some (0, some p.name, p.uid, p.gid) := by
        simp [findUser, hn, answer, absent, eNOENT, eSRCH, eBADF, ePERM, scanL_text ht hlt, toId_nat hlt, hp]
      exact ⟨⟨p.uid, k, db.groups p.name k⟩, by simp [parseUser, this, hfg], rfl⟩
    · have : findUser db t = some (2, some "(uid)".toList, n, 0) := by
        simp [findUser, hn, answer, absent, eNOENT, eSRCH, eBADF, ePERM, scanL_text ht hlt, toId_nat hlt, hp]
      exact ⟨⟨n, k, db.groups "(uid)".toList k⟩, by simp [parseUser, this, hfg], rfl⟩

example : Working rootOnly ∧ Nameless rootOnly "7".toList ∧ Numeral "7".toList 7 ∧
    parseUser rootOnly {} ["7".toList, "root".toList] = .ok ⟨7, 0, [0]⟩ :=
  ⟨rootOnly_working, by simp [Nameless, rootOnly], .digit 7 '7' rfl, by decide⟩

/-! ## C358: lookups that fail -/

/-- C358: whatever the databases answer, an option `user` with one or two parameters is accepted
or refused, without use of a record that was not filled in. -/
def C358_statement : Prop :=
  ∀ (db : Db) (w : Who) (ps : List Text), 1 ≤ ps.length → Answered (parseUser db w ps)

/-- A lookup that fails with an input/output error leads to use of an uninitialised name. -/
theorem C358_violated : ¬ C358_statement := by
  intro h
  rcases h { pwnam := fun _ => (5, none), pwuid := fun _ => (5, none), grnam := fun _ => (0, none), groups := fun _ _ => [] }
    {} ["ptp".toList] (by decide) with ⟨a, ha⟩ | ⟨n, hn⟩
  · exact absurd ha (by simp [parseUser, findUser, answer, absent, eNOENT, eSRCH, eBADF, ePERM])
  · exact absurd hn (by simp [parseUser, findUser, answer, absent, eNOENT, eSRCH, eBADF, ePERM])

/-- C358 if the lookups of users only answer with a record or with none. A user is
configured at most once: the settings are kept if they are not root's. -/
theorem C358_answered_partial (db : Db) (w : Who) (ps : List Text) (hd : Working db) (hp : 1 ≤ ps.length) :
    Answered (parseUser db w ps) ∧ (w.uid ≠ 0 ∨ w.gid ≠ 0 → ∀ w', parseUser db w ps ≠ .ok w') := by
  match ps, hp with
  | t :: r, _ =>
    have hu : findUser db t = none ∨ ∃ rc name uid gid, findUser db t = some (rc, some name, uid, gid) := by
      rcases hd.1 t with ⟨p, hp⟩ | hp
      · exact .inr ⟨0, p.name, p.uid, p.gid, by simp [findUser, hp, answer, absent, eNOENT, eSRCH, eBADF, ePERM]⟩
      · cases hs : scanL t with
        | none => exact .inl (by simp [findUser, hp, answer, absent, eNOENT, eSRCH, eBADF, ePERM, hs])
        | some v =>
          right
          rcases hd.2 (toId v) with ⟨q, hq⟩ | hq
          · exact ⟨0, q.name, q.uid, q.gid, by simp [findUser, hp, answer, absent, eNOENT, eSRCH, eBADF, ePERM, hs, hq]⟩
          · exact ⟨2, "(uid)".toList, toId v, 0, by simp [findUser, hp, answer, absent, eNOENT, eSRCH, eBADF, ePERM, hs, hq]⟩
    refine ⟨?_, ?_⟩
    · simp only [parseUser]
      split
      · exact .inr ⟨_, rfl⟩
      split
      · exact .inr ⟨_, rfl⟩
      rcases hu with hu | ⟨rc, name, uid, gid, hu⟩
      · simp only [hu]; exact .inr ⟨_, rfl⟩
      · simp only [hu]
        cases r with
        | nil =>
          simp only
          split
          · exact .inl ⟨_, rfl⟩
          · exact .inr ⟨_, rfl⟩
        | cons g q =>
          simp only
          cases findGroup db g with
          | none => exact .inr ⟨_, rfl⟩
          | some x =>
            simp only
            split
            · exact .inl ⟨_, rfl⟩
            · exact .inr ⟨_, rfl⟩
    · intro hne w' h
      simp only [parseUser, hne, if_true] at h
      split at h <;> cases h

example : Working rootOnly ∧ parseUser rootOnly {} ["ptp".toList] = .err 2 ∧
    parseUser rootOnly ⟨7, 0, []⟩ ["root".toList] = .err 13 :=
  ⟨rootOnly_working, by decide, by decide⟩

end Verif.GenConf
