import Verif.Phc.Spec
import Mathlib.Data.List.Forall2
import Mathlib.Data.List.Perm.Subperm
import Mathlib.Tactic.Linarith

set_option linter.unusedSimpArgs false
set_option linter.unusedVariables false

/-!
# Properties of the options for hardware clocks (C158 to C161)
-/

namespace Verif.Phc

/-! ## Lemmas -/

theorem methodOf_iff (s : String) (m : Method) : methodOf s = some m ↔ (s, m) ∈ methodNames := by
  unfold methodOf methodNames
  constructor
  · intro h
    split at h
    · simp_all
    split at h
    · simp_all
    split at h
    · simp_all
    split at h
    · simp_all
    split at h
    · simp_all
    split at h
    · simp_all
    · cases h
  · intro h
    simp only [List.mem_cons, Prod.mk.injEq, List.not_mem_nil, or_false] at h
    rcases h with ⟨rfl, rfl⟩ | ⟨rfl, rfl⟩ | ⟨rfl, rfl⟩ | ⟨rfl, rfl⟩ | ⟨rfl, rfl⟩ | ⟨rfl, rfl⟩ <;> decide

theorem ppsMethodOf_iff (s : String) (m : PpsMethod) : ppsMethodOf s = some m ↔ (s, m) ∈ ppsNames := by
  unfold ppsMethodOf ppsNames
  constructor
  · intro h
    split at h
    · simp_all
    split at h
    · simp_all
    · cases h
  · intro h
    simp only [List.mem_cons, Prod.mk.injEq, List.not_mem_nil, or_false] at h
    rcases h with ⟨rfl, rfl⟩ | ⟨rfl, rfl⟩ <;> decide

theorem methodOf_ne_max {s : String} {m : Method} (h : methodOf s = some m) : m ≠ .max := by
  rw [methodOf_iff] at h
  simp only [methodNames, List.mem_cons, Prod.mk.injEq, List.not_mem_nil, or_false] at h
  rcases h with ⟨_, rfl⟩ | ⟨_, rfl⟩ | ⟨_, rfl⟩ | ⟨_, rfl⟩ | ⟨_, rfl⟩ | ⟨_, rfl⟩ <;> decide

theorem ppsMethodOf_ne_max {s : String} {m : PpsMethod} (h : ppsMethodOf s = some m) : m ≠ .max := by
  rw [ppsMethodOf_iff] at h
  simp only [ppsNames, List.mem_cons, Prod.mk.injEq, List.not_mem_nil, or_false] at h
  rcases h with ⟨_, rfl⟩ | ⟨_, rfl⟩ <;> decide

theorem take_set_succ {α : Type} (l : List α) (i : Nat) (a : α) (h : i < l.length) :
    (l.set i a).take (i + 1) = l.take i ++ [a] := by
  rw [List.take_add_one, List.take_set_of_le (Nat.le_refl i)]
  simp [h]

/-- The loop over the parameters of `phc_diff_methods`. -/
theorem diffLoop_ok (params : List String) : ∀ (c c' : Conf) (i : Nat),
    i + params.length < c.diffMethods.length → (c.diffMethods.take i).Nodup →
    diffLoop c i params = (0, c') →
    ∃ ms, Names methodNames params ms ∧ (c.diffMethods.take i ++ ms).Nodup ∧
      c'.diffMethods.length = c.diffMethods.length ∧
      c'.diffMethods.take (i + params.length + 1) = c.diffMethods.take i ++ ms ++ [.max] ∧
      c'.ppsMethods = c.ppsMethods ∧ c'.rules = c.rules := by
  induction params with
  | nil =>
    intro c c' i hi hnd h
    simp only [diffLoop, Prod.mk.injEq, true_and] at h
    subst h
    refine ⟨[], List.Forall₂.nil, by simpa using hnd, by simp, ?_, rfl, rfl⟩
    simp only [List.length_nil, Nat.add_zero, List.append_nil]
    exact take_set_succ _ _ _ (by simpa using hi)
  | cons s rest ih =>
    intro c c' i hi hnd h
    simp only [diffLoop] at h
    simp only [List.length_cons] at hi
    split at h
    · simp [EINVAL] at h
    · rename_i m hm
      split at h
      · simp [EINVAL] at h
      · rename_i hmem
        have hl : i < c.diffMethods.length := by omega
        have ht := take_set_succ c.diffMethods i m hl
        have hnd' : (c.diffMethods.take i ++ [m]).Nodup := by
          rw [List.nodup_append]
          refine ⟨hnd, by simp, ?_⟩
          intro a ha b hb
          simp only [List.mem_singleton] at hb
          subst hb
          intro hab
          subst hab
          exact hmem ha
        obtain ⟨ms, hn, hd, hlen, htk, hp, hr⟩ := ih { c with diffMethods := c.diffMethods.set i m } c' (i + 1)
          (by simp only [List.length_set]; omega) (by rw [ht]; exact hnd') h
        refine ⟨m :: ms, List.Forall₂.cons ((methodOf_iff s m).mp hm) hn, ?_, by simpa using hlen, ?_, hp, hr⟩
        · rw [ht] at hd
          simpa [List.append_assoc] using hd
        · rw [ht] at htk
          have e : i + (s :: rest).length + 1 = i + 1 + rest.length + 1 := by simp only [List.length_cons]; omega
          rw [e, htk]
          simp [List.append_assoc]

/-- The loop refuses nothing that is listed once and documented. -/
theorem diffLoop_accepts (params : List String) (ms : List Method) (hn : Names methodNames params ms) :
    ∀ (c : Conf) (i : Nat), i + params.length < c.diffMethods.length → (c.diffMethods.take i ++ ms).Nodup →
    (diffLoop c i params).1 = 0 := by
  induction hn with
  | nil => intro c i hi hnd; rfl
  | @cons s m rest ms hm hn ih =>
    intro c i hi hnd
    simp only [List.length_cons] at hi
    simp only [diffLoop, (methodOf_iff s m).mpr hm]
    have hl : i < c.diffMethods.length := by omega
    have hmem : m ∉ c.diffMethods.take i := by
      intro hc
      rw [List.nodup_append] at hnd
      exact hnd.2.2 m hc m (by simp) rfl
    rw [if_neg hmem]
    apply ih
    · simp only [List.length_set]; omega
    · simp only [take_set_succ _ _ _ hl]
      simpa [List.append_assoc] using hnd

theorem inEffect_append {α : Type} [DecidableEq α] (sentinel : α) (ms rest : List α)
    (hms : ∀ m ∈ ms, m ≠ sentinel) : inEffect sentinel (ms ++ sentinel :: rest) = ms := by
  unfold inEffect
  induction ms with
  | nil => simp [List.takeWhile]
  | cons a t ih =>
    have ha : a ≠ sentinel := hms a (by simp)
    simp only [List.cons_append, List.takeWhile, ha, ne_eq, not_false_eq_true, decide_true, List.cons.injEq, true_and]
    exact ih (fun m hm => hms m (by simp [hm]))

theorem inEffect_of_take {α : Type} [DecidableEq α] (sentinel : α) (ms l : List α) (n : Nat)
    (hms : ∀ m ∈ ms, m ≠ sentinel) (h : l.take n = ms ++ [sentinel]) : inEffect sentinel l = ms := by
  have : l = ms ++ sentinel :: l.drop n := by
    conv => lhs; rw [← List.take_append_drop n l, h]
    simp [List.append_assoc]
  rw [this]
  exact inEffect_append sentinel ms _ hms

theorem names_ne_max {params : List String} {ms : List Method} (h : Names methodNames params ms) :
    ∀ m ∈ ms, m ≠ .max := by
  induction h with
  | nil => intro m hm; cases hm
  | cons hm _ ih =>
    intro m' hm'
    rcases List.mem_cons.mp hm' with rfl | hm'
    · exact methodOf_ne_max ((methodOf_iff _ _).mpr hm)
    · exact ih m' hm'

theorem ppsNames_ne_max {params : List String} {ms : List PpsMethod} (h : Names ppsNames params ms) :
    ∀ m ∈ ms, m ≠ .max := by
  induction h with
  | nil => intro m hm; cases hm
  | cons hm _ ih =>
    intro m' hm'
    rcases List.mem_cons.mp hm' with rfl | hm'
    · exact ppsMethodOf_ne_max ((ppsMethodOf_iff _ _).mpr hm)
    · exact ih m' hm'

theorem names_length {α : Type} {table : List (String × α)} {params : List String} {ms : List α}
    (h : Names table params ms) : params.length = ms.length := by
  induction h with
  | nil => rfl
  | cons _ _ ih => simp [ih]

/-! ## C158: the option for the comparison methods -/

/-- C158. The option `phc_diff_methods` is accepted exactly if every parameter is
a documented name and none is listed twice; the methods in effect are then
those listed, in that order, and nothing else changes. -/
theorem C158_diff_methods (c : Conf) (params : List String) (hc : c.diffMethods.length = 7) :
    (∀ c', parseDiff c params = (0, c') →
      ∃ ms, Names methodNames params ms ∧ ms.Nodup ∧ inEffect .max c'.diffMethods = ms ∧
        c'.diffMethods.length = 7 ∧ c'.ppsMethods = c.ppsMethods ∧ c'.rules = c.rules) ∧
    ((parseDiff c params).1 = 0 ↔ ∃ ms, Names methodNames params ms ∧ ms.Nodup) := by
  have hfirst : ∀ c', parseDiff c params = (0, c') →
      ∃ ms, Names methodNames params ms ∧ ms.Nodup ∧ inEffect .max c'.diffMethods = ms ∧
        c'.diffMethods.length = 7 ∧ c'.ppsMethods = c.ppsMethods ∧ c'.rules = c.rules := by
    intro c' h
    unfold parseDiff at h
    split at h
    · simp [EINVAL] at h
    · obtain ⟨ms, hn, hd, hl, ht, hp, hr⟩ := diffLoop_ok params c c' 0 (by omega) (by simp) h
      refine ⟨ms, hn, by simpa using hd, ?_, by omega, hp, hr⟩
      exact inEffect_of_take .max ms _ _ (names_ne_max hn) (by simpa using ht)
  refine ⟨hfirst, ?_, ?_⟩
  · intro h
    obtain ⟨ms, h1, h2, _⟩ := hfirst (parseDiff c params).2 (by rw [← h])
    exact ⟨ms, h1, h2⟩
  · rintro ⟨ms, hn, hd⟩
    have hlen : params.length ≤ 6 := by
      rw [names_length hn]
      have hsub : ms ⊆ [.precise, .efx, .pps, .extended, .sysOffset, .readTime] := by
        intro m hm
        have := names_ne_max hn m hm
        cases m <;> simp_all
      exact (List.subperm_of_subset hd hsub).length_le
    unfold parseDiff
    rw [if_neg (by omega)]
    exact diffLoop_accepts params ms hn c 0 (by omega) (by simpa using hd)

example : (parseDiff Conf.default ["pps", "read-time"]).1 = 0 ∧
    inEffect .max (parseDiff Conf.default ["pps", "read-time"]).2.diffMethods = [.pps, .readTime] := by decide

example : (parseDiff Conf.default ["pps", "pps"]).1 = 22 ∧ (parseDiff Conf.default ["psp"]).1 = 22 := by decide

/-! ## C159: the option for the PPS input methods -/

/-- C159, as one would expect it: the option `phc_pps_methods` makes the methods
listed those in effect and changes nothing else. -/
def C159_statement : Prop :=
  ∀ (c c' : Conf) (params : List String), c.ppsMethods.length = 3 → c.rules.length = 11 →
    parsePps c params = (0, c') →
    ∃ ms, Names ppsNames params ms ∧ inEffect .max c'.ppsMethods = ms ∧
      c'.diffMethods = c.diffMethods ∧ c'.rules = c.rules

/-- C159 fails: a shorter list leaves the rest of the previous order in effect,
and the end mark is written into the rules of the selection policy. -/
theorem C159_violated : ¬ C159_statement := by
  intro h
  obtain ⟨ms, hn, he, _⟩ := h Conf.default (parsePps Conf.default ["devpps"]).2 ["devpps"] rfl rfl (by decide)
  have h2 : ms.length = 1 := (names_length hn).symm
  rw [← he] at h2
  revert h2
  decide

/-- The rules of a user who asked for selection by state alone: after
`phc_pps_methods devptp` they are no longer what was asked for. -/
theorem C159_rules_violated : ∃ (c c' : Conf), c.ppsMethods = [.devPps, .devPtp, .max] ∧
    c.rules = [3, 0, 3, 4, 5, 6, 7, 8, 9, 10, 0] ∧ parsePps c ["devptp"] = (0, c') ∧
    c'.rules = [3, 2, 3, 4, 5, 6, 7, 8, 9, 10, 0] :=
  ⟨{ Conf.default with rules := [3, 0, 3, 4, 5, 6, 7, 8, 9, 10, 0] },
    (parsePps { Conf.default with rules := [3, 0, 3, 4, 5, 6, 7, 8, 9, 10, 0] } ["devptp"]).2, by decide⟩

/-- The loop over the parameters of `phc_pps_methods`. -/
theorem ppsLoop_ok (params : List String) : ∀ (c c' : Conf) (i : Nat),
    i + params.length < c.ppsMethods.length → (c.ppsMethods.take i).Nodup →
    ppsLoop c i params = (0, c') →
    ∃ ms, Names ppsNames params ms ∧ (c.ppsMethods.take i ++ ms).Nodup ∧
      c'.ppsMethods = c.ppsMethods.take i ++ ms ++ c.ppsMethods.drop (i + params.length) ∧
      c'.diffMethods = c.diffMethods ∧
      c'.rules = if i + params.length < 2 then c.rules.set (i + params.length) 2 else c.rules := by
  induction params with
  | nil =>
    intro c c' i hi hnd h
    simp only [ppsLoop, Prod.mk.injEq, true_and] at h
    subst h
    refine ⟨[], List.Forall₂.nil, by simpa using hnd, ?_, ?_, ?_⟩
    · split <;> simp
    · split <;> rfl
    · simp only [List.length_nil, Nat.add_zero]
      split <;> rfl
  | cons s rest ih =>
    intro c c' i hi hnd h
    simp only [ppsLoop] at h
    simp only [List.length_cons] at hi
    split at h
    · simp [EINVAL] at h
    · rename_i m hm
      split at h
      · simp [EINVAL] at h
      · rename_i hmem
        have hl : i < c.ppsMethods.length := by omega
        have ht := take_set_succ c.ppsMethods i m hl
        have hnd' : (c.ppsMethods.take i ++ [m]).Nodup := by
          rw [List.nodup_append]
          refine ⟨hnd, by simp, ?_⟩
          intro a ha b hb
          simp only [List.mem_singleton] at hb
          subst hb
          intro hab
          subst hab
          exact hmem ha
        obtain ⟨ms, hn, hd, hp, hdm, hr⟩ := ih { c with ppsMethods := c.ppsMethods.set i m } c' (i + 1)
          (by simp only [List.length_set]; omega) (by rw [ht]; exact hnd') h
        have e : i + (s :: rest).length = i + 1 + rest.length := by simp only [List.length_cons]; omega
        refine ⟨m :: ms, List.Forall₂.cons ((ppsMethodOf_iff s m).mp hm) hn, ?_, ?_, hdm, by rw [e]; exact hr⟩
        · rw [ht] at hd
          simpa [List.append_assoc] using hd
        · rw [hp, ht, e, List.drop_set_of_lt (by omega)]
          simp [List.append_assoc]

/-- What holds of C159: the methods listed come first, in that order and none
twice, followed by what was there before; the comparison methods are left
alone. With both methods listed everything is as expected. -/
theorem C159_pps_methods_partial (c c' : Conf) (params : List String) (hc : c.ppsMethods.length = 3)
    (h : parsePps c params = (0, c')) :
    ∃ ms, Names ppsNames params ms ∧ ms.Nodup ∧
      c'.ppsMethods = ms ++ c.ppsMethods.drop params.length ∧ c'.diffMethods = c.diffMethods ∧
      (∀ k, (k ≠ params.length ∨ params.length = 2) → c'.rules[k]? = c.rules[k]?) ∧
      (params.length = 2 → c.ppsMethods[2]? = some .max → inEffect .max c'.ppsMethods = ms ∧ c'.rules = c.rules) := by
  unfold parsePps at h
  split at h
  · simp [EINVAL] at h
  · obtain ⟨ms, hn, hd, hp, hdm, hr⟩ := ppsLoop_ok params c c' 0 (by omega) (by simp) h
    simp only [List.take_zero, List.nil_append, Nat.zero_add] at hd hp hr
    refine ⟨ms, hn, hd, hp, hdm, ?_, ?_⟩
    · intro k hk
      rw [hr]
      split
      · rw [List.getElem?_set_ne (by omega)]
      · rfl
    · intro h2 hmx
      refine ⟨?_, by rw [hr, if_neg (by omega)]⟩
      rw [hp, h2]
      have : c.ppsMethods.drop 2 = [.max] := by
        match hcm : c.ppsMethods with
        | [a, b, d] => rw [hcm] at hmx; simp_all
        | [] => simp_all
        | [_] => simp_all
        | [_, _] => simp_all
        | _ :: _ :: _ :: _ :: _ => simp_all
      rw [this]
      apply inEffect_append
      exact ppsNames_ne_max hn

example : parsePps Conf.default ["devptp", "devpps"] =
    (0, { Conf.default with ppsMethods := [.devPtp, .devPps, .max] }) := by decide

/-! ## C160: the order handed over -/

theorem setLoop_spec {α : Type} [DecidableEq α] (sentinel : α) (n : Nat) (order : List α) :
    ∀ (tbl : List α) (i : Nat), tbl.length = n + 1 → i ≤ n + 1 → i + order.length = n + 1 →
      (∀ a ∈ tbl.take i, a ≠ sentinel) →
      (setLoop sentinel n tbl i order).2.length = n + 1 ∧
      inEffect sentinel (setLoop sentinel n tbl i order).2 = (tbl.take i ++ inEffect sentinel order).take n ∧
      ((setLoop sentinel n tbl i order).1 = 0 ↔ sentinel ∈ order) ∧
      sentinel ∈ (setLoop sentinel n tbl i order).2 := by
  induction order with
  | nil =>
    intro tbl i hl hi hn hs
    simp only [List.length_nil, Nat.add_zero] at hn
    subst hn
    have ht : tbl.take (n + 1) = tbl := List.take_of_length_le (by omega)
    rw [ht] at hs
    have hset : tbl.set n sentinel = tbl.take n ++ [sentinel] := by
      have := take_set_succ tbl n sentinel (by omega)
      rwa [List.take_of_length_le (by simp; omega)] at this
    refine ⟨by simp [setLoop, hl], ?_, by simp [setLoop, ERANGE], ?_⟩
    · simp only [setLoop, hset]
      rw [inEffect_append sentinel _ [] (fun m hm => hs m (List.mem_of_mem_take hm))]
      simp [inEffect, ht]
    · simp only [setLoop, hset]; simp
  | cons m rest ih =>
    intro tbl i hl hi hn hs
    simp only [List.length_cons] at hn
    simp only [setLoop]
    rw [if_neg (by omega)]
    have ht := take_set_succ tbl i m (by omega)
    by_cases hm : m = sentinel
    · rw [if_pos hm]
      subst hm
      have hset : tbl.set i m = tbl.take i ++ m :: tbl.drop (i + 1) := by
        rw [List.set_eq_take_append_cons_drop, if_pos (by omega)]
      refine ⟨by simp [hl], ?_, by simp, ?_⟩
      · simp only [hset]
        rw [inEffect_append m _ _ hs]
        have : (tbl.take i).length ≤ n := by simp; omega
        simp [inEffect, List.takeWhile, List.take_of_length_le this]
      · simp only [hset]; simp
    · rw [if_neg hm]
      obtain ⟨h1, h2, h3, h4⟩ := ih (tbl.set i m) (i + 1) (by simp [hl]) (by omega) (by omega) (by
        intro a ha
        rw [ht] at ha
        rcases List.mem_append.mp ha with ha | ha
        · exact hs a ha
        · simp only [List.mem_singleton] at ha; subst ha; exact hm)
      refine ⟨h1, ?_, ?_, h4⟩
      · rw [h2, ht]
        simp [inEffect, List.takeWhile, hm, List.append_assoc]
      · rw [h3]
        simp [Ne.symm hm]

/-- C160. Handing over an order with an end mark makes exactly the methods
before the mark those in effect; an order without a mark is refused and cut,
and the table always keeps an end mark. The same holds of both tables. -/
theorem C160_set_methods (tbl order : List Method) (ppsTbl ppsOrder : List PpsMethod)
    (h1 : tbl.length = 7) (h2 : order.length = 7) (h3 : ppsTbl.length = 3) (h4 : ppsOrder.length = 3) :
    (((setDiffMethods tbl order).1 = 0 ↔ .max ∈ order) ∧
      inEffect .max (setDiffMethods tbl order).2 = (inEffect .max order).take 6 ∧
      .max ∈ (setDiffMethods tbl order).2) ∧
    (((setPpsMethods ppsTbl ppsOrder).1 = 0 ↔ .max ∈ ppsOrder) ∧
      inEffect .max (setPpsMethods ppsTbl ppsOrder).2 = (inEffect .max ppsOrder).take 2 ∧
      .max ∈ (setPpsMethods ppsTbl ppsOrder).2) := by
  have a := setLoop_spec Method.max 6 order tbl 0 (by omega) (by omega) (by omega) (by simp)
  have b := setLoop_spec PpsMethod.max 2 ppsOrder ppsTbl 0 (by omega) (by omega) (by omega) (by simp)
  simp only [List.take_zero, List.nil_append] at a b
  exact ⟨⟨a.2.2.1, a.2.1, a.2.2.2⟩, ⟨b.2.2.1, b.2.1, b.2.2.2⟩⟩

example : setDiffMethods [.max, .precise, .precise, .precise, .precise, .precise, .precise]
    [.pps, .readTime, .max, .pps, .pps, .pps, .pps] =
    (0, [.pps, .readTime, .max, .precise, .precise, .precise, .precise]) := by decide

/-! ## C161: clock identifiers -/

/-- C161. The POSIX identifier of a clock determines its file descriptor,
conversely too, no hardware clock shares its identifier with a clock of the
system (those are not negative), and the low three bits are 3. -/
theorem C161_clock_id (fd fd' : Nat) :
    posixToFd (fdToPosix fd) = fd ∧ (fdToPosix fd = fdToPosix fd' → fd = fd') ∧
    fdToPosix fd < 0 ∧ fdToPosix fd % 8 = 3 ∧ (fd < 268435455 → -2147483648 ≤ fdToPosix fd) := by
  unfold posixToFd fdToPosix
  refine ⟨by omega, by omega, by omega, by omega, by omega⟩

example : fdToPosix 3 = -29 := by decide

end Verif.Phc
