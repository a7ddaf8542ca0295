import Verif.Phc.Moves2
import Verif.Phc.Props2
import Verif.Phc.Props

set_option linter.unusedSimpArgs false
set_option linter.unusedVariables false

/-!
# Properties of hardware clock devices: the choice of the method
-/

namespace Verif.Phc

open Verif.Time (Ts val)

/-! ## The tables the options produce -/

theorem method_card (l : List Method) (h : l.Nodup) (hm : .max ∉ l) : l.length ≤ 6 ∧ (l.length = 6 → .readTime ∈ l) := by
  have hsub : l ⊆ [.precise, .efx, .pps, .extended, .sysOffset, .readTime] := by
    intro m hml
    cases m <;> simp
    exact hm hml
  constructor
  · exact (List.subperm_of_subset h hsub).length_le
  · intro h6
    by_contra hr
    have hsub' : l ⊆ [.precise, .efx, .pps, .extended, .sysOffset] := by
      intro m hml
      have := hsub hml
      cases m <;> simp at *
      exact hr hml
    have := (List.subperm_of_subset h hsub').length_le
    simp at this
    omega

theorem inEffect_no_max (l : List Method) : .max ∉ inEffect .max l := by
  unfold inEffect
  induction l with
  | nil => simp
  | cons a t ih =>
    by_cases ha : a = .max
    · simp [ha]
    · simp only [List.takeWhile, ne_eq, ha, not_false_eq_true, decide_true, List.mem_cons, not_or]
      exact ⟨Ne.symm ha, ih⟩

/-- C166, first part. Any parameters accepted for `phc_diff_methods` give, with
any previous table, a table from which a method can be chosen without fault. -/
theorem C166_table (c c' : Conf) (params : List String) (tbl : List Method) (hc : c.diffMethods.length = 7)
    (ht : tbl.length = 7) (h : parseDiff c params = (0, c')) :
    GoodTable (setDiffMethods tbl c'.diffMethods).2 ∧
      ∃ ms, Names methodNames params ms ∧ inEffect .max (setDiffMethods tbl c'.diffMethods).2 = ms := by
  obtain ⟨ms, h1, h2, h3, h4, _, _⟩ := (C158_diff_methods c params hc).1 c' h
  have a := setLoop_spec Method.max 6 c'.diffMethods tbl 0 (by omega) (by omega) (by omega) (by simp)
  simp only [List.take_zero, List.nil_append] at a
  have hnm : .max ∉ ms := by rw [← h3]; exact inEffect_no_max _
  obtain ⟨hle, hsix⟩ := method_card ms h2 hnm
  have heff : inEffect .max (setDiffMethods tbl c'.diffMethods).2 = ms := by
    show inEffect .max (setLoop Method.max 6 tbl 0 c'.diffMethods).2 = ms
    rw [a.2.1, h3]
    exact List.take_of_length_le hle
  refine ⟨⟨?_, by rw [heff]; exact h2, ?_⟩, ms, h1, heff⟩
  · exact a.1
  · rw [heff]
    by_cases h6 : ms.length = 6
    · exact Or.inr (hsix h6)
    · left; omega

example : ∃ c', parseDiff Conf.default ["pps", "read-time"] = (0, c') ∧
    (setDiffMethods Conf.default.diffMethods c'.diffMethods).2 =
      [.pps, .readTime, .max, .extended, .sysOffset, .readTime, .max] :=
  ⟨_, rfl, by decide⟩

/-! ## C166: the method chosen -/

/-- The first method of `l` that can be used when its turn comes, if any. -/
def FirstUsable (env : Env) (p : Phc) (t : Nat) (l : List Method) (m : Option Method) : Prop :=
  ∃ t', match m with
    | some m => ∃ pre rest, l = pre ++ m :: rest ∧ Tried env p t pre t' ∧ Accepts env p t' m
    | none => Tried env p t l t'

/-- A device was opened and started. -/
def Started (env : Env) (ms : List Method) (pms : List PpsMethod) (w0 w : World) (rc : Nat) : Prop :=
  ∃ idx tick w1 log efx, idx < 2147483648 ∧ openPhc env ms pms idx tick = .ok (0, some w1, log) ∧
    w0 = (if efx = true then defineEfx w1 else w1) ∧ start env w0 = .ok (w, rc)

/-- C166. Starting a device chooses the first method listed that can be used;
it fails exactly if there is none. -/
def C166_statement : Prop :=
  ∀ (env : Env) (ms : List Method) (pms : List PpsMethod) (w0 w : World) (rc : Nat),
    Errnos env → ShortNames env → GoodTable ms → Started env ms pms w0 w rc →
    (rc = 0 ∧ FirstUsable env w0.phc w0.tick (inEffect .max ms) (some w.phc.method)) ∨
    (rc = 95 ∧ w.phc.method = .max ∧ FirstUsable env w0.phc w0.tick (inEffect .max ms) none)

/-- A kernel: no PPS device, and every other call fails. -/
def bare : Env where
  openDev := fun t _ => .ok (10 + t)
  getCaps := fun _ => .ok ⟨0, 0, true, false⟩
  listing := fun _ => .failed 0
  enable := fun _ => none
  mono := fun t => ⟨t, 0, 0⟩
  real := fun _ => .error 22
  device := fun _ => .error 22
  fetch := fun _ => .error 22
  fetchExt := fun _ => .error 22
  precise := fun _ => .error 22
  extended := fun _ => .error 25
  sysOffset := fun _ => .error 22
  sysProbe := fun _ => 22
  efx := fun _ => .error 22
  setPin := fun _ => none
  extts := fun _ => none
  readExtts := fun _ => .error 22

/-- A kernel with one PPS device, that of clock 0. -/
def onePps : Env := { bare with listing := fun _ => .entries [(['p'], some ['p', 't', 'p', '0', '\n'])] }

theorem bare_errnos : Errnos bare := by
  constructor <;> intros <;> simp_all [bare] <;> omega

theorem onePps_errnos : Errnos onePps := by
  constructor <;> intros <;> simp_all [onePps, bare] <;> omega

theorem bare_short : ShortNames bare := by
  intro t l h; simp [bare] at h

theorem word_le {text word : List Char} (h : FirstWord text word) : word.length ≤ text.length := by
  obtain ⟨lead, rest, h1, _⟩ := h
  rw [h1]
  simp only [List.length_append]
  omega

theorem onePps_short : ShortNames onePps := by
  intro t l h e text word hm hw
  simp only [onePps, Listing.entries.injEq] at h
  subst h
  simp only [List.mem_singleton, Prod.mk.injEq, Option.some.injEq] at hm
  have := word_le hw
  rw [hm.2] at this
  simp at this
  omega

/-- The device of that index, opened and started. -/
def begun (env : Env) (ms : List Method) (pms : List PpsMethod) (idx : Nat) (efx : Bool) : Except Fault (World × Nat) :=
  match openPhc env ms pms idx 0 with
  | .ok (_, some w, _) => start env (if efx then defineEfx w else w)
  | .ok (e, none, _) => .ok ({ methods := [], ppsMethods := [], phc := ⟨0, 0, 0, ⟨0, 0, false, false⟩, false, .max, 0,
      none, (0, 0), ⟨0, 0, 0⟩, ⟨0, 0, 0⟩, false, .max, [], none, (0, 0, 0), .bad⟩ }, 1000 + e)
  | .error f => .error f

/-- The device before it is started. -/
def opened (env : Env) (ms : List Method) (pms : List PpsMethod) (idx : Nat) : Option World :=
  match openPhc env ms pms idx 0 with
  | .ok (0, some w, _) => some w
  | _ => none

theorem opened_started {env : Env} {ms : List Method} {pms : List PpsMethod} {idx rc : Nat} {w0 w : World} (efx : Bool)
    (hi : idx < 2147483648) (h0 : opened env ms pms idx = some w0)
    (h : start env (if efx = true then defineEfx w0 else w0) = .ok (w, rc)) :
    Started env ms pms (if efx = true then defineEfx w0 else w0) w rc := by
  unfold opened at h0
  split at h0
  · rename_i w1 log he
    cases h0
    exact ⟨idx, 0, w0, log, efx, hi, he, rfl, h⟩
  · cases h0

/-- Two methods: pulses and then reading the clocks. -/
def two : List Method := [.pps, .readTime, .max, .max, .max, .max, .max]

theorem two_good : GoodTable two := ⟨rfl, by decide, by decide⟩

def defaultTable : List Method := [.precise, .efx, .pps, .extended, .sysOffset, .readTime, .max]

theorem default_good : GoodTable defaultTable := ⟨rfl, by decide, by decide⟩

/-- The device 0 opened under `bare`. -/
def bare0 : World := ((opened bare two [.devPps, .devPtp, .max] 0).getD
  { methods := [], ppsMethods := [], phc := ⟨0, 0, 0, ⟨0, 0, false, false⟩, false, .max, 0,
      none, (0, 0), ⟨0, 0, 0⟩, ⟨0, 0, 0⟩, false, .max, [], none, (0, 0, 0), .bad⟩ })

/-- C166 fails: where the directory of PPS devices exists but is empty, listing
it leaves no error number, and the method of pulses is taken to be usable
(`src/sfptpd_phc.c:305-310`). -/
theorem C166_violated : ¬ C166_statement := by
  intro h
  have hs : ∃ w, start bare bare0 = .ok (w, 0) ∧ w.phc.method = .pps := ⟨_, by rfl, by decide⟩
  obtain ⟨w, hw, hm⟩ := hs
  have hst := opened_started (env := bare) (ms := two) (pms := [.devPps, .devPtp, .max]) (idx := 0) (rc := 0)
    (w0 := bare0) (w := w) false (by decide) (by decide +kernel) (by simpa using hw)
  rcases h bare two [.devPps, .devPtp, .max] _ w 0 bare_errnos bare_short two_good hst with ⟨_, hf⟩ | ⟨hc, _⟩
  · rw [hm] at hf
    obtain ⟨t', pre, rest, _, _, _, hu⟩ := hf
    obtain ⟨_, _, _, _, _, hl, _⟩ := hu
    simp [bare] at hl
  · cases hc

theorem take_split {ms pre rest : List Method} {m : Method} (h : ms.take 6 = pre ++ m :: rest) (hp : .max ∉ pre) :
    (m = .max → inEffect .max ms = pre) ∧
    (m ≠ .max → ∃ rest', inEffect .max ms = pre ++ m :: rest') := by
  have hms : ms = pre ++ (m :: (rest ++ ms.drop 6)) := by
    calc ms = ms.take 6 ++ ms.drop 6 := (List.take_append_drop 6 ms).symm
      _ = _ := by rw [h]; simp
  constructor
  · intro hm
    subst hm
    rw [hms]
    unfold inEffect
    rw [List.takeWhile_append_of_pos]
    · simp
    · intro a ha
      simp only [ne_eq, decide_eq_true_eq]
      intro hc; subst hc; exact hp ha
  · intro hm
    obtain ⟨r, hr⟩ := inEffect_prefix (pre ++ [m]) (rest ++ ms.drop 6) (by simp [hp, Ne.symm hm])
    refine ⟨r, ?_⟩
    have : ms = pre ++ [m] ++ (rest ++ ms.drop 6) := by
      have h2 : pre ++ [m] ++ (rest ++ ms.drop 6) = pre ++ m :: (rest ++ ms.drop 6) := by simp
      rw [h2]; exact hms
    rw [← this] at hr
    rw [← hr]
    simp

/-- What holds of C166: where listing the PPS devices fails with an error number
if it fails, or the directory is not empty. -/
theorem C166_first_usable_partial (env : Env) (ms : List Method) (pms : List PpsMethod) (w0 w : World) (rc : Nat)
    (he : Errnos env) (hs : ShortNames env) (hl : Listed env) (hg : GoodTable ms) (h : Started env ms pms w0 w rc) :
    (rc = 0 ∧ FirstUsable env w0.phc w0.tick (inEffect .max ms) (some w.phc.method)) ∨
    (rc = 95 ∧ w.phc.method = .max ∧ FirstUsable env w0.phc w0.tick (inEffect .max ms) none) := by
  obtain ⟨idx, tick, w1, log, efx, hi, hopen, hw0, hstart⟩ := h
  rcases openPhc_spec env ms pms idx tick he hs with ⟨e, h'⟩ | ⟨e, fd, h'⟩ | ⟨w1', h', hf, hidx, _⟩
  · rw [h'] at hopen; cases hopen
  · rw [h'] at hopen; cases hopen
  · rw [h'] at hopen
    cases hopen
    have hw0i : w0.phc.idx < 2147483648 := by
      rw [hw0]
      cases efx
      · rw [← hidx] at hi; exact hi
      · rw [← hidx] at hi; exact hi
    have hfr : Fresh ms pms w0 := by rw [hw0]; exact hf.efx efx
    obtain ⟨w2, rc2, g1, g2⟩ := start_spec env ms pms _ he hs hl hg.stop hw0i hfr
    rw [g1] at hstart
    cases hstart
    obtain ⟨pre, m, rest, t, e1, e2, e3, e4, e5, e6, e7⟩ := g2.ex
    have hstrip : Phc.strip (w0.set fun p => { p with index := -1 }).phc = Phc.strip w0.phc := rfl
    have htick : (w0.set fun p => { p with index := -1 }).tick = w0.tick := rfl
    rw [htick] at e4
    have e4' := tried_strip hstrip e4
    rcases e7 with ⟨hm, hrc⟩ | ⟨hm, hrc, hacc⟩
    · right
      refine ⟨hrc, by rw [e5, hm], t, ?_⟩
      simp only
      rw [(take_split e1 e2).1 hm]
      exact e4'
    · left
      obtain ⟨rest', hr⟩ := (take_split e1 e2).2 hm
      refine ⟨hrc, t, ?_⟩
      simp only
      rw [e5]
      exact ⟨pre, rest', hr, e4', (accepts_strip hstrip _ _).mp hacc⟩

/-- A check on the result of a computation that may fault. -/
def ok {α : Type} (r : Except Fault α) (p : α → Bool) : Bool :=
  match r with
  | .ok a => p a
  | .error _ => false

example : Errnos onePps ∧ ShortNames onePps ∧ GoodTable defaultTable ∧ (∀ t, onePps.listing t ≠ .failed 0) ∧
    ok (begun onePps defaultTable [.devPps, .devPtp, .max] 0 true)
      (fun r => r.2 = 0 ∧ r.1.phc.method = .pps ∧ r.1.phc.index = 2) = true :=
  ⟨onePps_errnos, onePps_short, default_good, by intro t; simp [onePps], by decide +kernel⟩

example : ok (begun onePps defaultTable [.devPps, .devPtp, .max] 1 true)
    (fun r => r.2 = 0 ∧ r.1.phc.method = .readTime) = true := by decide +kernel

example : ok (begun onePps [.precise, .pps, .max, .max, .max, .max, .max] [.devPps, .devPtp, .max] 1 true)
    (fun r => r.2 = 95 ∧ r.1.phc.method = .max) = true := by decide +kernel

/-! ## C167: no faults -/

/-- C167. No use of a hardware clock device overruns a buffer, reads a variable
that was not set, fails an assertion or recurses without end. -/
def C167_statement : Prop :=
  ∀ (env : Env) (ms : List Method) (pms : List PpsMethod), Errnos env → GoodTable ms →
    (∀ idx tick, ∃ r, openPhc env ms pms idx tick = .ok r) ∧
    (∀ w op, Reach env ms pms w → ∃ w', step env w op = .ok w')

/-- A PPS device whose name has sixteen characters. -/
def longName : Env :=
  { bare with listing := fun _ => .entries [(['p'], some ("serial-pps-input\n").toList)] }

/-- C167 fails: names of PPS devices are read into 16 bytes with `%16s`, which
writes 17 (`src/sfptpd_phc.c:398, 447`). -/
theorem C167_violated : ¬ C167_statement := by
  intro h
  have he : Errnos longName := by constructor <;> intros <;> simp_all [longName, bare] <;> omega
  obtain ⟨r, hr⟩ := (h longName two [.devPps, .devPtp, .max] he two_good).1 0 0
  have : openPhc longName two [.devPps, .devPtp, .max] 0 0 = .error .overflow := by decide +kernel
  rw [this] at hr
  cases hr

theorem compareN_mono (env : Env) : ∀ (k : Nat) (w : World) (d : Ts) (r : World × Nat × Ts),
    compareN env k w d = .ok r → compareN env (k + 1) w d = .ok r := by
  intro k
  induction k with
  | zero => intro w d r h; cases h
  | succ k ih =>
    intro w d r h
    rw [compareN] at h
    rw [compareN]
    generalize reselect env w = v at h
    by_cases hm : v.phc.method = .pps
    · have hd : ∀ cmp, dispatch cmp env v d = comparePps cmp env v d := by
        intro cmp; simp only [dispatch, hm]
      rw [hd] at h ⊢
      unfold comparePps at h ⊢
      simp only at h ⊢
      split
      · rename_i hc; rw [if_pos hc] at h; exact h
      · rename_i hc
        rw [if_neg hc] at h
        split
        · rename_i e he; rw [he] at h; exact h
        · rename_i pulse he
          rw [he] at h
          simp only at h
          split
          · rename_i h1
            rw [if_pos h1] at h
            split
            · rename_i h2
              rw [if_pos h2] at h
              split
              · rename_i f hf; rw [hf] at h; cases h
              · rename_i w1 rc hf
                rw [hf] at h
                simp only at h
                split
                · rename_i h3; rw [if_pos h3] at h; exact h
                · rename_i h3
                  rw [if_neg h3] at h
                  split
                  · rename_i h4; rw [if_pos h4] at h; cases h
                  · rename_i h4
                    rw [if_neg h4] at h
                    exact ih _ _ _ h
            · rename_i h2; rw [if_neg h2] at h; exact h
          · rename_i h1; rw [if_neg h1] at h; exact h
    · have hd : ∀ cmp cmp', dispatch cmp env v d = dispatch cmp' env v d := by
        intro cmp cmp'
        unfold dispatch
        split <;> first | rfl | exact absurd ‹_› hm
      rw [hd _ (compareN env k)]
      exact h

theorem compareN_more (env : Env) (k j : Nat) (w : World) (d : Ts) (r : World × Nat × Ts)
    (h : compareN env k w d = .ok r) : compareN env (k + j) w d = .ok r := by
  induction j with
  | zero => exact h
  | succ j ih => exact compareN_mono env _ w d r ih

/-- What holds of C167: where the names of PPS devices are shorter than 16
characters, and an empty directory of PPS devices does not occur. -/
theorem C167_no_fault_partial (env : Env) (ms : List Method) (pms : List PpsMethod) (he : Errnos env)
    (hs : ShortNames env) (hl : Listed env) (hg : GoodTable ms) :
    (∀ idx tick, ∃ r, openPhc env ms pms idx tick = .ok r) ∧
    (∀ idx tick w0 log efx, idx < 2147483648 → openPhc env ms pms idx tick = .ok (0, some w0, log) →
      ∃ r, start env (if efx = true then defineEfx w0 else w0) = .ok r) ∧
    (∀ w op, Reach env ms pms w → ∃ w', step env w op = .ok w') ∧
    (∀ w d k, Reach env ms pms w → compareN env (3 + k) w d = compare env w d) := by
  refine ⟨?_, ?_, ?_, ?_⟩
  · intro idx tick
    rcases openPhc_spec env ms pms idx tick he hs with ⟨e, h'⟩ | ⟨e, fd, h'⟩ | ⟨w1', h', _⟩
    · exact ⟨_, h'⟩
    · exact ⟨_, h'⟩
    · exact ⟨_, h'⟩
  · intro idx tick w0 log efx hi hopen
    rcases openPhc_spec env ms pms idx tick he hs with ⟨e, h'⟩ | ⟨e, fd, h'⟩ | ⟨w1', h', hf, hidx, _⟩
    · rw [h'] at hopen; cases hopen
    · rw [h'] at hopen; cases hopen
    · rw [h'] at hopen
      cases hopen
      have hw0i : (if efx = true then defineEfx w0 else w0).phc.idx < 2147483648 := by
        cases efx
        · rw [← hidx] at hi; exact hi
        · rw [← hidx] at hi; exact hi
      obtain ⟨w2, rc2, g1, _⟩ := start_spec env ms pms _ he hs hl hg.stop hw0i (hf.efx efx)
      exact ⟨_, g1⟩
  · intro w op h
    obtain ⟨i1, i2⟩ := reach_inv env ms pms he hs hl hg w h
    obtain ⟨w', g, _⟩ := step_ok env ms pms w op i1 i2
    exact ⟨w', g⟩
  · intro w d k h
    obtain ⟨i1, i2⟩ := reach_inv env ms pms he hs hl hg w h
    obtain ⟨w', rc, d', g, _⟩ := compare_ok env ms w d i1
    rw [g]
    exact compareN_more env 3 k w d _ g

/-- The device 0 under `onePps`, ready to be used. -/
theorem onePps_reach : ∃ w, Reach onePps two [.devPps, .devPtp, .max] w ∧ w.phc.method = .pps := by
  refine ⟨_, .start (idx := 0) (tick := 0) false (by decide) (by rfl) (by rfl), by decide⟩

example : ∃ w, Reach onePps two [.devPps, .devPtp, .max] w ∧
    ok (step onePps w (.compare ⟨0, 0, 0⟩)) (fun w => w.phc.method = .pps) = true := by
  refine ⟨_, .start (idx := 0) (tick := 0) false (by decide) (by rfl) (by rfl), by decide⟩

end Verif.Phc
