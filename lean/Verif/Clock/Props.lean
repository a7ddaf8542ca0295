import Verif.Clock.Moves

set_option linter.unusedSimpArgs false
set_option linter.unusedVariables false

/-!
# Clocks: what is written to the kernel (C138-C144)
-/

namespace Verif.Clock

/-- A state that the program can be in: after start-up and any operations. -/
def Reach (cfg : Cfg) (w : World) : Prop :=
  ∃ e t fl w0 os, boot cfg e t fl = .ok w0 ∧ run cfg w0 os = .ok w

theorem Reach.good {cfg : Cfg} {w : World} (hu : Usual cfg) (h : Reach cfg w) : Good cfg w := by
  obtain ⟨e, t, fl, w0, os, hb, hr⟩ := h
  obtain ⟨wb, -, -, -, -, hm⟩ := boot_lasts hu hb
  exact (run_lasts hu hm.good hr).good

/-- Tests of the outcome of an operation, for the concrete examples. -/
def check {α : Type} (r : Except Fault α) (p : α → Bool) : Bool :=
  match r with
  | .ok w => p w
  | .error _ => false

theorem witness {α : Type} {r : Except Fault α} {p : α → Bool} (h : check r p = true) :
    ∃ w, r = .ok w ∧ p w = true := by
  cases r with
  | ok w => exact ⟨w, rfl, h⟩
  | error f => exact absurd h (by simp [check])

/-- A machine with one adapter, for the examples. -/
def eth0 : Intf :=
  { name := "eth0", nic := 0, hasPhc := true, phcIdx := 0, cls := .sfc,
    mac := [0x00, 0x0f, 0x53, 0x01, 0x02, 0x03] }

/-- An ordinary configuration. -/
def plain : Cfg := { naming := fun n _ => if n = 0 then ["phc0"] else ["phc1"] }

theorem plain_usual : Usual plain := ⟨by decide +kernel, by decide, by decide, by decide⟩

/-- The devices are on time at first, and nothing is saved. -/
def bootPlain (cfg : Cfg) : Except Fault World := boot cfg {} (fun _ => 0) (fun _ => none)

/-- Start-up and some operations. -/
def history (cfg : Cfg) (os : List (Op × Env)) : Except Fault World :=
  match bootPlain cfg with
  | .error f => .error f
  | .ok w => run cfg w os

theorem history_reach {cfg : Cfg} {os : List (Op × Env)} {w : World}
    (h : history cfg os = .ok w) : Reach cfg w := by
  unfold history at h
  split at h
  · exact absurd h (by simp)
  · rename_i w0 h0
    exact ⟨{}, fun _ => 0, fun _ => none, w0, os, h0, h⟩

/-! ## C138 -/

/-- C138.  A clock that is read-only stays read-only, and no call that acts on it is ever
made again, whatever the program does. -/
theorem C138_readonly_untouched (cfg : Cfg) (hu : Usual cfg) (w w' : World)
    (os : List (Op × Env)) (i : Nat) (hr : Reach cfg w) (hi : i ∈ w.ids)
    (hro : (w.clk i).readOnly = true) (h : run cfg w os = .ok w') :
    (w'.clk i).readOnly = true ∧
    ∃ xs, w'.writes = w.writes ++ xs ∧ ∀ x ∈ xs, x.target ≠ i := by
  have hl := run_lasts hu (hr.good hu) h
  refine ⟨hl.ro i hi hro, ?_⟩
  obtain ⟨xs, h1, h2⟩ := hl.wr
  refine ⟨xs, h1, fun x hx he => ?_⟩
  have := (h2 x hx).2.2 (by rw [he]; exact hi)
  rw [he, hro] at this
  exact absurd this (by simp)

/-- C138.  With `clock_control no-adjust` no call is ever made on any clock. -/
theorem C138_no_adjust (cfg : Cfg) (hu : Usual cfg) (w : World) (hn : cfg.noAdjust = true)
    (hr : Reach cfg w) : w.writes = [] := by
  obtain ⟨e, t, fl, w0, os, hb, hrun⟩ := hr
  obtain ⟨wb, hids, hwr, hro, -, hm⟩ := boot_lasts hu hb
  obtain ⟨h1, h2⟩ := hm.quiet hn (fun i hi => by
    rw [hids, List.mem_singleton] at hi
    rw [hi, hro, hn])
  obtain ⟨-, h3⟩ := (run_lasts hu hm.good hrun).quiet hn h1
  rw [h3, h2, hwr]

/-- A configuration with a read-only adapter. -/
def careful : Cfg := { plain with readonlyNames := ["phc0"] }

theorem careful_usual : Usual careful := ⟨by decide +kernel, by decide, by decide, by decide⟩

/-- The system clock is stepped and given a frequency, the read-only adapter nothing. -/
example : check (history careful [(.link [eth0] (some eth0), {}),
    (.adjTime 1 second, {}), (.adjFreq 1 1000, {}), (.adjTime 0 second, {}), (.leapNow .ins61, {})])
    (fun w => (w.clk 1).readOnly && decide (w.ids = [1, 0]) && decide (w.time 1 = 0) &&
      decide (w.writes = [.freq 0 (some 10000) 0 none, .step 0 1000000000 none])) = true := by
  decide +kernel

example : ∃ w, history { careful with noAdjust := true } [(.link [eth0] (some eth0), {}),
    (.adjTime 1 second, {}), (.adjFreq 0 1000, {})] = .ok w ∧
    Reach { careful with noAdjust := true } w ∧ w.writes = [] := by
  obtain ⟨w, hw, -⟩ := witness (p := fun _ => true) (r := history { careful with noAdjust := true }
    [(.link [eth0] (some eth0), {}), (.adjTime 1 second, {}), (.adjFreq 0 1000, {})])
    (by decide +kernel)
  refine ⟨w, hw, history_reach hw, C138_no_adjust _ ?_ w rfl (history_reach hw)⟩
  exact ⟨careful_usual.limit, careful_usual.hz, careful_usual.divides, careful_usual.tol⟩

/-! ## C139 -/

/-- An execution that leaves the blocking of clock `i` alone. -/
def LeavesBlock (i : Nat) (os : List (Op × Env)) : Prop := ∀ p ∈ os, p.1.blocks ≠ some i

/-- C139, as it should be: as long as a clock is blocked no call acts on it. -/
def C139_statement : Prop :=
  ∀ (cfg : Cfg) (w w' : World) (os : List (Op × Env)) (i : Nat), Usual cfg → Reach cfg w →
    i ∈ w.ids → 0 < (w.clk i).blocked → LeavesBlock i os → run cfg w os = .ok w' →
    ∃ xs, w'.writes = w.writes ++ xs ∧ ∀ x ∈ xs, x.target ≠ i

theorem exec_blocked {cfg : Cfg} {e : Env} {w w' : World} {o : Op} {i : Nat} (hu : Usual cfg)
    (hg : Good cfg w) (hi : i ∈ w.ids) (hb : 0 < (w.clk i).blocked) (ho : o.blocks ≠ some i)
    (h : exec cfg e w o = .ok w') :
    Good cfg w' ∧ i ∈ w'.ids ∧ (w'.clk i).blocked = (w.clk i).blocked ∧
    ∃ xs, w'.writes = w.writes ++ xs ∧ ∀ x ∈ xs, x.isTiming = true → x.target ≠ i := by
  cases hbl : o.blocks with
  | none =>
    have hm := exec_moves hu hg hbl h
    refine ⟨hm.good, hm.sub i hi, hm.bl i hi, ?_⟩
    obtain ⟨xs, h1, h2⟩ := hm.wr
    refine ⟨xs, h1, fun x hx ht he => ?_⟩
    have := (h2 x hx).open' (by rw [he]; exact hi) ht
    rw [he] at this
    omega
  | some j =>
    obtain ⟨b, rfl⟩ := exec_block hbl h
    have hij : i ≠ j := fun he => ho (by rw [hbl, he])
    refine ⟨setBlocked_good hg j b, hi, ?_, [], by simp [setBlocked, World.set], by simp⟩
    simp only [setBlocked, World.set, if_neg hij]

theorem run_blocked {cfg : Cfg} {i : Nat} (hu : Usual cfg) :
    ∀ {os : List (Op × Env)} {w w' : World}, Good cfg w → i ∈ w.ids → 0 < (w.clk i).blocked →
    LeavesBlock i os → run cfg w os = .ok w' →
    (w'.clk i).blocked = (w.clk i).blocked ∧
    ∃ xs, w'.writes = w.writes ++ xs ∧ ∀ x ∈ xs, x.isTiming = true → x.target ≠ i
  | [], w, w', hg, hi, hb, hl, h => by
    simp only [run, Except.ok.injEq] at h
    rw [← h]; exact ⟨rfl, [], by simp, by simp⟩
  | (o, e) :: os, w, w', hg, hi, hb, hl, h => by
    simp only [run] at h
    split at h
    · exact absurd h (by simp)
    · rename_i w1 h1
      obtain ⟨g1, i1, b1, xs, hx1, hx2⟩ := exec_blocked hu hg hi hb (hl (o, e) (by simp)) h1
      obtain ⟨b2, ys, hy1, hy2⟩ := run_blocked hu g1 i1 (by rw [b1]; exact hb)
        (fun p hp => hl p (List.mem_cons_of_mem _ hp)) h
      refine ⟨by rw [b2, b1], xs ++ ys, by rw [hy1, hx1, List.append_assoc], ?_⟩
      intro x hx
      rcases List.mem_append.mp hx with h' | h'
      · exact hx2 x h'
      · exact hy2 x h'

/-- C139 does not hold: scheduling a leap second writes the status of the system clock to the
kernel even while another program, chronyd, has been given control of it. -/
theorem C139_violated : ¬ C139_statement := by
  intro hs
  obtain ⟨w, hw, hp⟩ := witness (r := history plain [(.block 0 true, {})])
    (p := fun w => decide (0 ∈ w.ids) && decide (0 < (w.clk 0).blocked) &&
      check (run plain w [(.leapSchedule .ins61, {})])
        (fun w' => decide (w'.writes = w.writes ++ [.status ⟨true, true, false⟩])))
    (by decide +kernel)
  simp only [Bool.and_eq_true, decide_eq_true_eq] at hp
  obtain ⟨⟨h0, hb⟩, h2⟩ := hp
  obtain ⟨w', hw', hp'⟩ := witness h2
  simp only [decide_eq_true_eq] at hp'
  obtain ⟨xs, hx, ha⟩ := hs plain w w' _ 0 plain_usual (history_reach hw) h0 hb
    (by intro p hp; simp only [List.mem_singleton] at hp; subst hp; simp [Op.blocks]) hw'
  rw [hp', List.append_cancel_left_eq] at hx
  exact ha (.status ⟨true, true, false⟩) (by rw [← hx]; simp) rfl

/-- C139, the part that holds: a blocked clock is neither stepped nor given a frequency until
it is unblocked. -/
theorem C139_partial (cfg : Cfg) (hu : Usual cfg) (w w' : World) (os : List (Op × Env)) (i : Nat)
    (hr : Reach cfg w) (hi : i ∈ w.ids) (hb : 0 < (w.clk i).blocked) (hl : LeavesBlock i os)
    (h : run cfg w os = .ok w') :
    ∃ xs, w'.writes = w.writes ++ xs ∧ ∀ x ∈ xs, x.isTiming = true → x.target ≠ i :=
  (run_blocked hu (hr.good hu) hi hb hl h).2

example : check (history plain [(.link [eth0] (some eth0), {}), (.block 0 true, {})])
    (fun w => decide (0 < (w.clk 0).blocked) &&
      check (run plain w [(.adjTime 0 second, {}), (.adjFreq 0 77, {}), (.adjFreq 1 77, {})])
        (fun w' => decide (w'.writes = w.writes ++ [.freq 1 none 5046 none]))) = true := by
  decide +kernel

/-! ## C140 -/

/-- C140.  Every tick and frequency ever written is one that the kernel accepts and the
configuration allows. -/
theorem C140_sane (cfg : Cfg) (hu : Usual cfg) (w : World) (hr : Reach cfg w) :
    ∀ x ∈ w.writes, Sane cfg x := by
  obtain ⟨e, t, fl, w0, os, hb, hrun⟩ := hr
  obtain ⟨wb, -, hwr, -, -, hm⟩ := boot_lasts hu hb
  obtain ⟨xs, h1, h2⟩ := (hm.lasts.trans (run_lasts hu hm.good hrun)).wr
  intro x hx
  rw [h1, hwr, List.nil_append] at hx
  exact (h2 x hx).2.1

/-- A request beyond every limit. -/
example : check (history plain [(.link [eth0] (some eth0), {}),
    (.adjFreq 0 (1000000000000), {}), (.adjFreq 0 (-1000000000000), {}), (.adjFreq 1 (1000000000000), {})])
    (fun w => decide (w.writes.drop 3 = [.freq 0 (some 11000) 32768000 none,
      .freq 0 (some 9000) (-32768000) none, .freq 1 none 6553600000 none])) = true := by
  decide +kernel

/-! ## C141 -/

/-- The most that the system clock can be sped up or slowed down, in ppb. -/
def widest (cfg : Cfg) : Rat := 100000000 + (cfg.tol : Rat) * 1000 / 65536

/-- A frequency request is met by the system clock within `err` ppb. -/
def Met (cfg : Cfg) (e : Env) (w : World) (f err : Rat) : Prop :=
  ∃ tick fq st, (adjustFreq cfg e w 0 f).1.writes = w.writes ++ [.freq 0 (some tick) fq st] ∧
    |rate cfg.hz tick fq - limited (widest cfg) f| ≤ err

/-- C141, as it should be: the kernel is told the frequency that was asked for, as near as it
can be expressed. -/
def C141_statement : Prop :=
  ∀ (cfg : Cfg) (e : Env) (w : World) (f : Rat), Usual cfg → Reach cfg w →
    (w.clk 0).readOnly = false → (w.clk 0).blocked ≤ 0 → Met cfg e w f (1 / 100)

theorem maxTick_res {cfg : Cfg} (hu : Usual cfg) : maxTick cfg * tickRes cfg = 100000000 := by
  have h0 : (cfg.hz : Rat) ≠ 0 := by
    have : (0 : Rat) < cfg.hz := by exact_mod_cast hu.hz
    linarith
  unfold maxTick tickRes
  field_simp
  norm_num

theorem sysMax_eq (cfg : Cfg) : sysMax cfg = (cfg.tol : Rat) * 1000 / 65536 := by
  unfold sysMax
  ring

theorem freqField_near (x : Rat) : |(freqField x : Rat) * 1000 / 65536 - x| ≤ 1 / 100 := by
  have h1 := roundl_le (x * (65536 / 1000))
  have h2 := le_roundl (x * (65536 / 1000))
  unfold freqField
  rw [abs_le]
  constructor <;> linarith

theorem adjustFreq_system {cfg : Cfg} (e : Env) {w : World} (f : Rat) (hu : Usual cfg)
    (hg : Good cfg w) (hr : (w.clk 0).readOnly = false) (hb : (w.clk 0).blocked ≤ 0) :
    (adjustFreq cfg e w 0 f).1.writes = w.writes ++
      [.freq 0 (some (tickOf cfg (limited (widest cfg) f)))
        (freqField (satRest cfg (split cfg (limited (widest cfg) f)).2)) (statusFor cfg w 0)] := by
  have hm : (w.clk 0).maxAdj = widest cfg := by
    rw [hg.adj0, maxTick_res hu, sysMax_eq]
    rfl
  have hpos : 0 ≤ widest cfg := by
    unfold widest
    have : (0 : Rat) ≤ cfg.tol := by exact_mod_cast hu.tol
    linarith
  unfold adjustFreq freqWrite
  rw [if_neg (by simp [noPhc, hg.kind0]), if_neg (by simp [hr]), if_neg (by omega)]
  simp only [hg.kind0, if_true, World.log, hm, saturate_eq hpos]

theorem rate_eq {cfg : Cfg} (hu : Usual cfg) (g : Rat) (q : Int) :
    rate cfg.hz (tickOf cfg g) q = (split cfg g).1 * tickRes cfg + (q : Rat) * 1000 / 65536 := by
  have h0 : (cfg.hz : Rat) ≠ 0 := by
    have : (0 : Rat) < cfg.hz := by exact_mod_cast hu.hz
    linarith
  unfold rate tickRes
  rw [tickOf_eq hu.hz hu.divides]
  field_simp
  ring

theorem met_of {cfg : Cfg} (e : Env) {w : World} (f err : Rat) (hu : Usual cfg)
    (hg : Good cfg w) (hr : (w.clk 0).readOnly = false) (hb : (w.clk 0).blocked ≤ 0)
    (h : |(split cfg (limited (widest cfg) f)).1 * tickRes cfg +
        satRest cfg (split cfg (limited (widest cfg) f)).2 - limited (widest cfg) f| ≤ err) :
    Met cfg e w f (err + 1 / 100) := by
  refine ⟨_, _, _, adjustFreq_system e f hu hg hr hb, ?_⟩
  rw [rate_eq hu]
  have h2 := freqField_near (satRest cfg (split cfg (limited (widest cfg) f)).2)
  rw [abs_le] at *
  constructor <;> linarith

/-- C141 does not hold.  The tolerance of the kernel is 500 ppm and a tick is worth 100 ppm at
100 Hz.  A request for 540 ppm is 0.4 ticks above what the frequency alone can do; the number of
ticks is rounded to none, and 500 ppm is what the clock gets. -/
theorem C141_violated : ¬ C141_statement := by
  intro hs
  obtain ⟨w, hw, hp⟩ := witness (r := bootPlain plain)
    (p := fun w => decide ((w.clk 0).readOnly = false) && decide ((w.clk 0).blocked ≤ 0) &&
      decide ((adjustFreq plain {} w 0 540000).1.writes =
        w.writes ++ [.freq 0 (some 10000) 32768000 none]))
    (by decide +kernel)
  simp only [Bool.and_eq_true, decide_eq_true_eq] at hp
  obtain ⟨⟨h1, h2⟩, h3⟩ := hp
  obtain ⟨tick, fq, st, h4, h5⟩ := hs plain {} w 540000 plain_usual
    ⟨{}, _, _, w, [], hw, rfl⟩ h1 h2
  rw [h3, List.append_cancel_left_eq] at h4
  simp only [List.cons.injEq, Write.freq.injEq, Option.some.injEq, and_true, true_and] at h4
  obtain ⟨rfl, rfl, -⟩ := h4
  exact absurd h5 (by decide +kernel)

/-- The rest that is left by the rounding of the ticks. -/
theorem split_pos {cfg : Cfg} {g : Rat} (hu : Usual cfg) (h1 : sysMax cfg < g)
    (h2 : g ≤ widest cfg) :
    (split cfg g).1 = (roundl ((g - sysMax cfg) / tickRes cfg) : Rat) ∧
    (split cfg g).2 = g - (roundl ((g - sysMax cfg) / tickRes cfg) : Rat) * tickRes cfg := by
  have hr : 0 < tickRes cfg := by
    unfold tickRes
    have : (0 : Rat) < cfg.hz := by exact_mod_cast hu.hz
    positivity
  obtain ⟨n, hn, -⟩ := maxTick_int hu.hz hu.divides
  have hle : (g - sysMax cfg) / tickRes cfg ≤ maxTick cfg := by
    rw [div_le_iff₀ hr, maxTick_res hu, sysMax_eq]
    unfold widest at h2
    linarith
  have hcap : ¬ maxTick cfg < (roundl ((g - sysMax cfg) / tickRes cfg) : Rat) := by
    rw [hn] at hle ⊢
    have := roundl_mono hle
    rw [roundl_int] at this
    have h3 : ((roundl ((g - sysMax cfg) / tickRes cfg) : Int) : Rat) ≤ (n : Rat) := by
      exact_mod_cast this
    linarith
  unfold split
  simp only [if_pos h1, if_neg hcap, and_self]

theorem split_negate {cfg : Cfg} (hu : Usual cfg) (g : Rat) :
    split cfg (-g) = (-(split cfg g).1, -(split cfg g).2) := by
  have hm := sysMax_nonneg hu.tol
  unfold split
  simp only [neg_neg]
  by_cases h1 : sysMax cfg < g
  · rw [if_neg (by linarith), if_pos (by linarith), if_pos h1]
    simp only []
    by_cases h3 : maxTick cfg < (roundl ((g - sysMax cfg) / tickRes cfg) : Rat)
    · rw [if_pos h3, if_pos (by linarith)]
      simp only [Prod.mk.injEq, true_and]; ring
    · rw [if_neg h3, if_neg (by linarith)]
      simp only [Prod.mk.injEq, true_and]; ring
  · rw [if_neg h1]
    by_cases h2 : g < -sysMax cfg
    · rw [if_pos (by linarith), if_pos h2]
      simp only []
      by_cases h3 : maxTick cfg < (roundl ((-g - sysMax cfg) / tickRes cfg) : Rat)
      · rw [if_pos h3, if_pos (by linarith)]
        simp only [Prod.mk.injEq]; constructor <;> ring
      · rw [if_neg h3, if_neg (by linarith)]
        simp only [Prod.mk.injEq]; constructor <;> ring
    · rw [if_neg (by linarith), if_neg (by linarith), if_neg h2]
      simp

theorem satRest_negate {cfg : Cfg} (hu : Usual cfg) (x : Rat) :
    satRest cfg (-x) = -satRest cfg x := by
  have hm := sysMax_nonneg hu.tol
  unfold satRest
  by_cases h1 : sysMax cfg < x
  · rw [if_neg (by linarith), if_pos (by linarith), if_pos h1]
  · rw [if_neg h1]
    by_cases h2 : x < -sysMax cfg
    · rw [if_pos (by linarith), if_pos h2, neg_neg]
    · rw [if_neg (by linarith), if_neg (by linarith), if_neg h2]

/-- The error of a positive request: nothing within the tolerance, else at most half a tick. -/
theorem error_pos {cfg : Cfg} {g : Rat} (hu : Usual cfg) (h0 : 0 ≤ g) (h2 : g ≤ widest cfg) :
    |(split cfg g).1 * tickRes cfg + satRest cfg (split cfg g).2 - g| ≤ tickRes cfg / 2 ∧
    (g ≤ sysMax cfg ∨ (tickRes cfg ≤ 4 * sysMax cfg ∧
        1 / 2 ≤ Int.fract ((g - sysMax cfg) / tickRes cfg)) →
      (split cfg g).1 * tickRes cfg + satRest cfg (split cfg g).2 - g = 0) := by
  have hm := sysMax_nonneg hu.tol
  have hr : 0 < tickRes cfg := by
    unfold tickRes
    have : (0 : Rat) < cfg.hz := by exact_mod_cast hu.hz
    positivity
  by_cases h1 : sysMax cfg < g
  · obtain ⟨e1, e2⟩ := split_pos hu h1 h2
    rw [e1, e2]
    generalize hq : (g - sysMax cfg) / tickRes cfg = q
    have hqg : g = q * tickRes cfg + sysMax cfg := by
      rw [← hq, div_mul_cancel₀ _ (ne_of_gt hr)]; ring
    have hq0 : 0 < q := by rw [← hq]; exact div_pos (by linarith) hr
    have b1 := roundl_le q
    have b2 := le_roundl q
    have c1 : (roundl q : Rat) * tickRes cfg ≤ (q + 1 / 2) * tickRes cfg :=
      mul_le_mul_of_nonneg_right b1 (le_of_lt hr)
    have c2 : (q - 1 / 2) * tickRes cfg ≤ (roundl q : Rat) * tickRes cfg :=
      mul_le_mul_of_nonneg_right b2 (le_of_lt hr)
    constructor
    · unfold satRest
      rw [abs_le]
      split
      · constructor <;> linarith
      · split
        · constructor <;> linarith
        · constructor <;> linarith
    · rintro (h | ⟨h3, h4⟩)
      · linarith
      · have hround : q ≤ (roundl q : Rat) := by
          have hf := Int.floor_add_fract q
          have : roundl q = ⌊q⌋ + 1 := by
            unfold roundl
            rw [if_pos (le_of_lt hq0), Int.floor_eq_iff]
            have hlt := Int.fract_lt_one q
            push_cast
            constructor <;> linarith
          have hlt := Int.fract_lt_one q
          rw [this]
          push_cast
          linarith
        have c3 : q * tickRes cfg ≤ (roundl q : Rat) * tickRes cfg :=
          mul_le_mul_of_nonneg_right hround (le_of_lt hr)
        unfold satRest
        rw [if_neg (by linarith), if_neg (by linarith)]
        ring
  · have : split cfg g = (0, g) := by
      unfold split
      simp only [if_neg h1]
      rw [if_neg (by linarith)]
    rw [this]
    simp only [zero_mul, zero_add]
    have hs : satRest cfg g = g := by
      unfold satRest
      rw [if_neg h1, if_neg (by linarith)]
    rw [hs, sub_self]
    exact ⟨by rw [abs_zero]; linarith, fun _ => rfl⟩

/-- C141, the part that holds: the error is never more than half a tick (50 ppm at 100 Hz). -/
theorem C141_partial (cfg : Cfg) (hu : Usual cfg) (e : Env) (w : World) (f : Rat)
    (hr : Reach cfg w) (h1 : (w.clk 0).readOnly = false) (h2 : (w.clk 0).blocked ≤ 0) :
    Met cfg e w f ((cfg.hz : Rat) * 500 + 1 / 100) := by
  have hpos : 0 ≤ widest cfg := by
    unfold widest
    have : (0 : Rat) ≤ cfg.tol := by exact_mod_cast hu.tol
    linarith
  have hg := hr.good hu
  refine met_of e f _ hu hg h1 h2 ?_
  have e1 := limited_le hpos f
  have e2 := le_limited (widest cfg) f
  generalize limited (widest cfg) f = g at *
  have hres : (cfg.hz : Rat) * 500 = tickRes cfg / 2 := by unfold tickRes; ring
  rw [hres]
  by_cases h0 : 0 ≤ g
  · exact (error_pos hu h0 e1).1
  · have := (error_pos hu (g := -g) (by linarith) (by linarith)).1
    rw [split_negate hu, satRest_negate hu] at this
    rw [← abs_neg]
    convert this using 2
    ring

/-- C141, the part that holds: a request within the tolerance is met exactly, and so is a larger
one when the excess over the tolerance is, in ticks, nearer to the next whole number. -/
theorem C141_exact_partial (cfg : Cfg) (hu : Usual cfg) (e : Env) (w : World) (f : Rat)
    (hr : Reach cfg w) (h1 : (w.clk 0).readOnly = false) (h2 : (w.clk 0).blocked ≤ 0)
    (hf : |f| ≤ widest cfg)
    (h : |f| ≤ (cfg.tol : Rat) * 1000 / 65536 ∨
      ((cfg.hz : Rat) * 250 ≤ (cfg.tol : Rat) * 1000 / 65536 ∧
        1 / 2 ≤ Int.fract ((|f| - (cfg.tol : Rat) * 1000 / 65536) / ((cfg.hz : Rat) * 1000)))) :
    Met cfg e w f (1 / 100) := by
  have hg := hr.good hu
  have hlim : limited (widest cfg) f = f := by
    rw [abs_le] at hf
    unfold limited
    rw [min_eq_right hf.2, max_eq_right hf.1]
  have hcond : ∀ g : Rat, |f| = g → (g ≤ sysMax cfg ∨ (tickRes cfg ≤ 4 * sysMax cfg ∧
      1 / 2 ≤ Int.fract ((g - sysMax cfg) / tickRes cfg))) := by
    intro g hgf
    rw [hgf] at h
    rw [sysMax_eq]
    rcases h with h | ⟨h3, h4⟩
    · exact Or.inl h
    · refine Or.inr ⟨?_, h4⟩
      unfold tickRes
      linarith
  have hz : |(split cfg (limited (widest cfg) f)).1 * tickRes cfg +
      satRest cfg (split cfg (limited (widest cfg) f)).2 - limited (widest cfg) f| ≤ 0 := by
    rw [hlim]
    by_cases h0 : 0 ≤ f
    · have ha := abs_of_nonneg h0
      rw [ha] at hf
      rw [(error_pos hu h0 hf).2 (hcond f ha), abs_zero]
    · have ha : |f| = -f := abs_of_neg (by linarith)
      rw [ha] at hf
      have := (error_pos hu (g := -f) (by linarith) hf).2 (hcond _ ha)
      rw [split_negate hu, satRest_negate hu] at this
      rw [abs_nonpos_iff]
      linarith
  have := met_of e f 0 hu hg h1 h2 hz
  rwa [zero_add] at this

/-- 580 ppm is 0.8 ticks above the tolerance: one tick, and 480 ppm of frequency. -/
example : check (bootPlain plain)
    (fun w => decide ((adjustFreq plain {} w 0 580000).1.writes =
        w.writes ++ [.freq 0 (some 10001) 31457280 none])) = true ∧
    rate 100 10001 31457280 = 580000 := by
  constructor
  · decide +kernel
  · unfold rate; norm_num

example : (|(580000 : Rat)| ≤ widest plain) ∧ ((plain.hz : Rat) * 250 ≤ (plain.tol : Rat) * 1000 / 65536 ∧
    1 / 2 ≤ Int.fract ((|(580000 : Rat)| - (plain.tol : Rat) * 1000 / 65536) / ((plain.hz : Rat) * 1000))) := by
  decide +kernel

end Verif.Clock
