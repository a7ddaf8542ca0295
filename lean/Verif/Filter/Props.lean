import Verif.Filter.Model
import Verif.Common.Ring
import Verif.Time.Props
import Verif.Stats.Props
import Mathlib.Algebra.Order.Ring.Abs

set_option linter.unusedSimpArgs false
set_option linter.unusedVariables false

/-!
# Properties of the filters (C12, C13, C14, C15, C58, C60)
-/

namespace Verif.Filter
open Verif.Time Verif.Stats Verif.Ring Verif.CInt

/-! ## C12 -/

/-- Operations on a FIR filter. -/
inductive FirOp where
  | update (x : Rat)
  | reset

/-- The effect. -/
def firStep (f : Fir) : FirOp → Option Fir
  | .update x => (f.update x).map (·.1)
  | .reset => some f.reset

/-- A sequence of operations. -/
def firRun (f : Fir) : List FirOp → Option Fir
  | [] => some f
  | op :: ops => (firStep f op).bind (firRun · ops)

/-- Specification: the samples since the last reset. -/
def firSamples (acc : List Rat) : List FirOp → List Rat
  | [] => acc
  | .update x :: ops => firSamples (acc ++ [x]) ops
  | .reset :: ops => firSamples [] ops

/-- Invariant. -/
structure FirOk (k : Nat) (hist : List Rat) (f : Fir) : Prop where
  k_eq : f.stiffness = k
  len : f.delta.length = 128
  ring : Ok k hist f.delta f.w f.num

theorem FirOk.update {k hist f} (hk : 1 ≤ k) (h : FirOk k hist f) (x : Rat) :
    ∃ f' y, f.update x = some (f', y) ∧ FirOk k (hist ++ [x]) f' ∧ y = mean (lastN k (hist ++ [x])) := by
  obtain ⟨h1, h2, h3⟩ := h
  obtain ⟨st, num, w, delta⟩ := f
  simp only at h1 h2 h3
  subst h1
  have hp := h3.push x
  have hw := h3.w_lt
  have hl := h3.len
  have ha : advance st w num = (if w + 1 = st then 0 else w + 1, if num < st then num + 1 else num) := by
    unfold advance
    have : (w + 1 ≥ st) = (w + 1 = st) := by apply propext; omega
    simp [this]
  rw [ha] at hp
  simp only at hp
  have hne := hp.num_eq
  have hnz : ¬ (if num < st then num + 1 else num) = 0 := by
    rw [hne]; simp; omega
  have hperm := hp.perm
  unfold Fir.update
  rw [if_neg (by simp only; omega)]
  simp only
  rw [if_neg hnz]
  refine ⟨_, _, rfl, ⟨rfl, by simp [h2], hp⟩, ?_⟩
  unfold mean
  rw [lastN_length, ← hne, ← hperm.sum_eq, List.sum_eq_foldl]

theorem firRun_ok {k : Nat} (hk : 1 ≤ k) (ops : List FirOp) : ∀ (f : Fir) (hist : List Rat), FirOk k hist f →
    ∃ f', firRun f ops = some f' ∧ FirOk k (firSamples hist ops) f' := by
  induction ops with
  | nil => intro f hist h; exact ⟨f, rfl, h⟩
  | cons op ops ih =>
    intro f hist h
    cases op with
    | update x =>
      obtain ⟨f1, y, h1, h2, _⟩ := h.update hk x
      obtain ⟨f2, h3, h4⟩ := ih f1 _ h2
      refine ⟨f2, ?_, h4⟩
      simp only [firRun, firStep, h1, Option.map_some, Option.bind_some]
      exact h3
    | reset =>
      have hr : FirOk k [] f.reset := ⟨h.k_eq, h.len, Ok.init hk h.ring.len⟩
      obtain ⟨f2, h3, h4⟩ := ih f.reset [] hr
      refine ⟨f2, ?_, h4⟩
      simp only [firRun, firStep, Option.bind_some]
      exact h3

theorem mean_bounds {l : List Rat} (hne : l ≠ []) {lo hi : Rat} (h : ∀ x ∈ l, lo ≤ x ∧ x ≤ hi) :
    lo ≤ mean l ∧ mean l ≤ hi := by
  have hs : lo * l.length ≤ l.sum ∧ l.sum ≤ hi * l.length := by
    clear hne
    induction l with
    | nil => simp
    | cons a l ih =>
      have h1 := ih (fun x hx => h x (List.mem_cons_of_mem _ hx))
      have h2 := h a (List.mem_cons_self ..)
      simp only [List.sum_cons, List.length_cons]
      push_cast
      grind
  have hpos : (0 : Rat) < l.length := by exact_mod_cast List.length_pos_iff.2 hne
  unfold mean
  constructor
  · rw [le_div_iff₀ hpos]; exact hs.1
  · rw [div_le_iff₀ hpos]; exact hs.2

/-- C12.  For every stiffness from 1 to 128 and every history of samples and
resets, whatever the memory held before, the next update is defined, its result
is the mean of the last `stiffness` samples since the last reset (all of them,
if there are fewer), and lies between any bounds on these samples. -/
theorem C12_fir_mean_of_recent (k : Nat) (hk : 1 ≤ k ∧ k ≤ 128) (garbage : List Rat) (hg : garbage.length = 128)
    (ops : List FirOp) (x : Rat) :
    ∃ f0 f f' y, Fir.init k garbage = some f0 ∧ firRun f0 ops = some f ∧ f.update x = some (f', y) ∧
      y = mean (lastN k (firSamples [] ops ++ [x])) ∧
      ∀ lo hi, (∀ s ∈ lastN k (firSamples [] ops ++ [x]), lo ≤ s ∧ s ≤ hi) → lo ≤ y ∧ y ≤ hi := by
  have h0 : FirOk k [] (Fir.reset ⟨k, 0, 0, garbage⟩) := ⟨rfl, hg, Ok.init hk.1 (by simp only [Fir.reset]; omega)⟩
  obtain ⟨f, h1, h2⟩ := firRun_ok hk.1 ops _ _ h0
  obtain ⟨f', y, h3, h4, h5⟩ := h2.update hk.1 x
  refine ⟨_, f, f', y, by unfold Fir.init; rw [if_pos hk.2], h1, h3, h5, fun lo hi hb => ?_⟩
  rw [h5]
  apply mean_bounds _ hb
  intro hn
  have := lastN_length k (firSamples [] ops ++ [x])
  rw [hn] at this
  simp at this
  omega

example : (firRun (Fir.reset ⟨2, 0, 0, List.replicate 128 77⟩) [.update 5, .reset, .update 1, .update 2]).bind
    (fun f => (f.update 6).map (·.2)) = some 4 ∧ mean (lastN 2 ([1, 2] ++ [6])) = 4 := by decide +kernel

/-- Initialisation also accepts the stiffness 0; then the first update divides
zero by zero. -/
theorem C12_zero_stiffness_undefined (garbage : List Rat) (x : Rat) :
    ∃ f, Fir.init 0 garbage = some f ∧ f.update x = none := by
  refine ⟨_, rfl, ?_⟩
  simp [Fir.update, Fir.reset]

/-! ## C14 -/

/-- C14.  A value is accepted exactly if its distance from the midpoint is at
most the width. -/
theorem C14_notch_band (mid width x : Rat) (hw : 0 < width) :
    ∃ n, Notch.init mid width = some n ∧ (n.update x = true ↔ |x - mid| ≤ width) := by
  refine ⟨⟨mid - width, mid + width⟩, ?_, ?_⟩
  · unfold Notch.init; rw [if_pos hw]
  · unfold Notch.update
    simp only [Bool.if_false_right, Bool.and_true, decide_eq_true_eq, abs_le]
    grind

example : (Notch.init 1000 50).map (fun n => (n.update 950, n.update 1050, n.update 949)) = some (true, true, false) := by
  decide +kernel

/-! ## C15 -/

/-- Operations on a PID filter. -/
inductive PidOp where
  | update (delta : Rat) (time : Option Ts)
  | reset
  | adjust (kp ki kd : Option Rat) (reset : Bool)
  | setInterval (x : Rat)
  | setIMax (m : Rat)

/-- The effect. -/
def pidStep (s : Pid) : PidOp → Option Pid
  | .update d t => (s.update d t).map (·.1)
  | .reset => some s.reset
  | .adjust kp ki kd r => some (s.adjust kp ki kd r)
  | .setInterval x => s.setInterval x
  | .setIMax m => s.setIMax m

/-- A sequence of operations. -/
def pidRun (s : Pid) : List PidOp → Option Pid
  | [] => some s
  | op :: ops => (pidStep s op).bind (pidRun · ops)

theorem saturate_le {m x : Rat} (h : 0 < m) : -m ≤ saturate m x ∧ saturate m x ≤ m := by
  unfold saturate
  rw [if_pos h]
  split
  · grind
  · split <;> grind

theorem interval_fields {s s' : Pid} {time : Option Ts} {x : Rat} (h : s.interval time = some (x, s')) :
    s'.iMax = s.iMax ∧ s'.i = s.i ∧ s'.d = s.d ∧ s'.kp = s.kp ∧ s'.ki = s.ki ∧ s'.conf = s.conf := by
  unfold Pid.interval at h
  split at h
  · cases h; exact ⟨rfl, rfl, rfl, rfl, rfl, rfl⟩
  · split at h
    · cases h; exact ⟨rfl, rfl, rfl, rfl, rfl, rfl⟩
    · split at h
      · cases h
      · cases h; exact ⟨rfl, rfl, rfl, rfl, rfl, rfl⟩

theorem adjust_cases (s : Pid) (kp ki kd : Option Rat) (r : Bool) :
    (s.adjust kp ki kd r).i = (if r then 0 else s.i) ∧ (s.adjust kp ki kd r).iMax = s.iMax ∧
    (s.adjust kp ki kd r).conf = s.conf ∧ (s.adjust kp ki kd r).avg = (if r then s.conf else s.avg) ∧
    (s.adjust kp ki kd r).d = (if r then 0 else s.d) := by
  unfold Pid.adjust
  cases r <;> exact ⟨rfl, rfl, rfl, rfl, rfl⟩

/-- Specification: the operation does not lower the limit below `m`. -/
def PidOp.keeps (m : Rat) : PidOp → Prop
  | .setIMax m' => m' = m
  | _ => True

/-- C15.  Once an integral limit `m > 0` has been set on a filter in any state,
after any further updates, resets, gain and interval changes that include an
update or a reset, or if the integral term was within the limit to begin with,
the integral term lies in `[-m, m]`. -/
theorem C15_integral_bounded (s s1 s2 : Pid) (m : Rat) (hm : 0 < m) (hset : s.setIMax m = some s1)
    (ops : List PidOp) (hk : ∀ op ∈ ops, op.keeps m) (hrun : pidRun s1 ops = some s2)
    (hstart : (-m ≤ s.i ∧ s.i ≤ m) ∨ ∃ op ∈ ops, op = .reset ∨ ∃ d t, op = .update d t) :
    s2.iMax = m ∧ -m ≤ s2.i ∧ s2.i ≤ m := by
  have hs1 : s1.iMax = m ∧ s1.i = s.i := by
    unfold Pid.setIMax at hset
    split at hset
    · cases hset; exact ⟨rfl, rfl⟩
    · cases hset
  rw [← hs1.2] at hstart
  replace hs1 := hs1.1
  clear hset
  induction ops generalizing s1 with
  | nil =>
    cases hrun
    refine ⟨hs1, ?_⟩
    rcases hstart with h | ⟨op, hop, _⟩
    · exact h
    · cases hop
  | cons op ops ih =>
    simp only [pidRun] at hrun
    cases hst : pidStep s1 op with
    | none => rw [hst] at hrun; cases hrun
    | some t1 =>
      rw [hst] at hrun
      have hop := hk op (List.mem_cons_self ..)
      have key : t1.iMax = m ∧ ((-m ≤ t1.i ∧ t1.i ≤ m) ∨
          (t1.i = s1.i ∧ op ≠ .reset ∧ ¬ ∃ d t, op = .update d t)) := by
        cases op with
        | update d t =>
          simp only [pidStep] at hst
          cases hu : s1.update d t with
          | none => rw [hu] at hst; cases hst
          | some r =>
            rw [hu] at hst
            simp only [Option.map_some, Option.some.injEq] at hst
            subst hst
            unfold Pid.update at hu
            split at hu
            · cases hu
            · rename_i x s' hi
              obtain ⟨f1, f2, f3, _⟩ := interval_fields hi
              cases hu
              simp only
              rw [f1, hs1]
              exact ⟨rfl, Or.inl (saturate_le hm)⟩
        | reset =>
          cases hst
          refine ⟨hs1, Or.inl ?_⟩
          simp only [Pid.reset]
          grind
        | adjust kp ki kd r =>
          cases hst
          obtain ⟨a1, a2, _⟩ := adjust_cases s1 kp ki kd r
          refine ⟨by rw [a2, hs1], ?_⟩
          rw [a1]
          cases r
          · exact Or.inr ⟨rfl, by simp, by simp⟩
          · left; simp only [if_true]; grind
        | setInterval x =>
          simp only [pidStep, Pid.setInterval] at hst
          split at hst
          · cases hst; exact ⟨hs1, Or.inr ⟨rfl, by simp, by simp⟩⟩
          · cases hst
        | setIMax m' =>
          have hm' : m' = m := hop
          simp only [pidStep, Pid.setIMax] at hst
          split at hst
          · cases hst; exact ⟨hm', Or.inr ⟨rfl, by simp, by simp⟩⟩
          · cases hst
      apply ih t1 (fun o ho => hk o (List.mem_cons_of_mem _ ho)) hrun _ key.1
      rcases key.2 with h | ⟨h1, h2, h3⟩
      · exact Or.inl h
      · rcases hstart with h | ⟨o, ho, hr⟩
        · left; rw [h1]; exact h
        · rcases List.mem_cons.1 ho with rfl | ho'
          · rcases hr with rfl | hr
            · exact absurd rfl h2
            · exact absurd hr h3
          · exact Or.inr ⟨o, ho', hr⟩

example : ((Pid.init 1 (1/2) 0 1).setIMax 10).bind
    (fun s => (pidRun s [.update 100 none, .adjust none (some 3) none false, .update (-500) (some ⟨5, 0, 0⟩),
      .update (-500) (some ⟨6, 500000000, 0⟩)]).map (fun s => (s.i, s.avg))) = some (-10, 33 / 32) := by decide +kernel

/-- C15.  The correction returned is the negated sum of the proportional term
and the integral term accumulated before (there is no differential term after
initialisation). -/
theorem C15_output (s s' : Pid) (delta y : Rat) (time : Option Ts) (h : s.update delta time = some (s', y)) (hd : s.d = 0) :
    y = -(s.kp * delta + s.i) ∧ s'.d = 0 := by
  unfold Pid.update at h
  split at h
  · cases h
  · rename_i x s1 hi
    obtain ⟨f1, f2, f3, f4, _⟩ := interval_fields hi
    cases h
    simp only
    rw [f2, f3, f4, hd]
    exact ⟨by grind, rfl⟩

/-- Specification: the interval an update integrates over: the configured one
if no time is given or no update was timed before, else the time elapsed, kept
between half and double the average. -/
def usedInterval (s : Pid) (time : Option Ts) : Rat :=
  match time with
  | none => s.conf
  | some t => if s.last = ⟨0, 0, 0⟩ then s.conf
    else max (1 / 2 * s.avg) (min (2 * s.avg) ((val t - val s.last : Int) / (1000000000 * 4294967296)))

theorem floatS_val (t : Ts) : floatS t = val t / (1000000000 * 4294967296) := by
  unfold floatS val
  push_cast
  grind

/-- C15.  An update adds `ki * interval * delta` to the integral term and keeps
it within the limit. -/
theorem C15_integral_step (s s' : Pid) (delta y : Rat) (time : Option Ts) (h : s.update delta time = some (s', y))
    (hp : 0 < s.avg) (hm : 0 < s.iMax) (hn : ∀ t, time = some t → Norm t ∧ Norm s.last ∧ InS64 (t.sec - s.last.sec) ∧
      InS64 ((val t - val s.last) / (1000000000 * 4294967296))) :
    s'.i = max (-s.iMax) (min s.iMax (s.i + s.ki * usedInterval s time * delta)) := by
  have hx : ∀ x s1, s.interval time = some (x, s1) → x = usedInterval s time := by
    intro x s1 hi
    unfold Pid.interval at hi
    unfold usedInterval
    cases time with
    | none => cases hi; rfl
    | some t =>
      simp only at hi ⊢
      have hz : (isZero s.last = true) ↔ s.last = ⟨0, 0, 0⟩ := by
        unfold isZero
        simp only [decide_eq_true_eq]
        constructor
        · rintro ⟨a, b, c⟩
          cases hl : s.last
          simp_all
        · intro h; rw [h]; exact ⟨rfl, rfl, rfl⟩
      by_cases h0 : s.last = ⟨0, 0, 0⟩
      · rw [if_pos (hz.2 h0)] at hi
        cases hi
        rw [if_pos h0]
      · rw [if_neg (fun h => h0 (hz.1 h))] at hi
        rw [if_neg h0]
        obtain ⟨n1, n2, n3, n4⟩ := hn t rfl
        obtain ⟨c, hc, _, hv⟩ := C01_subtract_exact t s.last n1 n2 n3 n4
        rw [hc] at hi
        cases hi
        rw [floatS_val, hv]
        unfold limitInterval
        grind
  unfold Pid.update at h
  split at h
  · cases h
  · rename_i x s1 hi
    obtain ⟨f1, f2, f3, f4, f5, _⟩ := interval_fields hi
    have hx' := hx x s1 hi
    cases h
    simp only
    rw [f1, f2, f5, hx']
    unfold saturate
    rw [if_pos hm]
    grind

example : usedInterval { Pid.init 1 1 0 2 with last := ⟨5, 0, 0⟩ } (some ⟨8, 500000000, 0⟩) = 7 / 2 := by decide +kernel

/-- Specification: the raw intervals an operation sequence supplies, the last
update time being known, and the configured intervals. -/
def PidOp.within (lo hi : Rat) (last : Ts) : PidOp → Prop
  | .update _ (some t) => isZero last = true ∨ ∃ d, subtract t last = some d ∧ lo ≤ floatS d ∧ floatS d ≤ hi
  | .setInterval x => lo ≤ x ∧ x ≤ hi
  | _ => True

/-- All operations of a run are within the bounds. -/
def AllWithin (lo hi : Rat) : Pid → List PidOp → Prop
  | _, [] => True
  | s, op :: ops => op.within lo hi s.last ∧ ∀ s', pidStep s op = some s' → AllWithin lo hi s' ops

theorem limit_bounds {lo hi avg x : Rat} (h0 : 0 < lo) (ha : lo ≤ avg ∧ avg ≤ hi) (hx : lo ≤ x ∧ x ≤ hi) :
    lo ≤ limitInterval avg x ∧ limitInterval avg x ≤ hi := by
  unfold limitInterval
  split
  · grind
  · split <;> grind

/-- C15.  The average interval never leaves the range spanned by the intervals
configured and those between updates, whatever is done to the filter. -/
theorem C15_interval_bounded (lo hi : Rat) (h0 : 0 < lo) (s s2 : Pid) (ha : lo ≤ s.avg ∧ s.avg ≤ hi)
    (hc : lo ≤ s.conf ∧ s.conf ≤ hi) (ops : List PidOp) (hw : AllWithin lo hi s ops) (hrun : pidRun s ops = some s2) :
    lo ≤ s2.avg ∧ s2.avg ≤ hi := by
  induction ops generalizing s with
  | nil => cases hrun; exact ha
  | cons op ops ih =>
    simp only [pidRun] at hrun
    cases hst : pidStep s op with
    | none => rw [hst] at hrun; cases hrun
    | some t1 =>
      rw [hst] at hrun
      obtain ⟨hw1, hw2⟩ := hw
      have key : (lo ≤ t1.avg ∧ t1.avg ≤ hi) ∧ (lo ≤ t1.conf ∧ t1.conf ≤ hi) := by
        cases op with
        | update d t =>
          simp only [pidStep] at hst
          cases hu : s.update d t with
          | none => rw [hu] at hst; cases hst
          | some r =>
            rw [hu] at hst
            simp only [Option.map_some, Option.some.injEq] at hst
            subst hst
            unfold Pid.update at hu
            split at hu
            · cases hu
            · rename_i x s' hi'
              have hcf := (interval_fields hi').2.2.2.2.2
              cases hu
              simp only
              rw [hcf]
              refine ⟨?_, hc⟩
              unfold Pid.interval at hi'
              split at hi'
              · cases hi'; exact ha
              · rename_i t
                split at hi'
                · cases hi'; exact ha
                · rename_i hz
                  rcases hw1 with h | ⟨df, h1, h2⟩
                  · exact absurd h hz
                  · rw [h1] at hi'
                    cases hi'
                    have := limit_bounds h0 ha h2
                    simp only
                    grind
        | reset => cases hst; exact ⟨hc, hc⟩
        | adjust kp ki kd r =>
          cases hst
          obtain ⟨_, _, a3, a4, _⟩ := adjust_cases s kp ki kd r
          rw [a3, a4]
          cases r
          · exact ⟨ha, hc⟩
          · exact ⟨hc, hc⟩
        | setInterval x =>
          simp only [pidStep, Pid.setInterval] at hst
          split at hst
          · cases hst; exact ⟨ha, hw1⟩
          · cases hst
        | setIMax m' =>
          simp only [pidStep, Pid.setIMax] at hst
          split at hst
          · cases hst; exact ⟨ha, hc⟩
          · cases hst
      exact ih t1 key.1 key.2 (hw2 t1 hst) hrun

example : AllWithin 1 3 (Pid.init 1 (1/2) 0 1) [.update 100 (some ⟨5, 0, 0⟩), .update 3 (some ⟨8, 0, 0⟩)] := by
  refine ⟨Or.inl (by decide), fun s' h => ⟨Or.inr ⟨⟨3, 0, 0⟩, ?_, by decide +kernel⟩, fun s'' _ => trivial⟩⟩
  cases h; decide

/-- C15.  The interval that enters the integral is between half and double the
average, so a stalled or jumping clock cannot contribute more; the average
stays positive for every run from a positive configured interval. -/
theorem C15_step_limited (s s' : Pid) (t : Ts) (x : Rat) (h : s.interval (some t) = some (x, s'))
    (hz : isZero s.last = false) (hp : 0 < s.avg) :
    1 / 2 * s.avg ≤ x ∧ x ≤ 2 * s.avg ∧ 31 / 32 * s.avg ≤ s'.avg ∧ s'.avg ≤ 17 / 16 * s.avg := by
  unfold Pid.interval at h
  simp only [hz, Bool.false_eq_true, if_false] at h
  split at h
  · cases h
  · cases h
    simp only [limitInterval]
    refine ⟨?_, ?_, ?_, ?_⟩ <;> split <;> grind

example : isZero (⟨5, 0, 0⟩ : Ts) = false ∧
    (Pid.interval { Pid.init 1 1 0 1 with last := ⟨5, 0, 0⟩ } (some ⟨500, 0, 0⟩)).map (·.1) = some 2 := by decide +kernel

/-! ## C58 -/

/-- Specification of the Peirce filter on the list of values held, oldest
first: an outlier is a sample further from the mean than `c` standard
deviations, if at least five values are held; its weighted form is stored. -/
def peirceSpec (max : Nat) (weight : Rat) (win : List Rat) (x : Rat) : List Rat × Bool :=
  let c : Rat := ((peirceTable.getD (win.length - 1) 0 : Nat) : Rat) / 1000000
  let outlier := decide (5 ≤ win.length ∧ c ^ 2 * variance win < (x - mean win) ^ 2)
  (lastN max (win ++ [if outlier then mean win + weight * (x - mean win) else x]), outlier)

/-- Running the specification. -/
def peirceSpecRun (max : Nat) (weight : Rat) : List Rat → List (Option Rat) → List Rat × List Bool
  | win, [] => (win, [])
  | win, some x :: xs =>
    let r := peirceSpecRun max weight (peirceSpec max weight win x).1 xs
    (r.1, (peirceSpec max weight win x).2 :: r.2)
  | _, none :: xs => peirceSpecRun max weight [] xs

/-- Running the filter; `none` in the input is a reset. -/
def peirceRun (f : Peirce) : List (Option Rat) → Option (Peirce × List Bool)
  | [] => some (f, [])
  | some x :: xs =>
    match f.update x with
    | none => none
    | some (f', rc) => (peirceRun f' xs).map (fun r => (r.1, rc :: r.2))
  | none :: xs => peirceRun f.reset xs

/-- Invariant: the filter holds exactly `win`. -/
structure PeirceOk (max : Nat) (weight : Rat) (win : List Rat) (f : Peirce) : Prop where
  max_eq : f.max = max
  weight_eq : f.weight = weight
  len : f.data.length = max
  winLe : win.length ≤ max
  ring : Ok max win f.data f.w f.num
  sdNum : f.sd.num = win.length
  sdSum : f.sd.sum = win.sum
  sdSq : f.sd.sumSq = (win.map (fun x => x * x)).sum

theorem ring_trim {α} {max : Nat} {hist buf : List α} {w num : Nat} (h : Ok max hist buf w num) :
    Ok max (lastN max hist) buf w num := by
  obtain ⟨h1, h2, h3, h4, h5⟩ := h
  refine ⟨h1, by rw [lastN_length, h2]; omega, h3, h4, ?_⟩
  rw [h5]
  have := lastN_length max hist
  have e : lastN max (lastN max hist) = lastN max hist := by
    show List.drop ((lastN max hist).length - max) (lastN max hist) = _
    rw [show (lastN max hist).length - max = 0 by omega]; rfl
  rw [e]

theorem sd_get {l : List Rat} (hne : l ≠ []) {s : StdDev} (h2 : s.num = l.length) (h3 : s.sum = l.sum)
    (h4 : s.sumSq = (l.map (fun x => x * x)).sum) : s.get = some (mean l, variance l) := by
  have hlen : 0 < l.length := List.length_pos_iff.2 hne
  have hn : (l.length : Rat) ≠ 0 := by exact_mod_cast (Nat.ne_of_gt hlen)
  have hv : s.sumSq / s.num - (s.sum / s.num) * (s.sum / s.num) = variance l := by
    rw [h2, h3, h4]
    unfold variance
    rw [sum_dev]
    unfold mean
    generalize (l.map (fun x => x * x)).sum = a
    generalize l.sum = b
    generalize (l.length : Rat) = n at *
    grind
  unfold StdDev.get
  rw [if_pos (by omega)]
  simp only [hv, Option.some.injEq, Prod.mk.injEq, and_true]
  rw [h2, h3]; rfl

theorem criterion_eq {n : Nat} (h : 1 ≤ n ∧ n ≤ 60) :
    criterion n = some (((peirceTable.getD (n - 1) 0 : Nat) : Rat) / 1000000) := by
  unfold criterion
  rw [if_neg (by omega)]
  have hl : n - 1 < peirceTable.length := by simp [peirceTable]; omega
  rw [List.getElem?_eq_getElem hl, List.getD_eq_getElem?_getD, List.getElem?_eq_getElem hl]
  rfl

theorem PeirceOk.update {max weight win f} (hm : 0 < max ∧ max ≤ 60) (h : PeirceOk max weight win f) (x : Rat) :
    ∃ f', f.update x = some (f', (peirceSpec max weight win x).2) ∧
      PeirceOk max weight (peirceSpec max weight win x).1 f' := by
  have hnum : f.num = win.length := by rw [h.ring.num_eq]; have := h.winLe; omega
  -- the judgement
  have hj : f.judge x = some ((peirceSpec max weight win x).2,
      if (peirceSpec max weight win x).2 then mean win + weight * (x - mean win) else x) := by
    unfold Peirce.judge peirceSpec
    simp only
    by_cases h5 : f.num ≥ 5
    · have hne : win ≠ [] := List.length_pos_iff.1 (by omega)
      rw [if_pos h5, sd_get hne h.sdNum h.sdSum h.sdSq, hnum, criterion_eq ⟨by omega, by have := h.winLe; omega⟩, h.weight_eq]
      simp only
      generalize ((peirceTable.getD (win.length - 1) 0 : Nat) : Rat) / 1000000 = c
      have e : ((x - mean win) * (x - mean win) > c * c * variance win) ↔
          (5 ≤ win.length ∧ c ^ 2 * variance win < (x - mean win) ^ 2) := by
        rw [← hnum]
        have : c * c = c ^ 2 := by grind
        have : (x - mean win) * (x - mean win) = (x - mean win) ^ 2 := by grind
        grind
      by_cases hc : (x - mean win) * (x - mean win) > c * c * variance win
      · have := e.1 hc
        simp only [if_pos hc, this, decide_true, if_true, Option.some.injEq, Prod.mk.injEq, true_and, and_self]
        grind
      · have h' : ¬ (5 ≤ win.length ∧ c ^ 2 * variance win < (x - mean win) ^ 2) := fun h => hc (e.2 h)
        simp only [if_neg hc, h', decide_false, Bool.false_eq_true, if_false]
    · have h' : ¬ 5 ≤ win.length := by omega
      simp only [if_neg h5, h', false_and, decide_false, Bool.false_eq_true, if_false]
  unfold Peirce.update
  rw [hj]
  have hspec1 : (peirceSpec max weight win x).1 = lastN max (win ++
      [if (peirceSpec max weight win x).2 then mean win + weight * (x - mean win) else x]) := rfl
  rw [hspec1]
  simp only
  generalize (if (peirceSpec max weight win x).2 = true then mean win + weight * (x - mean win) else x) = y
  have hp := ring_trim (h.ring.push y)
  have hw : ¬ f.w ≥ f.data.length := by have := h.ring.w_lt; have := h.len; omega
  have hle : (lastN max (win ++ [y])).length ≤ max := by rw [lastN_length]; omega
  by_cases hfull : f.num ≥ f.max
  · rw [if_pos hfull]
    have hmx := h.max_eq
    have hwl : win.length = max := by have := h.winLe; omega
    have hold := h.ring.oldest (by omega)
    have hlast : lastN max win = win := by unfold lastN; rw [hwl, Nat.sub_self]; rfl
    rw [hlast] at hold
    cases hwin : win with
    | nil => rw [hwin] at hwl; simp at hwl; omega
    | cons a l =>
      rw [hwin] at hold
      simp only [List.head?_cons] at hold
      rw [hold]
      have hpos : f.sd.num > 0 := by rw [h.sdNum]; omega
      have hnew : lastN max (a :: l ++ [y]) = l ++ [y] := by
        rw [lastN_snoc_long _ _ _ (by rw [← hwin, hwl]) hm.1, ← hwin, hlast, hwin]; rfl
      simp only [Option.bind_some, StdDev.remove, if_pos hpos, if_neg hw]
      refine ⟨_, rfl, ⟨h.max_eq, h.weight_eq, by simp [h.len], by rw [hwin] at hle; exact hle, ?_, ?_, ?_, ?_⟩⟩
      · rw [hwin] at hp
        rw [hmx]
        exact hp
      · simp only [StdDev.add]
        rw [hnew, h.sdNum, hwin]; simp
      · simp only [StdDev.add]
        rw [hnew, h.sdSum, hwin]; simp
      · simp only [StdDev.add]
        rw [hnew, h.sdSq, hwin]; simp
  · rw [if_neg hfull]
    have hmx := h.max_eq
    have hnew : lastN max (win ++ [y]) = win ++ [y] := by
      unfold lastN
      rw [show (win ++ [y]).length - max = 0 by simp; omega]; rfl
    simp only [if_neg hw]
    refine ⟨_, rfl, ⟨h.max_eq, h.weight_eq, by simp [h.len], hle, ?_, ?_, ?_, ?_⟩⟩
    · rw [hmx]; exact hp
    · simp only [StdDev.add]; rw [hnew, h.sdNum]; simp
    · simp only [StdDev.add]; rw [hnew, h.sdSum]; simp
    · simp only [StdDev.add]; rw [hnew, h.sdSq]; simp

theorem PeirceOk.empty {max weight win f} (hm : 0 < max) (h : PeirceOk max weight win f) : PeirceOk max weight [] f.reset :=
  ⟨h.max_eq, h.weight_eq, h.len, Nat.zero_le _, Ok.init hm (by simp only [Peirce.reset]; have := h.len; omega), rfl, rfl, rfl⟩

theorem peirceRun_ok {max : Nat} {weight : Rat} (hm : 0 < max ∧ max ≤ 60) (xs : List (Option Rat)) :
    ∀ (f : Peirce) (win : List Rat), PeirceOk max weight win f →
      ∃ f', peirceRun f xs = some (f', (peirceSpecRun max weight win xs).2) ∧
        PeirceOk max weight (peirceSpecRun max weight win xs).1 f' := by
  induction xs with
  | nil => intro f win h; exact ⟨f, rfl, h⟩
  | cons x xs ih =>
    intro f win h
    cases x with
    | none => exact ih f.reset [] (h.empty hm.1)
    | some x =>
      obtain ⟨f1, h1, h2⟩ := h.update hm x
      obtain ⟨f2, h3, h4⟩ := ih f1 _ h2
      refine ⟨f2, ?_, h4⟩
      simp only [peirceRun, h1, h3, Option.map_some, peirceSpecRun]

/-- C58.  For every size, weighting and history of samples and resets, the
filter's verdicts are those of the definition: a sample is an outlier exactly
if at least five values are held and it is further from their mean than the
criterion for that number times their standard deviation; what is held are the
last `max` samples with outliers pulled towards the mean by the weighting. -/
theorem C58_peirce_refines_definition (max : Nat) (weight : Rat) (f : Peirce) (hc : Peirce.create max weight = some f)
    (xs : List (Option Rat)) :
    ∃ f', peirceRun f xs = some (f', (peirceSpecRun max weight [] xs).2) := by
  unfold Peirce.create at hc
  split at hc
  · rename_i hp
    cases hc
    have h0 : PeirceOk max weight [] (Peirce.reset ⟨max, weight, StdDev.init, 0, 0, List.replicate max 0⟩) :=
      ⟨rfl, rfl, by simp [Peirce.reset], Nat.zero_le _, Ok.init hp.1 (by simp [Peirce.reset]), rfl, rfl, rfl⟩
    obtain ⟨f', h1, _⟩ := peirceRun_ok ⟨hp.1, hp.2.1⟩ xs _ _ h0
    exact ⟨f', h1⟩
  · cases hc

example : ((Peirce.create 6 (1/2)).bind (fun f => peirceRun f
    [some 1, some 2, some 3, some 2, some 1, some 50])).map (·.2) =
    some [false, false, false, false, false, true] := by decide +kernel

/-- C58.  With a weighting between 0 and 1 the value stored for an outlier lies
between the mean and the sample, so an outlier never moves the filter further
than the sample itself would. -/
theorem C58_outlier_pulled_in (win : List Rat) (weight x : Rat) (hw : 0 ≤ weight ∧ weight ≤ 1) :
    |mean win + weight * (x - mean win) - mean win| ≤ |x - mean win| ∧
    |x - (mean win + weight * (x - mean win))| ≤ |x - mean win| := by
  have e1 : mean win + weight * (x - mean win) - mean win = weight * (x - mean win) := by grind
  have e2 : x - (mean win + weight * (x - mean win)) = (1 - weight) * (x - mean win) := by grind
  rw [e1, e2, abs_mul, abs_mul, abs_of_nonneg hw.1, abs_of_nonneg (show (0 : Rat) ≤ 1 - weight by grind)]
  have := abs_nonneg (x - mean win)
  constructor
  · exact mul_le_of_le_one_left this hw.2
  · exact mul_le_of_le_one_left this (by grind)

example : (0 : Rat) ≤ 1 / 2 ∧ (1 / 2 : Rat) ≤ 1 ∧ mean [1, 2, 3] + 1 / 2 * (10 - mean [1, 2, 3]) = 6 := by decide +kernel

/-! ## C60 -/

/-- C60, full statement: the outlier threshold reported by the servo is the one
the filter applies to the next sample. -/
def C60_threshold_statement : Prop :=
  ∀ (max : Nat) (weight : Rat) (f f' : Peirce) (xs : List (Option Rat)) (rs : List Bool) (mean var c : Rat),
    Peirce.create max weight = some f → peirceRun f xs = some (f', rs) → 5 ≤ f'.num →
    f'.sd.get = some (mean, var) → criterion f'.num = some c → f'.threshold = some (c * c * var)

/-- The criterion is truncated to an integer. -/
theorem C60_threshold_violated : ¬ C60_threshold_statement := by
  intro h
  have hr : peirceRun (Peirce.reset ⟨5, 1, StdDev.init, 0, 0, List.replicate 5 0⟩)
      [some 1, some 2, some 3, some 2, some 1] = some (⟨5, 1, ⟨5, 9, 19⟩, 5, 0, [1, 2, 3, 2, 1]⟩,
        [false, false, false, false, false]) := by decide +kernel
  have := h 5 1 _ _ _ _ (9 / 5) (14 / 25) (1509276 / 1000000) (by decide +kernel) hr (by decide) (by decide +kernel)
    (by decide +kernel)
  exact absurd this (by decide +kernel)

theorem table_bounds : ∀ n ∈ peirceTable, n < 3000000 := by decide

/-- C60, what holds: the threshold reported never exceeds the one applied, and
is less than one standard deviation below it.  Missing: equality, see
`C60_threshold_violated`. -/
theorem C60_threshold_partial (max : Nat) (weight : Rat) (f f' : Peirce) (xs : List (Option Rat)) (rs : List Bool)
    (hc : Peirce.create max weight = some f) (hr : peirceRun f xs = some (f', rs)) (hn : 1 ≤ f'.num) :
    ∃ (var c : Rat) (k : Nat), f'.sd.get = some (mean (peirceSpecRun max weight [] xs).1, var) ∧ 0 ≤ var ∧
      criterion f'.num = some c ∧ f'.threshold = some ((k : Rat) * k * var) ∧ k ≤ c ∧ c < k + 1 := by
  unfold Peirce.create at hc
  split at hc
  · rename_i hp
    cases hc
    have h0 : PeirceOk max weight [] (Peirce.reset ⟨max, weight, StdDev.init, 0, 0, List.replicate max 0⟩) :=
      ⟨rfl, rfl, by simp [Peirce.reset], Nat.zero_le _, Ok.init hp.1 (by simp [Peirce.reset]), rfl, rfl, rfl⟩
    obtain ⟨f'', h1, h2⟩ := peirceRun_ok ⟨hp.1, hp.2.1⟩ xs _ _ h0
    rw [h1] at hr
    cases hr
    generalize (peirceSpecRun max weight [] xs).1 = win at *
    have hnum : f'.num = win.length := by rw [h2.ring.num_eq]; have := h2.winLe; omega
    have hne : win ≠ [] := List.length_pos_iff.1 (by omega)
    have hget := sd_get hne h2.sdNum h2.sdSum h2.sdSq
    have hl : f'.num - 1 < peirceTable.length := by
      have := h2.winLe
      simp only [peirceTable, List.length_cons, List.length_nil]; omega
    refine ⟨variance win, (peirceTable[f'.num - 1] : Nat) / 1000000, peirceTable[f'.num - 1] / 1000000, hget, ?_, ?_, ?_, ?_, ?_⟩
    · unfold variance
      apply div_nonneg
      · apply List.sum_nonneg
        intro y hy
        rw [List.mem_map] at hy
        obtain ⟨x, _, rfl⟩ := hy
        exact mul_self_nonneg _
      · exact_mod_cast Nat.zero_le _
    · unfold criterion
      rw [if_neg (by omega), List.getElem?_eq_getElem hl]; rfl
    · unfold Peirce.threshold
      rw [if_neg (by omega), hget, List.getElem?_eq_getElem hl]
    · generalize peirceTable[f'.num - 1] = n
      have h1 : n / 1000000 * 1000000 ≤ n := Nat.div_mul_le_self _ _
      have h2 : ((n / 1000000 * 1000000 : Nat) : Rat) ≤ n := by exact_mod_cast h1
      push_cast at h2
      grind
    · generalize peirceTable[f'.num - 1] = n
      have h1 : n < (n / 1000000 + 1) * 1000000 := by omega
      have h2 : (n : Rat) < ((n / 1000000 + 1) * 1000000 : Nat) := by exact_mod_cast h1
      push_cast at h2
      grind
  · cases hc

example : ((Peirce.create 5 1).bind (fun f => peirceRun f [some 1, some 2, some 3, some 2, some 1])).bind
    (fun r => r.1.threshold) = some (14 / 25) := by decide +kernel

/-! ## C13 -/

/-- Operations on a smallest filter. -/
inductive SmOp where
  | update (s : DelaySample)
  | reset
  | setTimeout (t : Int)

/-- The effect. -/
def smStep (f : Smallest) : SmOp → Option Smallest
  | .update s => (f.update s).map (·.1)
  | .reset => some f.reset
  | .setTimeout t => some (f.setTimeout t)

/-- A sequence of operations. -/
def smRun (f : Smallest) : List SmOp → Option Smallest
  | [] => some f
  | op :: ops => (smStep f op).bind (smRun · ops)

/-- Specification: the samples since the last reset. -/
def smSamples (acc : List DelaySample) : List SmOp → List DelaySample
  | [] => acc
  | .update s :: ops => smSamples (acc ++ [s]) ops
  | .reset :: ops => smSamples [] ops
  | .setTimeout _ :: ops => smSamples acc ops

/-- Specification: the timeout (s) in force. -/
def smTimeout (t : Int) : List SmOp → Int
  | [] => t
  | .setTimeout t' :: ops => smTimeout t' ops
  | _ :: ops => smTimeout t ops

/-- Specification: all samples of the operations. -/
def smAll : List SmOp → List DelaySample
  | [] => []
  | .update s :: ops => s :: smAll ops
  | _ :: ops => smAll ops

/-- Specification: the age of `s` at `now` in units of `2^-32` ns. -/
def ageOf (now s : DelaySample) : Int := val now.mono - val s.mono

/-- Specification: recent enough and with a path delay that is not negative. -/
def Eligible (now : DelaySample) (timeout : Int) (s : DelaySample) : Prop :=
  ageOf now s ≤ timeout * 1000000000 * 4294967296 ∧ 0 ≤ s.delay

/-- Specification: the delay with the penalty for age (in seconds). -/
def agedDelay (now : DelaySample) (ageing : Rat) (s : DelaySample) : Rat :=
  s.delay + ageing * (ageOf now s / (1000000000 * 4294967296))

/-- Monotonic times that can occur: normalised and not negative. -/
def MonoTime (t : Ts) : Prop := Norm t ∧ 0 ≤ t.sec ∧ t.sec < 2 ^ 62

instance (t : Ts) : Decidable (MonoTime t) := inferInstanceAs (Decidable (_ ∧ _))

theorem age_exact {now s : Ts} (h1 : MonoTime now) (h2 : MonoTime s) (hle : val s ≤ val now) :
    ∃ age, subtract now s = some age ∧ Norm age ∧ val age = val now - val s ∧ ¬ age.sec < 0 ∧ age.sec < 2 ^ 62 := by
  obtain ⟨n1, a1, b1⟩ := h1
  obtain ⟨n2, a2, b2⟩ := h2
  have e1 : InS64 (now.sec - s.sec) := by unfold InS64; omega
  have e2 : InS64 ((val now - val s) / (1000000000 * 4294967296)) := by
    unfold Norm at n1 n2; unfold InS64 val at *; omega
  obtain ⟨c, hc, hn, hv⟩ := C01_subtract_exact now s n1 n2 e1 e2
  refine ⟨c, hc, hn, hv, ?_, ?_⟩
  · unfold Norm at hn n1 n2; unfold val at *; omega
  · unfold Norm at hn n1 n2; unfold val at *; omega

theorem fresh_exact {timeout : Int} {age : Ts} (h1 : -2 ^ 62 < timeout ∧ timeout < 2 ^ 62) (hn : Norm age)
    (h0 : ¬ age.sec < 0) (hb : age.sec < 2 ^ 62) :
    isGe ⟨timeout, 0, 0⟩ age = some (decide (val age ≤ timeout * 1000000000 * 4294967296)) := by
  have nt : Norm ⟨timeout, 0, 0⟩ := by unfold Norm; simp
  have e1 : InS64 ((⟨timeout, 0, 0⟩ : Ts).sec - age.sec) := by unfold InS64; simp only; omega
  have e2 : InS64 ((val ⟨timeout, 0, 0⟩ - val age) / (1000000000 * 4294967296)) := by
    unfold Norm at hn; unfold InS64 val; simp only; omega
  rw [C02_isGe_iff_cmp _ _ nt hn e1 e2, C02_cmp_sign _ _ nt hn]
  simp only [Option.some.injEq, decide_eq_decide]
  rw [ge_iff_le, Int.sign_nonneg_iff]
  unfold val; simp only; omega

/-- What the loop finds. -/
theorem smallestLoop_spec (now : DelaySample) (timeout : Int) (ageing : Rat) (hnow : MonoTime now.mono)
    (ht : -2 ^ 62 < timeout ∧ timeout < 2 ^ 62) (l : List DelaySample)
    (hl : ∀ s ∈ l, MonoTime s.mono ∧ val s.mono ≤ val now.mono) :
    ∀ (seen : List DelaySample) (best : Option (DelaySample × Rat)),
      (match best with
       | none => ∀ s ∈ seen, ¬ Eligible now timeout s
       | some (b, v) => b ∈ seen ∧ Eligible now timeout b ∧ v = agedDelay now ageing b ∧
          ∀ s ∈ seen, Eligible now timeout s → v ≤ agedDelay now ageing s) →
      ∃ best', smallestLoop now.mono ⟨timeout, 0, 0⟩ ageing l best = some best' ∧
        (match best' with
         | none => ∀ s ∈ seen ++ l, ¬ Eligible now timeout s
         | some (b, v) => b ∈ seen ++ l ∧ Eligible now timeout b ∧ v = agedDelay now ageing b ∧
            ∀ s ∈ seen ++ l, Eligible now timeout s → v ≤ agedDelay now ageing s) := by
  induction l with
  | nil => intro seen best h; refine ⟨best, rfl, ?_⟩; rw [List.append_nil]; exact h
  | cons s l ih =>
    intro seen best h
    obtain ⟨hs1, hs2⟩ := hl s (List.mem_cons_self ..)
    obtain ⟨age, ha1, ha2, ha3, ha4, ha5⟩ := age_exact hnow hs1 hs2
    have hf := fresh_exact (timeout := timeout) ht ha2 ha4 ha5
    have haged : s.delay + ageing * floatS age = agedDelay now ageing s := by
      rw [floatS_val, ha3]; rfl
    have hel : (val age ≤ timeout * 1000000000 * 4294967296 ∧ 0 ≤ s.delay) ↔ Eligible now timeout s := by
      rw [ha3]; exact Iff.rfl
    simp only [smallestLoop, ha1, if_neg ha4, hf, haged, decide_eq_true_eq]
    rw [List.append_cons]
    apply ih (fun x hx => hl x (List.mem_cons_of_mem _ hx))
    by_cases he : Eligible now timeout s
    · obtain ⟨he1, he2⟩ := hel.2 he
      cases best with
      | none =>
        simp only [he1, he2, ge_iff_le, and_self, if_true, true_and]
        refine ⟨by simp, he, fun x hx hxe => ?_⟩
        rcases List.mem_append.1 hx with h1 | h1
        · exact absurd hxe (h x h1)
        · rw [List.mem_singleton] at h1; rw [h1]
      | some b =>
        obtain ⟨b, v⟩ := b
        simp only at h ⊢
        obtain ⟨hb1, hb2, hb3, hb4⟩ := h
        by_cases hlt : agedDelay now ageing s < v
        · simp only [he1, he2, hlt, ge_iff_le, decide_true, and_self, if_true, true_and]
          refine ⟨by simp, he, fun x hx hxe => ?_⟩
          rcases List.mem_append.1 hx with h1 | h1
          · have := hb4 x h1 hxe; grind
          · rw [List.mem_singleton] at h1; rw [h1]
        · simp only [hlt, decide_false, Bool.false_eq_true, and_false, if_false]
          refine ⟨by simp [hb1], hb2, hb3, fun x hx hxe => ?_⟩
          rcases List.mem_append.1 hx with h1 | h1
          · exact hb4 x h1 hxe
          · rw [List.mem_singleton] at h1; rw [h1]; grind
    · have hne : ¬ (val age ≤ timeout * 1000000000 * 4294967296 ∧ 0 ≤ s.delay) := fun h => he (hel.1 h)
      have hif : ∀ (P : Prop), ¬ (val age ≤ timeout * 1000000000 * 4294967296 ∧ s.delay ≥ 0 ∧ P) :=
        fun P h => hne ⟨h.1, h.2.1⟩
      rw [if_neg (hif _)]
      cases best with
      | none =>
        simp only at h ⊢
        intro x hx
        rcases List.mem_append.1 hx with h1 | h1
        · exact h x h1
        · rw [List.mem_singleton] at h1; rw [h1]; exact he
      | some b =>
        obtain ⟨b, v⟩ := b
        simp only at h ⊢
        obtain ⟨hb1, hb2, hb3, hb4⟩ := h
        refine ⟨by simp [hb1], hb2, hb3, fun x hx hxe => ?_⟩
        rcases List.mem_append.1 hx with h1 | h1
        · exact hb4 x h1 hxe
        · rw [List.mem_singleton] at h1; rw [h1] at hxe; exact absurd hxe he

/-- Invariant. -/
structure SmOk (max : Nat) (ageing : Rat) (timeout : Int) (hist : List DelaySample) (f : Smallest) : Prop where
  max_eq : f.max = max
  ageing_eq : f.ageing = ageing
  timeout_eq : f.timeout = ⟨timeout, 0, 0⟩
  ring : Ok max hist f.data f.w f.num

/-- Specification: `r` is a right answer when `now` arrives and `held` are the samples held. -/
def Answer (ageing : Rat) (timeout : Int) (held : List DelaySample) (now r : DelaySample) : Prop :=
  (r ∈ held ∧ Eligible now timeout r ∧ ∀ s ∈ held, Eligible now timeout s → agedDelay now ageing r ≤ agedDelay now ageing s) ∨
  ((∀ s ∈ held, ¬ Eligible now timeout s) ∧ r = now)

theorem SmOk.update {max ageing timeout hist f} (h : SmOk max ageing timeout hist f) (s : DelaySample)
    (ht : -2 ^ 62 < timeout ∧ timeout < 2 ^ 62)
    (hh : ∀ x ∈ hist ++ [s], MonoTime x.mono ∧ val x.mono ≤ val s.mono) :
    ∃ f' r, f.update s = some (f', r) ∧ SmOk max ageing timeout (hist ++ [s]) f' ∧
      Answer ageing timeout (lastN max (hist ++ [s])) s r := by
  obtain ⟨h1, h2, h3, h4⟩ := h
  have hp := h4.push s
  have hw := h4.w_lt
  have hlen := h4.len
  have hperm := hp.perm
  have hmem : ∀ x, x ∈ (f.data.set f.w s).take (advance max f.w f.num).2 ↔ x ∈ lastN max (hist ++ [s]) :=
    fun x => hperm.mem_iff
  have hsub : ∀ x ∈ lastN max (hist ++ [s]), x ∈ hist ++ [s] := fun x hx => by
    unfold lastN at hx; exact List.mem_of_mem_drop hx
  obtain ⟨best, hb1, hb2⟩ := smallestLoop_spec s timeout ageing (hh s (by simp)).1 ht
    ((f.data.set f.w s).take (advance max f.w f.num).2) (fun x hx => hh x (hsub x ((hmem x).1 hx))) [] none (by simp)
  rw [List.nil_append] at hb2
  unfold Smallest.update
  rw [if_neg (by omega)]
  simp only [h1, h2, h3]
  have ha : (advance max f.w f.num).2 = if f.num < max then f.num + 1 else f.num := rfl
  rw [← ha, hb1]
  cases best with
  | none =>
    refine ⟨_, s, rfl, ⟨rfl, rfl, rfl, hp⟩, Or.inr ⟨fun x hx => hb2 x ((hmem x).2 hx), rfl⟩⟩
  | some b =>
    obtain ⟨b, v⟩ := b
    simp only at hb2
    obtain ⟨c1, c2, c3, c4⟩ := hb2
    refine ⟨_, b, rfl, ⟨rfl, rfl, rfl, hp⟩, Or.inl ⟨(hmem b).1 c1, c2, fun x hx hxe => ?_⟩⟩
    rw [← c3]; exact c4 x ((hmem x).2 hx) hxe

/-- Timeouts that do not overflow (the configured range is 10 to 20 s). -/
def TimeoutsOk : List SmOp → Prop
  | [] => True
  | .setTimeout t :: ops => (-2 ^ 62 < t ∧ t < 2 ^ 62) ∧ TimeoutsOk ops
  | _ :: ops => TimeoutsOk ops

theorem smRun_ok {max : Nat} {ageing : Rat} (hmax : 0 < max) (ops : List SmOp) :
    ∀ (f : Smallest) (hist : List DelaySample) (timeout : Int), SmOk max ageing timeout hist f →
      (-2 ^ 62 < timeout ∧ timeout < 2 ^ 62) → TimeoutsOk ops →
      (∀ x ∈ hist ++ smAll ops, MonoTime x.mono) → ((hist ++ smAll ops).map (fun s => val s.mono)).Pairwise (· ≤ ·) →
      ∃ f', smRun f ops = some f' ∧ SmOk max ageing (smTimeout timeout ops) (smSamples hist ops) f' ∧
        (-2 ^ 62 < smTimeout timeout ops ∧ smTimeout timeout ops < 2 ^ 62) := by
  induction ops with
  | nil => intro f hist t h ht _ _ _; exact ⟨f, rfl, h, ht⟩
  | cons op ops ih =>
    intro f hist t h ht hto hm hmono
    cases op with
    | update s =>
      simp only [smAll] at hm hmono
      have hh : ∀ x ∈ hist ++ [s], MonoTime x.mono ∧ val x.mono ≤ val s.mono := by
        intro x hx
        refine ⟨hm x ?_, ?_⟩
        · rcases List.mem_append.1 hx with h1 | h1
          · simp [h1]
          · rw [List.mem_singleton] at h1; simp [h1]
        · rcases List.mem_append.1 hx with h1 | h1
          · rw [List.map_append, List.pairwise_append] at hmono
            exact hmono.2.2 _ (List.mem_map_of_mem h1) _ (List.mem_map_of_mem (List.mem_cons_self ..))
          · rw [List.mem_singleton] at h1; rw [h1]
      obtain ⟨f1, r, h1, h2, _⟩ := h.update s ht hh
      obtain ⟨f2, h3, h4, h5⟩ := ih f1 (hist ++ [s]) t h2 ht hto (by simpa using hm) (by simpa using hmono)
      refine ⟨f2, ?_, h4, h5⟩
      simp only [smRun, smStep, h1, Option.map_some, Option.bind_some]
      exact h3
    | reset =>
      simp only [smAll] at hm hmono
      have hr : SmOk max ageing t [] f.reset := ⟨h.max_eq, h.ageing_eq, h.timeout_eq, Ok.init hmax h.ring.len⟩
      rw [List.map_append, List.pairwise_append] at hmono
      obtain ⟨f2, h3, h4⟩ := ih f.reset [] t hr ht hto (fun x hx => hm x (by simpa using Or.inr hx)) (by simpa using hmono.2.1)
      exact ⟨f2, by simp only [smRun, smStep, Option.bind_some]; exact h3, h4⟩
    | setTimeout t' =>
      have hr : SmOk max ageing t' hist (f.setTimeout t') := ⟨h.max_eq, h.ageing_eq, rfl, h.ring⟩
      obtain ⟨f2, h3, h4⟩ := ih (f.setTimeout t') hist t' hr hto.1 hto.2 hm hmono
      exact ⟨f2, by simp only [smRun, smStep, Option.bind_some]; exact h3, h4⟩

theorem smSamples_sub (ops : List SmOp) : ∀ acc, ∀ x ∈ smSamples acc ops, x ∈ acc ++ smAll ops := by
  induction ops with
  | nil => intro acc x hx; exact List.mem_append_left _ hx
  | cons op ops ih =>
    intro acc x hx
    cases op with
    | update s => have := ih (acc ++ [s]) x hx; simpa [smAll] using this
    | reset => have := ih [] x hx; simp only [smAll]; simp at this ⊢; exact Or.inr this
    | setTimeout t => exact ih acc x hx

/-- C13.  For every size, ageing coefficient and history of samples in the order
of the monotonic clock, resets and changes of the timeout: the update is
defined, the samples held are the last `max` since the reset, and the result is
the eligible one (not older than the timeout, path delay not negative) with the
least delay plus age penalty, or the new sample itself if none is eligible. -/
theorem C13_smallest_filter (max : Nat) (hmax : 0 < max) (ageing : Rat) (timeout : Int)
    (ht : 0 < timeout ∧ timeout < 2 ^ 62) (ops : List SmOp) (hto : TimeoutsOk ops) (now : DelaySample)
    (hm : ∀ x ∈ smAll ops ++ [now], MonoTime x.mono)
    (hmono : ((smAll ops ++ [now]).map (fun s => val s.mono)).Pairwise (· ≤ ·)) :
    ∃ f0 f f' r, Smallest.create max ageing timeout = some f0 ∧ smRun f0 ops = some f ∧ f.update now = some (f', r) ∧
      Answer ageing (smTimeout timeout ops) (lastN max (smSamples [] ops ++ [now])) now r := by
  have h0 : SmOk max ageing timeout [] (Smallest.reset ⟨max, ageing, 0, 0, ⟨timeout, 0, 0⟩,
      List.replicate max ⟨⟨0, 0, 0⟩, 0, 0⟩⟩) := ⟨rfl, rfl, rfl, Ok.init hmax (by simp [Smallest.reset])⟩
  rw [List.map_append, List.pairwise_append] at hmono
  obtain ⟨f, h1, h2, h3⟩ := smRun_ok hmax ops _ [] timeout h0 ⟨by omega, ht.2⟩ hto
    (fun x hx => hm x (by simp at hx ⊢; exact Or.inl hx)) (by simpa using hmono.1)
  have hh : ∀ x ∈ smSamples [] ops ++ [now], MonoTime x.mono ∧ val x.mono ≤ val now.mono := by
    intro x hx
    rcases List.mem_append.1 hx with h4 | h4
    · have h5 := smSamples_sub ops [] x h4
      simp only [List.nil_append] at h5
      exact ⟨hm x (by simp [h5]), hmono.2.2 _ (List.mem_map_of_mem h5) _ (by simp)⟩
    · rw [List.mem_singleton] at h4; rw [h4]
      exact ⟨hm now (by simp), Int.le_refl _⟩
  obtain ⟨f', r, h4, _, h6⟩ := h2.update now h3 hh
  exact ⟨_, f, f', r, by unfold Smallest.create; rw [if_pos ⟨hmax, ht.1⟩], h1, h4, h6⟩

example :
    let ops : List SmOp := [.update ⟨⟨1, 0, 0⟩, 5, 0⟩, .setTimeout 10, .update ⟨⟨2, 0, 0⟩, 7, 1⟩, .update ⟨⟨3, 0, 0⟩, -1, 2⟩]
    (∀ x ∈ smAll ops ++ [(⟨⟨8, 0, 0⟩, 9, 3⟩ : DelaySample)], MonoTime x.mono) ∧
    ((smAll ops ++ [(⟨⟨8, 0, 0⟩, 9, 3⟩ : DelaySample)]).map (fun s => val s.mono)).Pairwise (· ≤ ·) ∧
    ((Smallest.create 3 (1/10) 20).bind (fun f => (smRun f ops).bind (fun f => (f.update ⟨⟨8, 0, 0⟩, 9, 3⟩).map (·.2.tag)))) =
      some 1 := by
  decide +kernel

end Verif.Filter
