import Verif.Phc.Spec
import Mathlib.Tactic.Linarith
import Mathlib.Tactic.Ring
import Mathlib.Tactic.NormNum
import Mathlib.Tactic.FieldSimp
import Mathlib.Tactic.Push

set_option linter.unusedSimpArgs false
set_option linter.unusedVariables false

/-!
# Properties of the comparison by samples and by pulses (C162 to C165)
-/

namespace Verif.Phc

open Verif.Time (Ts val)

/-! ## Lemmas -/

theorem ns_val (t : Ts) : ns t = (val t : Rat) / 4294967296 := by
  unfold ns val
  push_cast
  field_simp

theorem val_ofVal (v : Int) : val (ofVal v) = v := by
  unfold val ofVal
  simp only
  omega

theorem normal_ofVal (v : Int) : Normal (ofVal v) := by
  unfold Normal ofVal
  simp only
  omega

theorem val_sub (a b : Ts) : val (sub a b) = val a - val b := val_ofVal _

theorem window_val (s : Sample) : window s = ((val s.after - val s.before : Int) : Rat) / 4294967296 := by
  unfold window
  rw [ns_val, ns_val]
  push_cast
  ring

theorem window_pos (s : Sample) : 0 < window s ↔ 0 < val s.after - val s.before := by
  rw [window_val]
  constructor
  · intro h
    have h1 : (0 : Rat) < ((val s.after - val s.before : Int) : Rat) := by
      by_contra hc
      have := div_nonpos_of_nonpos_of_nonneg (not_lt.mp hc) (by norm_num : (0 : Rat) ≤ 4294967296)
      linarith
    exact_mod_cast h1
  · intro h
    have h1 : (0 : Rat) < ((val s.after - val s.before : Int) : Rat) := by exact_mod_cast h
    exact div_pos h1 (by norm_num)

theorem window_le (s t : Sample) :
    window s ≤ window t ↔ val s.after - val s.before ≤ val t.after - val t.before := by
  rw [window_val, window_val, div_le_div_iff_of_pos_right (by norm_num)]
  exact_mod_cast Iff.rfl

/-- The state of the loop after the samples `l`. -/
def Loop (l : List Sample) (d0 : Ts) (st : Bool × Option Int × Ts) : Prop :=
  (st.1 = false ∧ st.2.1 = none ∧ st.2.2 = d0 ∧ ∀ t ∈ l, ¬ 0 < window t) ∨
  (st.1 = true ∧ Normal st.2.2 ∧ ∃ s ∈ l, 0 < window s ∧ (∀ t ∈ l, 0 < window t → window s ≤ window t) ∧
    st.2.1 = some (val s.after - val s.before) ∧ ns st.2.2 = ns s.device - (ns s.before + ns s.after) / 2)

theorem update_eq (s : Sample) (smallest : Option Int) (d : Ts) :
    update (sub s.after s.before) smallest (sub s.device s.before) d =
      if 0 < val s.after - val s.before ∧ (∀ x ∈ smallest, val s.after - val s.before < x) then
        (true, some (val s.after - val s.before),
          ofVal (val s.device - val s.before - (val s.after - val s.before) / 2))
      else (false, smallest, d) := by
  unfold update
  simp only [val_sub]

theorem middle (s : Sample) (h : Whole s) :
    ns (ofVal (val s.device - val s.before - (val s.after - val s.before) / 2)) =
      ns s.device - (ns s.before + ns s.after) / 2 := by
  have he : ∃ k, val s.after - val s.before = 2 * k := by
    obtain ⟨h1, h2, h3⟩ := h
    refine ⟨((s.after.sec * 1000000000 + s.after.nsec) - (s.before.sec * 1000000000 + s.before.nsec)) * 2147483648, ?_⟩
    unfold val
    rw [h1, h3]
    ring
  obtain ⟨k, hk⟩ := he
  have hd : (val s.after - val s.before) / 2 = k := by omega
  have ha : val s.after = val s.before + 2 * k := by omega
  rw [ns_val, val_ofVal, hd, ns_val, ns_val, ns_val, ha]
  push_cast
  ring

theorem loop_step (l : List Sample) (d0 : Ts) (s : Sample) (hs : Whole s) (st : Bool × Option Int × Ts)
    (h : Loop l d0 st) :
    Loop (l ++ [s]) d0
      (let r := update (sub s.after s.before) st.2.1 (sub s.device s.before) st.2.2
       (st.1 || r.1, r.2.1, r.2.2)) := by
  simp only [update_eq]
  rcases h with ⟨h1, h2, h3, h4⟩ | ⟨h1, hnm, t, ht, h2, h3, h4, h5⟩
  · rw [h1, h2, h3]
    by_cases hp : 0 < val s.after - val s.before
    · rw [if_pos ⟨hp, by simp⟩]
      right
      refine ⟨by simp, normal_ofVal _, s, by simp, (window_pos s).mpr hp, ?_, rfl, middle s hs⟩
      intro t ht hw
      rcases List.mem_append.mp ht with ht | ht
      · exact absurd hw (h4 t ht)
      · simp only [List.mem_singleton] at ht; rw [ht]
    · rw [if_neg (by tauto)]
      left
      refine ⟨by simp, rfl, rfl, ?_⟩
      intro t ht
      rcases List.mem_append.mp ht with ht | ht
      · exact h4 t ht
      · simp only [List.mem_singleton] at ht; rw [ht, window_pos]; exact hp
  · rw [h1, h4]
    by_cases hp : 0 < val s.after - val s.before ∧ val s.after - val s.before < val t.after - val t.before
    · rw [if_pos ⟨hp.1, by simpa using hp.2⟩]
      right
      refine ⟨by simp, normal_ofVal _, s, by simp, (window_pos s).mpr hp.1, ?_, rfl, middle s hs⟩
      intro u hu hw
      rcases List.mem_append.mp hu with hu | hu
      · have a := h3 u hu hw
        have b : window s ≤ window t := (window_le s t).mpr (by omega)
        linarith
      · simp only [List.mem_singleton] at hu; rw [hu]
    · rw [if_neg (by simpa using hp)]
      right
      refine ⟨by simp, hnm, t, by simp [ht], h2, ?_, rfl, h5⟩
      intro u hu hw
      rcases List.mem_append.mp hu with hu | hu
      · exact h3 u hu hw
      · simp only [List.mem_singleton] at hu
        subst hu
        simp only [not_and, not_lt] at hp
        exact (window_le t u).mpr (hp ((window_pos u).mp hw))

theorem samples_loop (l : List Sample) : ∀ (pre : List Sample) (d0 : Ts) (st : Bool × Option Int × Ts),
    (∀ s ∈ l, Whole s) → Loop pre d0 st → Loop (pre ++ l) d0 (samples l st) := by
  induction l with
  | nil => intro pre d0 st _ h; simpa [samples] using h
  | cons s rest ih =>
    intro pre d0 st hw h
    obtain ⟨got, sm, d⟩ := st
    have := ih (pre ++ [s]) d0 _ (fun t ht => hw t (by simp [ht])) (loop_step pre d0 s (hw s (by simp)) _ h)
    simpa [samples, List.append_assoc] using this

theorem loop_init (d0 : Ts) : Loop [] d0 (false, none, d0) := Or.inl ⟨rfl, rfl, rfl, by simp⟩

theorem ofSamples_spec (w w' : World) (l : List Sample) (d0 d : Ts) (rc : Nat) (hw : ∀ s ∈ l, Whole s)
    (h : ofSamples w l d0 = (w', rc, d)) :
    (rc = 0 ∧ Best l d ∧ Normal d ∧ w' = w.set (fun p => { p with diffPrev := d })) ∨
    (rc = 11 ∧ (∀ s ∈ l, ¬ 0 < window s) ∧ d = d0 ∧ w' = w) := by
  have hl := samples_loop l [] d0 (false, none, d0) hw (loop_init d0)
  simp only [List.nil_append] at hl
  unfold ofSamples at h
  simp only at h
  rcases hl with ⟨h1, h2, h3, h4⟩ | ⟨h1, hn, s, hs, h2, h3, h4, h5⟩
  · rw [h1] at h
    simp only [Bool.false_eq_true, if_false, Prod.mk.injEq] at h
    obtain ⟨rfl, rfl, rfl⟩ := h
    exact Or.inr ⟨rfl, h4, h3, rfl⟩
  · rw [h1] at h
    simp only [if_true, Prod.mk.injEq] at h
    obtain ⟨rfl, rfl, rfl⟩ := h
    exact Or.inl ⟨rfl, ⟨s, hs, h2, h3, h5⟩, hn, rfl⟩

/-! ## C162: comparison by samples -/

/-- The samples in a list of alternating times, as in the documentation of
`PTP_SYS_OFFSET`: sample `k` is made of the times `2k`, `2k+1` and `2k+2`. -/
theorem interleaved_get : ∀ (n : Nat) (ts : List Ts), 2 * n < ts.length →
    (interleaved n ts).length = n ∧
    ∀ k (hk : k < n), (interleaved n ts)[k]? =
      (do let b ← ts[2 * k]?; let d ← ts[2 * k + 1]?; let a ← ts[2 * k + 2]?; pure ⟨b, d, a⟩) := by
  intro n
  induction n with
  | zero => intro ts _; exact ⟨rfl, fun k hk => absurd hk (by omega)⟩
  | succ n ih =>
    intro ts h
    match ts, h with
    | b :: d :: a :: rest, h =>
      simp only [List.length_cons] at h
      obtain ⟨h1, h2⟩ := ih (a :: rest) (by simp only [List.length_cons]; omega)
      refine ⟨by simp [interleaved, h1], ?_⟩
      intro k hk
      cases k with
      | zero => rfl
      | succ k =>
        simp only [interleaved, List.getElem?_cons_succ]
        rw [h2 k (by omega)]
        have e1 : 2 * (k + 1) = (2 * k) + 1 + 1 := by omega
        rw [e1]
        simp only [List.getElem?_cons_succ]
    | [], h => simp at h
    | [_], h => simp only [List.length_cons, List.length_nil] at h; omega
    | [_, _], h => simp only [List.length_cons, List.length_nil] at h; omega

/-- C162. A comparison that uses several readings of the device between
readings of the system clock succeeds exactly if one of the windows is
positive; the result is then the device minus the middle of a smallest
positive window, and it is remembered. This holds of the extended offset, of
the plain offset and, in one line, of the precise one. -/
theorem C162_smallest_window (env : Env) (w : World) (d0 : Ts) :
    (∀ l w' rc d, env.extended w.tick = .ok l → l.length = 4 → (∀ s ∈ l, Whole s) →
      compareExtended env w d0 = (w', rc, d) →
      (rc = 0 ∧ Best l d ∧ Normal d ∧ w'.phc.diffPrev = d) ∨
      (rc = 11 ∧ (∀ s ∈ l, ¬ 0 < window s) ∧ d = d0 ∧ w'.phc = w.phc)) ∧
    (∀ ts w' rc d, env.sysOffset w.tick = .ok ts → ts.length = 9 → (∀ t ∈ ts, t.frac = 0) →
      compareSysOffset env w d0 = (w', rc, d) →
      ∃ l : List Sample, l.length = 4 ∧
        (∀ k < 4, l[k]? = do let b ← ts[2 * k]?; let d ← ts[2 * k + 1]?; let a ← ts[2 * k + 2]?; pure ⟨b, d, a⟩) ∧
        ((rc = 0 ∧ Best l d ∧ Normal d ∧ w'.phc.diffPrev = d) ∨
         (rc = 11 ∧ (∀ s ∈ l, ¬ 0 < window s) ∧ d = d0 ∧ w'.phc = w.phc))) ∧
    (∀ dev sys w' rc d, env.precise w.tick = .ok (dev, sys) → comparePrecise env w d0 = (w', rc, d) →
      rc = 0 ∧ ns d = ns dev - ns sys ∧ Normal d ∧ w'.phc.diffPrev = d) := by
  refine ⟨?_, ?_, ?_⟩
  · intro l w' rc d hl hlen hw h
    unfold compareExtended at h
    rw [hl] at h
    simp only at h
    rw [List.take_of_length_le (by omega)] at h
    rcases ofSamples_spec _ _ _ _ _ _ hw h with ⟨h1, h2, h3, h4⟩ | ⟨h1, h2, h3, h4⟩
    · exact Or.inl ⟨h1, h2, h3, by rw [h4]; rfl⟩
    · exact Or.inr ⟨h1, h2, h3, by rw [h4]; rfl⟩
  · intro ts w' rc d hl hlen hw h
    unfold compareSysOffset at h
    rw [hl] at h
    simp only at h
    obtain ⟨i1, i2⟩ := interleaved_get 4 ts (by omega)
    refine ⟨interleaved 4 ts, i1, fun k hk => i2 k hk, ?_⟩
    have hwl : ∀ s ∈ interleaved 4 ts, Whole s := by
      intro s hs
      obtain ⟨k, hk, hks⟩ := List.mem_iff_getElem?.mp hs |>.imp (fun k hk => (⟨by
        have := List.getElem?_eq_some_iff.mp hk
        rw [← i1]; exact this.1, hk⟩ : k < 4 ∧ (interleaved 4 ts)[k]? = some s))
      rw [i2 k hk, List.getElem?_eq_getElem (show 2 * k < ts.length by omega),
        List.getElem?_eq_getElem (show 2 * k + 1 < ts.length by omega),
        List.getElem?_eq_getElem (show 2 * k + 2 < ts.length by omega)] at hks
      simp only [Option.bind_eq_bind, Option.bind_some, Option.pure_def, Option.some.injEq] at hks
      rw [← hks]
      exact ⟨hw _ (List.getElem_mem _), hw _ (List.getElem_mem _), hw _ (List.getElem_mem _)⟩
    rcases ofSamples_spec _ _ _ _ _ _ hwl h with ⟨h1, h2, h3, h4⟩ | ⟨h1, h2, h3, h4⟩
    · exact Or.inl ⟨h1, h2, h3, by rw [h4]; rfl⟩
    · exact Or.inr ⟨h1, h2, h3, by rw [h4]; rfl⟩
  · intro dev sys w' rc d hl h
    unfold comparePrecise at h
    rw [hl] at h
    simp only [Prod.mk.injEq] at h
    obtain ⟨rfl, rfl, rfl⟩ := h
    refine ⟨rfl, ?_, normal_ofVal _, rfl⟩
    rw [ns_val, val_sub, ns_val, ns_val]
    push_cast
    ring

/-- Readings of the three clocks, one after the other. -/
def Readings (env : Env) (tick : Nat) : Nat → List Sample → Prop
  | 0, l => l = []
  | n + 1, l => ∃ s rest, l = s :: rest ∧ env.real tick = .ok s.before ∧ env.device (tick + 1) = .ok s.device ∧
      env.real (tick + 2) = .ok s.after ∧ Readings env (tick + 3) n rest

theorem readLoop_samples (env : Env) : ∀ (n : Nat) (w : World) (l : List Sample) (st : Bool × Option Int × Ts),
    Readings env w.tick n l →
    readLoop env n w st = ({ w with tick := w.tick + 3 * n }, none, samples l st) := by
  intro n
  induction n with
  | zero => intro w l st h; simp only [Readings] at h; subst h; rfl
  | succ n ih =>
    rintro w l ⟨got, sm, d⟩ ⟨s, rest, rfl, h1, h2, h3, h4⟩
    simp only [readLoop, h1, h2, h3]
    rw [ih w.next.next.next rest _ (by simpa [World.next, Nat.add_assoc] using h4)]
    simp only [World.next, samples]
    rw [show w.tick + 1 + 1 + 1 + 3 * n = w.tick + 3 * (n + 1) by omega]

/-- A comparison by reading the clocks that succeeds has read them `n` times. -/
theorem readLoop_none (env : Env) : ∀ (n : Nat) (w w' : World) (st st' : Bool × Option Int × Ts),
    readLoop env n w st = (w', none, st') → ∃ l, Readings env w.tick n l := by
  intro n
  induction n with
  | zero => intro w w' st st' _; exact ⟨[], rfl⟩
  | succ n ih =>
    rintro w w' ⟨got, sm, d⟩ st' h
    simp only [readLoop] at h
    split at h
    · simp at h
    · rename_i b hb
      split at h
      · simp at h
      · rename_i dv hd
        split at h
        · simp at h
        · rename_i a ha
          obtain ⟨l, hl⟩ := ih _ _ _ _ h
          exact ⟨⟨b, dv, a⟩ :: l, _, l, rfl, hb, hd, ha, by simpa [World.next, Nat.add_assoc] using hl⟩

/-- C162, for the comparison by reading the clocks from user space: success means
that all readings succeeded and one window was positive, `EAGAIN` that none
was; a reading that fails gives its own error. -/
theorem C162_read_time (env : Env) (w w' : World) (n rc : Nat) (d0 d : Ts)
    (hf : ∀ t e, (env.real t = .error e ∨ env.device t = .error e) → e ≠ 0 ∧ e ≠ 11)
    (hz : ∀ t x, (env.real t = .ok x ∨ env.device t = .ok x) → x.frac = 0)
    (h : readTime env w n d0 = (w', rc, d)) :
    (rc = 0 → ∃ l, Readings env w.tick n l ∧ l.length = n ∧ Best l d ∧ Normal d ∧
      w' = { w with tick := w.tick + 3 * n, phc := { w.phc with diffPrev := d } }) ∧
    (rc = 11 → ∃ l, Readings env w.tick n l ∧ (∀ s ∈ l, ¬ 0 < window s) ∧ d = d0 ∧
      w' = { w with tick := w.tick + 3 * n }) ∧
    (∀ l, Readings env w.tick n l → rc = 0 ∨ rc = 11) ∧ w'.phc = { w.phc with diffPrev := w'.phc.diffPrev } := by
  have hwhole : ∀ (n t : Nat) (l : List Sample), Readings env t n l → l.length = n ∧ ∀ s ∈ l, Whole s := by
    intro n
    induction n with
    | zero => intro t l hl; simp only [Readings] at hl; subst hl; simp
    | succ n ih =>
      rintro t l ⟨s, rest, rfl, h1, h2, h3, h4⟩
      obtain ⟨i1, i2⟩ := ih _ _ h4
      refine ⟨by simp [i1], ?_⟩
      intro u hu
      rcases List.mem_cons.mp hu with rfl | hu
      · exact ⟨hz _ _ (Or.inl h1), hz _ _ (Or.inr h2), hz _ _ (Or.inl h3)⟩
      · exact i2 u hu
  have herr : ∀ (n : Nat) (w w' : World) st st' e, readLoop env n w st = (w', some e, st') →
      (e ≠ 0 ∧ e ≠ 11) ∧ w'.phc = w.phc ∧ ∀ l, ¬ Readings env w.tick n l := by
    intro n
    induction n with
    | zero => intro w w' st st' e h; simp [readLoop] at h
    | succ n ih =>
      rintro w w' ⟨got, sm, dd⟩ st' e h
      simp only [readLoop] at h
      split at h
      · rename_i e' he
        simp only [Prod.mk.injEq, Option.some.injEq] at h
        obtain ⟨rfl, rfl, rfl⟩ := h
        refine ⟨hf _ _ (Or.inl he), rfl, ?_⟩
        rintro l ⟨s, rest, rfl, h1, _⟩
        rw [h1] at he; cases he
      · split at h
        · rename_i e' he
          simp only [Prod.mk.injEq, Option.some.injEq] at h
          obtain ⟨rfl, rfl, rfl⟩ := h
          refine ⟨hf _ _ (Or.inr he), rfl, ?_⟩
          rintro l ⟨s, rest, rfl, _, h1, _⟩
          rw [h1] at he; cases he
        · split at h
          · rename_i e' he
            simp only [Prod.mk.injEq, Option.some.injEq] at h
            obtain ⟨rfl, rfl, rfl⟩ := h
            refine ⟨hf _ _ (Or.inl he), rfl, ?_⟩
            rintro l ⟨s, rest, rfl, _, _, h1, _⟩
            rw [h1] at he; cases he
          · obtain ⟨i1, i2, i3⟩ := ih _ _ _ _ _ h
            refine ⟨i1, i2, ?_⟩
            rintro l ⟨s, rest, rfl, _, _, _, h4⟩
            exact i3 rest (by simpa [World.next, Nat.add_assoc] using h4)
  unfold readTime at h
  simp only at h
  split at h
  · rename_i e he
    simp only [Prod.mk.injEq] at h
    obtain ⟨rfl, rfl, rfl⟩ := h
    obtain ⟨a, b, c⟩ := herr n w _ _ _ e (by rw [← he])
    exact ⟨fun h0 => absurd h0 a.1, fun h0 => absurd h0 a.2, fun l hl => absurd hl (c l), by rw [b]⟩
  · rename_i he
    obtain ⟨l, hl⟩ := readLoop_none env n w _ _ _ (by rw [← he])
    obtain ⟨hlen, hw⟩ := hwhole n _ l hl
    rw [readLoop_samples env n w l _ hl] at h
    simp only at h
    have hlp := samples_loop l [] d0 (false, none, d0) hw (loop_init d0)
    simp only [List.nil_append] at hlp
    rcases hlp with ⟨h1, h2, h3, h4⟩ | ⟨h1, hn, s, hs, h2, h3, h4, h5⟩
    · rw [h1] at h
      simp only [Bool.false_eq_true, if_false, Prod.mk.injEq] at h
      obtain ⟨rfl, rfl, rfl⟩ := h
      exact ⟨by simp [EAGAIN], fun _ => ⟨l, hl, h4, h3, rfl⟩, fun _ _ => Or.inr rfl, rfl⟩
    · rw [h1] at h
      simp only [if_true, Prod.mk.injEq] at h
      obtain ⟨rfl, rfl, rfl⟩ := h
      exact ⟨fun _ => ⟨l, hl, hlen, ⟨s, hs, h2, h3, h5⟩, hn, rfl⟩, by simp, fun _ _ => Or.inl rfl, rfl⟩

/-! ## C163: accuracy -/

/-- C163. If in every sample the device is `δ` ahead of the system clock at a
moment between the two readings, a result made of the smallest window is wrong
by at most half of any positive window. -/
theorem C163_accuracy (l : List Sample) (d : Ts) (δ : Rat) (h : Best l d) (ha : ∀ s ∈ l, Ahead δ s) :
    ∀ t ∈ l, 0 < window t → |ns d - δ| ≤ window t / 2 := by
  intro t ht hp
  obtain ⟨s, hs, h1, h2, h3⟩ := h
  obtain ⟨a1, a2⟩ := ha s hs
  have hle := h2 t ht hp
  have : |ns d - δ| ≤ window s / 2 := by
    rw [h3, abs_le]
    unfold window at *
    constructor <;> linarith
  linarith

/-- Two samples: a window of 400 ns and one of 100 ns, with a device 2000 ns
ahead. -/
def twoSamples : List Sample :=
  [⟨⟨5, 1000, 0⟩, ⟨5, 3050, 0⟩, ⟨5, 1400, 0⟩⟩, ⟨⟨5, 1400, 0⟩, ⟨5, 3420, 0⟩, ⟨5, 1500, 0⟩⟩]

example : (∀ s ∈ twoSamples, Whole s) ∧ (samples twoSamples (false, none, ⟨0, 0, 0⟩)).1 = true ∧
    (samples twoSamples (false, none, ⟨0, 0, 0⟩)).2.2 = ⟨0, 1970, 0⟩ := by decide +kernel

example : Best twoSamples ⟨0, 1970, 0⟩ ∧ ∀ s ∈ twoSamples, Ahead 2000 s := by
  constructor
  · exact ⟨⟨⟨5, 1400, 0⟩, ⟨5, 3420, 0⟩, ⟨5, 1500, 0⟩⟩, by simp [twoSamples], by decide +kernel, by decide +kernel,
      by decide +kernel⟩
  · intro s hs
    simp only [twoSamples, List.mem_cons, List.not_mem_nil, or_false] at hs
    rcases hs with rfl | rfl <;> exact ⟨by decide +kernel, by decide +kernel⟩

/-! ## C164 and C165: comparison by pulses -/

/-- C164, as one would expect it: the result agrees with the pulse to the
nanosecond and is the one nearest to the rough comparison. -/
def C164_statement : Prop :=
  ∀ (approx : Ts) (n : Int), Normal approx → 0 ≤ n → n < 1000000000 →
    (∃ k : Int, ns (ppsDiff approx n) = k * 1000000000 - n) ∧
    |ns (ppsDiff approx n) - ns approx| ≤ 500000000

/-- C164 fails: near half a second the result is wrong by a whole second. The
rough comparison says 0.5 s, the pulse 0.499999999 s modulo one second; the
result is 1.499999999 s. -/
theorem C164_violated : ¬ C164_statement := by
  intro h
  have := (h ⟨0, 500000000, 0⟩ 500000001 (by decide) (by decide) (by decide)).2
  revert this
  decide +kernel

theorem ppsDiff_ns (approx : Ts) (n : Int) (hn : 0 ≤ n) (hn' : n < 1000000000) :
    ns (ppsDiff approx n) =
      (((if approx.nsec ≥ 500000000 then approx.sec + 1 else approx.sec) -
        (if n ≤ 500000000 then 1 else 0) + 1) * 1000000000 - n : Int) := by
  unfold ns ppsDiff
  simp only
  split <;> split <;> (try split) <;> first | omega | (push_cast; ring)

/-- What holds of C164: the result always agrees with the pulse modulo one
second and is within one second of the rough comparison; where the true
difference `δ` (which agrees with the pulse) is farther from half a second than
the rough comparison is wrong, the result is exactly `δ`. -/
theorem C164_pps_diff_partial (approx : Ts) (n : Int) (ha : Normal approx) (hn : 0 ≤ n) (hn' : n < 1000000000) :
    (∃ k : Int, ns (ppsDiff approx n) = k * 1000000000 - n) ∧
    |ns (ppsDiff approx n) - ns approx| < 1000000000 ∧
    (∀ (k : Int) (ε : Rat), |ns approx - (k * 1000000000 - n)| ≤ ε →
      ε < |(n : Rat) - 500000000| → ns (ppsDiff approx n) = k * 1000000000 - n) := by
  rw [ppsDiff_ns approx n hn hn']
  obtain ⟨a1, a2, a3, a4⟩ := ha
  have f0 : (0 : Rat) ≤ (approx.frac : Rat) / 4294967296 := by
    have : (0 : Rat) ≤ (approx.frac : Rat) := by exact_mod_cast a3
    exact div_nonneg this (by norm_num)
  have f1 : (approx.frac : Rat) / 4294967296 < 1 := by
    have : (approx.frac : Rat) < 4294967296 := by exact_mod_cast a4
    linarith
  have g0 : (0 : Rat) ≤ approx.nsec := by exact_mod_cast a1
  have g1 : (approx.nsec : Rat) + 1 ≤ 1000000000 := by exact_mod_cast a2
  have n0 : (0 : Rat) ≤ n := by exact_mod_cast hn
  have n1 : (n : Rat) + 1 ≤ 1000000000 := by exact_mod_cast hn'
  refine ⟨⟨(if approx.nsec ≥ 500000000 then approx.sec + 1 else approx.sec) -
        (if n ≤ 500000000 then 1 else 0) + 1, by push_cast; ring⟩, ?_, ?_⟩
  · unfold ns
    rw [abs_lt]
    by_cases h1 : approx.nsec ≥ 500000000 <;> by_cases h2 : n ≤ 500000000
    all_goals
      first
      | rw [if_pos h1]
      | rw [if_neg h1]
      first
      | rw [if_pos h2]
      | rw [if_neg h2]
      push_cast
    · have b1 : (500000000 : Rat) ≤ approx.nsec := by exact_mod_cast h1
      have b2 : (n : Rat) ≤ 500000000 := by exact_mod_cast h2
      constructor <;> linarith
    · have b1 : (500000000 : Rat) ≤ approx.nsec := by exact_mod_cast h1
      have b2 : (500000000 : Rat) + 1 ≤ n := by exact_mod_cast (by omega : 500000000 + 1 ≤ n)
      constructor <;> linarith
    · have b1 : (approx.nsec : Rat) + 1 ≤ 500000000 := by exact_mod_cast (by omega : approx.nsec + 1 ≤ 500000000)
      have b2 : (n : Rat) ≤ 500000000 := by exact_mod_cast h2
      constructor <;> linarith
    · have b1 : (approx.nsec : Rat) + 1 ≤ 500000000 := by exact_mod_cast (by omega : approx.nsec + 1 ≤ 500000000)
      have b2 : (500000000 : Rat) + 1 ≤ n := by exact_mod_cast (by omega : 500000000 + 1 ≤ n)
      constructor <;> linarith
  · intro k ε he hε
    rw [abs_le] at he
    unfold ns at he
    push_cast at he
    have key : (if approx.nsec ≥ 500000000 then approx.sec + 1 else approx.sec) -
        (if n ≤ 500000000 then 1 else 0) + 1 = k := by
      have toInt : ∀ (a b : Int), (a : Rat) * 1000000000 < b * 1000000000 + 1000000000 →
          (b : Rat) * 1000000000 < a * 1000000000 + 1000000000 → a = b := by
        intro a b h1 h2
        have h1' : a < b + 1 := by
          have : (a : Rat) < b + 1 := by linarith
          exact_mod_cast this
        have h2' : b < a + 1 := by
          have : (b : Rat) < a + 1 := by linarith
          exact_mod_cast this
        omega
      by_cases h1 : approx.nsec ≥ 500000000 <;> by_cases h2 : n ≤ 500000000
      all_goals
        first
        | rw [if_pos h1]
        | rw [if_neg h1]
        first
        | rw [if_pos h2]
        | rw [if_neg h2]
        apply toInt
      all_goals
        push_cast
      · have b1 : (500000000 : Rat) ≤ approx.nsec := by exact_mod_cast h1
        have b2 : (n : Rat) ≤ 500000000 := by exact_mod_cast h2
        rw [abs_of_nonpos (by linarith)] at hε
        linarith
      · have b1 : (500000000 : Rat) ≤ approx.nsec := by exact_mod_cast h1
        have b2 : (n : Rat) ≤ 500000000 := by exact_mod_cast h2
        rw [abs_of_nonpos (by linarith)] at hε
        linarith
      · have b1 : (500000000 : Rat) ≤ approx.nsec := by exact_mod_cast h1
        have b2 : (500000000 : Rat) + 1 ≤ n := by exact_mod_cast (by omega : 500000000 + 1 ≤ n)
        rw [abs_of_nonneg (by linarith)] at hε
        linarith
      · have b1 : (500000000 : Rat) ≤ approx.nsec := by exact_mod_cast h1
        have b2 : (500000000 : Rat) + 1 ≤ n := by exact_mod_cast (by omega : 500000000 + 1 ≤ n)
        rw [abs_of_nonneg (by linarith)] at hε
        linarith
      · have b1 : (approx.nsec : Rat) + 1 ≤ 500000000 := by exact_mod_cast (by omega : approx.nsec + 1 ≤ 500000000)
        have b2 : (n : Rat) ≤ 500000000 := by exact_mod_cast h2
        rw [abs_of_nonpos (by linarith)] at hε
        linarith
      · have b1 : (approx.nsec : Rat) + 1 ≤ 500000000 := by exact_mod_cast (by omega : approx.nsec + 1 ≤ 500000000)
        have b2 : (n : Rat) ≤ 500000000 := by exact_mod_cast h2
        rw [abs_of_nonpos (by linarith)] at hε
        linarith
      · have b1 : (approx.nsec : Rat) + 1 ≤ 500000000 := by exact_mod_cast (by omega : approx.nsec + 1 ≤ 500000000)
        have b2 : (500000000 : Rat) + 1 ≤ n := by exact_mod_cast (by omega : 500000000 + 1 ≤ n)
        rw [abs_of_nonneg (by linarith)] at hε
        linarith
      · have b1 : (approx.nsec : Rat) + 1 ≤ 500000000 := by exact_mod_cast (by omega : approx.nsec + 1 ≤ 500000000)
        have b2 : (500000000 : Rat) + 1 ≤ n := by exact_mod_cast (by omega : 500000000 + 1 ≤ n)
        rw [abs_of_nonneg (by linarith)] at hε
        linarith
    rw [key]
    push_cast
    ring

/-- A device three seconds and 200 ms ahead, seen by the rough comparison with an error of 10 us. -/
example : ns (ppsDiff ⟨3, 200010000, 0⟩ 800000000) = 3200000000 := by decide +kernel

/-- C165, as one would expect it: the difference has its parts in their ranges. -/
def C165_statement : Prop :=
  ∀ (approx : Ts) (n : Int), Normal approx → 0 ≤ n → n < 1000000000 → Normal (ppsDiff approx n)

/-- C165 fails for a pulse exactly at the second of the system clock: a billion
nanoseconds. -/
theorem C165_violated : ¬ C165_statement := by
  intro h
  have := h ⟨0, 0, 0⟩ 0 (by decide) (by decide) (by decide)
  revert this
  decide

/-- What holds of C165: for any other pulse. -/
theorem C165_normal_partial (approx : Ts) (n : Int) (hn : 0 < n) (hn' : n < 1000000000) :
    Normal (ppsDiff approx n) := by
  unfold Normal ppsDiff
  simp only
  omega

example : ppsDiff ⟨0, 999999990, 0⟩ 7 = ⟨0, 999999993, 0⟩ := by decide

end Verif.Phc
