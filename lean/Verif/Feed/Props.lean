import Verif.Feed.Support

set_option linter.unusedSimpArgs false
set_option linter.unusedVariables false

/-!
# Properties of the clock feed (C25, C26)
-/

namespace Verif.Feed

/-! ## C25: freshness of comparisons -/

theorem past_error {α σ : Type} {b : Bool} {e : Int} {x z : σ} {y : Except Int α × σ} {f : α}
    (h : (if b = true then (.error e, x) else y) = (.ok f, z)) : y = (.ok f, z) := by
  cases b <;> simp_all

theorem success_cond {shm shmA shmB shmC : Shm} {now : Option Int} {s s' : Sub} {f : Found}
    (h : compareToSys shm shmA shmB shmC now s = (.ok f, s')) :
    shm.sourceInactive = false ∧ shm.clockActive = true ∧ shm.writeCounter ≠ 0 ∧
    (shmA.samples ((shm.writeCounter - 1) % maxSamples)).rc = 0 ∧
    f.diff = (shmA.samples ((shm.writeCounter - 1) % maxSamples)).snapshot - (shmA.samples ((shm.writeCounter - 1) % maxSamples)).system ∧
    shmB.writeCounter < shm.writeCounter + 15 ∧ s.minCounter ≤ shm.writeCounter ∧
    f.t1 = (shmC.samples ((shm.writeCounter - 1) % maxSamples)).snapshot ∧
    f.t2 = (shmC.samples ((shm.writeCounter - 1) % maxSamples)).system ∧
    f.mono = (shmC.samples ((shm.writeCounter - 1) % maxSamples)).mono ∧
    (∀ a n, s.maxAge = some a → now = some n → n - f.mono ≤ a) ∧
    s' = { s with readCounter := shm.writeCounter } := by
  simp only [compareToSys] at h
  by_cases h1 : shm.sourceInactive = true
  · rw [if_pos h1] at h; simp at h
  rw [if_neg h1] at h
  by_cases h2 : shm.clockActive = false
  · rw [if_pos h2] at h; simp at h
  rw [if_neg h2] at h
  by_cases h3 : shm.writeCounter = 0
  · rw [if_pos h3] at h; simp at h
  rw [if_neg h3] at h
  by_cases h4 : (shmA.samples ((shm.writeCounter - 1) % maxSamples)).rc ≠ 0
  · rw [if_pos h4] at h; simp at h
  rw [if_neg h4] at h
  by_cases h5 : shmB.writeCounter ≥ shm.writeCounter + maxSamples - 1
  · rw [if_pos h5] at h; simp at h
  rw [if_neg h5] at h
  by_cases h6 : (shm.writeCounter : Int) < s.minCounter
  · rw [if_pos h6] at h; simp at h
  rw [if_neg h6] at h
  have h7 : ∀ a n, s.maxAge = some a → now = some n → ¬ (n - (shmC.samples ((shm.writeCounter - 1) % maxSamples)).mono > a) := by
    intro a n ha hn hc
    simp only [ha, hn, hc, decide_true, if_true] at h
    simp at h
  replace h := past_error h
  by_cases h8 : (shmC.samples ((shm.writeCounter - 1) % maxSamples)).rc = 0
  · rw [if_pos h8] at h
    simp only [Prod.mk.injEq, Except.ok.injEq] at h
    obtain ⟨rfl, rfl⟩ := h
    refine ⟨by simpa using h1, by simpa using h2, h3, by simpa using h4, rfl, by simp only [maxSamples] at h5; omega, by omega, rfl, rfl, rfl, ?_, rfl⟩
    intro a n ha hn
    have := h7 a n ha hn
    simp only; omega
  · rw [if_neg h8] at h; simp at h

/-- The claim that a successful comparison, with any samplings going on between
its steps, uses one sample: the last one taken when it began. -/
def C25_one_sample_statement : Prop :=
  ∀ (l1 l2 l3 l4 : List Tick) (shmA shmB shmC : Shm) (now : Option Int) (s s' : Sub) (f : Found),
    Seen (after (l1 ++ l2)) shmA → Seen (after (l1 ++ l2 ++ l3)) shmB → Seen (after (l1 ++ l2 ++ l3 ++ l4)) shmC →
    compareToSys (after l1) shmA shmB shmC now s = (.ok f, s') →
    ∃ t, l1.getLast? = some t ∧ t.rc = 0 ∧ f.diff = t.diff ∧ f.t1 = t.system + t.diff ∧ f.t2 = t.system ∧ f.mono = t.mono

/-- The difference found is that of the last sample taken before the comparison
began, and that sample was good, whatever is sampled meanwhile; the times found
are those of the sample if fewer than fifteen samplings happened in all (missing
from the full statement: nothing guards the reads after the second look at the
counter). -/
theorem C25_one_sample_partial (l1 l2 l3 l4 : List Tick) (shmA shmB shmC : Shm) (now : Option Int) (s s' : Sub) (f : Found)
    (hA : Seen (after (l1 ++ l2)) shmA) (hB : Seen (after (l1 ++ l2 ++ l3)) shmB)
    (hC : Seen (after (l1 ++ l2 ++ l3 ++ l4)) shmC)
    (h : compareToSys (after l1) shmA shmB shmC now s = (.ok f, s')) :
    ∃ t, l1.getLast? = some t ∧ t.rc = 0 ∧ f.diff = t.diff ∧
      (l2.length + l3.length + l4.length < 15 → f.t1 = t.system + t.diff ∧ f.t2 = t.system ∧ f.mono = t.mono) := by
  obtain ⟨-, -, c3, c4, c5, c6, -, c8, c9, c10, -, -⟩ := success_cond h
  rw [after_counter] at c3 c4 c5 c6 c8 c9 c10
  simp only [maxSamples] at c4 c5 c8 c9 c10
  have hB1 := hB.1
  rw [after_counter] at hB1
  simp only [List.length_append] at hB1
  have key : ∀ (l : List Tick) (v : Shm), Seen (after (l1 ++ l)) v → l.length < 15 →
      v.samples ((l1.length - 1) % 16) = sampleOf (l1.length - 1) (l1[l1.length - 1]'(by omega)) := by
    intro l v hv hl
    have hvs := hv.2.2.2
    rw [after_counter] at hvs
    simp only [List.length_append] at hvs
    rw [hvs _ (by omega), after_samples (l1 ++ l) (l1.length - 1) (by simp; omega) (by simp; omega)]
    congr 1
    rw [List.getElem_append_left (by omega)]
  have hl : l1.getLast? = some (l1[l1.length - 1]'(by omega)) := by
    rw [List.getLast?_eq_getElem?, List.getElem?_eq_getElem (by omega)]
  have kA := key l2 shmA hA (by omega)
  rw [kA] at c4 c5
  simp only [sampleOf] at c4 c5
  refine ⟨_, hl, c4, ?_, ?_⟩
  · rw [c5, if_pos c4]; omega
  · intro hlen
    have kC := key (l2 ++ (l3 ++ l4)) shmC (by simpa [List.append_assoc] using hC) (by simp; omega)
    rw [kC] at c8 c9 c10
    simp only [sampleOf, if_pos c4] at c8 c9 c10
    exact ⟨c8, c9, c10⟩

/-- Sixteen samplings after the second look at the counter: the times found are of
another sample than the difference. -/
theorem C25_one_sample_violated : ¬ C25_one_sample_statement := by
  intro h
  have hs : ∀ l, Seen (after l) (after l) := fun l => ⟨rfl, rfl, rfl, fun _ _ => rfl⟩
  obtain ⟨t, h1, h2, h3, h4, h5, h6⟩ := h [⟨0, 5, 100, 1000⟩] [] [] (List.replicate 16 ⟨0, 7, 200, 2000⟩)
    (after [⟨0, 5, 100, 1000⟩]) (after [⟨0, 5, 100, 1000⟩]) (after (⟨0, 5, 100, 1000⟩ :: List.replicate 16 ⟨0, 7, 200, 2000⟩))
    none newSub ⟨1, -1, none, none⟩ ⟨5, 2007, 2000, 200⟩ (hs _) (hs _) (hs _) (by decide)
  simp only [List.getLast?_singleton, Option.some.injEq] at h1
  subst h1
  revert h6
  decide

/-- A comparison that succeeds used a sample not older than the subscriber's
limit. -/
theorem C25_max_age (shm shmA shmB shmC : Shm) (n a : Int) (s s' : Sub) (f : Found) (ha : s.maxAge = some a)
    (h : compareToSys shm shmA shmB shmC (some n) s = (.ok f, s')) : n - f.mono ≤ a :=
  (success_cond h).2.2.2.2.2.2.2.2.2.2.1 a n ha rfl

/-- A removed source, an inactive clock and a feed without samples are reported. -/
theorem C25_nothing_invented (shm shmA shmB shmC : Shm) (now : Option Int) (s : Sub)
    (h : shm.sourceInactive = true ∨ shm.clockActive = false ∨ shm.writeCounter = 0) :
    ∃ e, e ≠ 0 ∧ compareToSys shm shmA shmB shmC now s = (.error e, s) := by
  simp only [compareToSys]
  by_cases h1 : shm.sourceInactive = true
  · exact ⟨130, by decide, by simp [h1]⟩
  · by_cases h2 : shm.clockActive = false
    · exact ⟨2, by decide, by simp [h1, h2]⟩
    · have h3 : shm.writeCounter = 0 := by
        rcases h with h | h | h
        · exact absurd h h1
        · exact absurd h h2
        · exact h
      exact ⟨11, by decide, by simp [h1, h2, h3]⟩

/-- What happens to a feed and one of its subscriptions. -/
inductive Ev where
  | tick (t : Tick)
  | read (now : Option Int)
  | fresh
  | maxAge (a : Int)
  | maxAgeDiff (a : Int)

/-- Feed, subscription, the number of samples there were at the last successful
read, and that at the last freshness demand, as the user sees them. -/
structure Hist where
  ticks : List Tick
  sub : Sub
  lastRead : Option Nat
  demand : Option Nat
  ageLimit : Option Int
  ageDiffLimit : Option Int

/-- Whether a result is a success. -/
def isOk : Except Int Found → Bool
  | .ok _ => true
  | .error _ => false

/-- One event. -/
def Hist.step (h : Hist) : Ev → Hist
  | .tick t => { h with ticks := h.ticks ++ [t] }
  | .read now =>
    let r := compareToSys (after h.ticks) (after h.ticks) (after h.ticks) (after h.ticks) now h.sub
    { h with sub := r.2, lastRead := if isOk r.1 then some h.ticks.length else h.lastRead }
  | .fresh => { h with sub := requireFresh h.sub, demand := h.lastRead }
  | .maxAge a => { h with sub := setMaxAge h.sub a, ageLimit := some a }
  | .maxAgeDiff a => { h with sub := setMaxAgeDiff h.sub a, ageDiffLimit := some a }

/-- A history from a new feed and subscription. -/
def Hist.run (es : List Ev) : Hist := es.foldl Hist.step ⟨[], newSub, none, none, none, none⟩

theorem compareToSys_sub (shm shmA shmB shmC : Shm) (now : Option Int) (s : Sub) :
    (compareToSys shm shmA shmB shmC now s).2 =
      if isOk (compareToSys shm shmA shmB shmC now s).1 then { s with readCounter := shm.writeCounter } else s := by
  cases h : compareToSys shm shmA shmB shmC now s with
  | mk r s' =>
    cases r with
    | ok f => have := success_cond h; simp only [isOk, if_true]; exact this.2.2.2.2.2.2.2.2.2.2.2
    | error e =>
      simp only [isOk, Bool.false_eq_true, if_false]
      simp only [compareToSys] at h
      generalize (match s.maxAge, now with
          | some limit, some now => decide (now - (shmC.samples ((shm.writeCounter - 1) % maxSamples)).mono > limit)
          | _, _ => false) = b at h
      repeat' split at h
      all_goals simp_all

theorem hist_inv (es : List Ev) :
    (∀ d, (Hist.run es).demand = some d → (Hist.run es).sub.minCounter = d + 1) ∧
    (Hist.run es).sub.readCounter = (match (Hist.run es).lastRead with | some n => (n : Int) | none => -1) := by
  induction es using List.reverseRecOn with
  | nil => simp [Hist.run, newSub]
  | append_singleton es e ih =>
    have hr : Hist.run (es ++ [e]) = (Hist.run es).step e := by simp [Hist.run, List.foldl_append]
    rw [hr]
    obtain ⟨i1, i2⟩ := ih
    cases e with
    | tick t => exact ⟨i1, i2⟩
    | read now =>
      simp only [Hist.step, compareToSys_sub]
      split
      · refine ⟨i1, ?_⟩
        simp [after_counter]
      · exact ⟨i1, i2⟩
    | fresh =>
      simp only [Hist.step, requireFresh]
      refine ⟨?_, i2⟩
      intro d hd
      rw [i2, hd]
    | maxAge a => exact ⟨i1, i2⟩
    | maxAgeDiff a => exact ⟨i1, i2⟩

/-- After any history, a read that succeeds uses a sample taken after the one used
by the last successful read before the last freshness demand. -/
theorem C25_fresh (es : List Ev) (now : Option Int) (d : Nat) (hd : (Hist.run es).demand = some d)
    (f : Found) (s' : Sub)
    (h : compareToSys (after (Hist.run es).ticks) (after (Hist.run es).ticks) (after (Hist.run es).ticks)
      (after (Hist.run es).ticks) now (Hist.run es).sub = (.ok f, s')) :
    d < (Hist.run es).ticks.length := by
  have h1 := (hist_inv es).1 d hd
  have h2 := (success_cond h).2.2.2.2.2.2.1
  rw [after_counter] at h2
  omega

theorem hist_limits (es : List Ev) :
    (Hist.run es).sub.maxAge = (Hist.run es).ageLimit ∧ (Hist.run es).sub.maxAgeDiff = (Hist.run es).ageDiffLimit := by
  induction es using List.reverseRecOn with
  | nil => simp [Hist.run, newSub]
  | append_singleton es e ih =>
    have hr : Hist.run (es ++ [e]) = (Hist.run es).step e := by simp [Hist.run, List.foldl_append]
    rw [hr]
    obtain ⟨i1, i2⟩ := ih
    cases e with
    | tick t => exact ⟨i1, i2⟩
    | read now =>
      simp only [Hist.step, compareToSys_sub]
      split
      · exact ⟨i1, i2⟩
      · exact ⟨i1, i2⟩
    | fresh => exact ⟨i1, i2⟩
    | maxAge a => exact ⟨rfl, i2⟩
    | maxAgeDiff a => exact ⟨i1, rfl⟩

/-- After any history, a read that succeeds uses the last sample, which is no older
than the limit last set. -/
theorem C25_age_in_history (es : List Ev) (n : Int) (a : Int) (ha : (Hist.run es).ageLimit = some a)
    (f : Found) (s' : Sub)
    (h : compareToSys (after (Hist.run es).ticks) (after (Hist.run es).ticks) (after (Hist.run es).ticks)
      (after (Hist.run es).ticks) (some n) (Hist.run es).sub = (.ok f, s')) :
    ∃ t, (Hist.run es).ticks.getLast? = some t ∧ f.diff = t.diff ∧ n - t.mono ≤ a := by
  have hs : ∀ l, Seen (after l) (after l) := fun l => ⟨rfl, rfl, rfl, fun _ _ => rfl⟩
  obtain ⟨t, h1, h2, h3, h4⟩ := C25_one_sample_partial (Hist.run es).ticks [] [] [] _ _ _ (some n) _ s' f
    (by simpa using hs _) (by simpa using hs _) (by simpa using hs _) h
  refine ⟨t, h1, h3, ?_⟩
  rw [← (h4 (by simp)).2.2]
  exact C25_max_age _ _ _ _ n a _ s' f (by rw [(hist_limits es).1, ha]) h

/-- The claim about the difference in age of the two samples compared. -/
def C25_age_diff_statement : Prop :=
  ∀ (v1 v2 : View) (mono0 now1 now2 : Option Int) (c : Compared) (s1 s2 : Option Sub) (f1 f2 : Found) (s1' s2' : Sub) (l : Int),
    compare (some v1) (some v2) mono0 now1 now2 = (.ok c, s1, s2) →
    v1.compare now1 = (.ok f1, s1') → v2.compare now2 = (.ok f2, s2') →
    v1.sub.maxAgeDiff = some l ∨ v2.sub.maxAgeDiff = some l → f1.mono - f2.mono < l ∧ f2.mono - f1.mono < l

/-- The limit on the difference in age holds if the second sample is not the older
one (missing from the full statement: the check is made after the older time
replaced the time of the first sample, so a second sample older by any amount is
accepted, see the exact condition below). -/
theorem C25_age_diff_partial (v1 v2 : View) (mono0 now1 now2 : Option Int) (c : Compared) (s1 s2 : Option Sub) (f1 f2 : Found)
    (s1' s2' : Sub) (l : Int)
    (h : compare (some v1) (some v2) mono0 now1 now2 = (.ok c, s1, s2))
    (h1 : v1.compare now1 = (.ok f1, s1')) (h2 : v2.compare now2 = (.ok f2, s2'))
    (hl : v1.sub.maxAgeDiff = some l ∨ v2.sub.maxAgeDiff = some l) (hle : f1.mono ≤ f2.mono) :
    f2.mono - f1.mono < l ∧ c.diff = f1.diff - f2.diff := by
  have hm : (if f1.mono ≥ f2.mono then f2.mono else f1.mono) = f1.mono := by split <;> omega
  simp only [compare, h1, h2, hm] at h
  rw [if_pos (show f2.mono ≥ f1.mono from hle)] at h
  have hx : ∀ x, ageDiffLimit v1.sub v2.sub = some x → f2.mono - f1.mono < x := by
    intro x hx
    by_cases hc : f2.mono - f1.mono ≥ x
    · simp only [hx, hc, decide_true, if_true] at h; simp at h
    · omega
  constructor
  · simp only [ageDiffLimit] at hx
    rcases hl with hl | hl
    · cases h2m : v2.sub.maxAgeDiff with
      | none => exact hx l (by simp [hl, h2m])
      | some l2 =>
        by_cases hc : l ≥ l2
        · have := hx l2 (by simp [hl, h2m, hc]); omega
        · exact hx l (by simp [hl, h2m, hc])
    · cases h1m : v1.sub.maxAgeDiff with
      | none => exact hx l (by simp [hl, h1m])
      | some l1 =>
        by_cases hc : l1 ≥ l
        · exact hx l (by simp [hl, h1m, hc])
        · have := hx l1 (by simp [hl, h1m, hc]); omega
  · replace h := past_error h
    simp only [Prod.mk.injEq, Except.ok.injEq] at h
    rw [← h.1]

/-- If the second sample is the older one any difference is accepted, provided the
limit is positive. -/
theorem C25_age_diff_defeated (v1 v2 : View) (mono0 now1 now2 : Option Int) (f1 f2 : Found) (s1' s2' : Sub)
    (h1 : v1.compare now1 = (.ok f1, s1')) (h2 : v2.compare now2 = (.ok f2, s2'))
    (hlt : f2.mono < f1.mono) (hp : ∀ l, v1.sub.maxAgeDiff = some l ∨ v2.sub.maxAgeDiff = some l → 0 < l) :
    ∃ c, compare (some v1) (some v2) mono0 now1 now2 = (.ok c, some s1', some s2') := by
  refine ⟨⟨f1.diff - f2.diff, some f1.t1, some f2.t1, mono0.map (fun _ => f2.mono)⟩, ?_⟩
  have hm : (if f1.mono ≥ f2.mono then f2.mono else f1.mono) = f2.mono := by rw [if_pos (by omega)]
  simp only [compare, h1, h2, hm]
  rw [if_neg]
  have hag : (if f2.mono ≥ f2.mono then f2.mono - f2.mono else f2.mono - f2.mono) = 0 := by split <;> omega
  rw [hag]
  simp only [ageDiffLimit]
  cases h1m : v1.sub.maxAgeDiff with
  | none =>
    cases h2m : v2.sub.maxAgeDiff with
    | none => simp
    | some l2 => have := hp l2 (Or.inr h2m); simp only [decide_eq_true_eq]; omega
  | some l1 =>
    have := hp l1 (Or.inl h1m)
    cases h2m : v2.sub.maxAgeDiff with
    | none => simp only [decide_eq_true_eq]; omega
    | some l2 =>
      have := hp l2 (Or.inr h2m)
      by_cases hc : l1 ≥ l2
      · simp only [hc, if_true, decide_eq_true_eq]; omega
      · simp only [hc, if_false, decide_eq_true_eq]; omega

/-- The difference between two clocks is that of the first to the system clock plus
that of the system clock to the second, and opposite to the difference the other
way round. -/
theorem C25_difference (v1 v2 : View) (m0 m1 m2 m3 n1 n2 : Option Int) (c c1 c2 c' : Compared)
    (s1 s2 s3 s4 s5 s6 s7 s8 : Option Sub)
    (h : compare (some v1) (some v2) m0 n1 n2 = (.ok c, s1, s2))
    (h1 : compare (some v1) none m1 n1 n2 = (.ok c1, s3, s4))
    (h2 : compare none (some v2) m2 n1 n2 = (.ok c2, s5, s6))
    (h' : compare (some v2) (some v1) m3 n2 n1 = (.ok c', s7, s8)) :
    c.diff = c1.diff + c2.diff ∧ c'.diff = - c.diff := by
  simp only [compare] at h h1 h2 h'
  cases hv1 : v1.compare n1 with
  | mk r1 x1 =>
    cases hv2 : v2.compare n2 with
    | mk r2 x2 =>
      cases r1 with
      | error e => simp only [hv1] at h; simp at h
      | ok f1 =>
        cases r2 with
        | error e => simp only [hv1, hv2] at h; simp at h
        | ok f2 =>
          simp only [hv1, hv2] at h h1 h2 h'
          replace h := past_error h
          replace h' := past_error h'
          simp only [Prod.mk.injEq, Except.ok.injEq] at h h1 h2 h'
          rw [← h.1, ← h1.1, ← h2.1, ← h'.1]
          simp only
          omega

/-- A view of a feed nobody writes. -/
def still (l : List Tick) (s : Sub) : View := ⟨s, after l, after l, after l, after l⟩

/-- Samples five seconds apart pass a limit of one second. -/
theorem C25_age_diff_violated : ¬ C25_age_diff_statement := by
  intro h
  have := h (still [⟨0, 3, 6000, 50⟩] { newSub with maxAgeDiff := some 1000 }) (still [⟨0, 1, 1000, 45⟩] newSub) none none none
    ⟨2, some 53, some 46, none⟩ (some ⟨1, -1, none, some 1000⟩) (some ⟨1, -1, none, none⟩) ⟨3, 53, 50, 6000⟩ ⟨1, 46, 45, 1000⟩
    ⟨1, -1, none, some 1000⟩ ⟨1, -1, none, none⟩ 1000 (by rfl) (by rfl) (by rfl) (Or.inl rfl)
  exact absurd this (by decide)

example : compareToSys (after [⟨0, 5, 100, 1000⟩]) (after [⟨0, 5, 100, 1000⟩, ⟨0, 6, 200, 1100⟩])
    (after [⟨0, 5, 100, 1000⟩, ⟨0, 6, 200, 1100⟩]) (after [⟨0, 5, 100, 1000⟩, ⟨0, 6, 200, 1100⟩]) (some 150)
    { newSub with maxAge := some 60 } = (.ok ⟨5, 1005, 1000, 100⟩, ⟨1, -1, some 60, none⟩) := by rfl
example : (Hist.run [.tick ⟨0, 5, 100, 1000⟩, .read none, .fresh, .tick ⟨0, 6, 200, 1100⟩]).demand = some 1 := by rfl
example : isOk (compareToSys (after [⟨0, 5, 100, 1000⟩, ⟨0, 6, 200, 1100⟩]) (after [⟨0, 5, 100, 1000⟩, ⟨0, 6, 200, 1100⟩])
    (after [⟨0, 5, 100, 1000⟩, ⟨0, 6, 200, 1100⟩]) (after [⟨0, 5, 100, 1000⟩, ⟨0, 6, 200, 1100⟩]) none
    (Hist.run [.tick ⟨0, 5, 100, 1000⟩, .read none, .fresh, .tick ⟨0, 6, 200, 1100⟩]).sub).1 = true := by rfl

example : ((compare (some (still [⟨0, 3, 6000, 50⟩] newSub)) (some (still [⟨0, 1, 5000, 45⟩] newSub)) none none none).1.toOption.map (·.diff),
    (compare none (some (still [⟨0, 1, 5000, 45⟩] newSub)) none none none).1.toOption.map (·.diff)) = (some 2, some (-1)) := by rfl

example : (Hist.run [.maxAge 60, .tick ⟨0, 5, 100, 1000⟩]).ageLimit = some 60 ∧
    isOk (compareToSys (after [⟨0, 5, 100, 1000⟩]) (after [⟨0, 5, 100, 1000⟩]) (after [⟨0, 5, 100, 1000⟩]) (after [⟨0, 5, 100, 1000⟩])
      (some 160) (Hist.run [.maxAge 60, .tick ⟨0, 5, 100, 1000⟩]).sub).1 = true ∧
    isOk (compareToSys (after [⟨0, 5, 100, 1000⟩]) (after [⟨0, 5, 100, 1000⟩]) (after [⟨0, 5, 100, 1000⟩]) (after [⟨0, 5, 100, 1000⟩])
      (some 161) (Hist.run [.maxAge 60, .tick ⟨0, 5, 100, 1000⟩]).sub).1 = false := ⟨rfl, rfl, rfl⟩

/-! ## C26: sources are released only when unused -/

/-- Requests to the clock feed; `n` is the address memory allocation gives. -/
inductive Req where
  | add (n clock : Nat)
  | remove (clock : Nat)
  | subscribe (n clock : Nat)
  | unsubscribe (k : Nat)

/-- What may be asked: new objects get addresses not in use, and only live
subscriptions are given up. -/
def Allowed (h : Heap) : Req → Prop
  | .add n _ => h.src n = none
  | .remove _ => True
  | .subscribe n _ => h.sub n = none
  | .unsubscribe k => h.sub k ≠ none

/-- Serving one request; `none` is access to freed memory. -/
def serve (h : Heap) : Req → Option Heap
  | .add n c => onAdd h n c
  | .remove c => onRemove h c
  | .subscribe n c => (onSubscribe h n c).map (·.2)
  | .unsubscribe k => onUnsubscribe h k

/-- States reached by allowed requests. -/
inductive Served : Heap → Prop where
  | init : Served ⟨fun _ => none, fun _ => none, [], []⟩
  | step {h h' : Heap} (r : Req) : Served h → Allowed h r → serve h r = some h' → Served h'

theorem serve_ok {h : Heap} (r : Req) (hk : Ok h) (ha : Allowed h r) : ∃ h', serve h r = some h' ∧ Ok h' := by
  cases r with
  | add n c => exact ok_add hk ha
  | remove c => obtain ⟨h', a, b, -⟩ := ok_remove (clock := c) hk; exact ⟨h', a, b⟩
  | subscribe n c =>
    obtain ⟨r, h', a, b, -⟩ := ok_subscribe (clock := c) hk ha
    exact ⟨h', by simp only [serve, a, Option.map_some], b⟩
  | unsubscribe k =>
    simp only [Allowed] at ha
    cases hs : h.sub k with
    | none => exact absurd hs ha
    | some s => obtain ⟨h', x, a, b, -⟩ := ok_unsubscribe hk hs; exact ⟨h', a, b⟩

theorem served_ok {h : Heap} (hs : Served h) : Ok h := by
  induction hs with
  | init => constructor <;> simp
  | step r _ ha hr ih =>
    obtain ⟨h', e, hk⟩ := serve_ok r ih ha
    rw [hr] at e; cases e; exact hk

/-- No request ever touches freed memory or fails an assertion. -/
theorem C26_no_fault (h : Heap) (hs : Served h) (r : Req) (ha : Allowed h r) : serve h r ≠ none := by
  obtain ⟨h', e, -⟩ := serve_ok r (served_ok hs) ha
  simp [e]

/-- A live subscription always refers to a source that has not been freed and
lists it. -/
theorem C26_subscription_valid (h : Heap) (hs : Served h) (k s : Nat) (hk : h.sub k = some s) :
    ∃ x, h.src s = some x ∧ k ∈ x.subs := (served_ok hs).subl k s hk

/-- A source is freed only by the removal of its clock when it has no live
subscription, or when it was removed before and its last subscription is given
up. -/
theorem C26_released_only_when_unused (h h' : Heap) (hs : Served h) (r : Req) (ha : Allowed h r)
    (hr : serve h r = some h') (s : Nat) (x : Src) (hx : h.src s = some x) (hf : h'.src s = none) :
    (∀ k, h'.sub k ≠ some s) ∧ s ∉ h'.active ∧
    (r = .remove x.clock ∧ s ∈ h.active ∧ (∀ k, h.sub k ≠ some s) ∨
     ∃ k, r = .unsubscribe k ∧ s ∉ h.active ∧ h.sub k = some s ∧ ∀ j, h.sub j = some s → j = k) := by
  have hk := served_ok hs
  obtain ⟨n1, n2, n3⟩ := nodup_parts hk.nd
  have hk' : Ok h' := by obtain ⟨h'', e, hk'⟩ := serve_ok r hk ha; rw [hr] at e; cases e; exact hk'
  refine ⟨?_, ?_, ?_⟩
  · intro k hkk; obtain ⟨y, hy, -⟩ := hk'.subl k s hkk; rw [hf] at hy; cases hy
  · intro hm; obtain ⟨y, hy, -⟩ := hk'.act s hm; rw [hf] at hy; cases hy
  · cases r with
    | add n c =>
      simp only [serve, onAdd, Option.some.injEq] at hr
      subst hr
      simp only [put] at hf
      split at hf
      · cases hf
      · rw [hx] at hf; cases hf
    | remove c =>
      obtain ⟨h'', e, -, hc⟩ := ok_remove (clock := c) hk
      simp only [serve] at hr
      rw [hr] at e; cases e
      rcases hc with ⟨rfl, -⟩ | ⟨s0, x0, b1, b2, b3, b4, b5, b6, b7, b8⟩
      · rw [hx] at hf; cases hf
      · by_cases hss : s = s0
        · subst hss
          rw [hx] at b2; cases b2
          left
          refine ⟨by rw [b3], b1, ?_⟩
          intro k hkk
          obtain ⟨y, hy, hm⟩ := hk.subl k s hkk
          rw [hx] at hy; cases hy
          have := b8 (by intro he; rw [he] at hm; simp at hm)
          rw [hf] at this; cases this
        · rw [b6 s hss, hx] at hf; cases hf
    | subscribe n c =>
      obtain ⟨r, h'', e, -, hc⟩ := ok_subscribe (clock := c) hk ha
      simp only [serve, e, Option.map_some, Option.some.injEq] at hr
      subst hr
      rcases hc with ⟨-, rfl, -⟩ | ⟨-, s0, x0, b1, b2, rfl⟩
      · rw [hx] at hf; cases hf
      · simp only [put] at hf
        split at hf
        · cases hf
        · rw [hx] at hf; cases hf
    | unsubscribe k =>
      simp only [Allowed] at ha
      cases hsk : h.sub k with
      | none => exact absurd hsk ha
      | some s0 =>
        obtain ⟨h'', x0, e, -, b1, b2, b3, b4, b5, b6, b7⟩ := ok_unsubscribe hk hsk
        simp only [serve] at hr
        rw [hr] at e; cases e
        by_cases hss : s = s0
        · subst hss
          rw [hx] at b1; cases b1
          right
          by_cases hc : s ∈ h.zombies ∧ x.subs = [k]
          · refine ⟨k, rfl, fun hm => n3 s hm hc.1, hsk, ?_⟩
            intro j hj
            obtain ⟨y, hy, hm⟩ := hk.subl j s hj
            rw [hx] at hy; cases hy
            rw [hc.2] at hm
            simpa using hm
          · rw [b7 hc] at hf; cases hf
        · rw [b5 s hss, hx] at hf; cases hf

/-- A source whose clock was removed and which has no live subscription has been
freed: no source is leaked. -/
theorem C26_released_when_unused (h : Heap) (hs : Served h) (s : Nat) (x : Src) (hx : h.src s = some x) :
    s ∈ h.active ∨ ∃ k, h.sub k = some s := by
  have hk := served_ok hs
  rcases hk.own s x hx with h1 | h1
  · exact Or.inl h1
  · obtain ⟨y, hy, -, hne⟩ := hk.zom s h1
    obtain ⟨k, hkm⟩ := List.exists_mem_of_ne_nil _ hne
    exact Or.inr ⟨k, hk.subs s y k hy hkm⟩

/-- The claim that shutting down, too, never touches freed memory. -/
def C26_shutdown_statement : Prop := ∀ h, Served h → onShutdown h ≠ none

/-- One clock without subscribers: after freeing its source, shutdown reads the
next pointer in it. -/
theorem C26_shutdown_violated : ¬ C26_shutdown_statement := by
  intro h
  refine h _ (Served.step (.add 1 7) Served.init rfl rfl) ?_
  decide

/-- Shutting down is safe if every source has a live subscription (missing from the
full statement: sources without). -/
theorem C26_shutdown_partial (h : Heap) (hs : Served h) (hall : ∀ s x, h.src s = some x → ∃ k, h.sub k = some s) :
    ∃ h', onShutdown h = some h' ∧ h'.active = [] ∧ (∀ s, h.src s ≠ none → h'.src s ≠ none) := by
  have hk := served_ok hs
  obtain ⟨n1, n2, n3⟩ := nodup_parts hk.nd
  have hne : ∀ s x, h.src s = some x → x.subs ≠ [] := by
    intro s x hx he
    obtain ⟨k, hkk⟩ := hall s x hx
    obtain ⟨y, hy, hm⟩ := hk.subl k s hkk
    rw [hx] at hy; cases hy; rw [he] at hm; simp at hm
  have hmark : ∀ (l : List Nat) (g : Heap), l.Nodup → (∀ s ∈ l, ∃ x, g.src s = some x ∧ x.inactive = false) →
      (∀ s x, g.src s = some x → x.subs ≠ []) →
      ∃ g', markAll g l = some g' ∧ (∀ s x, g'.src s = some x → x.subs ≠ []) ∧ (∀ s, g.src s ≠ none → g'.src s ≠ none) ∧
        g'.zombies = g.zombies := by
    intro l
    induction l with
    | nil => intro g _ _ h3; exact ⟨g, rfl, h3, fun _ h => h, rfl⟩
    | cons a l ih =>
      intro g h1 h2 h3
      obtain ⟨x, hx, hxi⟩ := h2 a (by simp)
      simp only [List.nodup_cons] at h1
      simp only [markAll, hx, hxi, Bool.false_eq_true, if_false]
      obtain ⟨g', e1, e2, e3, e4⟩ := ih { g with src := put g.src a (some { x with inactive := true }) } h1.2 (by
        intro s hs
        have : s ≠ a := by rintro rfl; exact h1.1 hs
        simpa [put, this] using h2 s (by simp [hs])) (by
        intro s y hy
        by_cases hsa : s = a
        · subst hsa; simp [put] at hy; subst hy; exact h3 s x hx
        · simp only [put, hsa, if_false] at hy; exact h3 s y hy)
      refine ⟨g', e1, e2, ?_, e4⟩
      intro s hs
      apply e3
      by_cases hsa : s = a
      · subst hsa; simp [put]
      · simpa [put, hsa] using hs
  have hreap : ∀ (l : List Nat) (g : Heap), (∀ s ∈ l, g.src s ≠ none) → (∀ s x, g.src s = some x → x.subs ≠ []) →
      reapAll g l = some g := by
    intro l
    induction l with
    | nil => intro g _ _; rfl
    | cons a l ih =>
      intro g h1 h2
      cases hx : g.src a with
      | none => exact absurd hx (h1 a (by simp))
      | some x =>
        have := h2 a x hx
        simp only [reapAll, reap, hx, this, and_false, if_false]
        exact ih g (fun s hs => h1 s (by simp [hs])) h2
  obtain ⟨g, e1, e2, e3, e4⟩ := hmark h.active h n1 hk.act hne
  simp only [onShutdown, e1]
  refine ⟨_, hreap _ _ ?_ e2, rfl, fun s h => e3 s h⟩
  intro s hs
  apply e3
  rw [e4] at hs
  rcases List.mem_append.1 hs with h' | h'
  · obtain ⟨x, hx, -⟩ := hk.act s h'; simp [hx]
  · obtain ⟨x, hx, -⟩ := hk.zom s h'; simp [hx]

/-- Clock 7 added and subscribed to, removed, and the subscription given up. -/
example : ((((serve ⟨fun _ => none, fun _ => none, [], []⟩ (.add 1 7)).bind (serve · (.subscribe 2 7))).bind
    (serve · (.remove 7))).map (fun h => (h.src 1, h.sub 2, h.active, h.zombies))) =
    some (some ⟨7, [2], true⟩, some 1, [], [1]) := by decide
example : (((((serve ⟨fun _ => none, fun _ => none, [], []⟩ (.add 1 7)).bind (serve · (.subscribe 2 7))).bind
    (serve · (.remove 7))).bind (serve · (.unsubscribe 2))).map (fun h => (h.src 1, h.sub 2, h.active, h.zombies))) =
    some (none, none, [], []) := by decide

end Verif.Feed
