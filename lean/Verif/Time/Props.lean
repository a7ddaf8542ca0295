import Verif.Time.Lemmas

/-!
# Timestamp properties (C01-C05)

Specification: `val t` is the value of a timestamp in units of `2^-32` ns,
`Norm t` says that it is in normal form.  Both are defined on the fields only
and do not refer to the model functions.
-/

namespace Verif.Time
open Verif.CInt

/-! ## C01 -/

/-- C01 (addition): exact and normalised.  The hypotheses are exactly the
absence of signed overflow in the seconds: `a.sec + b.sec` is computed first
and then a carry may be added. -/
theorem C01_add_exact (a b : Ts) (ha : Norm a) (hb : Norm b)
    (h1 : InS64 (a.sec + b.sec))
    (h2 : InS64 ((val a + val b) / (1000000000 * 4294967296))) :
    ∃ c, add a b = some c ∧ Norm c ∧ val c = val a + val b := by
  obtain ⟨asec, an, af⟩ := a
  obtain ⟨bsec, bn, bf⟩ := b
  simp only [Norm] at ha hb
  simp only [val] at h2 ⊢
  obtain ⟨ha1, ha2, ha3, ha4⟩ := ha
  obtain ⟨hb1, hb2, hb3, hb4⟩ := hb
  simp only at h1 h2
  have hfp : u64 (u64 (an * 4294967296) + u64 (bn * 4294967296) + af + bf)
      = (an + bn) * 4294967296 + (af + bf) := by unfold u64; omega
  have hn : ((an + bn) * 4294967296 + (af + bf)) / 4294967296
      = an + bn + (af + bf) / 4294967296 := by omega
  have hsec : (asec + bsec) + (an + bn + (af + bf) / 4294967296) / 1000000000
      = ((asec * 1000000000 + an) * 4294967296 + af + ((bsec * 1000000000 + bn) * 4294967296 + bf))
        / (1000000000 * 4294967296) := by omega
  have hfr : u32 ((an + bn) * 4294967296 + (af + bf)) = (af + bf) % 4294967296 := by
    unfold u32; omega
  refine ⟨⟨asec + bsec + (an + bn + (af + bf) / 4294967296) / 1000000000,
    (an + bn + (af + bf) / 4294967296) % 1000000000, (af + bf) % 4294967296⟩, ?_, ?_, ?_⟩
  · unfold add
    simp only [hfp, hn, hfr, chk64_some h1, Option.bind_eq_bind, Option.bind_some]
    exact normalise_exact _ _ _ (by omega) h1 (by rw [hsec]; exact h2)
  · simp only [Norm]; omega
  · simp only; omega

example : Norm ⟨-1, 999999999, 4294967295⟩ ∧ Norm ⟨5, 999999999, 1⟩ ∧
    add ⟨-1, 999999999, 4294967295⟩ ⟨5, 999999999, 1⟩ = some ⟨5, 999999999, 0⟩ := by decide

/-- C01 (subtraction): exact and normalised. -/
theorem C01_subtract_exact (a b : Ts) (ha : Norm a) (hb : Norm b)
    (h1 : InS64 (a.sec - b.sec))
    (h2 : InS64 ((val a - val b) / (1000000000 * 4294967296))) :
    ∃ c, subtract a b = some c ∧ Norm c ∧ val c = val a - val b := by
  obtain ⟨asec, an, af⟩ := a
  obtain ⟨bsec, bn, bf⟩ := b
  simp only [Norm] at ha hb
  simp only [val] at h2 ⊢
  obtain ⟨ha1, ha2, ha3, ha4⟩ := ha
  obtain ⟨hb1, hb2, hb3, hb4⟩ := hb
  simp only at h1 h2
  have hafp : s64 (an * 4294967296 + af) = an * 4294967296 + af := by unfold s64; omega
  have hbfp : s64 (bn * 4294967296 + bf) = bn * 4294967296 + bf := by unfold s64; omega
  have hin : InS64 (an * 4294967296 + af - (bn * 4294967296 + bf)) := by
    constructor <;> omega
  have hn : (an * 4294967296 + af - (bn * 4294967296 + bf)) / 4294967296
      = an - bn + (af - bf) / 4294967296 := by omega
  have hfr : u32 (an * 4294967296 + af - (bn * 4294967296 + bf)) = (af - bf) % 4294967296 := by
    unfold u32; omega
  have hsec : (asec - bsec) + (an - bn + (af - bf) / 4294967296) / 1000000000
      = ((asec * 1000000000 + an) * 4294967296 + af - ((bsec * 1000000000 + bn) * 4294967296 + bf))
        / (1000000000 * 4294967296) := by omega
  by_cases hlow : an - bn + (af - bf) / 4294967296 = -1000000000
  · -- only possible when the borrow makes exactly minus one second
    have hd : (-1000000000 : Int).tdiv 1000000000 = -1 := by decide
    have hs : s32 (u32 (-1000000000)) = -1000000000 := by decide
    have hcs : InS64 (asec - bsec + -1) := by
      have := hsec; rw [hlow] at this
      have h3 : (-1000000000 : Int) / 1000000000 = -1 := by decide
      rw [h3] at this; rw [this]; exact h2
    refine ⟨⟨asec - bsec + -1, 0, (af - bf) % 4294967296⟩, ?_, ?_, ?_⟩
    · unfold subtract
      simp only [hafp, hbfp, chk64_some hin, chk64_some h1, hn, hfr, hlow,
        Option.bind_eq_bind, Option.bind_some]
      unfold normalise
      simp only [hs, hd, chk64_some hcs, Option.bind_eq_bind, Option.bind_some]
      simp [u32]
    · simp only [Norm]; omega
    · simp only; omega
  · refine ⟨⟨asec - bsec + (an - bn + (af - bf) / 4294967296) / 1000000000,
      (an - bn + (af - bf) / 4294967296) % 1000000000, (af - bf) % 4294967296⟩, ?_, ?_, ?_⟩
    · unfold subtract
      simp only [hafp, hbfp, chk64_some hin, chk64_some h1, hn, hfr,
        Option.bind_eq_bind, Option.bind_some]
      exact normalise_exact _ _ _ (by omega) h1 (by rw [hsec]; exact h2)
    · simp only [Norm]; omega
    · simp only; omega

example : Norm ⟨0, 0, 0⟩ ∧ Norm ⟨0, 999999999, 4294967295⟩ ∧
    subtract ⟨0, 0, 0⟩ ⟨0, 999999999, 4294967295⟩ = some ⟨-1, 0, 1⟩ := by decide

/-- C01 (negation). -/
theorem C01_negate_exact (b : Ts) (hb : Norm b) (h1 : InS64 (-b.sec))
    (h2 : InS64 (-(val b) / (1000000000 * 4294967296))) :
    ∃ c, negate b = some c ∧ Norm c ∧ val c = -(val b) := by
  obtain ⟨c, h, hn, hv⟩ := C01_subtract_exact null b (by decide) hb
    (by simpa [null] using h1) (by simpa [val, null] using h2)
  exact ⟨c, h, hn, by simpa [val, null] using hv⟩

example : Norm ⟨3, 5, 7⟩ ∧ negate ⟨3, 5, 7⟩ = some ⟨-4, 999999994, 4294967289⟩ := by decide

/-- C01: adding then subtracting the same amount is the identity. -/
theorem C01_add_subtract_cancel (a b c : Ts) (ha : Norm a) (hb : Norm b) (hia : InS64 a.sec)
    (h1 : InS64 (a.sec + b.sec)) (h3 : add a b = some c)
    (h2 : InS64 (c.sec - b.sec)) :
    subtract c b = some a := by
  have hval : ∀ t : Ts, Norm t → val t / (1000000000 * 4294967296) = t.sec := by
    intro t ht; unfold Norm at ht; unfold val; omega
  have hadd : (val a + val b) / (1000000000 * 4294967296) = a.sec + b.sec ∨
      (val a + val b) / (1000000000 * 4294967296) = a.sec + b.sec + 1 := by
    unfold Norm at ha hb; unfold val; omega
  have h2' : InS64 ((val a + val b) / (1000000000 * 4294967296)) := by
    rcases hadd with h | h
    · rw [h]; exact h1
    · rw [h]
      -- otherwise the addition would have been undefined
      by_cases hh : InS64 (a.sec + b.sec + 1)
      · exact hh
      · exfalso
        have hmax : a.sec + b.sec = 9223372036854775807 := by
          unfold InS64 at h1 hh; omega
        obtain ⟨asec, an, af⟩ := a
        obtain ⟨bsec, bn, bf⟩ := b
        simp only [Norm] at ha hb
        simp only [val] at h
        simp only at hmax h1
        have hfp : u64 (u64 (an * 4294967296) + u64 (bn * 4294967296) + af + bf)
            = (an + bn) * 4294967296 + (af + bf) := by unfold u64; omega
        have hn : ((an + bn) * 4294967296 + (af + bf)) / 4294967296
            = an + bn + (af + bf) / 4294967296 := by omega
        have hs : s32 (u32 (an + bn + (af + bf) / 4294967296))
            = an + bn + (af + bf) / 4294967296 := by unfold s32 u32; omega
        have hge : an + bn + (af + bf) / 4294967296 ≥ 1000000000 := by omega
        have hq : (an + bn + (af + bf) / 4294967296).tdiv 1000000000 = 1 := by
          rw [tdiv_1e9_nonneg (by omega)]; omega
        have hno : chk64 (asec + bsec + 1) = none := by
          simp only [chk64, hmax]; decide
        unfold add normalise at h3
        simp [hfp, hn, hs, chk64_some h1, hq, hno] at h3
  obtain ⟨c', hc', hnc, hvc⟩ := C01_add_exact a b ha hb h1 h2'
  rw [h3] at hc'; cases hc'
  obtain ⟨d, hd, hnd, hvd⟩ := C01_subtract_exact c b hnc hb h2
    (by rw [hvc]; have := hval a ha; rw [show val a + val b - val b = val a by omega, this]; exact hia)
  rw [hd]
  have hv : val d = val a := by omega
  have hsec : d.sec = a.sec := by rw [← hval d hnd, ← hval a ha, hv]
  obtain ⟨ds, dn, df⟩ := d
  obtain ⟨as, an, af⟩ := a
  simp only [Norm] at hnd ha
  simp only [val] at hv
  simp only at hsec
  subst hsec
  have : dn = an := by omega
  have : df = af := by omega
  simp_all

example : add ⟨1, 999999999, 5⟩ ⟨-7, 3, 4294967295⟩ = some ⟨-5, 3, 4⟩ ∧
    subtract ⟨-5, 3, 4⟩ ⟨-7, 3, 4294967295⟩ = some ⟨1, 999999999, 5⟩ := by decide

/-! ## C02 -/

/-- C02: the comparison returns the sign of the difference of the values. -/
theorem C02_cmp_sign (a b : Ts) (ha : Norm a) (hb : Norm b) :
    cmp a b = (val a - val b).sign := by
  unfold Norm at ha hb
  have hsign : ∀ x : Int, x.sign = if x < 0 then -1 else if x > 0 then 1 else 0 := by
    intro x
    rcases Int.lt_trichotomy x 0 with h | h | h
    · simp [h, Int.sign_eq_neg_one_of_neg h]
    · simp [h]
    · have : ¬ x < 0 := by omega
      simp [h, this, Int.sign_eq_one_of_pos h]
  rw [hsign]
  unfold cmp val
  repeat' split
  all_goals omega

example : Norm ⟨-1, 999999999, 4294967295⟩ ∧ Norm ⟨0, 0, 0⟩ ∧
    cmp ⟨-1, 999999999, 4294967295⟩ ⟨0, 0, 0⟩ = -1 := by decide

/-- C02: equal comparison means identical timestamps. -/
theorem C02_cmp_eq_zero (a b : Ts) : cmp a b = 0 ↔ a = b := by
  obtain ⟨as, an, af⟩ := a
  obtain ⟨bs, bn, bf⟩ := b
  unfold cmp
  simp only [Ts.mk.injEq]
  repeat' split
  all_goals omega

/-- C02: antisymmetry for all bit patterns, normalised or not. -/
theorem C02_cmp_antisymm (a b : Ts) : cmp b a = -(cmp a b) := by
  unfold cmp
  repeat' split
  all_goals omega

/-- Lexicographic reading of the comparison. -/
theorem cmp_le_iff (a b : Ts) : cmp a b ≤ 0 ↔
    a.sec < b.sec ∨ (a.sec = b.sec ∧ (a.nsec < b.nsec ∨ (a.nsec = b.nsec ∧ a.frac ≤ b.frac))) := by
  unfold cmp
  repeat' split
  all_goals omega

/-- C02: transitivity for all bit patterns. -/
theorem C02_cmp_trans (a b c : Ts) (h1 : cmp a b ≤ 0) (h2 : cmp b c ≤ 0) : cmp a c ≤ 0 := by
  rw [cmp_le_iff] at *
  omega

example : cmp ⟨1, 2, 3⟩ ⟨1, 2, 4⟩ ≤ 0 ∧ cmp ⟨1, 2, 4⟩ ⟨1, 3, 0⟩ ≤ 0 := by decide

/-- C02: the greater-or-equal test agrees with the comparison whenever the
subtraction inside it is defined. -/
theorem C02_isGe_iff_cmp (a b : Ts) (ha : Norm a) (hb : Norm b)
    (h1 : InS64 (a.sec - b.sec))
    (h2 : InS64 ((val a - val b) / (1000000000 * 4294967296))) :
    isGe a b = some (decide (cmp a b ≥ 0)) := by
  obtain ⟨c, hc, hn, hv⟩ := C01_subtract_exact a b ha hb h1 h2
  unfold isGe
  rw [hc, C02_cmp_sign a b ha hb, ← hv]
  simp only [Option.bind_eq_bind, Option.bind_some, Option.pure_def, Option.some.injEq,
    decide_eq_decide]
  unfold Norm at hn
  rw [ge_iff_le, ge_iff_le, Int.sign_nonneg_iff]
  unfold val; omega

example : Norm ⟨7, 0, 0⟩ ∧ Norm ⟨6, 999999999, 4294967295⟩ ∧
    isGe ⟨7, 0, 0⟩ ⟨6, 999999999, 4294967295⟩ = some true ∧
    isGe ⟨6, 999999999, 4294967295⟩ ⟨7, 0, 0⟩ = some false := by decide

/-! ## C03 -/

/-- C03, full statement: every 64-bit nanosecond count converts exactly. -/
def C03_statement : Prop :=
  ∀ ns : Int, InS64 ns → ∃ t, fromNs ns = some t ∧ Norm t ∧ val t = ns * 4294967296

/-- C03 is false of the code: three seconds become about minus 1.29 seconds
because the count is stored in the 32-bit nanosecond field before
normalising. -/
theorem C03_violated : ¬ C03_statement := by
  intro h
  obtain ⟨t, h1, _, h3⟩ := h 3000000000 (by decide)
  have : fromNs 3000000000 = some ⟨-2, 705032704, 0⟩ := by decide
  rw [this] at h1; cases h1
  revert h3; decide

/-- C03 on the range where it holds: magnitudes below `2^31` ns (about 2.1 s).
Missing from the full statement: all larger magnitudes. -/
theorem C03_from_ns_partial (ns : Int) (h : -2147483648 < ns ∧ ns < 2147483648) :
    ∃ t, fromNs ns = some t ∧ Norm t ∧ val t = ns * 4294967296 := by
  unfold fromNs
  by_cases hneg : ns < 0
  · have hc : chk64 (-ns) = some (-ns) := chk64_some (by unfold InS64; omega)
    have hge : ¬ ns ≥ 1000000000 := by omega
    have hu : u32 (-ns) = -ns := by unfold u32; omega
    simp only [hneg, decide_true, ↓reduceIte, hc, hge, hu, Option.bind_eq_bind, Option.bind_some]
    unfold negate subtract null
    have e1 : s64 (0 * 4294967296 + 0) = 0 := by decide
    have e2 : s64 (-ns * 4294967296 + 0) = -ns * 4294967296 := by unfold s64; omega
    have e3 : chk64 (0 - -ns * 4294967296) = some (ns * 4294967296) := by
      rw [chk64_some (by unfold InS64; omega)]; congr 1; omega
    have e4 : chk64 (0 - 0) = some 0 := by decide
    have e5 : ns * 4294967296 / 4294967296 = ns := by omega
    have e6 : u32 (ns * 4294967296) = 0 := by unfold u32; omega
    simp only [e1, e2, e3, e4, e5, e6, Option.bind_eq_bind, Option.bind_some]
    have hs : s32 (u32 ns) = ns := by unfold s32 u32; omega
    unfold normalise
    simp only [hs, tdiv_1e9_neg hneg]
    have e7 : chk64 (0 + -(-ns / 1000000000)) = some (-(-ns / 1000000000)) := by
      rw [chk64_some (by unfold InS64; omega)]; congr 1; omega
    simp only [e7, Option.bind_eq_bind, Option.bind_some]
    split
    · have e8 : chk64 (-(-ns / 1000000000) - 1) = some (-(-ns / 1000000000) - 1) :=
        chk64_some (by unfold InS64; omega)
      simp only [e8, Option.bind_some]
      refine ⟨_, rfl, ?_, ?_⟩
      · simp only [Norm, u32]; omega
      · simp only [val, u32]; omega
    · refine ⟨_, rfl, ?_, ?_⟩
      · simp only [Norm, u32]; omega
      · simp only [val, u32]; omega
  · have hu : u32 ns = ns := by unfold u32; omega
    simp only [hneg, decide_false, Bool.false_eq_true, ↓reduceIte, hu, Option.bind_eq_bind,
      Option.bind_some]
    split
    · have hs : s32 ns = ns := by unfold s32; omega
      unfold normalise
      simp only [hs, tdiv_1e9_nonneg (show 0 ≤ ns by omega)]
      have e7 : chk64 (0 + ns / 1000000000) = some (ns / 1000000000) := by
        rw [chk64_some (by unfold InS64; omega)]; congr 1; omega
      have : ¬ (ns - ns / 1000000000 * 1000000000 < 0) := by omega
      simp only [e7, this, Option.bind_eq_bind, Option.bind_some, ↓reduceIte]
      refine ⟨_, rfl, ?_, ?_⟩
      · simp only [Norm, u32]; omega
      · simp only [val, u32]; omega
    · refine ⟨_, rfl, ?_, ?_⟩
      · simp only [Norm]; omega
      · simp only [val]; omega

example : fromNs (-1500000000) = some ⟨-2, 500000000, 0⟩ ∧
    fromNs 2147483647 = some ⟨2, 147483647, 0⟩ := by decide

/-! ## C04 -/

/-- C04: the value of a converted correction field is exact. -/
theorem C04_from_ns16_exact (x : Int) (h : -9223372036854775808 < x ∧ x < 9223372036854775808) :
    ∃ t, fromNs16 x = some t ∧ Norm t ∧ val t = x * 65536 := by
  unfold fromNs16
  by_cases hneg : x < 0
  · have hc : chk64 (-x) = some (-x) := chk64_some (by unfold InS64; omega)
    simp only [hneg, decide_true, ↓reduceIte, hc, Option.bind_eq_bind, Option.bind_some]
    have key : ∀ t : Ts, Norm t → val t = -x * 65536 → 0 ≤ t.sec →
        ∃ t', negate t = some t' ∧ Norm t' ∧ val t' = x * 65536 := by
      intro t ht hv hs
      have hb : t.sec ≤ 140737488355328 := by unfold Norm at ht; unfold val at hv; omega
      obtain ⟨c, h1, h2, h3⟩ := C01_negate_exact t ht (by unfold InS64; omega)
        (by unfold InS64; unfold Norm at ht; unfold val at hv ⊢; omega)
      exact ⟨c, h1, h2, by rw [h3, hv]; omega⟩
    by_cases hge : -x / 65536 ≥ 1000000000
    · simp only [hge, ↓reduceIte]
      apply key
      · simp only [Norm, u32, u64]; omega
      · simp only [val, u32, u64]; omega
      · simp only; omega
    · simp only [hge, ↓reduceIte]
      apply key
      · simp only [Norm, u32, u64]; omega
      · simp only [val, u32, u64]; omega
      · simp only; omega
  · simp only [hneg, decide_false, Bool.false_eq_true, ↓reduceIte, Option.bind_eq_bind,
      Option.bind_some]
    by_cases hge : x / 65536 ≥ 1000000000
    · simp only [hge, ↓reduceIte]
      refine ⟨_, rfl, ?_, ?_⟩
      · simp only [Norm, u32, u64]; omega
      · simp only [val, u32, u64]; omega
    · simp only [hge, ↓reduceIte]
      refine ⟨_, rfl, ?_, ?_⟩
      · simp only [Norm, u32, u64]; omega
      · simp only [val, u32, u64]; omega

example : fromNs16 (-98304) = some ⟨-1, 999999998, 2147483648⟩ := by decide

/-- C04: the most negative correction field is undefined behaviour (its
magnitude does not fit), so the range above is the whole range. -/
theorem C04_from_ns16_min : fromNs16 (-9223372036854775808) = none := by decide

/-- `toNs16` of a timestamp whose value is a multiple of `2^-16` ns inside the
field's range. -/
theorem toNs16_exact (t : Ts) (x : Int) (ht : Norm t) (hv : val t = x * 65536)
    (h : -9223372036854775808 < x ∧ x < 9223372036854775808) : toNs16 t = some x := by
  unfold toNs16
  by_cases hneg : t.sec < 0
  · have hx : x < 0 := by unfold Norm at ht; unfold val at hv; omega
    obtain ⟨c, h1, h2, h3⟩ := C01_negate_exact t ht
      (by unfold InS64; unfold Norm at ht; unfold val at hv; omega)
      (by unfold InS64; unfold Norm at ht; unfold val at hv ⊢; omega)
    have hcs : 0 ≤ c.sec ∧ c.sec ≤ 140737 := by
      unfold Norm at h2 ht; unfold val at h3 hv; omega
    have hu : u64 c.sec = c.sec := by unfold u64; omega
    have hlt : ¬ (c.sec ≥ 281474) := by omega
    simp only [hneg, decide_true, ↓reduceIte, h1, hu, hlt, Option.bind_eq_bind,
      Option.bind_some, Option.pure_def]
    congr 1
    rw [hv] at h3
    unfold Norm at h2; unfold val at h3; unfold s64 u64
    omega
  · have hs : 0 ≤ t.sec ∧ t.sec ≤ 140737 := by unfold Norm at ht; unfold val at hv; omega
    have hu : u64 t.sec = t.sec := by unfold u64; omega
    have hlt : ¬ (t.sec ≥ 281474) := by omega
    simp only [hneg, decide_false, Bool.false_eq_true, ↓reduceIte, hu, hlt, Option.bind_eq_bind,
      Option.bind_some, Option.pure_def]
    congr 1
    unfold Norm at ht; unfold val at hv; unfold s64 u64
    omega

/-- C04: correction field to timestamp and back is the identity. -/
theorem C04_ns16_roundtrip (x : Int) (h : -9223372036854775808 < x ∧ x < 9223372036854775808) :
    (fromNs16 x).bind toNs16 = some x := by
  obtain ⟨t, h1, h2, h3⟩ := C04_from_ns16_exact x h
  rw [h1]
  exact toNs16_exact t x h2 h3 h

example : (fromNs16 9223372036854775807).bind toNs16 = some 9223372036854775807 := by decide

/-- C04, saturation, full statement: a positive timestamp too large for the
field saturates to the maximum. -/
def C04_saturation_statement : Prop :=
  ∀ t : Ts, Norm t → InS64 t.sec → val t ≥ 9223372036854775808 * 65536 →
    toNs16 t = some 9223372036854775807

/-- C04: saturation is false of the code: 200000 s converts to a negative
correction field. -/
theorem C04_saturation_violated : ¬ C04_saturation_statement := by
  intro h
  have h1 := h ⟨200000, 0, 0⟩ (by decide) (by decide) (by decide)
  revert h1; decide

/-- C04: saturation holds from 281474 s upwards.  Missing from the full
statement: 140737.488355328 s to 281474 s, where the result wraps. -/
theorem C04_saturation_partial (t : Ts) (hs : 281474 ≤ t.sec) (hi : InS64 t.sec) :
    toNs16 t = some 9223372036854775807 := by
  unfold toNs16
  unfold InS64 at hi
  have hneg : ¬ t.sec < 0 := by omega
  have hu : u64 t.sec = t.sec := by unfold u64; omega
  have : t.sec ≥ 281474 := hs
  simp [hneg, hu, this]

example : toNs16 ⟨281474, 5, 6⟩ = some 9223372036854775807 := by decide

/-- C04: the same for large negative values.  Missing: -281474 s to
-140737.488355328 s. -/
theorem C04_saturation_neg_partial (t : Ts) (ht : Norm t) (hs : t.sec ≤ -281475)
    (hi : -9223372036854775808 < t.sec) : toNs16 t = some (-9223372036854775808) := by
  obtain ⟨c, h1, h2, h3⟩ := C01_negate_exact t ht (by unfold InS64; omega)
    (by unfold InS64; unfold Norm at ht; unfold val; omega)
  have hc : 281474 ≤ c.sec ∧ c.sec ≤ 9223372036854775807 := by
    unfold Norm at h2 ht; unfold val at h3; omega
  unfold toNs16
  have hneg : t.sec < 0 := by omega
  have hu : u64 c.sec = c.sec := by unfold u64; omega
  have hge : c.sec ≥ 281474 := hc.1
  simp [hneg, h1, hu, hge]

example : Norm ⟨-281475, 5, 6⟩ ∧ toNs16 ⟨-281475, 5, 6⟩ = some (-9223372036854775808) := by decide

/-! ## C05 -/

/-- C05: the wire timestamp plus the correction remainder denote the internal
time rounded down to `2^-16` ns. -/
theorem C05_wire_roundtrip (t : Ts) (ht : Norm t) (hs : 0 ≤ t.sec) :
    ∃ w corr, fromInternalTime t = some (w, corr) ∧
      0 ≤ corr ∧ corr < 65536 ∧
      val (toInternalTime w) + corr * 65536 ≤ val t ∧
      val t < val (toInternalTime w) + (corr + 1) * 65536 := by
  refine ⟨_, _, by simp only [fromInternalTime, show ¬ t.sec < 0 by omega, ↓reduceIte]; rfl, ?_⟩
  unfold Norm at ht
  simp only [toInternalTime, val]
  omega

example : Norm ⟨1700000000, 999999999, 4294967295⟩ ∧
    fromInternalTime ⟨1700000000, 999999999, 4294967295⟩
      = some (⟨1700000000, 999999999⟩, 65535) := by decide

/-- C05: negative times are refused, and only those. -/
theorem C05_refuses_negative (t : Ts) (ht : Norm t) :
    fromInternalTime t = none ↔ val t < 0 := by
  unfold fromInternalTime Norm at *
  unfold val
  split <;> simp <;> omega

example : fromInternalTime ⟨-1, 999999999, 4294967295⟩ = none := by decide

/-- C05: conversion to POSIX time rounding to nearest can leave the
nanoseconds denormalised (10^9), which `clock_settime` and friends refuse. -/
theorem C05_to_std_nearest_denormal :
    ∃ t, Norm t ∧ (toStdNearest t).tvNsec = 1000000000 :=
  ⟨⟨0, 999999999, 2147483648⟩, by decide, by decide⟩

/-- C05: POSIX time to internal and back is lossless for the floor
conversions. -/
theorem C05_std_floor_roundtrip (s : StdTs) (h : 0 ≤ s.tvNsec ∧ s.tvNsec < 1000000000) :
    toStdFloor (fromStdFloor s) = s := by
  obtain ⟨a, b⟩ := s
  have : u32 b = b := by unfold u32; simp only at h; omega
  simp [toStdFloor, fromStdFloor, this]

example : toStdFloor (fromStdFloor ⟨3, 999999999⟩) = ⟨3, 999999999⟩ := by decide

end Verif.Time
