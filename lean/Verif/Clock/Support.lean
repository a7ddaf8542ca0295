import Verif.Clock.Spec
import Mathlib.Tactic.Linarith
import Mathlib.Tactic.FieldSimp
import Mathlib.Tactic.Ring

set_option linter.unusedSimpArgs false
set_option linter.unusedVariables false

namespace Verif.Clock

/-! ## Rounding -/

theorem roundl_le (x : Rat) : (roundl x : Rat) ≤ x + 1 / 2 := by
  unfold roundl
  split
  · exact Int.floor_le _
  · have := Int.lt_floor_add_one (-x + 1 / 2)
    push_cast
    linarith

theorem le_roundl (x : Rat) : x - 1 / 2 ≤ (roundl x : Rat) := by
  unfold roundl
  split
  · have := Int.lt_floor_add_one (x + 1 / 2)
    linarith
  · have := Int.floor_le (-x + 1 / 2)
    push_cast
    linarith

theorem roundl_nonneg {x : Rat} (h : 0 ≤ x) : 0 ≤ roundl x := by
  unfold roundl
  rw [if_pos h]
  exact Int.floor_nonneg.mpr (by linarith)

theorem roundl_int (n : Int) : roundl (n : Rat) = n := by
  unfold roundl
  split
  · rw [Int.floor_eq_iff]; constructor <;> linarith
  · rename_i h
    have : ⌊-(n : Rat) + 1 / 2⌋ = -n := by
      rw [Int.floor_eq_iff]; push_cast; constructor <;> linarith
    omega

theorem roundl_neg (x : Rat) : roundl (-x) = - roundl x := by
  unfold roundl
  by_cases h0 : x = 0
  · subst h0
    have h : ⌊(1 / 2 : Rat)⌋ = 0 := by
      rw [Int.floor_eq_iff]
      constructor <;> norm_num
    simp only [neg_zero, le_refl, if_true, zero_add, h]
  · by_cases h : 0 ≤ x
    · have : ¬ 0 ≤ -x := by
        intro h'
        exact h0 (by linarith)
      rw [if_neg this, if_pos h, neg_neg]
    · rw [if_neg h, if_pos (by linarith), neg_neg]

theorem roundl_mono {x y : Rat} (h : x ≤ y) : roundl x ≤ roundl y := by
  by_cases hx : 0 ≤ x
  · have hy : 0 ≤ y := le_trans hx h
    unfold roundl
    rw [if_pos hx, if_pos hy]
    exact Int.floor_mono (by linarith)
  · by_cases hy : 0 ≤ y
    · have h1 := roundl_nonneg hy
      have h2 : 0 ≤ roundl (-x) := roundl_nonneg (by linarith)
      rw [roundl_neg] at h2
      omega
    · unfold roundl
      rw [if_neg hx, if_neg hy]
      have : ⌊-y + 1 / 2⌋ ≤ ⌊-x + 1 / 2⌋ := Int.floor_mono (by linarith)
      omega

/-! ## Limits -/

theorem saturate_eq {m : Rat} (hm : 0 ≤ m) (f : Rat) : saturate m f = limited m f := by
  unfold saturate limited
  simp only []
  split <;> split
  · linarith
  · rename_i h1 h2
    rw [min_eq_left (le_of_lt h1), max_eq_right (by linarith)]
  · rename_i h1 h2
    rw [min_eq_right (by linarith), max_eq_left (by linarith)]
  · rename_i h1 h2
    rw [min_eq_right (by linarith), max_eq_right (by linarith)]

theorem limited_le {m : Rat} (hm : 0 ≤ m) (f : Rat) : limited m f ≤ m :=
  max_le (by linarith) (min_le_left _ _)

theorem le_limited (m f : Rat) : -m ≤ limited m f := le_max_left _ _

theorem satRest_le {cfg : Cfg} (h : 0 ≤ sysMax cfg) (f : Rat) : satRest cfg f ≤ sysMax cfg := by
  unfold satRest
  split
  · exact le_refl _
  · split
    · linarith
    · linarith

theorem le_satRest {cfg : Cfg} (h : 0 ≤ sysMax cfg) (f : Rat) : -sysMax cfg ≤ satRest cfg f := by
  unfold satRest
  split
  · linarith
  · split
    · exact le_refl _
    · linarith

theorem sysMax_nonneg {cfg : Cfg} (h : 0 ≤ cfg.tol) : 0 ≤ sysMax cfg := by
  unfold sysMax
  have : (0 : Rat) ≤ cfg.tol := by exact_mod_cast h
  positivity

theorem freqField_le_tol {cfg : Cfg} {f : Rat} (h : f ≤ sysMax cfg) : freqField f ≤ cfg.tol := by
  unfold freqField
  have h1 : f * (65536 / 1000) ≤ (cfg.tol : Rat) := by
    unfold sysMax at h
    have : f * (65536 / 1000) ≤ (cfg.tol : Rat) / (65536 / 1000) * (65536 / 1000) := by
      apply mul_le_mul_of_nonneg_right h; norm_num
    rwa [div_mul_cancel₀ _ (by norm_num)] at this
  have := roundl_mono h1
  rwa [roundl_int] at this

theorem tol_le_freqField {cfg : Cfg} {f : Rat} (h : -sysMax cfg ≤ f) : -cfg.tol ≤ freqField f := by
  have h1 : freqField (-f) ≤ cfg.tol := freqField_le_tol (by linarith)
  unfold freqField at *
  rw [show -f * (65536 / 1000) = -(f * (65536 / 1000)) by ring, roundl_neg] at h1
  omega

theorem split_le {cfg : Cfg} (hhz : 0 < cfg.hz) (f : Rat) :
    (split cfg f).1 ≤ maxTick cfg ∧ -maxTick cfg ≤ (split cfg f).1 := by
  have hm : 0 ≤ maxTick cfg := by unfold maxTick; positivity
  have hr : 0 < tickRes cfg := by
    unfold tickRes
    have : (0 : Rat) < cfg.hz := by exact_mod_cast hhz
    positivity
  unfold split
  simp only []
  split
  · rename_i h
    simp only []
    have h1 : (0 : Rat) ≤ (roundl ((f - sysMax cfg) / tickRes cfg) : Rat) := by
      exact_mod_cast roundl_nonneg (div_nonneg (by linarith) (le_of_lt hr))
    split <;> constructor <;> linarith
  · split
    · rename_i h
      simp only []
      have h1 : (0 : Rat) ≤ (roundl ((-f - sysMax cfg) / tickRes cfg) : Rat) := by
        exact_mod_cast roundl_nonneg (div_nonneg (by linarith) (le_of_lt hr))
      split <;> constructor <;> linarith
    · simp only []
      constructor <;> linarith

/-- With a tick frequency that divides 100000 the tick adjustment is a whole number. -/
theorem maxTick_int {cfg : Cfg} (hhz : 0 < cfg.hz) (hd : cfg.hz ∣ 100000) :
    ∃ n : Int, maxTick cfg = n ∧ n * cfg.hz = 100000 := by
  obtain ⟨k, hk⟩ := hd
  have h0 : (cfg.hz : Rat) ≠ 0 := by
    have : (0 : Rat) < cfg.hz := by exact_mod_cast hhz
    linarith
  refine ⟨k, ?_, ?_⟩
  · unfold maxTick
    have : (100000 : Rat) = (cfg.hz : Rat) * k := by exact_mod_cast hk
    rw [this]
    push_cast
    field_simp
  · have : (100000 : Int) = (cfg.hz : Int) * k := by exact_mod_cast hk
    rw [this]; ring

theorem split_int {cfg : Cfg} (hhz : 0 < cfg.hz) (hd : cfg.hz ∣ 100000) (f : Rat) :
    ∃ n : Int, (split cfg f).1 = n := by
  obtain ⟨k, hk, -⟩ := maxTick_int hhz hd
  unfold split
  simp only []
  split
  · simp only []
    split
    · exact ⟨k, hk⟩
    · exact ⟨_, rfl⟩
  · split
    · simp only []
      split
      · exact ⟨-k, by rw [hk]; push_cast; rfl⟩
      · exact ⟨-(roundl ((-f - sysMax cfg) / tickRes cfg)), by push_cast; rfl⟩
    · exact ⟨0, by simp⟩

theorem nominal_int {cfg : Cfg} (hhz : 0 < cfg.hz) (hd : cfg.hz ∣ 100000) :
    ∃ n : Int, 1000000 / (cfg.hz : Rat) = n ∧ n * cfg.hz = 1000000 := by
  obtain ⟨k, hk, h2⟩ := maxTick_int hhz hd
  refine ⟨10 * k, ?_, by linarith⟩
  unfold maxTick at hk
  push_cast
  rw [← hk]
  ring

/-- The tick written is the nominal one and the adjustment, without rounding. -/
theorem tickOf_eq {cfg : Cfg} (hhz : 0 < cfg.hz) (hd : cfg.hz ∣ 100000) (f : Rat) :
    (tickOf cfg f : Rat) = (split cfg f).1 + 1000000 / (cfg.hz : Rat) := by
  obtain ⟨n, hn⟩ := split_int hhz hd f
  obtain ⟨k, hk, -⟩ := nominal_int hhz hd
  unfold tickOf
  rw [hn, hk, ← Int.cast_add, roundl_int]

theorem tickOf_range {cfg : Cfg} (hhz : 0 < cfg.hz) (hd : cfg.hz ∣ 100000) (f : Rat) :
    900000 ≤ tickOf cfg f * cfg.hz ∧ tickOf cfg f * cfg.hz ≤ 1100000 := by
  obtain ⟨h1, h2⟩ := split_le hhz f
  obtain ⟨n, hn⟩ := split_int hhz hd f
  obtain ⟨k, hk, hk2⟩ := nominal_int hhz hd
  obtain ⟨m, hm, hm2⟩ := maxTick_int hhz hd
  have ht := tickOf_eq hhz hd f
  rw [hn, hk, ← Int.cast_add] at ht
  have ht' : tickOf cfg f = n + k := by exact_mod_cast ht
  rw [hn, hm] at h1 h2
  have h1' : n ≤ m := by exact_mod_cast h1
  have h2' : -m ≤ n := by exact_mod_cast h2
  have hz : (0 : Int) < cfg.hz := by exact_mod_cast hhz
  rw [ht']
  constructor
  · have : -m * cfg.hz ≤ n * cfg.hz := by
      exact mul_le_mul_of_nonneg_right h2' (le_of_lt hz)
    nlinarith
  · have : n * cfg.hz ≤ m * cfg.hz := mul_le_mul_of_nonneg_right h1' (le_of_lt hz)
    nlinarith

end Verif.Clock
