import Verif.Time.Model

/-! Auxiliary lemmas about the timestamp model. -/

namespace Verif.Time
open Verif.CInt

/-- Value in units of `2^-32` ns. -/
def val (t : Ts) : Int := (t.sec * 1000000000 + t.nsec) * 4294967296 + t.frac

/-- Normalised form: nanoseconds below one second, fraction a 32-bit value. -/
def Norm (t : Ts) : Prop :=
  0 ≤ t.nsec ∧ t.nsec < 1000000000 ∧ 0 ≤ t.frac ∧ t.frac < 4294967296

instance (t : Ts) : Decidable (Norm t) := inferInstanceAs (Decidable (_ ∧ _))

theorem chk64_some {x : Int} (h : InS64 x) : chk64 x = some x := by simp [chk64, h]

theorem tdiv_1e9_nonneg {n : Int} (h0 : 0 ≤ n) : n.tdiv 1000000000 = n / 1000000000 :=
  Int.tdiv_eq_ediv_of_nonneg h0

theorem tdiv_1e9_neg {n : Int} (h0 : n < 0) : n.tdiv 1000000000 = -((-n) / 1000000000) := by
  have : n = -(-n) := by omega
  rw [this, Int.neg_tdiv, Int.tdiv_eq_ediv_of_nonneg (by omega)]
  simp

/-- `normalise` is exact on nanosecond bit patterns that read as a value in
`(-10^9, 2*10^9)`. -/
theorem normalise_exact (sec n frac : Int) (hn : -1000000000 < n ∧ n < 2000000000)
    (h1 : InS64 sec) (h2 : InS64 (sec + n / 1000000000)) :
    normalise { sec := sec, nsec := u32 n, frac := frac } =
      some { sec := sec + n / 1000000000, nsec := n % 1000000000, frac := frac } := by
  have hs : s32 (u32 n) = n := by unfold s32 u32; omega
  unfold normalise
  simp only [hs]
  by_cases hneg : n < 0
  · have hd : n.tdiv 1000000000 = 0 := by rw [tdiv_1e9_neg hneg]; omega
    have hd' : n / 1000000000 = -1 := by omega
    rw [hd'] at h2
    have e2 : chk64 (sec - 1) = some (sec - 1) := chk64_some (by simpa [Int.sub_eq_add_neg] using h2)
    have hm : u32 (n + 1000000000) = n % 1000000000 := by unfold u32; omega
    simp [hd, chk64_some h1, hneg, e2, hd', hm]
    omega
  · have hd : n.tdiv 1000000000 = n / 1000000000 := tdiv_1e9_nonneg (by omega)
    have hm : u32 (n - n / 1000000000 * 1000000000) = n % 1000000000 := by unfold u32; omega
    have : ¬ (n - n / 1000000000 * 1000000000 < 0) := by omega
    simp [hd, chk64_some h2, hm, this]

end Verif.Time
