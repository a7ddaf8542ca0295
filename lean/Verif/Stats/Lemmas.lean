import Verif.Stats.Model

set_option linter.unusedSimpArgs false
set_option linter.unusedVariables false

/-! # Lemmas about the statistics histories -/

namespace Verif.Stats
open Verif.Time

/-! ## Specification of the histories -/

/-- Specification: the data of the `k`-th period of `L` minutes. -/
def slice {σ} (mins : List (List σ)) (L k : Nat) : List σ := ((mins.drop (k * L)).take L).flatten

/-- Specification: what the four entries of a period of `L` minutes hold after
the complete minutes `mins`: entry 0 the period in progress, entry `h` the
`h`-th last complete one, if there have been that many. -/
def entry {σ T} (agg : List σ → T) (mins : List (List σ)) (L h : Nat) : Option T :=
  if h ≤ mins.length / L then some (agg (slice mins L (mins.length / L - h))) else none

/-- Specification: all four entries. -/
def entries {σ T} (agg : List σ → T) (mins : List (List σ)) (L : Nat) : List (Option T) :=
  [entry agg mins L 0, entry agg mins L 1, entry agg mins L 2, entry agg mins L 3]

/-- The period lengths in minutes. -/
def Ls : List Nat := [1, 10, 60, 1440, 10080]

theorem slice_append_full {σ} (mins : List (List σ)) (m : List σ) {L k : Nat}
    (h : (k + 1) * L ≤ mins.length) : slice (mins ++ [m]) L k = slice mins L k := by
  have h1 : (k + 1) * L = k * L + L := Nat.succ_mul k L
  unfold slice
  rw [List.drop_append_of_le_length (by omega), List.take_append_of_le_length]
  rw [List.length_drop]; omega

theorem slice_append_cur {σ} (mins : List (List σ)) (m : List σ) {L k : Nat}
    (h1 : k * L ≤ mins.length) (h2 : mins.length < (k + 1) * L) :
    slice (mins ++ [m]) L k = slice mins L k ++ m := by
  have h3 : (k + 1) * L = k * L + L := Nat.succ_mul k L
  unfold slice
  rw [List.drop_append_of_le_length h1, List.take_of_length_le (by simp [List.length_drop]; omega),
    List.take_of_length_le (by simp [List.length_drop]; omega)]
  simp

theorem slice_beyond {σ} (mins : List (List σ)) {L k : Nat} (h : mins.length ≤ k * L) :
    slice mins L k = [] := by
  unfold slice
  rw [List.drop_eq_nil_of_le h]; simp

/-- One tick on the entries of one period. -/
theorem entries_tick {σ T} {agg : List σ → T} {add : T → T → T} (hadd : ∀ a b, add (agg a) (agg b) = agg (a ++ b))
    (mins : List (List σ)) (m : List σ) {L : Nat} (hL : 0 < L) :
    entries agg (mins ++ [m]) L =
      if (mins.length + 1) % L = 0 then shift (agg []) (addCurrent add (agg m) (entries agg mins L))
      else addCurrent add (agg m) (entries agg mins L) := by
  have hq1 : mins.length / L * L ≤ mins.length := Nat.div_mul_le_self _ _
  have hq2 : mins.length < (mins.length / L + 1) * L := by
    have := Nat.lt_mul_div_succ mins.length hL
    rw [Nat.mul_comm] at this; exact this
  have hlen : (mins ++ [m]).length = mins.length + 1 := by simp
  have hmul : ∀ a : Nat, (a + 1) * L = a * L + L := fun a => Nat.succ_mul a L
  have hcur : (entry agg mins L 0).map (add · (agg m)) = some (agg (slice (mins ++ [m]) L (mins.length / L))) := by
    simp only [entry, Nat.zero_le, if_true, Option.map_some, Nat.sub_zero, hadd]
    rw [slice_append_cur mins m hq1 hq2]
  have hold : ∀ h, 1 ≤ h → h ≤ mins.length / L →
      slice (mins ++ [m]) L (mins.length / L - h) = slice mins L (mins.length / L - h) := by
    intro h h1 h2
    apply slice_append_full
    refine Nat.le_trans (Nat.mul_le_mul_right L (show mins.length / L - h + 1 ≤ mins.length / L by omega)) hq1
  by_cases hm : (mins.length + 1) % L = 0
  · rw [if_pos hm]
    have hdiv : (mins.length + 1) / L = mins.length / L + 1 := by
      have h1 := Nat.div_add_mod (mins.length + 1) L
      rw [hm, Nat.add_zero, Nat.mul_comm] at h1
      have h2 : (mins.length / L + 1) * L ≤ mins.length + 1 := by
        -- the quotient times L is mins.length + 1 and exceeds q * L
        have h3 : mins.length / L < (mins.length + 1) / L := by
          apply Nat.lt_of_mul_lt_mul_right (a := L)
          omega
        calc (mins.length / L + 1) * L ≤ ((mins.length + 1) / L) * L := Nat.mul_le_mul_right L h3
          _ = mins.length + 1 := h1
      have h4 : (mins.length + 1) / L < mins.length / L + 1 + 1 := by
        rw [Nat.div_lt_iff_lt_mul hL]
        rw [hmul (mins.length / L + 1)]
        omega
      have h5 : mins.length / L + 1 ≤ (mins.length + 1) / L := by
        rw [Nat.le_div_iff_mul_le hL]; exact h2
      omega
    have hfull : (mins.length / L + 1) * L = mins.length + 1 := by
      have h1 := Nat.div_add_mod (mins.length + 1) L
      rw [hm, Nat.add_zero, Nat.mul_comm, hdiv] at h1
      exact h1
    have e0 : entry agg (mins ++ [m]) L 0 = some (agg []) := by
      simp only [entry, Nat.zero_le, if_true, Nat.sub_zero, hlen, hdiv]
      rw [slice_beyond]
      rw [hlen, hfull]; exact Nat.le_refl _
    have e1 : entry agg (mins ++ [m]) L 1 = (entry agg mins L 0).map (add · (agg m)) := by
      rw [hcur]
      simp only [entry, hlen, hdiv]
      rw [if_pos (Nat.le_add_left 1 _)]; rfl
    have es : ∀ h, 1 ≤ h → entry agg (mins ++ [m]) L (h + 1) = entry agg mins L h := by
      intro h h1
      simp only [entry, hlen, hdiv]
      by_cases hh : h ≤ mins.length / L
      · rw [if_pos (by omega), if_pos hh, show mins.length / L + 1 - (h + 1) = mins.length / L - h by omega,
          hold h h1 hh]
      · rw [if_neg (by omega), if_neg hh]
    simp only [entries, addCurrent, shift, List.take_succ_cons, List.take_zero]
    rw [e0, e1, es 1 (by omega), es 2 (by omega)]
  · rw [if_neg hm]
    have hdiv : (mins.length + 1) / L = mins.length / L := by
      have h1 := Nat.div_add_mod (mins.length + 1) L
      have h2 := Nat.mod_lt (mins.length + 1) hL
      have h4 : mins.length / L ≤ (mins.length + 1) / L := Nat.div_le_div_right (by omega)
      have h5 : (mins.length + 1) / L < mins.length / L + 1 := by
        rw [Nat.div_lt_iff_lt_mul hL]
        rcases Nat.lt_or_ge (mins.length + 1) ((mins.length / L + 1) * L) with h | h
        · exact h
        · exfalso
          apply hm
          have : mins.length + 1 = (mins.length / L + 1) * L := by omega
          rw [this]; exact Nat.mul_mod_left _ _
      omega
    have es : ∀ h, 1 ≤ h → entry agg (mins ++ [m]) L h = entry agg mins L h := by
      intro h h1
      simp only [entry, hlen, hdiv]
      by_cases hh : h ≤ mins.length / L
      · rw [if_pos hh, if_pos hh, hold h h1 hh]
      · rw [if_neg hh, if_neg hh]
    have e0 : entry agg (mins ++ [m]) L 0 = (entry agg mins L 0).map (add · (agg m)) := by
      rw [hcur]
      simp only [entry, hlen, hdiv, Nat.zero_le, if_true, Nat.sub_zero]
    simp only [entries, addCurrent]
    rw [e0, es 1 (by omega), es 2 (by omega), es 3 (by omega)]

/-- What a history holds after complete minutes `mins` and the data `act` of the current one. -/
def HistOk {σ T} (agg : List σ → T) (mins : List (List σ)) (act : List σ) (h : Hist T) : Prop :=
  h.active = agg act ∧ h.history = Ls.map (entries agg mins)

theorem HistOk.alloc {σ T} (agg : List σ → T) : HistOk agg [] [] (Hist.alloc (agg [])) := by
  refine ⟨rfl, ?_⟩
  simp [Hist.alloc, Ls, entries, entry, slice]

/-- The end-of-period calls one tick makes on an item after `N` earlier ticks. -/
def tickHist {T} (init : T) (add : T → T → T) (N : Nat) (h : Hist T) : Hist T :=
  [0, 1, 2, 3, 4].foldl (fun h p => if (N + 1) % Ls.getD p 0 = 0 then h.endPeriod init add p else h) h

theorem HistOk.tick {σ T} {agg : List σ → T} {add : T → T → T}
    (hadd : ∀ a b, add (agg a) (agg b) = agg (a ++ b)) {mins act} {h : Hist T} (hk : HistOk agg mins act h) :
    HistOk agg (mins ++ [act]) [] (tickHist (agg []) add mins.length h) := by
  obtain ⟨h1, h2⟩ := hk
  have step := fun L hL => entries_tick hadd mins act (L := L) hL
  obtain ⟨a, hist⟩ := h
  simp only at h1 h2
  subst h1 h2
  unfold HistOk tickHist
  simp only [List.foldl_cons, List.foldl_nil, Ls, List.getD_cons_zero, List.getD_cons_succ,
    Nat.mod_one, if_true, List.map_cons, List.map_nil]
  rw [step 1 (by omega), step 10 (by omega), step 60 (by omega), step 1440 (by omega), step 10080 (by omega)]
  simp only [Nat.mod_one, if_true]
  generalize entries agg mins 1 = x0
  generalize entries agg mins 10 = x1
  generalize entries agg mins 60 = x2
  generalize entries agg mins 1440 = x3
  generalize entries agg mins 10080 = x4
  by_cases c1 : (mins.length + 1) % 10 = 0 <;> by_cases c2 : (mins.length + 1) % 60 = 0 <;>
    by_cases c3 : (mins.length + 1) % 1440 = 0 <;> by_cases c4 : (mins.length + 1) % 10080 = 0 <;>
    simp [c1, c2, c3, c4, Hist.endPeriod, List.modify]

/-! ## Intervals -/

/-- Specification: the interval record of entry `h`, `times` being the creation time and the tick times. -/
def interval (times : List Ts) (L h : Nat) : Interval :=
  let q := (times.length - 1) / L
  if h ≤ q then
    ⟨q - h, times[(q - h) * L]?, if h = 0 then none else times[(q - h + 1) * L]?⟩
  else ⟨0, none, none⟩

/-- Specification: the four interval records of a period. -/
def intervals (times : List Ts) (L : Nat) : List Interval :=
  [interval times L 0, interval times L 1, interval times L 2, interval times L 3]

theorem intervals_tick (times : List Ts) (t : Ts) (hne : 0 < times.length) {L : Nat} (hL : 0 < L) :
    intervals (times ++ [t]) L =
      if times.length % L = 0 then endInterval t (intervals times L) else intervals times L := by
  obtain ⟨N, hN⟩ : ∃ N, times.length = N + 1 := ⟨times.length - 1, by omega⟩
  have hq1 : N / L * L ≤ N := Nat.div_mul_le_self _ _
  have hq2 : N < (N / L + 1) * L := by
    have := Nat.lt_mul_div_succ N hL
    rw [Nat.mul_comm] at this; exact this
  have hlen : (times ++ [t]).length - 1 = N + 1 := by simp [hN]
  have hlen0 : times.length - 1 = N := by omega
  have hmul : ∀ a : Nat, (a + 1) * L = a * L + L := fun a => Nat.succ_mul a L
  have hget : ∀ i, i ≤ N → (times ++ [t])[i]? = times[i]? := fun i hi =>
    List.getElem?_append_left (by omega)
  by_cases hm : (N + 1) % L = 0
  · rw [if_pos (by rw [hN]; exact hm)]
    have hdm := Nat.div_add_mod (N + 1) L
    rw [hm, Nat.add_zero, Nat.mul_comm] at hdm
    have hdiv : (N + 1) / L = N / L + 1 := by
      have h3 : N / L < (N + 1) / L := by
        apply Nat.lt_of_mul_lt_mul_right (a := L)
        omega
      have h4 : (N + 1) / L < N / L + 1 + 1 := by
        rw [Nat.div_lt_iff_lt_mul hL, hmul (N / L + 1)]
        omega
      omega
    rw [hdiv] at hdm
    have e0 : interval (times ++ [t]) L 0 = ⟨N / L + 1, some t, none⟩ := by
      simp only [interval, hlen, hdiv, Nat.zero_le, if_true, Nat.sub_zero, hdm]
      rw [← hN]; simp
    have e1 : interval (times ++ [t]) L 1 = { interval times L 0 with endTime := some t } := by
      simp only [interval, hlen, hlen0, hdiv, Nat.zero_le, if_true, Nat.sub_zero]
      rw [if_pos (Nat.le_add_left 1 _)]
      simp only [Nat.add_sub_cancel, hdm, if_neg (show ¬ (1 = 0) by omega), hget _ hq1]
      rw [← hN]; simp
    have es : ∀ h, 1 ≤ h → interval (times ++ [t]) L (h + 1) = interval times L h := by
      intro h h1
      simp only [interval, hlen, hlen0, hdiv]
      by_cases hh : h ≤ N / L
      · have b1 : (N / L - h) * L ≤ N := Nat.le_trans (Nat.mul_le_mul_right L (Nat.sub_le _ _)) hq1
        have b2 : (N / L - h + 1) * L ≤ N :=
          Nat.le_trans (Nat.mul_le_mul_right L (show N / L - h + 1 ≤ N / L by omega)) hq1
        rw [if_pos (by omega), if_pos hh, show N / L + 1 - (h + 1) = N / L - h by omega, hget _ b1, hget _ b2,
          if_neg (by omega), if_neg (by omega)]
      · rw [if_neg (by omega), if_neg hh]
    have hseq : (interval times L 0).seq = N / L := by simp [interval, hlen0]
    simp only [intervals, endInterval, List.take_succ_cons, List.take_zero, hseq]
    rw [e0, e1, es 1 (by omega), es 2 (by omega)]
    simp only [hseq]
  · rw [if_neg (by rw [hN]; exact hm)]
    have hdiv : (N + 1) / L = N / L := by
      have h4 : N / L ≤ (N + 1) / L := Nat.div_le_div_right (by omega)
      have h5 : (N + 1) / L < N / L + 1 := by
        rw [Nat.div_lt_iff_lt_mul hL]
        rcases Nat.lt_or_ge (N + 1) ((N / L + 1) * L) with h | h
        · exact h
        · exfalso
          apply hm
          have : N + 1 = (N / L + 1) * L := by omega
          rw [this]; exact Nat.mul_mod_left _ _
      omega
    have es : ∀ h, interval (times ++ [t]) L h = interval times L h := by
      intro h
      simp only [interval, hlen, hlen0, hdiv]
      by_cases hh : h ≤ N / L
      · have b1 : (N / L - h) * L ≤ N := Nat.le_trans (Nat.mul_le_mul_right L (Nat.sub_le _ _)) hq1
        rw [if_pos hh, if_pos hh, hget _ b1]
        by_cases h0 : h = 0
        · simp [h0]
        · have b2 : (N / L - h + 1) * L ≤ N :=
            Nat.le_trans (Nat.mul_le_mul_right L (show N / L - h + 1 ≤ N / L by omega)) hq1
          rw [if_neg h0, if_neg h0, hget _ b2]
      · rw [if_neg hh, if_neg hh]
    simp only [intervals, es]

end Verif.Stats
