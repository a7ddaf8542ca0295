import Verif.Stats.Support
import Mathlib.Algebra.Order.BigOperators.Group.List

set_option linter.unusedSimpArgs false
set_option linter.unusedVariables false

/-!
# Properties of the statistics (C20, C21, C22, C23, C24, C59)
-/

namespace Verif.Stats
open Verif.Time

/-! ## C20 -/

/-- Specification: `r` describes the samples `l`, given in the order of arrival. -/
structure IsRange (l : List Sample) (r : Range) : Prop where
  num : r.num = (l.filter (·.qualified)).length
  total : r.total = ((l.filter (·.qualified)).map (·.value)).sum
  totalSq : r.totalSq = ((l.filter (·.qualified)).map (fun s => s.value * s.value)).sum
  qualified : r.qualified = true ↔ ∀ s ∈ l, s.qualified = true
  minLe : ∀ s ∈ l, s.qualified → r.min ≤ s.value
  leMax : ∀ s ∈ l, s.qualified → s.value ≤ r.max
  /-- the minimum is that of the first sample that attains it -/
  minAt : (∃ s ∈ l, s.qualified) → ∃ pre s post, l = pre ++ s :: post ∧ s.qualified ∧ s.value = r.min ∧
    s.time = r.minTime ∧ ∀ x ∈ pre, x.qualified → r.min < x.value
  maxAt : (∃ s ∈ l, s.qualified) → ∃ pre s post, l = pre ++ s :: post ∧ s.qualified ∧ s.value = r.max ∧
    s.time = r.maxTime ∧ ∀ x ∈ pre, x.qualified → x.value < r.max

theorem isRange_of (l : List Sample) (hb : ∀ s ∈ l, -big < s.value ∧ s.value < big) : IsRange l (rangeOf l) := by
  suffices h : IsRange l (rangeOf l) ∧ ((¬ ∃ s ∈ l, s.qualified) → (rangeOf l).min = big ∧ (rangeOf l).max = -big) from h.1
  induction l using List.reverseRecOn with
  | nil =>
    refine ⟨⟨rfl, rfl, rfl, ?_, ?_, ?_, ?_, ?_⟩, fun _ => ⟨rfl, rfl⟩⟩
    · simp [rangeOf, Range.init]
    · intro s hs; cases hs
    · intro s hs; cases hs
    · rintro ⟨s, hs, _⟩; cases hs
    · rintro ⟨s, hs, _⟩; cases hs
  | append_singleton l s ih =>
    obtain ⟨h, hnone⟩ := ih (fun x hx => hb x (by simp [hx]))
    obtain ⟨hlo, hhi⟩ := hb s (by simp)
    have hu : rangeOf (l ++ [s]) = (rangeOf l).update s := by
      unfold rangeOf; rw [List.foldl_append]; rfl
    rw [hu]
    generalize rangeOf l = r at *
    cases hq : s.qualified with
    | false =>
      have hup : r.update s = { r with qualified := false } := by unfold Range.update; simp [hq]
      rw [hup]
      have hex : (∃ x ∈ l ++ [s], x.qualified = true) ↔ ∃ x ∈ l, x.qualified = true := by
        constructor
        · rintro ⟨x, hx, hxq⟩
          rcases List.mem_append.1 hx with h1 | h1
          · exact ⟨x, h1, hxq⟩
          · rw [List.mem_singleton] at h1; subst h1; rw [hq] at hxq; cases hxq
        · rintro ⟨x, hx, hxq⟩; exact ⟨x, by simp [hx], hxq⟩
      refine ⟨⟨?_, ?_, ?_, ?_, ?_, ?_, ?_, ?_⟩, ?_⟩
      · simp [List.filter_append, hq, h.num]
      · simp [List.filter_append, hq, h.total]
      · simp [List.filter_append, hq, h.totalSq]
      · simp only [Bool.false_eq_true, false_iff]
        intro hall
        have := hall s (by simp)
        rw [hq] at this; cases this
      · intro x hx hxq
        rcases List.mem_append.1 hx with h1 | h1
        · exact h.minLe x h1 hxq
        · rw [List.mem_singleton] at h1; subst h1; rw [hq] at hxq; cases hxq
      · intro x hx hxq
        rcases List.mem_append.1 hx with h1 | h1
        · exact h.leMax x h1 hxq
        · rw [List.mem_singleton] at h1; subst h1; rw [hq] at hxq; cases hxq
      · intro he
        obtain ⟨pre, x, post, e1, e2⟩ := h.minAt (hex.1 he)
        exact ⟨pre, x, post ++ [s], by rw [e1]; simp, e2⟩
      · intro he
        obtain ⟨pre, x, post, e1, e2⟩ := h.maxAt (hex.1 he)
        exact ⟨pre, x, post ++ [s], by rw [e1]; simp, e2⟩
      · intro he
        exact hnone (fun h1 => he (hex.2 h1))
    | true =>
      have hup : r.update s = ⟨r.num + 1, r.total + s.value, r.totalSq + s.value * s.value,
          if s.value < r.min then s.value else r.min, if s.value > r.max then s.value else r.max, r.qualified,
          if s.value < r.min then s.time else r.minTime, if s.value > r.max then s.time else r.maxTime⟩ := by
        unfold Range.update; simp [hq]
      rw [hup]
      refine ⟨⟨?_, ?_, ?_, ?_, ?_, ?_, ?_, ?_⟩, ?_⟩
      · simp [List.filter_append, hq, h.num]
      · simp [List.filter_append, hq, h.total]
      · simp [List.filter_append, hq, h.totalSq]
      · simp only [List.mem_append, List.mem_singleton]
        rw [h.qualified]
        constructor
        · rintro h1 x (h2 | rfl)
          · exact h1 x h2
          · exact hq
        · intro h1 x hx; exact h1 x (Or.inl hx)
      · intro x hx hxq
        simp only
        rcases List.mem_append.1 hx with h1 | h1
        · have := h.minLe x h1 hxq
          split <;> grind
        · rw [List.mem_singleton] at h1; subst h1
          split <;> grind
      · intro x hx hxq
        simp only
        rcases List.mem_append.1 hx with h1 | h1
        · have := h.leMax x h1 hxq
          split <;> grind
        · rw [List.mem_singleton] at h1; subst h1
          split <;> grind
      · intro _
        simp only
        by_cases hlt : s.value < r.min
        · simp only [hlt, if_true]
          refine ⟨l, s, [], by simp, hq, rfl, rfl, fun x hx hxq => ?_⟩
          have := h.minLe x hx hxq
          grind
        · simp only [hlt, if_false]
          by_cases he : ∃ x ∈ l, x.qualified = true
          · obtain ⟨pre, x, post, e1, e2⟩ := h.minAt he
            exact ⟨pre, x, post ++ [s], by rw [e1]; simp, e2⟩
          · have := hnone he
            grind
      · intro _
        simp only
        by_cases hlt : s.value > r.max
        · simp only [hlt, if_true]
          refine ⟨l, s, [], by simp, hq, rfl, rfl, fun x hx hxq => ?_⟩
          have := h.leMax x hx hxq
          grind
        · simp only [hlt, if_false]
          by_cases he : ∃ x ∈ l, x.qualified = true
          · obtain ⟨pre, x, post, e1, e2⟩ := h.maxAt he
            exact ⟨pre, x, post ++ [s], by rw [e1]; simp, e2⟩
          · have := hnone he
            grind
      · intro he
        exact absurd ⟨s, by simp, hq⟩ he

theorem mem_slice {σ} {mins : List (List σ)} {L k : Nat} {x : σ} (h : x ∈ slice mins L k) : ∃ m ∈ mins, x ∈ m := by
  unfold slice at h
  rw [List.mem_flatten] at h
  obtain ⟨m, hm, hx⟩ := h
  exact ⟨m, List.mem_of_mem_drop (List.mem_of_mem_take hm), hx⟩

theorem track_mem {σ} (f : Op → List σ) (ops : List Op) :
    (∀ m ∈ (track f ops).1, ∀ x ∈ m, ∃ op ∈ ops, x ∈ f op) ∧ (∀ x ∈ (track f ops).2, ∃ op ∈ ops, x ∈ f op) := by
  induction ops using List.reverseRecOn with
  | nil => simp [track]
  | append_singleton ops op ih =>
    have lift : ∀ x, (∃ op ∈ ops, x ∈ f op) → ∃ o ∈ ops ++ [op], x ∈ f o := by
      rintro x ⟨o, h1, h2⟩; exact ⟨o, by simp [h1], h2⟩
    rw [track_append]
    cases op with
    | tick t =>
      refine ⟨fun m hm x hx => ?_, fun x hx => by cases hx⟩
      simp only [List.mem_append, List.mem_singleton] at hm
      rcases hm with h | h
      · exact lift x (ih.1 m h x hx)
      · subst h; exact lift x (ih.2 x hx)
    | range a s =>
      refine ⟨fun m hm x hx => lift x (ih.1 m hm x hx), fun x hx => ?_⟩
      rcases List.mem_append.1 hx with h | h
      · exact lift x (ih.2 x h)
      · exact ⟨_, by simp, h⟩
    | count a s n =>
      refine ⟨fun m hm x hx => lift x (ih.1 m hm x hx), fun x hx => ?_⟩
      rcases List.mem_append.1 hx with h | h
      · exact lift x (ih.2 x h)
      · exact ⟨_, by simp, h⟩

theorem Ls_get {p : Nat} (hp : p < 5) {T} (f : Nat → T) : (Ls.map f)[p]? = some (f (Ls.getD p 0)) := by
  match p, hp with
  | 0, _ => rfl
  | 1, _ => rfl
  | 2, _ => rfl
  | 3, _ => rfl
  | 4, _ => rfl

theorem entries_get {σ T} (agg : List σ → T) (mins : List (List σ)) (L : Nat) {h : Nat} (hh : h < 4) :
    (entries agg mins L)[h]? = some (entry agg mins L h) := by
  match h, hh with
  | 0, _ => rfl
  | 1, _ => rfl
  | 2, _ => rfl
  | 3, _ => rfl

/-- The period lengths in minutes, as documented: a minute, ten minutes, an hour, a day, a week. -/
def minutes (p : Nat) : Nat := [1, 10, 60, 24 * 60, 7 * 24 * 60].getD p 0

/-- C20.  A collection is created, items are added, and then samples are given
and minutes end, in any order and number.  For a range item, the entry `h` of a
period (0 the one in progress, 1 the last complete one, ...) is present exactly
if that many periods have been completed, and then describes exactly the
samples given for this item in the complete minutes of that period: number,
sum, sum of squares, minimum and maximum with the time of the first sample that
attained them, and whether all samples were qualified. -/
theorem C20_range_statistics_exact (t0 : Ts) (items : List (Nat × Ty)) (hitems : ∀ a ∈ items, a.1 < 256)
    (ops : List Op) (hops : ∀ op ∈ ops, op.ok)
    (hb : ∀ id s, Op.range id s ∈ ops → -big < s.value ∧ s.value < big)
    (id : Nat) (hid : id < 256) (hty : typeOf items id = some .range) (p h : Nat) (hp : p < 5) (hh : h < 4) :
    ∃ c, (adds (Coll.alloc t0) items).bind (run · ops) = some c ∧
      (h ≤ (tickTimes ops).length / minutes p → ∃ r, c.getRange id p h = some (.ok r) ∧
        IsRange (slice (track (rangeData id) ops).1 (minutes p) ((tickTimes ops).length / minutes p - h)) r) ∧
      (¬ h ≤ (tickTimes ops).length / minutes p → c.getRange id p h = some (.error .enoent)) := by
  obtain ⟨c, hc, hinv, hat, _⟩ := Inv.run t0 items hitems ops hops
  refine ⟨c, hc, ?_⟩
  have hL : minutes p = Ls.getD p 0 := rfl
  have h1 := hat id
  rw [hty] at h1
  cases hci : c.at id with
  | none => rw [hci] at h1; cases h1
  | some i =>
    rw [hci] at h1
    cases i with
    | count hh => cases h1
    | range hist =>
      have hok := hinv.item hci
      simp only [ItemOk] at hok
      have hget : c.getRange id p h = match entry rangeOf (track (rangeData id) ops).1 (Ls.getD p 0) h with
          | none => some (.error .enoent)
          | some r => some (.ok r) := by
        simp only [Coll.getRange, typeCheck_spec c id hid, hci, Item.ty, or_true, if_true]
        rw [hok.2, Ls_get hp]
        simp only [entries_get _ _ _ hh]
        cases entry rangeOf (track (rangeData id) ops).1 (Ls.getD p 0) h <;> rfl
      rw [hget, hL]
      unfold entry
      rw [track_length]
      constructor
      · intro hle
        rw [if_pos hle]
        refine ⟨_, rfl, isRange_of _ ?_⟩
        intro s hs
        obtain ⟨m, hm, hx⟩ := mem_slice hs
        obtain ⟨op, hop, hsop⟩ := (track_mem (rangeData id) ops).1 m hm s hx
        cases op with
        | tick t => cases hsop
        | count a b n => cases hsop
        | range a b =>
          simp only [rangeData] at hsop
          split at hsop
          · rw [List.mem_singleton] at hsop; subst hsop
            exact hb _ _ hop
          · cases hsop
      · intro hnle
        rw [if_neg hnle]

/-- Two samples in the first minute and one in the second, for item 3. -/
def exOps : List Op :=
  [.range 3 ⟨5, ⟨10, 0, 0⟩, true⟩, .count 1 7 2, .range 3 ⟨-2, ⟨11, 0, 0⟩, true⟩, .range 3 ⟨-9, ⟨12, 0, 0⟩, false⟩,
   .tick ⟨60, 0, 0⟩, .range 3 ⟨4, ⟨61, 0, 0⟩, true⟩, .count 1 1 1, .tick ⟨120, 0, 0⟩]

example : ∃ c, (adds (Coll.alloc ⟨0, 0, 0⟩) [(3, .range), (1, .count), (3, .count)]).bind (run · exOps) = some c ∧
    c.getRange 3 0 2 = some (.ok ⟨2, 3, 29, -2, 5, false, ⟨11, 0, 0⟩, ⟨10, 0, 0⟩⟩) ∧
    c.getRange 3 0 3 = some (.error .enoent) ∧
    c.getRange 3 1 0 = some (.ok ⟨3, 7, 45, -2, 5, false, ⟨11, 0, 0⟩, ⟨10, 0, 0⟩⟩) ∧
    (2 : Nat) ≤ (tickTimes exOps).length / minutes 0 ∧ typeOf [(3, Ty.range), (1, .count), (3, .count)] 3 = some .range := by
  refine ⟨((adds (Coll.alloc ⟨0, 0, 0⟩) [(3, .range), (1, .count), (3, .count)]).bind (run · exOps)).getD (Coll.alloc ⟨0, 0, 0⟩), ?_⟩
  decide +kernel

/-! ## C21 -/

/-- C21, full statement: the reported total and number of samples are the sums
over the updates supplied. -/
def C21_count_statistics_statement : Prop :=
  ∀ (t0 : Ts) (items : List (Nat × Ty)) (ops : List Op) (c : Coll), (∀ a ∈ items, a.1 < 256) → (∀ op ∈ ops, op.ok) →
    (adds (Coll.alloc t0) items).bind (run · ops) = some c →
    ∀ (id p h : Nat) (r : Count), id < 256 → typeOf items id = some .count → p < 5 → h < 4 →
      c.getCount id p h = some (.ok r) →
      let data := slice (track (countData id) ops).1 (minutes p) ((tickTimes ops).length / minutes p - h)
      r.total = (data.map (·.1)).sum ∧ r.num = (data.map (·.2)).sum

/-- The number of samples given to
`sfptpd_stats_collection_update_count_samples` is ignored. -/
theorem C21_count_statistics_violated : ¬ C21_count_statistics_statement := by
  intro h
  have hrun : (adds (Coll.alloc ⟨0, 0, 0⟩) [(0, .count)]).bind (run · [.count 0 5 3, .tick ⟨60, 0, 0⟩]) =
      some (((adds (Coll.alloc ⟨0, 0, 0⟩) [(0, .count)]).bind (run · [.count 0 5 3, .tick ⟨60, 0, 0⟩])).getD
        (Coll.alloc ⟨0, 0, 0⟩)) := by decide +kernel
  have := h ⟨0, 0, 0⟩ [(0, .count)] [.count 0 5 3, .tick ⟨60, 0, 0⟩] _ (by simp)
    (by intro op hop; simp at hop; rcases hop with rfl | rfl <;> simp [Op.ok]) hrun 0 0 1 ⟨1, 5⟩ (by omega) rfl (by omega) (by omega)
    (by decide +kernel)
  exact absurd this (by decide)

/-- C21, what holds: the total is exact and the number is the number of updates
(so it is exact if every update was for one sample); entries are present
exactly for the periods that have been completed.  Missing: the number of
samples of updates for several samples, see `C21_count_statistics_violated`. -/
theorem C21_count_statistics_partial (t0 : Ts) (items : List (Nat × Ty)) (hitems : ∀ a ∈ items, a.1 < 256)
    (ops : List Op) (hops : ∀ op ∈ ops, op.ok)
    (id : Nat) (hid : id < 256) (hty : typeOf items id = some .count) (p h : Nat) (hp : p < 5) (hh : h < 4) :
    ∃ c, (adds (Coll.alloc t0) items).bind (run · ops) = some c ∧
      (h ≤ (tickTimes ops).length / minutes p → ∃ r, c.getCount id p h = some (.ok r) ∧
        let data := slice (track (countData id) ops).1 (minutes p) ((tickTimes ops).length / minutes p - h)
        r.total = (data.map (·.1)).sum ∧ r.num = data.length ∧
          ((∀ u ∈ data, u.2 = 1) → r.num = (data.map (·.2)).sum)) ∧
      (¬ h ≤ (tickTimes ops).length / minutes p → c.getCount id p h = some (.error .enoent)) := by
  obtain ⟨c, hc, hinv, hat, _⟩ := Inv.run t0 items hitems ops hops
  refine ⟨c, hc, ?_⟩
  have hL : minutes p = Ls.getD p 0 := rfl
  have h1 := hat id
  rw [hty] at h1
  cases hci : c.at id with
  | none => rw [hci] at h1; cases h1
  | some i =>
    rw [hci] at h1
    cases i with
    | range hh => cases h1
    | count hist =>
      have hok := hinv.item hci
      simp only [ItemOk] at hok
      have hget : c.getCount id p h = match entry countOf (track (countData id) ops).1 (Ls.getD p 0) h with
          | none => some (.error .enoent)
          | some r => some (.ok r) := by
        simp only [Coll.getCount, typeCheck_spec c id hid, hci, Item.ty, or_true, if_true]
        rw [hok.2, Ls_get hp]
        simp only [entries_get _ _ _ hh]
        cases entry countOf (track (countData id) ops).1 (Ls.getD p 0) h <;> rfl
      rw [hget, hL]
      unfold entry
      rw [track_length]
      constructor
      · intro hle
        rw [if_pos hle]
        refine ⟨_, rfl, rfl, rfl, ?_⟩
        generalize slice (track (countData id) ops).1 (Ls.getD p 0) ((tickTimes ops).length / Ls.getD p 0 - h) = data
        intro hone
        simp only [countOf]
        induction data with
        | nil => rfl
        | cons u data ih =>
          have := hone u (List.mem_cons_self ..)
          have := ih (fun u hu => hone u (List.mem_cons_of_mem _ hu))
          simp only [List.length_cons, List.map_cons, List.sum_cons]
          omega
      · intro hnle
        rw [if_neg hnle]

example : ∃ c, (adds (Coll.alloc ⟨0, 0, 0⟩) [(3, .range), (1, .count)]).bind (run · exOps) = some c ∧
    c.getCount 1 0 2 = some (.ok ⟨1, 7⟩) ∧ c.getCount 1 1 0 = some (.ok ⟨2, 8⟩) ∧
    typeOf [(3, Ty.range), (1, .count)] 1 = some .count := by
  refine ⟨((adds (Coll.alloc ⟨0, 0, 0⟩) [(3, .range), (1, .count)]).bind (run · exOps)).getD (Coll.alloc ⟨0, 0, 0⟩), ?_⟩
  decide +kernel

/-! ## C59 -/

/-- Specification: time number `k`, the creation time being number 0. -/
def timeOf (t0 : Ts) (ops : List Op) (k : Nat) : Option Ts := (t0 :: tickTimes ops)[k]?

/-- C59.  The interval record reported for entry `h` of a period is that of the
period whose statistics are in that entry: its sequence number is the number of
the period, it starts when that period started and ends when it ended; the
period in progress has no end. -/
theorem C59_intervals_match_entries (t0 : Ts) (items : List (Nat × Ty)) (hitems : ∀ a ∈ items, a.1 < 256)
    (ops : List Op) (hops : ∀ op ∈ ops, op.ok) (hty : typeOf items 0 ≠ none) (p h : Nat) (hp : p < 5) (hh : h < 4) :
    ∃ c i, (adds (Coll.alloc t0) items).bind (run · ops) = some c ∧ c.getInterval p h = some (.ok i) ∧
      (h ≤ (tickTimes ops).length / minutes p →
        i.seq = (tickTimes ops).length / minutes p - h ∧ i.startTime = timeOf t0 ops (i.seq * minutes p) ∧
        i.startTime.isSome ∧
        (h = 0 → i.endTime = none) ∧
        (h ≠ 0 → i.endTime = timeOf t0 ops ((i.seq + 1) * minutes p) ∧ i.endTime.isSome)) ∧
      (¬ h ≤ (tickTimes ops).length / minutes p → i.startTime = none ∧ i.endTime = none) := by
  obtain ⟨c, hc, hinv, hat, _⟩ := Inv.run t0 items hitems ops hops
  have hL : minutes p = Ls.getD p 0 := rfl
  have h1 := hat 0
  have hne : c.at 0 ≠ none := by
    intro hn; rw [hn] at h1; exact hty h1.symm
  obtain ⟨it, hit⟩ := Option.ne_none_iff_exists'.1 hne
  have hpos : 0 < minutes p := by
    match p, hp with
    | 0, _ => decide
    | 1, _ => decide
    | 2, _ => decide
    | 3, _ => decide
    | 4, _ => decide
  have hget : c.getInterval p h = some (.ok (interval (t0 :: tickTimes ops) (minutes p) h)) := by
    simp only [Coll.getInterval, typeCheck_spec c 0 (by omega), hit, true_or, if_true]
    rw [hinv.intervals, Ls_get hp, hL]
    match h, hh with
    | 0, _ => rfl
    | 1, _ => rfl
    | 2, _ => rfl
    | 3, _ => rfl
  refine ⟨c, _, hc, hget, ?_⟩
  unfold interval timeOf
  simp only [List.length_cons, Nat.add_sub_cancel]
  generalize hN : (tickTimes ops).length = N at *
  have hq : N / minutes p * minutes p ≤ N := Nat.div_mul_le_self _ _
  generalize N / minutes p = q at *
  generalize minutes p = L at *
  have hsome : ∀ k, k ≤ N → ((t0 :: tickTimes ops)[k]?).isSome = true := by
    intro k hk
    simp [List.getElem?_eq_getElem (show k < (t0 :: tickTimes ops).length by simp [hN]; omega)]
  constructor
  · intro hle
    rw [if_pos hle]
    refine ⟨rfl, rfl, hsome _ (Nat.le_trans (Nat.mul_le_mul_right L (Nat.sub_le q h)) hq), fun h0 => by simp [h0], fun h0 => ?_⟩
    simp only [if_neg h0, true_and]
    exact hsome _ (Nat.le_trans (Nat.mul_le_mul_right L (by omega)) hq)
  · intro hnle
    rw [if_neg hnle]
    exact ⟨rfl, rfl⟩

example : ∃ c, (adds (Coll.alloc ⟨0, 0, 0⟩) [(3, .range), (0, .count)]).bind (run · exOps) = some c ∧
    c.getInterval 0 1 = some (.ok ⟨1, some ⟨60, 0, 0⟩, some ⟨120, 0, 0⟩⟩) ∧
    c.getInterval 1 0 = some (.ok ⟨0, some ⟨0, 0, 0⟩, none⟩) ∧
    typeOf [(3, Ty.range), (0, .count)] 0 ≠ none := by
  refine ⟨((adds (Coll.alloc ⟨0, 0, 0⟩) [(3, .range), (0, .count)]).bind (run · exOps)).getD (Coll.alloc ⟨0, 0, 0⟩), ?_⟩
  decide +kernel

/-! ## C24 -/

/-- Specification: the documented result for an identifier that has the given type or none. -/
def docError (present : Option Ty) (wanted : Ty) : Option (List Err) :=
  match present with
  | none => some [.erange, .enoent]
  | some ty => if ty = wanted then none else some [.einval]

/-- The result `e` is the documented one. -/
def Documented (present : Option Ty) (wanted : Ty) (e : Option Err) : Prop :=
  match docError present wanted with
  | none => e = none
  | some es => ∃ x ∈ es, e = some x

/-- C24.  For a collection in any state of use, an update or a query succeeds
exactly if the identifier was added with that type (the type of the first
addition counts); otherwise the documented error is returned and the collection
is unchanged.  Adding an identifier again is refused with `EEXIST` and no item
is changed; adding a new one changes no other item, whatever the growth of the
table, and the item can be used at once. -/
theorem C24_collection_type_checks (t0 : Ts) (items : List (Nat × Ty)) (hitems : ∀ a ∈ items, a.1 < 256)
    (ops : List Op) (hops : ∀ op ∈ ops, op.ok) (id : Nat) (hid : id < 256) :
    ∃ c, (adds (Coll.alloc t0) items).bind (run · ops) = some c ∧
      -- updates
      (∀ s, ∃ e c', c.updateRange id s = some (e, c') ∧ Documented (typeOf items id) .range e ∧
        (e ≠ none → c' = c) ∧ ∀ j, j ≠ id → c'.at j = c.at j) ∧
      (∀ s n, ∃ e c', c.updateCountSamples id s n = some (e, c') ∧ Documented (typeOf items id) .count e ∧
        (e ≠ none → c' = c) ∧ ∀ j, j ≠ id → c'.at j = c.at j) ∧
      -- queries
      (∀ p h, p < 5 → h < 4 →
        (typeOf items id ≠ some .range → ∃ e, c.getRange id p h = some (.error e) ∧
          Documented (typeOf items id) .range (some e)) ∧
        (typeOf items id ≠ some .count → ∃ e, c.getCount id p h = some (.error e) ∧
          Documented (typeOf items id) .count (some e))) ∧
      -- additions
      (∀ ty, ∃ e c', c.add id ty = some (e, c') ∧
        (e = if typeOf items id = none then none else some .eexist) ∧
        (∀ j, j ≠ id → c'.at j = c.at j) ∧ (e ≠ none → c'.at id = c.at id) ∧
        (c'.at id).map Item.ty = some ((typeOf items id).getD ty)) := by
  obtain ⟨c, hc, hinv, hat, hne⟩ := Inv.run t0 items hitems ops hops
  refine ⟨c, hc, ?_, ?_, ?_, ?_⟩
  · intro s
    simp only [Coll.updateRange, typeCheck_spec c id hid]
    have h1 := hat id
    cases hci : c.at id with
    | none =>
      rw [hci] at h1
      simp only at h1 ⊢
      refine ⟨_, c, rfl, ?_, fun _ => rfl, fun _ _ => rfl⟩
      rw [← h1]
      simp only [Documented, docError, Option.map_none]
      split <;> simp
    | some i =>
      rw [hci] at h1
      rw [← h1]
      cases i with
      | count hh => exact ⟨some .einval, c, rfl, ⟨_, by simp [Item.ty], rfl⟩, fun _ => rfl, fun _ _ => rfl⟩
      | range hh =>
        simp only [Item.ty, or_true, if_true]
        refine ⟨none, _, rfl, rfl, fun h => absurd rfl h, fun j hj => ?_⟩
        rw [at_set c id _ _ hci, if_neg hj]
  · intro s n
    simp only [Coll.updateCountSamples, typeCheck_spec c id hid]
    have h1 := hat id
    cases hci : c.at id with
    | none =>
      rw [hci] at h1
      simp only at h1 ⊢
      refine ⟨_, c, rfl, ?_, fun _ => rfl, fun _ _ => rfl⟩
      rw [← h1]
      simp only [Documented, docError, Option.map_none]
      split <;> simp
    | some i =>
      rw [hci] at h1
      rw [← h1]
      cases i with
      | range hh => exact ⟨some .einval, c, rfl, ⟨_, by simp [Item.ty], rfl⟩, fun _ => rfl, fun _ _ => rfl⟩
      | count hh =>
        simp only [Item.ty, or_true, if_true]
        refine ⟨none, _, rfl, rfl, fun h => absurd rfl h, fun j hj => ?_⟩
        rw [at_set c id _ _ hci, if_neg hj]
  · intro p h hp hh
    have h1 := hat id
    constructor
    · intro hn
      simp only [Coll.getRange, typeCheck_spec c id hid]
      cases hci : c.at id with
      | none =>
        rw [hci] at h1
        refine ⟨_, rfl, ?_⟩
        rw [← h1]
        simp only [Documented, docError, Option.map_none]
        split <;> simp
      | some i =>
        rw [hci] at h1
        rw [← h1] at hn ⊢
        cases i with
        | range hh => exact absurd rfl hn
        | count hh => exact ⟨.einval, rfl, ⟨_, by simp [Item.ty], rfl⟩⟩
    · intro hn
      simp only [Coll.getCount, typeCheck_spec c id hid]
      cases hci : c.at id with
      | none =>
        rw [hci] at h1
        refine ⟨_, rfl, ?_⟩
        rw [← h1]
        simp only [Documented, docError, Option.map_none]
        split <;> simp
      | some i =>
        rw [hci] at h1
        rw [← h1] at hn ⊢
        cases i with
        | count hh => exact absurd rfl hn
        | range hh => exact ⟨.einval, rfl, ⟨_, by simp [Item.ty], rfl⟩⟩
  · intro ty
    obtain ⟨e, c', h1, _, _, _, _, h5, h6⟩ := add_spec c hne id hid ty
    refine ⟨e, c', h1, ?_, h5, ?_, ?_⟩
    · have := hat id
      cases hci : c.at id with
      | none => rw [hci] at h6 this; rw [← this]; exact h6.1
      | some i => rw [hci] at h6 this; rw [← this]; exact h6.1
    · intro he
      cases hci : c.at id with
      | none => rw [hci] at h6; exact absurd h6.1 he
      | some i => rw [hci] at h6; exact h6.2
    · have := hat id
      cases hci : c.at id with
      | none =>
        rw [hci] at h6 this; rw [← this, h6.2]
        cases ty <;> rfl
      | some i => rw [hci] at h6 this; rw [← this, h6.2]; rfl

example : ∃ c, (adds (Coll.alloc ⟨0, 0, 0⟩) [(3, .range), (1, .count)]).bind (run · exOps) = some c ∧
    (c.updateRange 1 ⟨1, ⟨0, 0, 0⟩, true⟩).map (·.1) = some (some .einval) ∧
    (c.updateRange 2 ⟨1, ⟨0, 0, 0⟩, true⟩).map (·.1) = some (some .enoent) ∧
    (c.updateRange 99 ⟨1, ⟨0, 0, 0⟩, true⟩).map (·.1) = some (some .erange) ∧
    (c.updateRange 3 ⟨1, ⟨0, 0, 0⟩, true⟩).map (·.1) = some none ∧
    (c.add 3 .count).map (·.1) = some (some .eexist) ∧ (c.add 200 .count).map (·.1) = some none := by
  refine ⟨((adds (Coll.alloc ⟨0, 0, 0⟩) [(3, .range), (1, .count)]).bind (run · exOps)).getD (Coll.alloc ⟨0, 0, 0⟩), ?_⟩
  decide +kernel

/-! ## C22 -/

/-- Adding or removing a sample. -/
inductive SdOp where
  | add (x : Rat)
  | remove (x : Rat)

/-- The effect on the measure. -/
def sdStep (s : StdDev) : SdOp → Option StdDev
  | .add x => some (s.add x)
  | .remove x => s.remove x

/-- A sequence of additions and removals. -/
def sdRun (s : StdDev) : List SdOp → Option StdDev
  | [] => some s
  | op :: ops => (sdStep s op).bind (sdRun · ops)

/-- Specification: the samples included afterwards; `none` if a sample is
removed that is not included. -/
def members (l : List Rat) : List SdOp → Option (List Rat)
  | [] => some l
  | .add x :: ops => members (x :: l) ops
  | .remove x :: ops => if x ∈ l then members (l.erase x) ops else none

/-- Specification: the mean. -/
def mean (l : List Rat) : Rat := l.sum / l.length

/-- Specification: the variance, the mean squared distance from the mean. -/
def variance (l : List Rat) : Rat := (l.map (fun x => (x - mean l) * (x - mean l))).sum / l.length

theorem sum_dev (l : List Rat) (m : Rat) :
    (l.map (fun x => (x - m) * (x - m))).sum =
      (l.map (fun x => x * x)).sum - 2 * m * l.sum + l.length * (m * m) := by
  induction l with
  | nil => simp
  | cons x l ih =>
    simp only [List.map_cons, List.sum_cons, ih, List.length_cons]
    push_cast
    grind

theorem sdRun_spec (ops : List SdOp) : ∀ (s : StdDev) (l l' : List Rat),
    s.num = l.length → s.sum = l.sum → s.sumSq = (l.map (fun x => x * x)).sum → members l ops = some l' →
    ∃ s', sdRun s ops = some s' ∧ s'.num = l'.length ∧ s'.sum = l'.sum ∧ s'.sumSq = (l'.map (fun x => x * x)).sum := by
  induction ops with
  | nil => intro s l l' h1 h2 h3 h4; cases h4; exact ⟨s, rfl, h1, h2, h3⟩
  | cons op ops ih =>
    intro s l l' h1 h2 h3 h4
    cases op with
    | add x =>
      apply ih (s.add x) (x :: l) l' _ _ _ h4
      · simp [StdDev.add, h1]
      · simp only [StdDev.add, h2, List.sum_cons]; grind
      · simp only [StdDev.add, h3, List.map_cons, List.sum_cons]; grind
    | remove x =>
      unfold members at h4
      split at h4
      · rename_i hx
        have hpos : 0 < s.num := by rw [h1]; exact List.length_pos_of_mem hx
        have e1 := List.sum_map_erase (f := fun x => x) hx
        have e2 := List.sum_map_erase (f := fun x : Rat => x * x) hx
        simp only [List.map_id_fun', id] at e1
        obtain ⟨s', g1, g2⟩ := ih ⟨s.num - 1, s.sum - x, s.sumSq - x * x⟩ (l.erase x) l'
          (by simp [h1, List.length_erase_of_mem hx]) (by simp only [h2]; grind) (by simp only [h3]; grind) h4
        refine ⟨s', ?_, g2⟩
        simp only [sdRun, sdStep, StdDev.remove, if_pos hpos, Option.bind_some]
        exact g1
      · cases h4

/-- C22.  After any additions and removals of included samples, at least one
remaining, the mean reported is that of the samples included and the value
whose root is reported is their variance, which is never negative. -/
theorem C22_std_dev_exact (ops : List SdOp) (l : List Rat) (hm : members [] ops = some l) (hne : l ≠ []) :
    ∃ s v, sdRun StdDev.init ops = some s ∧ s.get = some (mean l, v) ∧ v = variance l ∧ 0 ≤ v := by
  obtain ⟨s, h1, h2, h3, h4⟩ := sdRun_spec ops StdDev.init [] l rfl rfl rfl hm
  have hlen : 0 < l.length := List.length_pos_iff.2 hne
  have hn : (l.length : Rat) ≠ 0 := by exact_mod_cast (Nat.ne_of_gt hlen)
  have hv : s.sumSq / s.num - (s.sum / s.num) * (s.sum / s.num) = variance l := by
    rw [h2, h3, h4]
    unfold variance
    rw [sum_dev]
    unfold mean
    generalize (l.map (fun x => x * x)).sum = a
    generalize l.sum = b
    generalize (l.length : Rat) = n at *
    grind
  refine ⟨s, variance l, h1, ?_, rfl, ?_⟩
  · unfold StdDev.get
    rw [if_pos (by omega)]
    simp only [hv, Option.some.injEq, Prod.mk.injEq, and_true]
    rw [h2, h3]; rfl
  · unfold variance
    apply div_nonneg
    · apply List.sum_nonneg
      intro y hy
      rw [List.mem_map] at hy
      obtain ⟨x, _, rfl⟩ := hy
      exact mul_self_nonneg _
    · exact_mod_cast Nat.zero_le _

example : members [] [.add 1, .add 5, .add 3, .remove 5, .add 7] = some [7, 3, 1] ∧ ([7, 3, 1] : List Rat) ≠ [] ∧
    variance [7, 3, 1] = 56 / 9 := by decide +kernel

/-! ## C23 -/

/-- What happens to a convergence measure. -/
inductive CvOp where
  | update (time : Int) (offset : Rat)
  | reset

/-- The effect. -/
def cvStep (c : Conv) : CvOp → Conv
  | .update t o => (c.update t o).1
  | .reset => c.reset

/-- Specification: the event is an update within the limit. -/
def CvOp.good (limit : Rat) : CvOp → Bool
  | .update _ o => decide (-limit ≤ o ∧ o ≤ limit)
  | .reset => false

/-- Specification: the time of an event. -/
def CvOp.time : CvOp → Option Int
  | .update t _ => some t
  | .reset => none

/-- Specification: the events since the last excursion or reset, latest first. -/
def since (limit : Rat) (hist : List CvOp) : List CvOp := hist.reverse.takeWhile (CvOp.good limit)

theorem since_snoc (limit : Rat) (hist : List CvOp) (op : CvOp) :
    since limit (hist ++ [op]) = if op.good limit then op :: since limit hist else [] := by
  unfold since
  rw [List.reverse_append]
  simp only [List.reverse_cons, List.reverse_nil, List.nil_append, List.singleton_append, List.takeWhile_cons]

/-- The times of a history in order. -/
def times (hist : List CvOp) : List Int := hist.filterMap CvOp.time

theorem cv_inv (c0 : Conv) (h0 : c0 = c0.reset) (hist : List CvOp)
    (hmono : (times hist).Pairwise (· ≤ ·)) (hpos : ∀ t ∈ times hist, 0 ≤ t) :
    let c := hist.foldl cvStep c0
    c.minPeriod = c0.minPeriod ∧ c.maxOffset = c0.maxOffset ∧ c.numSamples = (since c0.maxOffset hist).length ∧
      (match (since c0.maxOffset hist).getLast? with
       | none => c.startTime = 0
       | some op => op.time = some c.startTime) ∧
      (c.startTime = 0 ∨ c.startTime ∈ times hist) := by
  induction hist using List.reverseRecOn with
  | nil =>
    have : c0.numSamples = 0 ∧ c0.startTime = 0 := by rw [h0]; exact ⟨rfl, rfl⟩
    simp only [List.foldl_nil]
    refine ⟨trivial, trivial, ?_, ?_, Or.inl this.2⟩
    · rw [this.1]; rfl
    · exact this.2
  | append_singleton hist op ih =>
    have ht : times (hist ++ [op]) = times hist ++ op.time.toList := by
      unfold times; rw [List.filterMap_append]; simp [List.filterMap_cons]; cases op.time <;> rfl
    rw [ht] at hmono hpos
    rw [List.pairwise_append] at hmono
    have ih := ih hmono.1 (fun t h => hpos t (by simp [h]))
    simp only at ih
    simp only [List.foldl_append, List.foldl_cons, List.foldl_nil]
    generalize hist.foldl cvStep c0 = c at *
    obtain ⟨i1, i2, i3, i4, i5⟩ := ih
    rw [since_snoc]
    cases op with
    | reset =>
      simp only [CvOp.good, Bool.false_eq_true, if_false, cvStep, Conv.reset, List.length_nil, List.getLast?_nil]
      exact ⟨i1, i2, trivial, trivial, Or.inl trivial⟩
    | update t o =>
      have hge : ¬ t < c.startTime := by
        have ht0 := hpos t (by simp [CvOp.time])
        rcases i5 with h | h
        · omega
        · have := hmono.2.2 c.startTime h t (by simp [CvOp.time])
          omega
      by_cases hg : -c0.maxOffset ≤ o ∧ o ≤ c0.maxOffset
      · have hng : ¬ (o < -c.maxOffset ∨ o > c.maxOffset) := by rw [i2]; grind
        have hgood : (CvOp.update t o).good c0.maxOffset = true := by simp only [CvOp.good]; exact decide_eq_true hg
        simp only [hgood, if_true, cvStep, Conv.update, if_neg hng, if_neg hge]
        refine ⟨i1, i2, by simp [i3], ?_, ?_⟩
        · cases hs : since c0.maxOffset hist with
          | nil =>
            have : c.numSamples = 0 := by rw [i3, hs]; rfl
            simp [this, CvOp.time]
          | cons a l =>
            have : c.numSamples ≠ 0 := by rw [i3, hs]; simp
            rw [hs] at i4
            simp only [List.getLast?_cons_cons, this, if_false]
            exact i4
        · rw [ht]
          split
          · exact Or.inr (by simp [CvOp.time])
          · rcases i5 with h | h
            · exact Or.inl h
            · exact Or.inr (by simp [h])
      · have hng : (o < -c.maxOffset ∨ o > c.maxOffset) := by rw [i2]; grind
        have hgood : (CvOp.update t o).good c0.maxOffset = false := by simp only [CvOp.good]; exact decide_eq_false hg
        simp only [hgood, Bool.false_eq_true, if_false, cvStep, Conv.update, if_pos hng, Conv.reset, List.length_nil,
          List.getLast?_nil]
        exact ⟨i1, i2, trivial, trivial, Or.inl trivial⟩

/-- C23.  For a measure that starts reset and any history of updates and resets
with non-decreasing times, an update reports convergence exactly if its offset
is within the limit and the uninterrupted run of updates within the limit that
it ends started at least the minimum period before it. -/
theorem C23_convergence_exact (c0 : Conv) (h0 : c0 = c0.reset) (hist : List CvOp) (t : Int) (o : Rat)
    (hmono : (times (hist ++ [.update t o])).Pairwise (· ≤ ·)) (hpos : ∀ x ∈ times (hist ++ [.update t o]), 0 ≤ x) :
    ((hist.foldl cvStep c0).update t o).2 = true ↔
      ∃ first t1, (since c0.maxOffset (hist ++ [.update t o])).getLast? = some first ∧ first.time = some t1 ∧
        t1 + c0.minPeriod ≤ t := by
  have ht : times (hist ++ [.update t o]) = times hist ++ [t] := by
    unfold times; rw [List.filterMap_append]; simp [List.filterMap_cons, CvOp.time]
  rw [ht] at hmono hpos
  rw [List.pairwise_append] at hmono
  have hi := cv_inv c0 h0 hist hmono.1 (fun t h => hpos t (by simp [h]))
  simp only at hi
  generalize hist.foldl cvStep c0 = c at *
  obtain ⟨i1, i2, i3, i4, i5⟩ := hi
  have hge : ¬ t < c.startTime := by
    have ht0 := hpos t (by simp)
    rcases i5 with h | h
    · omega
    · have := hmono.2.2 c.startTime h t (by simp)
      omega
  rw [since_snoc]
  by_cases hg : -c0.maxOffset ≤ o ∧ o ≤ c0.maxOffset
  · have hng : ¬ (o < -c.maxOffset ∨ o > c.maxOffset) := by rw [i2]; grind
    have hgood : (CvOp.update t o).good c0.maxOffset = true := by simp only [CvOp.good]; exact decide_eq_true hg
    simp only [hgood, if_true, Conv.update, if_neg hng, if_neg hge, decide_eq_true_eq]
    cases hs : since c0.maxOffset hist with
    | nil =>
      have : c.numSamples = 0 := by rw [i3, hs]; rfl
      simp [this, CvOp.time, i1]
    | cons a l =>
      have : c.numSamples ≠ 0 := by rw [i3, hs]; simp
      rw [hs] at i4
      simp only [List.getLast?_cons_cons, this, if_false]
      cases hl : (a :: l).getLast? with
      | none => simp at hl
      | some f =>
        rw [hl] at i4
        simp only at i4
        constructor
        · intro h
          exact ⟨f, c.startTime, rfl, i4, by omega⟩
        · rintro ⟨first, t1, e1, e2, e3⟩
          cases e1
          rw [i4] at e2
          cases e2
          omega
  · have hng : (o < -c.maxOffset ∨ o > c.maxOffset) := by rw [i2]; grind
    have hgood : (CvOp.update t o).good c0.maxOffset = false := by simp only [CvOp.good]; exact decide_eq_false hg
    simp [hgood, Conv.update, if_pos hng]

example :
    let c0 : Conv := ⟨60, 1000, 0, 0, 0⟩
    let hist : List CvOp := [.update 10 500, .update 40 2000, .update 50 (-900), .update 100 10]
    c0 = c0.reset ∧ ((hist.foldl cvStep c0).update 109 5).2 = false ∧ ((hist.foldl cvStep c0).update 110 5).2 = true ∧
      (times (hist ++ [.update 110 5])).Pairwise (· ≤ ·) := by
  decide +kernel

end Verif.Stats
