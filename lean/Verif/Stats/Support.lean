import Verif.Stats.Lemmas
import Mathlib.Algebra.BigOperators.Group.List.Basic
import Mathlib.Algebra.Order.Field.Rat
import Mathlib.Data.List.Induction

set_option linter.unusedSimpArgs false
set_option linter.unusedVariables false

/-!
# Use of a statistics collection: specification and invariant
-/

namespace Verif.Stats
open Verif.Time

/-! ## Use of a collection -/

/-- What is done with a collection once its items have been added. -/
inductive Op where
  | range (id : Nat) (s : Sample)
  | count (id sample num : Nat)
  | tick (t : Ts)

/-- The identifiers used are in range (asserted by the code). -/
def Op.ok : Op → Prop
  | .range id _ => id < 256
  | .count id _ _ => id < 256
  | .tick _ => True

/-- One operation, errors being ignored as the callers do. -/
def step (c : Coll) : Op → Option Coll
  | .range id s => (c.updateRange id s).map (·.2)
  | .count id s n => (c.updateCountSamples id s n).map (·.2)
  | .tick t => some (c.endPeriod t)

/-- A sequence of operations. -/
def run (c : Coll) : List Op → Option Coll
  | [] => some c
  | op :: ops => (step c op).bind (run · ops)

/-- Adding items at startup. -/
def adds (c : Coll) : List (Nat × Ty) → Option Coll
  | [] => some c
  | (id, ty) :: l => (c.add id ty).bind (fun r => adds r.2 l)

/-- Specification: the data of the complete minutes and of the minute in progress. -/
def track {σ} (f : Op → List σ) (ops : List Op) : List (List σ) × List σ :=
  ops.foldl (fun acc op => match op with
    | .tick _ => (acc.1 ++ [acc.2], [])
    | op => (acc.1, acc.2 ++ f op)) ([], [])

/-- Specification: the samples given for range item `id`. -/
def rangeData (id : Nat) : Op → List Sample
  | .range i s => if i = id then [s] else []
  | _ => []

/-- Specification: the updates (value, number of samples) given for count item `id`. -/
def countData (id : Nat) : Op → List (Nat × Nat)
  | .count i s n => if i = id then [(s, n)] else []
  | _ => []

/-- Specification: the tick times. -/
def tickTimes : List Op → List Ts
  | [] => []
  | .tick t :: ops => t :: tickTimes ops
  | _ :: ops => tickTimes ops

/-! ## Aggregates -/

/-- The range measure over a list of samples. -/
def rangeOf (l : List Sample) : Range := l.foldl Range.update Range.init

theorem rangeOf_bounds (l : List Sample) : ∀ r : Range, r.min ≤ big → -big ≤ r.max →
    (l.foldl Range.update r).min ≤ big ∧ -big ≤ (l.foldl Range.update r).max := by
  induction l with
  | nil => intro r h1 h2; exact ⟨h1, h2⟩
  | cons s l ih =>
    intro r h1 h2
    rw [List.foldl_cons]
    apply ih
    · unfold Range.update; split
      · simp only; split <;> grind
      · exact h1
    · unfold Range.update; split
      · simp only; split <;> grind
      · exact h2

theorem Range.add_update (r x : Range) (s : Sample) : r.add (x.update s) = (r.add x).update s := by
  unfold Range.update
  split
  · rename_i hq
    unfold Range.add
    simp only [Range.mk.injEq]
    refine ⟨by omega, by grind, by grind, by grind, by grind, by grind, by grind, by grind⟩
  · unfold Range.add
    simp

theorem rangeOf_add (a b : List Sample) : (rangeOf a).add (rangeOf b) = rangeOf (a ++ b) := by
  have h0 : (rangeOf a).add Range.init = rangeOf a := by
    have := rangeOf_bounds a Range.init (by simp [Range.init]) (by simp [Range.init])
    unfold Range.add rangeOf Range.init
    rw [show (a.foldl Range.update Range.init) = rangeOf a from rfl] at this
    have e1 : ¬ big < (rangeOf a).min := by grind
    have e2 : ¬ -big > (rangeOf a).max := by grind
    unfold rangeOf Range.init at e1 e2
    simp [e1, e2]
  have key : ∀ (l : List Sample) (x : Range), (rangeOf a).add (l.foldl Range.update x) =
      l.foldl Range.update ((rangeOf a).add x) := by
    intro l
    induction l with
    | nil => intro x; rfl
    | cons s l ih => intro x; rw [List.foldl_cons, ih, Range.add_update, List.foldl_cons]
  unfold rangeOf at key h0 ⊢
  rw [key, h0, List.foldl_append]

/-- The count measure over a list of updates, as the code computes it. -/
def countOf (l : List (Nat × Nat)) : Count := ⟨l.length, (l.map (·.1)).sum⟩

theorem countOf_add (a b : List (Nat × Nat)) : (countOf a).add (countOf b) = countOf (a ++ b) := by
  simp [countOf, Count.add]

/-! ## The collection between ticks -/

/-- What an item must contain. -/
def ItemOk (ops : List Op) (id : Nat) : Item → Prop
  | .range h => HistOk rangeOf (track (rangeData id) ops).1 (track (rangeData id) ops).2 h
  | .count h => HistOk countOf (track (countData id) ops).1 (track (countData id) ops).2 h

/-- The state of a collection after `ops`. -/
structure Inv (t0 : Ts) (ops : List Op) (c : Coll) : Prop where
  elapsed : c.elapsed = Ls.map (fun L => 60 * ((tickTimes ops).length % L))
  intervals : c.intervals = Ls.map (intervals (t0 :: tickTimes ops))
  items : ∀ id item, c.items[id]? = some (some item) → ItemOk ops id item

theorem track_append {σ} (f : Op → List σ) (ops : List Op) (op : Op) :
    track f (ops ++ [op]) = match op with
      | .tick _ => ((track f ops).1 ++ [(track f ops).2], [])
      | op => ((track f ops).1, (track f ops).2 ++ f op) := by
  simp only [track, List.foldl_append, List.foldl_cons, List.foldl_nil]

theorem tickTimes_append (ops ops' : List Op) : tickTimes (ops ++ ops') = tickTimes ops ++ tickTimes ops' := by
  induction ops with
  | nil => rfl
  | cons op ops ih => cases op <;> simp [tickTimes, ih]

theorem track_length {σ} (f : Op → List σ) (ops : List Op) : (track f ops).1.length = (tickTimes ops).length := by
  induction ops using List.reverseRecOn with
  | nil => rfl
  | append_singleton ops op ih =>
    rw [track_append, tickTimes_append]
    cases op <;> simp [tickTimes, ih]

/-- The item-level effect of a tick after `N` ticks. -/
def tickItem (N : Nat) : Item → Item
  | .range h => .range (tickHist Range.init Range.add N h)
  | .count h => .count (tickHist Count.init Count.add N h)

theorem elapsed_cond (N : Nat) {L : Nat} (hL : 0 < L) :
    (60 * (N % L) + 60 ≥ 60 * L ↔ (N + 1) % L = 0) ∧
    ((N + 1) % L ≠ 0 → 60 * (N % L) + 60 = 60 * ((N + 1) % L)) := by
  have h1 := Nat.mod_lt N hL
  have h2 : (N + 1) % L = (N % L + 1) % L := by rw [Nat.add_mod, Nat.mod_add_mod]; simp [Nat.add_mod]
  rw [h2]
  rcases Nat.lt_or_ge (N % L + 1) L with h | h
  · rw [Nat.mod_eq_of_lt h]; omega
  · have : N % L + 1 = L := by omega
    rw [this, Nat.mod_self]; omega

theorem endPeriodStep_eq (t : Ts) (c : Coll) (p : Nat) : c.endPeriodStep t p =
    ⟨c.elapsed.set p (if c.elapsed.getD p 0 + 60 ≥ periodLength.getD p 0 then 0 else c.elapsed.getD p 0 + 60),
     c.intervals.modify p (if c.elapsed.getD p 0 + 60 ≥ periodLength.getD p 0 then endInterval t else id),
     c.items.map (Option.map
       (if c.elapsed.getD p 0 + 60 ≥ periodLength.getD p 0 then Item.endPeriod p else id))⟩ := by
  unfold Coll.endPeriodStep
  simp only
  split
  · rfl
  · simp

theorem endPeriod_eq {t0 ops c} (h : Inv t0 ops c) (t : Ts) :
    c.endPeriod t = ⟨Ls.map (fun L => 60 * (((tickTimes ops).length + 1) % L)),
      Ls.map (Stats.intervals (t0 :: (tickTimes ops ++ [t]))),
      c.items.map (Option.map (tickItem (tickTimes ops).length))⟩ := by
  obtain ⟨el, iv, it⟩ := c
  have h1 := h.elapsed
  have h2 := h.intervals
  simp only at h1 h2
  subst h1 h2
  have hstep : ∀ L, 0 < L → Stats.intervals (t0 :: (tickTimes ops ++ [t])) L =
      if ((tickTimes ops).length + 1) % L = 0 then endInterval t (Stats.intervals (t0 :: tickTimes ops) L)
      else Stats.intervals (t0 :: tickTimes ops) L := by
    intro L hL
    have := intervals_tick (t0 :: tickTimes ops) t (by simp) hL
    rw [List.length_cons] at this
    exact this
  clear h
  generalize (tickTimes ops).length = N at *
  have c0 := elapsed_cond N (L := 1) (by omega)
  have c1 := elapsed_cond N (L := 10) (by omega)
  have c2 := elapsed_cond N (L := 60) (by omega)
  have c3 := elapsed_cond N (L := 1440) (by omega)
  have c4 := elapsed_cond N (L := 10080) (by omega)
  have hmap : ∀ (l : List (Option Item)) (f g : Item → Item), (l.map (Option.map f)).map (Option.map g) =
      l.map (Option.map (g ∘ f)) := by
    intro l f g; simp [List.map_map, Function.comp_def]
  have hitem : tickItem N = fun i => [0, 1, 2, 3, 4].foldl
      (fun i p => if (N + 1) % Ls.getD p 0 = 0 then i.endPeriod p else i) i := by
    funext i
    cases i with
    | range h =>
      have key : ∀ p (h : Hist Range), (if (N + 1) % Ls.getD p 0 = 0 then (Item.range h).endPeriod p else .range h) =
          .range (if (N + 1) % Ls.getD p 0 = 0 then h.endPeriod Range.init Range.add p else h) := by
        intro p h; split <;> rfl
      simp only [tickItem, tickHist, List.foldl_cons, List.foldl_nil, key]
    | count h =>
      have key : ∀ p (h : Hist Count), (if (N + 1) % Ls.getD p 0 = 0 then (Item.count h).endPeriod p else .count h) =
          .count (if (N + 1) % Ls.getD p 0 = 0 then h.endPeriod Count.init Count.add p else h) := by
        intro p h; split <;> rfl
      simp only [tickItem, tickHist, List.foldl_cons, List.foldl_nil, key]
  rw [hitem]
  simp only [Ls, List.map_cons, List.map_nil]
  rw [hstep 1 (by omega), hstep 10 (by omega), hstep 60 (by omega), hstep 1440 (by omega), hstep 10080 (by omega)]
  generalize Stats.intervals (t0 :: tickTimes ops) 1 = x0
  generalize Stats.intervals (t0 :: tickTimes ops) 10 = x1
  generalize Stats.intervals (t0 :: tickTimes ops) 60 = x2
  generalize Stats.intervals (t0 :: tickTimes ops) 1440 = x3
  generalize Stats.intervals (t0 :: tickTimes ops) 10080 = x4
  clear hstep hitem
  have d0 : (60 * (N % 1) + 60 ≥ 60) := by omega
  have d1 : (60 * (N % 10) + 60 ≥ 60 * 10) ↔ (N + 1) % 10 = 0 := c1.1
  have d2 : (60 * (N % 60) + 60 ≥ 60 * 60) ↔ (N + 1) % 60 = 0 := c2.1
  have d3 : (60 * (N % 1440) + 60 ≥ 60 * 60 * 24) ↔ (N + 1) % 1440 = 0 := c3.1
  have d4 : (60 * (N % 10080) + 60 ≥ 60 * 60 * 24 * 7) ↔ (N + 1) % 10080 = 0 := c4.1
  simp only [Coll.endPeriod, List.foldl_cons, List.foldl_nil, endPeriodStep_eq, periodLength,
    List.getD_cons_zero, List.getD_cons_succ, d0, d1, d2, d3, d4, if_true, List.set_cons_zero, List.set_cons_succ,
    List.modify_zero_cons, List.modify_succ_cons, Nat.mod_one, hmap]
  congr 1
  · simp only [Nat.mul_zero, List.cons.injEq, and_true, true_and]
    repeat' apply And.intro
    all_goals (try split)
    all_goals omega
  · simp only [List.cons.injEq, and_true, true_and]
    repeat' apply And.intro
    all_goals (repeat' split)
    all_goals first | rfl | omega
  · congr 2
    funext i
    simp only [Function.comp_apply]
    have hid : ∀ (P : Prop) [Decidable P] (f : Item → Item) (x : Item), (if P then f else id) x = if P then f x else x := by
      intro P _ f x; split <;> rfl
    simp only [hid, show (60 * 0 + 60 ≥ 60) from by omega, if_true]

/-! ## Adding items -/

/-- The item held under an identifier. -/
def Coll.at (c : Coll) (id : Nat) : Option Item := (c.items[id]?).join

theorem lt_nextSize (id : Nat) : id < nextSize id := by
  unfold nextSize
  exact Nat.lt_log2_self

theorem at_grow (c : Coll) (n j : Nat) :
    Coll.at { c with items := c.items ++ List.replicate n none } j = c.at j := by
  unfold Coll.at
  simp only [List.getElem?_append]
  split
  · rfl
  · rename_i h
    rw [List.getElem?_eq_none (l := c.items) (by omega), List.getElem?_replicate]
    split <;> rfl

/-- Everything `sfptpd_stats_collection_add` does. -/
theorem add_spec (c : Coll) (hc : c.items ≠ []) (id : Nat) (hid : id < 256) (ty : Ty) : ∃ e c', c.add id ty = some (e, c') ∧
    c'.elapsed = c.elapsed ∧ c'.intervals = c.intervals ∧ c'.items ≠ [] ∧ id < c'.items.length ∧
    (∀ j, j ≠ id → c'.at j = c.at j) ∧
    (match c.at id with
     | some i => e = some .eexist ∧ c'.at id = some i
     | none => e = none ∧ c'.at id = some (Item.alloc ty)) := by
  unfold Coll.add
  have hn : ¬ (id ≥ 256 ∨ (id = 0 ∧ c.items.length = 0)) := by
    have : 0 < c.items.length := List.length_pos_iff.2 hc
    omega
  rw [if_neg hn]
  simp only
  generalize hc1 : (if id ≥ c.items.length then
        { c with items := c.items ++ List.replicate (nextSize id - c.items.length) none }
      else c) = c1
  have hat : ∀ j, c1.at j = c.at j := by
    intro j; rw [← hc1]; split
    · exact at_grow c _ j
    · rfl
  have hlen : id < c1.items.length := by
    rw [← hc1]; split
    · have := lt_nextSize id
      simp; omega
    · omega
  have hel : c1.elapsed = c.elapsed := by rw [← hc1]; split <;> rfl
  have hiv : c1.intervals = c.intervals := by rw [← hc1]; split <;> rfl
  have hne : c1.items ≠ [] := List.length_pos_iff.1 (by omega)
  have hid' := hat id
  rw [← hid']
  cases hg : c1.items[id]? with
  | none => rw [List.getElem?_eq_none_iff] at hg; omega
  | some o =>
    have hato : c1.at id = o := by unfold Coll.at; rw [hg]; rfl
    cases o with
    | some i =>
      rw [hato]
      exact ⟨_, _, rfl, hel, hiv, hne, hlen, fun j _ => hat j, rfl, hato⟩
    | none =>
      rw [hato]
      refine ⟨_, _, rfl, hel, hiv, ?_, ?_, ?_, rfl, ?_⟩
      · intro h; apply hne; simpa using h
      · simpa using hlen
      · intro j hj
        rw [← hat j]
        unfold Coll.at
        simp only
        rw [List.getElem?_set_ne (Ne.symm hj)]
      · unfold Coll.at
        simp only
        rw [List.getElem?_set_self hlen]
        rfl

/-- Specification: the type an identifier was first added with. -/
def typeOf (items : List (Nat × Ty)) (id : Nat) : Option Ty := (items.find? (fun a => a.1 == id)).map (·.2)

theorem adds_spec (items : List (Nat × Ty)) (hid : ∀ a ∈ items, a.1 < 256) : ∀ c : Coll, c.items ≠ [] →
    ∃ c', adds c items = some c' ∧ c'.elapsed = c.elapsed ∧ c'.intervals = c.intervals ∧ c'.items ≠ [] ∧
      ∀ j, c'.at j = match c.at j with
        | some i => some i
        | none => (typeOf items j).map Item.alloc := by
  induction items with
  | nil =>
    intro c hc
    refine ⟨c, rfl, rfl, rfl, hc, fun j => ?_⟩
    cases c.at j <;> rfl
  | cons a l ih =>
    intro c hc
    obtain ⟨e, c1, h1, h2, h3, h4, h4', h5, h6⟩ := add_spec c hc a.1 (hid a (List.mem_cons_self ..)) a.2
    obtain ⟨c2, g1, g2, g3, g4, g5⟩ := ih (fun x hx => hid x (List.mem_cons_of_mem _ hx)) c1 h4
    refine ⟨c2, ?_, g2.trans h2, g3.trans h3, g4, fun j => ?_⟩
    · obtain ⟨i, ty⟩ := a
      simp only [adds, h1, Option.bind_some]
      exact g1
    · rw [g5 j]
      by_cases hj : j = a.1
      · subst hj
        cases hca : c.at a.1 with
        | some i => rw [hca] at h6; rw [h6.2]
        | none =>
          rw [hca] at h6; rw [h6.2]
          simp [typeOf]
      · rw [h5 j hj]
        have : (a.1 == j) = false := by simp; exact fun h => hj h.symm
        cases c.at j with
        | some i => rfl
        | none => simp [typeOf, this]

/-! ## The collection as a map from identifiers -/

theorem typeCheck_spec (c : Coll) (id : Nat) (hid : id < 256) (ty : Option Ty) : c.typeCheck id ty =
    match c.at id with
    | none => some (.error (if id ≥ c.items.length then .erange else .enoent))
    | some i => if ty = none ∨ ty = some i.ty then some (.ok i) else some (.error .einval) := by
  unfold Coll.typeCheck Coll.at
  rw [if_neg (by omega)]
  by_cases h : id ≥ c.items.length
  · rw [if_pos h, List.getElem?_eq_none h]
    simp [h]
  · rw [if_neg h]
    cases hg : c.items[id]? with
    | none => rw [List.getElem?_eq_none_iff] at hg; omega
    | some o =>
      cases o with
      | none => simp [h]
      | some i =>
        simp only [Option.join_some]
        cases ty with
        | none => simp
        | some t =>
          by_cases ht : i.ty = t
          · simp [ht]
          · have : ¬ t = i.ty := fun h => ht h.symm
            simp [ht, this]

theorem at_set (c : Coll) (id : Nat) (i i' : Item) (h : c.at id = some i) (j : Nat) :
    Coll.at { c with items := c.items.set id (some i') } j = if j = id then some i' else c.at j := by
  unfold Coll.at at *
  simp only
  by_cases hj : j = id
  · subst hj
    have : j < c.items.length := by
      rcases Nat.lt_or_ge j c.items.length with h1 | h1
      · exact h1
      · rw [List.getElem?_eq_none h1] at h; cases h
    rw [List.getElem?_set_self this, if_pos rfl]; rfl
  · rw [List.getElem?_set_ne (Ne.symm hj), if_neg hj]

theorem Inv.item {t0 ops c} (h : Inv t0 ops c) {id i} (hi : c.at id = some i) : ItemOk ops id i := by
  apply h.items
  unfold Coll.at at hi
  cases hg : c.items[id]? with
  | none => rw [hg] at hi; cases hi
  | some o => rw [hg] at hi; cases o with
    | none => cases hi
    | some i' => cases hi; rfl

theorem at_of_getElem {c : Coll} {id : Nat} {i : Item} (h : c.items[id]? = some (some i)) : c.at id = some i := by
  unfold Coll.at; rw [h]; rfl

theorem ItemOk.other {ops id i op} (h : ItemOk ops id i) (hop : ∀ t, op ≠ .tick t)
    (h1 : rangeData id op = []) (h2 : countData id op = []) : ItemOk (ops ++ [op]) id i := by
  cases op with
  | tick t => exact absurd rfl (hop t)
  | range a s =>
    cases i with
    | range hh => simp only [ItemOk] at *; rw [track_append]; simp only [h1, List.append_nil]; exact h
    | count hh => simp only [ItemOk] at *; rw [track_append]; simp only [h2, List.append_nil]; exact h
  | count a s n =>
    cases i with
    | range hh => simp only [ItemOk] at *; rw [track_append]; simp only [h1, List.append_nil]; exact h
    | count hh => simp only [ItemOk] at *; rw [track_append]; simp only [h2, List.append_nil]; exact h

theorem ItemOk.otherType {ops id i op} (h : ItemOk ops id i)
    (hop : (∃ a s, op = .range a s ∧ (a = id → i.ty = .count)) ∨ (∃ a s n, op = .count a s n ∧ (a = id → i.ty = .range))) :
    ItemOk (ops ++ [op]) id i := by
  rcases hop with ⟨a, s, rfl, ha⟩ | ⟨a, s, n, rfl, ha⟩
  · by_cases haid : a = id
    · cases i with
      | range hh => cases ha haid
      | count hh => simp only [ItemOk] at *; rw [track_append]; simp only [countData, List.append_nil]; exact h
    · exact h.other (by simp) (by simp [rangeData, haid]) (by simp [countData])
  · by_cases haid : a = id
    · cases i with
      | range hh => simp only [ItemOk] at *; rw [track_append]; simp only [rangeData, List.append_nil]; exact h
      | count hh => cases ha haid
    · exact h.other (by simp) (by simp [rangeData]) (by simp [countData, haid])

theorem tickTimes_notick {ops : List Op} {op : Op} (h : ∀ t, op ≠ .tick t) : tickTimes (ops ++ [op]) = tickTimes ops := by
  rw [tickTimes_append]
  cases op with
  | tick t => exact absurd rfl (h t)
  | range _ _ => simp [tickTimes]
  | count _ _ _ => simp [tickTimes]

/-- One operation keeps the invariant, the identifiers and their types. -/
theorem Inv.step {t0 ops c} (h : Inv t0 ops c) {op : Op} (hop : op.ok) :
    ∃ c', step c op = some c' ∧ Inv t0 (ops ++ [op]) c' ∧ (∀ j, (c'.at j).map Item.ty = (c.at j).map Item.ty) ∧
      c'.items.length = c.items.length := by
  cases op with
  | range id s =>
    have hid : id < 256 := hop
    simp only [Stats.step, Coll.updateRange, typeCheck_spec c id hid]
    cases hat : c.at id with
    | none =>
      simp only [Option.map_some]
      refine ⟨c, rfl, ⟨?_, ?_, ?_⟩, fun _ => rfl, rfl⟩
      · rw [tickTimes_notick (by simp)]; exact h.elapsed
      · rw [tickTimes_notick (by simp)]; exact h.intervals
      · intro j i hi
        apply (h.items j i hi).otherType
        refine Or.inl ⟨id, s, rfl, ?_⟩
        rintro rfl
        rw [at_of_getElem hi] at hat; cases hat
    | some i =>
      cases i with
      | count hh =>
        simp only [Item.ty, reduceCtorEq, Option.some.injEq, or_self, if_false, Option.map_some]
        refine ⟨c, rfl, ⟨?_, ?_, ?_⟩, fun _ => rfl, rfl⟩
        · rw [tickTimes_notick (by simp)]; exact h.elapsed
        · rw [tickTimes_notick (by simp)]; exact h.intervals
        · intro j i hi
          apply (h.items j i hi).otherType
          refine Or.inl ⟨id, s, rfl, ?_⟩
          rintro rfl
          rw [at_of_getElem hi] at hat; cases hat; rfl
      | range hh =>
        simp only [Item.ty, or_true, if_true, Option.map_some]
        refine ⟨_, rfl, ⟨?_, ?_, ?_⟩, ?_, by simp⟩
        · rw [tickTimes_notick (by simp)]; exact h.elapsed
        · rw [tickTimes_notick (by simp)]; exact h.intervals
        · intro j i hi
          have hi' := at_of_getElem hi
          rw [at_set c id _ _ hat] at hi'
          by_cases hj : j = id
          · rw [if_pos hj] at hi'
            subst hj
            cases hi'
            have := h.item hat
            simp only [ItemOk] at *
            rw [track_append]
            simp only [rangeData, if_true]
            refine ⟨?_, this.2⟩
            simp only
            rw [this.1]
            unfold rangeOf
            rw [List.foldl_append]; rfl
          · rw [if_neg hj] at hi'
            exact (h.item hi').otherType (Or.inl ⟨id, s, rfl, fun e => absurd e.symm hj⟩)
        · intro j
          rw [at_set c id _ _ hat]
          split
          · rename_i hj; subst hj; rw [hat]; rfl
          · rfl
  | count id s n =>
    have hid : id < 256 := hop
    simp only [Stats.step, Coll.updateCountSamples, typeCheck_spec c id hid]
    cases hat : c.at id with
    | none =>
      simp only [Option.map_some]
      refine ⟨c, rfl, ⟨?_, ?_, ?_⟩, fun _ => rfl, rfl⟩
      · rw [tickTimes_notick (by simp)]; exact h.elapsed
      · rw [tickTimes_notick (by simp)]; exact h.intervals
      · intro j i hi
        apply (h.items j i hi).otherType
        refine Or.inr ⟨id, s, n, rfl, ?_⟩
        rintro rfl
        rw [at_of_getElem hi] at hat; cases hat
    | some i =>
      cases i with
      | range hh =>
        simp only [Item.ty, reduceCtorEq, Option.some.injEq, or_self, if_false, Option.map_some]
        refine ⟨c, rfl, ⟨?_, ?_, ?_⟩, fun _ => rfl, rfl⟩
        · rw [tickTimes_notick (by simp)]; exact h.elapsed
        · rw [tickTimes_notick (by simp)]; exact h.intervals
        · intro j i hi
          apply (h.items j i hi).otherType
          refine Or.inr ⟨id, s, n, rfl, ?_⟩
          rintro rfl
          rw [at_of_getElem hi] at hat; cases hat; rfl
      | count hh =>
        simp only [Item.ty, or_true, if_true, Option.map_some]
        refine ⟨_, rfl, ⟨?_, ?_, ?_⟩, ?_, by simp⟩
        · rw [tickTimes_notick (by simp)]; exact h.elapsed
        · rw [tickTimes_notick (by simp)]; exact h.intervals
        · intro j i hi
          have hi' := at_of_getElem hi
          rw [at_set c id _ _ hat] at hi'
          by_cases hj : j = id
          · rw [if_pos hj] at hi'
            subst hj
            cases hi'
            have := h.item hat
            simp only [ItemOk] at *
            rw [track_append]
            simp only [countData, if_true]
            refine ⟨?_, this.2⟩
            simp only
            rw [this.1]
            simp [countOf, Count.update]
          · rw [if_neg hj] at hi'
            exact (h.item hi').otherType (Or.inr ⟨id, s, n, rfl, fun e => absurd e.symm hj⟩)
        · intro j
          rw [at_set c id _ _ hat]
          split
          · rename_i hj; subst hj; rw [hat]; rfl
          · rfl
  | tick t =>
    refine ⟨_, rfl, ?_, ?_, ?_⟩
    · rw [endPeriod_eq h t]
      refine ⟨?_, ?_, ?_⟩
      · simp [tickTimes_append, tickTimes]
      · simp [tickTimes_append, tickTimes]
      · intro j i hi
        simp only [List.getElem?_map] at hi
        cases hg : c.items[j]? with
        | none => rw [hg] at hi; cases hi
        | some o =>
          rw [hg] at hi
          cases o with
          | none => cases hi
          | some i0 =>
            simp only [Option.map_some, Option.some.injEq] at hi
            subst hi
            have hk := h.items j i0 hg
            cases i0 with
            | range hh =>
              have := HistOk.tick rangeOf_add hk
              rw [track_length] at this
              unfold ItemOk
              simp only [tickItem, track_append]
              exact this
            | count hh =>
              have := HistOk.tick countOf_add hk
              rw [track_length] at this
              unfold ItemOk
              simp only [tickItem, track_append]
              exact this
    · intro j
      rw [endPeriod_eq h t]
      unfold Coll.at
      simp only [List.getElem?_map]
      cases c.items[j]? with
      | none => rfl
      | some o =>
        cases o with
        | none => rfl
        | some i => cases i <;> rfl
    · rw [endPeriod_eq h t]; simp

theorem run_append (c : Coll) (ops : List Op) (op : Op) : run c (ops ++ [op]) = (run c ops).bind (step · op) := by
  induction ops generalizing c with
  | nil => simp only [List.nil_append, run, Option.bind_some]; cases step c op <;> rfl
  | cons o ops ih =>
    simp only [List.cons_append, run]
    cases step c o with
    | none => rfl
    | some c1 => simp only [Option.bind_some]; exact ih c1

/-- After creation, additions and any operations. -/
theorem Inv.run (t0 : Ts) (items : List (Nat × Ty)) (hid : ∀ a ∈ items, a.1 < 256) (ops : List Op)
    (hops : ∀ op ∈ ops, op.ok) : ∃ c, (adds (Coll.alloc t0) items).bind (run · ops) = some c ∧ Inv t0 ops c ∧
      (∀ j, (c.at j).map Item.ty = typeOf items j) ∧ c.items ≠ [] := by
  induction ops using List.reverseRecOn with
  | nil =>
    obtain ⟨c, h1, h2, h3, h4, h5⟩ := adds_spec items hid (Coll.alloc t0) (by simp [Coll.alloc])
    have hnone : ∀ j, (Coll.alloc t0).at j = none := by
      intro j
      cases j <;> rfl
    refine ⟨c, by rw [h1]; rfl, ⟨?_, ?_, ?_⟩, ?_, h4⟩
    · rw [h2]; simp [Coll.alloc, tickTimes, Ls]
    · rw [h3]; simp [Coll.alloc, tickTimes, Ls, Stats.intervals, interval]
    · intro id i hi
      have := h5 id
      rw [at_of_getElem hi, hnone] at this
      simp only at this
      cases ht : typeOf items id with
      | none => rw [ht] at this; cases this
      | some ty =>
        rw [ht] at this
        cases this
        cases ty
        · exact HistOk.alloc rangeOf
        · exact HistOk.alloc countOf
    · intro j
      rw [h5 j, hnone]
      simp only
      cases typeOf items j with
      | none => rfl
      | some ty => cases ty <;> rfl
  | append_singleton ops op ih =>
    obtain ⟨c, h1, h2, h3, h4⟩ := ih (fun o ho => hops o (by simp [ho]))
    obtain ⟨c', g1, g2, g3, g4⟩ := h2.step (hops op (by simp))
    refine ⟨c', ?_, g2, fun j => (g3 j).trans (h3 j), ?_⟩
    · cases ha : adds (Coll.alloc t0) items with
      | none => rw [ha] at h1; cases h1
      | some c0 =>
        rw [ha] at h1
        simp only [Option.bind_some] at h1 ⊢
        rw [run_append, h1]
        exact g1
    · apply List.length_pos_iff.1; rw [g4]; exact List.length_pos_iff.2 h4

end Verif.Stats
