import Verif.Misc.Model
import Mathlib.Data.List.Perm.Basic
import Mathlib.Data.List.Nodup
import Mathlib.Data.List.Pairwise

set_option linter.unusedSimpArgs false
set_option linter.unusedVariables false

/-!
# Properties of the miscellaneous library (C16, C17, C56)
-/

namespace Verif.Misc

/-! ## C16 -/

theorem strncpyC_eq (n : Nat) : ∀ (dest src : List Nat), n ≤ dest.length →
    strncpyC dest src n = some (src.take n ++ List.replicate (n - src.length) 0 ++ dest.drop n) := by
  induction n with
  | zero => intro dest src h; simp [strncpyC]
  | succ n ih =>
    intro dest src h
    cases dest with
    | nil => simp at h
    | cons d dest =>
      cases src with
      | nil =>
        have := ih dest [] (by simpa using h)
        simp only [strncpyC, this]
        simp [List.replicate_succ]
      | cons c src =>
        have := ih dest src (by simpa using h)
        simp only [strncpyC, this]
        simp

/-- Specification: the C string at the start of a piece of memory. -/
def cstring (mem : List Nat) : List Nat := mem.takeWhile (· ≠ 0)

/-- C16.  Copying a string into memory of at least `n > 0` bytes stays within
the first `n` bytes, leaves a terminated string there, and that string is the
longest prefix of the source that fits with its terminator. -/
theorem C16_bounded_copy (dest src : List Nat) (n : Nat) (hn : 0 < n) (hd : n ≤ dest.length) (hs : 0 ∉ src) :
    ∃ r, strncpy dest src n = some r ∧ r.length = dest.length ∧ r.drop n = dest.drop n ∧ 0 ∈ r.take n ∧
      cstring r = src.take (n - 1) := by
  have hlen : (src.take n ++ List.replicate (n - src.length) 0 ++ dest.drop n).length = dest.length := by
    simp; omega
  unfold strncpy
  rw [strncpyC_eq n dest src hd]
  simp only
  rw [if_neg (by rw [hlen]; omega)]
  have key : (src.take n ++ List.replicate (n - src.length) 0 ++ dest.drop n).set (n - 1) 0 =
      src.take (n - 1) ++ List.replicate (n - (src.take (n - 1)).length) 0 ++ dest.drop n := by
    apply List.ext_getElem
    · simp; omega
    · intro i h1 h2
      rw [List.getElem_set]
      simp only [List.getElem_append, List.length_append, List.length_take, List.length_replicate, List.getElem_take,
        List.getElem_replicate, List.getElem_drop]
      split
      · split
        · split
          · rename_i h3 h4 h5; omega
          · rfl
        · rename_i h3 h4; omega
      · split
        · split
          · split
            · split
              · rfl
              · rename_i h3 h4 h5 h6 h7; omega
            · omega
          · split
            · split
              · omega
              · rfl
            · omega
        · split
          · omega
          · simp only [Nat.min_def]
            congr 1
            split <;> split <;> omega
  rw [key]
  refine ⟨_, rfl, ?_, ?_, ?_, ?_⟩
  · simp; omega
  · rw [List.drop_append_of_le_length (by simp; omega)]
    rw [List.drop_eq_nil_of_le (by simp; omega)]
    rfl
  · rw [List.take_append_of_le_length (by simp; omega), List.take_of_length_le (by simp; omega)]
    apply List.mem_append_right
    rw [List.mem_replicate]
    exact ⟨by simp; omega, rfl⟩
  · unfold cstring
    rw [List.append_assoc, List.takeWhile_append_of_pos (by
      intro x hx
      simp only [ne_eq, decide_not, Bool.not_eq_eq_eq_not, Bool.not_true, decide_eq_false_iff_not]
      intro h0; rw [h0] at hx; exact hs (List.mem_of_mem_take hx))]
    obtain ⟨m, hm⟩ : ∃ m, n - (src.take (n - 1)).length = m + 1 := ⟨n - (src.take (n - 1)).length - 1, by simp; omega⟩
    rw [hm, List.replicate_succ]
    simp

example : strncpy [9, 9, 9, 9, 9] [1, 2, 3, 4] 3 = some [1, 2, 0, 9, 9] ∧
    strncpy [9, 9, 9, 9, 9] [1] 3 = some [1, 0, 0, 9, 9] := by decide

/-- The size 0 is not guarded against. -/
theorem C16_zero_size (dest src : List Nat) : strncpy dest src 0 = none := by
  simp [strncpy, strncpyC]

/-! ## C17 -/

section
variable {U : Type} (key : U → List Nat)

/-- Operations on the table. -/
inductive HtOp (U : Type) where
  | add (u : U) (update : Bool)
  | clear

/-- Running the table. -/
def htRun (t : Table U) : List (HtOp U) → Option (Table U × List Rc)
  | [] => some (t, [])
  | .add u up :: ops =>
    match t.add key u up with
    | none => none
    | some (t', rc) => (htRun t' ops).map (fun r => (r.1, rc :: r.2))
  | .clear :: ops => htRun t.clear ops

/-- Specification: a finite map as the list of its records. -/
def mapAdd [DecidableEq (List Nat)] (max : Nat) (m : List U) (u : U) (update : Bool) : List U × Rc :=
  if ∃ v ∈ m, key v = key u then
    if update then (m.map (fun v => if key v = key u then u else v), .ok) else (m, .eexist)
  else if m.length = max then (m, .enospc) else (u :: m, .ok)

/-- Running the specification. -/
def mapRun (max : Nat) (m : List U) : List (HtOp U) → List U × List Rc
  | [] => (m, [])
  | .add u up :: ops =>
    let r := mapRun max (mapAdd key max m u up).1 ops
    (r.1, (mapAdd key max m u up).2 :: r.2)
  | .clear :: ops => mapRun max [] ops

/-- Lookup as the table does it (`sfptpd_ht_find`). -/
def Table.lookup (t : Table U) (k : List Nat) : Option U :=
  match t.entries[hash t.size k]? with
  | none => none
  | some chain => (findChain key k chain).bind (fun i => chain[i]?)

theorem findChain_eq (k : List Nat) (l : List U) : findChain key k l = l.findIdx? (fun u => key u = k) := by
  induction l with
  | nil => rfl
  | cons e es ih =>
    simp only [findChain, List.findIdx?_cons, ih]
    by_cases h : key e = k
    · simp [h]
    · have h' : ¬ k = key e := fun x => h x.symm
      simp [h, h']

theorem hash_lt {size : Nat} (h : 0 < size) (k : List Nat) : hash size k < size := Nat.mod_lt _ h

/-- Invariant. -/
structure TableOk (max : Nat) (m : List U) (t : Table U) : Prop where
  size_pos : 0 < t.size
  len : t.entries.length = t.size
  max_eq : t.max = max
  perm : t.entries.flatten.Perm m
  nodup : (m.map key).Nodup
  placed : ∀ i c, t.entries[i]? = some c → ∀ u ∈ c, hash t.size (key u) = i
  num_eq : t.num = m.length

theorem flatten_set {l : List (List U)} {i : Nat} {c d : List U} (h : l[i]? = some c) :
    ∃ a b, l.flatten = a ++ c ++ b ∧ (l.set i d).flatten = a ++ d ++ b := by
  rw [List.getElem?_eq_some_iff] at h
  obtain ⟨hi, hc⟩ := h
  refine ⟨(l.take i).flatten, (l.drop (i + 1)).flatten, ?_, ?_⟩
  · conv => lhs; rw [← List.take_append_drop i l, List.drop_eq_getElem_cons hi, hc]
    simp
  · rw [List.set_eq_take_append_cons_drop, if_pos hi]
    simp

theorem nodup_unique {m : List U} (hn : (m.map key).Nodup) {u v : U} (hu : u ∈ m) (hv : v ∈ m) (h : key u = key v) : u = v :=
  List.inj_on_of_nodup_map hn hu hv h

variable {key}

theorem TableOk.chain {max m t} (h : TableOk key max m t) (k : List Nat) :
    ∃ c, t.entries[hash t.size k]? = some c ∧ ∀ v, (v ∈ c ∧ key v = k) ↔ (v ∈ m ∧ key v = k) := by
  have hlt := hash_lt h.size_pos k
  rw [← h.len] at hlt
  refine ⟨t.entries[hash t.size k]'(by rw [h.len] at hlt ⊢; exact hlt), List.getElem?_eq_getElem _, fun v => ?_⟩
  rw [← h.perm.mem_iff, List.mem_flatten]
  constructor
  · rintro ⟨h1, h2⟩
    exact ⟨⟨_, List.getElem_mem _, h1⟩, h2⟩
  · rintro ⟨⟨c, hc, hv⟩, h2⟩
    obtain ⟨i, hi, he⟩ := List.mem_iff_getElem.1 hc
    have := h.placed i c (by rw [List.getElem?_eq_getElem hi, he]) v hv
    rw [h2] at this
    subst this
    rw [he]
    exact ⟨hv, h2⟩

/-- The lookup is that of the map. -/
theorem TableOk.lookup_eq {max m t} (h : TableOk key max m t) (k : List Nat) :
    t.lookup key k = m.find? (fun u => decide (key u = k)) := by
  obtain ⟨c, hc, hm⟩ := h.chain k
  unfold Table.lookup
  rw [hc]
  simp only
  rw [findChain_eq]
  cases hf : c.findIdx? (fun u => decide (key u = k)) with
  | none =>
    rw [List.findIdx?_eq_none_iff] at hf
    symm
    simp only [Option.bind_none]
    rw [List.find?_eq_none]
    intro v hv
    simp only [decide_eq_true_eq]
    intro he
    have := hf v ((hm v).2 ⟨hv, he⟩).1
    simp [he] at this
  | some i =>
    rw [List.findIdx?_eq_some_iff_getElem] at hf
    obtain ⟨hi, h1, _⟩ := hf
    simp only [Option.bind_some, List.getElem?_eq_getElem hi]
    simp only [decide_eq_true_eq] at h1
    have hv := (hm c[i]).1 ⟨List.getElem_mem hi, h1⟩
    symm
    cases hg : m.find? (fun u => decide (key u = k)) with
    | none =>
      rw [List.find?_eq_none] at hg
      have := hg _ hv.1
      simp [h1] at this
    | some w =>
      have hw := List.find?_some hg
      simp only [decide_eq_true_eq] at hw
      have hwm := List.mem_of_find?_eq_some hg
      rw [nodup_unique key h.nodup hwm hv.1 (by rw [hw, h1])]

theorem map_replace_perm {a b c : List U} {i : Nat} {u : U} {m : List U} (hp : (a ++ c ++ b).Perm m)
    (hn : (m.map key).Nodup) (hi : i < c.length) (hk : key c[i] = key u) :
    (a ++ c.set i u ++ b).Perm (m.map (fun v => if key v = key u then u else v)) := by
  have hp2 := hp.map (fun v => if key v = key u then u else v)
  refine List.Perm.trans ?_ hp2
  have hn2 : ((a ++ c ++ b).map key).Nodup := (hp.map key).nodup_iff.2 hn
  have e : ∀ (l : List U), (∀ v ∈ l, key v ≠ key u) → l.map (fun v => if key v = key u then u else v) = l := by
    intro l hl
    conv => rhs; rw [← List.map_id l]
    apply List.map_congr_left
    intro v hv
    simp [hl v hv]
  have hsplit : c = c.take i ++ c[i] :: c.drop (i + 1) := by
    rw [← List.drop_eq_getElem_cons hi, List.take_append_drop]
  have hset : c.set i u = c.take i ++ u :: c.drop (i + 1) := by
    rw [List.set_eq_take_append_cons_drop, if_pos hi]
  generalize hx : c[i] = x at *
  generalize c.take i = p at *
  generalize c.drop (i + 1) = q at *
  rw [hset]
  clear hset
  subst hsplit
  simp only [List.map_append, List.map_cons, List.append_assoc] at hn2 ⊢
  rw [List.nodup_append, List.nodup_append, List.cons_append, List.nodup_cons] at hn2
  obtain ⟨h1, ⟨h2, ⟨h3, h4⟩, h5⟩, h6⟩ := hn2
  rw [e a, e p, e q, e b, if_pos hk]
  · intro v hv he
    apply h3
    rw [hk, ← he]
    simp only [List.mem_append, List.mem_map]
    exact Or.inr ⟨v, hv, rfl⟩
  · intro v hv he
    apply h3
    rw [hk, ← he]
    simp only [List.mem_append, List.mem_map]
    exact Or.inl ⟨v, hv, rfl⟩
  · intro v hv he
    exact h5 (key v) (List.mem_map_of_mem hv) (key x) (by simp) (by rw [he, hk])
  · intro v hv he
    exact h6 (key v) (List.mem_map_of_mem hv) (key x) (by simp) (by rw [he, hk])

theorem TableOk.add {max m t} (h : TableOk key max m t) (u : U) (up : Bool) :
    ∃ t', t.add key u up = some (t', (mapAdd key max m u up).2) ∧ TableOk key max (mapAdd key max m u up).1 t' := by
  obtain ⟨c, hc, hm⟩ := h.chain (key u)
  unfold Table.add
  have hsz := h.size_pos
  rw [if_neg (by omega)]
  simp only [hc, findChain_eq]
  cases hf : c.findIdx? (fun v => decide (key v = key u)) with
  | some i =>
    rw [List.findIdx?_eq_some_iff_getElem] at hf
    obtain ⟨hi, h1, _⟩ := hf
    simp only [decide_eq_true_eq] at h1
    have hv := (hm c[i]).1 ⟨List.getElem_mem hi, h1⟩
    have hex : ∃ v ∈ m, key v = key u := ⟨_, hv⟩
    unfold mapAdd
    rw [if_pos hex]
    cases up with
    | false => exact ⟨t, rfl, h⟩
    | true =>
      simp only [if_true]
      refine ⟨_, rfl, ?_⟩
      obtain ⟨a, b, hab, habs⟩ := flatten_set (d := c.set i u) hc
      have hkeys : (m.map (fun v => if key v = key u then u else v)).map key = m.map key := by
        rw [List.map_map]
        apply List.map_congr_left
        intro v hv
        simp only [Function.comp]
        split
        · rename_i h; exact h.symm
        · rfl
      refine ⟨h.size_pos, by simp [h.len], h.max_eq, ?_, by rw [hkeys]; exact h.nodup, ?_, by simp [h.num_eq]⟩
      · simp only
        rw [habs]
        apply map_replace_perm _ h.nodup hi h1
        rw [← hab]; exact h.perm
      · intro j d hd v hv
        simp only at hd ⊢
        rw [List.getElem?_set] at hd
        split at hd
        · rename_i hj
          split at hd
          · cases hd
            rcases List.mem_or_eq_of_mem_set hv with h5 | h5
            · exact (h.placed _ c hc v h5).trans hj
            · rw [h5]; exact hj
          · cases hd
        · exact h.placed j d hd v hv
  | none =>
    rw [List.findIdx?_eq_none_iff] at hf
    have hex : ¬ ∃ v ∈ m, key v = key u := by
      rintro ⟨v, hv, he⟩
      have := hf v ((hm v).2 ⟨hv, he⟩).1
      simp [he] at this
    unfold mapAdd
    rw [if_neg hex]
    simp only [h.max_eq, h.num_eq]
    by_cases hfull : m.length = max
    · rw [if_pos hfull, if_pos hfull]
      exact ⟨t, rfl, h⟩
    · rw [if_neg hfull, if_neg hfull]
      refine ⟨_, rfl, ?_⟩
      obtain ⟨a, b, hab, habs⟩ := flatten_set (d := u :: c) hc
      refine ⟨h.size_pos, by simp [h.len], rfl, ?_, ?_, ?_, by simp⟩
      · simp only
        rw [habs, List.append_assoc, List.cons_append]
        refine List.perm_middle.trans ?_
        rw [List.perm_cons, ← List.append_assoc, ← hab]
        exact h.perm
      · simp only [List.map_cons, List.nodup_cons, List.mem_map]
        exact ⟨hex, h.nodup⟩
      · intro j d hd v hv
        simp only at hd ⊢
        rw [List.getElem?_set] at hd
        split at hd
        · rename_i hj
          split at hd
          · cases hd
            rcases List.mem_cons.1 hv with h5 | h5
            · rw [h5]; exact hj
            · exact (h.placed _ c hc v h5).trans hj
          · cases hd
        · exact h.placed j d hd v hv

theorem TableOk.clear {max m t} (h : TableOk key max m t) : TableOk key max [] t.clear := by
  refine ⟨h.size_pos, by simp [Table.clear, h.len], h.max_eq, ?_, by simp, ?_, rfl⟩
  · simp [Table.clear]
  · intro i c hc u hu
    simp only [Table.clear, List.getElem?_map] at hc
    cases hg : t.entries[i]? with
    | none => rw [hg] at hc; cases hc
    | some d => rw [hg] at hc; cases hc; cases hu

theorem htRun_ok {max : Nat} (ops : List (HtOp U)) : ∀ (t : Table U) (m : List U), TableOk key max m t →
    ∃ t', htRun key t ops = some (t', (mapRun key max m ops).2) ∧ TableOk key max (mapRun key max m ops).1 t' := by
  induction ops with
  | nil => intro t m h; exact ⟨t, rfl, h⟩
  | cons op ops ih =>
    intro t m h
    cases op with
    | add u up =>
      obtain ⟨t1, h1, h2⟩ := h.add u up
      obtain ⟨t2, h3, h4⟩ := ih t1 _ h2
      refine ⟨t2, ?_, h4⟩
      simp only [htRun, h1, h3, Option.map_some, mapRun]
    | clear => exact ih _ _ h.clear

/-- The records visited from a position in the chains on. -/
theorem scan_spec : ∀ (l : List (List U)) (i : Nat),
    (scan i l = none ∧ l.flatten = []) ∨ (∃ j c cs, scan i l = some (i + j, c :: cs) ∧ j < l.length ∧
      l.flatten = (c :: cs) ++ (l.drop (j + 1)).flatten) := by
  intro l
  induction l with
  | nil => intro i; exact Or.inl ⟨rfl, rfl⟩
  | cons d l ih =>
    intro i
    cases d with
    | nil =>
      rcases ih (i + 1) with ⟨h1, h2⟩ | ⟨j, c, cs, h1, h2, h3⟩
      · exact Or.inl ⟨h1, by simpa using h2⟩
      · refine Or.inr ⟨j + 1, c, cs, ?_, by simp; omega, by simpa using h3⟩
        simp only [scan, h1]
        congr 2; omega
    | cons e es => exact Or.inr ⟨0, e, es, rfl, by simp, by simp⟩

theorem iterate_spec (fuel : Nat) : ∀ (t : Table U) (it : Iter U) (c : U) (cs : List U), it.chain = c :: cs →
    (cs ++ (t.entries.drop (it.index + 1)).flatten).length < fuel →
    iterate fuel t it (some c) = some (c :: (cs ++ (t.entries.drop (it.index + 1)).flatten), { t with locks := t.locks - 1 }) := by
  induction fuel with
  | zero => intro t it c cs _ h; omega
  | succ fuel ih =>
    intro t it c cs hc hl
    simp only [iterate]
    unfold Table.next
    rw [hc]
    cases cs with
    | cons d ds =>
      simp only
      rw [ih t ⟨it.index, d :: ds⟩ d ds rfl (by simp only [List.cons_append, List.length_cons] at hl ⊢; omega)]
      rfl
    | nil =>
      simp only
      rcases scan_spec (t.entries.drop (it.index + 1)) (it.index + 1) with ⟨h1, h2⟩ | ⟨j, e, es, h1, h2, h3⟩
      · rw [h1]
        simp only
        rw [h2]
        cases fuel <;> rfl
      · rw [h1]
        simp only [List.head?_cons]
        rw [List.drop_drop, show it.index + 1 + (j + 1) = it.index + 1 + j + 1 by omega] at h3
        rw [ih t ⟨it.index + 1 + j, e :: es⟩ e es rfl (by
          simp only
          rw [h3] at hl
          simp only [List.nil_append, List.cons_append, List.length_cons] at hl
          omega)]
        simp only [Option.map_some, List.nil_append]
        rw [h3]
        rfl

/-- A whole iteration. -/
theorem iterate_all (t : Table U) (fuel : Nat) (hf : t.entries.flatten.length ≤ fuel) :
    iterate fuel t.first.1 t.first.2.1 t.first.2.2 = some (t.entries.flatten, t) := by
  unfold Table.first
  rcases scan_spec t.entries 0 with ⟨h1, h2⟩ | ⟨j, e, es, h1, h2, h3⟩
  · rw [h1, h2]
    cases fuel <;> rfl
  · rw [h1]
    simp only [List.head?_cons, Nat.zero_add]
    rw [iterate_spec fuel _ _ e es rfl (by
      simp only
      rw [h3] at hf
      simp only [List.cons_append, List.length_cons] at hf
      omega)]
    rw [h3]
    simp

variable (key)

/-- C17.  For every key function, table size, capacity and history of additions
(with or without update) and clearings: every operation gives the result of a
finite map; afterwards each lookup and the number of entries are those of the
map, and an iteration visits every record of the map exactly once and leaves the
lock released. -/
theorem C17_finite_map (size max : Nat) (hs : 0 < size) (t0 : Table U) (h0 : Table.alloc U size max = some t0)
    (ops : List (HtOp U)) :
    ∃ t, htRun key t0 ops = some (t, (mapRun key max [] ops).2) ∧
      (∀ k, t.lookup key k = (mapRun key max [] ops).1.find? (fun u => decide (key u = k))) ∧
      t.num = (mapRun key max [] ops).1.length ∧
      ∃ visited fuel, iterate fuel t.first.1 t.first.2.1 t.first.2.2 = some (visited, t) ∧
        visited.Perm (mapRun key max [] ops).1 := by
  unfold Table.alloc at h0
  split at h0
  · cases h0
    have hok : TableOk key max [] (⟨size, max, 0, List.replicate size [], 0⟩ : Table U) := by
      refine ⟨hs, by simp, rfl, by simp, by simp, ?_, rfl⟩
      intro i c hc u hu
      simp only [List.getElem?_replicate] at hc
      split at hc
      · cases hc; cases hu
      · cases hc
    obtain ⟨t, h1, h2⟩ := htRun_ok ops _ _ hok
    exact ⟨t, h1, h2.lookup_eq, h2.num_eq, t.entries.flatten, t.entries.flatten.length,
      iterate_all t _ (Nat.le_refl _), h2.perm⟩
  · cases h0

/-- The map never holds two records with one key, nor more than its capacity. -/
theorem C17_map_invariant (max : Nat) (ops : List (HtOp U)) :
    ((mapRun key max [] ops).1.map key).Nodup ∧ (mapRun key max [] ops).1.length ≤ max := by
  suffices h : ∀ m : List U, (m.map key).Nodup ∧ m.length ≤ max →
      ((mapRun key max m ops).1.map key).Nodup ∧ (mapRun key max m ops).1.length ≤ max from h [] ⟨by simp, by simp⟩
  induction ops with
  | nil => intro m h; exact h
  | cons op ops ih =>
    intro m h
    cases op with
    | clear => exact ih [] ⟨by simp, by simp⟩
    | add u up =>
      apply ih
      unfold mapAdd
      split
      · split
        · refine ⟨?_, by simpa using h.2⟩
          have : (m.map (fun v => if key v = key u then u else v)).map key = m.map key := by
            rw [List.map_map]
            apply List.map_congr_left
            intro v hv
            simp only [Function.comp]
            split
            · rename_i h; exact h.symm
            · rfl
          simp only
          rw [this]; exact h.1
        · exact h
      · rename_i hex
        split
        · exact h
        · refine ⟨?_, by simp; omega⟩
          simp only [List.map_cons, List.nodup_cons, List.mem_map]
          exact ⟨hex, h.1⟩
end

example : (htRun (fun u : Nat × Nat => [u.1]) ⟨2, 2, 0, [[], []], 0⟩
    [.add (1, 10) false, .add (3, 30) false, .add (1, 11) true, .add (1, 12) false, .add (5, 50) true]).map
      (fun r => (r.1.lookup (fun u => [u.1]) [1], r.1.num, r.2)) =
    some (some (1, 11), 2, [.ok, .ok, .ok, .eexist, .enospc]) := by decide

/-! ## C56 -/

/-- Specification: the pieces of a format. -/
inductive Piece where
  | lit (c : Nat)
  | percent
  | conv (c : Nat) (opt : Nat)
  | plain (c : Nat)
  | unknown (c : Nat)

/-- How a piece is written. -/
def Piece.text : Piece → List Nat
  | .lit c => [c]
  | .percent => [37, 37]
  | .conv c o => [37, c, o]
  | .plain c => [37, c]
  | .unknown c => [37, c]

/-- Well-formed with respect to a table of specifiers. -/
def Piece.ok (specs : Nat → Option Spec) : Piece → Prop
  | .lit c => c ≠ 37
  | .percent => True
  | .conv c _ => c ≠ 37 ∧ ∃ s, specs c = some s ∧ s.hasOpt = true
  | .plain c => c ≠ 37 ∧ ∃ s, specs c = some s ∧ s.hasOpt = false
  | .unknown c => c ≠ 37 ∧ specs c = none

/-- What it expands to, if its writer succeeds. -/
def Piece.expand (specs : Nat → Option Spec) : Piece → Option (List Nat)
  | .lit c => some [c]
  | .percent => some [37]
  | .conv c o => (specs c).bind (·.writer o)
  | .plain c => (specs c).bind (·.writer 0)
  | .unknown _ => some []

/-- The text of a format. -/
def textOf (ps : List Piece) : List Nat := (ps.map Piece.text).flatten

/-- The expansion, if all writers succeed. -/
def expandAll (specs : Nat → Option Spec) : List Piece → Option (List Nat)
  | [] => some []
  | p :: ps => match p.expand specs, expandAll specs ps with
    | some a, some b => some (a ++ b)
    | _, _ => none

/-- Every format is a sequence of pieces, possibly followed by an incomplete
conversion: a lone `%`, or a specifier whose option character is missing. -/
theorem C56_every_format (specs : Nat → Option Spec) (fmt : List Nat) :
    ∃ ps tail, fmt = textOf ps ++ tail ∧ (∀ p ∈ ps, p.ok specs) ∧
      (tail = [] ∨ tail = [37] ∨ ∃ c s, tail = [37, c] ∧ c ≠ 37 ∧ specs c = some s ∧ s.hasOpt = true) := by
  suffices h : ∀ n (fmt : List Nat), fmt.length ≤ n → ∃ ps tail, fmt = textOf ps ++ tail ∧ (∀ p ∈ ps, p.ok specs) ∧
      (tail = [] ∨ tail = [37] ∨ ∃ c s, tail = [37, c] ∧ c ≠ 37 ∧ specs c = some s ∧ s.hasOpt = true) from h _ fmt (Nat.le_refl _)
  intro n
  induction n with
  | zero =>
    intro fmt h
    exact ⟨[], [], by simpa [textOf] using h, by simp, Or.inl rfl⟩
  | succ n ih =>
    intro fmt h
    have cons : ∀ (p : Piece) (rest : List Nat), fmt = p.text ++ rest → p.ok specs → rest.length ≤ n →
        ∃ ps tail, fmt = textOf ps ++ tail ∧ (∀ p ∈ ps, p.ok specs) ∧
      (tail = [] ∨ tail = [37] ∨ ∃ c s, tail = [37, c] ∧ c ≠ 37 ∧ specs c = some s ∧ s.hasOpt = true) := by
      intro p rest h1 h2 h3
      obtain ⟨ps, tail, h4, h5, h6⟩ := ih rest h3
      refine ⟨p :: ps, tail, ?_, ?_, h6⟩
      · rw [h1, h4]; simp [textOf]
      · intro q hq
        rcases List.mem_cons.1 hq with rfl | hq
        · exact h2
        · exact h5 q hq
    cases fmt with
    | nil => exact ⟨[], [], rfl, by simp, Or.inl rfl⟩
    | cons c rest =>
      by_cases hc : c = 37
      · subst hc
        cases rest with
        | nil => exact ⟨[], [37], rfl, by simp, Or.inr (Or.inl rfl)⟩
        | cons d rest =>
          simp only [List.length_cons] at h
          by_cases hd : d = 37
          · subst hd; exact cons .percent rest rfl trivial (by omega)
          · cases hs : specs d with
            | none => exact cons (.unknown d) rest rfl ⟨hd, hs⟩ (by omega)
            | some s =>
              cases ho : s.hasOpt with
              | false => exact cons (.plain d) rest rfl ⟨hd, s, hs, ho⟩ (by omega)
              | true =>
                cases rest with
                | nil => exact ⟨[], [37, d], rfl, by simp, Or.inr (Or.inr ⟨d, s, rfl, hd, hs, ho⟩)⟩
                | cons o rest =>
                  simp only [List.length_cons] at h
                  exact cons (.conv d o) rest rfl ⟨hd, s, hs, ho⟩ (by omega)
      · exact cons (.lit c) rest rfl hc (by simpa using h)

/-- The effect of an expansion on the state, while everything fits: the text is
at its place in the buffer. -/
structure FmtOk (mem : Option (List Nat)) (out : List Nat) (f : Fmt) : Prop where
  len : f.len = out.length
  failed : f.failed = false
  buf : match mem, f.buf with
    | none, none => True
    | some m, some b => b.length = m.length ∧ b.take out.length = out
    | _, _ => False

/-- How the loop handles one piece. -/
theorem loop_piece (specs : Nat → Option Spec) (space : Nat) (p : Piece) (hp : p.ok specs) (rest : List Nat) (f : Fmt) :
    fmtLoop specs space .idle (p.text ++ rest) f =
      match p with
      | .lit c => fmtLoop specs space .idle rest { f with buf := putc f.buf space f.len c, len := f.len + 1 }
      | .percent => fmtLoop specs space .idle rest { f with buf := putc f.buf space f.len 37, len := f.len + 1 }
      | .conv c o => match specs c with
        | none => .ok (.idle, f)
        | some s => match convert space s o f with
          | .error e => .error e
          | .ok f => fmtLoop specs space .idle rest f
      | .plain c => match specs c with
        | none => .ok (.idle, f)
        | some s => match convert space s 0 f with
          | .error e => .error e
          | .ok f => fmtLoop specs space .idle rest f
      | .unknown _ => fmtLoop specs space .idle rest f := by
  cases p with
  | lit c =>
    have hc : c ≠ 37 := hp
    simp [Piece.text, fmtLoop, hc]
  | percent => cases rest <;> simp [Piece.text, fmtLoop]
  | conv c o =>
    obtain ⟨hc, s, hs, ho⟩ := hp
    simp [Piece.text, fmtLoop, hc, hs, ho]
    cases convert space s o f <;> rfl
  | plain c =>
    obtain ⟨hc, s, hs, ho⟩ := hp
    cases rest with
    | nil =>
      simp [Piece.text, fmtLoop, hc, hs, ho]
      cases convert space s 0 f <;> rfl
    | cons a r =>
      simp [Piece.text, fmtLoop, hc, hs, ho]
      cases convert space s 0 f <;> rfl
  | unknown c =>
    obtain ⟨hc, hs⟩ := hp
    cases rest <;> simp [Piece.text, fmtLoop, hc, hs]

theorem putc_ok {space : Nat} {mem : Option (List Nat)} {out : List Nat} {f : Fmt} (h : FmtOk mem out f) (c : Nat)
    (hm : ∀ m, mem = some m → m.length = space ∧ out.length + 1 < space) :
    FmtOk mem (out ++ [c]) { f with buf := putc f.buf space f.len c, len := f.len + 1 } := by
  obtain ⟨h1, h2, h3⟩ := h
  refine ⟨by simp [h1], h2, ?_⟩
  unfold putc
  cases mem with
  | none =>
    cases hb : f.buf with
    | none => simp
    | some b => rw [hb] at h3; exact h3.elim
  | some m =>
    cases hb : f.buf with
    | none => rw [hb] at h3; exact h3.elim
    | some b =>
      rw [hb] at h3
      obtain ⟨h4, h5⟩ := hm m rfl
      simp only [Option.map_some, h1, if_pos h5] at h3 ⊢
      refine ⟨by simp [h3.1], ?_⟩
      have hlt : out.length < b.length := by omega
      rw [List.length_append, List.length_singleton, List.take_succ_eq_append_getElem (by simpa using hlt)]
      rw [List.take_set_of_le (Nat.le_refl _), h3.2, List.getElem_set_self]

/-- The two ways of calling: for the size only, or with a buffer of `space` bytes. -/
def Call (mem : Option (List Nat)) (space : Nat) : Prop :=
  space < 2 ^ 64 ∧ ((mem = none ∧ space = 0) ∨ ∃ m, mem = some m ∧ m.length = space ∧ 0 < space)

theorem convert_ok {space : Nat} {mem : Option (List Nat)} {out : List Nat} {f : Fmt} (h : FmtOk mem out f) (s : Spec)
    (o : Nat) (text : List Nat) (hw : s.writer o = some text) (hm : Call mem space)
    (hfit : space = 0 ∨ (out ++ text).length < space) :
    ∃ f', convert space s o f = .ok f' ∧ FmtOk mem (out ++ text) f' := by
  obtain ⟨h1, h2, h3⟩ := h
  obtain ⟨hsp, hm⟩ := hm
  unfold convert
  simp only [hw]
  rw [List.length_append] at hfit
  have hfit' : space = 0 ∨ f.len + text.length < space := by rw [h1]; exact hfit
  rcases hm with ⟨rfl, h0⟩ | ⟨m, rfl, hml, hpos⟩
  · cases hb : f.buf with
    | none =>
      simp only [writeBuf, if_pos hfit']
      exact ⟨_, rfl, ⟨by simp [h1], rfl, trivial⟩⟩
    | some b => rw [hb] at h3; exact h3.elim
  · cases hb : f.buf with
    | none => rw [hb] at h3; exact h3.elim
    | some b =>
      rw [hb] at h3
      obtain ⟨hb1, hb2⟩ := h3
      simp only [if_pos hfit']
      have hne : space ≠ 0 := by omega
      rw [if_pos hne]
      have hav : (space + 2 ^ 64 - f.len) % 2 ^ 64 = space - out.length := by
        rw [h1, show space + 2 ^ 64 - out.length = space - out.length + 2 ^ 64 by omega, Nat.add_mod_right,
          Nat.mod_eq_of_lt (by omega)]
      rw [hav]
      have htk : text.take (space - out.length - 1) = text := List.take_of_length_le (by omega)
      have hwr : writeBuf (some b) f.len (space - out.length) text =
          .ok (some (b.take out.length ++ (text ++ [0]) ++ b.drop (out.length + (text.length + 1)))) := by
        unfold writeBuf writeAt
        simp only [htk, h1, List.length_append, List.length_singleton]
        rw [if_neg (by omega), if_pos (by omega)]
      rw [hwr]
      simp only
      refine ⟨_, rfl, ⟨by simp [h1], rfl, ?_⟩⟩
      simp only [hb2]
      refine ⟨by simp; omega, ?_⟩
      rw [← List.append_assoc, List.append_assoc, List.append_assoc, ← List.append_assoc out]
      rw [List.take_left' (by simp)]

theorem loop_ok {specs : Nat → Option Spec} {space : Nat} {mem : Option (List Nat)} (hm : Call mem space) (ps : List Piece) :
    ∀ (out : List Nat) (f : Fmt) (text rest : List Nat), (∀ p ∈ ps, p.ok specs) → FmtOk mem out f →
      expandAll specs ps = some text → (space = 0 ∨ (out ++ text).length < space) →
      ∃ f', fmtLoop specs space .idle (textOf ps ++ rest) f = fmtLoop specs space .idle rest f' ∧ FmtOk mem (out ++ text) f' := by
  induction ps with
  | nil =>
    intro out f text rest _ hf he _
    simp only [expandAll, Option.some.injEq] at he
    subst he
    exact ⟨f, by simp [textOf], by simpa using hf⟩
  | cons p ps ih =>
    intro out f text rest hp hf he hfit
    simp only [expandAll] at he
    split at he
    · rename_i a b ha hb
      cases he
      have hp1 := hp p (List.mem_cons_self ..)
      have hp2 := fun q hq => hp q (List.mem_cons_of_mem _ hq)
      have htx : textOf (p :: ps) ++ rest = p.text ++ (textOf ps ++ rest) := by simp [textOf]
      rw [htx, loop_piece specs space p hp1]
      have step : ∀ f1, FmtOk mem (out ++ a) f1 → ∃ f', fmtLoop specs space .idle (textOf ps ++ rest) f1 =
          fmtLoop specs space .idle rest f' ∧ FmtOk mem (out ++ (a ++ b)) f' := by
        intro f1 h1
        have := ih (out ++ a) f1 b rest hp2 h1 hb (by rw [List.append_assoc]; exact hfit)
        rw [List.append_assoc] at this
        exact this
      have hlen : space = 0 ∨ (out ++ a).length < space := by
        rcases hfit with h | h
        · exact Or.inl h
        · right; simp only [List.length_append] at h ⊢; omega
      have hput : ∀ c, a = [c] → ∀ m, mem = some m → m.length = space ∧ out.length + 1 < space := by
        intro c hc m hmm
        rcases hm.2 with ⟨h, _⟩ | ⟨m', h, h1, h2⟩
        · rw [h] at hmm; cases hmm
        · rw [h] at hmm; cases hmm
          refine ⟨h1, ?_⟩
          rcases hlen with h | h
          · omega
          · rw [hc] at h; simpa using h
      cases p with
      | lit c =>
        simp only [Piece.expand, Option.some.injEq] at ha
        subst ha
        exact step _ (putc_ok hf c (hput c rfl))
      | percent =>
        simp only [Piece.expand, Option.some.injEq] at ha
        subst ha
        exact step _ (putc_ok hf 37 (hput 37 rfl))
      | conv c o =>
        obtain ⟨hc, s, hs, ho⟩ := hp1
        simp only [Piece.expand, hs, Option.bind_some] at ha
        obtain ⟨f1, h1, h2⟩ := convert_ok hf s o a ha hm hlen
        simp only [hs, h1]
        exact step _ h2
      | plain c =>
        obtain ⟨hc, s, hs, ho⟩ := hp1
        simp only [Piece.expand, hs, Option.bind_some] at ha
        obtain ⟨f1, h1, h2⟩ := convert_ok hf s 0 a ha hm hlen
        simp only [hs, h1]
        exact step _ h2
      | unknown c =>
        simp only [Piece.expand, Option.some.injEq] at ha
        subst ha
        exact step _ (by simpa using hf)
    · cases he

/-- C56, full statement: for complete formats whose writers succeed, the result
is the length of the expansion, and a buffer receives the expansion truncated to
its size and terminated; no format makes the function read or write out of
bounds or abort; a writer that fails is reported. -/
def C56_format_statement : Prop :=
  (∀ (specs : Nat → Option Spec) (ps : List Piece) (m text : List Nat), (∀ p ∈ ps, p.ok specs) →
    expandAll specs ps = some text → 0 < m.length → m.length < 2 ^ 64 →
    ∃ b, format specs (some m) m.length (textOf ps) = .ok (some b, some text.length) ∧
      b.take (min text.length (m.length - 1)) = text.take (m.length - 1) ∧ b[min text.length (m.length - 1)]? = some 0) ∧
  (∀ (specs : Nat → Option Spec) (fmt : List Nat), ∃ r, format specs none 0 fmt = .ok r) ∧
  (∀ (specs : Nat → Option Spec) (ps : List Piece), (∀ p ∈ ps, p.ok specs) → expandAll specs ps = none →
    format specs none 0 (textOf ps) = .ok (none, none))

/-- Two specifiers for the witnesses: `H` (72) writes three characters, `C` (67)
takes an option, `E` (69) fails. -/
def demoSpecs (c : Nat) : Option Spec :=
  if c = 72 then some ⟨false, fun _ => some [1, 2, 3]⟩
  else if c = 67 then some ⟨true, fun o => some [o]⟩
  else if c = 69 then some ⟨false, fun _ => none⟩
  else none

/-- Each of the three clauses is false: a text longer than the buffer aborts; a
format ending in a specifier that wants an option reads past its end; a failure
followed by a success is forgotten. -/
theorem C56_format_violated : ¬ C56_format_statement ∧
    format demoSpecs (some [0, 0]) 2 [5, 6] = .error .assertion ∧
    format demoSpecs none 0 [37, 67] = .error .overread ∧
    format demoSpecs none 0 [37, 69, 37, 72] = .ok (none, some 3) ∧
    expandAll demoSpecs [.plain 69, .plain 72] = none := by
  refine ⟨fun h => ?_, by decide, by decide, by decide, by decide⟩
  obtain ⟨r, hr⟩ := h.2.1 demoSpecs [37, 67]
  rw [show format demoSpecs none 0 [37, 67] = .error .overread by decide] at hr
  cases hr

/-- Literal text longer than the buffer followed by a conversion makes the writer
believe that nearly the whole address space is left: it writes behind the buffer. -/
theorem C56_overrun : format demoSpecs (some [0, 0]) 2 [5, 6, 7, 37, 72] = .error .overrun := by decide

/-- C56, what holds: a complete format whose writers succeed gives the length of
the expansion when called for the size; called with a buffer that has room for
the expansion and its terminator, the buffer receives exactly these; formats
ending in a lone `%` are reported as errors.  Missing: buffers that are too
small, incomplete conversions with option, and failing writers. -/
theorem C56_format_partial (specs : Nat → Option Spec) (ps : List Piece) (text : List Nat) (hp : ∀ p ∈ ps, p.ok specs)
    (he : expandAll specs ps = some text) :
    format specs none 0 (textOf ps) = .ok (none, some text.length) ∧
    format specs none 0 (textOf ps ++ [37]) = .ok (none, none) ∧
    ∀ m : List Nat, text.length < m.length → m.length < 2 ^ 64 →
      ∃ b, format specs (some m) m.length (textOf ps) = .ok (some b, some text.length) ∧ b.length = m.length ∧
        b.take (text.length + 1) = text ++ [0] := by
  have h0 : FmtOk none [] ⟨none, 0, false⟩ := ⟨rfl, rfl, trivial⟩
  refine ⟨?_, ?_, fun m hm1 hm2 => ?_⟩
  · obtain ⟨f, h1, h2⟩ := loop_ok (mem := none) (space := 0) ⟨by omega, Or.inl ⟨rfl, rfl⟩⟩ ps [] _ text [] hp h0 he (Or.inl rfl)
    rw [List.append_nil] at h1
    unfold format
    rw [if_neg (by simp), h1]
    simp only [fmtLoop]
    have hb := h2.buf
    cases hfb : f.buf with
    | none => simp [hfb, h2.failed, h2.len]
    | some b => rw [hfb] at hb; exact hb.elim
  · obtain ⟨f, h1, h2⟩ := loop_ok (mem := none) (space := 0) ⟨by omega, Or.inl ⟨rfl, rfl⟩⟩ ps [] _ text [37] hp h0 he (Or.inl rfl)
    unfold format
    rw [if_neg (by simp), h1]
    simp only [fmtLoop, if_true]
    have hb := h2.buf
    cases hfb : f.buf with
    | none => simp [hfb]
    | some b => rw [hfb] at hb; exact hb.elim
  · obtain ⟨f, h1, h2⟩ := loop_ok (mem := some m) (space := m.length) ⟨hm2, Or.inr ⟨m, rfl, rfl, by omega⟩⟩ ps []
      ⟨some m, 0, false⟩ text [] hp ⟨rfl, rfl, rfl, by simp⟩ he (Or.inr (by simpa using hm1))
    rw [List.append_nil] at h1
    unfold format
    rw [if_neg (by simp), h1]
    simp only [fmtLoop]
    have hb := h2.buf
    cases hfb : f.buf with
    | none => rw [hfb] at hb; exact hb.elim
    | some b =>
      rw [hfb] at hb
      simp only [List.nil_append] at hb
      have hl := h2.len
      simp only [List.nil_append] at hl
      simp only [hfb, hl, if_pos hm1, h2.failed]
      refine ⟨_, rfl, by simp [hb.1], ?_⟩
      rw [List.take_succ_eq_append_getElem (by simp; omega), List.take_set_of_le (Nat.le_refl _), hb.2, List.getElem_set_self]

example : (∀ p ∈ [Piece.lit 5, .percent, .plain 72, .conv 67 9, .unknown 90], p.ok demoSpecs) ∧
    textOf [.lit 5, .percent, .plain 72, .conv 67 9, .unknown 90] = [5, 37, 37, 37, 72, 37, 67, 9, 37, 90] ∧
    expandAll demoSpecs [.lit 5, .percent, .plain 72, .conv 67 9, .unknown 90] = some [5, 37, 1, 2, 3, 9] ∧
    format demoSpecs (some [0, 0, 0, 0, 0, 0, 0]) 7 [5, 37, 37, 37, 72, 37, 67, 9, 37, 90] =
      .ok (some [5, 37, 1, 2, 3, 9, 0], some 6) := by
  refine ⟨?_, by decide, by decide, by decide⟩
  intro p hp
  simp only [List.mem_cons, List.not_mem_nil, or_false] at hp
  rcases hp with rfl | rfl | rfl | rfl | rfl <;> simp [Piece.ok, demoSpecs]

end Verif.Misc
