import Verif.Monitor.Spec
import Verif.Db.Props

set_option linter.unusedSimpArgs false
set_option linter.unusedVariables false

/-!
# Lemmas on tables with one record for each key
-/

namespace Verif.Monitor
open Verif.Db

section keyed
variable {K E R : Type} [DecidableEq K]

theorem eraseDups_snoc (l : List K) (k : K) : (l ++ [k]).eraseDups = if k ∈ l then l.eraseDups else l.eraseDups ++ [k] := by
  rw [List.eraseDups_append]
  split
  · rename_i h; simp [List.removeAll, h]
  · rename_i h; simp [List.removeAll, h, List.eraseDups_cons]

theorem mem_eraseDups' (l : List K) (k : K) : k ∈ l.eraseDups ↔ k ∈ l := by simp

theorem nodup_eraseDups' (l : List K) : l.eraseDups.Nodup := by
  induction l using List.reverseRecOn with
  | nil => simp
  | append_singleton l k ih =>
    rw [eraseDups_snoc]
    split
    · exact ih
    · rename_i h
      rw [List.nodup_append]
      refine ⟨ih, by simp, ?_⟩
      intro a ha b hb he
      simp only [List.mem_singleton] at hb
      subst hb; subst he
      exact h ((mem_eraseDups' _ _).1 ha)

theorem ofKey_snoc (k k' : K) (e : E) (evs : List (K × E)) :
    ofKey k (evs ++ [(k', e)]) = if k' = k then ofKey k evs ++ [e] else ofKey k evs := by
  unfold ofKey
  rw [List.filterMap_append]
  by_cases h : k' = k <;> simp [h]

theorem ofKey_nil {k : K} {evs : List (K × E)} (h : k ∉ evs.map (·.1)) : ofKey k evs = [] := by
  unfold ofKey
  rw [List.filterMap_eq_nil_iff]
  intro e he
  rw [if_neg]
  intro h'
  exact h (List.mem_map.2 ⟨e, he, h'⟩)

/-- The list for a new key. -/
theorem perKey_new {base : Int} {f : Int → K → List E → R} {evs : List (K × E)} {k : K} (e : E) (h : k ∉ evs.map (·.1)) :
    perKey base f (evs ++ [(k, e)]) = perKey base f evs ++ [f (base + (evs.map (·.1)).eraseDups.length) k [e]] := by
  unfold perKey
  rw [List.map_append, List.map_cons, List.map_nil, eraseDups_snoc, if_neg h, List.zipIdx_append, List.map_append]
  congr 1
  · apply List.map_congr_left
    intro x hx
    have : x.1 ∈ (evs.map (·.1)).eraseDups := by
      have := List.mem_map_of_mem (f := Prod.fst) hx
      rwa [List.zipIdx_map_fst] at this
    rw [ofKey_snoc, if_neg]
    rintro rfl
    exact h ((mem_eraseDups' _ _).1 this)
  · simp [ofKey_snoc, ofKey_nil h]

/-- The list for a known key. -/
theorem perKey_known {base : Int} {f : Int → K → List E → R} {evs : List (K × E)} {k : K} (e : E) (h : k ∈ evs.map (·.1))
    (key : R → K) (g : R → R) (hk : ∀ n k es, es ≠ [] → key (f n k es) = k) (hg : ∀ n es, es ≠ [] → f n k (es ++ [e]) = g (f n k es)) :
    perKey base f (evs ++ [(k, e)]) = (perKey base f evs).map (fun r => if key r = k then g r else r) := by
  unfold perKey
  rw [List.map_append, List.map_cons, List.map_nil, eraseDups_snoc, if_pos h, List.map_map]
  apply List.map_congr_left
  intro x hx
  have hm : x.1 ∈ (evs.map (·.1)).eraseDups := by
    have := List.mem_map_of_mem (f := Prod.fst) hx
    rwa [List.zipIdx_map_fst] at this
  have hne : ofKey x.1 evs ≠ [] := by
    obtain ⟨e', he', hx'⟩ := List.mem_map.1 ((mem_eraseDups' _ _).1 hm)
    unfold ofKey
    intro h0
    rw [List.filterMap_eq_nil_iff] at h0
    have := h0 e' he'
    rw [if_pos hx'] at this
    cases this
  simp only [Function.comp, ofKey_snoc]
  rw [hk _ _ _ hne]
  by_cases hkx : k = x.1
  · rw [if_pos hkx, if_pos hkx.symm, ← hkx, hg _ _ (hkx ▸ hne)]
  · rw [if_neg hkx, if_neg (fun h => hkx h.symm)]

/-- The keys of the entries. -/
theorem perKey_keys {base : Int} {f : Int → K → List E → R} {evs : List (K × E)} (key : R → K)
    (hk : ∀ n k es, es ≠ [] → key (f n k es) = k) : (perKey base f evs).map key = (evs.map (·.1)).eraseDups := by
  unfold perKey
  rw [List.map_map]
  conv => rhs; rw [← List.zipIdx_map_fst 0 (evs.map (·.1)).eraseDups]
  apply List.map_congr_left
  intro x hx
  have hm : x.1 ∈ (evs.map (·.1)).eraseDups := by
    have := List.mem_map_of_mem (f := Prod.fst) hx
    rwa [List.zipIdx_map_fst] at this
  have hne : ofKey x.1 evs ≠ [] := by
    obtain ⟨e', he', hx'⟩ := List.mem_map.1 ((mem_eraseDups' _ _).1 hm)
    unfold ofKey
    intro h0
    rw [List.filterMap_eq_nil_iff] at h0
    have := h0 e' he'
    rw [if_pos hx'] at this
    cases this
  simp only [Function.comp, hk _ _ _ hne]

end keyed

section store
variable {K R : Type} [DecidableEq K]

omit [DecidableEq K] in
theorem live_nodup {R' : Type} {live : List (Nat × R)} {l : List R'} {g : R → R'} (key : R' → K)
    (hp : (live.map (fun x => g x.2)).Perm l) (hn : (l.map key).Nodup) : (live.map (fun x => key (g x.2))).Nodup := by
  have := ((hp.map key).nodup_iff).2 hn
  rwa [List.map_map] at this

variable {R' E : Type} {base : Int} {f : Int → K → List E → R'} {evs : List (K × E)} {g : R → R'} (key : R' → K)
  (hk : ∀ n k es, es ≠ [] → key (f n k es) = k) {live : List (Nat × R)}
include hk

theorem live_mem (hp : (live.map (fun x => g x.2)).Perm (perKey base f evs)) (k : K) :
    k ∈ evs.map (·.1) ↔ ∃ x ∈ live, key (g x.2) = k := by
  rw [← mem_eraseDups', ← perKey_keys (base := base) key hk, ← (hp.map key).mem_iff]
  simp

/-- Writing the record of a known key. -/
theorem keyed_set (hp : (live.map (fun x => g x.2)).Perm (perKey base f evs)) (hi : (live.map (·.1)).Nodup) {i : Nat} {r : R}
    (hr : (i, r) ∈ live) {k : K} (hrk : key (g r) = k) (e : E) (h : R' → R') (hh : ∀ n es, es ≠ [] → f n k (es ++ [e]) = h (f n k es))
    {x : R} (hx : g x = h (g r)) :
    ((live.map (fun y => if y.1 = i then (i, x) else y)).map (fun y => g y.2)).Perm (perKey base f (evs ++ [(k, e)])) := by
  have hm : k ∈ evs.map (·.1) := (live_mem key hk hp k).2 ⟨_, hr, hrk⟩
  rw [perKey_known e hm key h hk hh]
  have hnd : (live.map (fun x => key (g x.2))).Nodup := live_nodup key hp (by rw [perKey_keys key hk]; exact nodup_eraseDups' _)
  have h1 : (live.map (fun y => if y.1 = i then (i, x) else y)).map (fun y => g y.2) =
      (live.map (fun x => g x.2)).map (fun r => if key r = k then h r else r) := by
    rw [List.map_map, List.map_map]
    apply List.map_congr_left
    intro y hy
    simp only [Function.comp]
    by_cases hy' : y.1 = i
    · have : y = (i, r) := List.inj_on_of_nodup_map hi hy hr hy'
      subst this
      simp only [if_pos hrk, if_true, hx]
    · rw [if_neg hy', if_neg]
      intro hyk
      have : y = (i, r) := List.inj_on_of_nodup_map hnd hy hr (by simp only [hyk, hrk])
      exact hy' (by rw [this])
  rw [h1]
  exact hp.map _

/-- Nothing is written for a known key. -/
theorem keyed_same (hp : (live.map (fun x => g x.2)).Perm (perKey base f evs)) {k : K} (hm : ∃ x ∈ live, key (g x.2) = k) (e : E)
    (hh : ∀ n es, es ≠ [] → f n k (es ++ [e]) = f n k es) :
    (live.map (fun x => g x.2)).Perm (perKey base f (evs ++ [(k, e)])) := by
  rw [perKey_known e ((live_mem key hk hp k).2 hm) key id hk hh]
  have : (perKey base f evs).map (fun r => if key r = k then id r else r) = perKey base f evs := by
    conv => rhs; rw [← List.map_id (perKey base f evs)]
    apply List.map_congr_left
    intro r _
    split <;> rfl
  rw [this]
  exact hp

/-- Inserting a record for a new key. -/
theorem keyed_insert (hp : (live.map (fun x => g x.2)).Perm (perKey base f evs)) {k : K} (hm : ∀ x ∈ live, key (g x.2) ≠ k) (e : E)
    {x : R} (hx : g x = f (base + (evs.map (·.1)).eraseDups.length) k [e]) (i : Nat) :
    (((i, x) :: live).map (fun x => g x.2)).Perm (perKey base f (evs ++ [(k, e)])) := by
  have hn : k ∉ evs.map (·.1) := by
    rw [live_mem key hk hp k]
    rintro ⟨x, hx, he⟩
    exact hm x hx he
  rw [perKey_new e hn, List.map_cons, hx]
  exact (hp.cons _).trans (List.perm_append_singleton _ _).symm

end store

/-- Ordering by number. -/
theorem inOrder_spec {R : Type} (junk : Nat → Slot R) (common : R → Common) {q : (R → R → Int) → List R → List R} (hq : QsortOk q)
    {a : Arr R} {live : List (Nat × R)} (h : ArrOk a live) :
    ∃ l, inOrder junk common q a = some l ∧ l.Perm (live.map (·.2)) ∧ l.Pairwise (fun x y => (common x).mseq ≤ (common y).mseq) := by
  obtain ⟨l, h1, h2, h3⟩ := query_spec (arrRefines junk) h (table common) ⟨[], [3]⟩ hq
  refine ⟨l, h1, ?_, ?_⟩
  · have : live.filter (fun x => decide (Satisfies (table common) (⟨[], [3]⟩ : Selection Val) x.2)) = live := by
      rw [List.filter_eq_self]; intro x _; simp [Satisfies]
    rwa [this] at h2
  · refine (h3 ?_).imp ?_
    · intro k hk
      simp only [List.mem_singleton] at hk
      subst hk
      constructor
      · intro x y; simp only [table, sortCommon]; omega
      · intro x y z; simp only [table, sortCommon]; omega
    · intro x y hxy
      rcases hxy with h | ⟨pre, k, post, h4, h5, h6⟩
      · have := h 3 (by simp)
        simp only [table, sortCommon] at this; omega
      · have hk : k = 3 := by
          have : k ∈ [3] := by rw [show [3] = pre ++ k :: post from h4]; simp
          simpa using this
        subst hk
        simp only [table, sortCommon] at h6; omega

/-- A sorted list with strictly increasing numbers is determined. -/
theorem sorted_unique {R : Type} {num : R → Int} {l m : List R} (hp : l.Perm m) (hl : l.Pairwise (fun x y => num x ≤ num y))
    (hm : m.Pairwise (fun x y => num x < num y)) : l = m := by
  have hnd : (m.map num).Nodup := by
    unfold List.Nodup
    rw [List.pairwise_map]
    exact hm.imp (fun h => by omega)
  have hlt : l.Pairwise (fun x y => num x < num y) := by
    have hnd' : (l.map num).Nodup := ((hp.map num).nodup_iff).2 hnd
    unfold List.Nodup at hnd'
    rw [List.pairwise_map] at hnd'
    exact (hl.and hnd').imp (fun h => by have h1 := h.1; have h2 := h.2; omega)
  refine List.Perm.eq_of_pairwise (le := fun x y => num x < num y) ?_ hlt hm hp
  intro a b _ _ h1 h2
  omega

/-- Deleting everything. -/
theorem deleteAll_empty {R : Type} (junk : Nat → Slot R) (common : R → Common) {a : Arr R} {live : List (Nat × R)} (h : ArrOk a live) :
    ∃ a', delete (arrOps junk) (table common) a ⟨[], []⟩ = some a' ∧ ArrOk a' [] := by
  obtain ⟨s', h1, h2⟩ := delete_spec (arrRefines junk) h (table common) ⟨[], []⟩ rfl
  refine ⟨s', h1, ?_⟩
  have : live.filter (fun x => decide (¬ Satisfies (table common) (⟨[], []⟩ : Selection Val) x.2)) = [] := by
    rw [List.filter_eq_nil_iff]; intro x _; simp [Satisfies]
  rwa [this] at h2

/-- Search by key. -/
theorem find_keyed {R K : Type} [DecidableEq K] (junk : Nat → Slot R) (d : TableDef Val R) (key : R → K) (sel : Selection Val) (k : K)
    (hsel : ∀ r, checkLoop d r sel.filters = decide (key r = k)) {a : Arr R} {live : List (Nat × R)} (h : ArrOk a live) :
    (∃ i r, Verif.Db.find (arrOps junk) d a sel = some (some i) ∧ (i, r) ∈ live ∧ key r = k) ∨
    (Verif.Db.find (arrOps junk) d a sel = some none ∧ ∀ x ∈ live, key x.2 ≠ k) := by
  obtain ⟨res, h1, h2⟩ := (arrRefines junk).find h (fun r => checkLoop d r sel.filters)
  cases res with
  | some i =>
    obtain ⟨r, h3, h4⟩ := h2
    rw [hsel, decide_eq_true_iff] at h4
    exact Or.inl ⟨i, r, h1, h3, h4⟩
  | none =>
    refine Or.inr ⟨h1, fun x hx he => ?_⟩
    have := h2 x hx
    rw [hsel, decide_eq_false_iff_not] at this
    exact this he

end Verif.Monitor
