import Verif.Db.Model
import Mathlib.Data.List.Perm.Basic
import Mathlib.Data.List.Nodup
import Mathlib.Data.List.Perm.Subperm
import Mathlib.Data.List.Range

set_option linter.unusedSimpArgs false
set_option linter.unusedVariables false

/-!
# Both stores refine a set of referenced records
-/

namespace Verif.Db

variable {S R V : Type}

/-- The operations of a store refine those on a list of references and records. -/
structure Refines (o : Ops S R) (Inv : S → List (Nat × R) → Prop) : Prop where
  nodup : ∀ {s l}, Inv s l → (l.map (·.1)).Nodup
  insert : ∀ {s l}, Inv s l → ∀ r, ∃ i s', o.insert s r = some (i, s') ∧ i ∉ l.map (·.1) ∧ Inv s' ((i, r) :: l)
  delete : ∀ {s l}, Inv s l → ∀ i r, (i, r) ∈ l → ∃ s', o.delete s i = some s' ∧ Inv s' (l.filter (fun x => x.1 ≠ i))
  find : ∀ {s l}, Inv s l → ∀ p, ∃ res, o.find s p = some res ∧
    (match res with
      | some i => ∃ r, (i, r) ∈ l ∧ p r = true
      | none => ∀ x ∈ l, p x.2 = false)
  get : ∀ {s l}, Inv s l → ∀ i r, (i, r) ∈ l → o.getData s i = some r
  set : ∀ {s l}, Inv s l → ∀ i r x, (i, r) ∈ l → ∃ s', o.setData s i x = some s' ∧
    Inv s' (l.map (fun y => if y.1 = i then (i, x) else y))
  foreach : ∀ {s l}, Inv s l → ∃ refs, o.foreach s = some refs ∧ refs.Perm (l.map (·.1))

theorem mem_unique {l : List (Nat × R)} (hn : (l.map (·.1)).Nodup) {i : Nat} {r r' : R} (h : (i, r) ∈ l) (h' : (i, r') ∈ l) :
    r = r' := by
  have := List.inj_on_of_nodup_map hn h h' rfl
  exact (Prod.mk.inj this).2

/-! ## Linked list -/

theorem llDelete_eq {l : LList R} (hn : (l.map (·.1)).Nodup) {i : Nat} {r : R} (h : (i, r) ∈ l) :
    llDelete l i = some (l.filter (fun x => x.1 ≠ i)) := by
  induction l with
  | nil => cases h
  | cons x l ih =>
    obtain ⟨a, b⟩ := x
    simp only [List.map_cons, List.nodup_cons] at hn
    simp only [llDelete]
    by_cases ha : a = i
    · subst ha
      rw [if_pos rfl]
      have : l.filter (fun x => decide (x.1 ≠ a)) = l := by
        rw [List.filter_eq_self]
        intro y hy
        simp only [ne_eq, decide_not, Bool.not_eq_eq_eq_not, Bool.not_true, decide_eq_false_iff_not]
        intro he
        exact hn.1 (by rw [← he]; exact List.mem_map_of_mem hy)
      rw [List.filter_cons_of_neg (by simp), this]
    · rw [if_neg ha]
      rcases List.mem_cons.1 h with h1 | h1
      · exact absurd (Prod.mk.inj h1).1.symm ha
      · rw [ih hn.2 h1]
        simp [ha]

theorem llGet_eq {l : LList R} (hn : (l.map (·.1)).Nodup) {i : Nat} {r : R} (h : (i, r) ∈ l) : llGet l i = some r := by
  induction l with
  | nil => cases h
  | cons x l ih =>
    obtain ⟨a, b⟩ := x
    simp only [List.map_cons, List.nodup_cons] at hn
    simp only [llGet]
    rcases List.mem_cons.1 h with h1 | h1
    · cases h1; rw [if_pos rfl]
    · rw [if_neg, ih hn.2 h1]
      intro he; rw [he] at hn; exact hn.1 (List.mem_map_of_mem (f := fun (x : Nat × R) => x.1) h1)

theorem llSet_eq {l : LList R} (hn : (l.map (·.1)).Nodup) {i : Nat} {r x : R} (h : (i, r) ∈ l) :
    llSet l i x = some (l.map (fun y => if y.1 = i then (i, x) else y)) := by
  induction l with
  | nil => cases h
  | cons y l ih =>
    obtain ⟨a, b⟩ := y
    simp only [List.map_cons, List.nodup_cons] at hn
    simp only [llSet]
    by_cases ha : a = i
    · subst ha
      have : l.map (fun y => if y.1 = a then (a, x) else y) = l := by
        conv => rhs; rw [← List.map_id l]
        apply List.map_congr_left
        intro y hy
        rw [if_neg]; rfl
        intro he; exact hn.1 (by rw [← he]; exact List.mem_map_of_mem hy)
      simp [this]
    · rcases List.mem_cons.1 h with h1 | h1
      · exact absurd (Prod.mk.inj h1).1.symm ha
      · rw [if_neg ha, ih hn.2 h1]
        simp [ha]

theorem llFind_spec (p : R → Bool) (l : LList R) :
    match llFind p l with
    | some i => ∃ r, (i, r) ∈ l ∧ p r = true
    | none => ∀ x ∈ l, p x.2 = false := by
  induction l with
  | nil => simp [llFind]
  | cons x l ih =>
    obtain ⟨a, r⟩ := x
    simp only [llFind]
    cases hp : p r with
    | true => simp only [if_true]; exact ⟨r, List.mem_cons_self .., hp⟩
    | false =>
      simp only [Bool.false_eq_true, if_false]
      cases hf : llFind p l with
      | some i =>
        rw [hf] at ih
        obtain ⟨r', h1, h2⟩ := ih
        exact ⟨r', List.mem_cons_of_mem _ h1, h2⟩
      | none =>
        rw [hf] at ih
        intro y hy
        rcases List.mem_cons.1 hy with rfl | hy
        · exact hp
        · exact ih y hy

/-- The linked list refines, if `malloc` returns an address not in use. -/
theorem llRefines (malloc : List Nat → Nat) (hm : ∀ l, malloc l ∉ l) :
    Refines (llOps malloc : Ops (LList R) R) (fun s l => s = l ∧ (l.map (·.1)).Nodup) where
  nodup h := h.2
  insert := by
    rintro s l ⟨rfl, hn⟩ r
    exact ⟨_, _, rfl, hm _, rfl, by simp only [List.map_cons, List.nodup_cons]; exact ⟨hm _, hn⟩⟩
  delete := by
    rintro s l ⟨rfl, hn⟩ i r h
    refine ⟨_, llDelete_eq hn h, rfl, ?_⟩
    exact hn.sublist (List.Sublist.map _ List.filter_sublist)
  find := by
    rintro s l ⟨rfl, hn⟩ p
    exact ⟨_, rfl, llFind_spec p s⟩
  get := by
    rintro s l ⟨rfl, hn⟩ i r h
    exact llGet_eq hn h
  set := by
    rintro s l ⟨rfl, hn⟩ i r x h
    refine ⟨_, llSet_eq hn h, rfl, ?_⟩
    have : (s.map (fun y => if y.1 = i then (i, x) else y)).map (·.1) = s.map (·.1) := by
      rw [List.map_map]
      apply List.map_congr_left
      intro y _
      simp only [Function.comp]
      split
      · rename_i h; exact h.symm
      · rfl
    rw [this]; exact hn
  foreach := by
    rintro s l ⟨rfl, hn⟩
    exact ⟨_, rfl, List.Perm.refl _⟩

/-! ## Array -/

/-- Following the free list from an index gives these slots. -/
def FreeChain (data : List (Slot R)) : Nat → List Nat → Prop
  | _, [] => True
  | first, i :: fl => first = i ∧ ∃ s, data[i]? = some s ∧ FreeChain data s.next fl

theorem FreeChain.set {data : List (Slot R)} {j : Nat} {x : Slot R} {fl : List Nat} :
    ∀ {first}, j ∉ fl → FreeChain data first fl → FreeChain (data.set j x) first fl := by
  induction fl with
  | nil => intros; trivial
  | cons i fl ih =>
    intro first hj h
    simp only [List.mem_cons, not_or] at hj
    obtain ⟨h1, s, h2, h3⟩ := h
    exact ⟨h1, s, by rw [List.getElem?_set, if_neg (fun h => hj.1 h)]; exact h2, ih hj.2 h3⟩

theorem FreeChain.append {data ext : List (Slot R)} {fl : List Nat} :
    ∀ {first}, FreeChain data first fl → FreeChain (data ++ ext) first fl := by
  induction fl with
  | nil => intros; trivial
  | cons i fl ih =>
    intro first h
    obtain ⟨h1, s, h2, h3⟩ := h
    refine ⟨h1, s, ?_, ih h3⟩
    rw [List.getElem?_append_left (List.getElem?_eq_some_iff.1 h2).1]; exact h2

/-- Invariant of the array store. -/
structure ArrOk (a : Arr R) (l : List (Nat × R)) : Prop where
  cap_pos : 0 < a.cap
  len : a.data.length = a.cap
  hwm_le : a.hwm ≤ a.cap
  nodup : (l.map (·.1)).Nodup
  magic : ∀ i, i < a.hwm → ∃ s, a.data[i]? = some s ∧ s.magic = true
  mem : ∀ i r, (i, r) ∈ l ↔ i < a.hwm ∧ ∃ s, a.data[i]? = some s ∧ s.populated = true ∧ s.payload = r
  count : a.count = l.length
  free : ∃ fl, FreeChain a.data a.first fl ∧ fl.Nodup ∧ fl.length + a.count = a.hwm ∧
    ∀ i ∈ fl, i < a.hwm ∧ ∃ s, a.data[i]? = some s ∧ s.populated = false

theorem ArrOk.key {a : Arr R} {l} (h : ArrOk a l) (i : Nat) :
    i ∈ l.map (·.1) ↔ i < a.hwm ∧ ∃ s, a.data[i]? = some s ∧ s.populated = true := by
  rw [List.mem_map]
  constructor
  · rintro ⟨⟨j, r⟩, hx, rfl⟩
    obtain ⟨h1, s, h2, h3, _⟩ := (h.mem j r).1 hx
    exact ⟨h1, s, h2, h3⟩
  · rintro ⟨h1, s, h2, h3⟩
    exact ⟨(i, s.payload), (h.mem i s.payload).2 ⟨h1, s, h2, h3, rfl⟩, rfl⟩

theorem ArrOk.header {a : Arr R} {l} (h : ArrOk a l) {i : Nat} (hi : i < a.hwm) :
    ∃ s, header a i = some s ∧ a.data[i]? = some s ∧ s.magic = true := by
  obtain ⟨s, h1, h2⟩ := h.magic i hi
  exact ⟨s, by unfold Db.header; rw [if_pos hi, h1]; simp [h2], h1, h2⟩

theorem ArrOk.empty (cap : Nat) (hc : 0 < cap) (zero : Slot R) : ArrOk (arrCreate cap zero) [] := by
  refine ⟨hc, by simp [arrCreate], Nat.zero_le _, by simp, ?_, ?_, rfl, [], trivial, by simp, rfl, by simp⟩
  · intro i hi; simp [arrCreate] at hi
  · intro i r; simp [arrCreate]

/-- Insertion at a slot that is new or free. -/
theorem ArrOk.insert {a : Arr R} {l} (h : ArrOk a l) (junk : Nat → Slot R) (r : R) :
    ∃ i a', arrInsert junk a r = some (i, a') ∧ i ∉ l.map (·.1) ∧ ArrOk a' ((i, r) :: l) := by
  obtain ⟨fl, f1, f2, f3, f4⟩ := h.free
  have hcap := h.cap_pos
  have hle := h.hwm_le
  unfold arrInsert
  rw [if_neg (by omega)]
  by_cases hc : a.count = a.hwm
  · rw [if_pos hc, if_neg (by omega)]
    have hfl : fl = [] := List.length_eq_zero_iff.1 (by omega)
    -- the array after a possible enlargement
    have grow : ∃ cap' data', (if a.count = a.cap then
          { a with cap := a.cap * 2, data := a.data ++ (List.range a.cap).map (fun k => junk (a.cap + k)) } else a) =
          { a with cap := cap', data := data' } ∧ data'.length = cap' ∧ a.hwm < cap' ∧
          ∀ i, i < a.hwm → data'[i]? = a.data[i]? := by
      by_cases hf : a.count = a.cap
      · rw [if_pos hf]
        refine ⟨_, _, rfl, by simp [h.len]; omega, by omega, fun i hi => ?_⟩
        rw [List.getElem?_append_left (by rw [h.len]; omega)]
      · rw [if_neg hf]
        exact ⟨a.cap, a.data, rfl, h.len, by omega, fun _ _ => rfl⟩
    obtain ⟨cap', data', g1, g2, g3, g4⟩ := grow
    rw [g1]
    simp only
    have hlt : a.hwm < data'.length := by omega
    rw [List.getElem?_eq_getElem hlt]
    simp only
    have hnk : a.hwm ∉ l.map (·.1) := by rw [h.key]; rintro ⟨h1, _⟩; omega
    refine ⟨_, _, rfl, hnk, ?_⟩
    refine ⟨by simp only; omega, by simp [g2], by simp only; omega, ?_, ?_, ?_, by simp [h.count], [], trivial, by simp,
      by simp only [List.length_nil]; omega, by simp⟩
    · simp only [List.map_cons, List.nodup_cons]; exact ⟨hnk, h.nodup⟩
    · intro i hi
      simp only at hi ⊢
      rw [List.getElem?_set]
      by_cases he : a.hwm = i
      · rw [if_pos he, if_pos (by omega)]; exact ⟨_, rfl, rfl⟩
      · rw [if_neg he, g4 i (by omega)]; exact h.magic i (by omega)
    · intro i x
      simp only [List.mem_cons, Prod.mk.injEq]
      rw [List.getElem?_set]
      by_cases he : a.hwm = i
      · subst he
        rw [if_pos rfl, if_pos hlt]
        constructor
        · rintro (⟨_, rfl⟩ | h1)
          · exact ⟨by omega, _, rfl, rfl, rfl⟩
          · exact absurd ((h.mem _ _).1 h1).1 (by omega)
        · rintro ⟨_, s, h1, _, h2⟩
          cases h1
          exact Or.inl ⟨rfl, h2.symm⟩
      · rw [if_neg he]
        constructor
        · rintro (⟨h1, _⟩ | h1)
          · exact absurd h1.symm he
          · obtain ⟨h2, s, h3, h4⟩ := (h.mem _ _).1 h1
            exact ⟨by omega, s, by rw [g4 i h2]; exact h3, h4⟩
        · rintro ⟨h1, s, h2, h3⟩
          right
          have h1' : i < a.hwm := by omega
          rw [g4 i h1'] at h2
          exact (h.mem _ _).2 ⟨h1', s, h2, h3⟩
  · rw [if_neg hc]
    cases fl with
    | nil => simp at f3; omega
    | cons i fl =>
      obtain ⟨rfl, s, hs, hch⟩ := f1
      obtain ⟨hi, s', hs', hpop⟩ := f4 _ (List.mem_cons_self ..)
      rw [hs] at hs'; cases hs'
      obtain ⟨s2, hh, hs2, hmag⟩ := h.header hi
      rw [hs] at hs2; cases hs2
      rw [hh]
      simp only [hpop, Bool.false_eq_true, if_false]
      have hnk : a.first ∉ l.map (·.1) := by
        rw [h.key]; rintro ⟨_, s3, h3, h4⟩
        rw [hs] at h3; cases h3; rw [hpop] at h4; cases h4
      rw [List.nodup_cons] at f2
      have hlt : a.first < a.data.length := (List.getElem?_eq_some_iff.1 hs).1
      simp only [List.length_cons] at f3
      refine ⟨_, _, rfl, hnk, hcap, by simp [h.len], hle, ?_, ?_, ?_, by simp [h.count], fl, FreeChain.set f2.1 hch, f2.2,
        by simp only; omega, ?_⟩
      · simp only [List.map_cons, List.nodup_cons]; exact ⟨hnk, h.nodup⟩
      · intro i hi
        simp only at hi ⊢
        rw [List.getElem?_set]
        by_cases he : a.first = i
        · rw [if_pos he, if_pos hlt]; exact ⟨_, rfl, rfl⟩
        · rw [if_neg he]; exact h.magic i hi
      · intro i x
        simp only [List.mem_cons, Prod.mk.injEq]
        rw [List.getElem?_set]
        by_cases he : a.first = i
        · subst he
          rw [if_pos rfl, if_pos hlt]
          constructor
          · rintro (⟨_, rfl⟩ | h1)
            · exact ⟨hi, _, rfl, rfl, rfl⟩
            · exact absurd (List.mem_map_of_mem (f := (·.1)) h1) hnk
          · rintro ⟨_, s, h1, _, h2⟩
            cases h1
            exact Or.inl ⟨rfl, h2.symm⟩
        · rw [if_neg he]
          constructor
          · rintro (⟨h1, _⟩ | h1)
            · exact absurd h1.symm he
            · exact (h.mem _ _).1 h1
          · intro h1
            exact Or.inr ((h.mem _ _).2 h1)
      · intro i hi
        obtain ⟨h1, s, h2, h3⟩ := f4 i (List.mem_cons_of_mem _ hi)
        refine ⟨h1, s, ?_, h3⟩
        simp only
        rw [List.getElem?_set, if_neg (by intro he; rw [he] at f2; exact f2.1 hi)]
        exact h2

theorem ArrOk.delete {a : Arr R} {l} (h : ArrOk a l) (i : Nat) (r : R) (hm : (i, r) ∈ l) :
    ∃ a', arrDelete a i = some a' ∧ ArrOk a' (l.filter (fun x => x.1 ≠ i)) := by
  obtain ⟨hi, s, hs, hpop, hrec⟩ := (h.mem i r).1 hm
  obtain ⟨fl, f1, f2, f3, f4⟩ := h.free
  obtain ⟨s2, hh, hs2, hmag⟩ := h.header hi
  rw [hs] at hs2; cases hs2
  have hlt : i < a.data.length := (List.getElem?_eq_some_iff.1 hs).1
  have hlen : l.length ≠ 0 := by intro h0; rw [List.length_eq_zero_iff.1 h0] at hm; cases hm
  have hcnt : (l.filter (fun x => decide (x.1 ≠ i))).length + 1 = l.length := by
    have h1 : ((l.map (·.1)).filter (fun k => decide (k ≠ i))).length + 1 = (l.map (·.1)).length := by
      have := List.Nodup.erase_eq_filter h.nodup i
      have h2 : (l.map (·.1)).filter (fun k => decide (k ≠ i)) = (l.map (·.1)).erase i := by
        rw [this]; congr 1; funext k; by_cases hk : k = i <;> simp [hk]
      rw [h2, List.length_erase_of_mem (List.mem_map_of_mem (f := fun (x : Nat × R) => x.1) hm)]
      simp only [List.length_map]
      omega
    rw [List.filter_map, List.length_map, List.length_map] at h1
    exact h1
  have hnd : ((l.filter (fun x => decide (x.1 ≠ i))).map (·.1)).Nodup :=
    h.nodup.sublist (List.Sublist.map _ List.filter_sublist)
  have hifl : i ∉ fl := by
    intro hc
    obtain ⟨_, s3, h3, h4⟩ := f4 i hc
    rw [hs] at h3; cases h3; rw [hpop] at h4; cases h4
  -- membership in terms of the array with the slot cleared
  have hmem : ∀ (nx : Nat) (hwm' : Nat), (∀ j, j ≠ i → (j < hwm' ↔ j < a.hwm) ∨ ¬ ∃ x, (j, x) ∈ l ∧ ¬ j < hwm') →
      hwm' ≤ a.hwm → ∀ j x, (j, x) ∈ l.filter (fun x => decide (x.1 ≠ i)) ↔
      j < hwm' ∧ ∃ t, (a.data.set i { s with populated := false, next := nx })[j]? = some t ∧ t.populated = true ∧ t.payload = x := by
    intro nx hwm' hw hle' j x
    rw [List.mem_filter, List.getElem?_set]
    simp only [ne_eq, decide_not, Bool.not_eq_eq_eq_not, Bool.not_true, decide_eq_false_iff_not]
    by_cases he : i = j
    · subst he
      rw [if_pos rfl, if_pos hlt]
      constructor
      · rintro ⟨_, h2⟩; exact absurd rfl h2
      · rintro ⟨_, t, h1, h2, _⟩
        cases h1; cases h2
    · rw [if_neg he]
      have he' : j ≠ i := fun hx => he hx.symm
      constructor
      · rintro ⟨h1, _⟩
        obtain ⟨h2, h3⟩ := (h.mem j x).1 h1
        refine ⟨?_, h3⟩
        rcases hw j he' with hh | hh
        · exact hh.2 h2
        · by_cases hlt' : j < hwm'
          · exact hlt'
          · exact absurd ⟨x, h1, hlt'⟩ hh
      · rintro ⟨h1, h2⟩
        exact ⟨(h.mem j x).2 ⟨by omega, h2⟩, he'⟩
  have hmagic : ∀ (nx hwm' : Nat), hwm' ≤ a.hwm → ∀ j, j < hwm' →
      ∃ t, (a.data.set i { s with populated := false, next := nx })[j]? = some t ∧ t.magic = true := by
    intro nx hwm' hle' j hj
    rw [List.getElem?_set]
    by_cases he : i = j
    · rw [if_pos he, if_pos (by omega)]; exact ⟨_, rfl, hmag⟩
    · rw [if_neg he]; exact h.magic j (by omega)
  have hset : ({ s with populated := false } : Slot R) = { s with populated := false, next := s.next } := rfl
  unfold arrDelete
  rw [hh]
  simp only
  rw [if_neg (by rw [h.count]; exact hlen)]
  have hc := h.count
  by_cases h1 : a.count - 1 = 0
  · rw [if_pos h1]
    have hnil : l.filter (fun x => decide (x.1 ≠ i)) = [] := List.length_eq_zero_iff.1 (by omega)
    refine ⟨_, rfl, h.cap_pos, by simp [h.len], Nat.zero_le _, hnd, fun j hj => absurd hj (by simp), ?_, by simp only; omega,
      [], trivial, by simp, by simp only [List.length_nil]; omega, by simp⟩
    intro j x
    rw [hnil]
    simp
  · rw [if_neg h1]
    by_cases h2 : i + 1 = a.hwm
    · rw [if_pos h2, hset]
      refine ⟨_, rfl, h.cap_pos, by simp [h.len], by simp only; have := h.hwm_le; omega, hnd, ?_, ?_, by simp only; omega,
        fl, FreeChain.set hifl f1, f2, by simp only; omega, ?_⟩
      · exact hmagic s.next (a.hwm - 1) (by omega)
      · exact hmem s.next (a.hwm - 1) (fun j hj => Or.inl (by omega)) (by omega)
      · intro j hj
        obtain ⟨h5, t, h6, h7⟩ := f4 j hj
        have hne : j ≠ i := fun he => hifl (he ▸ hj)
        refine ⟨by simp only; omega, t, ?_, h7⟩
        simp only
        rw [List.getElem?_set, if_neg (fun he => hne he.symm)]; exact h6
    · rw [if_neg h2]
      refine ⟨_, rfl, h.cap_pos, by simp [h.len], h.hwm_le, hnd, ?_, ?_, by simp only; omega,
        i :: fl, ⟨rfl, { s with populated := false, next := a.first }, ?_, FreeChain.set hifl f1⟩, by simp [hifl, f2],
        by simp only [List.length_cons]; omega, ?_⟩
      · exact hmagic a.first a.hwm (Nat.le_refl _)
      · exact hmem a.first a.hwm (fun j hj => Or.inl (Iff.rfl)) (Nat.le_refl _)
      · simp only; rw [List.getElem?_set, if_pos rfl, if_pos hlt]
      · intro j hj
        simp only
        rw [List.getElem?_set]
        rcases List.mem_cons.1 hj with rfl | hj
        · rw [if_pos rfl, if_pos hlt]; exact ⟨hi, _, rfl, rfl⟩
        · obtain ⟨h5, t, h6, h7⟩ := f4 j hj
          have hne : j ≠ i := fun he => hifl (he ▸ hj)
          rw [if_neg (fun he => hne he.symm)]
          exact ⟨h5, t, h6, h7⟩

theorem arrFindLoop_spec {a : Arr R} {l} (h : ArrOk a l) (p : R → Bool) (n : Nat) : ∀ i, i + n = a.hwm →
    ∃ res, arrFindLoop a p n i = some res ∧
      (match res with
        | some k => ∃ r, (k, r) ∈ l ∧ p r = true
        | none => ∀ x ∈ l, i ≤ x.1 → p x.2 = false) := by
  induction n with
  | zero =>
    intro i hi
    refine ⟨none, rfl, ?_⟩
    intro x hx hle
    obtain ⟨h1, _⟩ := (h.mem x.1 x.2).1 hx
    omega
  | succ n ih =>
    intro i hi
    obtain ⟨s, h1, h2, h3⟩ := h.header (i := i) (by omega)
    simp only [arrFindLoop, h1]
    by_cases hc : s.populated = true ∧ p s.payload = true
    · rw [if_pos hc]
      exact ⟨some i, rfl, s.payload, (h.mem _ _).2 ⟨by omega, s, h2, hc.1, rfl⟩, hc.2⟩
    · rw [if_neg hc]
      obtain ⟨res, h4, h5⟩ := ih (i + 1) (by omega)
      refine ⟨res, h4, ?_⟩
      cases res with
      | some k => exact h5
      | none =>
        intro x hx hle
        by_cases he : x.1 = i
        · obtain ⟨h6, t, h7, h8, h9⟩ := (h.mem x.1 x.2).1 hx
          rw [he, h2] at h7; cases h7
          rw [h8, h9] at hc
          cases hp : p x.2 with
          | false => rfl
          | true => exact absurd ⟨rfl, hp⟩ hc
        · exact h5 x hx (by omega)

theorem arrForeachLoop_spec {a : Arr R} {l} (h : ArrOk a l) (n : Nat) : ∀ i, i + n = a.hwm →
    ∃ refs, arrForeachLoop a n i = some refs ∧ refs.Nodup ∧ ∀ k, k ∈ refs ↔ i ≤ k ∧ k ∈ l.map (·.1) := by
  induction n with
  | zero =>
    intro i hi
    refine ⟨[], rfl, by simp, ?_⟩
    intro k
    simp only [List.not_mem_nil, false_iff, not_and]
    intro hle hk
    have := ((h.key k).1 hk).1
    omega
  | succ n ih =>
    intro i hi
    obtain ⟨s, h1, h2, h3⟩ := h.header (i := i) (by omega)
    obtain ⟨refs, h4, h5, h6⟩ := ih (i + 1) (by omega)
    simp only [arrForeachLoop, h1, h4, Option.map_some]
    have hkey : i ∈ l.map (·.1) ↔ s.populated = true := by
      rw [h.key]
      constructor
      · rintro ⟨_, t, h7, h8⟩; rw [h2] at h7; cases h7; exact h8
      · intro hp; exact ⟨by omega, s, h2, hp⟩
    cases hp : s.populated with
    | true =>
      refine ⟨i :: refs, rfl, ?_, ?_⟩
      · rw [List.nodup_cons]; refine ⟨fun hx => ?_, h5⟩
        have := ((h6 i).1 hx).1; omega
      · intro k
        rw [List.mem_cons, h6]
        constructor
        · rintro (rfl | ⟨h7, h8⟩)
          · exact ⟨Nat.le_refl _, hkey.2 hp⟩
          · exact ⟨by omega, h8⟩
        · rintro ⟨h7, h8⟩
          by_cases he : k = i
          · exact Or.inl he
          · exact Or.inr ⟨by omega, h8⟩
    | false =>
      refine ⟨refs, rfl, h5, ?_⟩
      intro k
      rw [h6]
      constructor
      · rintro ⟨h7, h8⟩; exact ⟨by omega, h8⟩
      · rintro ⟨h7, h8⟩
        refine ⟨?_, h8⟩
        by_cases he : k = i
        · rw [he, hkey, hp] at h8; cases h8
        · omega

/-- The array store refines. -/
theorem arrRefines (junk : Nat → Slot R) : Refines (arrOps junk) (ArrOk (R := R)) where
  nodup h := h.nodup
  insert h r := h.insert junk r
  delete h i r hm := h.delete i r hm
  find := by
    intro a l h p
    obtain ⟨res, h1, h2⟩ := arrFindLoop_spec h p a.hwm 0 (by omega)
    refine ⟨res, ?_, ?_⟩
    · simp only [arrOps]; rw [if_neg (by have := h.hwm_le; omega)]; exact h1
    · cases res with
      | some k => exact h2
      | none => exact fun x hx => h2 x hx (Nat.zero_le _)
  get := by
    intro a l h i r hm
    obtain ⟨hi, s, hs, _, hr⟩ := (h.mem i r).1 hm
    obtain ⟨s2, h1, h2, _⟩ := h.header hi
    rw [hs] at h2; cases h2
    simp [arrOps, h1, hr]
  set := by
    intro a l h i r x hm
    obtain ⟨hi, s, hs, hpop, hr⟩ := (h.mem i r).1 hm
    obtain ⟨s2, h1, h2, hmag⟩ := h.header hi
    rw [hs] at h2; cases h2
    have hlt : i < a.data.length := (List.getElem?_eq_some_iff.1 hs).1
    simp only [arrOps, h1, Option.map_some]
    have hkeys : (l.map (fun y => if y.1 = i then (i, x) else y)).map (·.1) = l.map (·.1) := by
      rw [List.map_map]
      apply List.map_congr_left
      intro y _
      simp only [Function.comp]
      split
      · rename_i h; exact h.symm
      · rfl
    obtain ⟨fl, f1, f2, f3, f4⟩ := h.free
    have hifl : i ∉ fl := by
      intro hc
      obtain ⟨_, s3, h3, h4⟩ := f4 i hc
      rw [hs] at h3; cases h3; rw [hpop] at h4; cases h4
    refine ⟨_, rfl, h.cap_pos, by simp [h.len], h.hwm_le, by rw [hkeys]; exact h.nodup, ?_, ?_, by simp [h.count],
      fl, FreeChain.set hifl f1, f2, f3, ?_⟩
    · intro j hj
      simp only
      rw [List.getElem?_set]
      by_cases he : i = j
      · rw [if_pos he, if_pos hlt]; exact ⟨_, rfl, hmag⟩
      · rw [if_neg he]; exact h.magic j hj
    · intro j y
      simp only
      rw [List.getElem?_set, List.mem_map]
      by_cases he : i = j
      · subst he
        rw [if_pos rfl, if_pos hlt]
        constructor
        · rintro ⟨⟨k, z⟩, hz, hk⟩
          simp only at hk
          split at hk
          · cases hk; exact ⟨hi, _, rfl, hpop, rfl⟩
          · rename_i hne; cases hk; exact absurd rfl hne
        · rintro ⟨_, t, h5, _, h6⟩
          cases h5
          exact ⟨(i, r), hm, by simp only [if_true]; rw [← h6]⟩
      · rw [if_neg he, ← h.mem j y]
        constructor
        · rintro ⟨⟨k, z⟩, hz, hk⟩
          simp only at hk
          split at hk
          · cases hk; exact absurd rfl he
          · cases hk; exact hz
        · intro hz
          exact ⟨(j, y), hz, by simp only; rw [if_neg (fun hx => he hx.symm)]⟩
    · intro j hj
      obtain ⟨h5, t, h6, h7⟩ := f4 j hj
      refine ⟨h5, t, ?_, h7⟩
      simp only
      rw [List.getElem?_set, if_neg (by intro he; exact hifl (he ▸ hj))]; exact h6
  foreach := by
    intro a l h
    obtain ⟨refs, h1, h2, h3⟩ := arrForeachLoop_spec h a.hwm 0 (by omega)
    have hp : refs.Perm (l.map (·.1)) := by
      rw [List.perm_ext_iff_of_nodup h2 h.nodup]
      intro k; rw [h3]; simp
    refine ⟨refs, ?_, hp⟩
    simp only [arrOps]
    rw [if_neg (by have := h.hwm_le; omega), h1]
    simp only
    rw [if_pos (by rw [hp.length_eq, h.count, List.length_map])]

end Verif.Db
