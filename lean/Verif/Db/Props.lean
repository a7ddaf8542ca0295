import Verif.Db.Support
import Mathlib.Data.List.Sort

set_option linter.unusedSimpArgs false
set_option linter.unusedVariables false

/-!
# Properties C18 and C19: the in-memory database
-/

namespace Verif.Db

variable {S R V : Type}

/-! ## Specification -/

/-- The record satisfies every condition of the selection. -/
def Satisfies (d : TableDef V R) (sel : Selection V) (r : R) : Prop :=
  ∀ f ∈ sel.filters, f.invert = true ↔ d.compareKey f.field f.value r ≠ 0

instance (d : TableDef V R) (sel : Selection V) (r : R) : Decidable (Satisfies d sel r) :=
  inferInstanceAs (Decidable (∀ f ∈ sel.filters, f.invert = true ↔ d.compareKey f.field f.value r ≠ 0))

/-- A three-way comparison that is a total preorder. -/
structure Order (cmp : R → R → Int) : Prop where
  flip : ∀ a b, cmp a b ≤ 0 ↔ 0 ≤ cmp b a
  trans : ∀ a b c, cmp a b ≤ 0 → cmp b c ≤ 0 → cmp a c ≤ 0

/-- Lexicographic order by a list of fields: the first field that differs
decides. -/
def LexLe (d : TableDef V R) (ks : List Nat) (a b : R) : Prop :=
  (∀ k ∈ ks, d.compareRecord k a b = 0) ∨
  ∃ pre k post, ks = pre ++ k :: post ∧ (∀ j ∈ pre, d.compareRecord j a b = 0) ∧ d.compareRecord k a b < 0

/-- What the C library promises of `qsort_r`. -/
structure QsortOk (qsort : (R → R → Int) → List R → List R) : Prop where
  perm : ∀ cmp l, (qsort cmp l).Perm l
  sorted : ∀ cmp l, Order cmp → (qsort cmp l).Pairwise (fun a b => cmp a b ≤ 0)

/-- Calls of a user of a table. -/
inductive Call (V R : Type) where
  | insert (r : R)
  | delete (sel : Selection V)
  | update (ref : Nat) (r : R)
  | count (sel : Selection V)
  | query (sel : Selection V)
  | find (sel : Selection V)
  | get (ref : Nat)

/-- Results of the calls. -/
inductive Res (R : Type) where
  | done
  | ref (i : Nat)
  | num (n : Nat)
  | records (l : List R)
  | found (i : Option Nat)
  | record (r : R)

/-- Calls a user may make: references must be to live records, a deletion takes
no sort keys. -/
def Usable (live : List (Nat × R)) : Call V R → Prop
  | .update ref _ => ∃ r, (ref, r) ∈ live
  | .get ref => ∃ r, (ref, r) ∈ live
  | .delete sel => sel.sorts = []
  | _ => True

/-- What a call does to the set of live records, and what it returns. -/
def Effect (d : TableDef V R) (live : List (Nat × R)) : Call V R → Res R → List (Nat × R) → Prop
  | .insert r, .ref i, live' => (∀ x ∈ live, x.1 ≠ i) ∧ live' = (i, r) :: live
  | .delete sel, .done, live' => live' = live.filter (fun x => ¬ Satisfies d sel x.2)
  | .update ref r, .done, live' => live' = live.map (fun x => if x.1 = ref then (ref, r) else x)
  | .count sel, .num n, live' => live' = live ∧ n = (live.filter (fun x => Satisfies d sel x.2)).length
  | .query sel, .records l, live' =>
    live' = live ∧ l.Perm ((live.filter (fun x => Satisfies d sel x.2)).map (·.2)) ∧
    ((∀ k ∈ sel.sorts, Order (d.compareRecord k)) → l.Pairwise (LexLe d sel.sorts))
  | .find sel, .found (some i), live' => live' = live ∧ ∃ r, (i, r) ∈ live ∧ Satisfies d sel r
  | .find sel, .found none, live' => live' = live ∧ ∀ x ∈ live, ¬ Satisfies d sel x.2
  | .get ref, .record r, live' => live' = live ∧ (ref, r) ∈ live
  | _, _, _ => False

/-- The implementation's response to a call. -/
def respond (o : Ops S R) (d : TableDef V R) (qsort : (R → R → Int) → List R → List R) (s : S) :
    Call V R → Option (Res R × S)
  | .insert r => (o.insert s r).map (fun x => (.ref x.1, x.2))
  | .delete sel => (delete o d s sel).map (fun s' => (.done, s'))
  | .update ref r => (o.setData s ref r).map (fun s' => (.done, s'))
  | .count sel => (count o d s sel).map (fun n => (.num n, s))
  | .query sel => (query o d qsort s sel).map (fun l => (.records l, s))
  | .find sel => (find o d s sel).map (fun i => (.found i, s))
  | .get ref => (o.getData s ref).map (fun r => (.record r, s))

/-- Every sequence of usable calls is answered, and as specified. -/
def Conforms (o : Ops S R) (d : TableDef V R) (qsort : (R → R → Int) → List R → List R) :
    S → List (Nat × R) → List (Call V R) → Prop
  | _, _, [] => True
  | s, live, c :: cs => Usable live c →
    ∃ res s' live', respond o d qsort s c = some (res, s') ∧ Effect d live c res live' ∧ Conforms o d qsort s' live' cs

/-! ## Lemmas -/

theorem checkLoop_iff (d : TableDef V R) (r : R) (fs : List (Filter V)) :
    checkLoop d r fs = true ↔ ∀ f ∈ fs, f.invert = true ↔ d.compareKey f.field f.value r ≠ 0 := by
  induction fs with
  | nil => simp [checkLoop]
  | cons f fs ih =>
    simp only [checkLoop, List.forall_mem_cons]
    cases hi : f.invert <;> by_cases hm : d.compareKey f.field f.value r = 0 <;> simp [hm, ih]

theorem checkLoop_eq (d : TableDef V R) (sel : Selection V) (r : R) :
    checkLoop d r sel.filters = decide (Satisfies d sel r) := by
  rw [Bool.eq_iff_iff, checkLoop_iff, decide_eq_true_iff]; rfl

theorem compareLoop_le (d : TableDef V R) (a b : R) (ks : List Nat) : compareLoop d a b ks ≤ 0 ↔ LexLe d ks a b := by
  induction ks with
  | nil => simp [compareLoop, LexLe]
  | cons k ks ih =>
    simp only [compareLoop]
    by_cases hc : d.compareRecord k a b = 0
    · rw [if_neg (by simpa using hc), ih]
      unfold LexLe
      constructor
      · rintro (h | ⟨pre, j, post, h1, h2, h3⟩)
        · exact Or.inl (by simpa [hc] using h)
        · exact Or.inr ⟨k :: pre, j, post, by simp [h1], by simpa [hc] using h2, h3⟩
      · rintro (h | ⟨pre, j, post, h1, h2, h3⟩)
        · exact Or.inl (fun j hj => h j (List.mem_cons_of_mem _ hj))
        · cases pre with
          | nil => simp only [List.nil_append, List.cons.injEq] at h1; rw [← h1.1, hc] at h3; omega
          | cons p pre =>
            simp only [List.cons_append, List.cons.injEq] at h1
            exact Or.inr ⟨pre, j, post, h1.2, fun i hi => h2 i (List.mem_cons_of_mem _ hi), h3⟩
    · rw [if_pos hc]
      unfold LexLe
      constructor
      · intro h; exact Or.inr ⟨[], k, ks, rfl, by simp, by omega⟩
      · rintro (h | ⟨pre, j, post, h1, h2, h3⟩)
        · exact absurd (h k (List.mem_cons_self ..)) hc
        · cases pre with
          | nil => simp only [List.nil_append, List.cons.injEq] at h1; rw [← h1.1] at h3; omega
          | cons p pre =>
            simp only [List.cons_append, List.cons.injEq] at h1
            exact absurd (by rw [h1.1]; exact h2 p (List.mem_cons_self ..)) hc

theorem compareLoop_order (d : TableDef V R) (ks : List Nat) (h : ∀ k ∈ ks, Order (d.compareRecord k)) :
    Order (fun a b => compareLoop d a b ks) := by
  induction ks with
  | nil => exact ⟨fun _ _ => by simp [compareLoop], fun _ _ _ _ _ => by simp [compareLoop]⟩
  | cons k ks ih =>
    have hk := h k (List.mem_cons_self ..)
    have ih := ih (fun j hj => h j (List.mem_cons_of_mem _ hj))
    have step : ∀ a b, compareLoop d a b (k :: ks) =
        if d.compareRecord k a b ≠ 0 then d.compareRecord k a b else compareLoop d a b ks := fun _ _ => rfl
    constructor
    · intro a b
      simp only [step]
      have h1 := hk.flip a b
      have h2 := hk.flip b a
      have h3 := ih.flip a b
      split <;> split <;> omega
    · intro a b c
      simp only [step]
      have h1 := hk.flip a b
      have h2 := hk.flip b a
      have h1' := hk.flip b c
      have h2' := hk.flip c b
      have h1'' := hk.flip a c
      have h2'' := hk.flip c a
      have t1 := hk.trans a b c
      have t2 := hk.trans c a b
      have t3 := hk.trans b c a
      have t := ih.trans a b c
      split <;> split <;> split <;> omega

theorem mapM_some {f : Nat → Option R} {g : Nat → R} : ∀ {l : List Nat}, (∀ i ∈ l, f i = some (g i)) →
    l.mapM (fun i => (f i).map (i, ·)) = some (l.map (fun i => (i, g i))) := by
  intro l
  induction l with
  | nil => intro _; rfl
  | cons i l ih =>
    intro h
    rw [List.mapM_cons, h i (List.mem_cons_self ..), ih (fun j hj => h j (List.mem_cons_of_mem _ hj))]
    rfl

section
variable {o : Ops S R} {Inv : S → List (Nat × R) → Prop} (ref : Refines o Inv)
include ref

theorem visit_spec {s live} (h : Inv s live) : ∃ l, visit o s = some l ∧ l.Perm live := by
  obtain ⟨refs, h1, h2⟩ := ref.foreach h
  have hex : ∀ i ∈ refs, ∃ r, (i, r) ∈ live := by
    intro i hi
    have := h2.mem_iff.1 hi
    rw [List.mem_map] at this
    obtain ⟨⟨j, r⟩, hx, rfl⟩ := this
    exact ⟨r, hx⟩
  by_cases hne : live = []
  · subst hne
    have : refs = [] := by simpa using h2
    subst this
    exact ⟨[], by unfold visit; rw [h1]; rfl, List.Perm.refl _⟩
  · obtain ⟨x0, hx0⟩ := List.exists_mem_of_ne_nil _ hne
    let g : Nat → R := fun i => ((o.getData s i)).getD x0.2
    have hg : ∀ x ∈ live, g x.1 = x.2 := by
      intro x hx
      simp only [g]
      rw [ref.get h x.1 x.2 hx]; rfl
    refine ⟨refs.map (fun i => (i, g i)), ?_, ?_⟩
    · unfold visit
      rw [h1]
      apply mapM_some
      intro i hi
      obtain ⟨r, hr⟩ := hex i hi
      rw [ref.get h i r hr, hg (i, r) hr]
    · have := h2.map (fun i => (i, g i))
      rw [List.map_map] at this
      refine this.trans ?_
      have he : live.map ((fun i => (i, g i)) ∘ (·.1)) = live := by
        conv => rhs; rw [← List.map_id live]
        apply List.map_congr_left
        intro x hx
        simp only [Function.comp, hg x hx]
        rfl
      rw [he]

omit ref in
theorem foldl_count (p : Nat × R → Bool) (l : List (Nat × R)) (n : Nat) :
    l.foldl (fun n x => if p x = true then n + 1 else n) n = n + (l.filter p).length := by
  induction l generalizing n with
  | nil => simp
  | cons x l ih =>
    rw [List.foldl_cons, ih, List.filter_cons]
    cases hp : p x <;> (simp; try omega)

theorem count_spec {s live} (h : Inv s live) (d : TableDef V R) (sel : Selection V) :
    count o d s sel = some (live.filter (fun x => Satisfies d sel x.2)).length := by
  obtain ⟨l, h1, h2⟩ := visit_spec ref h
  unfold count
  rw [h1, Option.map_some, foldl_count (fun x => checkLoop d x.2 sel.filters), Nat.zero_add]
  congr 1
  simp only [checkLoop_eq]
  exact (h2.filter _).length_eq

theorem query_spec {s live} (h : Inv s live) (d : TableDef V R) (sel : Selection V)
    {qsort : (R → R → Int) → List R → List R} (hq : QsortOk qsort) :
    ∃ l, query o d qsort s sel = some l ∧ l.Perm ((live.filter (fun x => Satisfies d sel x.2)).map (·.2)) ∧
      ((∀ k ∈ sel.sorts, Order (d.compareRecord k)) → l.Pairwise (LexLe d sel.sorts)) := by
  obtain ⟨l, h1, h2⟩ := visit_spec ref h
  unfold query
  rw [count_spec ref h, h1]
  simp only [checkLoop_eq]
  have hp := h2.filter (fun x => decide (Satisfies d sel x.2))
  rw [if_neg (by rw [hp.length_eq]; omega)]
  have hp2 := hp.map (fun (x : Nat × R) => x.2)
  refine ⟨_, rfl, ?_, ?_⟩
  · split
    · exact (hq.perm _ _).trans hp2
    · exact hp2
  · intro ho
    split
    · have := hq.sorted (fun a b => compareLoop d a b sel.sorts) ((l.filter (fun x => decide (Satisfies d sel x.2))).map (·.2))
        (compareLoop_order d _ ho)
      exact this.imp (fun hab => (compareLoop_le d _ _ _).1 hab)
    · rename_i hs
      simp only [ne_eq, Decidable.not_not] at hs
      rw [hs]
      exact List.pairwise_of_forall (fun a b => Or.inl (by simp))

theorem deleteAll_spec {refs : List Nat} : ∀ {s live}, Inv s live → refs.Nodup → (∀ i ∈ refs, ∃ r, (i, r) ∈ live) →
    ∃ s', deleteAll o s refs = some s' ∧ Inv s' (live.filter (fun x => x.1 ∉ refs)) := by
  induction refs with
  | nil =>
    intro s live h _ _
    refine ⟨s, rfl, ?_⟩
    have : live.filter (fun x => decide (x.1 ∉ ([] : List Nat))) = live := by simp
    rw [this]; exact h
  | cons i refs ih =>
    intro s live h hn hm
    obtain ⟨r, hr⟩ := hm i (List.mem_cons_self ..)
    obtain ⟨s1, h1, h2⟩ := ref.delete h i r hr
    rw [List.nodup_cons] at hn
    obtain ⟨s2, h3, h4⟩ := ih h2 hn.2 (by
      intro j hj
      obtain ⟨r', hr'⟩ := hm j (List.mem_cons_of_mem _ hj)
      refine ⟨r', ?_⟩
      rw [List.mem_filter]
      exact ⟨hr', by simp only [ne_eq, decide_not, Bool.not_eq_eq_eq_not, Bool.not_true, decide_eq_false_iff_not]; intro he; exact hn.1 (he ▸ hj)⟩)
    refine ⟨s2, by simp [deleteAll, h1, h3], ?_⟩
    rw [List.filter_filter] at h4
    have he : live.filter (fun x => decide (x.1 ∉ refs) && decide (x.1 ≠ i)) = live.filter (fun x => decide (x.1 ∉ i :: refs)) := by
      congr 1
      funext x
      by_cases h5 : x.1 ∈ refs <;> by_cases h6 : x.1 = i <;> simp [h5, h6]
    rw [← he]; exact h4

theorem delete_spec {s live} (h : Inv s live) (d : TableDef V R) (sel : Selection V) (hs : sel.sorts = []) :
    ∃ s', delete o d s sel = some s' ∧ Inv s' (live.filter (fun x => ¬ Satisfies d sel x.2)) := by
  obtain ⟨l, h1, h2⟩ := visit_spec ref h
  unfold delete
  rw [count_spec ref h, h1]
  simp only [checkLoop_eq]
  have hp := h2.filter (fun x => decide (Satisfies d sel x.2))
  rw [if_neg (by rw [List.length_map, hp.length_eq]; simp [hs])]
  have hmem : ∀ i, i ∈ (l.filter (fun x => decide (Satisfies d sel x.2))).map (·.1) ↔
      ∃ r, (i, r) ∈ live ∧ Satisfies d sel r := by
    intro i
    rw [List.mem_map]
    constructor
    · rintro ⟨x, hx, rfl⟩
      rw [List.mem_filter, decide_eq_true_iff] at hx
      exact ⟨x.2, h2.mem_iff.1 hx.1, hx.2⟩
    · rintro ⟨r, hr, hsat⟩
      exact ⟨(i, r), by rw [List.mem_filter, decide_eq_true_iff]; exact ⟨h2.mem_iff.2 hr, hsat⟩, rfl⟩
  obtain ⟨s', h3, h4⟩ := deleteAll_spec ref (refs := (l.filter (fun x => decide (Satisfies d sel x.2))).map (·.1)) h
    (by
      have hk : (l.map (·.1)).Nodup := ((h2.map (·.1)).nodup_iff).2 (ref.nodup h)
      exact hk.sublist (List.Sublist.map _ List.filter_sublist))
    (fun i hi => by obtain ⟨r, hr, _⟩ := (hmem i).1 hi; exact ⟨r, hr⟩)
  refine ⟨s', h3, ?_⟩
  have he : live.filter (fun x => decide (x.1 ∉ (l.filter (fun x => decide (Satisfies d sel x.2))).map (·.1))) =
      live.filter (fun x => decide (¬ Satisfies d sel x.2)) := by
    apply List.filter_congr
    intro x hx
    rw [decide_eq_decide, not_iff_not, hmem]
    constructor
    · rintro ⟨r, hr, hsat⟩
      have := mem_unique (ref.nodup h) hr hx
      rw [← this]; exact hsat
    · intro hsat; exact ⟨x.2, hx, hsat⟩
  rw [← he]; exact h4

theorem conforms (d : TableDef V R) {qsort : (R → R → Int) → List R → List R} (hq : QsortOk qsort) (cs : List (Call V R)) :
    ∀ {s live}, Inv s live → Conforms o d qsort s live cs := by
  induction cs with
  | nil => intros; trivial
  | cons c cs ih =>
    intro s live h hu
    cases c with
    | insert r =>
      obtain ⟨i, s', h1, h2, h3⟩ := ref.insert h r
      refine ⟨.ref i, s', (i, r) :: live, by simp [respond, h1], ⟨?_, rfl⟩, ih h3⟩
      intro x hx he
      exact h2 (he ▸ List.mem_map_of_mem hx)
    | delete sel =>
      obtain ⟨s', h1, h2⟩ := delete_spec ref h d sel hu
      exact ⟨.done, s', _, by simp [respond, h1], rfl, ih h2⟩
    | update i r =>
      obtain ⟨r', hr'⟩ := hu
      obtain ⟨s', h1, h2⟩ := ref.set h i r' r hr'
      exact ⟨.done, s', _, by simp [respond, h1], rfl, ih h2⟩
    | count sel =>
      exact ⟨.num _, s, live, by simp only [respond, count_spec ref h, Option.map_some], ⟨rfl, rfl⟩, ih h⟩
    | query sel =>
      obtain ⟨l, h1, h2, h3⟩ := query_spec ref h d sel hq
      exact ⟨.records l, s, live, by simp [respond, h1], ⟨rfl, h2, h3⟩, ih h⟩
    | find sel =>
      obtain ⟨res, h1, h2⟩ := ref.find h (fun r => checkLoop d r sel.filters)
      refine ⟨.found res, s, live, by simp [respond, find, h1], ?_, ih h⟩
      cases res with
      | some i =>
        obtain ⟨r, h3, h4⟩ := h2
        exact ⟨rfl, r, h3, (checkLoop_iff d r _).1 h4⟩
      | none =>
        refine ⟨rfl, fun x hx hsat => ?_⟩
        have := h2 x hx
        rw [(checkLoop_iff d x.2 _).2 hsat] at this
        cases this
    | get i =>
      obtain ⟨r, hr⟩ := hu
      exact ⟨.record r, s, live, by simp [respond, ref.get h i r hr], ⟨rfl, hr⟩, ih h⟩

end

/-! ## C18 -/

/-- C18: every sequence of usable calls on a linked-list table, from the empty
table on, is answered as the set of live records demands. -/
theorem C18_linked_list (malloc : List Nat → Nat) (hm : ∀ l, malloc l ∉ l) (d : TableDef V R)
    (qsort : (R → R → Int) → List R → List R) (hq : QsortOk qsort) (cs : List (Call V R)) :
    Conforms (llOps malloc) d qsort [] [] cs :=
  conforms (llRefines malloc hm) d hq cs ⟨rfl, by simp⟩

/-- C18 for an array table with records of at most 4096 bytes (db.c 441). -/
theorem C18_array (junk : Nat → Slot R) (zero : Slot R) (recordSize : Nat) (h0 : 0 < recordSize) (h : recordSize ≤ 4096)
    (d : TableDef V R) (qsort : (R → R → Int) → List R → List R) (hq : QsortOk qsort) (cs : List (Call V R)) :
    Conforms (arrOps junk) d qsort (arrCreate (4096 / recordSize) zero) [] cs :=
  conforms (arrRefines junk) d hq cs (ArrOk.empty _ (Nat.div_pos h h0) zero)

/-- A table of pairs, the fields being the components. -/
def pairs : TableDef Nat (Nat × Nat) where
  compareKey f v r := if f = 0 then (v : Int) - r.1 else (v : Int) - r.2
  compareRecord f a b := if f = 0 then (a.1 : Int) - b.1 else (a.2 : Int) - b.2

/-- Insertion sort meets the contract. -/
def isort (cmp : R → R → Int) (l : List R) : List R :=
  l.foldr (fun x acc => acc.takeWhile (fun y => decide (cmp y x < 0)) ++ x :: acc.dropWhile (fun y => decide (cmp y x < 0))) []

theorem isort_ok : QsortOk (R := R) isort where
  perm cmp l := by
    induction l with
    | nil => simp [isort]
    | cons x l ih =>
      simp only [isort, List.foldr_cons]
      refine List.perm_middle.trans ?_
      rw [List.takeWhile_append_dropWhile]
      exact List.Perm.cons _ ih
  sorted cmp l ho := by
    induction l with
    | nil => simp [isort]
    | cons x l ih =>
      simp only [isort, List.foldr_cons]
      change (List.takeWhile _ (isort cmp l) ++ x :: List.dropWhile _ (isort cmp l)).Pairwise _
      generalize isort cmp l = m at ih ⊢
      have htw : ∀ y ∈ m.takeWhile (fun y => decide (cmp y x < 0)), cmp y x ≤ 0 := by
        intro y hy
        have := List.all_eq_true.1 (List.all_takeWhile (p := fun y => decide (cmp y x < 0)) (l := m)) y hy
        simp only [decide_eq_true_eq] at this
        omega
      have hdw : ∀ (m : List R), m.Pairwise (fun a b => cmp a b ≤ 0) → ∀ y ∈ m.dropWhile (fun y => decide (cmp y x < 0)), cmp x y ≤ 0 := by
        intro m
        induction m with
        | nil => intro _ y hy; simp at hy
        | cons z m ihm =>
          intro hp y hy
          rw [List.pairwise_cons] at hp
          rw [List.dropWhile_cons] at hy
          split at hy
          · exact ihm hp.2 y hy
          · rename_i hz
            simp only [decide_eq_true_eq, not_lt] at hz
            have hxz : cmp x z ≤ 0 := (ho.flip x z).2 hz
            rcases List.mem_cons.1 hy with rfl | hy
            · exact hxz
            · exact ho.trans x z y hxz (hp.1 y hy)
      rw [List.pairwise_append]
      refine ⟨ih.sublist (List.takeWhile_sublist _), ?_, ?_⟩
      · rw [List.pairwise_cons]
        exact ⟨fun y hy => hdw m ih y hy, ih.sublist (List.dropWhile_sublist _)⟩
      · intro y hy z hz
        rcases List.mem_cons.1 hz with rfl | hz
        · exact htw y hy
        · exact ho.trans y x z (htw y hy) (hdw m ih z hz)

/-- The hypotheses are met, and answers are as expected. -/
example : (respond (V := Nat) (llOps (fun l => l.sum + 1)) pairs isort [(2, (5, 6)), (1, (3, 4))]
    (.query ⟨[⟨0, 9, true⟩], [0]⟩)).map (fun x => match x.1 with | .records l => l | _ => []) = some [(3, 4), (5, 6)] := by
  decide
example : ∀ l : List Nat, l.sum + 1 ∉ l := by
  have : ∀ (l : List Nat) x, x ∈ l → x ≤ l.sum := by
    intro l x
    induction l with
    | nil => simp
    | cons y l ih => simp only [List.mem_cons, List.sum_cons]; rintro (rfl | h); omega; have := ih h; omega
  intro l h
  have := this l _ h
  omega
example : Order (pairs.compareRecord 0) := by
  constructor
  · intro a b; simp only [pairs, if_true]; omega
  · intro a b c; simp only [pairs, if_true]; omega
example : Usable [(2, ((5 : Nat), (6 : Nat))), (1, (3, 4))] (Call.update (V := Nat) 1 (7, 7)) := ⟨(3, 4), by simp⟩

/-! ### Selections -/

/-- One condition as passed by a caller. -/
structure Cond (V : Type) where
  field : Nat
  value : V
  negated : Bool

/-- The arguments a caller passes for a list of conditions: key and value,
preceded by the negation marker where wanted. -/
def condArgs : List (Cond V) → List (Arg V)
  | [] => []
  | c :: cs => (if c.negated then [Arg.key (-3)] else []) ++ [Arg.key c.field, Arg.value c.value] ++ condArgs cs

/-- The arguments of a call: conditions, sort keys, end marker. -/
def callArgs (cs : List (Cond V)) (sorts : List Nat) : List (Arg V) :=
  condArgs cs ++ (if sorts = [] then [] else Arg.key (-2) :: sorts.map (fun (k : Nat) => Arg.key (k : Int))) ++ [Arg.key (-1)]

theorem buildSorts_eq (sorts : List Nat) : ∀ acc, acc.length + sorts.length ≤ 10 →
    buildSorts (sorts.map (fun (k : Nat) => Arg.key (V := V) (k : Int)) ++ [Arg.key (-1)]) acc = some (acc ++ sorts) := by
  induction sorts with
  | nil => intro acc _; simp [buildSorts]
  | cons k ks ih =>
    intro acc h
    simp only [List.length_cons] at h
    simp only [List.map_cons, List.cons_append, buildSorts]
    rw [if_neg (by omega), if_pos (by omega), ih _ (by simp; omega)]
    simp

/-- C18: the selection built from the arguments of a call has exactly the
caller's conditions and sort keys, in order. -/
theorem C18_selection (cs : List (Cond V)) (sorts : List Nat) (h1 : cs.length ≤ 10) (h2 : sorts.length ≤ 10) :
    build (callArgs cs sorts) [] = some ⟨cs.map (fun c => ⟨c.field, c.value, c.negated⟩), sorts⟩ := by
  have tail : ∀ acc : List (Filter V), build ((if sorts = [] then [] else Arg.key (-2) :: sorts.map (fun (k : Nat) => Arg.key (k : Int))) ++ [Arg.key (-1)]) acc =
      some ⟨acc, sorts⟩ := by
    intro acc
    by_cases hs : sorts = []
    · simp [hs, build]
    · rw [if_neg hs]
      rw [List.cons_append, build.eq_def]
      simp only
      rw [if_neg (by omega), if_pos (by omega), if_pos trivial, buildSorts_eq sorts [] (by simpa using h2)]
      rfl
  have main : ∀ (cs : List (Cond V)) acc, acc.length + cs.length ≤ 10 → build (callArgs cs sorts) acc =
      some ⟨acc ++ cs.map (fun c => ⟨c.field, c.value, c.negated⟩), sorts⟩ := by
    intro cs
    induction cs with
    | nil => intro acc _; simpa [callArgs, condArgs] using tail acc
    | cons c cs ih =>
      intro acc h
      simp only [List.length_cons] at h
      have ih' := fun f => ih (acc ++ [f]) (by simp; omega)
      unfold callArgs at ih' ⊢
      simp only [condArgs, List.append_assoc]
      cases hn : c.negated with
      | false =>
        simp only [Bool.false_eq_true, if_false, List.nil_append, List.cons_append, build]
        rw [if_neg (by omega), if_neg (by omega), if_pos (by omega)]
        simp only [List.append_assoc] at ih'
        rw [Int.toNat_natCast, ih']
        simp [hn]
      | true =>
        simp only [if_true, List.nil_append, List.cons_append, build]
        rw [if_neg (by omega), if_pos (by omega)]
        simp only [List.append_assoc] at ih'
        rw [Int.toNat_natCast, ih']
        simp [hn]
  simpa using main cs [] (by simpa using h1)

example : (build (callArgs [⟨4, 7, true⟩, ⟨2, (9 : Nat), false⟩] [1, 3]) []).map (fun s => (s.filters.map (·.field), s.filters.map (·.invert), s.sorts)) =
    some ([4, 2], [true, false], [1, 3]) := by decide

/-! ## C19 -/

/-- A history of insertions and deletions on an array table: the state it ends
in, and the record each live slot should hold according to the history. -/
inductive History (junk : Nat → Slot R) (cap : Nat) (zero : Slot R) : Arr R → (Nat → Option R) → Prop
  | start : History junk cap zero (arrCreate cap zero) (fun _ => none)
  | insert {a h} (r : R) (i : Nat) (a' : Arr R) : History junk cap zero a h → arrInsert junk a r = some (i, a') →
      History junk cap zero a' (fun j => if j = i then some r else h j)
  | delete {a h} (i : Nat) (a' : Arr R) : History junk cap zero a h → (h i).isSome → arrDelete a i = some a' →
      History junk cap zero a' (fun j => if j = i then none else h j)

/-- The first `n` slots on the free list. -/
def freeSlots (a : Arr R) : Nat → Nat → List Nat
  | _, 0 => []
  | i, n + 1 => i :: (match a.data[i]? with
    | some s => freeSlots a s.next n
    | none => [])

theorem freeSlots_eq {a : Arr R} {fl : List Nat} : ∀ {i}, FreeChain a.data i fl → freeSlots a i fl.length = fl := by
  induction fl with
  | nil => intros; rfl
  | cons j fl ih =>
    intro i h
    obtain ⟨rfl, s, hs, hc⟩ := h
    simp only [List.length_cons, freeSlots, hs, ih hc]

theorem history_ok {junk : Nat → Slot R} {cap : Nat} (hc : 0 < cap) {zero : Slot R} {a : Arr R} {h : Nat → Option R}
    (hh : History junk cap zero a h) : ∃ l, ArrOk a l ∧ ∀ i r, (i, r) ∈ l ↔ h i = some r := by
  induction hh with
  | start => exact ⟨[], ArrOk.empty _ hc _, by simp⟩
  | @insert a h r i a' _ hi ih =>
    obtain ⟨l, h1, h2⟩ := ih
    obtain ⟨i', a'', h3, h4, h5⟩ := h1.insert junk r
    rw [hi] at h3
    cases h3
    refine ⟨_, h5, ?_⟩
    intro j x
    simp only [List.mem_cons, Prod.mk.injEq]
    by_cases hj : j = i
    · subst hj
      rw [if_pos rfl]
      constructor
      · rintro (⟨_, rfl⟩ | hx)
        · rfl
        · exact absurd (List.mem_map_of_mem (f := fun (x : Nat × R) => x.1) hx) h4
      · intro he; cases he; exact Or.inl ⟨rfl, rfl⟩
    · rw [if_neg hj, ← h2]
      constructor
      · rintro (⟨h6, _⟩ | h6)
        · exact absurd h6 hj
        · exact h6
      · exact Or.inr
  | @delete a h i a' _ hs hd ih =>
    obtain ⟨l, h1, h2⟩ := ih
    obtain ⟨r, hr⟩ := Option.isSome_iff_exists.1 hs
    obtain ⟨a'', h3, h4⟩ := h1.delete i r ((h2 i r).2 hr)
    rw [hd] at h3; cases h3
    refine ⟨_, h4, ?_⟩
    intro j x
    rw [List.mem_filter, h2]
    by_cases hj : j = i <;> simp [hj]

/-- C19: after any history each live slot still holds the record inserted
there; the slot given to a new record is not live and insertion succeeds; the
free list has as many slots as there are unused ones below the high-water
mark, no slot twice and no live slot; and the count is that of live slots. -/
theorem C19_slots_not_shared {junk : Nat → Slot R} {cap : Nat} (hc : 0 < cap) {zero : Slot R} {a : Arr R}
    {h : Nat → Option R} (hh : History junk cap zero a h) :
    (∀ i r, h i = some r → ∃ s, a.data[i]? = some s ∧ s.populated = true ∧ s.payload = r) ∧
    (∀ r, ∃ i a', arrInsert junk a r = some (i, a') ∧ h i = none) ∧
    (freeSlots a a.first (a.hwm - a.count)).Nodup ∧
    (freeSlots a a.first (a.hwm - a.count)).length = a.hwm - a.count ∧
    (∀ i ∈ freeSlots a a.first (a.hwm - a.count), h i = none ∧ i < a.hwm) ∧
    a.count = ((List.range a.hwm).filter (fun i => (h i).isSome)).length ∧ (∀ i, (h i).isSome → i < a.hwm) := by
  obtain ⟨l, h1, h2⟩ := history_ok hc hh
  have hkey : ∀ i, i ∈ l.map (·.1) ↔ (h i).isSome := by
    intro i
    rw [List.mem_map, Option.isSome_iff_exists]
    constructor
    · rintro ⟨x, hx, rfl⟩; exact ⟨x.2, (h2 _ _).1 hx⟩
    · rintro ⟨r, hr⟩; exact ⟨(i, r), (h2 _ _).2 hr, rfl⟩
  have hnone : ∀ i, i ∉ l.map (·.1) → h i = none := by
    intro i hi
    rw [hkey] at hi
    simpa using hi
  obtain ⟨fl, f1, f2, f3, f4⟩ := h1.free
  have hfl : freeSlots a a.first (a.hwm - a.count) = fl := by
    rw [show a.hwm - a.count = fl.length by omega, freeSlots_eq f1]
  refine ⟨?_, ?_, ?_, ?_, ?_, ?_, ?_⟩
  · intro i r hr
    obtain ⟨_, h3⟩ := (h1.mem i r).1 ((h2 i r).2 hr)
    exact h3
  · intro r
    obtain ⟨i, a', h3, h4, _⟩ := h1.insert junk r
    exact ⟨i, a', h3, hnone i h4⟩
  · rw [hfl]; exact f2
  · rw [hfl]; omega
  · rw [hfl]
    intro i hi
    obtain ⟨h3, s, h4, h5⟩ := f4 i hi
    refine ⟨hnone i ?_, h3⟩
    rw [h1.key]
    rintro ⟨_, t, h6, h7⟩
    rw [h4] at h6; cases h6; rw [h5] at h7; cases h7
  · rw [h1.count]
    have hp : ((List.range a.hwm).filter (fun i => (h i).isSome)).Perm (l.map (·.1)) := by
      rw [List.perm_ext_iff_of_nodup (List.nodup_range.filter _) h1.nodup]
      intro i
      rw [List.mem_filter, List.mem_range, hkey]
      constructor
      · exact fun hx => hx.2
      · intro hx
        have h3 := (h1.key i).1 ((hkey i).2 hx)
        exact ⟨h3.1, hx⟩
    rw [hp.length_eq, List.length_map]
  · intro i hi
    exact ((h1.key i).1 ((hkey i).2 hi)).1

/-- C19: the initial capacity must not be zero, as it is for records of more
than 4096 bytes (line 441): then the first insertion fails. -/
theorem C19_zero_capacity (junk : Nat → Slot R) (zero : Slot R) (recordSize : Nat) (h : 4096 < recordSize) (r : R) :
    arrInsert junk (arrCreate (4096 / recordSize) zero) r = none := by
  have : 4096 / recordSize = 0 := Nat.div_eq_of_lt h
  simp [arrInsert, arrCreate, this]

/-- A history in which a slot is freed and used again. -/
example : ∃ a : Arr Nat, ∃ h, History (fun _ => ⟨false, true, 77, 5⟩) 1 ⟨false, false, 0, 0⟩ a h ∧
    (h 0, h 1, h 2) = (some 40, some 20, some 30) ∧ a.count = 3 := by
  refine ⟨_, _, .insert 40 0 _ (.delete 0 _ (.insert 30 2 _ (.insert 20 1 _ (.insert 10 0 _ .start rfl) rfl) rfl) rfl rfl) rfl, rfl, rfl⟩

end Verif.Db
