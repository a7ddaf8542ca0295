import Verif.Freerun.Spec
import Mathlib.Data.Prod.Lex
import Mathlib.Tactic.Linarith
import Mathlib.Tactic.Tauto

set_option linter.unusedSimpArgs false
set_option linter.unusedVariables false

/-! # Lemmas on the search for a clock -/

namespace Verif.Freerun

/-! ## The last match -/

theorem foldl_last {α : Type} (P : α → Prop) [DecidablePred P] (rows : List α) (a : Option α) :
    (∀ o, rows.foldl (fun a l => if P l then some l else a) a = some o →
      LastWith P rows o ∨ (a = some o ∧ ∀ x ∈ rows, ¬ P x)) ∧
    (rows.foldl (fun a l => if P l then some l else a) a = none → a = none ∧ ∀ x ∈ rows, ¬ P x) := by
  induction rows generalizing a with
  | nil => exact ⟨fun o h => .inr ⟨h, by simp⟩, fun h => ⟨h, by simp⟩⟩
  | cons r rs ih =>
    simp only [List.foldl_cons]
    obtain ⟨h1, h2⟩ := ih (if P r then some r else a)
    refine ⟨fun o ho => ?_, fun hn => ?_⟩
    · rcases h1 o ho with h | ⟨h, h'⟩
      · left
        obtain ⟨pre, post, he, hp⟩ := h
        exact ⟨r :: pre, post, by simp [he], hp⟩
      · by_cases hr : P r
        · rw [if_pos hr] at h
          simp only [Option.some.injEq] at h
          subst h
          exact .inl ⟨[], rs, rfl, hr, h'⟩
        · rw [if_neg hr] at h
          exact .inr ⟨h, by simpa using ⟨hr, h'⟩⟩
    · obtain ⟨h, h'⟩ := h2 hn
      by_cases hr : P r
      · simp [hr] at h
      · rw [if_neg hr] at h
        exact ⟨h, by simpa using ⟨hr, h'⟩⟩

theorem LastWith.unique {α : Type} {P : α → Prop} {rows : List α} {a b : α} (ha : LastWith P rows a)
    (hb : LastWith P rows b) : a = b := by
  obtain ⟨p, q, rfl, hp, hq⟩ := ha
  obtain ⟨p', q', he, hp', hq'⟩ := hb
  induction p generalizing p' with
  | nil =>
    cases p' with
    | nil => simp at he; exact he.1
    | cons x xs =>
      simp only [List.nil_append, List.cons_append, List.cons.injEq] at he
      exact absurd hp' (hq b (by rw [he.2]; simp))
  | cons x xs ih =>
    cases p' with
    | nil =>
      simp only [List.nil_append, List.cons_append, List.cons.injEq] at he
      exact absurd hp (hq' a (by rw [← he.2]; simp))
    | cons y ys =>
      simp only [List.cons_append, List.cons.injEq] at he
      exact ih ys he.2

theorem byIndex_some {rows : List Link} {i : Int} {o : Link} :
    byIndex rows i = some o ↔ LastWith (fun x => x.index = i) rows o := by
  have h := foldl_last (fun x : Link => x.index = i) rows none
  constructor
  · intro ho
    rcases h.1 o ho with h | ⟨h, -⟩
    · exact h
    · cases h
  · intro ho
    cases hr : byIndex rows i with
    | none =>
      obtain ⟨pre, post, rfl, hp, -⟩ := ho
      exact absurd hp ((h.2 hr).2 o (by simp))
    | some o' =>
      rcases h.1 o' hr with h | ⟨h, -⟩
      · rw [h.unique ho]
      · cases h

theorem byName_some {rows : List Link} {i : Nat} {o : Link} :
    byName rows i = some o ↔ LastWith (fun x => x.name = i) rows o := by
  have h := foldl_last (fun x : Link => x.name = i) rows none
  constructor
  · intro ho
    rcases h.1 o ho with h | ⟨h, -⟩
    · exact h
    · cases h
  · intro ho
    cases hr : byName rows i with
    | none =>
      obtain ⟨pre, post, rfl, hp, -⟩ := ho
      exact absurd hp ((h.2 hr).2 o (by simp))
    | some o' =>
      rcases h.1 o' hr with h | ⟨h, -⟩
      · rw [h.unique ho]
      · cases h

theorem byName_none {rows : List Link} {i : Nat} : byName rows i = none ↔ ∀ r ∈ rows, r.name ≠ i := by
  have h := foldl_last (fun x : Link => x.name = i) rows none
  constructor
  · intro hn
    exact (h.2 hn).2
  · intro hn
    cases hr : byName rows i with
    | none => rfl
    | some o =>
      obtain ⟨pre, post, rfl, hp, -⟩ := byName_some.1 hr
      exact absurd hp (hn o (by simp))

/-! ## VLANs -/

theorem resolve_leads {e : Env} {n : Nat} {l p : Link} (h : resolve e n l = some p) : Leads e.rows l p := by
  induction n generalizing l with
  | zero => simp [resolve] at h
  | succ n ih =>
    unfold resolve at h
    by_cases hv : l.vlan
    · rw [if_pos hv] at h
      cases hb : byIndex e.rows l.lower with
      | none =>
        rw [hb] at h
        exact ih h
      | some o =>
        rw [hb] at h
        exact .inner hv (byIndex_some.1 hb) (ih h)
    · rw [if_neg hv] at h
      cases h
      exact .plain (by simpa using hv)

theorem resolve_mono {e : Env} {n m : Nat} {l p : Link} (h : resolve e n l = some p) (hm : n ≤ m) :
    resolve e m l = some p := by
  induction n generalizing l m with
  | zero => simp [resolve] at h
  | succ n ih =>
    obtain ⟨m, rfl⟩ : ∃ k, m = k + 1 := ⟨m - 1, by omega⟩
    unfold resolve at h ⊢
    by_cases hv : l.vlan
    · rw [if_pos hv] at h ⊢
      cases hb : byIndex e.rows l.lower with
      | none =>
        rw [hb] at h
        exact ih h (by omega)
      | some o =>
        rw [hb] at h
        exact ih h (by omega)
    · rw [if_neg hv] at h ⊢
      exact h

theorem leads_resolve {e : Env} {l p : Link} (h : Leads e.rows l p) : ∃ n, resolve e n l = some p := by
  induction h with
  | plain hv => exact ⟨1, by simp [resolve, hv]⟩
  | @inner l o p hv hl _ ih =>
    obtain ⟨n, hn⟩ := ih
    refine ⟨n + 1, ?_⟩
    unfold resolve
    rw [if_pos hv, byIndex_some.2 hl]
    exact hn

theorem Leads.unique {rows : List Link} {l p q : Link} (h : Leads rows l p) (h' : Leads rows l q) : p = q := by
  induction h with
  | plain hv =>
    cases h' with
    | plain => rfl
    | inner hv' => rw [hv] at hv'; cases hv'
  | inner hv hl _ ih =>
    cases h' with
    | plain hv' => rw [hv] at hv'; cases hv'
    | inner _ hl' h' =>
      rw [hl'.unique hl] at h'
      exact ih h'

theorem hwClock_some {e : Env} {l : Link} {c : Nat} : hwClock e l = some c ↔ HasClock e l c := by
  unfold hwClock HasClock
  cases e.intf l.index with
  | none => simp
  | some i =>
    cases hc : e.clock i with
    | none => simp [hc]
    | some k =>
      by_cases hk : k ≠ e.sys
      · simp only [hk, ne_eq, not_false_eq_true, if_true, Option.some.injEq, exists_eq_left', hc]
        constructor
        · rintro rfl; exact ⟨rfl, hk⟩
        · exact fun h => h.1
      · simp only [hk, if_false, Option.some.injEq, exists_eq_left', hc]
        push Not at hk
        constructor
        · intro h; cases h
        · rintro ⟨rfl, h⟩; exact absurd hk h

theorem hwClock_none {e : Env} {l : Link} : hwClock e l = none ↔ ∀ c, ¬ HasClock e l c := by
  constructor
  · intro h c hc
    rw [hwClock_some.2 hc] at h
    cases h
  · intro h
    cases hc : hwClock e l with
    | none => rfl
    | some c => exact absurd (hwClock_some.1 hc) (h c)

/-! ## The best clock -/

/-- The key a clock is compared by. -/
abbrev keyOf (g : Grade) : WithTop ℚ ×ₗ WithTop ℚ ×ₗ Nat := toLex (g.holdover, toLex (g.accuracy, g.stratum))

theorem better_iff {a b : Grade} : Better a b ↔ keyOf a < keyOf b := by
  unfold Better keyOf
  simp only [Prod.Lex.toLex_lt_toLex]

/-- What the result of a search says about the clocks found. -/
def IsBest (grade : Nat → Grade) (cs : List (Link × Nat)) (f : Found) : Prop :=
  (cs = [] ∧ f = {}) ∨ ∃ p c, f = ⟨some p, some c, grade c⟩ ∧ FirstBest grade cs p c

theorem pick_best {grade : Nat → Grade} {cs ds : List (Link × Nat)} {f g : Found} (hf : IsBest grade cs f)
    (hg : IsBest grade ds g) : IsBest grade (cs ++ ds) (pick f g) := by
  rcases hg with ⟨rfl, rfl⟩ | ⟨q, d, rfl, pre', post', rfl, hpre', hpost'⟩
  · simpa [pick] using hf
  · rcases hf with ⟨rfl, rfl⟩ | ⟨p, c, rfl, pre, post, rfl, hpre, hpost⟩
    · right
      refine ⟨q, d, ?_, pre', post', rfl, hpre', hpost'⟩
      simp [pick]
    · have hiff : (grade d).holdover < (grade c).holdover ∨
          ((grade d).holdover = (grade c).holdover ∧ (grade d).accuracy < (grade c).accuracy) ∨
          ((grade d).holdover = (grade c).holdover ∧ (grade d).accuracy = (grade c).accuracy ∧
            (grade d).stratum < (grade c).stratum) ∨
          ((some d).isSome = true ∧ some c = none) ↔ Better (grade d) (grade c) := by
        unfold Better
        simp only [Option.isSome_some, reduceCtorEq, and_false, or_false]
        tauto
      unfold pick
      rw [if_pos (show (some q).isSome = true from rfl)]
      by_cases hb : Better (grade d) (grade c)
      · rw [if_pos (hiff.2 hb)]
        right
        refine ⟨q, d, rfl, pre ++ (p, c) :: post ++ pre', post', by simp, ?_, hpost'⟩
        intro x hx
        rw [better_iff] at hb ⊢
        simp only [List.mem_append, List.mem_cons] at hx
        rcases hx with (hx | rfl | hx) | hx
        · exact lt_trans hb (better_iff.1 (hpre x hx))
        · exact hb
        · have := hpost x hx
          rw [better_iff, not_lt] at this
          exact lt_of_lt_of_le hb this
        · exact better_iff.1 (hpre' x hx)
      · rw [if_neg (fun h => hb (hiff.1 h))]
        right
        refine ⟨p, c, rfl, pre, post ++ (pre' ++ (q, d) :: post'), by simp, hpre, ?_⟩
        intro x hx
        rw [better_iff, not_lt] at hb ⊢
        simp only [List.mem_append, List.mem_cons] at hx
        rcases hx with hx | hx | rfl | hx
        · have := hpost x hx
          rwa [better_iff, not_lt] at this
        · exact le_of_lt (lt_of_le_of_lt hb (better_iff.1 (hpre' x hx)))
        · exact hb
        · have := hpost' x hx
          rw [better_iff, not_lt] at this
          exact le_trans hb this

/-! ## The search -/

/-- One round over a part of the table. -/
abbrev walk (e : Env) (n : Nat) (i : Int) (os : List Link) (f : Found) : Option Found :=
  os.foldlM (fun best o => if o.master = i then (find e n o).map (pick best) else some best) f

theorem find_eq (e : Env) (n : Nat) (l : Link) : find e (n + 1) l =
    match resolve e (n + 1) l with
    | none => none
    | some p => match hwClock e p with
      | some c => some { link := some p, clock := some c, grade := e.grade c }
      | none => walk e n p.index e.rows {} := rfl

theorem walk_cons (e : Env) (n : Nat) (i : Int) (o : Link) (os : List Link) (f : Found) :
    walk e n i (o :: os) f =
      (if o.master = i then (find e n o).map (pick f) else some f).bind fun g => walk e n i os g := rfl

theorem walk_sound {e : Env} {n : Nat} (ih : ∀ l f, find e n l = some f → ∃ cs, Below e l cs ∧ IsBest e.grade cs f)
    (i : Int) (os : List Link) : ∀ (pre : List (Link × Nat)) (a f : Found), IsBest e.grade pre a →
      walk e n i os a = some f → ∃ cs, Members e i os cs ∧ IsBest e.grade (pre ++ cs) f := by
  induction os with
  | nil =>
    intro pre a f ha h
    simp only [walk, List.foldlM_nil, pure, Option.some.injEq] at h
    subst h
    exact ⟨[], .nil, by simpa using ha⟩
  | cons o os ihos =>
    intro pre a f ha h
    rw [walk_cons] at h
    by_cases hm : o.master = i
    · rw [if_pos hm] at h
      cases hf : find e n o with
      | none => rw [hf] at h; cases h
      | some g =>
        rw [hf] at h
        obtain ⟨cs, hb, hg⟩ := ih o g hf
        obtain ⟨ds, hds, hr⟩ := ihos (pre ++ cs) (pick a g) f (pick_best ha hg) h
        exact ⟨cs ++ ds, .take hm hb hds, by simpa using hr⟩
    · rw [if_neg hm] at h
      obtain ⟨ds, hds, hr⟩ := ihos pre a f ha h
      exact ⟨ds, .skip hm hds, hr⟩

theorem find_sound {e : Env} {n : Nat} : ∀ {l : Link} {f : Found}, find e n l = some f →
    ∃ cs, Below e l cs ∧ IsBest e.grade cs f := by
  induction n with
  | zero => intro l f h; cases h
  | succ n ih =>
    intro l f h
    rw [find_eq] at h
    cases hr : resolve e (n + 1) l with
    | none => rw [hr] at h; cases h
    | some p =>
      rw [hr] at h
      have hl := resolve_leads hr
      cases hc : hwClock e p with
      | some c =>
        simp only [hc, Option.some.injEq] at h
        subst h
        exact ⟨[(p, c)], .clock hl (hwClock_some.1 hc), .inr ⟨p, c, rfl, [], [], rfl, by simp, by simp⟩⟩
      | none =>
        simp only [hc] at h
        obtain ⟨cs, hm, hb⟩ := walk_sound (fun l f => ih) p.index e.rows [] {} f (.inl ⟨rfl, rfl⟩) h
        exact ⟨cs, .members hl (hwClock_none.1 hc) hm, by simpa using hb⟩

theorem walk_mono {e : Env} {n m : Nat} (ih : ∀ l f, find e n l = some f → find e m l = some f) (i : Int)
    (os : List Link) : ∀ a f, walk e n i os a = some f → walk e m i os a = some f := by
  induction os with
  | nil => intro a f h; exact h
  | cons o os ihos =>
    intro a f h
    rw [walk_cons] at h ⊢
    by_cases hm : o.master = i
    · rw [if_pos hm] at h ⊢
      cases hf : find e n o with
      | none => rw [hf] at h; cases h
      | some g =>
        rw [hf] at h
        rw [ih o g hf]
        exact ihos _ f h
    · rw [if_neg hm] at h ⊢
      exact ihos _ f h

theorem find_mono {e : Env} {n : Nat} : ∀ {m : Nat} {l : Link} {f : Found}, find e n l = some f → n ≤ m →
    find e m l = some f := by
  induction n with
  | zero => intro m l f h; cases h
  | succ n ih =>
    intro m l f h hm
    obtain ⟨m, rfl⟩ : ∃ k, m = k + 1 := ⟨m - 1, by omega⟩
    rw [find_eq] at h ⊢
    cases hr : resolve e (n + 1) l with
    | none => rw [hr] at h; cases h
    | some p =>
      rw [hr] at h
      rw [resolve_mono hr hm]
      cases hc : hwClock e p with
      | some c => simpa only [hc] using h
      | none =>
        simp only [hc] at h ⊢
        exact walk_mono (fun l f h => ih h (by omega)) p.index e.rows {} f h

theorem find_det {e : Env} {n m : Nat} {l : Link} {f g : Found} (hf : find e n l = some f)
    (hg : find e m l = some g) : f = g := by
  have h1 := find_mono hf (Nat.le_max_left n m)
  have h2 := find_mono hg (Nat.le_max_right n m)
  rw [h1] at h2
  exact Option.some.inj h2

mutual
theorem below_find {e : Env} {l : Link} {cs : List (Link × Nat)} : Below e l cs → ∃ n f, find e n l = some f
  | .clock (p := p) (c := c) hl hc => by
    obtain ⟨n, hn⟩ := leads_resolve hl
    refine ⟨n + 1, ⟨some p, some c, e.grade c⟩, ?_⟩
    rw [find_eq, resolve_mono hn (by omega)]
    simp only [hwClock_some.2 hc]
  | .members (p := p) hl hc hm => by
    obtain ⟨n, hn⟩ := leads_resolve hl
    obtain ⟨m, hw⟩ := members_walk hm
    obtain ⟨f, hf⟩ := hw {}
    refine ⟨max n m + 1, f, ?_⟩
    rw [find_eq, resolve_mono hn (by omega)]
    simp only [hwClock_none.2 hc]
    exact walk_mono (fun l f h => find_mono h (by omega)) p.index e.rows {} f hf
theorem members_walk {e : Env} {i : Int} {os : List Link} {cs : List (Link × Nat)} : Members e i os cs →
    ∃ n, ∀ a, ∃ f, walk e n i os a = some f
  | .nil => ⟨0, fun a => ⟨a, rfl⟩⟩
  | .skip hm h => by
    obtain ⟨n, hn⟩ := members_walk h
    refine ⟨n, fun a => ?_⟩
    rw [walk_cons, if_neg hm]
    exact hn a
  | .take hm hb h => by
    obtain ⟨n, g, hg⟩ := below_find hb
    obtain ⟨m, hw⟩ := members_walk h
    refine ⟨max n m, fun a => ?_⟩
    rw [walk_cons, if_pos hm, find_mono hg (by omega)]
    obtain ⟨f, hf⟩ := hw (pick a g)
    exact ⟨f, walk_mono (fun l f h => find_mono h (by omega)) _ _ _ _ hf⟩
end

mutual
theorem Below.unique {e : Env} {l : Link} {cs ds : List (Link × Nat)} : Below e l cs → Below e l ds → cs = ds
  | .clock hl hc, .clock hl' hc' => by
    cases hl.unique hl'
    have := (hwClock_some.2 hc).symm.trans (hwClock_some.2 hc')
    cases this
    rfl
  | .clock hl hc, .members hl' hc' _ => by
    cases hl.unique hl'
    exact absurd hc (hc' _)
  | .members hl hc _, .clock hl' hc' => by
    cases hl.unique hl'
    exact absurd hc' (hc _)
  | .members hl hc hm, .members hl' hc' hm' => by
    cases hl.unique hl'
    exact hm.unique hm'
theorem Members.unique {e : Env} {i : Int} {os : List Link} {cs ds : List (Link × Nat)} :
    Members e i os cs → Members e i os ds → cs = ds
  | .nil, .nil => rfl
  | .skip _ h, .skip _ h' => h.unique h'
  | .skip hm _, .take hm' _ _ => absurd hm' hm
  | .take hm _ _, .skip hm' _ => absurd hm hm'
  | .take _ hb h, .take _ hb' h' => by rw [hb.unique hb', h.unique h']
end

end Verif.Freerun
