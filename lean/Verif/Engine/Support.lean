import Verif.Engine.Spec
import Mathlib.Data.List.Nodup
import Mathlib.Data.List.Basic

set_option linter.unusedSimpArgs false
set_option linter.unusedVariables false

/-!
# Helper lemmas for the selection of sync instances
-/

namespace Verif.Engine

open Spec

variable {δ : Type}

/-! ## Servos -/

theorem setServos_eq (total lrc : Nat) (l : List Clk) : ∀ idx out,
    setServos total lrc idx l = some out →
    out = (l.filter fun k => decide (k.disc = true ∧ k.id ≠ lrc)).map fun k => (lrc, k.id) := by
  induction l with
  | nil => intro idx out h; simp only [setServos, Option.some.injEq] at h; subst h; rfl
  | cons k r ih =>
    intro idx out h
    unfold setServos at h
    by_cases hk : k.disc = true ∧ k.id ≠ lrc
    · rw [if_pos hk] at h
      by_cases hi : idx < total
      · rw [if_pos hi] at h
        cases hr : setServos total lrc (idx + 1) r with
        | none => rw [hr] at h; exact absurd h (by simp)
        | some o =>
          rw [hr] at h
          simp only [Option.some.injEq] at h
          subst h
          rw [ih _ _ hr, List.filter_cons_of_pos (by simpa using hk)]
          rfl
      · rw [if_neg hi] at h; exact absurd h (by simp)
    · rw [if_neg hk] at h
      rw [ih _ _ h, List.filter_cons_of_neg (by simpa using hk)]

theorem setServos_some (total lrc : Nat) (l : List Clk) : ∀ idx,
    idx + (l.filter fun k => decide (k.disc = true ∧ k.id ≠ lrc)).length ≤ total →
    ∃ out, setServos total lrc idx l = some out := by
  induction l with
  | nil => intro idx _; exact ⟨[], rfl⟩
  | cons k r ih =>
    intro idx h
    unfold setServos
    by_cases hk : k.disc = true ∧ k.id ≠ lrc
    · rw [List.filter_cons_of_pos (by simpa using hk)] at h
      simp only [List.length_cons] at h
      obtain ⟨o, ho⟩ := ih (idx + 1) (by omega)
      rw [if_pos hk, if_pos (by omega), ho]
      exact ⟨_, rfl⟩
    · rw [List.filter_cons_of_neg (by simpa using hk)] at h
      rw [if_neg hk]
      exact ih idx h

theorem filter_le_wanted (lrc : Nat) (l : List Clk) :
    (l.filter fun k => decide (k.disc = true ∧ k.id ≠ lrc)).length ≤ wanted l := by
  unfold wanted
  induction l with
  | nil => simp
  | cons k r ih =>
    simp only [List.filter_cons]
    split <;> split <;> simp_all
    omega

theorem setServos_covers {total lrc : Nat} {l : List Clk} {out}
    (h : setServos total lrc 0 l = some out) : Covers lrc l out := by
  have := setServos_eq total lrc l 0 out h
  subst this
  refine ⟨?_, ?_, ?_⟩
  · intro p hp
    obtain ⟨k, _, rfl⟩ := List.mem_map.1 hp
    rfl
  · intro k
    constructor
    · rintro ⟨p, hp, rfl⟩
      obtain ⟨x, hx, rfl⟩ := List.mem_map.1 hp
      obtain ⟨hx, hd⟩ := List.mem_filter.1 hx
      have hd := of_decide_eq_true hd
      exact ⟨hd.2, x, hx, rfl, hd.1⟩
    · rintro ⟨hk, x, hx, rfl, hd⟩
      exact ⟨(lrc, x.id), List.mem_map.2 ⟨x, List.mem_filter.2 ⟨hx, decide_eq_true ⟨hd, hk⟩⟩, rfl⟩,
        rfl⟩
  · intro hn
    rw [List.map_map]
    have : (Prod.snd ∘ fun k : Clk => (lrc, k.id)) = Clk.id := rfl
    rw [this]
    exact hn.sublist (List.Sublist.map _ List.filter_sublist)

theorem reconfigure_some {s s' : Eng δ} {k : Nat} (h : reconfigure s k = some s') :
    ∃ l, setServos s.total k 0 s.active = some l ∧ s' = { s with lrc := some k, servos := l } := by
  unfold reconfigure at h
  cases hq : setServos s.total k 0 s.active with
  | none => rw [hq] at h; exact absurd h (by simp)
  | some l =>
    rw [hq] at h
    simp only [Option.some.injEq] at h
    exact ⟨l, rfl, h.symm⟩

theorem reconfigure_total {s : Eng δ} (k : Nat) (h : wanted s.active ≤ s.total) :
    ∃ s', reconfigure s k = some s' := by
  obtain ⟨l, hl⟩ := setServos_some s.total k s.active 0
    (by have := filter_le_wanted k s.active; omega)
  unfold reconfigure
  rw [hl]
  exact ⟨_, rfl⟩

/-! ## What a selection does -/

/-- The kinds of outcome of `select`. -/
inductive Sel (s : Eng δ) (new : Nat) (r : Rec δ) : Eng δ → Bool → Prop
  | same (h : s.sel = some new) : Sel s new r s true
  | kept (old : Nat) (h : s.sel = some old) (hne : old ≠ new) : Sel s new r s false
  | lost (hne : s.sel ≠ some new) (ctl : Nat → Bool)
      (hc : ∀ j, ctl j = if s.sel = some j then false else s.ctl j) :
      Sel s new r { s with ctl := ctl, sel := some new } false
  | stay (hne : s.sel ≠ some new) (ctl : Nat → Bool)
      (hc : ∀ j, ctl j = if j = new then true else if s.sel = some j then false else s.ctl j)
      (hl : s.lrc = some r.status.clock) :
      Sel s new r { s with ctl := ctl, sel := some new, told := some r.status.gm } true
  | move (hne : s.sel ≠ some new) (ctl : Nat → Bool)
      (hc : ∀ j, ctl j = if j = new then true else if s.sel = some j then false else s.ctl j)
      (l : List (Nat × Nat)) (hl : setServos s.total r.status.clock 0 s.active = some l)
      (hne' : s.lrc ≠ some r.status.clock) :
      Sel s new r { s with ctl := ctl, sel := some new, told := some r.status.gm,
                           lrc := some r.status.clock, servos := l } true

theorem selectNew_sel {s s0 : Eng δ} {new : Nat} {r : Rec δ} {ok : Bool} {s' b}
    (hne : s.sel ≠ some new)
    (hs0 : s0 = { s with ctl := s0.ctl })
    (hc : ∀ j, s0.ctl j = if s.sel = some j then false else s.ctl j)
    (h : selectNew s0 new r (decide (s.lrc ≠ some r.status.clock)) ok = some (s', b)) :
    Sel s new r s' b := by
  unfold selectNew at h
  cases ok with
  | false =>
    simp only [Bool.false_eq_true, if_false, Option.some.injEq, Prod.mk.injEq] at h
    obtain ⟨rfl, rfl⟩ := h
    have := Sel.lost (r := r) hne s0.ctl hc
    rw [hs0]
    exact this
  | true =>
    simp only [if_true] at h
    by_cases hl : s.lrc = some r.status.clock
    · rw [if_neg (by simp [hl])] at h
      simp only [Option.some.injEq, Prod.mk.injEq] at h
      obtain ⟨rfl, rfl⟩ := h
      have := Sel.stay (r := r) hne (fun j => if j = new then true else s0.ctl j)
        (fun j => by simp only [hc j]) hl
      rw [hs0]
      exact this
    · rw [if_pos (by simp [hl])] at h
      cases hq : reconfigure
          { setCtl { s0 with sel := some new } new true with told := some r.status.gm }
          r.status.clock with
      | none => rw [hq] at h; exact absurd h (by simp)
      | some s2 =>
        rw [hq] at h
        simp only [Option.some.injEq, Prod.mk.injEq] at h
        obtain ⟨rfl, rfl⟩ := h
        obtain ⟨l, hl', rfl⟩ := reconfigure_some hq
        have ha : s0.active = s.active := by rw [hs0]
        have ht : s0.total = s.total := by rw [hs0]
        have hl'' : setServos s.total r.status.clock 0 s.active = some l := by
          rw [← ha, ← ht]; exact hl'
        have := Sel.move (r := r) hne (fun j => if j = new then true else s0.ctl j)
          (fun j => by simp only [hc j]) l hl'' hl
        rw [hs0]
        exact this

theorem select_sel {s s' : Eng δ} {new : Nat} {rcs b} (h : select s new rcs = some (s', b)) :
    ∃ r, s.recs[new]? = some r ∧ Sel s new r s' b := by
  unfold select at h
  cases hr : s.recs[new]? with
  | none => rw [hr] at h; exact absurd h (by simp)
  | some r =>
    rw [hr] at h
    refine ⟨r, rfl, ?_⟩
    simp only at h
    by_cases hs : s.sel = some new
    · rw [if_pos hs] at h
      simp only [Option.some.injEq, Prod.mk.injEq] at h
      obtain ⟨rfl, rfl⟩ := h
      exact .same hs
    · rw [if_neg hs] at h
      cases ho : s.sel with
      | none =>
        rw [ho] at h
        refine selectNew_sel (s0 := s) hs rfl (fun j => ?_) h
        rw [ho]; simp
      | some old =>
        rw [ho] at h
        simp only at h
        cases hd : rcs.desel with
        | false =>
          rw [hd] at h
          simp only [Bool.false_eq_true, if_false, Option.some.injEq, Prod.mk.injEq] at h
          obtain ⟨rfl, rfl⟩ := h
          exact .kept old ho (fun h => hs (by rw [ho, h]))
        | true =>
          rw [hd] at h
          simp only [if_true] at h
          refine selectNew_sel (s0 := setCtl s old false) hs rfl (fun j => ?_) h
          unfold setCtl
          simp only [ho, Option.some.injEq]
          by_cases hj : j = old
          · rw [if_pos hj, if_pos hj.symm]
          · rw [if_neg hj, if_neg (fun h => hj h.symm)]

/-- With successful calls the selection succeeds. -/
theorem select_ok {s s' : Eng δ} {new : Nat} {rcs b} (h : select s new rcs = some (s', b))
    (hd : rcs.desel = true) (ho : rcs.sel = true) : b = true := by
  unfold select at h
  cases hr : s.recs[new]? with
  | none => rw [hr] at h; exact absurd h (by simp)
  | some r =>
    rw [hr] at h
    simp only at h
    have hn : ∀ (q : Eng δ) lc, selectNew q new r lc rcs.sel = some (s', b) → b = true := by
      intro q lc h
      unfold selectNew at h
      rw [ho] at h
      simp only [if_true] at h
      cases lc with
      | false => simp only [Bool.false_eq_true, if_false, Option.some.injEq, Prod.mk.injEq] at h; exact h.2.symm
      | true =>
        simp only [if_true] at h
        split at h
        · simp only [Option.some.injEq, Prod.mk.injEq] at h; exact h.2.symm
        · exact absurd h (by simp)
    by_cases hs : s.sel = some new
    · rw [if_pos hs] at h
      simp only [Option.some.injEq, Prod.mk.injEq] at h
      exact h.2.symm
    · rw [if_neg hs] at h
      cases ho' : s.sel with
      | none => rw [ho'] at h; exact hn _ _ h
      | some old =>
        rw [ho'] at h
        simp only [hd, if_true] at h
        exact hn _ _ h

/-- Selecting does not abort when the servos suffice. -/
theorem select_total {s : Eng δ} {new : Nat} (rcs : Rcs) (hn : new < s.recs.length)
    (hw : wanted s.active ≤ s.total) : ∃ s' b, select s new rcs = some (s', b) := by
  have hnew : ∀ (q : Eng δ) r lc ok, wanted q.active ≤ q.total →
      ∃ s' b, selectNew q new r lc ok = some (s', b) := by
    intro q r lc ok hq
    unfold selectNew
    cases ok with
    | false => exact ⟨_, _, rfl⟩
    | true =>
      cases lc with
      | false => exact ⟨_, _, rfl⟩
      | true =>
        obtain ⟨s2, h2⟩ := reconfigure_total
          (s := { setCtl { q with sel := some new } new true with told := some r.status.gm })
          r.status.clock hq
        simp only [if_true]
        rw [h2]
        exact ⟨_, _, rfl⟩
  unfold select
  rw [List.getElem?_eq_getElem hn]
  simp only
  by_cases hs : s.sel = some new
  · rw [if_pos hs]; exact ⟨_, _, rfl⟩
  · rw [if_neg hs]
    cases ho : s.sel with
    | none => exact hnew _ _ _ _ hw
    | some old =>
      simp only
      cases hd : rcs.desel with
      | false => exact ⟨_, _, rfl⟩
      | true => exact hnew _ _ _ _ hw

/-- What no selection changes. -/
theorem Sel.frame {s s' : Eng δ} {new r b} (h : Sel s new r s' b) :
    s'.recs = s.recs ∧ s'.cand = s.cand ∧ s'.timer = s.timer ∧ s'.active = s.active ∧
      s'.total = s.total := by
  cases h <;> exact ⟨rfl, rfl, rfl, rfl, rfl⟩

theorem Sel.sel_true {s s' : Eng δ} {new r} (h : Sel s new r s' true) : s'.sel = some new := by
  cases h with
  | same h => exact h
  | stay => rfl
  | move => rfl

theorem Sel.sel_or {s s' : Eng δ} {new r b} (h : Sel s new r s' b) :
    s'.sel = some new ∨ s'.sel = s.sel := by
  cases h with
  | same h => exact Or.inr rfl
  | kept => exact Or.inr rfl
  | lost => exact Or.inl rfl
  | stay => exact Or.inl rfl
  | move => exact Or.inl rfl

/-! ## Grandmaster information -/

theorem Spec.SameGm.refl (a : Gm) : SameGm a a := ⟨rfl, rfl, rfl, rfl, rfl, rfl⟩

theorem Spec.SameGm.trans {a b c : Gm} (h : SameGm a b) (h' : SameGm b c) : SameGm a c :=
  ⟨h.id.trans h'.id, h.cls.trans h'.cls, h.src.trans h'.src, h.acc.trans h'.acc,
    h.allan.trans h'.allan, h.steps.trans h'.steps⟩

theorem feq_eq {a b : Option Int} (h : feq a b = true) : a = b := by
  cases a <;> cases b <;> simp_all [feq]

theorem gmEqual_same {a b : Gm} (h : gmEqual a b = true) : SameGm a b := by
  unfold gmEqual at h
  simp only [Bool.and_eq_true, Bool.or_eq_true, beq_iff_eq, Option.isNone_iff_eq_none] at h
  obtain ⟨⟨⟨⟨⟨h1, h2⟩, h3⟩, h4⟩, h5⟩, h6⟩ := h
  refine ⟨h1, h2, h3, feq_eq h4, ?_, h6⟩
  rcases h5 with h5 | h5
  · exact feq_eq h5
  · rw [h5.1, h5.2]

/-! ## What an event does -/

theorem refresh_some {s s' : Eng δ} {old new : Status δ} (h : refresh s old new = some s') :
    ∃ g l v, s' = { s with told := g, lrc := l, servos := v } ∧
      (g = some new.gm ∨ (g = s.told ∧ SameGm old.gm new.gm)) ∧
      ((s.lrc = some new.clock ∧ l = s.lrc ∧ v = s.servos) ∨
       (l = some new.clock ∧ setServos s.total new.clock 0 s.active = some v)) := by
  unfold refresh at h
  simp only at h
  by_cases hg : gmEqual old.gm new.gm = true
  · rw [if_pos hg] at h
    by_cases hl : s.lrc = some new.clock
    · rw [if_neg (by simp [hl])] at h
      cases h
      exact ⟨s.told, s.lrc, s.servos, rfl, Or.inr ⟨rfl, gmEqual_same hg⟩, Or.inl ⟨hl, rfl, rfl⟩⟩
    · rw [if_pos hl] at h
      obtain ⟨v, hv, rfl⟩ := reconfigure_some h
      exact ⟨s.told, _, v, rfl, Or.inr ⟨rfl, gmEqual_same hg⟩, Or.inr ⟨rfl, hv⟩⟩
  · rw [if_neg hg] at h
    by_cases hl : s.lrc = some new.clock
    · rw [if_neg (by simp [hl])] at h
      cases h
      exact ⟨_, s.lrc, s.servos, rfl, Or.inl rfl, Or.inl ⟨hl, rfl, rfl⟩⟩
    · rw [if_pos hl] at h
      obtain ⟨v, hv, rfl⟩ := reconfigure_some h
      exact ⟨_, _, v, rfl, Or.inl rfl, Or.inr ⟨rfl, hv⟩⟩

theorem refresh_total {s : Eng δ} (old new : Status δ) (hw : wanted s.active ≤ s.total) :
    ∃ s', refresh s old new = some s' := by
  unfold refresh
  simp only
  by_cases hg : gmEqual old.gm new.gm = true
  · rw [if_pos hg]
    by_cases hl : s.lrc = some new.clock
    · rw [if_neg (by simp [hl])]; exact ⟨_, rfl⟩
    · rw [if_pos hl]; exact reconfigure_total _ hw
  · rw [if_neg hg]
    by_cases hl : s.lrc = some new.clock
    · rw [if_neg (by simp [hl])]; exact ⟨_, rfl⟩
    · rw [if_pos hl]; exact reconfigure_total _ hw

/-- What an election leads to. -/
inductive Eval (c : Cfg) (choose : List (Rec δ) → Nat) (now : Nat) (s : Eng δ) (rcs : Rcs) :
    Eng δ → Prop
  | rest (h1 : s.sel = some (choose s.recs)) (h2 : s.cand = none) : Eval c choose now s rcs s
  | wait (h : s.cand = some (choose s.recs)) : Eval c choose now s rcs s
  | now (h0 : c.holdoff = 0) (hc : s.cand ≠ some (choose s.recs))
      (hs : ¬ (s.sel = some (choose s.recs) ∧ s.cand = none)) (r b s')
      (hr : s.recs[choose s.recs]? = some r) (h : Sel s (choose s.recs) r s' b)
      (hb : rcs.desel = true ∧ rcs.sel = true → b = true) :
      Eval c choose now s rcs s'
  | arm (h0 : c.holdoff ≠ 0) (hc : s.cand ≠ some (choose s.recs))
      (hs : ¬ (s.sel = some (choose s.recs) ∧ s.cand = none))
      (h : s.cand = none ∨ s.sel = some (choose s.recs)) :
      Eval c choose now s rcs { s with timer := some (now + c.holdoff), cand := some (choose s.recs) }
  | swap (h0 : c.holdoff ≠ 0) (hc : s.cand ≠ some (choose s.recs))
      (h1 : s.cand ≠ none) (h2 : s.sel ≠ some (choose s.recs)) :
      Eval c choose now s rcs { s with cand := some (choose s.recs) }

theorem evaluate_eval {c : Cfg} {choose : List (Rec δ) → Nat} {now s rcs s'}
    (h : evaluate c choose now s rcs = some s') : Eval c choose now s rcs s' := by
  unfold evaluate at h
  simp only at h
  by_cases h1 : s.sel = some (choose s.recs) ∧ s.cand = none
  · rw [if_pos h1] at h; cases h; exact .rest h1.1 h1.2
  rw [if_neg h1] at h
  by_cases h2 : s.cand = some (choose s.recs)
  · rw [if_pos h2] at h; cases h; exact .wait h2
  rw [if_neg h2] at h
  by_cases h3 : c.holdoff = 0
  · rw [if_pos h3] at h
    cases hq : select s (choose s.recs) rcs with
    | none => rw [hq] at h; exact absurd h (by simp)
    | some p =>
      obtain ⟨p, b⟩ := p
      rw [hq] at h
      simp only [Option.some.injEq] at h
      subst h
      obtain ⟨r, hr, hsel⟩ := select_sel hq
      exact .now h3 h2 h1 r b _ hr hsel (fun h => select_ok hq h.1 h.2)
  rw [if_neg h3] at h
  by_cases h4 : s.cand = none ∨ s.sel = some (choose s.recs)
  · rw [if_pos h4] at h; cases h; exact .arm h3 h2 h1 h4
  · rw [if_neg h4] at h; cases h
    exact .swap h3 h2 (fun h => h4 (Or.inl h)) (fun h => h4 (Or.inr h))

/-- An election whose calls succeed, with the holdoff disabled. -/
theorem evaluate_now {c : Cfg} {choose : List (Rec δ) → Nat} {now s rcs s'}
    (h : evaluate c choose now s rcs = some s') (h0 : c.holdoff = 0) (hd : rcs.desel = true)
    (ho : rcs.sel = true) (hc : s.cand ≠ some (choose s.recs)) :
    s'.sel = some (choose s.recs) := by
  unfold evaluate at h
  simp only at h
  by_cases h1 : s.sel = some (choose s.recs) ∧ s.cand = none
  · rw [if_pos h1] at h; cases h; exact h1.1
  rw [if_neg h1, if_neg hc, if_pos h0] at h
  cases hq : select s (choose s.recs) rcs with
  | none => rw [hq] at h; exact absurd h (by simp)
  | some p =>
    obtain ⟨p, b⟩ := p
    rw [hq] at h
    simp only [Option.some.injEq] at h
    subst h
    obtain ⟨r, hr, hsel⟩ := select_sel hq
    have := select_ok hq hd ho
    subst this
    exact hsel.sel_true

theorem stateChanged_some {c : Cfg} {choose : List (Rec δ) → Nat} {now s i st rcs s'}
    (h : stateChanged c choose now s i st rcs = some s') :
    ∃ r s1, s.recs[i]? = some r ∧
      ((s.sel = some i ∧ refresh s r.status st = some s1) ∨ (s.sel ≠ some i ∧ s1 = s)) ∧
      evaluate c choose now { s1 with recs := s1.recs.set i { r with status := st } } rcs
        = some s' := by
  unfold stateChanged at h
  cases hr : s.recs[i]? with
  | none => rw [hr] at h; exact absurd h (by simp)
  | some r =>
    rw [hr] at h
    simp only at h
    refine ⟨r, ?_⟩
    by_cases hs : s.sel = some i
    · rw [if_pos hs] at h
      cases hq : refresh s r.status st with
      | none => rw [hq] at h; exact absurd h (by simp)
      | some s1 =>
        rw [hq] at h
        exact ⟨s1, rfl, Or.inl ⟨hs, rfl⟩, h⟩
    · rw [if_neg hs] at h
      exact ⟨s, rfl, Or.inr ⟨hs, rfl⟩, h⟩

/-- The kinds of step. -/
inductive Move (c : Cfg) (choose : List (Rec δ) → Nat) (s : Eng δ) (t : Nat) :
    Ev δ → Eng δ → Prop
  | state (i : Nat) (st : Status δ) (rcs : Rcs) (r : Rec δ) (s1 s' : Eng δ)
      (hr : s.recs[i]? = some r)
      (h1 : (s.sel = some i ∧ refresh s r.status st = some s1) ∨ (s.sel ≠ some i ∧ s1 = s))
      (h2 : evaluate c choose t { s1 with recs := s1.recs.set i { r with status := st } } rcs
        = some s') : Move c choose s t (.state i st rcs) s'
  | early (rcs : Rcs) (h : ∀ d, s.timer = some d → t < d) : Move c choose s t (.expire rcs) s
  | idle (rcs : Rcs) (d : Nat) (hd : s.timer = some d) (hle : d ≤ t) (hc : s.cand = none) :
      Move c choose s t (.expire rcs) { s with timer := none }
  | fire (rcs : Rcs) (d k : Nat) (s1 : Eng δ) (b : Bool) (hd : s.timer = some d) (hle : d ≤ t)
      (hc : s.cand = some k) (hs : Engine.select { s with timer := none } k rcs = some (s1, b)) :
      Move c choose s t (.expire rcs) { s1 with cand := none }
  | ignored (name : Option Nat) (rcs : Rcs) (h : c.strategy ≠ .manual ∨ name = none) :
      Move c choose s t (.select name rcs) s
  | named (i : Nat) (rcs : Rcs) (s1 : Eng δ) (b : Bool) (hm : c.strategy = .manual)
      (hs : Engine.select { s with recs := markManual s.recs i } i rcs = some (s1, b)) :
      Move c choose s t (.select (some i) rcs) s1
  | unseen (active : List Clk) : Move c choose s t (.hotplug active false) { s with active := active }
  | plugged (active : List Clk) (i : Nat) (r : Rec δ) (l : List (Nat × Nat)) (hs : s.sel = some i)
      (hr : s.recs[i]? = some r) (hl : setServos s.total r.status.clock 0 active = some l) :
      Move c choose s t (.hotplug active true)
        { s with active := active, lrc := some r.status.clock, servos := l }

theorem step_move {c : Cfg} {choose : List (Rec δ) → Nat} {s : Eng δ} {t : Nat} {e : Ev δ}
    {s' : Eng δ} (h : step c choose s t e = some s') : Move c choose s t e s' := by
  cases e with
  | state i st rcs =>
    obtain ⟨r, s1, hr, h1, h2⟩ := stateChanged_some h
    exact .state i st rcs r s1 s' hr h1 h2
  | expire rcs =>
    unfold step at h
    simp only at h
    cases ht : s.timer with
    | none =>
      rw [ht] at h
      cases h
      exact .early rcs (fun d hd => by rw [ht] at hd; exact absurd hd (by simp))
    | some d =>
      rw [ht] at h
      simp only at h
      by_cases hd : d ≤ t
      · rw [if_pos hd] at h
        unfold holdoffExpired at h
        split at h
        · next hc => cases h; exact .idle rcs d ht hd hc
        · next k hc =>
          split at h
          · next s1 b hq => cases h; exact .fire rcs d k s1 b ht hd hc hq
          · exact absurd h (by simp)
      · rw [if_neg hd] at h
        cases h
        exact .early rcs (fun d' hd' => by rw [ht] at hd'; cases hd'; omega)
  | select name rcs =>
    unfold step selectInstance at h
    simp only at h
    by_cases hm : c.strategy = .manual
    · rw [if_pos hm] at h
      cases name with
      | none => cases h; exact .ignored none rcs (Or.inr rfl)
      | some i =>
        simp only at h
        split at h
        · next s1 b hq => cases h; exact .named i rcs _ b hm hq
        · exact absurd h (by simp)
    · rw [if_neg hm] at h; cases h; exact .ignored name rcs (Or.inl hm)
  | hotplug active reconf =>
    unfold step hotplug at h
    simp only at h
    cases reconf with
    | false => simp only [Bool.false_eq_true, if_false, Option.some.injEq] at h; subst h; exact .unseen active
    | true =>
      simp only [if_true] at h
      split at h
      · exact absurd h (by simp)
      · next i hi =>
        split at h
        · exact absurd h (by simp)
        · next r hr =>
          obtain ⟨l, hl, rfl⟩ := reconfigure_some h
          exact .plugged active i r l hi hr hl

theorem run_cons_some {c : Cfg} {choose : List (Rec δ) → Nat} {s s' : Eng δ} {t e r}
    (h : run c choose s ((t, e) :: r) = some s') :
    ∃ s1, step c choose s t e = some s1 ∧ run c choose s1 r = some s' := by
  unfold run at h
  cases hq : step c choose s t e with
  | none => rw [hq] at h; exact absurd h (by simp)
  | some s1 => rw [hq] at h; exact ⟨s1, rfl, h⟩

/-- An invariant of the steps is one of the runs. -/
theorem run_induct {c : Cfg} {choose : List (Rec δ) → Nat} {P : Eng δ → Prop}
    {Q : Ev δ → Prop}
    (hstep : ∀ s t e s', P s → Q e → step c choose s t e = some s' → P s') :
    ∀ evs (s s' : Eng δ), P s → (∀ p ∈ evs, Q p.2) → run c choose s evs = some s' → P s' := by
  intro evs
  induction evs with
  | nil => intro s s' h _ hr; cases hr; exact h
  | cons p r ih =>
    obtain ⟨t, e⟩ := p
    intro s s' h hq hr
    obtain ⟨s1, h1, h2⟩ := run_cons_some hr
    exact ih s1 s' (hstep s t e s1 h (hq _ (List.mem_cons_self ..)) h1)
      (fun p hp => hq p (List.mem_cons_of_mem _ hp)) h2

/-! ## The start -/

theorem mapM_id_some {α : Type} : ∀ (l : List (Option α)) (o : List α),
    l.mapM id = some o → l = o.map some := by
  intro l
  induction l with
  | nil => intro o h; simp only [List.mapM_nil] at h; cases h; rfl
  | cons a r ih =>
    intro o h
    rw [List.mapM_cons] at h
    cases a with
    | none => exact absurd h (by simp)
    | some a =>
      cases hr : r.mapM id with
      | none => rw [hr] at h; exact absurd h (by simp)
      | some q =>
        rw [hr] at h
        cases h
        rw [ih q hr]
        rfl

/-- What every started engine satisfies; `i` is the selected instance. -/
structure Base (f : Found δ) (s : Eng δ) (i : Nat) (r : Rec δ) : Prop where
  sel : s.sel = some i
  rec_ : s.recs[i]? = some r
  ctl : ∀ j, s.ctl j = decide (j = i)
  lrc : s.lrc = some r.status.clock
  told : s.told = some r.status.gm
  covers : Covers r.status.clock s.active s.servos
  active : s.active = f.active
  total : s.total = f.total
  len : s.recs.length = f.recs.length

theorem blank_base {f : Found δ} {l : List (Rec δ)} {i : Nat} {rcs : Rcs} {s : Eng δ}
    (hl : l.length = f.recs.length)
    (h : select (blank l f) i rcs = some (s, true)) :
    ∃ r, Base f s i r ∧ s.recs = l ∧ s.cand = none ∧ s.timer = none := by
  obtain ⟨r, hr, hs⟩ := select_sel h
  clear h
  refine ⟨r, ?_⟩
  cases hs with
  | same h => exact absurd h (by simp [blank])
  | stay _ _ _ h => exact absurd h (by simp [blank])
  | move hne ctl hc v hv _ =>
    refine ⟨⟨rfl, hr, ?_, rfl, rfl, setServos_covers hv, rfl, rfl, hl⟩, rfl, rfl, rfl⟩
    intro j
    show ctl j = _
    rw [hc j]
    by_cases hj : j = i <;> simp [hj, blank]

/-- The successful outcomes of the start. -/
theorem startup_some {c : Cfg} {choose : List (Rec δ) → Nat} {f : Found δ} {rcs : Rcs} {rc : Nat}
    {s : Eng δ} (h : startup c choose f rcs = some ⟨rc, some s⟩) :
    rc = 0 ∧ ∃ (recs : List (Rec δ)) (i : Nat) (r : Rec δ), recs ≠ [] ∧
      (∀ q ∈ recs, q.manual = false ∧ some q.status ∈ f.recs) ∧ Base f s i r ∧ s.timer = none ∧
      ((c.strategy = .automatic ∧ i = choose recs ∧ s.recs = recs ∧ s.cand = none) ∨
       (c.strategy = .manual ∧ f.initial = some i ∧ s.recs = markManual recs i ∧ s.cand = none) ∨
       (c.strategy = .manualStartup ∧ f.initial = some i ∧ s.recs = recs ∧
         ((choose recs = i ∧ s.cand = none) ∨
          (choose recs ≠ i ∧ s.cand = some (choose recs))))) := by
  unfold startup at h
  by_cases h0 : f.recs = []
  · rw [if_pos h0] at h; simp at h
  rw [if_neg h0] at h
  cases hm : f.recs.mapM id with
  | none => rw [hm] at h; simp at h
  | some l =>
    rw [hm] at h
    simp only at h
    have hlen : (l.map fun st => ({ status := st, manual := false } : Rec δ)).length
        = f.recs.length := by
      rw [mapM_id_some _ _ hm]; simp
    have hne : (l.map fun st => ({ status := st, manual := false } : Rec δ)) ≠ [] := by
      intro he
      rw [he] at hlen
      exact h0 (List.length_eq_zero_iff.1 hlen.symm)
    have hman : ∀ q ∈ (l.map fun st => ({ status := st, manual := false } : Rec δ)),
        q.manual = false ∧ some q.status ∈ f.recs := by
      intro q hq
      obtain ⟨a, ha, rfl⟩ := List.mem_map.1 hq
      refine ⟨rfl, ?_⟩
      rw [mapM_id_some _ _ hm]
      exact List.mem_map.2 ⟨a, ha, rfl⟩
    generalize (l.map fun st => ({ status := st, manual := false } : Rec δ)) = recs at h hlen hne hman
    cases hst : c.strategy with
    | automatic =>
      rw [hst] at h
      simp only at h
      cases hq : select (blank recs f) (choose recs) rcs with
      | none => rw [hq] at h; simp at h
      | some p =>
        obtain ⟨p, b⟩ := p
        rw [hq] at h
        cases b with
        | false => simp at h
        | true =>
          simp only [Option.some.injEq, Started.mk.injEq] at h
          obtain ⟨rfl, rfl⟩ := h
          obtain ⟨r, hb, h1, h2, h3⟩ := blank_base hlen hq
          exact ⟨rfl, recs, _, r, hne, hman, hb, h3, Or.inl ⟨rfl, rfl, h1, h2⟩⟩
    | manual =>
      rw [hst] at h
      simp only at h
      cases hi : f.initial with
      | none => rw [hi] at h; simp at h
      | some i =>
        rw [hi] at h
        simp only [if_true] at h
        cases hq : select (blank (markManual recs i) f) i rcs with
        | none => rw [hq] at h; simp at h
        | some p =>
          obtain ⟨p, b⟩ := p
          rw [hq] at h
          cases b with
          | false => simp at h
          | true =>
            simp only at h
            rw [if_neg (by simp)] at h
            simp only [Option.some.injEq, Started.mk.injEq] at h
            obtain ⟨rfl, rfl⟩ := h
            obtain ⟨r, hb, h1, h2, h3⟩ := blank_base (by simpa [markManual] using hlen) hq
            exact ⟨rfl, recs, i, r, hne, hman, hb, h3, Or.inr (Or.inl ⟨rfl, rfl, h1, h2⟩)⟩
    | manualStartup =>
      rw [hst] at h
      simp only at h
      cases hi : f.initial with
      | none => rw [hi] at h; simp at h
      | some i =>
        rw [hi] at h
        simp only at h
        rw [if_neg (by simp)] at h
        cases hq : select (blank recs f) i rcs with
        | none => rw [hq] at h; simp at h
        | some p =>
          obtain ⟨p, b⟩ := p
          rw [hq] at h
          cases b with
          | false => simp at h
          | true =>
            simp only at h
            obtain ⟨r, hb, h1, h2, h3⟩ := blank_base hlen hq
            by_cases hk : choose recs = i
            · rw [if_neg (by simp [hk])] at h
              simp only [Option.some.injEq, Started.mk.injEq] at h
              obtain ⟨rfl, rfl⟩ := h
              exact ⟨rfl, recs, i, r, hne, hman, hb, h3,
                Or.inr (Or.inr ⟨rfl, rfl, h1, Or.inl ⟨hk, h2⟩⟩)⟩
            · rw [if_pos (by simp [hk])] at h
              simp only [Option.some.injEq, Started.mk.injEq] at h
              obtain ⟨rfl, rfl⟩ := h
              exact ⟨rfl, recs, i, r, hne, hman,
                ⟨hb.sel, hb.rec_, hb.ctl, hb.lrc, hb.told, hb.covers, hb.active, hb.total, hb.len⟩,
                h3, Or.inr (Or.inr ⟨rfl, rfl, h1, Or.inr ⟨hk, rfl⟩⟩)⟩

/-- What starting the timers changes. -/
theorem begin_some (c : Cfg) (t : Nat) (s : Eng δ) :
    ∃ d, begin_ c t s = { s with timer := d } ∧ (d = s.timer ∨ d = some (t + c.holdoff)) ∧
      (c.holdoff ≠ 0 → c.strategy = .manualStartup → s.cand ≠ s.sel → d = some (t + c.holdoff)) ∧
      (c.strategy ≠ .manualStartup → d = s.timer) := by
  unfold begin_
  by_cases h : c.holdoff ≠ 0 ∧ c.strategy = .manualStartup ∧ s.cand ≠ s.sel
  · rw [if_pos h]
    exact ⟨_, rfl, Or.inr rfl, fun _ _ _ => rfl, fun hn => absurd h.2.1 hn⟩
  · rw [if_neg h]
    exact ⟨s.timer, rfl, Or.inl rfl, fun a b d => absurd ⟨a, b, d⟩ h, fun _ => rfl⟩

end Verif.Engine
