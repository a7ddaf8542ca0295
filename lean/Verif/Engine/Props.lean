import Verif.Engine.Support
import Verif.Bic.Props
import Mathlib.Tactic.Linarith

set_option linter.unusedSimpArgs false
set_option linter.unusedVariables false

/-!
# C90-C99: the selection of sync instances
-/

namespace Verif.Engine

open Spec

variable {δ : Type}

/-- The engine has started and then met the events. -/
def Live (c : Cfg) (choose : List (Rec δ) → Nat) (f : Found δ) (rcs : Rcs) (t : Nat)
    (evs : List (Nat × Ev δ)) (s : Eng δ) : Prop :=
  ∃ rc s0, startup c choose f rcs = some ⟨rc, some s0⟩ ∧ run c choose (begin_ c t s0) evs = some s

/-! ## A small configuration for the examples -/

/-- A grandmaster. -/
def gmA : Gm := ⟨1, true, 6, 32, some 100, none, 1, true, true⟩
/-- Another one. -/
def gmB : Gm := ⟨2, true, 7, 32, some 250, none, 1, true, true⟩

/-- Data of an instance in the examples: its rank, lower is better. -/
abbrev St := Status Nat

/-- Lowest rank wins, the earlier record if equal; a marked record before all. -/
def lowest (l : List (Rec Nat)) : Nat :=
  match l.findIdx? (fun r => r.manual) with
  | some i => i
  | none =>
    (l.zipIdx.foldl (fun (b : Nat × Option Nat) p =>
      match b.2 with
      | none => (p.2, some p.1.status.data)
      | some d => if p.1.status.data < d then (p.2, some p.1.status.data) else b) (0, none)).1

def yes : Rcs := ⟨true, true⟩

/-- Two instances on clocks 1 and 2; clock 0 is the system clock and clock 3
is not to be disciplined. -/
def two (a b : Nat) (init : Option Nat) : Found Nat :=
  ⟨[some ⟨1, gmA, a⟩, some ⟨2, gmB, b⟩], [⟨0, true⟩, ⟨1, true⟩, ⟨2, true⟩, ⟨3, false⟩], 20, init⟩

/-! ## C90: who may steer a clock -/

/-- Nobody but the selected instance may steer. -/
def OnlySel (s : Eng δ) : Prop := ∀ j, s.ctl j = true → s.sel = some j

theorem Sel.onlySel {s s' : Eng δ} {new r b} (h : Sel s new r s' b) (hs : OnlySel s) :
    OnlySel s' := by
  have key : ∀ (ctl : Nat → Bool),
      (∀ j, ctl j = if j = new then true else if s.sel = some j then false else s.ctl j) →
      ∀ j, ctl j = true → some new = some j := by
    intro ctl hc j hj
    rw [hc j] at hj
    by_cases h : j = new
    · rw [h]
    · rw [if_neg h] at hj
      by_cases h' : s.sel = some j
      · rw [if_pos h'] at hj; exact absurd hj (by simp)
      · rw [if_neg h'] at hj; exact absurd (hs j hj) h'
  cases h with
  | same => exact hs
  | kept => exact hs
  | lost hne ctl hc =>
    intro j hj
    have hj : ctl j = true := hj
    rw [hc j] at hj
    by_cases h' : s.sel = some j
    · rw [if_pos h'] at hj; exact absurd hj (by simp)
    · rw [if_neg h'] at hj; exact absurd (hs j hj) h'
  | stay hne ctl hc => exact fun j hj => key ctl hc j hj
  | move hne ctl hc => exact fun j hj => key ctl hc j hj

theorem Eval.onlySel {c : Cfg} {choose : List (Rec δ) → Nat} {now s rcs s'}
    (h : Eval c choose now s rcs s') (hs : OnlySel s) : OnlySel s' := by
  cases h with
  | rest => exact hs
  | wait => exact hs
  | now _ _ _ r b _ _ h _ => exact h.onlySel hs
  | arm => exact hs
  | swap => exact hs

theorem step_onlySel {c : Cfg} {choose : List (Rec δ) → Nat} (s : Eng δ) (t : Nat) (e : Ev δ)
    (s' : Eng δ) (hs : OnlySel s) (h : step c choose s t e = some s') : OnlySel s' := by
  cases step_move h with
  | state i st rcs r s1 _ hr h1 h2 =>
    have hs1 : OnlySel s1 := by
      rcases h1 with ⟨_, h1⟩ | ⟨_, rfl⟩
      · obtain ⟨g, l, v, rfl, _, _⟩ := refresh_some h1
        exact hs
      · exact hs
    exact (evaluate_eval h2).onlySel hs1
  | early => exact hs
  | idle => exact hs
  | fire rcs d k s1 b _ _ _ hq =>
    obtain ⟨r, _, hsel⟩ := select_sel hq
    have : OnlySel s1 := hsel.onlySel hs
    exact this
  | ignored => exact hs
  | named i rcs _ b _ hq =>
    obtain ⟨r, _, hsel⟩ := select_sel hq
    exact hsel.onlySel hs
  | unseen => exact hs
  | plugged => exact hs

/-- C90: whatever happens, also when calls to the instances fail, an instance
that may steer its clock is the selected one; so there is never more than
one. -/
theorem C90_at_most_one (c : Cfg) (choose : List (Rec δ) → Nat) (f : Found δ) (rcs : Rcs) (t : Nat)
    (evs : List (Nat × Ev δ)) (s : Eng δ) (h : Live c choose f rcs t evs s) :
    ∀ i j, s.ctl i = true → s.ctl j = true → i = j ∧ s.sel = some i := by
  obtain ⟨rc, s0, h0, hr⟩ := h
  obtain ⟨_, recs, i, r, _, _, hb, _, _⟩ := startup_some h0
  obtain ⟨d, hd, _⟩ := begin_some c t s0
  have hs0 : OnlySel (begin_ c t s0) := by
    rw [hd]
    intro j hj
    have hj : s0.ctl j = true := hj
    rw [hb.ctl j] at hj
    rw [of_decide_eq_true hj]
    exact hb.sel
  have := run_induct (P := OnlySel) (Q := fun _ => True)
    (fun s t e s' hs _ h => step_onlySel s t e s' hs h) evs _ s hs0 (fun _ _ => trivial) hr
  intro i j hi hj
  have h1 := this i hi
  have h2 := this j hj
  rw [h1] at h2
  exact ⟨Option.some.inj h2, h1⟩

/-- Runs in which the calls succeed and changes of clocks are noticed. -/
def Calm (e : Ev δ) : Prop := Succeeds e ∧ Noticed e

/-- What holds as long as the calls succeed. -/
structure Good (s : Eng δ) (i : Nat) (r : Rec δ) : Prop where
  sel : s.sel = some i
  rec_ : s.recs[i]? = some r
  ctl : ∀ j, s.ctl j = decide (j = i)
  lrc : s.lrc = some r.status.clock
  told : ∃ g, s.told = some g ∧ SameGm g r.status.gm
  covers : Covers r.status.clock s.active s.servos

theorem Sel.good {s s' : Eng δ} {new r i q} (h : Sel s new r s' true) (hr : s.recs[new]? = some r)
    (hs : Good s i q) : Good s' new r := by
  have key : ∀ (ctl : Nat → Bool),
      (∀ j, ctl j = if j = new then true else if s.sel = some j then false else s.ctl j) →
      ∀ j, ctl j = decide (j = new) := by
    intro ctl hc j
    rw [hc j, hs.sel, hs.ctl j]
    by_cases h : j = new
    · simp [h]
    · by_cases h' : j = i
      · simp [h, h']
      · simp [h, h', Ne.symm h']
  cases h with
  | same h =>
    rw [hs.sel] at h
    cases h
    rw [hs.rec_] at hr
    cases hr
    exact hs
  | stay hne ctl hc hl =>
    have hk : r.status.clock = q.status.clock := by
      have := hs.lrc
      rw [hl] at this
      exact Option.some.inj this
    refine ⟨rfl, hr, key ctl hc, hl, ⟨_, rfl, Spec.SameGm.refl _⟩, ?_⟩
    rw [hk]
    exact hs.covers
  | move hne ctl hc l hl _ =>
    exact ⟨rfl, hr, key ctl hc, rfl, ⟨_, rfl, Spec.SameGm.refl _⟩, setServos_covers hl⟩

theorem Eval.good {c : Cfg} {choose : List (Rec δ) → Nat} {now s rcs s'} {i : Nat} {r : Rec δ}
    (h : Eval c choose now s rcs s') (hok : rcs.desel = true ∧ rcs.sel = true)
    (hs : Good s i r) : ∃ i r, Good s' i r := by
  cases h with
  | rest => exact ⟨i, r, hs⟩
  | wait => exact ⟨i, r, hs⟩
  | now _ _ _ q b _ hq h hb =>
    have := hb hok
    subst this
    exact ⟨_, _, h.good hq hs⟩
  | arm => exact ⟨i, r, ⟨hs.sel, hs.rec_, hs.ctl, hs.lrc, hs.told, hs.covers⟩⟩
  | swap => exact ⟨i, r, ⟨hs.sel, hs.rec_, hs.ctl, hs.lrc, hs.told, hs.covers⟩⟩

/-- A new status of an instance. -/
theorem Good.status {s s1 : Eng δ} {i j : Nat} {q r : Rec δ} {st : Status δ} (hs : Good s i q)
    (hr : s.recs[j]? = some r)
    (h1 : (s.sel = some j ∧ refresh s r.status st = some s1) ∨ (s.sel ≠ some j ∧ s1 = s)) :
    ∃ q', Good { s1 with recs := s1.recs.set j { r with status := st } } i q' := by
  have hlt : j < s.recs.length := by
    rcases Nat.lt_or_ge j s.recs.length with h | h
    · exact h
    · rw [List.getElem?_eq_none h] at hr; exact absurd hr (by simp)
  rcases h1 with ⟨hj, h1⟩ | ⟨hj, rfl⟩
  · rw [hs.sel] at hj
    cases hj
    rw [hs.rec_] at hr
    cases hr
    obtain ⟨g, l, v, rfl, hg, hl⟩ := refresh_some h1
    refine ⟨{ q with status := st }, hs.sel, ?_, hs.ctl, ?_, ?_, ?_⟩
    · show (s.recs.set i _)[i]? = _
      rw [List.getElem?_set_self hlt]
    · show l = _
      rcases hl with ⟨h, h', _⟩ | ⟨h, _⟩
      · rw [h', h]
      · exact h
    · show ∃ g', g = some g' ∧ _
      rcases hg with h | ⟨h, hsame⟩
      · exact ⟨_, h, Spec.SameGm.refl _⟩
      · obtain ⟨g', h1, h2⟩ := hs.told
        exact ⟨g', by rw [h, h1], h2.trans hsame⟩
    · show Covers st.clock s.active v
      rcases hl with ⟨h, _, h'⟩ | ⟨_, h⟩
      · rw [h', ← Option.some.inj (hs.lrc.symm.trans h)]
        exact hs.covers
      · exact setServos_covers h
  · refine ⟨q, hs.sel, ?_, hs.ctl, hs.lrc, hs.told, hs.covers⟩
    show (s1.recs.set j _)[i]? = _
    rw [List.getElem?_set_ne (fun h => hj (by rw [hs.sel, h]))]
    exact hs.rec_

theorem getElem?_markManual (l : List (Rec δ)) (i j : Nat) :
    (markManual l i)[j]? = (l[j]?).map fun r => { r with manual := j == i } := by
  unfold markManual
  rw [List.getElem?_map, List.getElem?_zipIdx]
  cases l[j]? <;> simp

theorem step_good {c : Cfg} {choose : List (Rec δ) → Nat} (s : Eng δ) (t : Nat) (e : Ev δ)
    (s' : Eng δ) (hs : ∃ i r, Good s i r) (hc : Calm e) (h : step c choose s t e = some s') :
    ∃ i r, Good s' i r := by
  obtain ⟨i, q, hs⟩ := hs
  cases step_move h with
  | state j st rcs r s1 _ hr h1 h2 =>
    obtain ⟨q', hg⟩ := hs.status hr h1
    exact (evaluate_eval h2).good hc.1 hg
  | early => exact ⟨i, q, hs⟩
  | idle => exact ⟨i, q, ⟨hs.sel, hs.rec_, hs.ctl, hs.lrc, hs.told, hs.covers⟩⟩
  | fire rcs d k s1 b _ _ _ hq =>
    obtain ⟨r, hr, hsel⟩ := select_sel hq
    have := select_ok hq hc.1.1 hc.1.2
    subst this
    have hs1 : Good { s with timer := none } i q :=
      ⟨hs.sel, hs.rec_, hs.ctl, hs.lrc, hs.told, hs.covers⟩
    have hg := hsel.good hr hs1
    exact ⟨k, r, ⟨hg.sel, hg.rec_, hg.ctl, hg.lrc, hg.told, hg.covers⟩⟩
  | ignored => exact ⟨i, q, hs⟩
  | named j rcs _ b _ hq =>
    obtain ⟨r, hr, hsel⟩ := select_sel hq
    have := select_ok hq hc.1.1 hc.1.2
    subst this
    have hs1 : Good { s with recs := markManual s.recs j } i { q with manual := i == j } :=
      ⟨hs.sel, by
        show (markManual s.recs j)[i]? = _
        rw [getElem?_markManual, hs.rec_]
        rfl, hs.ctl, hs.lrc, hs.told, hs.covers⟩
    exact ⟨j, r, hsel.good hr hs1⟩
  | unseen => exact absurd hc.2 (by simp [Noticed])
  | plugged active j r l hj hr hl =>
    rw [hs.sel] at hj
    cases hj
    rw [hs.rec_] at hr
    cases hr
    exact ⟨i, q, ⟨hs.sel, hs.rec_, hs.ctl, rfl, hs.told, setServos_covers hl⟩⟩

theorem Live.good {c : Cfg} {choose : List (Rec δ) → Nat} {f : Found δ} {rcs : Rcs} {t : Nat}
    {evs : List (Nat × Ev δ)} {s : Eng δ} (h : Live c choose f rcs t evs s)
    (hc : ∀ p ∈ evs, Calm p.2) : ∃ i r, Good s i r := by
  obtain ⟨rc, s0, h0, hr⟩ := h
  obtain ⟨_, recs, i, r, _, _, hb, _, _⟩ := startup_some h0
  obtain ⟨d, hd, _⟩ := begin_some c t s0
  refine run_induct (P := fun s => ∃ i r, Good s i r) (Q := Calm)
    (fun s t e s' hs hq h => step_good s t e s' hs hq h) evs _ s ?_ hc hr
  rw [hd]
  exact ⟨i, r, ⟨hb.sel, hb.rec_, hb.ctl, hb.lrc, ⟨_, hb.told, Spec.SameGm.refl _⟩, hb.covers⟩⟩

/-- C90, full statement: after every history exactly one instance may steer
its clock, the selected one. -/
def C90_exactly_one_statement : Prop :=
  ∀ (c : Cfg) (choose : List (Rec Nat) → Nat) (f : Found Nat) (rcs : Rcs) (t : Nat)
    (evs : List (Nat × Ev Nat)) (s : Eng Nat), Spec.Valid choose → Live c choose f rcs t evs s →
    ∃ i, s.sel = some i ∧ ∀ j, s.ctl j = true ↔ j = i

/-- C90: as long as the calls to the instances succeed and changes of clocks
are noticed, exactly one instance may steer its clock, the selected one.
Missing from the full statement: failing calls, see `C90_violated`. -/
theorem C90_exactly_one_partial (c : Cfg) (choose : List (Rec δ) → Nat) (f : Found δ) (rcs : Rcs)
    (t : Nat) (evs : List (Nat × Ev δ)) (s : Eng δ) (h : Live c choose f rcs t evs s)
    (hc : ∀ p ∈ evs, Calm p.2) :
    ∃ i, s.sel = some i ∧ i < s.recs.length ∧ ∀ j, s.ctl j = true ↔ j = i := by
  obtain ⟨i, r, hg⟩ := h.good hc
  refine ⟨i, hg.sel, ?_, fun j => by rw [hg.ctl j]; exact decide_eq_true_iff⟩
  rcases Nat.lt_or_ge i s.recs.length with h | h
  · exact h
  · have := hg.rec_
    rw [List.getElem?_eq_none h] at this
    exact absurd this (by simp)

/-! ## C91: the servos -/

/-- C91: while the calls succeed and changes of clocks are noticed, the local
reference clock is the clock of the selected instance, and the servos slave
each other active clock that is to be disciplined to it, each by exactly one
servo. -/
theorem C91_servos (c : Cfg) (choose : List (Rec δ) → Nat) (f : Found δ) (rcs : Rcs)
    (t : Nat) (evs : List (Nat × Ev δ)) (s : Eng δ) (h : Live c choose f rcs t evs s)
    (hc : ∀ p ∈ evs, Calm p.2) :
    ∃ i r, s.sel = some i ∧ s.recs[i]? = some r ∧ s.lrc = some r.status.clock ∧
      Covers r.status.clock s.active s.servos := by
  obtain ⟨i, r, hg⟩ := h.good hc
  exact ⟨i, r, hg.sel, hg.rec_, hg.lrc, hg.covers⟩

/-! ## C92: the grandmaster announced -/

/-- C92, full statement: the grandmaster information last given to the modules
is that of the selected instance. -/
def C92_statement : Prop :=
  ∀ (c : Cfg) (choose : List (Rec Nat) → Nat) (f : Found Nat) (rcs : Rcs) (t : Nat)
    (evs : List (Nat × Ev Nat)) (s : Eng Nat), Spec.Valid choose → Live c choose f rcs t evs s →
    (∀ p ∈ evs, Calm p.2) →
    ∃ i r, s.sel = some i ∧ s.recs[i]? = some r ∧ s.told = some r.status.gm

/-- C92: the grandmaster information last given to the modules agrees with
that of the selected instance in identity, class, time source, accuracy,
variance and steps removed.  Missing from the full statement: whether the
clock is remote and whether its time and frequency are traceable, see
`C92_violated`. -/
theorem C92_gm_partial (c : Cfg) (choose : List (Rec δ) → Nat) (f : Found δ) (rcs : Rcs)
    (t : Nat) (evs : List (Nat × Ev δ)) (s : Eng δ) (h : Live c choose f rcs t evs s)
    (hc : ∀ p ∈ evs, Calm p.2) :
    ∃ i r g, s.sel = some i ∧ s.recs[i]? = some r ∧ s.told = some g ∧ SameGm g r.status.gm := by
  obtain ⟨i, r, hg⟩ := h.good hc
  obtain ⟨g, h1, h2⟩ := hg.told
  exact ⟨i, r, g, hg.sel, hg.rec_, h1, h2⟩

/-! ## Examples and counterexamples for C90-C92 -/

def auto0 : Cfg := ⟨0, .automatic⟩
def auto10 : Cfg := ⟨10, .automatic⟩
def startup0 : Cfg := ⟨0, .manualStartup⟩
def startup10 : Cfg := ⟨10, .manualStartup⟩
def manual10 : Cfg := ⟨10, .manual⟩

/-- `lowest` on unmarked records and in general names a record. -/
theorem lowest_valid : Spec.Valid lowest := by
  have fold : ∀ (l : List (Rec Nat)) (k n : Nat) (b : Nat × Option Nat), k + l.length = n →
      (b.1 < n ∨ b.2 = none) → 0 < n →
      ((l.zipIdx k).foldl (fun (b : Nat × Option Nat) p =>
        match b.2 with
        | none => (p.2, some p.1.status.data)
        | some d => if p.1.status.data < d then (p.2, some p.1.status.data) else b) b).1 < n ∨
      l = [] := by
    intro l
    induction l with
    | nil => intro k n b h hb _; exact Or.inr rfl
    | cons r t ih =>
      intro k n b h hb h0
      refine Or.inl ?_
      rw [List.zipIdx_cons, List.foldl_cons]
      simp only [List.length_cons] at h
      generalize hq : (match b.2 with
        | none => (k, some r.status.data)
        | some d => if r.status.data < d then (k, some r.status.data) else b) = q
      have hq1 : q.1 < n := by
        subst hq
        split
        · show k < n; omega
        · next d hd =>
          split
          · show k < n; omega
          · rcases hb with h | h
            · exact h
            · rw [h] at hd; exact absurd hd (by simp)
      rcases ih (k + 1) n q (by omega) (Or.inl hq1) h0 with h | h
      · exact h
      · subst h; exact hq1
  intro l hl
  unfold lowest
  cases hf : l.findIdx? (fun r => r.manual) with
  | some i => exact (List.findIdx?_eq_some_iff_findIdx_eq.1 hf).1
  | none =>
    have : 0 < l.length := List.length_pos_iff.2 hl
    rcases fold l 0 l.length (0, none) (by omega) (Or.inr rfl) this with h | h
    · exact h
    · exact absurd h hl

-- C90: the second instance becomes better and takes over
example : ∃ s, Live auto0 lowest (two 1 2 none) yes 0 [(5, .state 1 ⟨2, gmB, 0⟩ yes)] s ∧
    s.sel = some 1 ∧ s.ctl 0 = false ∧ s.ctl 1 = true :=
  ⟨_, ⟨_, _, rfl, rfl⟩, rfl, rfl, rfl⟩

example : ∀ p ∈ [((5 : Nat), (Ev.state 1 ⟨2, gmB, 0⟩ yes : Ev Nat))], Calm p.2 := by
  intro p hp
  rw [List.mem_singleton] at hp
  subst hp
  exact ⟨⟨rfl, rfl⟩, trivial⟩

/-- C90 does not hold: when the call that tells the new instance fails, the new
instance is recorded as selected without being able to steer, and nobody
steers. -/
theorem C90_violated : ¬ C90_exactly_one_statement := by
  intro h
  obtain ⟨i, h1, h2⟩ := h auto0 lowest (two 1 2 none) yes 0
    [(5, .state 1 ⟨2, gmB, 0⟩ ⟨true, false⟩)] _ lowest_valid ⟨_, _, rfl, rfl⟩
  have := (h2 1).2 (by
    have : (some 1 : Option Nat) = some i := h1
    exact Option.some.inj this)
  exact absurd this (by decide)

-- nor is the call repeated: the next report finds nothing to do
example : ∃ s, Live auto0 lowest (two 1 2 none) yes 0
    [(5, .state 1 ⟨2, gmB, 0⟩ ⟨true, false⟩), (6, .state 1 ⟨2, gmB, 0⟩ yes)] s ∧
    s.sel = some 1 ∧ s.ctl 0 = false ∧ s.ctl 1 = false :=
  ⟨_, ⟨_, _, rfl, rfl⟩, rfl, rfl, rfl⟩

-- C91: servos for the system clock and clock 1, slaved to clock 2
example : ∃ s, Live auto0 lowest (two 1 2 none) yes 0 [(5, .state 1 ⟨2, gmB, 0⟩ yes)] s ∧
    s.lrc = some 2 ∧ s.servos = [(2, 0), (2, 1)] :=
  ⟨_, ⟨_, _, rfl, rfl⟩, rfl, rfl⟩

-- C91: a clock is plugged in
example : ∃ s, Live auto0 lowest (two 1 2 none) yes 0
    [(5, .hotplug [⟨0, true⟩, ⟨1, true⟩, ⟨2, true⟩, ⟨9, true⟩] true)] s ∧
    s.lrc = some 1 ∧ s.servos = [(1, 0), (1, 2), (1, 9)] :=
  ⟨_, ⟨_, _, rfl, rfl⟩, rfl, rfl⟩

/-- C92 does not hold: that the time is no longer traceable is not passed
on. -/
theorem C92_violated : ¬ C92_statement := by
  intro h
  obtain ⟨i, r, h1, h2, h3⟩ := h auto0 lowest (two 1 2 none) yes 0
    [(5, .state 0 ⟨1, { gmA with timeTr := false, freqTr := false }, 1⟩ yes)] _ lowest_valid
    ⟨_, _, rfl, rfl⟩ (by
      intro p hp
      rw [List.mem_singleton] at hp
      subst hp
      exact ⟨⟨rfl, rfl⟩, trivial⟩)
  have hi : i = 0 := by
    have : (some 0 : Option Nat) = some i := h1
    exact (Option.some.inj this).symm
  subst hi
  have hr : some (⟨⟨1, { gmA with timeTr := false, freqTr := false }, 1⟩, false⟩ : Rec Nat)
      = some r := h2
  cases hr
  have : (some gmA : Option Gm) = some { gmA with timeTr := false, freqTr := false } := h3
  exact absurd this (by decide)

-- C92: a change of class is passed on
example : ∃ s, Live auto0 lowest (two 1 2 none) yes 0
    [(5, .state 0 ⟨1, { gmA with cls := 7 }, 1⟩ yes)] s ∧ s.told = some { gmA with cls := 7 } :=
  ⟨_, ⟨_, _, rfl, rfl⟩, rfl⟩

/-! ## C91: enough servos -/

/-- What keeps the engine from failing an assertion. -/
structure Sound (n total : Nat) (s : Eng δ) : Prop where
  len : s.recs.length = n
  sel : ∃ i, s.sel = some i ∧ i < n
  cand : ∀ k, s.cand = some k → k < n
  tot : s.total = total
  fits : wanted s.active ≤ total

theorem Sel.sound {s s' : Eng δ} {new r b n total} (h : Sel s new r s' b) (hn : new < n)
    (hs : Sound n total s) : Sound n total s' := by
  obtain ⟨h1, h2, h3, h4, h5⟩ := h.frame
  refine ⟨by rw [h1]; exact hs.len, ?_, by rw [h2]; exact hs.cand, by rw [h5]; exact hs.tot,
    by rw [h4]; exact hs.fits⟩
  rcases h.sel_or with h | h
  · exact ⟨new, h, hn⟩
  · rw [h]; exact hs.sel

theorem step_sound {c : Cfg} {choose : List (Rec δ) → Nat} (hv : Spec.Valid choose) {n total : Nat}
    (s : Eng δ) (t : Nat) (e : Ev δ) (hs : Sound n total s) (hn : Names n e) (hf : Fits total e) :
    ∃ s', step c choose s t e = some s' ∧ Sound n total s' := by
  obtain ⟨i, hi, hlt⟩ := hs.sel
  have hw : wanted s.active ≤ s.total := by rw [hs.tot]; exact hs.fits
  suffices h : ∃ s', step c choose s t e = some s' by
    obtain ⟨s', h⟩ := h
    refine ⟨s', h, ?_⟩
    cases step_move h with
    | state j st rcs r s1 _ hr h1 h2 =>
      have hs1 : Sound n total { s1 with recs := s1.recs.set j { r with status := st } } := by
        rcases h1 with ⟨_, h1⟩ | ⟨_, rfl⟩
        · obtain ⟨g, l, v, rfl, _, _⟩ := refresh_some h1
          exact ⟨by simpa using hs.len, hs.sel, hs.cand, hs.tot, hs.fits⟩
        · exact ⟨by simpa using hs.len, hs.sel, hs.cand, hs.tot, hs.fits⟩
      generalize { s1 with recs := s1.recs.set j { r with status := st } } = s2 at h2 hs1
      have hch : choose s2.recs < n := by
        rw [← hs1.len]
        exact hv _ (fun h0 => by
          have := hs1.len
          rw [h0] at this
          simp only [List.length_nil] at this
          omega)
      cases evaluate_eval h2 with
      | rest => exact hs1
      | wait => exact hs1
      | now _ _ _ q b _ _ h _ => exact h.sound hch hs1
      | arm =>
        exact ⟨hs1.len, hs1.sel, fun k hk => by cases hk; exact hch, hs1.tot, hs1.fits⟩
      | swap =>
        exact ⟨hs1.len, hs1.sel, fun k hk => by cases hk; exact hch, hs1.tot, hs1.fits⟩
    | early => exact hs
    | idle => exact ⟨hs.len, hs.sel, hs.cand, hs.tot, hs.fits⟩
    | fire rcs d k s1 b _ _ hk hq =>
      obtain ⟨r, _, hsel⟩ := select_sel hq
      have h0 : Sound n total { s with timer := none } :=
        ⟨hs.len, hs.sel, hs.cand, hs.tot, hs.fits⟩
      have h1 := hsel.sound (hs.cand k hk) h0
      exact ⟨h1.len, h1.sel, (fun k hk => by cases hk), h1.tot, h1.fits⟩
    | ignored => exact hs
    | named j rcs _ b _ hq =>
      obtain ⟨r, _, hsel⟩ := select_sel hq
      have h0 : Sound n total { s with recs := markManual s.recs j } :=
        ⟨by simpa [markManual] using hs.len, hs.sel, hs.cand, hs.tot, hs.fits⟩
      exact hsel.sound hn h0
    | unseen => exact ⟨hs.len, hs.sel, hs.cand, hs.tot, hf⟩
    | plugged => exact ⟨hs.len, hs.sel, hs.cand, hs.tot, hf⟩
  cases e with
  | state j st rcs =>
    have hj : j < s.recs.length := by rw [hs.len]; exact hn
    unfold step stateChanged
    simp only
    rw [List.getElem?_eq_getElem hj]
    simp only
    obtain ⟨s1, h1, h1w, h1l⟩ : ∃ s1, (if s.sel = some j then refresh s s.recs[j].status st
        else some s) = some s1 ∧ wanted s1.active ≤ s1.total ∧ s1.recs.length = n := by
      by_cases h : s.sel = some j
      · rw [if_pos h]
        obtain ⟨s1, h1⟩ := refresh_total (s := s) s.recs[j].status st hw
        refine ⟨s1, h1, ?_⟩
        obtain ⟨g, l, v, rfl, _, _⟩ := refresh_some h1
        exact ⟨hw, hs.len⟩
      · rw [if_neg h]; exact ⟨s, rfl, hw, hs.len⟩
    rw [h1]
    simp only
    have hlen : (s1.recs.set j { s.recs[j] with status := st }).length = n := by simpa using h1l
    have hch : choose (s1.recs.set j { s.recs[j] with status := st }) < n := by
      rw [← hlen]
      exact hv _ (fun h0 => by
        rw [h0] at hlen
        simp only [List.length_nil] at hlen
        omega)
    unfold evaluate
    simp only
    split
    · exact ⟨_, rfl⟩
    · split
      · exact ⟨_, rfl⟩
      · split
        · obtain ⟨s', b, h⟩ := select_total
            (s := { s1 with recs := s1.recs.set j { s.recs[j] with status := st } }) rcs
            (by rw [hlen]; exact hch) h1w
          rw [h]
          exact ⟨_, rfl⟩
        · split <;> exact ⟨_, rfl⟩
  | expire rcs =>
    unfold step
    simp only
    split
    · split
      · unfold holdoffExpired
        split
        · exact ⟨_, rfl⟩
        · next k hk =>
          obtain ⟨s', b, h⟩ := select_total (s := { s with timer := none }) rcs
            (by show k < s.recs.length; rw [hs.len]; exact hs.cand k hk) hw
          rw [h]
          exact ⟨_, rfl⟩
      · exact ⟨_, rfl⟩
    · exact ⟨_, rfl⟩
  | select name rcs =>
    unfold step selectInstance
    simp only
    split
    · cases name with
      | none => exact ⟨_, rfl⟩
      | some j =>
        simp only
        obtain ⟨s', b, h⟩ := select_total (s := { s with recs := markManual s.recs j }) (new := j) rcs
          (by show j < (markManual s.recs j).length
              simp only [markManual, List.length_map, List.length_zipIdx]
              rw [hs.len]; exact hn) hw
        rw [h]
        exact ⟨_, rfl⟩
    · exact ⟨_, rfl⟩
  | hotplug active reconf =>
    unfold step hotplug
    simp only
    cases reconf with
    | false => exact ⟨_, rfl⟩
    | true =>
      simp only [if_true]
      split
      · next h => rw [hi] at h; exact absurd h (by simp)
      · next i' hi' =>
        rw [hi] at hi'
        cases hi'
        rw [List.getElem?_eq_getElem (by rw [hs.len]; exact hlt)]
        exact reconfigure_total (s := { s with active := active }) _
          (by show wanted active ≤ s.total; rw [hs.tot]; exact hf)

/-- C91, full statement: with the servos that are created at the start, one for
each clock and sixteen more, no event makes the engine fail an assertion. -/
def C91_enough_statement : Prop :=
  ∀ (c : Cfg) (choose : List (Rec Nat) → Nat) (f : Found Nat) (rcs : Rcs) (rc : Nat)
    (s0 : Eng Nat) (t : Nat) (evs : List (Nat × Ev Nat)), Spec.Valid choose →
    f.total = f.active.length + 16 → startup c choose f rcs = some ⟨rc, some s0⟩ →
    (∀ p ∈ evs, Names f.recs.length p.2) → ∃ s, run c choose (begin_ c t s0) evs = some s

/-- C91: no event makes the engine fail an assertion as long as there are never
more clocks to be disciplined than servos created at the start.  Missing from
the full statement: more clocks, see `C91_enough_violated`. -/
theorem C91_enough_partial (c : Cfg) (choose : List (Rec δ) → Nat) (f : Found δ) (rcs : Rcs)
    (rc : Nat) (s0 : Eng δ) (t : Nat) (evs : List (Nat × Ev δ)) (hv : Spec.Valid choose)
    (hf : wanted f.active ≤ f.total) (h0 : startup c choose f rcs = some ⟨rc, some s0⟩)
    (hn : ∀ p ∈ evs, Names f.recs.length p.2) (hfit : ∀ p ∈ evs, Fits f.total p.2) :
    ∃ s, run c choose (begin_ c t s0) evs = some s := by
  obtain ⟨_, recs, i, r, hne, _, hb, _, hcase⟩ := startup_some h0
  obtain ⟨d, hd, _⟩ := begin_some c t s0
  have hlt : i < f.recs.length := by
    rw [← hb.len]
    rcases Nat.lt_or_ge i s0.recs.length with h | h
    · exact h
    · have := hb.rec_
      rw [List.getElem?_eq_none h] at this
      exact absurd this (by simp)
  have hs : Sound f.recs.length f.total (begin_ c t s0) := by
    rw [hd]
    refine ⟨hb.len, ⟨i, hb.sel, hlt⟩, ?_, hb.total, by show wanted s0.active ≤ _; rw [hb.active]; exact hf⟩
    intro k hk
    have hk : s0.cand = some k := hk
    rcases hcase with ⟨_, _, _, h⟩ | ⟨_, _, _, h⟩ | ⟨_, _, hr, ⟨_, h⟩ | ⟨_, h⟩⟩
    · rw [h] at hk; cases hk
    · rw [h] at hk; cases hk
    · rw [h] at hk; cases hk
    · rw [h] at hk
      cases hk
      rw [← hb.len, hr]
      exact hv _ hne
  generalize begin_ c t s0 = s1 at hs
  clear hcase hb h0 hd
  induction evs generalizing s1 with
  | nil => exact ⟨s1, rfl⟩
  | cons p l ih =>
    obtain ⟨u, e⟩ := p
    obtain ⟨s2, h2, hs2⟩ := step_sound (c := c) hv s1 u e hs (hn _ (List.mem_cons_self ..))
      (hfit _ (List.mem_cons_self ..))
    obtain ⟨s, h⟩ := ih (fun p hp => hn p (List.mem_cons_of_mem _ hp))
      (fun p hp => hfit p (List.mem_cons_of_mem _ hp)) s2 hs2
    refine ⟨s, ?_⟩
    unfold run
    rw [h2]
    exact h

/-- C91 does not hold: with one clock at the start, plugging in eighteen more
makes the engine fail an assertion. -/
theorem C91_enough_violated : ¬ C91_enough_statement := by
  intro h
  obtain ⟨s, hs⟩ := h auto0 lowest ⟨[some ⟨0, gmA, 1⟩], [⟨0, true⟩], 17, none⟩ yes 0 _ 0
    [(5, .hotplug ((List.range 19).map fun k => ⟨k, true⟩) true)] lowest_valid rfl rfl
    (by
      intro p hp
      rw [List.mem_singleton] at hp
      subst hp
      trivial)
  have : (none : Option (Eng Nat)) = some s := hs
  exact absurd this (by simp)

-- sixteen more are fine
example : ∃ rc s0 s, startup auto0 lowest ⟨[some ⟨0, gmA, 1⟩], [⟨0, true⟩], 17, none⟩ yes
      = some ⟨rc, some s0⟩ ∧
    run auto0 lowest (begin_ auto0 0 s0)
      [(5, .hotplug ((List.range 17).map fun k => ⟨k, true⟩) true)] = some s ∧
    s.servos.length = 16 :=
  ⟨_, _, _, rfl, rfl, rfl⟩

/-! ## C93: the holdoff interval -/

/-- A started engine watched by the observer, at time `t`. -/
inductive Watch (c : Cfg) (choose : List (Rec δ) → Nat) : Nat → Mon → Eng δ → Prop
  | start (f : Found δ) (rcs : Rcs) (rc : Nat) (s0 : Eng δ) (t : Nat)
      (h : startup c choose f rcs = some ⟨rc, some s0⟩) :
      Watch c choose t (Mon.start choose t (begin_ c t s0)) (begin_ c t s0)
  | next (t : Nat) (m : Mon) (s : Eng δ) (t' : Nat) (e : Ev δ) (s' : Eng δ)
      (hw : Watch c choose t m s) (ht : t ≤ t') (h : step c choose s t' e = some s') :
      Watch c choose t' (m.next choose t' s s') s'

/-- C93, full statement: the engine leaves an instance of its own accord only
when that instance has not been the elected one for the holdoff interval. -/
def C93_statement : Prop :=
  ∀ (c : Cfg) (choose : List (Rec Nat) → Nat) (t : Nat) (m : Mon) (s : Eng Nat) (t' : Nat)
    (e : Ev Nat) (s' : Eng Nat), Spec.Valid choose → c.strategy ≠ .manual → 0 < c.holdoff →
    Watch c choose t m s → t ≤ t' → step c choose s t' e = some s' → s'.sel ≠ s.sel →
    ∃ u, m.since = some u ∧ u + c.holdoff ≤ t'

/-- What relates the timer to the observer. -/
structure Timed (c : Cfg) (choose : List (Rec δ) → Nat) (t : Nat) (m : Mon) (s : Eng δ) : Prop where
  best : m.since = none ↔ Best choose s
  past : ∀ u, m.since = some u → u ≤ t
  rpast : ∀ u, m.recovered = some u → u ≤ t
  cand : ∀ k, s.cand = some k → k = choose s.recs ∧ ∃ d, s.timer = some d ∧
    (∀ u, m.recovered = some u → u + c.holdoff ≤ d) ∧
    (m.recovered = none → ∃ u, m.since = some u ∧ u + c.holdoff ≤ d)

theorem Timed.start {c : Cfg} {choose : List (Rec δ) → Nat} (hm : c.strategy ≠ .manual)
    (hh : 0 < c.holdoff) {f : Found δ} {rcs : Rcs} {rc : Nat} {s0 : Eng δ} (t : Nat)
    (h : startup c choose f rcs = some ⟨rc, some s0⟩) :
    Timed c choose t (Mon.start choose t (begin_ c t s0)) (begin_ c t s0) := by
  obtain ⟨_, recs, i, r, hne, _, hb, htm, hcase⟩ := startup_some h
  obtain ⟨d, hd, _, hd1, _⟩ := begin_some c t s0
  rw [hd]
  have hbest : (Mon.start choose t { s0 with timer := d }).since = none ↔
      Best choose { s0 with timer := d } := by
    unfold Mon.start
    by_cases hb : Best choose { s0 with timer := d }
    · simp [hb]
    · simp [hb]
  refine ⟨hbest, ?_, (fun u hu => by cases hu), ?_⟩
  · intro u hu
    unfold Mon.start at hu
    simp only at hu
    split at hu
    · cases hu
    · cases hu; exact Nat.le_refl _
  · intro k hk
    have hk : s0.cand = some k := hk
    rcases hcase with ⟨_, _, _, h⟩ | ⟨h, _⟩ | ⟨hst, _, hr, ⟨_, h⟩ | ⟨hn, h⟩⟩
    · rw [h] at hk; cases hk
    · exact absurd h hm
    · rw [h] at hk; cases hk
    · rw [h] at hk
      cases hk
      have hd2 := hd1 (by omega) hst (by
          rw [h, hb.sel]
          intro h
          exact hn (Option.some.inj h))
      refine ⟨by show _ = choose s0.recs; rw [hr], t + c.holdoff, hd2, ?_, ?_⟩
      · intro u hu; cases hu
      · intro _
        have hnb : ¬ Best choose { s0 with timer := d } := by
          intro hB
          have hB : s0.sel = some (choose s0.recs) := hB
          rw [hb.sel, hr] at hB
          exact hn (Option.some.inj hB).symm
        exact ⟨t, by unfold Mon.start; rw [if_neg hnb], Nat.le_refl _⟩

theorem Mon.next_best {choose : List (Rec δ) → Nat} (m : Mon) (t : Nat) (s s' : Eng δ) :
    (m.next choose t s s').since = none ↔ Best choose s' := by
  unfold Mon.next Mon.start
  by_cases h : s'.sel = s.sel
  · rw [if_pos h]
    by_cases hb : Best choose s'
    · rw [if_pos hb]
      cases hm : m.since with
      | none => simp [hm, hb]
      | some u => simp [hb]
    · rw [if_neg hb]
      cases hm : m.since with
      | none => simp [hb]
      | some u => simp [hm, hb]
  · rw [if_neg h]
    by_cases hb : Best choose s' <;> simp [hb]

theorem Mon.next_times {choose : List (Rec δ) → Nat} (m : Mon) (t t' : Nat) (s s' : Eng δ)
    (ht : t ≤ t') (h1 : ∀ u, m.since = some u → u ≤ t) (h2 : ∀ u, m.recovered = some u → u ≤ t) :
    (∀ u, (m.next choose t' s s').since = some u → u ≤ t') ∧
    (∀ u, (m.next choose t' s s').recovered = some u → u ≤ t') := by
  have h1' : ∀ u, m.since = some u → u ≤ t' := fun u hu => Nat.le_trans (h1 u hu) ht
  have h2' : ∀ u, m.recovered = some u → u ≤ t' := fun u hu => Nat.le_trans (h2 u hu) ht
  unfold Mon.next Mon.start
  by_cases h : s'.sel = s.sel
  · rw [if_pos h]
    by_cases hb : Best choose s'
    · rw [if_pos hb]
      cases hm : m.since with
      | none => exact ⟨h1', h2'⟩
      | some v => exact ⟨(fun u hu => by cases hu), fun u hu => by cases hu; exact Nat.le_refl _⟩
    · rw [if_neg hb]
      cases hm : m.since with
      | none => exact ⟨(fun u hu => by cases hu; exact Nat.le_refl _), h2'⟩
      | some v => exact ⟨h1', h2'⟩
  · rw [if_neg h]
    refine ⟨fun u hu => ?_, (fun u hu => by cases hu)⟩
    simp only at hu
    split at hu
    · cases hu
    · cases hu; exact Nat.le_refl _

theorem Mon.next_keep {choose : List (Rec δ) → Nat} (m : Mon) (t : Nat) (s s' : Eng δ)
    (hb : m.since = none ↔ Best choose s) (hs : s'.sel = s.sel)
    (hB : Best choose s' ↔ Best choose s) : m.next choose t s s' = m := by
  unfold Mon.next
  rw [if_pos hs]
  by_cases h : Best choose s'
  · rw [if_pos h, hb.2 (hB.1 h)]
  · rw [if_neg h]
    cases hm : m.since with
    | none => exact absurd (hB.2 (hb.1 hm)) h
    | some v => rfl

theorem Timed.step {c : Cfg} {choose : List (Rec δ) → Nat} (hm : c.strategy ≠ .manual)
    (hh : 0 < c.holdoff) {t t' : Nat} {m : Mon} {s s' : Eng δ} {e : Ev δ}
    (hi : Timed c choose t m s) (ht : t ≤ t') (h : step c choose s t' e = some s') :
    Timed c choose t' (m.next choose t' s s') s' := by
  obtain ⟨hp1, hp2⟩ := Mon.next_times (choose := choose) m t t' s s' ht hi.past hi.rpast
  refine ⟨Mon.next_best m t' s s', hp1, hp2, ?_⟩
  have same : ∀ s' : Eng δ, s'.sel = s.sel → s'.recs = s.recs → s'.cand = s.cand →
      s'.timer = s.timer → ∀ k, s'.cand = some k → k = choose s'.recs ∧ ∃ d, s'.timer = some d ∧
        (∀ u, (m.next choose t' s s').recovered = some u → u + c.holdoff ≤ d) ∧
        ((m.next choose t' s s').recovered = none →
          ∃ u, (m.next choose t' s s').since = some u ∧ u + c.holdoff ≤ d) := by
    intro s' h1 h2 h3 h4
    rw [Mon.next_keep m t' s s' hi.best h1 (by unfold Best; rw [h1, h2]), h2, h3, h4]
    exact hi.cand
  cases step_move h with
  | state j st rcs r s1 _ hr h1 h2 =>
    have hf : s1.sel = s.sel ∧ s1.cand = s.cand ∧ s1.timer = s.timer := by
      rcases h1 with ⟨_, h1⟩ | ⟨_, rfl⟩
      · obtain ⟨g, l, v, rfl, _, _⟩ := refresh_some h1
        exact ⟨rfl, rfl, rfl⟩
      · exact ⟨rfl, rfl, rfl⟩
    obtain ⟨s2, hs2⟩ : ∃ s2, { s1 with recs := s1.recs.set j { r with status := st } } = s2 :=
      ⟨_, rfl⟩
    rw [hs2] at h2
    have hf2 : s2.sel = s.sel ∧ s2.cand = s.cand ∧ s2.timer = s.timer := by
      rw [← hs2]; exact hf
    obtain ⟨f1, f2, f3⟩ := hf2
    clear hs2 hf h1
    cases evaluate_eval h2 with
    | rest _ hn => intro k hk; rw [hn] at hk; cases hk
    | wait hw =>
      intro k hk
      rw [hw] at hk
      cases hk
      have hk : s.cand = some (choose s'.recs) := by rw [← f2, hw]
      obtain ⟨he, d, hd, h5, h6⟩ := hi.cand _ hk
      rw [Mon.next_keep m t' s s' hi.best f1 (by unfold Best; rw [f1, he])]
      exact ⟨rfl, d, by rw [f3, hd], h5, h6⟩
    | now h0 => omega
    | arm h0 hc hs hor =>
      intro k hk
      cases hk
      refine ⟨rfl, t' + c.holdoff, rfl, fun u hu => Nat.add_le_add_right (hp2 u hu) _, ?_⟩
      intro hrec
      cases hsi : (m.next choose t' s
          { s2 with timer := some (t' + c.holdoff), cand := some (choose s2.recs) }).since with
      | some u => exact ⟨u, rfl, Nat.add_le_add_right (hp1 u hsi) _⟩
      | none =>
        exfalso
        have hB := (Mon.next_best m t' s _).1 hsi
        have hB' : s2.sel = some (choose s2.recs) := hB
        have hcn : s2.cand ≠ none := fun h => hs ⟨hB', h⟩
        obtain ⟨k, hk⟩ := Option.ne_none_iff_exists'.1 hcn
        obtain ⟨he, _⟩ := hi.cand k (by rw [← f2, hk])
        have hnb : ¬ Best choose s := by
          intro hb
          have hb : s.sel = some (choose s.recs) := hb
          rw [← f1, hB', ← he] at hb
          exact hc (by rw [hk, hb])
        cases hms : m.since with
        | none => exact hnb (hi.best.1 hms)
        | some v =>
          unfold Mon.next at hrec
          rw [if_pos (by exact f1), if_pos hB, hms] at hrec
          exact absurd hrec (by simp)
    | swap h0 hc hcn hns =>
      intro k hk
      cases hk
      obtain ⟨k, hk⟩ := Option.ne_none_iff_exists'.1 hcn
      obtain ⟨he, d, hd, h5, h6⟩ := hi.cand k (by rw [← f2, hk])
      refine ⟨rfl, d, by rw [← hd]; exact f3, ?_⟩
      have hnb : ¬ Best choose { s2 with cand := some (choose s2.recs) } := hns
      unfold Mon.next
      rw [if_pos (by exact f1), if_neg hnb]
      cases hms : m.since with
      | none =>
        refine ⟨h5, fun hn => ?_⟩
        obtain ⟨u, hu, _⟩ := h6 hn
        rw [hms] at hu
        cases hu
      | some v =>
        simp only
        rw [hms] at h6
        exact ⟨h5, fun hn => by rw [hms]; exact h6 hn⟩
  | early => exact same _ rfl rfl rfl rfl
  | idle rcs d _ _ hc => intro k hk; have hk : s.cand = some k := hk; rw [hc] at hk; cases hk
  | fire => intro k hk; cases hk
  | ignored => exact same _ rfl rfl rfl rfl
  | named _ _ _ _ hst => exact absurd hst hm
  | unseen => exact same _ rfl rfl rfl rfl
  | plugged => exact same _ rfl rfl rfl rfl

theorem Watch.timed {c : Cfg} {choose : List (Rec δ) → Nat} (hm : c.strategy ≠ .manual)
    (hh : 0 < c.holdoff) {t : Nat} {m : Mon} {s : Eng δ} (h : Watch c choose t m s) :
    Timed c choose t m s := by
  induction h with
  | start f rcs rc s0 t h => exact Timed.start hm hh t h
  | next t m s t' e s' hw ht h ih => exact ih.step hm hh ht h

/-- C93: with a holdoff interval the engine leaves an instance of its own
accord only at the expiry of the timer, when that instance is not the elected
one, and to the elected one.  The holdoff interval has then passed since it
last became the elected one again and, if it never did since it was selected,
since it ceased to be the elected one.  Missing from the full statement: that
the holdoff interval has passed since it last ceased to be the elected one,
see `C93_violated`. -/
theorem C93_holdoff_partial (c : Cfg) (choose : List (Rec δ) → Nat) (t : Nat) (m : Mon) (s : Eng δ)
    (t' : Nat) (e : Ev δ) (s' : Eng δ) (hm : c.strategy ≠ .manual) (hh : 0 < c.holdoff)
    (hw : Watch c choose t m s) (ht : t ≤ t') (h : step c choose s t' e = some s')
    (hne : s'.sel ≠ s.sel) :
    (∃ rcs, e = .expire rcs) ∧ s'.sel = some (choose s.recs) ∧ (∃ u, m.since = some u) ∧
      (∀ u, m.recovered = some u → u + c.holdoff ≤ t') ∧
      (m.recovered = none → ∃ u, m.since = some u ∧ u + c.holdoff ≤ t') := by
  have hi := hw.timed hm hh
  cases step_move h with
  | state j st rcs r s1 _ hr h1 h2 =>
    exfalso
    have hf : s1.sel = s.sel := by
      rcases h1 with ⟨_, h1⟩ | ⟨_, rfl⟩
      · obtain ⟨g, l, v, rfl, _, _⟩ := refresh_some h1
        rfl
      · rfl
    cases evaluate_eval h2 with
    | rest => exact hne hf
    | wait => exact hne hf
    | now h0 => omega
    | arm => exact hne hf
    | swap => exact hne hf
  | early => exact absurd rfl hne
  | idle => exact absurd rfl hne
  | fire rcs d k s1 b hd hle hk hq =>
    obtain ⟨r, _, hsel⟩ := select_sel hq
    obtain ⟨he, d', hd', h5, h6⟩ := hi.cand k hk
    rw [hd] at hd'
    cases hd'
    have hs1 : s1.sel = some k := by
      rcases hsel.sel_or with h | h
      · exact h
      · exact absurd h hne
    refine ⟨⟨rcs, rfl⟩, by rw [← he]; exact hs1, ?_, fun u hu => Nat.le_trans (h5 u hu) hle, ?_⟩
    · cases hms : m.since with
      | some u => exact ⟨u, rfl⟩
      | none =>
        exfalso
        have hb : s.sel = some (choose s.recs) := hi.best.1 hms
        exact hne (by rw [hb, ← he]; exact hs1)
    · intro hn
      obtain ⟨u, hu, hle'⟩ := h6 hn
      exact ⟨u, hu, Nat.le_trans hle' hle⟩
  | ignored => exact absurd rfl hne
  | named _ _ _ _ hst => exact absurd hst hm
  | unseen => exact absurd rfl hne
  | plugged => exact absurd rfl hne

/-- The observer of the counterexample. -/
theorem C93_violated : ¬ C93_statement := by
  intro h
  -- the first instance is selected; at 20 the second overtakes it, at 21 the
  -- first recovers, at 30 the second overtakes it again, at 31 it is selected
  obtain ⟨u, hu, hle⟩ := h auto10 lowest 30 _ _ 31 (.expire yes) _ lowest_valid (by decide) (by decide)
    (.next 21 _ _ 30 (.state 1 ⟨2, gmB, 0⟩ yes) _
      (.next 20 _ _ 21 (.state 1 ⟨2, gmB, 2⟩ yes) _
        (.next 0 _ _ 20 (.state 1 ⟨2, gmB, 0⟩ yes) _
          (.start (two 1 2 none) yes 0 _ 0 rfl) (by decide) rfl) (by decide) rfl) (by decide) rfl)
    (by decide) rfl (by decide)
  have : (some 30 : Option Nat) = some u := hu
  have hu' := Option.some.inj this
  subst hu'
  exact absurd hle (by decide)

-- C93: an ordinary switch, after the full interval
example : ∃ m s s', Watch auto10 lowest 20 m s ∧ step auto10 lowest s 30 (.expire yes) = some s' ∧
    s.sel = some 0 ∧ s'.sel = some 1 ∧ m.since = some 20 ∧ m.recovered = none :=
  ⟨_, _, _, .next 0 _ _ 20 (.state 1 ⟨2, gmB, 0⟩ yes) _
    (.start (two 1 2 none) yes 0 _ 0 rfl) (by decide) rfl, rfl, rfl, rfl, rfl, rfl⟩

/-! ## C94: the best instance gets selected -/

/-- C94, full statement: unless the operator decides, the elected instance is
the selected one or the holdoff timer is running. -/
def C94_statement : Prop :=
  ∀ (c : Cfg) (choose : List (Rec Nat) → Nat) (f : Found Nat) (rcs : Rcs) (t : Nat)
    (evs : List (Nat × Ev Nat)) (s : Eng Nat), Spec.Valid choose → c.strategy ≠ .manual →
    Live c choose f rcs t evs s → (∀ p ∈ evs, Succeeds p.2) → s.timer = none → Best choose s

/-- Nothing is pending and the elected instance selected, or it is the
candidate and the timer runs. -/
def Conv (choose : List (Rec δ) → Nat) (s : Eng δ) : Prop :=
  (s.cand = none ∧ s.sel = some (choose s.recs)) ∨
  (s.cand = some (choose s.recs) ∧ ∃ d, s.timer = some d)

theorem step_conv {c : Cfg} {choose : List (Rec δ) → Nat} (hm : c.strategy ≠ .manual)
    (hh : 0 < c.holdoff ∨ c.strategy = .automatic) (s : Eng δ) (t : Nat) (e : Ev δ) (s' : Eng δ)
    (hs : Conv choose s ∧ (c.holdoff = 0 → s.cand = none)) (hc : Succeeds e)
    (h : step c choose s t e = some s') :
    Conv choose s' ∧ (c.holdoff = 0 → s'.cand = none) := by
  obtain ⟨hs, h0⟩ := hs
  cases step_move h with
  | state j st rcs r s1 _ hr h1 h2 =>
    have hf : s1.sel = s.sel ∧ s1.cand = s.cand ∧ s1.timer = s.timer := by
      rcases h1 with ⟨_, h1⟩ | ⟨_, rfl⟩
      · obtain ⟨g, l, v, rfl, _, _⟩ := refresh_some h1
        exact ⟨rfl, rfl, rfl⟩
      · exact ⟨rfl, rfl, rfl⟩
    obtain ⟨s2, hs2⟩ : ∃ s2, { s1 with recs := s1.recs.set j { r with status := st } } = s2 :=
      ⟨_, rfl⟩
    rw [hs2] at h2
    have hf2 : s2.sel = s.sel ∧ s2.cand = s.cand ∧ s2.timer = s.timer := by
      rw [← hs2]; exact hf
    obtain ⟨f1, f2, f3⟩ := hf2
    clear hs2 hf h1
    cases evaluate_eval h2 with
    | rest hn1 hn2 => exact ⟨Or.inl ⟨hn2, hn1⟩, fun _ => hn2⟩
    | wait hw =>
      refine ⟨Or.inr ⟨hw, ?_⟩, fun hz => by rw [f2]; exact h0 hz⟩
      rw [f3]
      rcases hs with ⟨hn, _⟩ | ⟨_, hd⟩
      · rw [f2, hn] at hw; cases hw
      · exact hd
    | now hz hcn hns q b _ hq hsel hb =>
      have := hb hc
      subst this
      have hcand : s2.cand = none := by rw [f2]; exact h0 hz
      obtain ⟨g1, g2, _⟩ := hsel.frame
      refine ⟨Or.inl ⟨by rw [g2, hcand], by rw [hsel.sel_true, g1]⟩, fun _ => by rw [g2, hcand]⟩
    | arm hz => exact ⟨Or.inr ⟨rfl, _, rfl⟩, fun h => absurd h hz⟩
    | swap hz hcn hcn' _ =>
      refine ⟨Or.inr ⟨rfl, ?_⟩, fun h => absurd h hz⟩
      show ∃ d, s2.timer = some d
      rw [f3]
      rcases hs with ⟨hn, _⟩ | ⟨_, hd⟩
      · rw [f2] at hcn'; exact absurd hn hcn'
      · exact hd
  | early => exact ⟨hs, h0⟩
  | idle rcs d hd hle hcn =>
    rcases hs with hs | ⟨hs, _⟩
    · exact ⟨Or.inl hs, h0⟩
    · rw [hcn] at hs; cases hs
  | fire rcs d k s1 b hd hle hk hq =>
    obtain ⟨r, _, hsel⟩ := select_sel hq
    have := select_ok hq hc.1 hc.2
    subst this
    obtain ⟨g1, _⟩ := hsel.frame
    refine ⟨Or.inl ⟨rfl, ?_⟩, fun _ => rfl⟩
    show s1.sel = some (choose s1.recs)
    rw [hsel.sel_true, g1]
    rcases hs with ⟨hs, _⟩ | ⟨hs, _⟩
    · rw [hk] at hs; cases hs
    · rw [hk] at hs; exact hs
  | ignored => exact ⟨hs, h0⟩
  | named _ _ _ _ hst => exact absurd hst hm
  | unseen => exact ⟨hs, h0⟩
  | plugged => exact ⟨hs, h0⟩

/-- C94: unless the operator decides, and as long as the calls succeed, the
elected instance is the selected one or the holdoff timer is running; and when
the timer expires the elected instance is selected.  Missing from the full
statement: strategy `manual-startup` with a holdoff interval of zero, see
`C94_violated`. -/
theorem C94_converges_partial (c : Cfg) (choose : List (Rec δ) → Nat) (f : Found δ) (rcs : Rcs)
    (t : Nat) (evs : List (Nat × Ev δ)) (s : Eng δ) (hm : c.strategy ≠ .manual)
    (hh : 0 < c.holdoff ∨ c.strategy = .automatic) (hl : Live c choose f rcs t evs s)
    (hok : ∀ p ∈ evs, Succeeds p.2) :
    (s.timer = none → Best choose s) ∧
    (∀ d u rcs' s', s.timer = some d → d ≤ u → rcs'.desel = true → rcs'.sel = true →
      step c choose s u (.expire rcs') = some s' → Best choose s' ∧ s'.timer = none) := by
  obtain ⟨rc, s0, h0, hr⟩ := hl
  obtain ⟨_, recs, i, r, _, _, hb, htm, hcase⟩ := startup_some h0
  obtain ⟨d, hd, _, hd1, _⟩ := begin_some c t s0
  have hs0 : Conv choose (begin_ c t s0) ∧ (c.holdoff = 0 → (begin_ c t s0).cand = none) := by
    rw [hd]
    show ((s0.cand = none ∧ s0.sel = some (choose s0.recs)) ∨
      (s0.cand = some (choose s0.recs) ∧ ∃ d', d = some d')) ∧ (c.holdoff = 0 → s0.cand = none)
    rcases hcase with ⟨_, hi, hrec, h⟩ | ⟨h, _⟩ | ⟨hst, _, hrec, ⟨hi, h⟩ | ⟨hn, h⟩⟩
    · exact ⟨Or.inl ⟨h, by rw [hb.sel, hi, hrec]⟩, fun _ => h⟩
    · exact absurd h hm
    · exact ⟨Or.inl ⟨h, by rw [hb.sel, hrec, hi]⟩, fun _ => h⟩
    · have hpos : c.holdoff ≠ 0 := by
        rcases hh with hh | hh
        · omega
        · rw [hst] at hh; cases hh
      refine ⟨Or.inr ⟨by rw [h, hrec], _, hd1 hpos hst ?_⟩, fun hz => absurd hz hpos⟩
      rw [h, hb.sel]
      intro h
      exact hn (Option.some.inj h)
  have hconv := run_induct
    (P := fun s => Conv choose s ∧ (c.holdoff = 0 → s.cand = none)) (Q := Succeeds)
    (fun s t e s' hs hq h => step_conv hm hh s t e s' hs hq h) evs _ s hs0 hok hr
  constructor
  · intro ht
    rcases hconv.1 with ⟨_, h⟩ | ⟨_, d, h⟩
    · exact h
    · rw [ht] at h; cases h
  · intro d u rcs' s' hd hle hok1 hok2 h
    have hst := step_conv hm hh s u (.expire rcs') s' hconv (show _ ∧ _ from ⟨hok1, hok2⟩) h
    have ht : s'.timer = none := by
      cases step_move h with
      | early _ he => have := he d hd; omega
      | idle => rfl
      | fire rcs d' k s1 b _ _ _ hq =>
        obtain ⟨r, _, hsel⟩ := select_sel hq
        obtain ⟨_, _, g3, _⟩ := hsel.frame
        exact g3
    refine ⟨?_, ht⟩
    rcases hst.1 with ⟨_, h⟩ | ⟨_, d, h⟩
    · exact h
    · rw [ht] at h; cases h

-- C94: after the expiry the second instance is selected
example : ∃ s, Live startup10 lowest (two 1 2 (some 1)) yes 0 [(10, .expire yes)] s ∧
    s.sel = some 0 ∧ s.timer = none := ⟨_, ⟨_, _, rfl, rfl⟩, rfl, rfl⟩

/-- C94 does not hold: with strategy `manual-startup` and a holdoff interval of
zero the engine stays with the initial instance. -/
theorem C94_violated : ¬ C94_statement := by
  intro h
  have := h startup0 lowest (two 1 2 (some 1)) yes 0 [] _ lowest_valid (by decide)
    ⟨_, _, rfl, rfl⟩ (fun p hp => absurd hp (by simp)) rfl
  exact absurd this (by decide)

/-- C94: in that configuration the instance that was best at the start is never
selected, whatever happens later. -/
theorem C94_never_selected (c : Cfg) (choose : List (Rec δ) → Nat) (f : Found δ) (rcs : Rcs)
    (rc : Nat) (s0 : Eng δ) (t k : Nat) (evs : List (Nat × Ev δ)) (s : Eng δ)
    (hst : c.strategy = .manualStartup) (hz : c.holdoff = 0)
    (h0 : startup c choose f rcs = some ⟨rc, some s0⟩) (hk : choose s0.recs = k)
    (hne : s0.sel ≠ some k) (hr : run c choose (begin_ c t s0) evs = some s) :
    s.sel ≠ some k := by
  obtain ⟨_, recs, i, r, _, _, hb, htm, hcase⟩ := startup_some h0
  have hbe : begin_ c t s0 = s0 := by
    unfold begin_
    rw [if_neg (by simp [hz])]
  have hcand : s0.cand = some k := by
    rcases hcase with ⟨h, _⟩ | ⟨h, _⟩ | ⟨_, _, hrec, ⟨hi, _⟩ | ⟨_, h⟩⟩
    · rw [hst] at h; cases h
    · rw [hst] at h; cases h
    · rw [hrec, hi] at hk
      subst hk
      exact absurd hb.sel hne
    · rw [h, ← hrec, hk]
  have := run_induct (P := fun s : Eng δ => s.sel ≠ some k ∧ s.cand = some k ∧ s.timer = none)
    (Q := fun _ => True) (c := c) (choose := choose) ?_ evs _ s ?_ (fun _ _ => trivial) hr
  · exact this.1
  · intro s t e s' ⟨hs, hc, hti⟩ _ h
    cases step_move h with
    | state j st rcs r s1 _ hr h1 h2 =>
      have hf : s1.sel = s.sel ∧ s1.cand = s.cand ∧ s1.timer = s.timer := by
        rcases h1 with ⟨_, h1⟩ | ⟨_, rfl⟩
        · obtain ⟨g, l, v, rfl, _, _⟩ := refresh_some h1
          exact ⟨rfl, rfl, rfl⟩
        · exact ⟨rfl, rfl, rfl⟩
      obtain ⟨s2, hs2⟩ : ∃ s2, { s1 with recs := s1.recs.set j { r with status := st } } = s2 :=
        ⟨_, rfl⟩
      rw [hs2] at h2
      have hf2 : s2.sel = s.sel ∧ s2.cand = s.cand ∧ s2.timer = s.timer := by
        rw [← hs2]; exact hf
      obtain ⟨f1, f2, f3⟩ := hf2
      clear hs2 hf h1
      cases evaluate_eval h2 with
      | rest _ hn => rw [f2, hc] at hn; cases hn
      | wait => exact ⟨by rw [f1]; exact hs, by rw [f2]; exact hc, by rw [f3]; exact hti⟩
      | now _ hcn _ q b _ _ hsel _ =>
        obtain ⟨g1, g2, g3, _⟩ := hsel.frame
        refine ⟨?_, by rw [g2, f2]; exact hc, by rw [g3, f3]; exact hti⟩
        rcases hsel.sel_or with h | h
        · rw [h]
          intro h'
          exact hcn (by rw [f2, hc, h'])
        · rw [h, f1]; exact hs
      | arm hnz => exact absurd hz hnz
      | swap hnz => exact absurd hz hnz
    | early => exact ⟨hs, hc, hti⟩
    | idle _ _ hd => rw [hti] at hd; cases hd
    | fire _ _ _ _ _ hd => rw [hti] at hd; cases hd
    | ignored => exact ⟨hs, hc, hti⟩
    | named _ _ _ _ hm => rw [hst] at hm; cases hm
    | unseen => exact ⟨hs, hc, hti⟩
    | plugged => exact ⟨hs, hc, hti⟩
  · rw [hbe]; exact ⟨hne, hcand, htm⟩

-- the other instance even fails, and is still the selected one
example : ∃ s0 s, startup startup0 lowest (two 1 2 (some 1)) yes = some ⟨0, some s0⟩ ∧
    run startup0 lowest (begin_ startup0 0 s0) [(5, .state 1 ⟨2, gmB, 99⟩ yes)] = some s ∧
    lowest s0.recs = 0 ∧ s0.sel = some 1 ∧ s.sel = some 1 := ⟨_, _, rfl, rfl, rfl, rfl, rfl⟩

/-! ## C95: the operator decides -/

theorem step_named {c : Cfg} {choose : List (Rec δ) → Nat} {P : Status δ → Prop}
    (hm : c.strategy = .manual) (hch : HonoursManual P choose) {s s' : Eng δ} {t i : Nat}
    {e : Ev δ} (hsel : s.sel = some i) (hlt : i < s.recs.length) (hc : s.cand = none)
    (hP : ∀ r ∈ s.recs, P r.status)
    (hmark : ∀ j r, s.recs[j]? = some r → (r.manual = true ↔ j = i))
    (hok : Succeeds e) (hrep : Reports P e) (h : step c choose s t e = some s') :
    ∃ i', (match e with | .select (some j) _ => i' = j | _ => i' = i) ∧
      s'.sel = some i' ∧ i' < s'.recs.length ∧ s'.cand = none ∧ (∀ r ∈ s'.recs, P r.status) ∧
      ∀ j r, s'.recs[j]? = some r → (r.manual = true ↔ j = i') := by
  cases step_move h with
  | state j st rcs r s1 _ hr h1 h2 =>
    have hf : s1.sel = s.sel ∧ s1.cand = s.cand ∧ s1.recs = s.recs := by
      rcases h1 with ⟨_, h1⟩ | ⟨_, rfl⟩
      · obtain ⟨g, l, v, rfl, _, _⟩ := refresh_some h1
        exact ⟨rfl, rfl, rfl⟩
      · exact ⟨rfl, rfl, rfl⟩
    obtain ⟨s2, hs2⟩ : ∃ s2, { s1 with recs := s1.recs.set j { r with status := st } } = s2 :=
      ⟨_, rfl⟩
    rw [hs2] at h2
    have hf2 : s2.sel = s.sel ∧ s2.cand = s.cand ∧
        s2.recs = s.recs.set j { r with status := st } := by
      rw [← hs2, ← hf.2.2]; exact ⟨hf.1, hf.2.1, rfl⟩
    obtain ⟨f1, f2, f3⟩ := hf2
    clear hs2 hf h1
    have hlen : i < s2.recs.length := by rw [f3]; simpa using hlt
    have hP2 : ∀ r ∈ s2.recs, P r.status := by
      rw [f3]
      intro q hq
      rcases List.mem_or_eq_of_mem_set hq with hq | rfl
      · exact hP q hq
      · exact hrep
    have hmark2 : ∀ j r, s2.recs[j]? = some r → (r.manual = true ↔ j = i) := by
      rw [f3]
      intro j' r' h'
      by_cases hj : j = j'
      · subst hj
        have hjl : j < s.recs.length := by
          rcases Nat.lt_or_ge j s.recs.length with h | h
          · exact h
          · rw [List.getElem?_eq_none h] at hr; exact absurd hr (by simp)
        rw [List.getElem?_set_self hjl] at h'
        cases h'
        exact hmark j r hr
      · rw [List.getElem?_set_ne hj] at h'
        exact hmark j' r' h'
    have hchoose : choose s2.recs = i := hch s2.recs i hlen hP2 hmark2
    refine ⟨i, rfl, ?_⟩
    have hbase : s2.sel = some (choose s2.recs) ∧ s2.cand = none := by
      rw [hchoose, f1, f2]; exact ⟨hsel, hc⟩
    cases evaluate_eval h2 with
    | rest => exact ⟨by rw [f1]; exact hsel, hlen, by rw [f2]; exact hc, hP2, hmark2⟩
    | wait hw => rw [hbase.2] at hw; cases hw
    | now _ _ hns => exact absurd hbase hns
    | arm _ _ hns => exact absurd hbase hns
    | swap _ _ hcn => exact absurd hbase.2 hcn
  | early => exact ⟨i, rfl, hsel, hlt, hc, hP, hmark⟩
  | idle => exact ⟨i, rfl, hsel, hlt, hc, hP, hmark⟩
  | fire _ _ _ _ _ _ _ hk => rw [hc] at hk; cases hk
  | ignored name rcs hn =>
    rcases hn with hn | rfl
    · exact absurd hm hn
    · exact ⟨i, rfl, hsel, hlt, hc, hP, hmark⟩
  | named j rcs _ b _ hq =>
    obtain ⟨r, hr, hs⟩ := select_sel hq
    have := select_ok hq hok.1 hok.2
    subst this
    obtain ⟨g1, g2, _⟩ := hs.frame
    have hr : (markManual s.recs j)[j]? = some r := hr
    refine ⟨j, rfl, hs.sel_true, ?_, by rw [g2]; exact hc, ?_, ?_⟩
    · rw [g1]
      rcases Nat.lt_or_ge j (markManual s.recs j).length with h | h
      · exact h
      · rw [List.getElem?_eq_none h] at hr; exact absurd hr (by simp)
    · rw [g1]
      intro q hq
      obtain ⟨k, hk⟩ := List.mem_iff_getElem?.1 hq
      rw [getElem?_markManual] at hk
      cases hsk : s.recs[k]? with
      | none => rw [hsk] at hk; cases hk
      | some q' =>
        rw [hsk] at hk
        cases hk
        exact hP q' (List.mem_iff_getElem?.2 ⟨k, hsk⟩)
    · rw [g1]
      intro k q hk
      have hk : (markManual s.recs j)[k]? = some q := hk
      rw [getElem?_markManual] at hk
      cases hsk : s.recs[k]? with
      | none => rw [hsk] at hk; cases hk
      | some q' =>
        rw [hsk] at hk
        cases hk
        simp
  | unseen => exact ⟨i, rfl, hsel, hlt, hc, hP, hmark⟩
  | plugged => exact ⟨i, rfl, hsel, hlt, hc, hP, hmark⟩

theorem run_named {c : Cfg} {choose : List (Rec δ) → Nat} {P : Status δ → Prop}
    (hm : c.strategy = .manual) (hch : HonoursManual P choose) :
    ∀ (evs : List (Nat × Ev δ)) (s s' : Eng δ) (i : Nat), s.sel = some i → i < s.recs.length →
      s.cand = none → (∀ r ∈ s.recs, P r.status) →
      (∀ j r, s.recs[j]? = some r → (r.manual = true ↔ j = i)) →
      (∀ p ∈ evs, Succeeds p.2) → (∀ p ∈ evs, Reports P p.2) →
      run c choose s evs = some s' → s'.sel = some (lastNamed i evs) ∧ s'.cand = none := by
  intro evs
  induction evs with
  | nil =>
    intro s s' i h1 _ h3 _ _ _ _ hr
    cases hr
    exact ⟨h1, h3⟩
  | cons p evs ih =>
    intro s s' i h1 h2 h3 h4 h5 hok hrep hr
    obtain ⟨t, e⟩ := p
    obtain ⟨s1, hs1, hr⟩ := run_cons_some hr
    obtain ⟨i', hi, k1, k2, k3, k4, k5⟩ := step_named hm hch h1 h2 h3 h4 h5
      (hok (t, e) (by simp)) (hrep (t, e) (by simp)) hs1
    have := ih s1 s' i' k1 k2 k3 k4 k5 (fun q hq => hok q (by simp [hq]))
      (fun q hq => hrep q (by simp [hq])) hr
    rw [this.1]
    refine ⟨?_, this.2⟩
    cases e with
    | select n rcs =>
      cases n with
      | none => cases hi; rfl
      | some j => cases hi; rfl
    | state => cases hi; rfl
    | expire => cases hi; rfl
    | hotplug => cases hi; rfl

/-- C95: with strategy `manual`, an election that prefers the instance marked
by the operator and calls that succeed, the selected instance is always the
one that the operator named last, or the configured one if none was named. -/
theorem C95_manual (c : Cfg) (choose : List (Rec δ) → Nat) (P : Status δ → Prop) (f : Found δ)
    (rcs : Rcs) (t : Nat) (evs : List (Nat × Ev δ)) (s : Eng δ) (hm : c.strategy = .manual)
    (hch : HonoursManual P choose) (hl : Live c choose f rcs t evs s)
    (hP : ∀ st, some st ∈ f.recs → P st) (hok : ∀ p ∈ evs, Succeeds p.2)
    (hrep : ∀ p ∈ evs, Reports P p.2) :
    ∃ i, f.initial = some i ∧ s.sel = some (lastNamed i evs) ∧ s.cand = none := by
  obtain ⟨rc, s0, h0, hr⟩ := hl
  obtain ⟨_, recs, i, r, _, hman, hb, htm, hcase⟩ := startup_some h0
  obtain ⟨d, hd, _⟩ := begin_some c t s0
  rcases hcase with ⟨h, _⟩ | ⟨_, hi, hrec, hc⟩ | ⟨h, _⟩
  · rw [hm] at h; cases h
  · refine ⟨i, hi, ?_⟩
    rw [hd] at hr
    refine run_named hm hch evs { s0 with timer := d } s i hb.sel ?_ hc ?_ ?_ hok hrep hr
    · show i < s0.recs.length
      rcases Nat.lt_or_ge i s0.recs.length with h | h
      · exact h
      · have := hb.rec_
        rw [List.getElem?_eq_none h] at this; cases this
    · show ∀ r ∈ s0.recs, P r.status
      rw [hrec]
      intro q hq
      obtain ⟨k, hk⟩ := List.mem_iff_getElem?.1 hq
      rw [getElem?_markManual] at hk
      cases hsk : recs[k]? with
      | none => rw [hsk] at hk; cases hk
      | some q' =>
        rw [hsk] at hk
        cases hk
        exact hP _ (hman q' (List.mem_iff_getElem?.2 ⟨k, hsk⟩)).2
    · show ∀ j r, s0.recs[j]? = some r → (r.manual = true ↔ j = i)
      rw [hrec]
      intro k q hk
      rw [getElem?_markManual] at hk
      cases hsk : recs[k]? with
      | none => rw [hsk] at hk; cases hk
      | some q' =>
        rw [hsk] at hk
        cases hk
        simp
  · rw [hm] at h; cases h

theorem lowest_honours : HonoursManual (fun _ => True) lowest := by
  intro l i hi _ hm
  unfold lowest
  have : l.findIdx? (fun r => r.manual) = some i := by
    rw [List.findIdx?_eq_some_iff_getElem]
    refine ⟨hi, (hm i l[i] (List.getElem?_eq_getElem hi)).2 rfl, ?_⟩
    intro j hj h
    have := (hm j l[j] (List.getElem?_eq_getElem (by omega))).1 h
    omega
  rw [this]

-- C95: the configured instance, then the other one although it is worse
example : ∃ s, Live manual10 lowest (two 2 1 (some 0)) yes 0
      [(3, .select (some 1) yes), (4, .state 1 ⟨2, gmB, 9⟩ yes), (20, .expire yes)] s ∧
    s.sel = some 1 ∧
    lastNamed 0 ([(3, .select (some 1) yes), (4, .state 1 ⟨2, gmB, 9⟩ yes),
      (20, .expire yes)] : List (Nat × Ev Nat)) = 1 := ⟨_, ⟨_, _, rfl, rfl⟩, rfl, rfl⟩

/-- A record as the election sees it. -/
def entry (r : Rec Bic.Inst) (k : Nat) : Bic.Inst :=
  { r.status.data with addr := k, selected := r.manual }

/-- The election of `src/sfptpd_bic.c` as used by the engine: the records of
the array with the statuses' data, the marks and their places as addresses. -/
def bicElection (sort : List Bic.Inst → List Bic.Inst) (l : List (Rec Bic.Inst)) : Nat :=
  match (Bic.choose sort (l.zipIdx.map fun p => entry p.1 p.2)).1 with
  | some x => x.addr
  | none => 0

/-- All statuses agree on whether the values compared are numbers. -/
def Uniform (a b : Bool) (st : Status Bic.Inst) : Prop :=
  (st.data.allanVariance = .nan ↔ a = true) ∧ (Bic.total st.data = .nan ↔ b = true)

/-- C95: the election with a policy that begins with the rule `manual` prefers
the marked instance (unless numbers and `NaN` mix, see C06). -/
theorem C95_bic_honours (rules : List Bic.Rule) (sort : List Bic.Inst → List Bic.Inst)
    (ht : .tieBreak ∈ rules) (hsort : Bic.SortsBy (.manual :: rules) sort) (a b : Bool) :
    HonoursManual (Uniform a b) (bicElection sort) := by
  intro l i hi hP hm
  obtain ⟨m, hmdef⟩ : ∃ m, (l.zipIdx.map fun p => entry p.1 p.2) = m := ⟨_, rfl⟩
  have mem : ∀ x ∈ m, ∃ r, l[x.addr]? = some r ∧
      x = entry r x.addr := by
    intro x hx
    rw [← hmdef] at hx
    obtain ⟨⟨r, k⟩, hrk, rfl⟩ := List.mem_map.1 hx
    exact ⟨r, List.mem_zipIdx_iff_getElem?.1 hrk, rfl⟩
  have len : m.length = l.length := by rw [← hmdef]; simp
  have getm : ∀ k r, l[k]? = some r → entry r k ∈ m := by
    intro k r hk
    rw [← hmdef]
    exact List.mem_map.2 ⟨(r, k), List.mem_zipIdx_iff_getElem?.2 hk, rfl⟩
  have hne : m ≠ [] := by
    intro h; rw [h] at len; simp at len; omega
  have dist : Bic.Distinct m := by
    intro x hx y hy he
    obtain ⟨r, h1, h2⟩ := mem x hx
    obtain ⟨q, k1, k2⟩ := mem y hy
    rw [he, k1] at h1
    cases h1
    rw [h2, k2, he]
  have nodup : m.Nodup := by
    rw [← hmdef]
    refine List.Nodup.map_on ?_ ?_
    · rintro ⟨r, k⟩ hx ⟨q, k'⟩ hy he
      have hk : k = k' := congrArg Bic.Inst.addr he
      have h1 := List.mem_zipIdx_iff_getElem?.1 hx
      have h2 := List.mem_zipIdx_iff_getElem?.1 hy
      simp only at h1 h2
      rw [hk, h2] at h1
      cases h1
      rw [hk]
    · refine List.Nodup.of_map Prod.snd ?_
      rw [List.zipIdx_map_snd]
      exact List.nodup_range'
  have sel : ∀ x ∈ m, x.selected = true ↔ x.addr = i := by
    intro x hx
    obtain ⟨r, h1, h2⟩ := mem x hx
    have := hm x.addr r h1
    rw [h2]
    exact this
  have one : Bic.OneSelected m := by
    intro x hx y hy h1 h2
    rw [(sel x hx).1 h1, (sel y hy).1 h2]
  have uni : ∀ x ∈ m, (x.allanVariance = .nan ↔ a = true) ∧ (Bic.total x = .nan ↔ b = true) := by
    intro x hx
    obtain ⟨r, h1, h2⟩ := mem x hx
    have := hP r (List.mem_iff_getElem?.2 ⟨_, h1⟩)
    rw [h2]
    exact this
  have nomix : Bic.NoMixedNaN (.manual :: rules) m :=
    ⟨fun _ x hx y hy h => (uni y hy).1.2 ((uni x hx).1.1 h),
     fun _ x hx y hy h => (uni y hy).2.2 ((uni x hx).2.1 h)⟩
  obtain ⟨x, hx, hc, hbest⟩ := Bic.choose_best (.manual :: rules) sort m
    (List.mem_cons_of_mem _ ht) hsort hne nodup dist one nomix
  unfold bicElection
  rw [hmdef, hc]
  show x.addr = i
  apply Classical.byContradiction
  intro hxi
  obtain ⟨r, hr⟩ : ∃ r, l[i]? = some r := ⟨l[i], List.getElem?_eq_getElem hi⟩
  have hy := getm i r hr
  have hys := (sel _ hy).2 rfl
  have hxs : x.selected = false := by
    cases h : x.selected
    · rfl
    · exact absurd ((sel x hx).1 h) hxi
  have hb := hbest _ hy (fun he => hxi (by rw [← he]; rfl))
  rw [Bic.Beats_cons] at hb
  rcases hb with hb | ⟨_, hb, _⟩
  · simp only [Bic.Better] at hb
    rw [hxs] at hb
    exact absurd hb.1 (by simp)
  · exact hb ⟨hys, hxs⟩

-- such a sorting function exists, and the default policy has that form
example : ∃ sort rules, Bic.defaultRules = .manual :: rules ∧ .tieBreak ∈ rules ∧
    Bic.SortsBy (.manual :: rules) sort :=
  have ⟨sort, h⟩ := Bic.sortsBy_exists Bic.defaultRules
  ⟨sort, _, rfl, by decide, h⟩

/-- Lowest rank wins, marks are not looked at. -/
def lowest' (l : List (Rec Nat)) : Nat := lowest (l.map fun r => { r with manual := false })

/-- C95: a policy that does not begin with the rule `manual` can take back the
operator's choice: a candidate awaiting its turn replaces the instance named
later. -/
theorem C95_pending_overrides :
    ∃ s, Live manual10 lowest' (two 2 3 (some 1)) yes 0
      [(3, .state 0 ⟨1, gmA, 1⟩ yes), (5, .select (some 1) yes), (13, .expire yes)] s ∧
    s.sel = some 0 := ⟨_, ⟨_, _, rfl, rfl⟩, rfl⟩

/-! ## C96: stepping the clocks -/

/-- C96, full statement: the command brings the clocks to the time of the
grandmaster, whatever is configured. -/
def C96_statement : Prop :=
  ∀ (i : StepIn) (o : Int) (lrc : Nat) (w : Nat → Int), i.noAdjust = false → i.offset = some o →
    Measured lrc w o i.servos →
    ∃ out, stepClocks i = some out ∧ afterwards lrc w out lrc = 0 ∧
      (∀ p ∈ i.servos, p.2.2 = false → afterwards lrc w out p.1 = 0)

theorem afterwards_append (lrc : Nat) (a b : List StepOut) : ∀ w,
    afterwards lrc w (a ++ b) = afterwards lrc (afterwards lrc w a) b := by
  induction a with
  | nil => intro w; rfl
  | cons o r ih => intro w; exact ih _

theorem stepServos_other (lrc : Nat) (o : Int) (servos : List (Nat × Int × Bool)) : ∀ (w : Nat → Int)
    (k : Nat), (∀ p ∈ servos, p.1 = k → p.2.2 = true) →
    afterwards lrc w (stepServos o servos) k = w k := by
  induction servos with
  | nil => intro w k _; rfl
  | cons p r ih =>
    obtain ⟨c, so, near⟩ := p
    intro w k h
    unfold stepServos
    cases near with
    | true => exact ih w k (fun p hp => h p (by simp [hp]))
    | false =>
      have hck : c ≠ k := fun he => absurd (h (c, so, false) (by simp) he) (by simp)
      show afterwards lrc (stepped lrc w (.servo c (so + o))) (stepServos o r) k = w k
      rw [ih _ k (fun p hp => h p (by simp [hp]))]
      simp [stepped, Ne.symm hck]

theorem stepServos_exact (lrc : Nat) (o g : Int) (servos : List (Nat × Int × Bool)) : ∀ (w : Nat → Int),
    (∀ p ∈ servos, p.2.1 + o = w p.1) →
    servos.Pairwise (fun p q => p.1 ≠ q.1) →
    ∀ p ∈ servos, p.2.2 = false → afterwards lrc w (stepServos o servos) p.1 = 0 := by
  induction servos with
  | nil => intro w _ _ p hp; simp at hp
  | cons q r ih =>
    obtain ⟨c, so, near⟩ := q
    intro w h hpw p hp hnear
    obtain ⟨hpw1, hpw2⟩ := List.pairwise_cons.1 hpw
    unfold stepServos
    rcases List.mem_cons.1 hp with rfl | hp2
    · simp only at hnear
      subst hnear
      show afterwards lrc (stepped lrc w (.servo c (so + o))) (stepServos o r) c = 0
      rw [stepServos_other lrc o r _ c (fun p hp he => absurd he.symm (hpw1 p hp))]
      have := h (c, so, false) (by simp)
      simp only at this
      simp [stepped, this]
    · cases near with
      | true => exact ih w (fun p hp => h p (by simp [hp])) hpw2 p hp2 hnear
      | false =>
        refine ih (stepped lrc w (.servo c (so + o))) ?_ hpw2 p hp2 hnear
        intro p' hp'
        rw [h p' (by simp [hp'])]
        have := hpw1 p' hp'
        simp [stepped, Ne.symm this]

/-- C96: with both NTP modules present the command brings the selected
instance's clock and every servo's clock to the time of the grandmaster,
except clocks with the alarm, which together with all others are left alone.
Missing from the full statement: a configuration in which one of the NTP
modules is declared without instances, see `C96_violated`. -/
theorem C96_step_partial (i : StepIn) (o : Int) (lrc : Nat) (w : Nat → Int)
    (ha : i.noAdjust = false) (ho : i.offset = some o) (hn : i.ntp = true) (hc : i.crny = true)
    (hm : Measured lrc w o i.servos) :
    ∃ out, stepClocks i = some out ∧ afterwards lrc w out lrc = 0 ∧
      (∀ p ∈ i.servos, p.2.2 = false → afterwards lrc w out p.1 = 0) ∧
      (∀ k, k ≠ lrc → (∀ p ∈ i.servos, p.1 = k → p.2.2 = true) → afterwards lrc w out k = w k) := by
  obtain ⟨h1, h2, h3⟩ := hm
  refine ⟨.inst o :: stepServos o i.servos ++ [.ntp, .crny], ?_, ?_, ?_, ?_⟩
  · unfold stepClocks
    rw [ha, ho, hn, hc]
    rfl
  · show afterwards lrc (stepped lrc w (.inst o)) (stepServos o i.servos ++ [.ntp, .crny]) lrc = 0
    rw [afterwards_append]
    show afterwards lrc (stepped lrc w (.inst o)) (stepServos o i.servos) lrc = 0
    rw [stepServos_other _ _ _ _ _ (fun p hp he => absurd he (h2 p hp).2)]
    simp [stepped, h1]
  · intro p hp hnear
    show afterwards lrc (stepped lrc w (.inst o)) (stepServos o i.servos ++ [.ntp, .crny]) p.1 = 0
    rw [afterwards_append]
    show afterwards lrc (stepped lrc w (.inst o)) (stepServos o i.servos) p.1 = 0
    refine stepServos_exact lrc o 0 i.servos _ ?_ h3 p hp hnear
    intro q hq
    rw [(h2 q hq).1, h1]
    simp [stepped, (h2 q hq).2]
  · intro k hk hnear
    show afterwards lrc (stepped lrc w (.inst o)) (stepServos o i.servos ++ [.ntp, .crny]) k = w k
    rw [afterwards_append]
    show afterwards lrc (stepped lrc w (.inst o)) (stepServos o i.servos) k = w k
    rw [stepServos_other _ _ _ _ _ hnear]
    simp [stepped, hk]

/-- C96: nothing is stepped when adjusting is forbidden or nothing is selected. -/
theorem C96_blocked (i : StepIn) (h : i.noAdjust = true ∨ i.offset = none) :
    stepClocks i = some [] := by
  unfold stepClocks
  rcases h with h | h
  · rw [if_pos h]
  · rw [h]; simp

-- three clocks 700, 730 and 9 ahead of the grandmaster; the last has the alarm
example : Measured 1 (fun k => if k = 1 then 700 else if k = 2 then 730 else 9) 700
      [(2, 30, false), (3, -691, true)] ∧
    stepClocks ⟨false, some 700, [(2, 30, false), (3, -691, true)], true, true⟩
      = some [.inst 700, .servo 2 730, .ntp, .crny] := by
  refine ⟨⟨rfl, ?_, ?_⟩, rfl⟩ <;> decide

/-- C96 does not hold: with `sync_module crny` declared and no instance of it
the command fails an assertion. -/
theorem C96_violated : ¬ C96_statement := by
  intro h
  obtain ⟨out, ho, _⟩ := h ⟨false, some 5, [], true, false⟩ 5 0 (fun _ => 5) rfl rfl
    ⟨rfl, fun p hp => absurd hp (by simp), .nil⟩
  exact absurd ho (by simp [stepClocks])

/-! ## C97: the clustering score -/

/-- C97, full statement: the score tells whether the grandmaster of the
instance is within the threshold of the discriminator's, and is the configured
default when this is not known. -/
def C97_statement : Prop :=
  ∀ (dflt : Int) (threshold : Rat) (ok : Bool) (d1 d2 : Option Int) (dofm iofm : Int),
    score ⟨true, false, dflt, true, dofm, iofm, (compareClocks ok d1 d2).1, threshold⟩
      = scoreFor dflt threshold (gmDistance ok d1 d2 dofm iofm)

theorem abs_lt_iff (d : Int) (q : Rat) :
    ((d.natAbs : Nat) : Rat) < q ↔ -q < (d : Rat) ∧ (d : Rat) < q := by
  rcases Int.natAbs_eq d with h | h
  · have hc : (d : Rat) = ((d.natAbs : Nat) : Rat) := by
      have := congrArg (Int.cast : Int → Rat) h
      simpa using this
    have h0 : (0 : Rat) ≤ ((d.natAbs : Nat) : Rat) := by exact_mod_cast Nat.zero_le _
    rw [hc]
    constructor
    · intro h; constructor <;> linarith
    · intro h; exact h.2
  · have hc : (d : Rat) = -((d.natAbs : Nat) : Rat) := by
      have := congrArg (Int.cast : Int → Rat) h
      simpa using this
    have h0 : (0 : Rat) ≤ ((d.natAbs : Nat) : Rat) := by exact_mod_cast Nat.zero_le _
    rw [hc]
    constructor
    · intro h; constructor <;> linarith
    · intro h; linarith [h.1]

/-- C97: when the clocks can be compared and the offset is not exactly zero the
score is right.  Missing from the full statement: failing comparisons and an
offset of zero. -/
theorem C97_score_partial (dflt : Int) (threshold : Rat) (a b dofm iofm : Int) (hz : iofm ≠ 0) :
    score ⟨true, false, dflt, true, dofm, iofm, (compareClocks true (some a) (some b)).1, threshold⟩
      = scoreFor dflt threshold (gmDistance true (some a) (some b) dofm iofm) := by
  have he : a - b - dofm + iofm = (a - dofm) - (b - iofm) := by omega
  simp only [score, scoreFor, gmDistance, compareClocks, Bool.not_true, Bool.false_eq_true,
    if_false, if_true, hz, he]
  have := abs_lt_iff ((a - dofm) - (b - iofm)) threshold
  by_cases h : ((((a - dofm) - (b - iofm)).natAbs : Nat) : Rat) < threshold
  · rw [if_pos h, if_pos (this.1 h)]
  · rw [if_neg h, if_neg (fun hh => h (this.2 hh))]

-- clocks 500 and 300 ahead of the system clock, grandmasters 490 and 280
example : score ⟨true, false, -1, true, 10, 20, (compareClocks true (some 500) (some 300)).1, 250⟩ = 1 ∧
    score ⟨true, false, -1, true, 10, 20, (compareClocks true (some 500) (some 300)).1, 210⟩ = 0 := by
  decide +kernel

/-- C97 does not hold: the result of a failed comparison is used. -/
theorem C97_violated : ¬ C97_statement := by
  intro h
  -- the instance's clock cannot be read and is far away; the score is still 1
  have := h 0 100 true (some 0) none 10 20
  exact absurd this (by decide +kernel)

/-- C97: if the comparison is refused altogether, the score depends on the
offsets of the two clocks alone. -/
theorem C97_refused (dflt : Int) (threshold : Rat) (d1 d2 : Option Int) (dofm iofm : Int)
    (hz : iofm ≠ 0) :
    score ⟨true, false, dflt, true, dofm, iofm, (compareClocks false d1 d2).1, threshold⟩
      = scoreFor dflt threshold (some (iofm - dofm)) := by
  have he : 0 - dofm + iofm = iofm - dofm := by omega
  simp only [score, scoreFor, compareClocks, Bool.not_true, Bool.false_eq_true,
    if_false, if_true, hz, he]
  have := abs_lt_iff (iofm - dofm) threshold
  by_cases h : (((iofm - dofm).natAbs : Nat) : Rat) < threshold
  · rw [if_pos h, if_pos (this.1 h)]
  · rw [if_neg h, if_neg (fun hh => h (this.2 hh))]

/-- C97: an instance exactly on time gets the default score, however near. -/
theorem C97_zero_offset (dflt : Int) (threshold : Rat) (dofm cmp : Int) (v : Bool) :
    score ⟨true, false, dflt, v, dofm, 0, cmp, threshold⟩ = dflt := by
  cases v <;> rfl

/-! ## C98: starting up -/

/-- C98, full statement: a start reported as successful leaves an engine that
runs with a selected instance. -/
def C98_statement : Prop :=
  ∀ (c : Cfg) (choose : List (Rec Nat) → Nat) (f : Found Nat) (rcs : Rcs) (r : Started Nat),
    startup c choose f rcs = some r → r.rc = 0 → ∃ s, r.eng = some s ∧ s.sel ≠ none

/-- C98: if all instances have been created, a start reported as successful
leaves an engine with a selected instance, which is the elected or the
configured one; and a reported failure leaves none.  Missing: instances that
were not created. -/
theorem C98_startup_partial (c : Cfg) (choose : List (Rec δ) → Nat) (f : Found δ) (rcs : Rcs)
    (r : Started δ) (hh : none ∉ f.recs) (h : startup c choose f rcs = some r) :
    (r.rc = 0 → ∃ s i, r.eng = some s ∧ s.sel = some i ∧
      (c.strategy ≠ .automatic → f.initial = some i)) ∧ (r.rc ≠ 0 → r.eng = none) := by
  obtain ⟨rc, eng⟩ := r
  cases eng with
  | some s =>
    obtain ⟨hrc, recs, i, r, _, _, hb, _, hcase⟩ := startup_some h
    refine ⟨fun _ => ⟨s, i, rfl, hb.sel, ?_⟩, fun hne => absurd hrc hne⟩
    intro hst
    rcases hcase with ⟨h, _⟩ | ⟨_, h, _⟩ | ⟨_, h, _⟩
    · exact absurd h hst
    · exact h
    · exact h
  | none =>
    refine ⟨fun hrc => ?_, fun _ => rfl⟩
    exfalso
    simp only at hrc
    subst hrc
    have hmap : ∃ l, f.recs.mapM id = some l := by
      generalize f.recs = l at hh
      induction l with
      | nil => exact ⟨[], rfl⟩
      | cons a r ih =>
        obtain ⟨l, hl⟩ := ih (fun hn => hh (by simp [hn]))
        cases a with
        | none => exact absurd (List.mem_cons_self) hh
        | some x => exact ⟨x :: l, by simp [hl]⟩
    obtain ⟨l, hl⟩ := hmap
    unfold startup at h
    split at h
    · simp [enoent] at h
    rw [hl] at h
    simp only at h
    split at h
    · split at h
      · cases h
      · simp at h
      · simp [eio] at h
    · split at h
      · simp [enoent] at h
      · split at h
        · cases h
        · simp [eio] at h
        · split at h <;> simp at h

example : ∃ r, startup manual10 lowest (two 2 1 (some 0)) yes = some r ∧ r.rc = 0 := ⟨_, rfl, rfl⟩
example : ∃ r, startup manual10 lowest (two 2 1 none) yes = some r ∧ r.rc ≠ 0 :=
  ⟨_, rfl, by decide⟩

/-- C98 does not hold: an instance that was not created makes the engine shut
down and report success. -/
theorem C98_violated : ¬ C98_statement := by
  intro h
  obtain ⟨s, hs, _⟩ := h auto10 lowest ⟨[none], [], 0, none⟩ yes ⟨0, none⟩ rfl rfl
  cases hs

/-! ## C99: clocks plugged and unplugged -/

/-- C99: for snapshots sorted by address, the clocks taken out of the feed are
those that are gone and the clocks put in are those that are new. -/
theorem C99_feeds (a b : List Nat) (ha : a.Pairwise (· < ·)) (hb : b.Pairwise (· < ·)) :
    (∀ k, k ∈ (merge a b).1 ↔ k ∈ a ∧ k ∉ b) ∧ (∀ k, k ∈ (merge a b).2 ↔ k ∈ b ∧ k ∉ a) ∧
    (merge a b).1.Nodup ∧ (merge a b).2.Nodup := by
  fun_induction merge a b with
  | case1 => simp
  | case2 x as p ih =>
    obtain ⟨h1, h2, h3, h4⟩ := ih (List.pairwise_cons.1 ha).2 hb
    have hx := (List.pairwise_cons.1 ha).1
    refine ⟨fun k => ?_, fun k => ?_, ?_, h4⟩
    · rw [List.mem_cons, h1]; simp
    · rw [h2]; simp
    · refine List.nodup_cons.2 ⟨fun h => ?_, h3⟩
      exact absurd (hx x ((h1 x).1 h).1) (by omega)
  | case3 y bs p ih =>
    obtain ⟨h1, h2, h3, h4⟩ := ih ha (List.pairwise_cons.1 hb).2
    have hy := (List.pairwise_cons.1 hb).1
    refine ⟨fun k => ?_, fun k => ?_, h3, ?_⟩
    · rw [h1]; simp
    · rw [List.mem_cons, h2]; simp
    · refine List.nodup_cons.2 ⟨fun h => ?_, h4⟩
      exact absurd (hy y ((h2 y).1 h).1) (by omega)
  | case4 x as y bs hlt p ih =>
    obtain ⟨h1, h2, h3, h4⟩ := ih (List.pairwise_cons.1 ha).2 hb
    have hx := (List.pairwise_cons.1 ha).1
    have hy := (List.pairwise_cons.1 hb).1
    have hxb : x ∉ y :: bs := by
      intro h
      rcases List.mem_cons.1 h with h | h
      · omega
      · have := hy x h; omega
    refine ⟨fun k => ?_, fun k => ?_, ?_, h4⟩
    · rw [List.mem_cons, h1]
      constructor
      · rintro (rfl | h)
        · exact ⟨List.mem_cons_self, hxb⟩
        · exact ⟨List.mem_cons_of_mem _ h.1, h.2⟩
      · rintro ⟨h, h'⟩
        rcases List.mem_cons.1 h with h | h
        · exact Or.inl h
        · exact Or.inr ⟨h, h'⟩
    · rw [h2]
      constructor
      · rintro ⟨h, h'⟩
        refine ⟨h, fun hk => ?_⟩
        rcases List.mem_cons.1 hk with rfl | hk
        · exact hxb h
        · exact h' hk
      · rintro ⟨h, h'⟩
        exact ⟨h, fun hk => h' (List.mem_cons_of_mem _ hk)⟩
    · refine List.nodup_cons.2 ⟨fun h => ?_, h3⟩
      exact absurd (hx x ((h1 x).1 h).1) (by omega)
  | case5 x as y bs hle hlt p ih =>
    obtain ⟨h1, h2, h3, h4⟩ := ih ha (List.pairwise_cons.1 hb).2
    have hx := (List.pairwise_cons.1 ha).1
    have hy := (List.pairwise_cons.1 hb).1
    have hya : y ∉ x :: as := by
      intro h
      rcases List.mem_cons.1 h with h | h
      · omega
      · have := hx y h; omega
    refine ⟨fun k => ?_, fun k => ?_, h3, ?_⟩
    · rw [h1]
      constructor
      · rintro ⟨h, h'⟩
        refine ⟨h, fun hk => ?_⟩
        rcases List.mem_cons.1 hk with rfl | hk
        · exact hya h
        · exact h' hk
      · rintro ⟨h, h'⟩
        exact ⟨h, fun hk => h' (List.mem_cons_of_mem _ hk)⟩
    · rw [List.mem_cons, h2]
      constructor
      · rintro (rfl | h)
        · exact ⟨List.mem_cons_self, hya⟩
        · exact ⟨List.mem_cons_of_mem _ h.1, h.2⟩
      · rintro ⟨h, h'⟩
        rcases List.mem_cons.1 h with h | h
        · exact Or.inl h
        · exact Or.inr ⟨h, h'⟩
    · refine List.nodup_cons.2 ⟨fun h => ?_, h4⟩
      exact absurd (hy y ((h2 y).1 h).1) (by omega)
  | case6 x as y bs h1 h2 ih =>
    obtain ⟨g1, g2, g3, g4⟩ := ih (List.pairwise_cons.1 ha).2 (List.pairwise_cons.1 hb).2
    have hx := (List.pairwise_cons.1 ha).1
    have hy := (List.pairwise_cons.1 hb).1
    have he : x = y := by omega
    subst he
    refine ⟨fun k => ?_, fun k => ?_, g3, g4⟩
    · rw [g1]
      constructor
      · rintro ⟨h, h'⟩
        refine ⟨List.mem_cons_of_mem _ h, fun hk => ?_⟩
        rcases List.mem_cons.1 hk with rfl | hk
        · exact absurd (hx k h) (by omega)
        · exact h' hk
      · rintro ⟨h, h'⟩
        rcases List.mem_cons.1 h with rfl | h
        · exact absurd List.mem_cons_self h'
        · exact ⟨h, fun hk => h' (List.mem_cons_of_mem _ hk)⟩
    · rw [g2]
      constructor
      · rintro ⟨h, h'⟩
        refine ⟨List.mem_cons_of_mem _ h, fun hk => ?_⟩
        rcases List.mem_cons.1 hk with rfl | hk
        · exact absurd (hy k h) (by omega)
        · exact h' hk
      · rintro ⟨h, h'⟩
        rcases List.mem_cons.1 h with rfl | h
        · exact absurd List.mem_cons_self h'
        · exact ⟨h, fun hk => h' (List.mem_cons_of_mem _ hk)⟩

example : merge [100, 200, 300] [50, 100, 300, 400] = ([200], [50, 400]) := by simp [merge]

end Verif.Engine
