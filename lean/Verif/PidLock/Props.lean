import Verif.PidLock.Model

/-
# Properties of the lock file
-/

set_option linter.unusedSimpArgs false
set_option linter.unusedVariables false

namespace Verif.PidLock

/-! ## Specification -/

/-- The process runs as the daemon with the lock. -/
def Runs (s : St) (p : Nat) : Prop := ∃ i b, s.pc p = .held i b

/-- The process has the file of the lock open. -/
def HasOpen (s : St) (p i : Nat) : Prop := ∃ b, s.pc p = .locking i b ∨ s.pc p = .writing i b ∨ s.pc p = .held i b

/-- The process has locked the file. -/
def HasLock (s : St) (p i : Nat) : Prop := ∃ b, s.pc p = .writing i b ∨ s.pc p = .held i b

/-- In this sequence of steps the file is removed only while no process has it open. -/
def Quiet (sees : Nat → Nat → Bool) : List (Nat × Act) → St → Prop
  | [], _ => True
  | l :: r, s => (l.2 = .unlink → ∀ q i, ¬ HasOpen s q i) ∧ ∀ s', step sees s l.1 l.2 = some s' → Quiet sees r s'

/-- How often the process took the lock. -/
def taken (sees : Nat → Nat → Bool) (p : Nat) : List (Nat × Act) → St → Nat
  | [], _ => 0
  | l :: r, s => match step sees s l.1 l.2 with
    | none => 0
    | some s' => (if l.1 = p ∧ l.2 = .write true then 1 else 0) + taken sees p r s'

/-- How often the process removed the file. -/
def removed (p : Nat) (l : List (Nat × Act)) : Nat := l.countP fun e => decide (e.1 = p ∧ e.2 = .unlink)

/-! ## Invariants -/

/-- The file locked. -/
def lockOf : Pc → Option Nat
  | .writing i _ => some i
  | .held i _ => some i
  | _ => none

/-- The file open. -/
def openOf : Pc → Option Nat
  | .locking i _ => some i
  | .writing i _ => some i
  | .held i _ => some i
  | _ => none

theorem hasLock_iff {s : St} {p i : Nat} : HasLock s p i ↔ lockOf (s.pc p) = some i := by
  unfold HasLock
  cases h : s.pc p <;> simp [lockOf]

theorem hasOpen_iff {s : St} {p i : Nat} : HasOpen s p i ↔ openOf (s.pc p) = some i := by
  unfold HasOpen
  cases h : s.pc p <;> simp [openOf]

structure Inv (s : St) : Prop where
  own : ∀ i p, s.owner i = some p ↔ lockOf (s.pc p) = some i
  fresh : ∀ p i, openOf (s.pc p) = some i → i < s.next
  path : ∀ i, s.path = some i → i < s.next

theorem inv_init : Inv init := by
  refine ⟨?_, ?_, ?_⟩
  · intro i p; simp [init, lockOf]
  · intro p i; simp [init, openOf]
  · intro i; simp [init]

theorem inv_step {sees : Nat → Nat → Bool} {s s' : St} {p : Nat} {a : Act} (h : Inv s) (hs : step sees s p a = some s') : Inv s' := by
  obtain ⟨h1, h2, h3⟩ := h
  simp only [step] at hs
  split at hs
  all_goals (try cases hs)
  all_goals (try (split at hs))
  all_goals (try cases hs)
  all_goals
    refine ⟨?_, ?_, ?_⟩
    · intro i q
      have e1 := h1 i q
      have e2 := h1 i p
      simp only [St.at, St.own, St.drop]
      grind [lockOf]
    · intro q i
      have e1 := h2 q i
      have e2 := h2 p i
      simp only [St.at, St.own, St.drop]
      grind [openOf]
    · intro i
      have e1 := h3 i
      simp only [St.at, St.own, St.drop]
      grind

theorem inv_run {sees : Nat → Nat → Bool} : ∀ (l : List (Nat × Act)) {s s' : St}, Inv s → run sees l s = some s' → Inv s' := by
  intro l
  induction l with
  | nil => intro s s' h hr; cases hr; exact h
  | cons e l ih =>
    intro s s' h hr
    simp only [run, Option.bind_eq_some_iff] at hr
    obtain ⟨t, h1, h2⟩ := hr
    exact ih (inv_step h h1) h2

/-- Every process that has the file open has the file at the path open. -/
def AtPath (s : St) : Prop := ∀ p i, openOf (s.pc p) = some i → s.path = some i

theorem atPath_step {sees : Nat → Nat → Bool} {s s' : St} {p : Nat} {a : Act} (h : AtPath s) (hq : a = .unlink → ∀ q i, ¬ HasOpen s q i)
    (hs : step sees s p a = some s') : AtPath s' := by
  simp only [step] at hs
  simp only [hasOpen_iff] at hq
  split at hs
  all_goals (try cases hs)
  all_goals (try (split at hs))
  all_goals (try cases hs)
  all_goals
    intro q i
    have e1 := h q i
    have e2 := h p i
    simp only [St.at, St.own, St.drop]
    grind [openOf]

theorem atPath_run {sees : Nat → Nat → Bool} : ∀ (l : List (Nat × Act)) {s s' : St}, AtPath s → Quiet sees l s → run sees l s = some s' → AtPath s' := by
  intro l
  induction l with
  | nil => intro s s' h _ hr; cases hr; exact h
  | cons e l ih =>
    intro s s' h hq hr
    simp only [run, Option.bind_eq_some_iff] at hr
    obtain ⟨t, h1, h2⟩ := hr
    exact ih (atPath_step h hq.1 h1) (hq.2 t h1) h2

theorem runs_lock {s : St} {p : Nat} (h : Runs s p) : ∃ i, lockOf (s.pc p) = some i ∧ openOf (s.pc p) = some i := by
  obtain ⟨i, b, h⟩ := h
  exact ⟨i, by simp [h, lockOf], by simp [h, openOf]⟩

/-- The processes past the search for running programs. -/
def past : Pc → Bool
  | .idle => false
  | .scanning => false
  | .done => false
  | _ => true

theorem past_ne {c : Pc} (h : past c = true) : c ≠ .idle ∧ c ≠ .scanning ∧ c ≠ .done := by
  cases c <;> simp_all [past]

/-- At most one process is past the search. -/
structure Alone (s : St) : Prop where
  one : ∀ p q, past (s.pc p) = true → past (s.pc q) = true → p = q
  started : ∀ p, s.pc p ≠ .idle → p ∈ s.started

theorem alone_step {sees : Nat → Nat → Bool} (hv : ∀ p q, sees p q = true) {s s' : St} {p : Nat} {a : Act} (h : Alone s)
    (hs : step sees s p a = some s') : Alone s' := by
  obtain ⟨h1, h2⟩ := h
  simp only [step] at hs
  split at hs
  all_goals (try cases hs)
  all_goals (try (split at hs))
  all_goals (try cases hs)
  all_goals
    refine ⟨?_, ?_⟩
    · intro q r
      have e1 := h1 q r
      have e2 := h1 p r
      have e3 := h1 q p
      have e4 := h2 q
      have e5 := h2 r
      have n1 := @past_ne (s.pc q)
      have n2 := @past_ne (s.pc r)
      simp only [St.at, St.own, St.drop]
      simp only [hv, List.any_eq_true, Bool.and_true, Bool.and_eq_true, decide_eq_true_eq, not_exists, not_and] at *
      by_cases hq : q = p
      · by_cases hr : r = p
        · grind
        · simp only [hq, hr, if_true, if_false] at *
          grind [past]
      · by_cases hr : r = p
        · simp only [hq, hr, if_true, if_false] at *
          grind [past]
        · simp only [hq, hr, if_true, if_false] at *
          grind [past]
    · intro q
      have e1 := h2 q
      have e2 := h2 p
      simp only [St.at, St.own, St.drop]
      grind

theorem alone_run {sees : Nat → Nat → Bool} (hv : ∀ p q, sees p q = true) : ∀ (l : List (Nat × Act)) {s s' : St}, Alone s →
    run sees l s = some s' → Alone s' := by
  intro l
  induction l with
  | nil => intro s s' h hr; cases hr; exact h
  | cons e l ih =>
    intro s s' h hr
    simp only [run, Option.bind_eq_some_iff] at hr
    obtain ⟨t, h1, h2⟩ := hr
    exact ih (alone_step hv h h1) h2

theorem idle_step {sees : Nat → Nat → Bool} {s s' : St} {p : Nat} {a : Act} (h : ∀ q ∈ s.started, s.pc q ≠ .idle)
    (hs : step sees s p a = some s') : ∀ q ∈ s'.started, s'.pc q ≠ .idle := by
  simp only [step] at hs
  split at hs
  all_goals (try cases hs)
  all_goals (try (split at hs))
  all_goals (try cases hs)
  all_goals
    intro q
    have e1 := h q
    simp only [St.at, St.own, St.drop]
    grind

theorem idle_run {sees : Nat → Nat → Bool} : ∀ (l : List (Nat × Act)) {s s' : St}, (∀ q ∈ s.started, s.pc q ≠ .idle) →
    run sees l s = some s' → ∀ q ∈ s'.started, s'.pc q ≠ .idle := by
  intro l
  induction l with
  | nil => intro s s' h hr; cases hr; exact h
  | cons e l ih =>
    intro s s' h hr
    simp only [run, Option.bind_eq_some_iff] at hr
    obtain ⟨t, h1, h2⟩ := hr
    exact ih (idle_step h h1) h2

theorem scan_found {sees : Nat → Nat → Bool} {s : St} {p : Nat} (h : s.pc p = .scanning)
    (hf : s.started.any (fun q => decide (q ≠ p) && sees p q && decide (s.pc q ≠ .done)) = true) :
    step sees s p .scan = some (s.at p .done) := by
  simp only [step, h]
  exact if_pos hf

theorem scan_clear {sees : Nat → Nat → Bool} {s : St} {p : Nat} (h : s.pc p = .scanning)
    (hf : ¬ s.started.any (fun q => decide (q ≠ p) && sees p q && decide (s.pc q ≠ .done)) = true) :
    step sees s p .scan = some (s.at p (.opening false)) := by
  simp only [step, h]
  exact if_neg hf

/-! ## C373: one daemon at a time -/

/-- C373: at any time at most one process runs as the daemon with the lock. -/
def C373_statement : Prop :=
  ∀ sees l s, run sees l init = some s → ∀ p q, Runs s p → Runs s q → p = q

/-- The daemon 0 ends while 1 starts: 0 closes the file, 1 opens and locks it, 0 removes it, and
2 makes a new one. None sees the others. -/
def overlap : List (Nat × Act) :=
  [(0, .start), (0, .scan), (0, .openOk), (0, .lock), (0, .write true), (0, .exit),
   (1, .start), (1, .scan), (1, .openOk), (1, .lock), (1, .write true), (0, .unlink),
   (2, .start), (2, .scan), (2, .openOk), (2, .lock), (2, .write true)]

theorem C373_violated : ¬ C373_statement := by
  intro h
  have hr : ∃ s, run (fun _ _ => false) overlap init = some s ∧ s.pc 1 = .held 0 false ∧ s.pc 2 = .held 1 false := ⟨_, rfl, rfl, rfl⟩
  obtain ⟨s, h1, h2, h3⟩ := hr
  have := h _ _ s h1 1 2 ⟨_, _, h2⟩ ⟨_, _, h3⟩
  omega

/-- C373 for sequences of steps in which the file is removed only while no process has it open. -/
theorem C373_one_daemon_partial (sees : Nat → Nat → Bool) (l : List (Nat × Act)) (s : St) (hq : Quiet sees l init) (h : run sees l init = some s) (p q : Nat)
    (hp : Runs s p) (hq' : Runs s q) : p = q := by
  have hi := inv_run l inv_init h
  have ha : AtPath s := atPath_run l (by intro p i h; simp [init, openOf] at h) hq h
  obtain ⟨i, h1, h2⟩ := runs_lock hp
  obtain ⟨j, h3, h4⟩ := runs_lock hq'
  have e1 := ha p i h2
  have e2 := ha q j h4
  rw [e1] at e2
  cases e2
  have o1 := (hi.own i p).2 h1
  have o2 := (hi.own i q).2 h3
  rw [o1] at o2
  cases o2
  rfl

/-- C373 if the search for running programs finds all other processes. -/
theorem C373_visible_partial (sees : Nat → Nat → Bool) (hv : ∀ p q, sees p q = true) (l : List (Nat × Act)) (s : St)
    (h : run sees l init = some s) (p q : Nat) (hp : Runs s p) (hq : Runs s q) : p = q := by
  have ha : Alone s := alone_run hv l ⟨by intro p q h; simp [init, past] at h, by intro p h; simp [init] at h⟩ h
  obtain ⟨i, b, hp⟩ := hp
  obtain ⟨j, c, hq⟩ := hq
  exact ha.one p q (by simp [hp, past]) (by simp [hq, past])

example : Quiet (fun _ _ => true) [(0, .start), (0, .scan), (0, .openOk), (0, .lock), (0, .write true), (0, .exit), (0, .unlink), (1, .start), (1, .scan), (1, .openOk),
      (1, .lock), (1, .write true)] init ∧
    ∃ s, run (fun _ _ => true) [(0, .start), (0, .scan), (0, .openOk), (0, .lock), (0, .write true), (0, .exit), (0, .unlink), (1, .start), (1, .scan), (1, .openOk),
      (1, .lock), (1, .write true)] init = some s ∧ Runs s 1 := by
  refine ⟨?_, ⟨_, rfl, 1, false, rfl⟩⟩
  simp only [Quiet, reduceCtorEq, false_imp_iff, true_and, and_true]
  intro s1 h1 s2 h2 s3 h3 s4 h4 s5 h5 s6 h6
  cases h1; cases h2; cases h3; cases h4; cases h5; cases h6
  refine ⟨?_, by intros; trivial⟩
  intro _ q i
  rw [hasOpen_iff]
  by_cases hq : q = 0 <;> simp [hq, St.at, St.own, init, openOf]

/-! ## C374: a file left behind is harmless -/

theorem finish {sees : Nat → Nat → Bool} {t : St} {p : Nat} (hp : t.pc p = .opening false) (ho : ∀ i, t.owner i = none) :
    ∃ s', run sees [(p, .openOk), (p, .lock), (p, .write true)] t = some s' ∧ Runs s' p := by
  cases hpath : t.path with
  | none =>
    refine ⟨{ path := some t.next, next := t.next + 1, owner := (fun j => if j = t.next then some p else t.owner j),
              pc := (fun q => if q = p then .held t.next false else t.pc q), started := t.started }, ?_, ⟨t.next, false, by simp⟩⟩
    simp only [run, step, hp, St.at, St.own, hpath, ho, Option.bind_some, if_true, true_or, Option.some.injEq, St.mk.injEq, true_and,
      and_true]
    funext q
    by_cases hq : q = p <;> simp [hq]
  | some i =>
    refine ⟨{ path := some i, next := t.next, owner := (fun j => if j = i then some p else t.owner j),
              pc := (fun q => if q = p then .held i false else t.pc q), started := t.started }, ?_, ⟨i, false, by simp⟩⟩
    simp only [run, step, hp, St.at, St.own, hpath, ho, Option.bind_some, if_true, true_or, Option.some.injEq, St.mk.injEq, true_and,
      and_true]
    funext q
    by_cases hq : q = p <;> simp [hq]

/-- C374: if no process has locked a file (whatever files were left behind by processes that were
killed), a new process that finds no other can start: it opens the file, locks it and runs. -/
theorem C374_left_behind (sees : Nat → Nat → Bool) (l : List (Nat × Act)) (s : St) (h : run sees l init = some s) (p : Nat)
    (hp : s.pc p = .idle) (hv : ∀ q, q ≠ p → sees p q = true → s.pc q = .idle ∨ s.pc q = .done) (hn : ∀ q i, ¬ HasLock s q i) :
    ∃ s', run sees [(p, .start), (p, .scan), (p, .openOk), (p, .lock), (p, .write true)] s = some s' ∧ Runs s' p := by
  have hs := idle_run l (by intro q hq; cases hq) h
  have hi := inv_run l inv_init h
  have ho : ∀ i, s.owner i = none := by
    intro i
    cases hc : s.owner i with
    | none => rfl
    | some q => exact absurd (hasLock_iff.2 ((hi.own i q).1 hc)) (hn q i)
  have e1 : step sees s p .start = some { s.at p .scanning with started := p :: s.started } := by simp [step, hp]
  have e2 : step sees { s.at p .scanning with started := p :: s.started } p .scan =
      some ({ s.at p .scanning with started := p :: s.started }.at p (.opening false)) := by
    refine scan_clear (by simp [St.at]) ?_
    simp only [List.any_eq_true, Bool.and_eq_true, decide_eq_true_eq, not_exists, not_and]
    intro q hq hqp hc
    simp only [St.at, hqp.1, if_false] at hc
    rcases hv q hqp.1 hqp.2 with h' | h'
    · rcases List.mem_cons.1 hq with h'' | h''
      · exact hqp.1 h''
      · exact hs q h'' h'
    · exact hc h'
  rw [run, e1, Option.bind_some, run, e2, Option.bind_some]
  exact finish (by simp [St.at]) ho

example : ∃ s, run (fun _ _ => true) [(0, .start), (0, .scan), (0, .openOk), (0, .lock), (0, .write true), (0, .kill)] init = some s ∧ s.path = some 0 ∧
    s.pc 1 = .idle := ⟨_, rfl, rfl, rfl⟩

/-! ## C375: a second daemon is refused -/

/-- C375: while a process runs with the file at the path, another that starts ends, at the latest when
it tries to lock the file, and leaves the file, its lock and the other processes alone. -/
theorem C375_refused (sees : Nat → Nat → Bool) (l : List (Nat × Act)) (s : St) (h : run sees l init = some s) (p i : Nat) (b : Bool)
    (hp : s.pc p = .held i b) (hpath : s.path = some i) (q : Nat) (hq : s.pc q = .idle) :
    ∃ s', (run sees [(q, .start), (q, .scan)] s = some s' ∨ run sees [(q, .start), (q, .scan), (q, .openOk), (q, .lock)] s = some s') ∧
      s'.pc q = .done ∧ s'.path = some i ∧ s'.owner i = some p ∧ ∀ r, r ≠ q → s'.pc r = s.pc r := by
  have hi := inv_run l inv_init h
  have ho : s.owner i = some p := (hi.own i p).2 (by simp [hp, lockOf])
  have hne : p ≠ q := by
    intro e; rw [e, hq] at hp; cases hp
  have e1 : step sees s q .start = some { s.at q .scanning with started := q :: s.started } := by simp [step, hq]
  refine ⟨{ s.at q .done with started := q :: s.started }, ?_, ?_, ?_, ?_, ?_⟩
  · by_cases hf : ({ s.at q .scanning with started := q :: s.started } : St).started.any (fun r => decide (r ≠ q) && sees q r &&
        decide (({ s.at q .scanning with started := q :: s.started } : St).pc r ≠ .done))
    · left
      have e2 : step sees { s.at q .scanning with started := q :: s.started } q .scan =
          some ({ s.at q .scanning with started := q :: s.started }.at q .done) := scan_found (by simp [St.at]) hf
      rw [run, e1, Option.bind_some, run, e2, Option.bind_some, run, Option.some.injEq]
      simp only [St.at, St.mk.injEq, true_and, and_true]
      funext r
      by_cases hr : r = q <;> simp [hr]
    · right
      have e2 : step sees { s.at q .scanning with started := q :: s.started } q .scan =
          some ({ s.at q .scanning with started := q :: s.started }.at q (.opening false)) := scan_clear (by simp [St.at]) hf
      rw [run, e1, Option.bind_some, run, e2, Option.bind_some]
      simp [run, step, St.at, hpath, ho, hne]
      funext r
      by_cases hr : r = q <;> simp [hr]
  · simp [St.at]
  · simp [St.at, hpath]
  · simp [St.at, ho]
  · intro r hr
    simp [St.at, hr]

example : ∃ s, run (fun _ _ => true) [(0, .start), (0, .scan), (0, .openOk), (0, .lock), (0, .write true)] init = some s ∧ s.pc 0 = .held 0 false ∧
    s.path = some 0 ∧ s.pc 1 = .idle := ⟨_, rfl, rfl, rfl, rfl⟩

/-! ## C376: the file is removed once -/

/-- C376: a process removes the file at most as often as it took the lock. -/
def C376_statement : Prop := ∀ sees l s, run sees l init = some s → ∀ p, removed p l ≤ taken sees p l init

/-- `daemon` fails: the file is removed twice, the second time it may be the file of another process. -/
theorem C376_violated : ¬ C376_statement := by
  intro h
  have := h (fun _ _ => true) [(0, .start), (0, .scan), (0, .openOk), (0, .lock), (0, .write true), (0, .daemonize), (0, .unlink),
    (0, .fork false), (0, .unlink)] _ rfl 0
  exact absurd this (by decide)

/-- What a process may still remove. -/
def pending : Pc → Nat
  | .held _ _ => 1
  | .unlinking _ => 1
  | _ => 0

theorem pending_step {sees : Nat → Nat → Bool} {s s' : St} {p : Nat} {e : Nat × Act} (hf : e.2 ≠ .fork false) (hs : step sees s e.1 e.2 = some s') :
    (if e.1 = p ∧ e.2 = .unlink then 1 else 0) + pending (s'.pc p) ≤
      (if e.1 = p ∧ e.2 = .write true then 1 else 0) + pending (s.pc p) := by
  obtain ⟨q, a⟩ := e
  simp only [step] at hs
  simp only at hf ⊢
  split at hs
  all_goals (try cases hs)
  all_goals (try (split at hs))
  all_goals (try cases hs)
  all_goals
    simp only [St.at, St.own, St.drop]
    grind [pending]

theorem removed_run (sees : Nat → Nat → Bool) (p : Nat) : ∀ (l : List (Nat × Act)) (s s' : St), (∀ e ∈ l, e.2 ≠ .fork false) → run sees l s = some s' →
    removed p l + pending (s'.pc p) ≤ taken sees p l s + pending (s.pc p) := by
  intro l
  induction l with
  | nil => intro s s' _ hr; cases hr; simp [removed, taken]
  | cons e l ih =>
    intro s s' hf hr
    simp only [run, Option.bind_eq_some_iff] at hr
    obtain ⟨t, h1, h2⟩ := hr
    have i1 := ih t s' (fun e he => hf e (List.mem_cons_of_mem _ he)) h2
    have i2 := pending_step (p := p) (hf e List.mem_cons_self) h1
    have e1 : removed p (e :: l) = removed p l + if e.1 = p ∧ e.2 = .unlink then 1 else 0 := by
      simp only [removed, List.countP_cons, decide_eq_true_eq]
    simp only [e1, taken, h1]
    omega

/-- C376 if `daemon` does not fail. -/
theorem C376_removed_partial (sees : Nat → Nat → Bool) (l : List (Nat × Act)) (s : St) (hf : ∀ e ∈ l, e.2 ≠ .fork false) (h : run sees l init = some s) (p : Nat) :
    removed p l ≤ taken sees p l init := by
  have := removed_run sees p l init s hf h
  simp only [init, pending] at this ⊢
  omega

example : ∃ s, run (fun _ _ => true) [(0, .start), (0, .scan), (0, .openOk), (0, .lock), (0, .write true), (0, .daemonize), (0, .unlink), (0, .fork true),
    (0, .openOk), (0, .lock), (0, .write true), (0, .exit), (0, .unlink)] init = some s ∧ s.pc 0 = .done := ⟨_, rfl, rfl⟩

end Verif.PidLock
