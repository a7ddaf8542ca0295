import Verif.Exit.Model

/-
# Properties of the end of the daemon
-/

set_option linter.unusedSimpArgs false
set_option linter.unusedVariables false

namespace Verif.Exit

/-! ## Specification -/

/-- The error a source gives as reason to end: a request to exit is none (0). -/
inductive Reason : Ready → Int → Prop
  | int {l} (h : .int ∈ l) : Reason (.signals l) 0
  | term {l} (h : .term ∈ l) : Reason (.signals l) 0
  | command : Reason (.user (.control .exit)) 0
  | engine {l c} (h : .exitNotify c ∈ l) : Reason (.messages l) c
  | helperKilled : Reason (.user (.helper .killed)) 10
  | helperEnded (c) : Reason (.user (.helper (.exited c))) c
  | helperLost (e) : Reason (.user (.helper (.failed e))) e

/-- The reasons in a sequence of results of `epoll_wait`. -/
inductive Given : List Poll → Int → Prop
  | failed {ps e} (h : .failed e ∈ ps) : Given ps e
  | ready {ps l r c} (hl : .ready l ∈ ps) (hr : r ∈ l) (h : Reason r c) : Given ps c

/-- The results of `epoll_wait` are as the kernel gives them: the exit event is among those ready exactly if it was sent
before. -/
def Kernel : List Poll → St → Prop
  | [], _ => True
  | p :: ps, s =>
    (∀ l, p = .ready l → (.exit ∈ l ↔ s.posted = true)) ∧
    match turn s p with
    | .running s' => Kernel ps s'
    | .ended _ _ => True

/-- What a signal asks for. -/
inductive SignalAsks : Signal → List Act → Prop
  | int : SignalAsks .int []
  | term : SignalAsks .term []
  | hup : SignalAsks .hup [.rotate]
  | usr1 : SignalAsks .usr1 [.step]
  | test {n} (h : n ≤ 16) : SignalAsks (.rt n) [.test n]
  | none {n} (h : 16 < n) : SignalAsks (.rt n) []

/-- What a command asks for. -/
def commandAsks : Cmd → List Act
  | .logrotate => [.rotate]
  | .stepclocks => [.step]
  | .selectinstance => [.select]
  | .testmode id => [.test id]
  | .dumptables => [.dump]
  | .pidAdjust => [.pid]
  | _ => []

/-! ## Lemmas -/

theorem signals_code (l : List Signal) : ∀ s : St, (l.foldl onSignal s = { s with acts := (l.foldl onSignal s).acts } ∧
      .int ∉ l ∧ .term ∉ l) ∨ ((l.foldl onSignal s).code = 0 ∧ (l.foldl onSignal s).posted = true ∧ (.int ∈ l ∨ .term ∈ l)) := by
  induction l with
  | nil => intro s; exact .inl ⟨rfl, by simp, by simp⟩
  | cons g l ih =>
    intro s
    rw [List.foldl_cons]
    have hg : (onSignal s g = { s with acts := (onSignal s g).acts } ∧ g ≠ .int ∧ g ≠ .term) ∨
        ((onSignal s g).code = 0 ∧ (onSignal s g).posted = true ∧ (g = .int ∨ g = .term)) := by
      cases g with
      | rt n => left; refine ⟨?_, by simp, by simp⟩; simp only [onSignal, St.ask]; split <;> rfl
      | _ => simp [onSignal, exitWith, St.ask]
    rcases ih (onSignal s g) with ⟨h1, h2, h3⟩ | ⟨h1, h2, h3⟩
    · rcases hg with ⟨g1, g2, g3⟩ | ⟨g1, g2, g3⟩
      · left
        refine ⟨?_, by simp [h2, Ne.symm g2], by simp [h3, Ne.symm g3]⟩
        rw [h1, g1]
      · right
        rw [h1]
        refine ⟨g1, g2, ?_⟩
        rcases g3 with rfl | rfl <;> simp
    · right
      exact ⟨h1, h2, h3.imp (List.mem_cons_of_mem _) (List.mem_cons_of_mem _)⟩

theorem messages_code (l : List Msg) : ∀ s : St, (l.foldl onMessage s = s ∧ ∀ c, .exitNotify c ∉ l) ∨
      ((l.foldl onMessage s).posted = true ∧ (l.foldl onMessage s).acts = s.acts ∧ .exitNotify (l.foldl onMessage s).code ∈ l) := by
  induction l with
  | nil => intro s; exact .inl ⟨rfl, by simp⟩
  | cons m l ih =>
    intro s
    rw [List.foldl_cons]
    rcases ih (onMessage s m) with ⟨h1, h2⟩ | ⟨h1, h2, h3⟩
    · rw [h1]
      cases m with
      | other => left; exact ⟨rfl, by simp [h2]⟩
      | exitNotify c => right; exact ⟨rfl, rfl, by simp [onMessage, exitWith]⟩
    · right
      refine ⟨h1, ?_, List.mem_cons_of_mem _ h3⟩
      rw [h2]; cases m <;> rfl

theorem user_code (us : List UserFd) : ∀ s : St, ((us.foldl onUser s).code = s.code ∧ (us.foldl onUser s).posted = s.posted ∧
      ∀ u ∈ us, ∀ c, ¬ Reason (.user u) c) ∨
    ((us.foldl onUser s).posted = true ∧ ∃ u ∈ us, Reason (.user u) (us.foldl onUser s).code) := by
  induction us with
  | nil => intro s; exact .inl ⟨rfl, rfl, by simp⟩
  | cons u us ih =>
    intro s
    rw [List.foldl_cons]
    have hu : ((onUser s u).code = s.code ∧ (onUser s u).posted = s.posted ∧ ∀ c, ¬ Reason (.user u) c) ∨
        ((onUser s u).posted = true ∧ Reason (.user u) (onUser s u).code) := by
      cases u with
      | other => left; exact ⟨rfl, rfl, fun c h => by cases h⟩
      | control c =>
        cases c with
        | exit => right; exact ⟨rfl, .command⟩
        | _ => left; exact ⟨rfl, rfl, fun c h => by cases h⟩
      | helper w =>
        cases w with
        | none => left; exact ⟨rfl, rfl, fun c h => by cases h⟩
        | failed e => right; exact ⟨rfl, .helperLost e⟩
        | exited e => right; exact ⟨rfl, .helperEnded e⟩
        | killed => right; exact ⟨rfl, .helperKilled⟩
    rcases ih (onUser s u) with ⟨h1, h2, h3⟩ | ⟨h1, v, hv, h2⟩
    · rcases hu with ⟨g1, g2, g3⟩ | ⟨g1, g2⟩
      · left
        refine ⟨h1.trans g1, h2.trans g2, fun v hv => ?_⟩
        rcases List.mem_cons.1 hv with rfl | hv
        · exact g3
        · exact h3 v hv
      · right
        exact ⟨h2.trans g1, u, by simp, by rw [h1]; exact g2⟩
    · right
      exact ⟨h1, v, List.mem_cons_of_mem _ hv, h2⟩

/-- The loop over the events: the code is the old one, without a reason among the signals and messages looked at, or
given by one of them. -/
theorem events_code (l : List Ready) : ∀ (s : St) (us : List UserFd),
    ((events l s us).2.1 = true ↔ .exit ∈ l) ∧
    (((events l s us).1.code = s.code ∧ (events l s us).1.posted = s.posted ∧
      (.exit ∉ l → ∀ r ∈ l, (∀ u, r ≠ .user u) → ∀ c, ¬ Reason r c)) ∨
     ((events l s us).1.posted = true ∧ ∃ r ∈ l, Reason r (events l s us).1.code)) ∧
    (∀ u ∈ (events l s us).2.2, u ∈ us ∨ .user u ∈ l) ∧
    (.exit ∉ l → ∀ u, .user u ∈ l → u ∈ (events l s us).2.2) ∧
    (∀ u ∈ us, u ∈ (events l s us).2.2) := by
  induction l with
  | nil => intro s us; refine ⟨by simp [events], .inl ⟨rfl, rfl, by simp⟩, ?_, by simp, ?_⟩ <;> simp [events]
  | cons x l ih =>
    intro s us
    cases x with
    | exit => refine ⟨by simp [events], .inl ⟨rfl, rfl, by simp⟩, ?_, by simp, ?_⟩ <;> simp [events] <;> (intro u hu; exact .inl hu)
    | event =>
      obtain ⟨h1, h2, h3, h4, h5⟩ := ih s us
      simp only [events]
      refine ⟨by simpa using h1, ?_, fun u hu => (h3 u hu).imp id (List.mem_cons_of_mem _), ?_, h5⟩
      · rcases h2 with ⟨a, b, c⟩ | ⟨a, r, hr, b⟩
        · refine .inl ⟨a, b, fun hx r hr hn k hk => ?_⟩
          rcases List.mem_cons.1 hr with rfl | hr
          · cases hk
          · exact c (fun h => hx (List.mem_cons_of_mem _ h)) r hr hn k hk
        · exact .inr ⟨a, r, List.mem_cons_of_mem _ hr, b⟩
      · intro hx u hu
        exact h4 (fun h => hx (List.mem_cons_of_mem _ h)) u (by simpa using hu)
    | user v =>
      obtain ⟨h1, h2, h3, h4, h5⟩ := ih s (us ++ [v])
      simp only [events]
      refine ⟨by simpa using h1, ?_, fun u hu => ?_, ?_, fun u hu => h5 u (by simp [hu])⟩
      · rcases h2 with ⟨a, b, c⟩ | ⟨a, r, hr, b⟩
        · refine .inl ⟨a, b, fun hx r hr hn k hk => ?_⟩
          rcases List.mem_cons.1 hr with rfl | hr
          · exact hn v rfl
          · exact c (fun h => hx (List.mem_cons_of_mem _ h)) r hr hn k hk
        · exact .inr ⟨a, r, List.mem_cons_of_mem _ hr, b⟩
      · rcases h3 u hu with h | h
        · rcases List.mem_append.1 h with h | h
          · exact .inl h
          · simp only [List.mem_singleton] at h; subst h; exact .inr (by simp)
        · exact .inr (List.mem_cons_of_mem _ h)
      · intro hx u hu
        rcases List.mem_cons.1 hu with h | hu
        · cases h; exact h5 v (by simp)
        · exact h4 (fun h => hx (List.mem_cons_of_mem _ h)) u hu
    | signals g =>
      obtain ⟨h1, h2, h3, h4, h5⟩ := ih (g.foldl onSignal s) us
      simp only [events]
      refine ⟨by simpa using h1, ?_, fun u hu => (h3 u hu).imp id (List.mem_cons_of_mem _), ?_, h5⟩
      · rcases h2 with ⟨a, b, c⟩ | ⟨a, r, hr, b⟩
        · rcases signals_code g s with ⟨e1, e2, e3⟩ | ⟨e1, e2, e3⟩
          · refine .inl ⟨by rw [a, e1], by rw [b, e1], fun hx r hr hn k hk => ?_⟩
            rcases List.mem_cons.1 hr with rfl | hr
            · cases hk with
              | int h => exact e2 h
              | term h => exact e3 h
            · exact c (fun h => hx (List.mem_cons_of_mem _ h)) r hr hn k hk
          · refine .inr ⟨b.trans e2, .signals g, by simp, ?_⟩
            rw [a, e1]
            exact e3.elim .int .term
        · exact .inr ⟨a, r, List.mem_cons_of_mem _ hr, b⟩
      · intro hx u hu
        exact h4 (fun h => hx (List.mem_cons_of_mem _ h)) u (by simpa using hu)
    | messages g =>
      obtain ⟨h1, h2, h3, h4, h5⟩ := ih (g.foldl onMessage s) us
      simp only [events]
      refine ⟨by simpa using h1, ?_, fun u hu => (h3 u hu).imp id (List.mem_cons_of_mem _), ?_, h5⟩
      · rcases h2 with ⟨a, b, c⟩ | ⟨a, r, hr, b⟩
        · rcases messages_code g s with ⟨e1, e2⟩ | ⟨e1, e2, e3⟩
          · refine .inl ⟨by rw [a, e1], by rw [b, e1], fun hx r hr hn k hk => ?_⟩
            rcases List.mem_cons.1 hr with rfl | hr
            · cases hk with
              | engine h => exact e2 _ h
            · exact c (fun h => hx (List.mem_cons_of_mem _ h)) r hr hn k hk
          · refine .inr ⟨b.trans e1, .messages g, by simp, ?_⟩
            rw [a]
            exact .engine e3
        · exact .inr ⟨a, r, List.mem_cons_of_mem _ hr, b⟩
      · intro hx u hu
        exact h4 (fun h => hx (List.mem_cons_of_mem _ h)) u (by simpa using hu)

/-- A turn that goes on. -/
theorem turn_running {s s' : St} {l : List Ready} (h : turn s (.ready l) = .running s') :
    .exit ∉ l ∧ ((s'.code = s.code ∧ s'.posted = s.posted ∧ ∀ r ∈ l, ∀ c, ¬ Reason r c) ∨
      (s'.posted = true ∧ ∃ r ∈ l, Reason r s'.code)) := by
  obtain ⟨h1, h2, h3, h4, h5⟩ := events_code l s []
  simp only [turn] at h
  split at h
  · cases h
  · rename_i hne
    have hx : .exit ∉ l := fun hx => hne (h1.2 hx)
    cases h
    refine ⟨hx, ?_⟩
    rcases user_code (events l s []).2.2 (events l s []).1 with ⟨a, b, c⟩ | ⟨a, u, hu, b⟩
    · rcases h2 with ⟨a', b', c'⟩ | ⟨a', r, hr, b'⟩
      · refine .inl ⟨a.trans a', b.trans b', fun r hr k hk => ?_⟩
        by_cases hn : ∃ u, r = .user u
        · obtain ⟨u, rfl⟩ := hn
          exact c u (h4 hx u hr) k hk
        · exact c' hx r hr (fun u hu => hn ⟨u, hu⟩) k hk
      · exact .inr ⟨b.trans a', r, hr, by rw [a]; exact b'⟩
    · refine .inr ⟨a, .user u, ?_, b⟩
      rcases h3 u hu with h | h
      · cases h
      · exact h

/-- A turn that ends. -/
theorem turn_ended {s : St} {l : List Ready} {c : Int} {a : List Act} (h : turn s (.ready l) = .ended c a) :
    .exit ∈ l ∧ (c = s.code ∨ ∃ r ∈ l, Reason r c) := by
  obtain ⟨h1, h2, -⟩ := events_code l s []
  simp only [turn] at h
  split at h
  · rename_i he
    cases h
    refine ⟨h1.1 he, ?_⟩
    rcases h2 with ⟨a, -⟩ | ⟨-, r, hr, b⟩
    · exact .inl a
    · exact .inr ⟨r, hr, b⟩
  · cases h

theorem Given.mono {p : Poll} {ps : List Poll} {c : Int} (h : Given ps c) : Given (p :: ps) c := by
  cases h with
  | failed h => exact .failed (List.mem_cons_of_mem _ h)
  | ready hl hr h => exact .ready (List.mem_cons_of_mem _ hl) hr h

theorem loop_code (ps : List Poll) : ∀ (s : St) (c : Int) (a : List Act), Kernel ps s → loop ps s = .ended c a →
    Given ps c ∨ (s.posted = true ∧ c = s.code) := by
  induction ps with
  | nil => intro s c a _ h; cases h
  | cons p ps ih =>
    intro s c a hk h
    simp only [loop] at h
    obtain ⟨k1, k2⟩ := hk
    cases p with
    | interrupted => exact (ih s c a k2 h).imp Given.mono id
    | failed e => cases h; exact .inl (.failed (by simp))
    | ready l =>
      cases ht : turn s (.ready l) with
      | ended c' a' =>
        rw [ht] at h
        cases h
        obtain ⟨hx, h2⟩ := turn_ended ht
        rcases h2 with rfl | ⟨r, hr, h2⟩
        · exact .inr ⟨(k1 l rfl).1 hx, rfl⟩
        · exact .inl (.ready (by simp) hr h2)
      | running s' =>
        rw [ht] at h k2
        rcases ih s' c a k2 h with h3 | ⟨h3, rfl⟩
        · exact .inl h3.mono
        · rcases (turn_running ht).2 with ⟨e1, e2, -⟩ | ⟨-, r, hr, e2⟩
          · exact .inr ⟨e2 ▸ h3, e1⟩
          · exact .inl (.ready (by simp) hr e2)

/-! ## C383: what ends the daemon -/

/-- C383: the daemon ends only for a reason: a signal or command to exit, the end of the engine or of the helper, or a failure
to wait for events; and the code is one given by such a reason. -/
theorem C383_reason (ps : List Poll) (c : Int) (a : List Act) (hk : Kernel ps init) (h : loop ps init = .ended c a) :
    Given ps c := by
  rcases loop_code ps init c a hk h with h | ⟨h, -⟩
  · exact h
  · cases h

example : ∃ a, loop [.ready [.signals [.hup, .term]], .interrupted, .ready [.exit]] init = .ended 0 a := ⟨_, rfl⟩

example : Kernel [.ready [.signals [.hup, .term]], .interrupted, .ready [.exit]] init := by
  refine ⟨?_, ?_, ?_, trivial⟩ <;> intro l hl <;> cases hl <;> decide

/-! ## C384: it ends at once -/

theorem loop_posted (ps : List Poll) (s : St) (hp : s.posted = true) (hk : Kernel ps s)
    (hs : ∃ p ∈ ps, p ≠ .interrupted) : ∃ c a, loop ps s = .ended c a := by
  induction ps with
  | nil => simp at hs
  | cons p ps ih =>
    obtain ⟨k1, k2⟩ := hk
    cases p with
    | interrupted =>
      refine ih k2 ?_
      obtain ⟨p, hp1, hp2⟩ := hs
      rcases List.mem_cons.1 hp1 with rfl | h
      · exact absurd rfl hp2
      · exact ⟨p, h, hp2⟩
    | failed e => exact ⟨e, s.acts, rfl⟩
    | ready l =>
      cases ht : turn s (.ready l) with
      | ended c a => exact ⟨c, a, by simp only [loop, ht]⟩
      | running s' => exact absurd ((k1 l rfl).2 hp) (turn_running ht).1

/-- C384: given a reason to end, the daemon ends in the same turn or the next that is not interrupted, whatever else
happens. -/
theorem C384_at_once (pre post : List Poll) (l : List Ready) (r : Ready) (k : Int) (hr : r ∈ l) (hR : Reason r k)
    (hk : Kernel (pre ++ .ready l :: post) init) (hs : ∃ p ∈ post, p ≠ .interrupted) :
    ∃ c a, loop (pre ++ .ready l :: post) init = .ended c a := by
  revert hk
  generalize init = s
  induction pre generalizing s with
  | nil =>
    intro hk
    obtain ⟨k1, k2⟩ := hk
    cases ht : turn s (.ready l) with
    | ended c a => exact ⟨c, a, by simp only [List.nil_append, loop, ht]⟩
    | running s' =>
      rw [ht] at k2
      simp only [List.nil_append, loop, ht]
      rcases (turn_running ht).2 with ⟨-, -, h⟩ | ⟨h, -⟩
      · exact absurd hR (h r hr k)
      · exact loop_posted post s' h k2 hs
  | cons p pre ih =>
    intro hk
    obtain ⟨k1, k2⟩ := hk
    cases ht : turn s p with
    | ended c a => exact ⟨c, a, by simp only [List.cons_append, loop, ht]⟩
    | running s' =>
      rw [ht] at k2
      simp only [List.cons_append, loop, ht]
      exact ih s' k2

example : Kernel ([.interrupted] ++ .ready [.event, .messages [.other, .exitNotify 5]] :: [.interrupted, .ready [.event, .exit]]) init := by
  refine ⟨?_, ?_, ?_, ?_, trivial⟩ <;> intro l hl <;> cases hl <;> decide

/-! ## C385: the status after a request to exit -/

/-- C385: if the first reason to end is a request, the daemon ends with status 0. -/
def C385_statement : Prop :=
  ∀ (l : List Ready) (post : List Poll) (c : Int) (a : List Act), (∃ g rest, l = .signals g :: rest ∧ (.int ∈ g ∨ .term ∈ g)) →
    Kernel (.ready l :: post) init → loop (.ready l :: post) init = .ended c a → status c = 0

/-- Stopped as a service, all processes get the signal: the daemon takes the end of the helper as a failure. -/
theorem C385_violated : ¬ C385_statement := by
  intro h
  have hk : Kernel [.ready [.signals [.term], .user (.helper .killed)], .ready [.exit]] init := by
    refine ⟨?_, ?_, trivial⟩ <;> intro l hl <;> cases hl <;> decide
  exact absurd (h [.signals [.term], .user (.helper .killed)] [.ready [.exit]] 10 [] ⟨_, _, rfl, by simp⟩ hk rfl) (by decide)

/-- C385 if nothing else ends: the status is 0 if all reasons given are requests, or ends without error. -/
theorem C385_request_partial (ps : List Poll) (c : Int) (a : List Act) (hk : Kernel ps init) (h : loop ps init = .ended c a)
    (hr : ∀ k, Given ps k → k = 0) : status c = 0 := by
  rw [hr c (C383_reason ps c a hk h)]
  rfl

example : ∀ k, Given [.ready [.signals [.term]], .ready [.user (.control .exit), .exit]] k → k = 0 := by
  intro k h
  cases h with
  | failed h => simp at h
  | ready hl hr h =>
    simp only [List.mem_cons, Poll.ready.injEq, List.not_mem_nil, or_false] at hl
    rcases hl with rfl | rfl
    · simp only [List.mem_singleton] at hr
      subst hr
      cases h <;> rfl
    · simp only [List.mem_cons, List.not_mem_nil, or_false] at hr
      rcases hr with rfl | rfl <;> cases h
      rfl

/-! ## C386: the status after a failure -/

/-- C386: if only failures are given as reasons (errors from 1 to 255 other than `ESHUTDOWN`), the status of the daemon is not 0,
so that a supervisor starts it again. -/
theorem C386_failure (ps : List Poll) (c : Int) (a : List Act) (hk : Kernel ps init) (h : loop ps init = .ended c a)
    (hr : ∀ k, Given ps k → 0 < k ∧ k < 256 ∧ k ≠ 108) : status c ≠ 0 ∧ Given ps (status c) := by
  have hg := C383_reason ps c a hk h
  obtain ⟨h1, h2, h3⟩ := hr c hg
  have e : status c = c := by
    simp only [status, if_neg h3]
    omega
  rw [e]
  exact ⟨by omega, hg⟩

example : ∃ c a, loop [.ready [.event, .user (.helper .killed)], .ready [.signals [.hup], .exit]] init = .ended c a ∧ status c = 10 :=
  ⟨_, _, rfl, rfl⟩

/-! ## C387: signals and commands are passed on -/

/-- The requests of the signals of a turn, one after the other. -/
inductive SignalsAsk : List Signal → List Act → Prop
  | nil : SignalsAsk [] []
  | cons {g l x y} (h : SignalAsks g x) (t : SignalsAsk l y) : SignalsAsk (g :: l) (x ++ y)

/-- All signals of the ready sources, in order. -/
def signalsOf (l : List Ready) : List Signal := l.flatMap fun r => match r with
  | .signals g => g
  | _ => []

/-- All commands of the ready sources, in order. -/
def commandsOf (l : List Ready) : List Cmd := l.flatMap fun r => match r with
  | .user (.control c) => [c]
  | _ => []

/-- The requests of a sequence of turns: in each first those of the signals, then those of the commands. -/
inductive Asks : List Poll → List Act → Prop
  | nil : Asks [] []
  | interrupted {ps x} (t : Asks ps x) : Asks (.interrupted :: ps) x
  | ready {l ps x y} (h : SignalsAsk (signalsOf l) x) (t : Asks ps y) :
      Asks (.ready l :: ps) (x ++ (commandsOf l).flatMap commandAsks ++ y)

theorem signals_acts (l : List Signal) : ∀ s : St, ∃ x, SignalsAsk l x ∧ (l.foldl onSignal s).acts = s.acts ++ x := by
  induction l with
  | nil => intro s; exact ⟨[], .nil, by simp⟩
  | cons g l ih =>
    intro s
    obtain ⟨y, h1, h2⟩ := ih (onSignal s g)
    have hg : ∃ x, SignalAsks g x ∧ (onSignal s g).acts = s.acts ++ x := by
      cases g with
      | int => exact ⟨[], .int, by simp [onSignal, exitWith]⟩
      | term => exact ⟨[], .term, by simp [onSignal, exitWith]⟩
      | hup => exact ⟨_, .hup, rfl⟩
      | usr1 => exact ⟨_, .usr1, rfl⟩
      | rt n =>
        by_cases hn : n ≤ 16
        · exact ⟨_, .test hn, by simp only [onSignal]; rw [if_pos (by simp only [testIdMax]; omega)]; rfl⟩
        · exact ⟨[], .none (by omega), by simp only [onSignal]; rw [if_neg (by simp only [testIdMax]; omega)]; simp⟩
    obtain ⟨x, h3, h4⟩ := hg
    exact ⟨x ++ y, .cons h3 h1, by rw [List.foldl_cons, h2, h4, List.append_assoc]⟩

theorem SignalsAsk.append {l m : List Signal} {x y : List Act} (h : SignalsAsk l x) (k : SignalsAsk m y) :
    SignalsAsk (l ++ m) (x ++ y) := by
  induction h with
  | nil => exact k
  | cons h t ih => rw [List.cons_append, List.append_assoc]; exact .cons h ih

/-- The commands among descriptors. -/
def cmds (us : List UserFd) : List Cmd := us.flatMap fun u => match u with
  | .control c => [c]
  | _ => []

theorem user_acts (us : List UserFd) : ∀ s : St, (us.foldl onUser s).acts = s.acts ++ (cmds us).flatMap commandAsks := by
  induction us with
  | nil => intro s; simp [cmds]
  | cons u us ih =>
    intro s
    rw [List.foldl_cons, ih]
    have hu : (onUser s u).acts = s.acts ++ (cmds [u]).flatMap commandAsks := by
      cases u with
      | other => simp [cmds, onUser]
      | helper w => cases w <;> simp [cmds, onUser, exitWith]
      | control c => cases c <;> simp [cmds, onUser, onControl, exitWith, St.ask, commandAsks]
    have hc : cmds (u :: us) = cmds [u] ++ cmds us := by simp [cmds]
    rw [hu, hc, List.flatMap_append, List.append_assoc]

theorem events_acts (l : List Ready) : ∀ (s : St) (us : List UserFd), .exit ∉ l →
    (∃ x, SignalsAsk (signalsOf l) x ∧ (events l s us).1.acts = s.acts ++ x) ∧
    cmds (events l s us).2.2 = cmds us ++ commandsOf l := by
  induction l with
  | nil => intro s us _; exact ⟨⟨[], .nil, by simp [events]⟩, by simp [events, commandsOf]⟩
  | cons r l ih =>
    intro s us hx
    have hx' : .exit ∉ l := fun h => hx (List.mem_cons_of_mem _ h)
    cases r with
    | exit => simp at hx
    | event => exact ih s us hx'
    | messages g =>
      obtain ⟨⟨x, h1, h2⟩, h3⟩ := ih (g.foldl onMessage s) us hx'
      refine ⟨⟨x, h1, ?_⟩, h3⟩
      rw [events, h2]
      rcases messages_code g s with ⟨e, -⟩ | ⟨-, e, -⟩ <;> rw [e]
    | signals g =>
      obtain ⟨⟨x, h1, h2⟩, h3⟩ := ih (g.foldl onSignal s) us hx'
      obtain ⟨y, h4, h5⟩ := signals_acts g s
      refine ⟨⟨y ++ x, ?_, ?_⟩, h3⟩
      · exact h4.append h1
      · rw [events, h2, h5, List.append_assoc]
    | user u =>
      obtain ⟨h1, h3⟩ := ih s (us ++ [u]) hx'
      refine ⟨h1, ?_⟩
      rw [events, h3]
      cases u <;> simp [cmds, commandsOf]

/-- C387: while the daemon runs, the requests passed on are those of all signals and commands received, once each and in
order; other real-time signals are ignored. -/
theorem C387_passed_on (ps : List Poll) (s : St) (h : loop ps init = .running s) : Asks ps s.acts := by
  have key : ∀ (ps : List Poll) (t s : St), loop ps t = .running s → ∃ x, Asks ps x ∧ s.acts = t.acts ++ x := by
    intro ps
    induction ps with
    | nil => intro t s h; cases h; exact ⟨[], .nil, by simp⟩
    | cons p ps ih =>
      intro t s h
      simp only [loop] at h
      cases p with
      | interrupted =>
        obtain ⟨x, h1, h2⟩ := ih t s h
        exact ⟨x, .interrupted h1, h2⟩
      | failed e => cases h
      | ready l =>
        cases ht : turn t (.ready l) with
        | ended c a => rw [ht] at h; cases h
        | running t' =>
          rw [ht] at h
          obtain ⟨y, h1, h2⟩ := ih t' s h
          have hx := (turn_running ht).1
          obtain ⟨⟨x, h3, h4⟩, h5⟩ := events_acts l t [] hx
          refine ⟨_, .ready h3 h1, ?_⟩
          simp only [turn] at ht
          split at ht
          · cases ht
          · cases ht
            rw [h2, user_acts, h4, h5]
            simp [cmds]
  obtain ⟨x, h1, h2⟩ := key ps init s h
  rw [h2]
  exact h1

example : ∃ s, loop [.ready [.user (.control .stepclocks), .signals [.hup, .rt 3, .rt 20]], .interrupted, .ready [.user (.control .dumptables)]] init
    = .running s ∧ s.acts = [.rotate, .test 3, .step, .dump] := ⟨_, rfl, by decide⟩

end Verif.Exit
