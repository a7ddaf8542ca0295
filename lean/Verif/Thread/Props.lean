import Verif.Thread.Support

set_option linter.unusedSimpArgs false
set_option linter.unusedVariables false

/-!
# Properties of messages between threads (C29-C32)
-/

namespace Verif.Thread

/-! ## C29: pool messages have exactly one owner -/

/-- In every state reached by any history of calls, every message of a pool is at
exactly one place: on one queue, once, or held by one thread. -/
theorem C29_exactly_one_place (s : Sys) (h : Reach s) (m p : Nat) (hm : s.st.home m = some p) :
    (∃ a, At s m a ∧ ∀ b, At s m b → b = a) ∧ ∀ q, (s.st.q q).count m ≤ 1 := by
  have hi := reach_inv h
  refine ⟨?_, fun q => List.nodup_iff_count_le_one.1 (hi.nd q) m⟩
  rcases hi.all m p hm with ho | ⟨q, hq⟩
  · cases hh : s.holder m with
    | none => exact absurd hh ho
    | some t =>
      refine ⟨.held t, hh, ?_⟩
      intro b hb
      cases b with
      | queue q => exact absurd hb (hi.notin hh q)
      | held t' =>
        simp only [At] at hb
        rw [hh] at hb
        cases hb
        rfl
  · refine ⟨.queue q, hq, ?_⟩
    intro b hb
    cases b with
    | queue q' => rw [hi.dj m q q' hq hb]
    | held t => have := hi.hq m q hq; simp only [At] at hb; rw [this] at hb; cases hb

/-- Allocation returns a message of that pool which until then was free: nobody
held it, no other queue had it, and no answer was due to it; afterwards it is on
no queue. -/
theorem C29_alloc_fresh (s : Sys) (h : Reach s) (p m : Nat) (st : St) (ha : msgAlloc s.st p = some (m, st)) :
    s.st.home m = some p ∧ s.holder m = none ∧ m ∈ s.st.q (.free p) ∧ (∀ q, q ≠ .free p → m ∉ s.st.q q) ∧
    s.named m = none ∧ ∀ q, m ∉ st.q q := by
  have hi := reach_inv h
  simp only [msgAlloc, queueReceive] at ha
  cases hq : s.st.q (.free p) with
  | nil => simp [hq] at ha
  | cons a rest =>
    simp only [hq, Option.some.injEq, Prod.mk.injEq] at ha
    obtain ⟨rfl, rfl⟩ := ha
    have hin : a ∈ s.st.q (.free p) := by simp [hq]
    refine ⟨hi.fr a p hin, hi.hq a _ hin, by simp, ?_, hi.frh a p hin, ?_⟩
    · intro q hqq hq'; exact hqq (hi.dj a _ _ hq' hin)
    · intro q hx
      exact ((mem_pop hq hi.nd hi.dj a q).1 hx).2 rfl

/-- Allocation fails only if the pool has no free message. -/
theorem C29_alloc_possible (s : St) (p : Nat) : msgAlloc s p = none ↔ s.q (.free p) = [] := by
  simp only [msgAlloc, queueReceive]
  cases s.q (.free p) <;> simp

/-- The claim that the counter equals the number of free messages. -/
def C29_counter_statement : Prop :=
  ∀ s : Sys, Reach s → ∀ p, s.st.freeCount p = (s.st.q (.free p)).length

/-- The counters are right but for failed sends: each leaves the count of free
messages one short and the count of used messages one high (missing from the
full statement: correction of the counts in `sfptpd_msg_send` when it returns
the message). -/
theorem C29_counter_partial (s : Sys) (h : Reach s) (p : Nat) :
    s.st.freeCount p + s.failed p = (s.st.q (.free p)).length ∧
    s.st.usedCount p - s.failed p + (s.st.q (.free p)).length = s.size p := by
  have hi := reach_inv h
  have := hi.cnt p
  have := hi.tot p
  omega

/-- Two threads: pool 0 with messages 10 and 11; thread 1 allocates 10. -/
def exSt1 : St := poolAllocate Sys.init.st 0 [10, 11]
def exS1 : Sys := { Sys.init with st := exSt1, size := upd Sys.init.size 0 2 }
def exS2 : Sys := { exS1 with st := { exSt1 with q := upd exSt1.q (.free 0) [11], freeCount := upd exSt1.freeCount 0 1, usedCount := upd exSt1.usedCount 0 1 }, holder := upd exS1.holder 10 (some 1) }

theorem exReach1 : Reach exS1 :=
  Reach.step (.newPool 0 [10, 11]) Reach.init (by
    refine ⟨by decide, ?_, ?_, rfl⟩
    · intro m _; exact ⟨rfl, rfl, fun q => by simp [Sys.init]⟩
    · intro m; simp [Sys.init])

theorem exReach2 : Reach exS2 :=
  Reach.step (.alloc 1 0) exReach1 (by
    refine ⟨rfl, 10, _, rfl, ?_⟩
    rfl)

/-- A failed send breaks the counter. -/
theorem C29_counter_violated : ¬ C29_counter_statement := by
  intro h
  have hr : Reach { exS2 with
      st := ((msgSend false true exS2.st 1 10 2 7 false).getD (0, exS2.st)).2, holder := upd exS2.holder 10 none, failed := upd exS2.failed 0 1 } := by
    refine Reach.step (.send 1 10 2 7 false false) exReach2 ?_
    refine ⟨⟨rfl, rfl, rfl⟩, 0, rfl, 11, _, rfl, ?_⟩
    rw [if_neg (by decide)]
    rfl
  exact absurd (h _ hr 0) (by decide)

example : Reach exS2 ∧ exS2.st.home 10 = some 0 ∧ exS2.holder 10 = some 1 ∧ exS2.st.q (.free 0) = [11] :=
  ⟨exReach2, by decide, rfl, rfl⟩
example : (msgAlloc exS1.st 0).map Prod.fst = some 10 := by decide

/-! ## C30: replies -/

/-- In every reachable state, for every queue and message: the requests which
named this queue are as many as the answers given to it, plus one if the answer
is still due. -/
theorem C30_answered_once (s : Sys) (h : Reach s) (q : Q) (m : Nat) :
    (s.asks q).count m = (s.answers q).count m + if s.named m = some q then 1 else 0 :=
  (reach_inv h).ask q m

/-- Answering a request puts the message, once, at the end of the queue the
request named, and changes no other queue; the answer is then no longer due.  If
the write fails nothing changes and the answer is still due. -/
theorem C30_answer_goes_to_named (s s' : Sys) (h : Reach s) (t m : Nat) (ok : Bool) (q : Q)
    (hn : s.named m = some q) (hs : Step s (.reply t m ok) s') :
    (ok = true → s'.st.q q = s.st.q q ++ [m] ∧ (∀ q', q' ≠ q → s'.st.q q' = s.st.q q') ∧ s'.named m = none ∧
      s'.st.reply m = none ∧ s'.holder m = none) ∧
    (ok = false → s'.st.q = s.st.q ∧ s'.named m = some q ∧ s'.st.reply m = some q ∧ s'.holder m = some t) := by
  have hi := reach_inv h
  have hrp := hi.rp m
  rw [hn] at hrp
  obtain ⟨h1, h2, h3⟩ := hs
  simp only [hn] at h3
  refine ⟨?_, ?_⟩
  · rintro rfl
    simp [msgReply, hrp, queueSend] at h3
    subst h3
    refine ⟨by simp [upd], ?_, by simp [upd], by simp [upd], by simp [upd]⟩
    intro q' hq'; simp [upd, hq']
  · rintro rfl
    simp [msgReply, hrp, queueSend] at h3
    subst h3
    exact ⟨rfl, hn, by simp [upd], h2⟩

/-- Replying to a message to which no answer is due frees it exactly once: it goes
to the free queue of its pool and to no other queue. -/
theorem C30_unanswered_freed (s s' : Sys) (h : Reach s) (t m p : Nat) (ok : Bool)
    (hn : s.named m = none) (hp : s.st.home m = some p) (hs : Step s (.reply t m ok) s') :
    s'.st.q (.free p) = s.st.q (.free p) ++ [m] ∧ (∀ q, q ≠ .free p → s'.st.q q = s.st.q q) ∧
    s'.holder m = none ∧ s'.st.freeCount p = s.st.freeCount p + 1 := by
  have hi := reach_inv h
  have hrp := hi.rp m
  rw [hn] at hrp
  obtain ⟨h1, h2, h3⟩ := hs
  simp only [hn] at h3
  obtain ⟨-, rfl⟩ := h3
  simp only [msgReply, hrp, msgFree, hp, queueSend, if_true]
  refine ⟨by simp [upd], ?_, by simp [upd], by simp [upd]⟩
  intro q hq
  simp [upd, hq]

/-- A thread that sent a request and waits gets back its own message, and nothing
else is left on its queue of answers. -/
theorem C30_wait_returns_own (s s' : Sys) (h : Reach s) (t : Nat) (hs : Step s (.wake t) s') :
    ∃ m, s.waiting t = some m ∧ s'.holder m = some t ∧ s'.received (.wait t) = s.received (.wait t) ++ [m] ∧
      s'.st.q (.wait t) = [] ∧ s'.waiting t = none ∧ s'.st.reply m = none := by
  have hi := reach_inv h
  obtain ⟨m, got, st, hw, hm, rfl⟩ := hs
  obtain ⟨rfl, hq, rfl⟩ := wake_own hi hw hm
  exact ⟨got, hw, by simp [upd], by simp [log], by simp [upd], by simp [upd], by simp [upd]⟩

/-- The answers a thread received to the requests it waited for are these
requests, in order, each once; only the last may be outstanding. -/
theorem C30_waited_in_order (s : Sys) (h : Reach s) (t : Nat) :
    s.asks (.wait t) = s.received (.wait t) ++ (s.waiting t).toList := (reach_inv h).wlog t

/-- A waiting thread can always be answered: its message is either on its queue of
answers, or the answer is due and the message is with a thread or on a queue. -/
theorem C30_never_lost (s : Sys) (h : Reach s) (t m : Nat) (hw : s.waiting t = some m) :
    m ∈ s.st.q (.wait t) ∨
    (s.named m = some (.wait t) ∧ s.st.reply m = some (.wait t) ∧ ((∃ t', s.holder m = some t') ∨ ∃ q, m ∈ s.st.q q)) := by
  have hi := reach_inv h
  rcases hi.wt2 m t hw with h1 | h1
  · exact Or.inl h1
  · refine Or.inr ⟨h1, by rw [hi.rp, h1], ?_⟩
    rcases hi.live m (by simp [h1]) with h2 | h2
    · left; exact Option.ne_none_iff_exists'.1 h2
    · exact Or.inr h2

/-- Thread 1 sends 10 to thread 2 and waits. -/
def exS3 : Sys := { exS2 with
  st := (sendWaitBegin true exS2.st 1 10 2 7).2, holder := upd exS2.holder 10 none,
  sent := log exS2.sent (.general 2) 10, named := upd exS2.named 10 (some (.wait 1)),
  asks := log exS2.asks (.wait 1) 10, waiting := upd exS2.waiting 1 (some 10) }
theorem exReach3 : Reach exS3 := Reach.step (.sendWait 1 10 2 7 true) exReach2 (by
  refine ⟨⟨rfl, rfl, rfl⟩, ?_⟩
  rw [if_pos (by decide)]
  rfl)
example : exS3.waiting 1 = some 10 ∧ exS3.st.q (.general 2) = [10] ∧ exS3.named 10 = some (.wait 1) := by decide
/-- Thread 2 receives it. -/
def exS4 : Sys := { exS3 with
  st := { exS3.st with q := upd exS3.st.q (.general 2) [] }, holder := upd exS3.holder 10 (some 2), received := log exS3.received (.general 2) 10 }
theorem exReach4 : Reach exS4 := Reach.step (.recv 2) exReach3 ⟨rfl, 10, _, rfl, rfl⟩
example : exS4.holder 10 = some 2 ∧ exS4.named 10 = some (.wait 1) ∧ (msgReply true true exS4.st 10).2.q (.wait 1) = [10] := by decide

/-! ## C31: queues are first in, first out -/

/-- In every reachable state, what was received from a thread's queue followed by
what is on it is exactly what was sent to it, in order. -/
theorem C31_fifo (s : Sys) (h : Reach s) (t : Nat) :
    s.sent (.general t) = s.received (.general t) ++ s.st.q (.general t) ∧
    s.sent (.wait t) = s.received (.wait t) ++ s.st.q (.wait t) := by
  have hi := reach_inv h
  exact ⟨hi.logs _ (by simp), hi.logs _ (by simp)⟩

/-- Receiving yields the oldest message not yet received, and is possible whenever
there is one. -/
theorem C31_receive_oldest (s : Sys) (h : Reach s) (t : Nat) :
    (queueReceive s.st (.general t)).map Prod.fst =
      ((s.sent (.general t)).drop (s.received (.general t)).length).head? := by
  rw [(C31_fifo s h t).1, List.drop_append_of_le_length (Nat.le_refl _)]
  simp only [List.drop_length, List.nil_append, queueReceive]
  cases s.st.q (.general t) <;> rfl

example : exS4.sent (.general 2) = [10] ∧ exS4.received (.general 2) = [10] ∧ exS3.st.q (.general 2) = [10] := by decide

/-! ## C32: multicast -/

/-- The threads subscribed for messages, and the events subscribed. -/
def msgSubs (g : Group) : List Nat := (g.subscribers.filter (fun u => u.event.isNone)).map User.thread
def eventSubs (g : Group) : List (Nat × Nat) := g.subscribers.filterMap (fun u => u.event.map (fun e => (u.thread, e)))

/-- Copies for thread `t` among destinations, messages and outcomes of writes. -/
def copiesFor (t : Nat) (ts ms : List Nat) (oks : List Bool) : List Nat :=
  ((ts.zip (ms.zip oks)).filter (fun x => decide (x.1 = t) && x.2.2)).map (fun x => x.2.1)

/-- Sending to a group with enough free messages, whatever the outcomes of the
writes: every subscribed event is posted once; there is a distinct message for
each subscriber for messages, taken from the pool; each goes to the queue of its
subscriber, or back to the pool if the write failed; every other queue is
unchanged.  The call succeeds exactly if every write did. -/
theorem C32_delivers (S : Sys) (hr : Reach S) (gs : List Group) (g : Group) (hg : g ∈ gs) (hgs : (gs.map Group.id).Nodup)
    (self pool : Nat) (oks : List Bool)
    (hlen : (msgSubs g).length ≤ (S.st.q (.free pool)).length) (hok : oks.length = (msgSubs g).length) :
    ∃ rc s' ms, multicastSend gs self g.id pool oks S.st = some (rc, eventSubs g, s') ∧
      (rc = 0 ↔ ∀ ok ∈ oks, ok = true) ∧
      ms.Nodup ∧ ms.length = (msgSubs g).length ∧
      ms = (S.st.q (.free pool)).take (msgSubs g).length ∧
      (∀ t, s'.q (.general t) = S.st.q (.general t) ++ copiesFor t (msgSubs g) ms oks) ∧
      s'.q (.free pool) = (S.st.q (.free pool)).drop (msgSubs g).length ++ ((ms.zip oks).filter (fun x => !x.2)).map Prod.fst ∧
      (∀ p, p ≠ pool → s'.q (.free p) = S.st.q (.free p)) ∧ (∀ t, s'.q (.wait t) = S.st.q (.wait t)) ∧
      (∀ m ∈ ms, s'.id m = g.id ∧ s'.reply m = none) := by
  have hi := reach_inv hr
  have hid := find_group hg hgs
  rcases allocDests_spec pool g.subscribers S.st with ⟨ms, a1, a2, a3, a4, a5, a6, a7, a8, a9⟩ | ⟨ms, t, ts, a0, -⟩
  · have hms : ∀ m ∈ ms, S.st.home m = some pool := fun m hm => hi.fr m pool (by rw [a2]; simp [hm])
    have hmn : ms.Nodup := by have hnd := hi.nd (.free pool); rw [a2] at hnd; exact (List.nodup_append.1 hnd).1
    obtain ⟨rc, s', e, e1, e2, e3, e4, e5, e6, e7, e8, e9, e10⟩ :=
      sendDests_spec self g.id pool (msgSubs g) ms oks a1 hok 0 (allocDests pool g.subscribers S.st).2
        (fun m hm => by rw [a5]; exact hms m hm) hmn
    have hany : ((allocDests pool g.subscribers S.st).1.any (fun d => d.2.isNone)) = false := by
      rw [a3, List.any_eq_false]
      rintro ⟨x, y⟩ hx
      have := (List.of_mem_zip hx).2
      simp only [List.mem_map] at this
      obtain ⟨z, -, rfl⟩ := this
      simp
    have htk : ms = (S.st.q (.free pool)).take (msgSubs g).length := by
      rw [a2]; simp only [msgSubs]; rw [← a1]; simp
    have hdr : (allocDests pool g.subscribers S.st).2.q (.free pool) = (S.st.q (.free pool)).drop (msgSubs g).length := by
      conv_rhs => rw [a2]
      simp only [msgSubs]; rw [← a1]; simp
    refine ⟨rc, s', ms, ?_, by simpa using e1, hmn, a1, htk, ?_, ?_, ?_, ?_, ?_⟩
    · simp only [multicastSend, hid, hany, Bool.false_eq_true, if_false]
      rw [show (allocDests pool g.subscribers S.st).1 = (msgSubs g).zip (ms.map some) from a3, e]
      rfl
    · intro t; rw [e2 t, a4 _ (by simp)]; rfl
    · rw [e3, hdr]
    · intro p hp; rw [e4 p hp, a4 _ (by simpa using hp)]
    · intro t; rw [e5 t, a4 _ (by simp)]
    · intro m hm; rw [e6, e7]; simp [hm]
  · exfalso
    simp only [msgSubs, List.length_map] at hlen
    omega

/-- With every write successful, each thread receives exactly as many copies as it
has subscriptions. -/
theorem C32_one_copy_each (ts ms : List Nat) (oks : List Bool) (h1 : ms.length = ts.length) (h2 : oks.length = ts.length)
    (hok : ∀ ok ∈ oks, ok = true) (t : Nat) : (copiesFor t ts ms oks).length = ts.count t := by
  induction ts generalizing ms oks with
  | nil => simp [copiesFor]
  | cons a ts ih =>
    cases ms with
    | nil => simp at h1
    | cons m ms =>
      cases oks with
      | nil => simp at h2
      | cons ok oks =>
        have hk : ok = true := hok ok (by simp)
        subst hk
        have := ih ms oks (by simpa using h1) (by simpa using h2) (fun x hx => hok x (by simp [hx]))
        simp only [copiesFor, List.length_map] at this
        simp only [copiesFor, List.zip_cons_cons, List.filter_cons, Bool.and_true, List.length_map, List.count_cons, decide_eq_true_eq]
        by_cases ha : a = t
        · simp [ha, this]
        · simp [ha, this]

/-- Sending to a group without enough free messages fails: no message reaches any
queue, the pool has the same messages again and the same counts.  Events are posted
nevertheless. -/
theorem C32_no_messages (S : Sys) (hr : Reach S) (gs : List Group) (g : Group) (hg : g ∈ gs) (hgs : (gs.map Group.id).Nodup)
    (self pool : Nat) (oks : List Bool) (hlen : (S.st.q (.free pool)).length < (msgSubs g).length) :
    ∃ rc s', multicastSend gs self g.id pool oks S.st = some (rc, eventSubs g, s') ∧ rc ≠ 0 ∧
      (s'.q (.free pool)).Perm (S.st.q (.free pool)) ∧ (∀ q, q ≠ .free pool → s'.q q = S.st.q q) ∧
      s'.freeCount = S.st.freeCount ∧ s'.usedCount = S.st.usedCount := by
  have hi := reach_inv hr
  have hid := find_group hg hgs
  rcases allocDests_spec pool g.subscribers S.st with ⟨ms, a1, a2, -⟩ | ⟨ms, t, ts, a0, a1, a2, a3, a4, a5, a6, a7, a8, a9, a10⟩
  · exfalso
    have := congrArg List.length a2
    simp only [List.length_append, a1] at this
    simp only [msgSubs] at hlen
    omega
  · obtain ⟨b1, b2, b3, b4, b5, b6⟩ := freeDests_spec pool ts ms t a1 (allocDests pool g.subscribers S.st).2
      (fun m hm => by rw [a6]; exact hi.fr m pool (by rw [a2]; exact hm))
    refine ⟨11, freeDests (ts.zip (ms.map some) ++ [(t, none)]) (allocDests pool g.subscribers S.st).2, ?_, by decide, ?_, ?_, ?_, ?_⟩
    · simp only [multicastSend, hid, a4, List.any_append, List.any_cons, List.any_nil, Option.isNone_none, Bool.or_true, Bool.or_false, if_true]
      rfl
    · rw [b1, a3, a2]; simp [List.reverse_perm]
    · intro q hq; rw [b2 q hq, a5 q hq]
    · funext p
      by_cases hp : p = pool
      · subst hp; rw [b4, a9]; omega
      · rw [(b3 p hp).1, (a8 p hp).1]
    · funext p
      by_cases hp : p = pool
      · subst hp; rw [b5, a10]; omega
      · rw [(b3 p hp).2, (a8 p hp).2]

/-- Sending to a group that does not exist is reported and does nothing. -/
theorem C32_no_group (gs : List Group) (self id pool : Nat) (oks : List Bool) (s : St) (h : ∀ g ∈ gs, g.id ≠ id) :
    multicastSend gs self id pool oks s = some (111, [], s) := by
  have : gs.find? (fun g => decide (g.id = id)) = none := by
    rw [List.find?_eq_none]; intro g hg; simpa using h g hg
  simp only [multicastSend, this]

/-- A call about membership. -/
inductive Call where
  | add (memUser memGroup : Bool) (u : User) (id : Nat) (publisher : Bool)
  | remove (t id : Nat) (publisher : Bool)

/-- One membership call on the model. -/
def call (gs : List Group) : Call → Int × List Group
  | .add mu mg u id pub => addUser mu mg gs u id pub
  | .remove t id pub => removeUser t id pub gs

/-- Specification: the current users, latest first; a user is the group, whether a
publisher, and who. -/
abbrev Members := List (Nat × Bool × User)

/-- The members of one kind of a group. -/
def membersOf (us : Members) (id : Nat) (pub : Bool) : List User :=
  (us.filter (fun x => decide (x.1 = id) && (x.2.1 == pub))).map (fun x => x.2.2)

/-- Specification of leaving: the latest membership of that kind of that thread. -/
def leave (t id : Nat) (pub : Bool) : Members → Option Members
  | [] => none
  | x :: us => if x.1 = id ∧ x.2.1 = pub ∧ x.2.2.thread = t then some us else (leave t id pub us).map (x :: ·)

/-- Members and groups agree: one group per number, none without users, and the
users of a group are the members. -/
structure Agree (gs : List Group) (us : Members) : Prop where
  nodup : (gs.map Group.id).Nodup
  used : ∀ g ∈ gs, g.publishers ≠ [] ∨ g.subscribers ≠ []
  publishers : ∀ g ∈ gs, g.publishers = membersOf us g.id true
  subscribers : ∀ g ∈ gs, g.subscribers = membersOf us g.id false
  exists_group : ∀ x ∈ us, ∃ g ∈ gs, g.id = x.1

theorem members_leave {t id : Nat} {pub : Bool} {us us' : Members} (h : leave t id pub us = some us') :
    removeFirst t (membersOf us id pub) = some (membersOf us' id pub) ∧
    (∀ id' pub', ¬ (id' = id ∧ pub' = pub) → membersOf us' id' pub' = membersOf us id' pub') ∧
    ∀ x ∈ us', x ∈ us := by
  induction us generalizing us' with
  | nil => simp [leave] at h
  | cons x us ih =>
    simp only [leave] at h
    by_cases hx : x.1 = id ∧ x.2.1 = pub ∧ x.2.2.thread = t
    · simp only [hx, and_self, if_true, Option.some.injEq] at h
      subst h
      refine ⟨?_, ?_, ?_⟩
      · simp [membersOf, hx, removeFirst]
      · intro id' pub' hne
        have : ¬ (x.1 = id' ∧ x.2.1 = pub') := by
          rintro ⟨rfl, rfl⟩; exact hne ⟨hx.1, hx.2.1⟩
        simp only [membersOf, List.filter_cons]
        rw [if_neg (by simpa using this)]
      · intro y hy; simp [hy]
    · simp only [hx, if_false, Option.map_eq_some_iff] at h
      obtain ⟨us1, h1, rfl⟩ := h
      obtain ⟨e1, e2, e3⟩ := ih h1
      refine ⟨?_, ?_, ?_⟩
      · by_cases hk : x.1 = id ∧ x.2.1 = pub
        · have ht : x.2.2.thread ≠ t := fun h => hx ⟨hk.1, hk.2, h⟩
          simp only [membersOf] at e1
          simp [membersOf, List.filter_cons, hk, removeFirst, ht, e1]
        · simp only [membersOf] at e1
          simp only [membersOf, List.filter_cons]
          rw [if_neg (by simpa using hk), if_neg (by simpa using hk)]
          exact e1
      · intro id' pub' hne
        have := e2 id' pub' hne
        simp only [membersOf] at this
        simp only [membersOf, List.filter_cons]
        by_cases hk : (decide (x.1 = id') && (x.2.1 == pub')) = true
        · rw [if_pos hk, if_pos hk]; simp [this]
        · rw [if_neg hk, if_neg hk]; exact this
      · intro y hy
        rcases List.mem_cons.1 hy with rfl | hy
        · simp
        · simp [e3 y hy]

theorem members_stay {t id : Nat} {pub : Bool} {us : Members} (h : leave t id pub us = none) :
    removeFirst t (membersOf us id pub) = none := by
  induction us with
  | nil => rfl
  | cons x us ih =>
    simp only [leave] at h
    by_cases hx : x.1 = id ∧ x.2.1 = pub ∧ x.2.2.thread = t
    · simp [hx] at h
    · simp only [hx, if_false, Option.map_eq_none_iff] at h
      have := ih h
      simp only [membersOf] at this
      simp only [membersOf, List.filter_cons]
      by_cases hk : x.1 = id ∧ x.2.1 = pub
      · have ht : x.2.2.thread ≠ t := fun h => hx ⟨hk.1, hk.2, h⟩
        rw [if_pos (by simpa using hk)]
        simp [removeFirst, ht, this]
      · rw [if_neg (by simpa using hk)]; exact this

theorem membersOf_cons (id : Nat) (pub : Bool) (u : User) (us : Members) (id' : Nat) (pub' : Bool) :
    membersOf ((id, pub, u) :: us) id' pub' =
      if id = id' ∧ pub = pub' then u :: membersOf us id' pub' else membersOf us id' pub' := by
  simp only [membersOf, List.filter_cons]
  by_cases h : id = id' ∧ pub = pub'
  · simp [h]
  · rw [if_neg (by simpa using h), if_neg h]

/-- Joining: with memory it succeeds and adds the member; if it fails nothing
changes. -/
theorem C32_join (gs : List Group) (us : Members) (h : Agree gs us) (mu mg : Bool) (u : User) (id : Nat) (pub : Bool) :
    (mu = true → mg = true → (addUser mu mg gs u id pub).1 = 0) ∧
    ((addUser mu mg gs u id pub).1 = 0 → Agree (addUser mu mg gs u id pub).2 ((id, pub, u) :: us)) ∧
    ((addUser mu mg gs u id pub).1 ≠ 0 → (addUser mu mg gs u id pub).2 = gs) := by
  cases mu with
  | false => simp [addUser]
  | true =>
    cases hi : insertIn u id pub gs with
    | some gs' =>
      simp only [addUser, hi, if_true, implies_true, ne_eq, not_true_eq_false, false_implies, and_true, true_and, forall_const]
      obtain ⟨rfl, g, hg, hgi⟩ := insertIn_some h.nodup hi
      have hidp : ∀ x : Group, (if x.id = id then insertUser u pub x else x).id = x.id := by
        intro x; simp only [insertUser]; split
        · split <;> rfl
        · rfl
      constructor
      · rw [List.map_map, show Group.id ∘ (fun g => if g.id = id then insertUser u pub g else g) = Group.id from funext hidp]
        exact h.nodup
      · intro x hx
        obtain ⟨y, hy, rfl⟩ := List.mem_map.1 hx
        have := h.used y hy
        simp only [insertUser]
        grind
      · intro x hx
        obtain ⟨y, hy, rfl⟩ := List.mem_map.1 hx
        have := h.publishers y hy
        rw [hidp, membersOf_cons, ← this]
        simp only [insertUser]
        cases pub <;> grind
      · intro x hx
        obtain ⟨y, hy, rfl⟩ := List.mem_map.1 hx
        have := h.subscribers y hy
        rw [hidp, membersOf_cons, ← this]
        simp only [insertUser]
        cases pub <;> grind
      · intro x hx
        rcases List.mem_cons.1 hx with rfl | hx
        · exact ⟨_, List.mem_map.2 ⟨g, hg, rfl⟩, by rw [hidp]; exact hgi⟩
        · obtain ⟨y, hy, hyi⟩ := h.exists_group x hx
          exact ⟨_, List.mem_map.2 ⟨y, hy, rfl⟩, by rw [hidp]; exact hyi⟩
    | none =>
      have hno := insertIn_none.1 hi
      cases mg with
      | false => simp [addUser, hi]
      | true =>
        simp only [addUser, hi, if_true, implies_true, ne_eq, not_true_eq_false, false_implies, and_true, true_and, forall_const]
        have hem : ∀ b, membersOf us id b = [] := by
          intro b
          simp only [membersOf, List.map_eq_nil_iff, List.filter_eq_nil_iff]
          intro x hx
          obtain ⟨g, hg, hgi⟩ := h.exists_group x hx
          have := hno g hg
          rw [hgi] at this
          simp [this]
        have hidn : (insertUser u pub ⟨id, [], []⟩).id = id := by simp only [insertUser]; split <;> rfl
        constructor
        · simp only [List.map_cons, List.nodup_cons, hidn]
          refine ⟨?_, h.nodup⟩
          simp only [List.mem_map, not_exists, not_and]
          intro x hx; exact hno x hx
        · intro x hx
          rcases List.mem_cons.1 hx with rfl | hx
          · cases pub <;> simp [insertUser]
          · exact h.used x hx
        · intro x hx
          rcases List.mem_cons.1 hx with rfl | hx
          · rw [hidn, membersOf_cons, hem]; cases pub <;> simp [insertUser]
          · rw [membersOf_cons, if_neg (fun hc => hno x hx hc.1.symm)]; exact h.publishers x hx
        · intro x hx
          rcases List.mem_cons.1 hx with rfl | hx
          · rw [hidn, membersOf_cons, hem]; cases pub <;> simp [insertUser]
          · rw [membersOf_cons, if_neg (fun hc => hno x hx hc.1.symm)]; exact h.subscribers x hx
        · intro x hx
          rcases List.mem_cons.1 hx with rfl | hx
          · exact ⟨_, by simp, hidn⟩
          · obtain ⟨y, hy, hyi⟩ := h.exists_group x hx
            exact ⟨y, by simp [hy], hyi⟩

/-- Leaving: it succeeds exactly if that thread is such a member, and then removes
its latest membership; otherwise nothing changes. -/
theorem C32_leave (gs : List Group) (us : Members) (h : Agree gs us) (t id : Nat) (pub : Bool) :
    (∀ us', leave t id pub us = some us' → (removeUser t id pub gs).1 = 0 ∧ Agree (removeUser t id pub gs).2 us') ∧
    (leave t id pub us = none → (removeUser t id pub gs).1 = 2 ∧ (removeUser t id pub gs).2 = gs) := by
  by_cases hex : ∃ g ∈ gs, g.id = id
  · obtain ⟨g, hg, hid⟩ := hex
    obtain ⟨e1, e2⟩ := removeUser_some (t := t) (pub := pub) h.nodup h.used hg hid
    have hmem : ∀ x ∈ gs, (if pub then x.publishers else x.subscribers) = membersOf us x.id pub := by
      intro x hx; cases pub
      · exact h.subscribers x hx
      · exact h.publishers x hx
    refine ⟨?_, ?_⟩
    · intro us' hl
      obtain ⟨m1, m2, m3⟩ := members_leave hl
      rw [e1, hmem g hg, hid, m1]
      refine ⟨rfl, ?_⟩
      rw [e2]
      have hidp : ∀ x : Group, (if x.id = id then dropUser t pub x else x).id = x.id := by
        intro x; split
        · exact dropUser_id t pub x
        · rfl
      have hpub : ∀ x ∈ gs, (if x.id = id then dropUser t pub x else x).publishers = membersOf us' x.id true := by
        intro x hx
        by_cases hxi : x.id = id
        · simp only [hxi, if_true, dropUser, hmem x hx, m1]
          cases pub
          · simp only [Bool.false_eq_true, if_false]
            rw [h.publishers x hx, hxi, m2 id true (by simp)]
          · simp
        · simp only [hxi, if_false]
          rw [h.publishers x hx, m2 x.id true (by simp [hxi])]
      have hsub : ∀ x ∈ gs, (if x.id = id then dropUser t pub x else x).subscribers = membersOf us' x.id false := by
        intro x hx
        by_cases hxi : x.id = id
        · simp only [hxi, if_true, dropUser, hmem x hx, m1]
          cases pub
          · simp
          · simp only [if_true]
            rw [h.subscribers x hx, hxi, m2 id false (by simp)]
        · simp only [hxi, if_false]
          rw [h.subscribers x hx, m2 x.id false (by simp [hxi])]
      constructor
      · have hsl := (List.filter_sublist (p := fun x : Group => !decide (x.publishers = [] ∧ x.subscribers = []))
          (l := gs.map (fun x => if x.id = id then dropUser t pub x else x))).map Group.id
        refine List.Nodup.sublist hsl ?_
        rw [List.map_map, show Group.id ∘ (fun g => if g.id = id then dropUser t pub g else g) = Group.id from funext hidp]
        exact h.nodup
      · intro x hx
        have := (List.mem_filter.1 hx).2
        simp only [Bool.not_eq_true', decide_eq_false_iff_not] at this
        exact Decidable.not_and_iff_or_not.1 this
      · intro x hx
        obtain ⟨y, hy, rfl⟩ := List.mem_map.1 (List.mem_filter.1 hx).1
        rw [hpub y hy, hidp]
      · intro x hx
        obtain ⟨y, hy, rfl⟩ := List.mem_map.1 (List.mem_filter.1 hx).1
        rw [hsub y hy, hidp]
      · intro x hx
        obtain ⟨y, hy, hyi⟩ := h.exists_group x (m3 x hx)
        refine ⟨_, List.mem_filter.2 ⟨List.mem_map.2 ⟨y, hy, rfl⟩, ?_⟩, by rw [hidp]; exact hyi⟩
        rw [hpub y hy, hsub y hy, hyi]
        simp only [Bool.not_eq_true', decide_eq_false_iff_not]
        rintro ⟨h1, h2⟩
        have : x.2.2 ∈ membersOf us' x.1 x.2.1 := by
          simp only [membersOf, List.mem_map, List.mem_filter]
          exact ⟨x, ⟨hx, by simp⟩, rfl⟩
        cases hb : x.2.1 <;> rw [hb] at this
        · rw [h2] at this; simp at this
        · rw [h1] at this; simp at this
    · intro hl
      have m1 := members_stay hl
      rw [e1, hmem g hg, hid, m1]
      refine ⟨rfl, ?_⟩
      rw [e2]
      have hmap : gs.map (fun x => if x.id = id then dropUser t pub x else x) = gs := by
        rw [List.map_congr_left (g := fun x => x)]
        · simp
        · intro x hx
          by_cases hxi : x.id = id
          · simp only [hxi, if_true, dropUser, hmem x hx, m1]
          · simp [hxi]
      rw [hmap, List.filter_eq_self]
      intro x hx
      simp only [Bool.not_eq_true', decide_eq_false_iff_not]
      exact Decidable.not_and_iff_or_not.2 (h.used x hx)
  · have hno : ∀ g ∈ gs, g.id ≠ id := fun g hg hgi => hex ⟨g, hg, hgi⟩
    have hl : leave t id pub us = none := by
      have : ∀ x ∈ us, x.1 ≠ id := by
        intro x hx
        obtain ⟨g, hg, hgi⟩ := h.exists_group x hx
        rw [← hgi]; exact hno g hg
      clear h
      induction us with
      | nil => rfl
      | cons x us ih =>
        simp only [leave]
        rw [if_neg (fun hc => this x (by simp) hc.1), ih (fun y hy => this y (by simp [hy]))]
        rfl
    rw [removeUser_none hno, hl]
    simp

/-- After any history of joining and leaving, with any failures of allocation,
groups and members agree; in particular a group exists exactly while it has a
member. -/
theorem C32_groups_follow_members (cs : List Call) :
    ∃ us, Agree (cs.foldl (fun gs c => (call gs c).2) []) us := by
  suffices h : ∀ gs us, Agree gs us → ∃ us', Agree (cs.foldl (fun gs c => (call gs c).2) gs) us' from
    h [] [] ⟨by simp, by simp, by simp, by simp, by simp⟩
  induction cs with
  | nil => intro gs us h; exact ⟨us, h⟩
  | cons c cs ih =>
    intro gs us h
    simp only [List.foldl_cons]
    cases c with
    | add mu mg u id pub =>
      obtain ⟨-, h1, h2⟩ := C32_join gs us h mu mg u id pub
      by_cases hr : (addUser mu mg gs u id pub).1 = 0
      · exact ih _ _ (h1 hr)
      · rw [show (call gs (.add mu mg u id pub)).2 = gs from h2 hr]; exact ih _ _ h
    | remove t id pub =>
      obtain ⟨h1, h2⟩ := C32_leave gs us h t id pub
      cases hl : leave t id pub us with
      | some us' => exact ih _ _ (h1 us' hl).2
      | none => rw [show (call gs (.remove t id pub)).2 = gs from (h2 hl).2]; exact ih _ _ h

/-- A group exists exactly while it has a member. -/
theorem C32_group_iff_member (gs : List Group) (us : Members) (h : Agree gs us) (id : Nat) :
    (∃ g ∈ gs, g.id = id) ↔ ∃ x ∈ us, x.1 = id := by
  constructor
  · rintro ⟨g, hg, rfl⟩
    have hp := h.publishers g hg
    have hs := h.subscribers g hg
    have key : ∀ b, membersOf us g.id b ≠ [] → ∃ x ∈ us, x.1 = g.id := by
      intro b hb
      obtain ⟨y, hy⟩ := List.exists_mem_of_ne_nil _ hb
      simp only [membersOf, List.mem_map, List.mem_filter] at hy
      obtain ⟨x, ⟨hx, hc⟩, -⟩ := hy
      simp only [Bool.and_eq_true, decide_eq_true_eq] at hc
      exact ⟨x, hx, hc.1⟩
    rcases h.used g hg with hu | hu
    · rw [hp] at hu; exact key _ hu
    · rw [hs] at hu; exact key _ hu
  · rintro ⟨x, hx, rfl⟩; exact h.exists_group x hx

/-- Group 5: thread 1 publishes, 2 and 3 subscribe for messages, 4 for event 9. -/
def exCalls : List Call :=
  [.add true true ⟨1, none⟩ 5 true, .add true true ⟨2, none⟩ 5 false, .add true false ⟨3, none⟩ 5 false,
   .add true true ⟨4, some 9⟩ 5 false, .add true false ⟨4, none⟩ 6 false]
def exGroups : List Group := exCalls.foldl (fun gs c => (call gs c).2) []
example : exGroups = [⟨5, [⟨1, none⟩], [⟨4, some 9⟩, ⟨3, none⟩, ⟨2, none⟩]⟩] := by decide
example : ((multicastSend exGroups 1 5 0 [true, true] exS1.st).map
    (fun r => (r.1, r.2.1, r.2.2.q (.general 2), r.2.2.q (.general 3), r.2.2.q (.free 0)))) =
    some (0, [(4, 9)], [11], [10], []) := by decide
example : (msgSubs ⟨5, [], [⟨4, some 9⟩, ⟨3, none⟩, ⟨2, none⟩]⟩).length ≤ (exS1.st.q (.free 0)).length := by decide
example : (exS2.st.q (.free 0)).length < (msgSubs ⟨5, [], [⟨4, some 9⟩, ⟨3, none⟩, ⟨2, none⟩]⟩).length := by decide
example : leave 3 5 false [(5, false, ⟨3, none⟩), (5, true, ⟨1, none⟩)] = some [(5, true, ⟨1, none⟩)] := by decide

end Verif.Thread
