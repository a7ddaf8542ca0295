import Verif.Thread.Model

/-!
# Threads using messages

The system of all threads calling the functions of the model, with the
book-keeping a user of the API does: who holds a message, whom a request asked
to be answered to, who is waiting, and logs of what was sent and received.
None of the book-keeping looks at message headers or counts.
-/

namespace Verif.Thread

/-- The state of the library and the users' book-keeping. -/
structure Sys where
  st : St
  /-- the thread holding a message -/
  holder : Nat → Option Nat
  /-- the queue to which the answer to a message is due -/
  named : Nat → Option Q
  /-- the message for whose answer a thread is waiting -/
  waiting : Nat → Option Nat
  /-- number of failed sends of messages of a pool -/
  failed : Nat → Nat
  /-- number of messages of a pool -/
  size : Nat → Nat
  /-- messages successfully sent to a queue, and received from it, in order -/
  sent : Q → List Nat
  received : Q → List Nat
  /-- requests naming a queue for the answer, and answers given to it -/
  asks : Q → List Nat
  answers : Q → List Nat

/-- What threads do. -/
inductive Act where
  | newPool (pool : Nat) (ms : List Nat)
  | alloc (t pool : Nat)
  | free (t m : Nat)
  | send (t m r id : Nat) (needsReply ok : Bool)
  | recv (t : Nat)
  | sendWait (t m r id : Nat) (ok : Bool)
  | wake (t : Nat)
  | reply (t m : Nat) (ok : Bool)
  | newLocal (t m : Nat)
  | dropLocal (t m : Nat)

/-- Appending to the log of a queue. -/
def log (f : Q → List Nat) (q : Q) (m : Nat) : Q → List Nat := fun x => if x = q then f x ++ [m] else f x

/-- Message `m` is nowhere. -/
def Nowhere (s : Sys) (m : Nat) : Prop := s.st.home m = none ∧ s.holder m = none ∧ ∀ q, m ∉ s.st.q q

/-- Thread `t` may act on `m`: it is not waiting, it holds `m`, and `m` is not a
request still to be answered. -/
def Owns (s : Sys) (t m : Nat) : Prop := s.waiting t = none ∧ s.holder m = some t ∧ s.named m = none

/-- One call by one thread. Users only touch messages they hold; writes to the
free queue of a pool succeed, as the pipe is made large enough for all messages
of the pool (`pool_allocate`, lines 575-580). -/
def Step (s : Sys) (a : Act) (s' : Sys) : Prop :=
  match a with
  | .newPool p ms =>
    ms.Nodup ∧ (∀ m ∈ ms, Nowhere s m) ∧ (∀ m, s.st.home m ≠ some p) ∧
    s' = { s with st := poolAllocate s.st p ms, size := upd s.size p (s.size p + ms.length) }
  | .alloc t p =>
    s.waiting t = none ∧ ∃ m st, msgAlloc s.st p = some (m, st) ∧
    s' = { s with st := st, holder := upd s.holder m (some t) }
  | .free t m =>
    Owns s t m ∧ s.st.home m ≠ none ∧
    s' = { s with st := msgFree true s.st m, holder := upd s.holder m none }
  | .send t m r id needs ok =>
    Owns s t m ∧ ∃ p, s.st.home m = some p ∧ ∃ rc st, msgSend ok true s.st t m r id needs = some (rc, st) ∧
    (if rc = 0 then
       s' = { s with
         st := st, holder := upd s.holder m none, sent := log s.sent (.general r) m,
         named := upd s.named m (if needs then some (.general t) else none),
         asks := if needs then log s.asks (.general t) m else s.asks }
     else
       s' = { s with st := st, holder := upd s.holder m none, failed := upd s.failed p (s.failed p + 1) })
  | .recv t =>
    s.waiting t = none ∧ ∃ m st, queueReceive s.st (.general t) = some (m, st) ∧
    s' = { s with st := st, holder := upd s.holder m (some t), received := log s.received (.general t) m }
  | .sendWait t m r id ok =>
    Owns s t m ∧
    (if (sendWaitBegin ok s.st t m r id).1 = 0 then
       s' = { s with
         st := (sendWaitBegin ok s.st t m r id).2, holder := upd s.holder m none,
         sent := log s.sent (.general r) m, named := upd s.named m (some (.wait t)),
         asks := log s.asks (.wait t) m, waiting := upd s.waiting t (some m) }
     else s' = { s with st := (sendWaitBegin ok s.st t m r id).2 })
  | .wake t =>
    ∃ m got st, s.waiting t = some m ∧ sendWaitEnd s.st t m = some (got, st) ∧
    s' = { s with
      st := st, holder := upd s.holder got (some t), received := log s.received (.wait t) got,
      waiting := upd s.waiting t none }
  | .reply t m ok =>
    s.waiting t = none ∧ s.holder m = some t ∧
    (match s.named m with
     | none => s.st.home m ≠ none ∧ s' = { s with st := (msgReply ok true s.st m).2, holder := upd s.holder m none }
     | some q =>
       if (msgReply ok true s.st m).1 = 0 then
         s' = { s with
           st := (msgReply ok true s.st m).2, holder := upd s.holder m none, named := upd s.named m none,
           sent := log s.sent q m, answers := log s.answers q m }
       else s' = { s with st := (msgReply ok true s.st m).2 })
  | .newLocal t m => Nowhere s m ∧ s' = { s with holder := upd s.holder m (some t), st := { s.st with reply := upd s.st.reply m none } }
  | .dropLocal t m => Owns s t m ∧ s.st.home m = none ∧ s' = { s with holder := upd s.holder m none }

/-- Nothing allocated, sent or held. -/
def Sys.init : Sys where
  st := ⟨fun _ => [], fun _ => none, fun _ => 0, fun _ => none, fun _ => 0, fun _ => 0⟩
  holder := fun _ => none
  named := fun _ => none
  waiting := fun _ => none
  failed := fun _ => 0
  size := fun _ => 0
  sent := fun _ => []
  received := fun _ => []
  asks := fun _ => []
  answers := fun _ => []

/-- States reached by a history of calls. -/
inductive Reach : Sys → Prop where
  | init : Reach Sys.init
  | step {s s' : Sys} (a : Act) : Reach s → Step s a s' → Reach s'

/-- The places where a message can be. -/
inductive Place where
  | queue (q : Q)
  | held (t : Nat)

/-- Being at a place. -/
def At (s : Sys) (m : Nat) : Place → Prop
  | .queue q => m ∈ s.st.q q
  | .held t => s.holder m = some t

end Verif.Thread
