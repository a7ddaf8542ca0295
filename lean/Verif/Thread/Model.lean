/-!
# Model of messages between threads

Models `src/sfptpd_thread.c`: message queues (481-547), pools (558-690), and
the message functions (1029-1229); and `src/sfptpd_multicast.c` (178-287,
340-468).

Simplifications: a queue is a list of messages: the pipe below it carries
pointers, which are written and read atomically (POSIX, writes up to PIPE_BUF);
whether a write succeeds is a parameter.  A message is a number; its header
fields are functions of it.  Message payloads are not modelled.  Waiting for a
message is modelled by the step being possible only when the queue is not
empty.  `none` is undefined behaviour or a failed assertion.
-/

namespace Verif.Thread

/-- The queues: free messages of a pool; general and wait-reply queue of a thread. -/
inductive Q where
  | free (pool : Nat)
  | general (thread : Nat)
  | wait (thread : Nat)
deriving DecidableEq

/-- Contents of queues, headers of messages (`sfptpd_msg_hdr`), counts of pools
(`struct sfptpd_pool`). `home` is the pool of a message (`msg->free`, `msg->pool`),
if it is not on a stack. -/
structure St where
  q : Q → List Nat
  reply : Nat → Option Q
  id : Nat → Nat
  home : Nat → Option Nat
  freeCount : Nat → Int
  usedCount : Nat → Int

/-- `f` with the value at `a` replaced. -/
def upd {α β : Type} [DecidableEq α] (f : α → β) (a : α) (b : β) : α → β := fun x => if x = a then b else f x

/-- `queue_send` (lines 509-524); `ok` says whether the write succeeds. -/
def queueSend (ok : Bool) (s : St) (q : Q) (m : Nat) : Int × St :=
  if ok then (0, { s with q := upd s.q q (s.q q ++ [m]) }) else (11, s)

/-- `queue_receive` (lines 527-544): nothing if the queue is empty. -/
def queueReceive (s : St) (q : Q) : Option (Nat × St) :=
  match s.q q with
  | [] => none
  | m :: rest => some (m, { s with q := upd s.q q rest })

/-- The loop of `pool_allocate` (lines 596-608) over the new messages. -/
def poolAllocate (s : St) (p : Nat) : List Nat → St
  | [] => s
  | m :: ms =>
    let s := { s with reply := upd s.reply m none, id := upd s.id m 0, home := upd s.home m (some p) }
    let s := (queueSend true s (.free p) m).2
    poolAllocate { s with freeCount := upd s.freeCount p (s.freeCount p + 1) } p ms

/-- `sfptpd_msg_alloc` (lines 1043-1069). -/
def msgAlloc (s : St) (p : Nat) : Option (Nat × St) :=
  match queueReceive s (.free p) with
  | none => none
  | some (m, s) =>
    some (m, { s with freeCount := upd s.freeCount p (s.freeCount p - 1), usedCount := upd s.usedCount p (s.usedCount p + 1) })

/-- `sfptpd_msg_free` (lines 1078-1105); `ok` is the outcome of the write to the
free queue. -/
def msgFree (ok : Bool) (s : St) (m : Nat) : St :=
  match s.home m with
  | none => s
  | some p =>
    let s := { s with reply := upd s.reply m none, id := upd s.id m 0 }
    let s := { s with freeCount := upd s.freeCount p (s.freeCount p + 1), usedCount := upd s.usedCount p (s.usedCount p - 1) }
    (queueSend ok s (.free p) m).2

/-- `sfptpd_msg_send` (lines 1108-1152) by thread `self` to `r`; `ok` is the
outcome of the first write, `okFree` of the one returning the message. -/
def msgSend (ok okFree : Bool) (s : St) (self m r id : Nat) (needsReply : Bool) : Option (Int × St) :=
  match s.home m with
  | none => none
  | some p =>
    let s := { s with id := upd s.id m id, reply := upd s.reply m (if needsReply then some (.general self) else none) }
    let r := queueSend ok s (.general r) m
    if r.1 ≠ 0 then
      let s := { r.2 with reply := upd r.2.reply m none }
      some (r.1, (queueSend okFree s (.free p) m).2)
    else some r

/-- `sfptpd_msg_send_wait` (lines 1155-1199) up to the wait: whether it waits. -/
def sendWaitBegin (ok : Bool) (s : St) (self m r id : Nat) : Int × St :=
  let s := { s with id := upd s.id m id, reply := upd s.reply m (some (.wait self)) }
  let r := queueSend ok s (.general r) m
  if r.1 ≠ 0 then (r.1, { r.2 with reply := upd r.2.reply m none }) else r

/-- `sfptpd_msg_send_wait` from the wait on (lines 1184-1198): the message
received, and the state. -/
def sendWaitEnd (s : St) (self m : Nat) : Option (Nat × St) :=
  match queueReceive s (.wait self) with
  | none => none
  | some (got, s) => some (got, { s with reply := upd s.reply m none })

/-- `sfptpd_msg_reply` (lines 1202-1229). -/
def msgReply (ok okFree : Bool) (s : St) (m : Nat) : Int × St :=
  match s.reply m with
  | none => (0, msgFree okFree s m)
  | some q =>
    let s := { s with reply := upd s.reply m none }
    let r := queueSend ok s q m
    if r.1 ≠ 0 then (r.1, { r.2 with reply := upd r.2.reply m (some q) }) else r

/-! ## Multicast -/

/-- `struct multicast_user`: the thread and, for an event subscriber, its event. -/
structure User where
  thread : Nat
  event : Option Nat
deriving DecidableEq

/-- `struct multicast_group`. -/
structure Group where
  id : Nat
  publishers : List User
  subscribers : List User
deriving DecidableEq

/-- Insertion of a user in a group (lines 214-215). -/
def insertUser (u : User) (publisher : Bool) (g : Group) : Group :=
  if publisher then { g with publishers := u :: g.publishers } else { g with subscribers := u :: g.subscribers }

/-- The group found (lines 200-202) and changed, if there is one. -/
def insertIn (u : User) (id : Nat) (publisher : Bool) : List Group → Option (List Group)
  | [] => none
  | g :: gs => if g.id = id then some (insertUser u publisher g :: gs) else (insertIn u id publisher gs).map (g :: ·)

/-- `multicast_add_user` (lines 178-228): error code and groups. `memUser` and
`memGroup` are the outcomes of the allocations of a user and of a group. -/
def addUser (memUser memGroup : Bool) (gs : List Group) (u : User) (id : Nat) (publisher : Bool) : Int × List Group :=
  if memUser then
    match insertIn u id publisher gs with
    | some gs => (0, gs)
    | none => if memGroup then (0, insertUser u publisher ⟨id, [], []⟩ :: gs) else (12, gs)
  else (12, gs)

/-- Removal of the first user with that thread (lines 255-268). -/
def removeFirst (t : Nat) : List User → Option (List User)
  | [] => none
  | u :: us => if u.thread = t then some us else (removeFirst t us).map (u :: ·)

/-- `multicast_remove_user` (lines 230-287): error code and groups. -/
def removeUser (t id : Nat) (publisher : Bool) : List Group → Int × List Group
  | [] => (2, [])
  | g :: gs =>
    if g.id = id then
      let r := removeFirst t (if publisher then g.publishers else g.subscribers)
      let g' := match r with
        | none => g
        | some us => if publisher then { g with publishers := us } else { g with subscribers := us }
      (if r.isSome then 0 else 2, if g'.publishers = [] ∧ g'.subscribers = [] then gs else g' :: gs)
    else
      let r := removeUser t id publisher gs
      (r.1, g :: r.2)

/-- The allocation loop of `sfptpd_multicast_send` (lines 424-434): destinations
and messages in order; `none` in place of a message where allocation failed,
after which the loop stops. -/
def allocDests (pool : Nat) : List User → St → List (Nat × Option Nat) × St
  | [], s => ([], s)
  | u :: us, s =>
    if u.event = none then
      match msgAlloc s pool with
      | none => ([(u.thread, none)], s)
      | some (m, s) =>
        let r := allocDests pool us s
        ((u.thread, some m) :: r.1, r.2)
    else allocDests pool us s

/-- Freeing what was allocated, last first (lines 439-441). -/
def freeDests : List (Nat × Option Nat) → St → St
  | [], s => s
  | (_, none) :: ds, s => freeDests ds s
  | (_, some m) :: ds, s => msgFree true (freeDests ds s) m

/-- The replication loop (lines 450-462); `oks` are the outcomes of the writes. -/
def sendDests (self id : Nat) : List (Nat × Option Nat) → List Bool → Int → St → Option (Int × St)
  | [], _, rc, s => some (rc, s)
  | (_, none) :: _, _, _, _ => none
  | (t, some m) :: ds, oks, rc, s =>
    match msgSend (oks.headD true) true s self m t id false with
    | none => none
    | some (ret, s) => sendDests self id ds oks.tail (if ret ≠ 0 ∧ rc = 0 then ret else rc) s

/-- `sfptpd_multicast_send` (lines 380-468): error code, events posted, state. -/
def multicastSend (gs : List Group) (self id pool : Nat) (oks : List Bool) (s : St) : Option (Int × List (Nat × Nat) × St) :=
  match gs.find? (fun g => decide (g.id = id)) with
  | none => some (111, [], s)
  | some g =>
    let events := g.subscribers.filterMap (fun u => u.event.map (fun e => (u.thread, e)))
    let r := allocDests pool g.subscribers s
    if r.1.any (fun d => d.2.isNone) then some (11, events, freeDests r.1 r.2)
    else (sendDests self id r.1 oks 0 r.2).map (fun x => (x.1, events, x.2))

end Verif.Thread
