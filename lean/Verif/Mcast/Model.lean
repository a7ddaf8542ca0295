/-
# Groups of threads for messages

`src/sfptpd_multicast.c`: threads subscribe to messages and publish them.
Line numbers without a file are of this file. Threads, writers of events,
messages and addresses of groups are numbers; addresses are not used again.
The functions that add and remove users hold the lock throughout and are one
step; sending looks up its group without the lock, gathers the recipients with
the lock held and sends without it again, and is therefore several steps.
Results of allocations and of `sfptpd_msg_send` are inputs. Comments, magic
words and dumps of the state are left out, and so are the payloads.
-/

namespace Verif.Mcast

/-- `ENOENT` of Linux. -/
def eNOENT : Nat := 2
/-- `ENOMEM` of Linux. -/
def eNOMEM : Nat := 12
/-- `EAGAIN` of Linux, left in `errno` by reading the pipe of a pool that is empty
(`sfptpd_thread.c` lines 454-455, 1057-1059). -/
def eAGAIN : Nat := 11
/-- `ECONNREFUSED` of Linux. -/
def eCONNREFUSED : Nat := 111

/-- `multicast_user` (lines 33-53): the thread, and the writer if it receives
events. -/
structure User where
  thread : Nat
  writer : Option Nat
deriving DecidableEq

/-- `multicast_group` (lines 57-73). -/
structure Group where
  addr : Nat
  id : Nat
  pubs : List User
  subs : List User

/-- The list a user belongs to (lines 217, 258, 269). -/
def Group.users (g : Group) (pub : Bool) : List User := if pub then g.pubs else g.subs

/-- The group with another list. -/
def Group.set (g : Group) (pub : Bool) (l : List User) : Group :=
  if pub then { g with pubs := l } else { g with subs := l }

/-- Finding a group (lines 201-203, 247-249, 398-400). -/
def find (id : Nat) (gs : List Group) : Option Group := gs.find? (fun g => decide (g.id = id))

/-- A change of the group found. -/
def upd (id : Nat) (f : Group → Group) : List Group → List Group
  | [] => []
  | g :: gs => if g.id = id then f g :: gs else g :: upd id f gs

/-- Removing the group found if it is not used (lines 276-283). -/
def prune (id : Nat) : List Group → List Group
  | [] => []
  | g :: gs => if g.id = id then (if g.pubs = [] ∧ g.subs = [] then gs else g :: gs) else g :: prune id gs

/-- `multicast_add_user` (lines 178-228): groups, next address and return code;
`okU` and `okG` are the results of the allocations. -/
def addUser (gs : List Group) (next : Nat) (u : User) (id : Nat) (pub okU okG : Bool) : List Group × Nat × Nat :=
  if !okU then (gs, next, eNOMEM)
  else match find id gs with
    | some _ => (upd id (fun g => g.set pub (u :: g.users pub)) gs, next, 0)
    | none =>
      if !okG then (gs, next, eNOMEM)
      else (({ addr := next, id := id, pubs := [], subs := [] } : Group).set pub [u] :: gs, next + 1, 0)

/-- `multicast_remove_user` (lines 230-287): groups, return code and writer
destroyed. -/
def removeUser (gs : List Group) (t id : Nat) (pub : Bool) : List Group × Nat × Option Nat :=
  match find id gs with
  | none => (gs, eNOENT, none)
  | some g => match (g.users pub).find? (fun u => decide (u.thread = t)) with
    | none => (prune id gs, eNOENT, none)
    | some u =>
      (prune id (upd id (fun g => g.set pub ((g.users pub).eraseP (fun u => decide (u.thread = t)))) gs), 0, u.writer)

/-- The loop that allocates messages for the recipients (lines 423-433):
recipients with their messages, and whether it succeeded. -/
def allocLoop : List User → List (Option Nat) → List (Nat × Nat) × Bool
  | [], _ => ([], true)
  | u :: us, ms => match u.writer with
    | some _ => allocLoop us ms
    | none => match ms with
      | some m :: ms =>
        let (ds, ok) := allocLoop us ms
        ((u.thread, m) :: ds, ok)
      | _ => ([], false)

/-- Where a thread is in `sfptpd_multicast_send`: not in it, after looking up
the group (line 405), or sending what is left to the recipients (lines 449-462). -/
inductive Pc
  | idle
  | found (id addr : Nat)
  | sending (id : Nat) (dests : List (Nat × Nat)) (rc : Nat)

/-- The groups, the next address and the threads. -/
structure St where
  groups : List Group
  next : Nat
  pc : Nat → Pc

/-- After `sfptpd_multicast_init` (lines 294-310). -/
def St.init : St := { groups := [], next := 0, pc := fun _ => .idle }

/-- What is done: writers of events made and destroyed, events posted, messages
allocated, freed and sent to a thread, and the return of a call. -/
inductive Act
  | newWriter (w : Nat)
  | delWriter (w : Nat)
  | post (w : Nat)
  | alloc (m : Nat)
  | free (m : Nat)
  | send (dst m id : Nat)
  | ret (rc : Nat)
deriving DecidableEq

/-- The steps of thread `t`: calls with the results of allocations, and the
parts of sending. `w` is the result of making a writer, `ms` are the messages
allocated in turn, `ret` is the result of `sfptpd_msg_send`. -/
inductive In
  | subscribe (id : Nat) (okU okG : Bool)
  | subscribeEvent (id : Nat) (w : Except Nat Nat) (okU okG : Bool)
  | publish (id : Nat) (okU okG : Bool)
  | unsubscribe (id : Nat)
  | unpublish (id : Nat)
  | lookup (id : Nat)
  | gather (okD : Bool) (ms : List (Option Nat))
  | deliver (ret : Nat)

/-- Another place of a thread. -/
def St.at (s : St) (t : Nat) (p : Pc) : St := { s with pc := fun u => if u = t then p else s.pc u }

/-- Adding a user: a writer is destroyed on failure (lines 193-196, 221-224). -/
def add (s : St) (u : User) (id : Nat) (pub okU okG : Bool) : St × List Act :=
  let (gs, n, rc) := addUser s.groups s.next u id pub okU okG
  ({ s with groups := gs, next := n }, (if rc = 0 then [] else u.writer.toList.map .delWriter) ++ [.ret rc])

/-- Removing a user: its writer is destroyed (lines 168-176, 270). -/
def remove (s : St) (t id : Nat) (pub : Bool) : St × List Act :=
  let (gs, rc, w) := removeUser s.groups t id pub
  ({ s with groups := gs }, w.toList.map .delWriter ++ [.ret rc])

/-- The part of sending with the lock held (lines 408-446): events are posted,
then messages allocated; an array that cannot be allocated is written to
nevertheless (`none`). -/
def gather (g : Group) (id : Nat) (okD : Bool) (ms : List (Option Nat)) : Option (Pc × List Act) :=
  let posts := (g.subs.filterMap (·.writer)).map .post
  let count := (g.subs.filter (fun u => decide (u.writer = none))).length
  if count > 0 && !okD then none
  else
    let (ds, ok) := allocLoop g.subs ms
    let allocs := ds.map (fun d => Act.alloc d.2)
    if ok then
      some (if ds = [] then (.idle, posts ++ allocs ++ [.ret 0]) else (.sending id ds 0, posts ++ allocs))
    else some (.idle, posts ++ allocs ++ ds.reverse.map (fun d => Act.free d.2) ++ [.ret eAGAIN])

/-- One step of a thread (lines 340-468); `none` is undefined behaviour. A
thread makes no calls while it is in one. A message that cannot be sent goes back to its pool
(`sfptpd_thread.c` lines 1147-1150). -/
def step (s : St) (t : Nat) (i : In) : Option (St × List Act) :=
  match s.pc t, i with
  | .idle, .subscribe id okU okG => some (add s ⟨t, none⟩ id false okU okG)
  | .idle, .subscribeEvent id w okU okG => match w with
    | .error e => some (s, [.ret e])
    | .ok w =>
      let r := add s ⟨t, some w⟩ id false okU okG
      some (r.1, .newWriter w :: r.2)
  | .idle, .publish id okU okG => some (add s ⟨t, none⟩ id true okU okG)
  | .idle, .unsubscribe id => some (remove s t id false)
  | .idle, .unpublish id => some (remove s t id true)
  | .idle, .lookup id => match find id s.groups with
    | none => some (s, [.ret eCONNREFUSED])
    | some g => some (s.at t (.found id g.addr), [])
  | .found id a, .gather okD ms => match s.groups.find? (fun g => decide (g.addr = a)) with
    | none => none
    | some g => (gather g id okD ms).map (fun (p, acts) => (s.at t p, acts))
  | .sending id ((dst, m) :: ds) rc, .deliver ret =>
    let rc' := if ret ≠ 0 ∧ rc = 0 then ret else rc
    let act := if ret = 0 then Act.send dst m id else Act.free m
    some (if ds = [] then (s.at t .idle, [act, .ret rc']) else (s.at t (.sending id ds rc'), [act]))
  | _, _ => some (s, [])

/-- A run: the last state with what was done by whom, or `none`. -/
def run (s : St) : List (Nat × In) → Option (St × List (Nat × In × List Act))
  | [] => some (s, [])
  | (t, i) :: is => match step s t i with
    | none => none
    | some (s', acts) => (run s' is).map (fun (s'', tr) => (s'', (t, i, acts) :: tr))

/-- `sfptpd_multicast_destroy` (lines 312-328): whether the module is freed. -/
def destroy (s : St) : Bool := s.groups.isEmpty

end Verif.Mcast
