/-
# Model: the lock file

The search for running programs in `runtime_checks`, and `lock_create`, `lock_delete`
and `daemonize` of `src/sfptpd_main.c`, for any number of processes of the daemon on
one system.

Simplifications.
* Each system call is one step; the steps of the processes are interleaved.
* The search for running programs is one step. It finds a process if it exists and is
  visible: `sees p q` is a parameter. A process is not visible in another PID name
  space, or after its executable was replaced (the link ends with " (deleted)" and
  does not match the pattern, `src/sfptpd_misc.c` lines 122-151).
* The file system knows the file of the lock only: the path leads to a file (a
  number, its inode) or to none, and new files have new numbers. A file can be
  locked by one process (`F_SETLK`); closing the file or the end of the process
  releases the lock.
* `daemon` forks and ends the parent; parent and child are one process of the model,
  as the lock has been released before.
* All processes have locking enabled and permission to remove the file. `ftruncate`,
  `lseek`, `sprintf` and `write` are one step, which may fail. The owner of the file
  and its contents are left out.
* The second `close` after a failed `daemon` is of a descriptor that is no longer
  open, or that the program has opened for something else; it has no effect on locks.
-/

namespace Verif.PidLock

/-- Where a process is. `again` tells the second `lock_create`, after `daemon`. -/
inductive Pc
  | idle
  | scanning
  | opening (again : Bool)
  | locking (file : Nat) (again : Bool)
  | writing (file : Nat) (again : Bool)
  | held (file : Nat) (again : Bool)
  | unlinking (fork : Bool)
  | forking
  | done
deriving DecidableEq

inductive Act
  | start
  | scan
  | openOk
  | openFail
  | lock
  | write (ok : Bool)
  | exit
  | daemonize
  | unlink
  | fork (ok : Bool)
  | kill
deriving DecidableEq

structure St where
  path : Option Nat
  owner : Nat → Option Nat
  next : Nat
  pc : Nat → Pc
  started : List Nat

def init : St := { path := none, owner := fun _ => none, next := 0, pc := fun _ => .idle, started := [] }

/-- The process `p` is now at `c`. -/
def St.at (s : St) (p : Nat) (c : Pc) : St := { s with pc := fun q => if q = p then c else s.pc q }

/-- The lock of the file `i` is set. -/
def St.own (s : St) (i : Nat) (o : Option Nat) : St := { s with owner := fun j => if j = i then o else s.owner j }

/-- The end of a process releases its locks. -/
def St.drop (s : St) (p : Nat) : St := { s with owner := fun j => if s.owner j = some p then none else s.owner j }

/-- One step of the process `p`.
* `start`: `main` up to the checks.
* `scan`: `runtime_checks`, lines 286-303; the process ends if it finds another.
* `openOk`, `openFail`: `open` with `O_CREAT`, lines 372-376.
* `lock`: `fcntl`, lines 378-382; if it fails the file is closed and the process ends.
* `write`: lines 388-395; on failure the file is closed and the process ends.
* `exit`: the end of `main`, line 963, and `close` on line 409.
* `daemonize`: lines 476-488 and `close` on line 409.
* `unlink`: line 410.
* `fork`: `daemon`, lines 490-499; on failure `main` goes to `exit` and calls
  `lock_delete` again with the old descriptor.
* `kill`: the process is killed. -/
def step (sees : Nat → Nat → Bool) (s : St) (p : Nat) (a : Act) : Option St :=
  match s.pc p, a with
  | .idle, .start => some { s.at p .scanning with started := p :: s.started }
  | .scanning, .scan =>
    if s.started.any (fun q => decide (q ≠ p) && sees p q && decide (s.pc q ≠ .done)) then some (s.at p .done)
    else some (s.at p (.opening false))
  | .opening b, .openOk => match s.path with
    | some i => some (s.at p (.locking i b))
    | none => some { s.at p (.locking s.next b) with path := some s.next, next := s.next + 1 }
  | .opening _, .openFail => some (s.at p .done)
  | .locking i b, .lock =>
    if s.owner i = none ∨ s.owner i = some p then some ((s.own i (some p)).at p (.writing i b))
    else some (s.at p .done)
  | .writing i b, .write ok => if ok then some (s.at p (.held i b)) else some ((s.own i none).at p .done)
  | .held i _, .exit => some ((s.own i none).at p (.unlinking false))
  | .held i false, .daemonize => some ((s.own i none).at p (.unlinking true))
  | .unlinking f, .unlink => some { s.at p (if f then .forking else .done) with path := none }
  | .forking, .fork ok => some (s.at p (if ok then .opening true else .unlinking false))
  | .idle, .kill => none
  | _, .kill => some ((s.drop p).at p .done)
  | _, _ => none

/-- A sequence of steps. -/
def run (sees : Nat → Nat → Bool) : List (Nat × Act) → St → Option St
  | [], s => some s
  | l :: r, s => (step sees s l.1 l.2).bind (run sees r)

end Verif.PidLock
