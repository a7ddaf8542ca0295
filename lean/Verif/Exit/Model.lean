/-
# Model: what ends the daemon, and its exit status

The main loop of the root thread (`thread_entry`, `thread_on_signal`,
`thread_on_message_event`, `sfptpd_thread_exit` of `src/sfptpd_thread.c`) with the
handlers of the daemon (`main_on_signal`, `main_on_message`, `main_on_user_fds`,
`on_control_socket_fd` of `src/sfptpd_main.c`), and the end of `main`.

Simplifications.
* The daemon has started: `main_on_startup` has returned 0.
* A result of `epoll_wait` is a list of sources, in any order. A source of signals or
  messages gives all that are read from it.
* Parameters of commands are left out, but for the number of a test.
* Only the signals of the set on lines 936-942 arrive. A real-time signal is given by its
  distance from `SIGRTMIN`.
* The write to the event descriptor succeeds.
-/

namespace Verif.Exit

/-- Signals, `src/sfptpd_main.c` lines 936-942. -/
inductive Signal
  | int | term | hup | usr1 | rt (n : Nat)
deriving DecidableEq

/-- Commands, `enum sfptpd_control_action`. -/
inductive Cmd
  | nop | error | exit | logrotate | stepclocks | selectinstance | testmode (id : Nat) | dumptables | pidAdjust
deriving DecidableEq

/-- Results of `waitid` for the helper: no event, an error, the status with which it ended, or an end by a
signal. -/
inductive Wait
  | none | failed (errno : Int) | exited (status : Int) | killed
deriving DecidableEq

/-- Descriptors given to `main_on_user_fds`. -/
inductive UserFd
  | control (c : Cmd)
  | helper (w : Wait)
  | other
deriving DecidableEq

/-- Messages. -/
inductive Msg
  | exitNotify (code : Int)
  | other
deriving DecidableEq

/-- Sources that are ready. -/
inductive Ready
  | exit
  | signals (l : List Signal)
  | messages (l : List Msg)
  | event
  | user (u : UserFd)
deriving DecidableEq

/-- Results of `epoll_wait`. -/
inductive Poll
  | interrupted
  | failed (errno : Int)
  | ready (l : List Ready)
deriving DecidableEq

/-- What the daemon asks of the engine and others. -/
inductive Act
  | rotate | step | test (id : Nat) | select | dump | pid
deriving DecidableEq

/-- `exit_errno`, whether the exit event was sent, and what was asked so far. -/
structure St where
  code : Int
  posted : Bool
  acts : List Act
deriving DecidableEq

/-- `sfptpd_thread_exit`, `src/sfptpd_thread.c` lines 1976-1992. -/
def exitWith (c : Int) (s : St) : St := { s with code := c, posted := true }

def St.ask (s : St) (a : Act) : St := { s with acts := s.acts ++ [a] }

/-- `SFPTPD_TEST_ID_MAX`, `src/include/sfptpd_test.h` line 82. -/
def testIdMax : Nat := 17

/-- `main_on_signal`, `src/sfptpd_main.c` lines 640-672. -/
def onSignal (s : St) (g : Signal) : St :=
  match g with
  | .int => exitWith 0 s
  | .term => exitWith 0 s
  | .hup => s.ask .rotate
  | .usr1 => s.ask .step
  | .rt n => if n < testIdMax then s.ask (.test n) else s

/-- `main_on_message`, `src/sfptpd_main.c` lines 675-692. -/
def onMessage (s : St) (m : Msg) : St :=
  match m with
  | .exitNotify c => exitWith c s
  | .other => s

/-- `on_control_socket_fd`, `src/sfptpd_main.c` lines 694-768. -/
def onControl (s : St) (c : Cmd) : St :=
  match c with
  | .nop => s
  | .error => s
  | .exit => exitWith 0 s
  | .logrotate => s.ask .rotate
  | .stepclocks => s.ask .step
  | .selectinstance => s.ask .select
  | .testmode id => s.ask (.test id)
  | .dumptables => s.ask .dump
  | .pidAdjust => s.ask .pid

/-- `main_on_user_fds`, `src/sfptpd_main.c` lines 771-812; `ECHILD` is 10. -/
def onUser (s : St) (u : UserFd) : St :=
  match u with
  | .control c => onControl s c
  | .helper .none => s
  | .helper (.failed e) => exitWith e s
  | .helper (.exited c) => exitWith c s
  | .helper .killed => exitWith 10 s
  | .other => s

/-- The loop over the events, `src/sfptpd_thread.c` lines 1436-1478: the state, whether the exit
event was found, and the descriptors of the user. -/
def events : List Ready → St → List UserFd → St × Bool × List UserFd
  | [], s, us => (s, false, us)
  | .exit :: _, s, us => (s, true, us)
  | .signals l :: r, s, us => events r (l.foldl onSignal s) us
  | .messages l :: r, s, us => events r (l.foldl onMessage s) us
  | .event :: r, s, us => events r s us
  | .user u :: r, s, us => events r s (us ++ [u])

inductive Res
  | running (s : St)
  | ended (code : Int) (acts : List Act)
deriving DecidableEq

/-- One turn of the main loop, `src/sfptpd_thread.c` lines 1411-1486. -/
def turn (s : St) (p : Poll) : Res :=
  match p with
  | .interrupted => .running s
  | .failed e => .ended e s.acts
  | .ready l =>
    let r := events l s []
    if r.2.1 then .ended r.1.code r.1.acts else .running (r.2.2.foldl onUser r.1)

/-- The main loop; what is left over after the end is not looked at. -/
def loop : List Poll → St → Res
  | [], s => .running s
  | p :: ps, s =>
    match turn s p with
    | .running s' => loop ps s'
    | .ended c a => .ended c a

/-- The state in which the main loop starts, `src/sfptpd_thread.c` lines 1408-1410. -/
def init : St := { code := 0, posted := false, acts := [] }

/-- The exit status, `src/sfptpd_main.c` lines 952, 964-971; `ESHUTDOWN` is 108. -/
def status (code : Int) : Int := (if code = 108 then 0 else code) % 256

end Verif.Exit
