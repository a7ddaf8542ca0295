/-!
# The privileged helper, its client in the daemon, and the editing of chronyd's options

Sources: `src/priv_helper/sfptpd_priv_helper.c` (the helper process), `src/sfptpd_priv.c` (the
calls the daemon makes), `src/crny/sfptpd_crny_helper.c` (connecting to chronyd's socket, editing
its environment files and restarting it), `src/include/sfptpd_priv_ops.h` (the messages).

Characters are `Char`, texts are lists of characters without the terminator.  The results of
system calls are inputs.  Logging is not modelled.
-/

namespace Verif.Priv

abbrev Text := List Char

/-! ## Messages (`sfptpd_priv_ops.h` lines 16-66) -/

/-- `enum chrony_clock_control_op` (`sfptpd_crny_helper.h` lines 13-20). -/
inductive Op | nop | enable | disable | save | restore | restoreNoRestart
  deriving DecidableEq, Repr

/-- `struct sfptpd_priv_req_msg` (`sfptpd_priv_ops.h` lines 38-44).  The `path` is the whole array
of 128 bytes; a request number outside the enumeration is `unknown`. -/
inductive Req
  | close | sync | openChrony
  | openDev (path : Text)
  | control (op : Op)
  | unknown
  deriving DecidableEq, Repr

/-- `struct sfptpd_priv_resp_msg` (`sfptpd_priv_ops.h` lines 59-66).  The three variants keep their
`rc` at the same place; `step` is `failing_step`. -/
structure Resp where
  rc : Int := 0
  step : Text := []
  deriving DecidableEq, Repr

/-! ## Connecting to chronyd -/

/-- The results of the system calls of `sfptpd_crny_helper_connect`: `none` is success, `some e` is
failure with `errno = e`.  `fd` is the descriptor `socket` returns when it succeeds. -/
structure Calls where
  clientFits : Bool
  serverFits : Bool
  sock : Option Nat
  fd : Nat
  getfd : Option Nat
  setfd : Option Nat
  setfl : Option Nat
  bind : Option Nat
  chmod : Option Nat
  connect : Option Nat
  deriving DecidableEq, Repr

/-- What a function does to the world. -/
inductive Act
  /-- a descriptor comes into being: a socket -/
  | socket (fd : Nat)
  /-- a device file is opened: the path, and the descriptor if the call succeeded -/
  | opened (path : Text) (fd : Option Nat)
  /-- `unlink(client_path)` -/
  | unlink
  /-- `bind` made the client path -/
  | bound
  /-- `close` -/
  | close (fd : Nat)
  /-- `sfptpd_crny_helper_control` is run -/
  | control (op : Op)
  /-- a response is sent, with a descriptor or without -/
  | sent (resp : Resp) (fd : Option Nat)
  deriving DecidableEq, Repr

def eNOMEM : Nat := 12
def eINPROGRESS : Nat := 115
def eNAMETOOLONG : Nat := 36
def ePERM : Nat := 1
def eNOTCONN : Nat := 107
def eINVAL : Nat := 22
def eAGAIN : Nat := 11
def eINTR : Nat := 4
def eNOENT : Nat := 2

/-- What `sfptpd_crny_helper_connect` gives back: the return code, `*sock_ret` (`none` is -1) and
`*failing_step`. -/
structure Conn where
  rc : Nat
  sock : Option Nat
  step : Text
  acts : List Act
  deriving DecidableEq, Repr

/-- `cleanup` and `cleanup2` of `sfptpd_crny_helper_connect` (crny_helper.c lines 153-157): with
`rm` the path is unlinked too. -/
def Conn.fail (acts : List Act) (rm : Bool) (fd rc : Nat) (step : Text) : Conn :=
  { rc, sock := none, step, acts := acts ++ (if rm then [.unlink] else []) ++ [.close fd] }

/-- `sfptpd_crny_helper_connect` (crny_helper.c lines 56-158).  The close-on-exec and non-blocking
flags themselves are not modelled. -/
def helperConnect (c : Calls) : Conn :=
  if !c.clientFits then { rc := eNOMEM, sock := none, step := "snprintf1".toList, acts := [] }
  else if !c.serverFits then { rc := eNOMEM, sock := none, step := "snprintf2".toList, acts := [] }
  else match c.sock with
  | some e => { rc := e, sock := none, step := "socket".toList, acts := [] }
  | none =>
  let a : List Act := [.socket c.fd]
  match c.getfd with
  | some e => .fail a false c.fd e "fcntl(F_GETFD)".toList
  | none =>
  match c.setfd with
  | some e => .fail a false c.fd e "fcntl(F_SETFD)".toList
  | none =>
  match c.setfl with
  | some e => .fail a false c.fd e "fcntl(F_SETFL)".toList
  | none =>
  let a := a ++ [.unlink]
  match c.bind with
  | some e => .fail a true c.fd e "bind".toList
  | none =>
  let a := a ++ [.bound]
  match c.chmod with
  | some e => .fail a true c.fd e "chmod".toList
  | none =>
  match c.connect with
  | some e =>
    if e ≠ eINPROGRESS then .fail a true c.fd e "connect".toList
    else { rc := e, sock := some c.fd, step := "success".toList, acts := a }
  | none => { rc := 0, sock := some c.fd, step := "success".toList, acts := a }

/-! ## The helper process -/

/-- `'\0'` -/
def nul : Char := Char.ofNat 0

/-- The C string kept in an array: what stands before the first NUL. -/
def cstr (buf : Text) : Text := buf.takeWhile (· ≠ nul)

def isDigit (c : Char) : Bool := 48 ≤ c.toNat && c.toNat ≤ 57

/-- One or more digits and then the end (`[[:digit:]]+$`). -/
def digitsToEnd : Text → Bool
  | [] => false
  | [c] => isDigit c
  | c :: r => isDigit c && digitsToEnd r

/-- `regexec` with `permitted_devices` (priv_helper.c line 36): `^/dev/(pps|ptp)[[:digit:]]+$`,
compiled without `REG_NEWLINE`, so that `$` is the end of the string. -/
def permitted (s : Text) : Bool :=
  "/dev/".toList.isPrefixOf s &&
    let r := s.drop 5
    (("pps".toList.isPrefixOf r && digitsToEnd (r.drop 3)) ||
     ("ptp".toList.isPrefixOf r && digitsToEnd (r.drop 3)))

/-- `op_open_chrony` (priv_helper.c lines 86-111): the response, the descriptor returned (`none` is
-1) and what was done.  The texts of the steps fit the 16 bytes of the response. -/
def opOpenChrony (c : Calls) : Resp × Option Nat × List Act :=
  let r := helperConnect c
  ({ rc := r.rc, step := r.step }, if r.rc = 0 then r.sock else none, r.acts)

/-- `op_open_dev` (priv_helper.c lines 113-138); `res` is the result of `open`. -/
def opOpenDev (path : Text) (res : Except Nat Nat) : Resp × Option Nat × List Act :=
  if nul ∉ path then ({ rc := eNAMETOOLONG }, none, [])
  else if !permitted (cstr path) then ({ rc := ePERM }, none, [])
  else match res with
    | .error e => ({ rc := e }, none, [.opened (cstr path) none])
    | .ok fd => ({ rc := 0 }, some fd, [.opened (cstr path) (some fd)])

/-- What `recv` finds (priv_helper.c line 175): a whole request, the end of the connection (0
bytes), or an error. -/
inductive Recv
  | request (r : Req)
  | closed
  | failed (e : Nat)
  deriving DecidableEq, Repr

/-- The inputs of one turn of the loop of `server`. -/
structure Turn where
  recv : Recv
  /-- what the memory of `req_msg` holds when `recv` does not fill it: the structure is declared
  in the loop without an initialiser (line 156) -/
  junk : Req
  calls : Calls
  open_ : Except Nat Nat
  /-- the result of `sfptpd_crny_helper_control` -/
  ctl : Int
  /-- the other end is closed when the response is sent -/
  broken : Bool

/-- What a turn of the loop leads to. -/
inductive After
  | go
  | stop (rc : Nat)
  /-- the process is ended by `SIGPIPE` -/
  | killed
  deriving DecidableEq, Repr

/-- The part of `server` that serves a request (priv_helper.c lines 187-202). -/
def serve (t : Turn) : Req → Resp × Option Nat × List Act
  | .close | .sync | .unknown => ({}, none, [])
  | .openChrony => opOpenChrony t.calls
  | .openDev p => opOpenDev p t.open_
  | .control op => ({ rc := t.ctl }, none, [.control op])

/-- Sending the response and closing the descriptor (priv_helper.c lines 204-234).  `sendmsg` has
no flags, so a closed peer raises `SIGPIPE`, which ends the process unless it is ignored. -/
def reply (ignore broken : Bool) (out : Resp × Option Nat × List Act) (next : After) :
    List Act × After :=
  if broken && !ignore then (out.2.2, .killed)
  else (out.2.2 ++ (if broken then [] else [.sent out.1 out.2.1]) ++
    (match out.2.1 with | some fd => [.close fd] | none => []), next)

/-- One turn of the loop of `server` (priv_helper.c lines 155-234). -/
def serverTurn (ignore : Bool) (t : Turn) : List Act × After :=
  match t.recv with
  | .failed e =>
    if e = eAGAIN ∨ e = eINTR then ([], .go)
    else reply ignore t.broken (serve t t.junk) (.stop e)
  | .closed =>
    reply ignore t.broken (serve t t.junk) (if t.junk = .close then .stop 0 else .go)
  | .request r => reply ignore t.broken (serve t r) (if r = .close then .stop 0 else .go)

/-- `server` (priv_helper.c lines 150-237) over the turns given: what each turn did, and whether
the loop still goes on after the last. -/
def server (ignore : Bool) : List Turn → List (Turn × List Act) × After
  | [] => ([], .go)
  | t :: ts =>
    match serverTurn ignore t with
    | (a, .go) => let r := server ignore ts; ((t, a) :: r.1, r.2)
    | (a, e) => ([(t, a)], e)

/-! ## The calls of the daemon -/

/-- `struct sfptpd_priv_state`: whether there is a descriptor to the helper, whether the lock is
held when no call is under way, and how often the failure was reported (`sfptpd_thread_error`). -/
structure Cl where
  conn : Bool
  locked : Bool := false
  reported : Nat := 0
  deriving DecidableEq, Repr

/-- `send` (priv.c line 162) after the repetitions for `EINTR`. -/
inductive SendR | ok | err | broken
  deriving DecidableEq, Repr

/-- The ancillary data of a response. -/
inductive Anc | none | fd (n : Nat) | invalid
  deriving DecidableEq, Repr

/-- `recvmsg` (priv.c line 180) after the repetitions. -/
inductive RecvR
  | err
  /-- 0 bytes: the helper has gone -/
  | eof
  | msg (resp : Resp) (anc : Anc)
  deriving DecidableEq, Repr

/-- `sfptpd_priv_fail` (priv.c lines 117-132); the code is the one of the callers. -/
def privFail (s : Cl) (report : Bool) : Cl :=
  { s with conn := false, reported := s.reported + if report then 1 else 0 }

/-- What a call leads to: the daemon is ended by `SIGPIPE`, or the call returns. -/
inductive Rpc
  | killed
  | ret (s : Cl) (rc : Int) (resp : Resp) (fd : Nat)
  deriving DecidableEq, Repr

/-- `sfptpd_priv_rpc` (priv.c lines 137-207) called on its own.  `isClose` tells whether it is the
request to close, `wants` whether the caller gave a place for descriptors.  The response is zeroed
by all callers.  `fd` counts only if the code is positive. -/
def rpc (ignore : Bool) (s : Cl) (isClose wants : Bool) (tx : SendR) (rx : RecvR) : Rpc :=
  if !s.conn then .ret s (-eNOTCONN) {} 0
  else
    let s := { s with locked := true }
    match tx with
    | .broken =>
      if !ignore then .killed
      else .ret (privFail s (!isClose)) (-eNOTCONN) {} 0
    | .err => .ret (privFail s (!isClose)) (-eNOTCONN) {} 0
    | .ok =>
      let s := { s with locked := false }
      match rx with
      | .err => .ret (privFail s (!isClose)) (-eNOTCONN) {} 0
      | .eof => .ret s 0 {} 0
      | .msg resp anc =>
        if !wants then .ret s 0 resp 0
        else match anc with
          | .none => .ret s 0 resp 0
          | .fd n => .ret s 1 resp n
          | .invalid => .ret s (-eINVAL) resp 0

/-- The result of one of the public calls. -/
inductive Res (α : Type)
  | killed
  | ret (s : Cl) (a : α)
  deriving DecidableEq, Repr

/-- The descriptor, or the error with its sign changed (priv.c lines 378-380). -/
def fdOrErr : Except Nat Nat → Int
  | .ok fd => fd
  | .error e => -(e : Int)

/-- `sfptpd_priv_open_dev` (priv.c lines 359-385); `own` is the result of the daemon's own
`open`. -/
def openDev (ignore : Bool) (s : Cl) (path : Text) (tx : SendR) (rx : RecvR)
    (own : Except Nat Nat) : Res Int :=
  if 128 ≤ path.length then .ret s (-eNAMETOOLONG)
  else match rpc ignore s false true tx rx with
    | .killed => .killed
    | .ret s' rc resp fd =>
      if 0 < rc then .ret s' fd
      else if rc = 0 then .ret s' (-resp.rc)
      else if rc = -eNOTCONN then
        .ret s' (fdOrErr own)
      else .ret s' rc

/-- `sfptpd_priv_open_chrony` (priv.c lines 325-357): the result and what the caller's array
`failing_step` holds afterwards, `step0` being what it held.  Line 340 sets the parameter, not
the array. -/
def openChrony (ignore : Bool) (s : Cl) (step0 : Text) (tx : SendR) (rx : RecvR) (own : Calls) :
    Res (Int × Text) :=
  match rpc ignore s false true tx rx with
  | .killed => .killed
  | .ret s' rc resp fd =>
    if 0 < rc then .ret s' (fd, step0)
    else if rc = 0 then .ret s' (-resp.rc, step0)
    else if rc = -eNOTCONN then
      let r := helperConnect own
      .ret s' (if r.rc = 0 then (match r.sock with | some fd => (fd : Int) | none => -1)
        else -(r.rc : Int), r.step)
    else .ret s' (rc, step0)

/-- `sfptpd_priv_chrony_control` (priv.c lines 387-404); `own` is the result of
`sfptpd_crny_helper_control` in the daemon itself.  The second component tells whether it was
called. -/
def chronyControl (ignore : Bool) (s : Cl) (tx : SendR) (rx : RecvR) (own : Int) :
    Res (Int × Bool) :=
  match rpc ignore s false true tx rx with
  | .killed => .killed
  | .ret s' rc resp _ =>
    if 0 ≤ rc then .ret s' (-resp.rc, false)
    else if rc = -eNOTCONN then .ret s' (-own, true)
    else .ret s' (rc, false)

/-- `sfptpd_priv_stop_helper` (priv.c lines 222-234); `none` if the daemon is killed.  Destroying
the lock is not modelled. -/
def stopHelper (ignore : Bool) (s : Cl) (tx : SendR) (rx : RecvR) : Option Cl :=
  if s.conn then
    match rpc ignore s true false tx rx with
    | .killed => none
    | .ret s' _ _ _ => some (privFail s' false)
  else some s

/-- The results of the calls `sfptpd_priv_start_helper` makes. -/
structure Start where
  path : Text
  pair : Option Nat
  fork : Option Nat
  mutex : Option Nat
  tx : SendR
  rx : RecvR
  tx2 : SendR
  rx2 : RecvR

/-- `sfptpd_priv_start_helper` (priv.c lines 236-323) in the parent.  The formatting of the number
of a descriptor cannot fail. -/
def startHelper (ignore : Bool) (i : Start) : Res Int :=
  let s : Cl := { conn := false }
  if i.path = [] then .ret s 0
  else match i.pair with
  | some e => .ret s (-(e : Int))
  | none =>
  let s := { s with conn := true }
  match i.fork with
  | some e => .ret s (-(e : Int))
  | none =>
  match i.mutex with
  | some e => .ret s (-(e : Int))
  | none =>
  match rpc ignore s false false i.tx i.rx with
  | .killed => .killed
  | .ret s' rc _ _ =>
    if rc < 0 then
      match stopHelper ignore s' i.tx2 i.rx2 with
      | none => .killed
      | some s'' => .ret s'' rc
    else .ret s' 0

/-! ## The lock, with several threads -/

/-- Where a thread stands in `sfptpd_priv_rpc`. -/
inductive Pc
  | outside
  /-- past the test of line 157, before or in `pthread_mutex_lock` (line 160) -/
  | waiting
  /-- has the lock, in `send` (lines 161-163) -/
  | sending
  /-- has the lock, in `recvmsg` (lines 179-181) -/
  | receiving
  deriving DecidableEq, Repr

structure Locks where
  conn : Bool
  lock : Option Nat
  pc : Nat → Pc

def Locks.at (s : Locks) (i : Nat) (p : Pc) : Nat → Pc := fun j => if j = i then p else s.pc j

inductive Ev
  | call (i : Nat) | lock (i : Nat) | sent (i : Nat) | sendFails (i : Nat)
  | received (i : Nat) | recvFails (i : Nat)
  deriving DecidableEq, Repr

/-- The steps of threads in `sfptpd_priv_rpc` (priv.c lines 157-185); `none` if the thread is not
there or cannot go on.  On failure of `send` the call returns from line 166, without
`pthread_mutex_unlock`. -/
def Locks.step (s : Locks) : Ev → Option Locks
  | .call i =>
    if s.pc i = .outside then
      if s.conn then some { s with pc := s.at i .waiting } else some s
    else none
  | .lock i =>
    if s.pc i = .waiting ∧ s.lock = none then some { s with lock := some i, pc := s.at i .sending }
    else none
  | .sent i =>
    if s.pc i = .sending then some { s with pc := s.at i .receiving } else none
  | .sendFails i =>
    if s.pc i = .sending then some { s with conn := false, pc := s.at i .outside } else none
  | .received i =>
    if s.pc i = .receiving then some { s with lock := none, pc := s.at i .outside } else none
  | .recvFails i =>
    if s.pc i = .receiving then
      some { conn := false, lock := none, pc := s.at i .outside } else none

/-- After `sfptpd_priv_start_helper`. -/
def Locks.init : Locks := { conn := true, lock := none, pc := fun _ => .outside }

def Locks.run (s : Locks) : List Ev → Option Locks
  | [] => some s
  | e :: es => (s.step e).bind fun s' => s'.run es

/-! ## The environment files of chronyd -/

/-- `isspace` in the C locale (`[[:space:]]`). -/
def isSpace (c : Char) : Bool := c.toNat = 32 || (9 ≤ c.toNat && c.toNat ≤ 13)

def startBlock : Text := "### BEGIN sfptpd ###".toList
def endBlock : Text := "### END sfptpd ###".toList

/-- The end of the option pattern: `"?[[:space:]]*([;#].*)?$`. -/
def tailOk (r : Text) : Bool :=
  match (match r with | '"' :: r => r | r => r).dropWhile isSpace with
  | [] => true
  | c :: _ => c == ';' || c == '#'

/-- `([^"]*)` before the end of the pattern: the longest beginning of `run` for which what is left
over, with `tail` behind it, satisfies the rest. -/
def longest (run tail : Text) : Nat → Option Text
  | 0 => if tailOk (run ++ tail) then some [] else none
  | k + 1 => if tailOk (run.drop (k + 1) ++ tail) then some (run.take (k + 1))
      else longest run tail k

/-- What stands after the optional opening quotation mark. -/
def valueOf (l : Text) : Option Text :=
  let run := l.takeWhile (· ≠ '"')
  longest run (l.dropWhile (· ≠ '"')) run.length

/-- The second group of `option_pattern` (crny_helper.c lines 171-174), with the preference for the
longest earlier part that POSIX demands; `none` if the line does not match.  The first group is
the key itself. -/
def optValue (key line : Text) : Option Text :=
  let l := line.dropWhile isSpace
  if key.isPrefixOf l then
    match (l.drop key.length).dropWhile isSpace with
    | '=' :: r =>
      match r.dropWhile isSpace with
      | '"' :: r => valueOf r
      | r => valueOf r
    | _ => none
  else none

/-- The state of the loop of `edit_env`: the text before our section, the section being read
(`OURS`), and `options_value`. -/
structure Ed where
  kept : Text := []
  ours : Option Text := none
  value : Option Text := none
  deriving DecidableEq, Repr

/-- The treatment of one line in `edit_env` (crny_helper.c lines 273-308); `last` is `ptr == end`,
`nl` the newline after the line. -/
def Ed.line (key : Text) (e : Ed) (line nl : Text) (last : Bool) : Ed :=
  match e.ours with
  | none =>
    if startBlock.isPrefixOf line then { e with ours := some (line ++ nl) }
    else { e with kept := e.kept ++ (line ++ nl)
                  value := match optValue key line with | some v => some v | none => e.value }
  | some p =>
    if endBlock.isPrefixOf line || last then { e with ours := none }
    else { e with ours := some (p ++ (line ++ nl)) }

/-- The loop of `edit_env` over a file that ends in a newline (crny_helper.c lines 260-309, with
`strsep`).  `none` is an access outside the mapping: at a NUL `strsep` gives a null pointer, from
which the next position is computed. -/
def Ed.scan (key : Text) : Ed → Text → Text → Option Ed
  | e, cur, [] => some { e with kept := e.kept ++ cur }
  | e, cur, c :: r =>
    if c = nul then none
    else if c = '\n' then (e.line key cur ['\n'] r.isEmpty).scan key [] r
    else e.scan key (cur ++ [c]) r

/-- The text written before the new section (lines 318-321): what is left, whether or not a
section was still open, and the missing newline. -/
def Ed.body (e : Ed) : Text := e.kept ++ e.ours.getD []

def pageSize : Nat := 4096

/-- The reading part of `edit_env` (crny_helper.c lines 240-309, 318-321): the text written and
`options_value`.  In a file without a newline at its end the test of line 268 holds at the first
line already (no NUL up to the end), so that the whole file is taken as one line, which has no
terminator; `regexec` then runs on to the zeroes behind the end of the file, and where the file
fills its last page there are none (`none`). -/
def readEnv (key file : Text) : Option (Text × Option Text) :=
  match file.getLast? with
  | none => some ([], none)
  | some c =>
    if c ≠ '\n' then
      if nul ∈ file then none
      else if file.length % pageSize = 0 then none
      else
        let e := Ed.line key {} file [] true
        some (e.body ++ ['\n'], e.value)
    else (Ed.scan key {} [] file).map fun e => (e.body, e.value)

/-- The section appended (crny_helper.c lines 325-332). -/
def section_ (key : Text) (value : Option Text) : Text :=
  startBlock ++ ['\n'] ++ key ++ "=\"".toList ++
    (match value with | some v => v ++ [' '] | none => []) ++ "-x\"\n".toList ++ endBlock ++ ['\n']

/-- `edit_env` for one file (crny_helper.c lines 240-343): the new contents, `none` on an access
outside the mapping. -/
def editFile (key : Text) (op : Op) (file : Text) : Option Text :=
  (readEnv key file).map fun r => r.1 ++ if op = .disable then section_ key r.2 else []

/-- What the system calls for one file give in `edit_env`. -/
inductive FileR
  | openFails (e : Nat)
  | statFails (e : Nat)
  | mmapFails (e : Nat)
  /-- `fdopen` fails; `empty` tells whether the file is empty, in which case no pattern was
  compiled -/
  | streamFails (empty : Bool)
  | truncFails
  | done
  deriving DecidableEq, Repr

/-- `rc` and `successes` after one file (crny_helper.c lines 228-356).  The patterns compile. -/
def fileRc (s : Int × Nat) : FileR → Int × Nat
  | .openFails e | .statFails e | .mmapFails e => (e, s.2)
  | .streamFails true => s
  | .streamFails false => (0, s.2)
  | .truncFails => (-1, s.2)
  | .done => (0, s.2 + 1)

/-- The return code of `edit_env` (crny_helper.c lines 182-365). -/
def editRc (files : List FileR) : Int :=
  let r := files.foldl fileRc ((eNOENT : Int), 0)
  if r.2 ≠ 0 then 0 else r.1

/-- The commands given to `system`. -/
inductive Cmd | systemctlChronyd | systemctlChrony | serviceChronyd | serviceChrony
  deriving DecidableEq, Repr

/-- `sfptpd_crny_helper_control` (crny_helper.c lines 367-398): whether the files are edited, the
commands run and the return code.  `edit` is the result of `edit_env`, `sys` the value `system`
returns for a command. -/
def control (edit : Int) (sys : Cmd → Int) : Op → Bool × List Cmd × Int
  | .restoreNoRestart => (true, [], edit)
  | .enable | .disable | .restore =>
    if edit = 0 then
      let rc := sys .systemctlChronyd
      if rc = 127 then
        let rc := sys .serviceChronyd
        if rc = 4 then (true, [.systemctlChronyd, .serviceChronyd, .serviceChrony],
          sys .serviceChrony)
        else (true, [.systemctlChronyd, .serviceChronyd], rc)
      else if 4 ≤ rc then (true, [.systemctlChronyd, .systemctlChrony], sys .systemctlChrony)
      else (true, [.systemctlChronyd], rc)
    else (true, [], edit)
  | .save | .nop => (false, [], 0)

end Verif.Priv
