import Verif.Time.Lemmas

/-!
# Model of the PTP hardware clock devices

`src/sfptpd_phc.c`: the choice of the method by which a hardware clock is
compared with the system clock, the comparison methods, the external PPS
inputs and the life of the file descriptors; together with the two options of
`src/sfptpd_general_config.c:507-625` that configure the orders of the methods.

Every answer of the kernel is taken from a stream indexed by the number of the
call (`Env`), so that the statements hold for whatever the kernel answers.
A failing `assert`, a write past the end of a buffer and the use of an
uninitialised variable are `Fault`s.

Simplifications: times are exact (`sfptpd_time_subtract` and
`sfptpd_time_add` are exact on normalised arguments by property C01, overflow
of the 64-bit seconds is left out); `long double` computations are exact.
-/

namespace Verif.Phc

open Verif.Time (Ts val)

/-- What must not happen: a failing `assert`, a buffer overrun, a variable used
before it is set, a recursion that does not end. -/
inductive Fault where
  | assertion
  | overflow
  | uninitialised
  | endless
deriving DecidableEq, Repr

/-- `enum sfptpd_phc_diff_method` (`src/include/sfptpd_phc.h:24-32`). -/
inductive Method where
  | precise | efx | pps | extended | sysOffset | readTime | max
deriving DecidableEq, Repr

/-- `sfptpd_phc_pps_method_t` (`src/include/sfptpd_phc.h:35-39`). -/
inductive PpsMethod where
  | devPtp | devPps | max
deriving DecidableEq, Repr

/-- `enum pps_state` (`src/sfptpd_phc.c:81-87`). -/
inductive Synth where
  | notTried | init | notReady | good | bad
deriving DecidableEq, Repr

/-- Errno values of the platform. -/
def ENOENT : Nat := 2
def EAGAIN : Nat := 11
def ENOMEM : Nat := 12
def EFAULT : Nat := 14
def EINVAL : Nat := 22
def ERANGE : Nat := 34
def EOPNOTSUPP : Nat := 95
def ENOTSUP : Nat := 95

/-! ## Options -/

/-- `sfptpd_phc_diff_method_text` (`src/sfptpd_phc.c:163-171`) and the search
for a parameter among the first `SFPTPD_DIFF_METHOD_MAX` of them
(`src/sfptpd_general_config.c:559-560, 575-578`). -/
def methodOf (s : String) : Option Method :=
  if s = "sys-offset-precise" then some .precise
  else if s = "efx" then some .efx
  else if s = "pps" then some .pps
  else if s = "sys-offset-ext" then some .extended
  else if s = "sys-offset" then some .sysOffset
  else if s = "read-time" then some .readTime
  else none

/-- `sfptpd_phc_pps_method_text` (`src/sfptpd_phc.c:199-203`) and the search
(`src/sfptpd_general_config.c:599-600, 615-618`). -/
def ppsMethodOf (s : String) : Option PpsMethod :=
  if s = "devptp" then some .devPtp
  else if s = "devpps" then some .devPps
  else none

/-- The part of the general configuration these options touch
(`src/include/sfptpd_general_config.h`): the two orders and the rules of the
selection policy, as numbers of `enum sfptpd_selection_rule`. -/
structure Conf where
  diffMethods : List Method
  ppsMethods : List PpsMethod
  rules : List Nat
deriving DecidableEq, Repr

/-- The defaults (`src/sfptpd_phc.c:184-192, 206-210`, `src/sfptpd_bic.c:52-69`,
copied by `src/sfptpd_general_config.c:1744-1747`). -/
def Conf.default : Conf where
  diffMethods := [.precise, .efx, .pps, .extended, .sysOffset, .readTime, .max]
  ppsMethods := [.devPps, .devPtp, .max]
  rules := [1, 2, 3, 4, 5, 6, 7, 8, 9, 10, 0]

/-- The loop of `parse_phc_diff_method_order`
(`src/sfptpd_general_config.c:558-579`) from parameter `i` on. -/
def diffLoop (c : Conf) (i : Nat) : List String → Nat × Conf
  | [] => (0, { c with diffMethods := c.diffMethods.set i .max })
  | s :: rest =>
    match methodOf s with
    | none => (EINVAL, c)
    | some m =>
      if m ∈ c.diffMethods.take i then (EINVAL, c)
      else diffLoop { c with diffMethods := c.diffMethods.set i m } (i + 1) rest

/-- `parse_phc_diff_method_order` (`src/sfptpd_general_config.c:547-584`). -/
def parseDiff (c : Conf) (params : List String) : Nat × Conf :=
  if params.length > 6 then (EINVAL, c) else diffLoop c 0 params

/-- The loop of `parse_phc_pps_methods`
(`src/sfptpd_general_config.c:598-622`) from parameter `i` on. The end mark is
written to the rules of the selection policy (lines 621-622);
`SFPTPD_PPS_METHOD_MAX` is 2. -/
def ppsLoop (c : Conf) (i : Nat) : List String → Nat × Conf
  | [] => (0, if i < 2 then { c with rules := c.rules.set i 2 } else c)
  | s :: rest =>
    match ppsMethodOf s with
    | none => (EINVAL, c)
    | some m =>
      if m ∈ c.ppsMethods.take i then (EINVAL, c)
      else ppsLoop { c with ppsMethods := c.ppsMethods.set i m } (i + 1) rest

/-- `parse_phc_pps_methods` (`src/sfptpd_general_config.c:587-625`). -/
def parsePps (c : Conf) (params : List String) : Nat × Conf :=
  if params.length > 2 then (EINVAL, c) else ppsLoop c 0 params

/-- The loop of `sfptpd_phc_set_diff_methods` (`src/sfptpd_phc.c:1116-1120`)
over the entries `i..MAX` of the new order; an order that has no entry left is
read past its end, which cannot happen for an array of the declared size. -/
def setLoop {α : Type} [DecidableEq α] (sentinel : α) (n : Nat) (tbl : List α) (i : Nat) : List α → Nat × List α
  | [] => (ERANGE, tbl.set n sentinel)
  | m :: rest =>
    if i > n then (ERANGE, tbl.set n sentinel)
    else if m = sentinel then (0, tbl.set i m)
    else setLoop sentinel n (tbl.set i m) (i + 1) rest

/-- `sfptpd_phc_set_diff_methods` (`src/sfptpd_phc.c:1109-1125`). -/
def setDiffMethods (tbl order : List Method) : Nat × List Method := setLoop .max 6 tbl 0 order

/-- `sfptpd_phc_set_pps_methods` (`src/sfptpd_phc.c:1335-1353`). -/
def setPpsMethods (tbl order : List PpsMethod) : Nat × List PpsMethod := setLoop .max 2 tbl 0 order

/-! ## Clock identifiers -/

/-- `PHC_FD_TO_POSIX_ID` (`src/sfptpd_phc.c:68`): `~fd` is `-fd - 1`, the shift
multiplies by eight and the low bits are set to 3. -/
def fdToPosix (fd : Int) : Int := (-fd - 1) * 8 + 3

/-- `POSIX_ID_TO_PHC_FD` (`src/sfptpd_phc.c:69`), arithmetic shift. -/
def posixToFd (id : Int) : Int := -(id / 8) - 1

/-! ## The device -/

/-- `struct ptp_clock_caps` as far as used. -/
structure Caps where
  maxAdj : Int
  nExtTs : Nat
  pps : Bool
  cross : Bool
deriving DecidableEq, Repr

/-- `struct sfptpd_phc` (`src/sfptpd_phc.c:94-146`). File descriptors that may
be -1 are options; `efx` says whether the EFX method has been defined. -/
structure Phc where
  idx : Nat
  fd : Nat
  posix : Int
  caps : Caps
  efx : Bool := false
  method : Method := .precise
  index : Int := 6
  ppsFd : Option Nat := none
  ppsPrev : Int × Int := (0, 0)
  prevMono : Ts := ⟨0, 0, 0⟩
  diffPrev : Ts := ⟨0, 0, 0⟩
  stepped : Bool := false
  ppsMethod : PpsMethod := .max
  devPath : List Char := []
  devFd : Option Nat := none
  devPrev : Int × Int × Nat := (0, 0, 4294967295)
  synth : Synth := .notTried
deriving DecidableEq, Repr

/-- A reading of the device between two readings of the system clock. -/
structure Sample where
  before : Ts
  device : Ts
  after : Ts
deriving DecidableEq, Repr

/-- An external timestamp event: the channel and the time. -/
structure Extts where
  index : Nat
  time : Ts
deriving DecidableEq, Repr

/-- The files below `/sys/class/pps/`: `none` where the `name` file cannot be
opened, otherwise the text of the file. `failed` carries the errno left by the
functions that list the directory. -/
inductive Listing where
  | failed (errno : Nat)
  | entries (l : List (List Char × Option (List Char)))
deriving DecidableEq, Repr

/-- The answers of the kernel to the `n`-th call. An `Except` holds the errno. -/
structure Env where
  openDev : Nat → List Char → Except Nat Nat
  getCaps : Nat → Except Nat Caps
  listing : Nat → Listing
  enable : Nat → Option Nat
  mono : Nat → Ts
  real : Nat → Except Nat Ts
  device : Nat → Except Nat Ts
  fetch : Nat → Except Nat (Int × Int)
  fetchExt : Nat → Except Nat (Int × Int × Nat)
  precise : Nat → Except Nat (Ts × Ts)
  extended : Nat → Except Nat (List Sample)
  sysOffset : Nat → Except Nat (List Ts)
  sysProbe : Nat → Nat
  efx : Nat → Except Nat Ts
  setPin : Nat → Option Nat
  extts : Nat → Option Nat
  readExtts : Nat → Except Nat Extts

/-- What is done to the file descriptors. -/
inductive Ev where
  | opened (fd : Nat)
  | closed (fd : Nat)
  | ppsOn (fd : Nat)
  | ppsOff (fd : Nat)
deriving DecidableEq, Repr

/-- The two tables (`src/sfptpd_phc.c:195-197, 214-216`), the device, the
number of calls made and what was done to file descriptors. -/
structure World where
  methods : List Method
  ppsMethods : List PpsMethod
  phc : Phc
  tick : Nat := 0
  log : List Ev := []
deriving DecidableEq, Repr

/-- One more call has been made. -/
def World.next (w : World) : World := { w with tick := w.tick + 1 }

/-- Changes the device. -/
def World.set (w : World) (f : Phc → Phc) : World := { w with phc := f w.phc }

/-- Notes what was done to a file descriptor. -/
def World.note (w : World) (e : Ev) : World := { w with log := w.log ++ [e] }

/-! ## Times -/

/-- The normalised time of a value in units of `2^-32` ns
(`sfptpd_time_normalise`). -/
def ofVal (v : Int) : Ts :=
  { sec := v / 4294967296 / 1000000000, nsec := v / 4294967296 % 1000000000, frac := v % 4294967296 }

/-- `sfptpd_time_subtract` on normalised times; `phc_pct_subtract`
(`src/sfptpd_phc.c:235-243`) is the same for times of the kernel. -/
def sub (a b : Ts) : Ts := ofVal (val a - val b)

/-- `phc_update_smallest_window_diff` (`src/sfptpd_phc.c:255-275`): the
smallest window so far (`none` is `INFINITY`), the difference written. -/
def update (window : Ts) (smallest : Option Int) (start : Ts) (diff : Ts) : Bool × Option Int × Ts :=
  if 0 < val window ∧ (∀ s ∈ smallest, val window < s) then
    (true, some (val window), ofVal (val start - val window / 2))
  else (false, smallest, diff)

/-- The loops over the samples (`src/sfptpd_phc.c:540-547, 716-727, 763-774`):
whether any updated the difference, the smallest window, the difference. -/
def samples : List Sample → Bool × Option Int × Ts → Bool × Option Int × Ts
  | [], st => st
  | s :: rest, (got, smallest, diff) =>
    let r := update (sub s.after s.before) smallest (sub s.device s.before) diff
    samples rest (got || r.1, r.2.1, r.2.2)

/-- What the comparisons by samples return for a list of samples: `EAGAIN`
where no window was positive (`src/sfptpd_phc.c:527-528, 549-552`,
`712-713, 733-734`, `759-760, 780-783`). -/
def ofSamples (w : World) (l : List Sample) (diff : Ts) : World × Nat × Ts :=
  let r := samples l (false, none, diff)
  if r.1 then (w.set fun p => { p with diffPrev := r.2.2 }, 0, r.2.2) else (w, EAGAIN, r.2.2)

/-- `phc_compare_by_reading_time_n` (`src/sfptpd_phc.c:513-554`), the loop from
a state: the readings stop at the first one that fails. -/
def readLoop (env : Env) : Nat → World → Bool × Option Int × Ts → World × Option Nat × (Bool × Option Int × Ts)
  | 0, w, st => (w, none, st)
  | n + 1, w, (got, smallest, diff) =>
    match env.real w.tick with
    | .error e => (w.next, some e, (got, smallest, diff))
    | .ok b =>
      match env.device (w.tick + 1) with
      | .error e => (w.next.next, some e, (got, smallest, diff))
      | .ok d =>
        match env.real (w.tick + 2) with
        | .error e => (w.next.next.next, some e, (got, smallest, diff))
        | .ok a =>
          let r := update (sub a b) smallest (sub d b) diff
          readLoop env n w.next.next.next (got || r.1, r.2.1, r.2.2)

/-- `phc_compare_by_reading_time_n` (`src/sfptpd_phc.c:513-554`). -/
def readTime (env : Env) (w : World) (n : Nat) (diff : Ts) : World × Nat × Ts :=
  let r := readLoop env n w (false, none, diff)
  match r.2.1 with
  | some e => (r.1, e, r.2.2.2.2)
  | none =>
    if r.2.2.1 then (r.1.set fun p => { p with diffPrev := r.2.2.2.2 }, 0, r.2.2.2.2)
    else (r.1, EAGAIN, r.2.2.2.2)

/-- The samples in the answer to `PTP_SYS_OFFSET`: times of the system clock
and of the device in turn (`src/sfptpd_phc.c:764-766`). -/
def interleaved : Nat → List Ts → List Sample
  | 0, _ => []
  | n + 1, b :: d :: a :: rest => { before := b, device := d, after := a } :: interleaved n (a :: rest)
  | _ + 1, _ => []

/-- `phc_compare_using_precise_offset` (`src/sfptpd_phc.c:656-687`). -/
def comparePrecise (env : Env) (w : World) (diff : Ts) : World × Nat × Ts :=
  match env.precise w.tick with
  | .error e => (w.next, e, diff)
  | .ok (d, s) => (w.next.set fun p => { p with diffPrev := sub d s }, 0, sub d s)

/-- `phc_compare_using_extended_offset` (`src/sfptpd_phc.c:689-738, 1224-1229`). -/
def compareExtended (env : Env) (w : World) (diff : Ts) : World × Nat × Ts :=
  match env.extended w.tick with
  | .error e => (w.next, e, diff)
  | .ok l => ofSamples w.next (l.take 4) diff

/-- `phc_compare_using_sys_offset` (`src/sfptpd_phc.c:741-784, 1232-1237`). -/
def compareSysOffset (env : Env) (w : World) (diff : Ts) : World × Nat × Ts :=
  match env.sysOffset w.tick with
  | .error e => (w.next, e, diff)
  | .ok l => ofSamples w.next (interleaved 4 l) diff

/-- The EFX method, a function of the clock module (`diff_method_defs`); not
defined means `EOPNOTSUPP` (`src/sfptpd_phc.c:1290-1293`). -/
def compareEfx (env : Env) (w : World) (diff : Ts) : World × Nat × Ts :=
  if w.phc.efx then
    match env.efx w.tick with
    | .error e => (w.next, e, diff)
    | .ok d => (w.next, 0, d)
  else (w, EOPNOTSUPP, diff)

/-! ## PPS devices -/

/-- `isspace` as used by `%s` of `fscanf`. -/
def isSpace (c : Char) : Bool := c = ' ' || c = '\n' || c = '\t' || c = '\r' || c = '\x0b' || c = '\x0c'

/-- `fscanf(file, "%16s", candidate_name)` with a buffer of 16 bytes
(`src/sfptpd_phc.c:327, 447`): the word with its terminating zero must fit. -/
def scanName (text : List Char) : Except Fault (Option (List Char)) :=
  let word := ((text.dropWhile isSpace).takeWhile (fun c => !isSpace c)).take 16
  if word = [] then .ok none
  else if word.length ≥ 16 then .error .overflow
  else .ok (some word)

/-- `SFPTPD_PHC_NAME_FORMAT` (`src/sfptpd_phc.c:59, 291-292`), printed into 16 bytes. -/
def phcName (idx : Nat) : List Char := (['p', 't', 'p'] ++ Nat.toDigits 10 idx).take 15

/-- `SFPTPD_PHC_EXT_NAME_FORMAT` (`src/sfptpd_phc.c:60, 413-414`). -/
def extName (idx : Nat) : List Char := (['p', 't', 'p'] ++ Nat.toDigits 10 idx ++ ['.', 'e', 'x', 't']).take 15

/-- The search of `phc_configure_pps` (`src/sfptpd_phc.c:316-337`). -/
def findPps (name : List Char) : List (List Char × Option (List Char)) → Except Fault (Option (List Char))
  | [] => .ok none
  | (entry, none) :: rest => let _ := entry; findPps name rest
  | (entry, some text) :: rest =>
    match scanName text with
    | .error f => .error f
    | .ok none => findPps name rest
    | .ok (some word) => if word = name then .ok (some entry) else findPps name rest

/-- `fail1` of `phc_configure_pps` (`src/sfptpd_phc.c:387-390`). -/
def ppsFailed (w : World) : World := w.set fun p => { p with synth := .bad }

/-- The successful end of `phc_configure_pps` (`src/sfptpd_phc.c:370-382`). -/
def ppsReady (p : Phc) : Phc := { p with prevMono := ⟨0, 0, 0⟩, ppsPrev := (0, 0), synth := .init }

/-- `phc_configure_pps` (`src/sfptpd_phc.c:278-391`). -/
def configurePps (env : Env) (w : World) : Except Fault (World × Nat) :=
  match env.listing w.tick with
  | .failed e => .ok (ppsFailed w.next, e)
  | .entries l =>
    match findPps (phcName w.phc.idx) l with
    | .error f => .error f
    | .ok none => .ok (ppsFailed w.next, ENOENT)
    | .ok (some entry) =>
      match env.openDev (w.tick + 1) entry with
      | .error e => .ok (ppsFailed (w.next.next.set fun p => { p with ppsFd := none }), e)
      | .ok fd =>
        match env.enable (w.tick + 2) with
        | some e =>
          .ok (ppsFailed ((((w.next.next.next).note (.opened fd)).note (.closed fd)).set fun p => { p with ppsFd := none }), e)
        | none =>
          .ok ((((w.next.next.next).note (.opened fd)).note (.ppsOn w.phc.fd)).set fun p => ppsReady { p with ppsFd := some fd }, 0)

/-- The state of the search in `phc_discover_devpps` (`src/sfptpd_phc.c:401-406`). -/
inductive Search where
  | searching | foundInt | foundExt | notFound
deriving DecidableEq, Repr

/-- The next state after a device of that name (`src/sfptpd_phc.c:451-462`). -/
def searchStep (name ext : List Char) (s : Search) (word : List Char) : Search :=
  if word = ext then .foundExt
  else match s with
    | .searching => if word = name then .foundInt else .searching
    | .foundInt => if word = ['s', 'f', 'c'] ∨ word = ['x', 'l', 'n', 'x'] then .foundExt else .foundInt
    | s => s

/-- The search of `phc_discover_devpps` (`src/sfptpd_phc.c:438-474`): the name
of the directory entry found. -/
def findExt (name ext : List Char) : Search → List (List Char × Option (List Char)) → Except Fault (Option (List Char))
  | _, [] => .ok none
  | s, (_, none) :: rest =>
    if s = .foundInt then .ok none else findExt name ext s rest
  | s, (entry, some text) :: rest =>
    match scanName text with
    | .error f => .error f
    | .ok none => findExt name ext (if s = .foundInt then .searching else s) rest
    | .ok (some word) =>
      if searchStep name ext s word = .foundExt then .ok (some entry)
      else findExt name ext (searchStep name ext s word) rest

/-- `phc_discover_devpps` (`src/sfptpd_phc.c:394-491`); every failure makes
the caller clear the path (1077-1082). The path is the name of the entry
without the leading `/dev/`. -/
def discoverDev (env : Env) (w : World) : Except Fault World :=
  match env.listing w.tick with
  | .failed _ => .ok (w.next.set fun p => { p with devPath := [] })
  | .entries l =>
    match findExt (phcName w.phc.idx) (extName w.phc.idx) .searching l with
    | .error f => .error f
    | .ok none => .ok (w.next.set fun p => { p with devPath := [] })
    | .ok (some entry) => .ok (w.next.set fun p => { p with devPath := entry })

/-- `phc_open_devpps` (`src/sfptpd_phc.c:494-512`). -/
def openDev (env : Env) (w : World) : World × Nat :=
  match w.phc.devFd with
  | some _ => (w, 0)
  | none =>
    match env.openDev w.tick w.phc.devPath with
    | .error e => (w.next, e)
    | .ok fd => ((w.next.note (.opened fd)).set fun p => { p with devFd := some fd }, 0)

/-- The loop of `phc_discover_pps` (`src/sfptpd_phc.c:1084-1105`). -/
def choosePps (env : Env) : List PpsMethod → World → World
  | [], w => w
  | .devPtp :: rest, w =>
    if w.phc.caps.nExtTs ≥ 1 then w.set fun p => { p with ppsMethod := .devPtp } else choosePps env rest w
  | .devPps :: rest, w =>
    if w.phc.devPath = [] then choosePps env rest w
    else
      let r := openDev env w
      if r.2 = 0 then r.1.set fun p => { p with ppsMethod := .devPps } else choosePps env rest r.1
  | .max :: _, w => w.set fun p => { p with ppsMethod := .max }

/-- `phc_discover_pps` (`src/sfptpd_phc.c:1066-1106`). -/
def discoverPps (env : Env) (w : World) : Except Fault World :=
  match discoverDev env w with
  | .error f => .error f
  | .ok w => .ok (choosePps env (w.ppsMethods.take 2) w)

/-- `sfptpd_phc_open` (`src/sfptpd_phc.c:1127-1191`) with tables already set;
the allocation succeeds, `long` has 64 bits. The device is `none` where the
function fails. -/
def openPhc (env : Env) (methods : List Method) (ppsMethods : List PpsMethod) (idx tick : Nat) :
    Except Fault (Nat × Option World × List Ev) :=
  match env.openDev tick (phcName idx) with
  | .error e => .ok (e, none, [])
  | .ok fd =>
    match env.getCaps (tick + 1) with
    | .error e => .ok (e, none, [.opened fd, .closed fd])
    | .ok caps =>
      match discoverPps env
          { methods := methods, ppsMethods := ppsMethods, tick := tick + 2, log := [.opened fd],
            phc := { idx := idx, fd := fd, posix := fdToPosix fd, caps := caps } } with
      | .error f => .error f
      | .ok w => .ok (0, some w, w.log)

/-- `sfptpd_phc_define_diff_method` (`src/sfptpd_phc.c:1433-1445`). -/
def defineEfx (w : World) : World := w.set fun p => { p with efx := true }

/-! ## Choice of the method of comparison -/

/-- `diff_method_selected` of `phc_set_fallback_diff_method`
(`src/sfptpd_phc.c:875-878`). -/
def select (w : World) (m : Method) (i : Int) : World × Nat :=
  (w.set fun p => { p with method := m, index := i }, if m = .max then EOPNOTSUPP else 0)

/-- The loop of `phc_set_fallback_diff_method` (`src/sfptpd_phc.c:798-869`) over
the entries of the table from index `i` on; `seen` tells whether the variable
`method` has been set. Leaving the loop at its end goes to the `assert` of line
873, which reads `method`. -/
def fallbackLoop (env : Env) : List Method → Bool → Nat → World → Except Fault (World × Nat)
  | [], seen, _, _ => .error (if seen then .assertion else .uninitialised)
  | .precise :: rest, _, i, w =>
    if w.phc.caps.cross then .ok (select w .precise i) else fallbackLoop env rest true (i + 1) w
  | .efx :: rest, _, i, w =>
    let r := compareEfx env w ⟨0, 0, 0⟩
    if r.2.1 = 0 then .ok (select r.1 .efx i) else fallbackLoop env rest true (i + 1) r.1
  | .pps :: rest, _, i, w =>
    if w.phc.caps.pps then
      match configurePps env w with
      | .error f => .error f
      | .ok (w, rc) => if rc = 0 then .ok (select w .pps i) else fallbackLoop env rest true (i + 1) w
    else fallbackLoop env rest true (i + 1) w
  | .extended :: rest, _, i, w =>
    match env.extended w.tick with
    | .error _ => fallbackLoop env rest true (i + 1) w.next
    | .ok _ => .ok (select w.next .extended i)
  | .sysOffset :: rest, _, i, w =>
    if env.sysProbe w.tick = EFAULT then .ok (select w.next .sysOffset i)
    else fallbackLoop env rest true (i + 1) w.next
  | .readTime :: _, _, i, w => .ok (select w .readTime i)
  | .max :: _, _, i, w => .ok (select w .max i)

/-- `phc_set_fallback_diff_method` (`src/sfptpd_phc.c:787-879`). -/
def fallback (env : Env) (w : World) : Except Fault (World × Nat) :=
  fallbackLoop env ((w.methods.take 6).drop (w.phc.index + 1).toNat) false (w.phc.index + 1).toNat w

/-- `sfptpd_phc_start` (`src/sfptpd_phc.c:1193-1198`). -/
def start (env : Env) (w : World) : Except Fault (World × Nat) :=
  fallback env (w.set fun p => { p with index := -1 })

/-! ## Comparison with the system clock -/

/-- The time before PPS is tried again: `SYNTH_PPS_RETRY_TIME` converted by
`sfptpd_time_float_s_to_timespec` (`src/sfptpd_phc.c:78, 1259`). The `double`
2.2 is a little larger than 2.2. -/
def retryTime : Ts := ⟨2, 200000000, 763⟩

/-- The second chance of PPS at the start of `sfptpd_phc_compare_to_sys_clk`
(`src/sfptpd_phc.c:1253-1278`). -/
def reselect (env : Env) (w : World) : World :=
  if w.phc.synth = .notReady then
    if val (env.mono w.tick) ≥ val w.phc.prevMono + val retryTime then
      match (w.methods.take 6).findIdx? (· = .pps) with
      | some i => w.next.set fun p => { p with index := i, method := .pps }
      | none => w.next
    else w.next
  else w

/-- The difference made of the pulse and of the rough comparison
(`src/sfptpd_phc.c:634-645`). -/
def ppsDiff (approx : Ts) (nsec : Int) : Ts :=
  let sec := if approx.nsec ≥ 500000000 then approx.sec + 1 else approx.sec
  let n := 1000000000 - nsec
  { sec := if n ≥ 500000000 then sec - 1 else sec, nsec := n, frac := 0 }

/-- The end of `phc_compare_using_pps` for a new pulse
(`src/sfptpd_phc.c:621-654`). -/
def newPulse (env : Env) (w : World) (now : Ts) (pulse : Int × Int) (diff : Ts) : World × Nat × Ts :=
  let w := w.set fun p => { p with prevMono := now, synth := .good }
  let r := readTime env w 4 ⟨0, 0, 0⟩
  if r.2.1 ≠ 0 then (r.1, r.2.1, diff)
  else
    (r.1.set fun p => { p with ppsPrev := pulse, diffPrev := ppsDiff r.2.2 pulse.2, stepped := false }, 0,
      ppsDiff r.2.2 pulse.2)

/-- Returns the last difference (`src/sfptpd_phc.c:576-577, 616-617`). -/
def again (w : World) : World × Nat × Ts :=
  (w, if w.phc.stepped then EAGAIN else 0, w.phc.diffPrev)

/-- The state after no pulse has ever been seen (`src/sfptpd_phc.c:595-605`). -/
def noPulse (p : Phc) (now : Ts) : Phc :=
  if p.synth = .init then { p with prevMono := now, synth := .notReady } else { p with synth := .bad }

/-- `PPS_FETCH` (`src/sfptpd_phc.c:584`): `EBADF` where there is no device. -/
def fetchPps (env : Env) (w : World) : Except Nat (Int × Int) :=
  if w.phc.ppsFd = none then .error 9 else env.fetch (w.tick + 1)

/-- `phc_compare_using_pps` (`src/sfptpd_phc.c:557-654`); `compare` is the
recursive call. -/
def comparePps (compare : World → Ts → Except Fault (World × Nat × Ts)) (env : Env) (w : World) (diff : Ts) :
    Except Fault (World × Nat × Ts) :=
  let now := env.mono w.tick
  if val now - val w.phc.prevMono < 900000000 * 4294967296 then .ok (again w.next)
  else
    match fetchPps env w with
    | .error e => .ok (w.next.next, e, diff)
    | .ok pulse =>
      if pulse = w.phc.ppsPrev then
        if pulse = (0, 0) then
          match fallback env (w.next.next.set fun p => noPulse p now) with
          | .error f => .error f
          | .ok (w, rc) =>
            if rc ≠ 0 then .ok (w, rc, diff)
            else if w.phc.method = .pps then .error .assertion
            else compare w diff
        else .ok (again w.next.next)
      else .ok (newPulse env w.next.next now pulse diff)

/-- The call of the method chosen (`src/sfptpd_phc.c:1280-1293`). -/
def dispatch (compare : World → Ts → Except Fault (World × Nat × Ts)) (env : Env) (w : World) (diff : Ts) :
    Except Fault (World × Nat × Ts) :=
  match w.phc.method with
  | .max => .ok (w, EOPNOTSUPP, diff)
  | .precise => .ok (comparePrecise env w diff)
  | .efx => .ok (compareEfx env w diff)
  | .pps => comparePps compare env w diff
  | .extended => .ok (compareExtended env w diff)
  | .sysOffset => .ok (compareSysOffset env w diff)
  | .readTime => .ok (readTime env w 4 diff)

/-- `sfptpd_phc_compare_to_sys_clk` (`src/sfptpd_phc.c:1244-1303`) with at most
`n` recursive calls. The result is the return code and the difference; where
the code is not zero the difference is what the function left in its argument. -/
def compareN (env : Env) : Nat → World → Ts → Except Fault (World × Nat × Ts)
  | 0, _, _ => .error .endless
  | n + 1, w, diff => dispatch (compareN env n) env (reselect env w) diff

/-- `sfptpd_phc_compare_to_sys_clk` (`src/sfptpd_phc.c:1244-1303`). -/
def compare (env : Env) (w : World) (diff : Ts) : Except Fault (World × Nat × Ts) := compareN env 3 w diff

/-- `sfptpd_phc_record_step` (`src/sfptpd_phc.c:1328-1333`). -/
def recordStep (w : World) : World := w.set fun p => { p with stepped := true }

/-! ## External PPS input -/

/-- `phc_enable_devptp` (`src/sfptpd_phc.c:882-938`): what cannot be done to the
pin is only logged. -/
def enableDevPtp (env : Env) (w : World) (on : Bool) : World × Nat :=
  if w.phc.caps.nExtTs = 0 then (w, ENOTSUP)
  else
    let w := if on then w.next else w
    match env.extts w.tick with
    | some e => (w.next, e)
    | none => (w.next, 0)

/-- `phc_enable_devpps` (`src/sfptpd_phc.c:981-1018`). -/
def enableDevPps (env : Env) (w : World) (on : Bool) : World × Nat :=
  if on then openDev env w else (w, 0)

/-- `sfptpd_phc_enable_pps` (`src/sfptpd_phc.c:1356-1374`). -/
def enablePps (env : Env) (w : World) (on : Bool) : World × Nat :=
  match w.phc.ppsMethod with
  | .devPtp => enableDevPtp env w on
  | .devPps => enableDevPps env w on
  | .max => (w, EOPNOTSUPP)

/-- `sfptpd_phc_get_pps_fd` (`src/sfptpd_phc.c:1377-1388`). -/
def ppsFd (w : World) : Option Nat :=
  match w.phc.ppsMethod with
  | .devPtp => some w.phc.fd
  | _ => none

/-- What `sfptpd_phc_get_pps_event` gives: the return code, the time and the
sequence number if they were written. -/
structure Event where
  rc : Nat
  time : Option (Int × Int)
  seq : Option Nat
deriving DecidableEq, Repr

/-- `phc_get_devptp_event` (`src/sfptpd_phc.c:941-965`) with at most `n` reads:
`none` while the loop goes on. -/
def devPtpEvent (env : Env) : Nat → World → Option (World × Event)
  | 0, _ => none
  | n + 1, w =>
    match env.readExtts w.tick with
    | .error e => some (w.next, { rc := e, time := none, seq := some 4294967295 })
    | .ok ev =>
      if ev.index = 0 then
        some (w.next, { rc := 0, time := some (ev.time.sec, ev.time.nsec), seq := some 4294967295 })
      else devPtpEvent env n w.next

/-- `phc_get_devpps_event` (`src/sfptpd_phc.c:1021-1063`). -/
def devPpsEvent (env : Env) (w : World) : Except Fault (World × Event) :=
  match w.phc.devFd with
  | none => .error .assertion
  | some _ =>
    match env.fetchExt w.tick with
    | .error e => .ok (w.next, { rc := e, time := none, seq := none })
    | .ok ev =>
      if ev = w.phc.devPrev then .ok (w.next, { rc := EAGAIN, time := none, seq := none })
      else
        .ok (w.next.set fun p => { p with devPrev := ev },
          { rc := 0, time := some (ev.1, ev.2.1), seq := some ev.2.2 })

/-! ## The end -/

/-- `sfptpd_phc_close` (`src/sfptpd_phc.c:1200-1217`): the log after it. -/
def close (w : World) : List Ev :=
  w.log
    ++ (match w.phc.devFd with | some fd => [.closed fd] | none => [])
    ++ (match w.phc.ppsFd with | some fd => [.ppsOff w.phc.fd, .closed fd] | none => [])
    ++ [.closed w.phc.fd]

/-! ## Executions -/

/-- What the rest of the program does with an open device that was started. -/
inductive Op where
  | compare (diff : Ts)
  | step
  | enable (on : Bool)
  | event
deriving DecidableEq, Repr

/-- One operation: the device afterwards. The event of a device of the PTP
subsystem does not change the device and is left to `devPtpEvent`. -/
def step (env : Env) (w : World) : Op → Except Fault World
  | .compare diff => (compare env w diff).map (·.1)
  | .step => .ok (recordStep w)
  | .enable on => .ok (enablePps env w on).1
  | .event =>
    match w.phc.ppsMethod with
    | .devPps => (devPpsEvent env w).map (·.1)
    | _ => .ok w.next

/-- The devices an execution can lead to: opened, perhaps with the EFX method,
started, and then used (`src/sfptpd_clock.c:811-834`). The index is an `int`. -/
inductive Reach (env : Env) (methods : List Method) (ppsMethods : List PpsMethod) : World → Prop
  | start {idx tick rc rc' log w0 w} (efx : Bool) (hi : idx < 2147483648) (h : openPhc env methods ppsMethods idx tick = .ok (rc, some w0, log))
      (hs : start env (if efx then defineEfx w0 else w0) = .ok (w, rc')) : Reach env methods ppsMethods w
  | step {w w'} (op : Op) (h : Reach env methods ppsMethods w) (hs : step env w op = .ok w') :
      Reach env methods ppsMethods w'

end Verif.Phc
