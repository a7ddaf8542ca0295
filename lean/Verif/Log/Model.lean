/-
# Model: log files, state files and the buffer of statistics in JSON

`sfptpd_log_rotate`, `sfptpd_log_close`, `create_log`, `sfptpd_log_file_close` and
`sfptpd_log_rt_stats_written` of `src/sfptpd_logging.c`.

Simplifications.
* Buffer: lengths only. A line is written by several calls to `fprintf` with full buffering; as long as it
  fits, it stays in the buffer. If it does not fit, part of it is written and a rest stays (an input). The
  counter is not limited to 32 bits.
* State files: one name, written by one thread at a time. Directory and rights are fine; a write to
  the temporary file may fail (no space left).
* Descriptors: those for messages and statistics only. Results of `open` and whether a path can be
  made (`format_path`) are inputs. A file is a number; every `open` gives a new one.
-/

namespace Verif.Log

/-! ## The buffer of statistics -/

/-- `json_stats_ptr`, the number of characters in the buffer of the stream, and whether a line was written in
parts. -/
structure Buf where
  ptr : Int
  fill : Nat
  split : Bool
deriving DecidableEq

/-- Lines 48-50, 114. -/
def bufSize : Nat := 16384

/-- `sfptpd_log_rt_stats_written`, lines 746-763. The subtraction on line 752 is of `size_t`. -/
def written (chars : Nat) (flush : Bool) (b : Buf) : Buf :=
  let ptr := b.ptr + chars
  let headroom := ((bufSize : Int) - ptr) % 18446744073709551616
  if flush = true ∨ headroom < 512 ∨ headroom < chars * 2 then { b with ptr := 0, fill := 0 }
  else { b with ptr := ptr }

/-- A line into the stream; `rest` is what stays in the buffer if the line does not fit. -/
def put (chars rest : Nat) (b : Buf) : Buf :=
  if b.fill + chars ≤ bufSize then { b with fill := b.fill + chars } else { b with fill := rest, split := true }

inductive BufEv
  | line (chars : Nat) (alarm : Bool) (rest : Nat)
  | tick
deriving DecidableEq

/-- `write_rt_stats_json`, `src/sfptpd_engine.c` lines 1116-1120, and line 1778. -/
def bufStep (b : Buf) (e : BufEv) : Buf :=
  match e with
  | .line n a r => written n a (put n r b)
  | .tick => written 0 true b

def bufInit : Buf := { ptr := 0, fill := 0, split := false }

/-! ## State files -/

/-- Where the writer is: between files, or writing the file `doc` with the rest still to be written. -/
inductive Writer
  | idle
  | writing (doc rest : List Char)
deriving DecidableEq

/-- The file at the final path and that at the temporary path. -/
structure Fs where
  final : Option (List Char)
  temp : Option (List Char)
  writer : Writer
deriving DecidableEq

inductive FsEv
  | create (doc : List Char)
  | write (n : Nat)
  | fail
  | close
deriving DecidableEq

/-- * `create`: `create_log`, lines 215-252: the temporary file is made or emptied.
* `write`: some of the rest is written, at the latest by `fclose` on line 669.
* `fail`: a write fails, and the rest is lost; `fprintf` and `fclose` are not checked.
* `close`: the rest has been written or lost; `rename`, line 673. -/
def fsStep (s : Fs) (e : FsEv) : Option Fs :=
  match s.writer, e with
  | .idle, .create doc => some { s with temp := some [], writer := .writing doc doc }
  | .writing doc rest, .write n =>
    some { s with temp := some (s.temp.getD [] ++ rest.take n), writer := .writing doc (rest.drop n) }
  | .writing doc _, .fail => some { s with writer := .writing doc [] }
  | .writing _ [], .close => some { final := s.temp, temp := none, writer := .idle }
  | _, _ => none

def fsRun : List FsEv → Fs → Option Fs
  | [], s => some s
  | e :: r, s => (fsStep s e).bind (fsRun r)

/-! ## Descriptors -/

/-- What is logged to files. -/
structure Cfg where
  msg : Bool
  stats : Bool
  shared : Bool
deriving DecidableEq

/-- Descriptors are numbers, -1 if none. `own`: open descriptors of the log and their files; `wrong`: the log closed a
descriptor that is not its own; `err`, `out`: the files of the standard streams. -/
structure Fd where
  msg : Int
  stats : Int
  own : List (Nat × Nat)
  err : Option Nat
  out : Option Nat
  wrong : Bool
deriving DecidableEq

/-- The inputs of a rotation: the path can be made; the result of `open`, a descriptor and a file. -/
structure Rot where
  pathM : Bool
  openM : Option (Nat × Nat)
  pathS : Bool
  openS : Option (Nat × Nat)
deriving DecidableEq

/-- `close`. -/
def closeFd (d : Int) (s : Fd) : Fd :=
  if s.own.any (fun x => decide ((x.1 : Int) = d)) then { s with own := s.own.filter (fun x => decide ((x.1 : Int) ≠ d)) }
  else { s with wrong := true }

/-- The file of a descriptor of the log. -/
def fileOf (d : Int) (s : Fd) : Option Nat := (s.own.find? (fun x => decide ((x.1 : Int) = d))).map (·.2)

/-- The messages, lines 519-546. -/
def rotM (r : Rot) (s : Fd) : Fd × Bool :=
  let s := if s.msg ≠ -1 then closeFd s.msg s else s
  if !r.pathM then (s, false)
  else match r.openM with
    | none => ({ s with msg := -1 }, false)
    | some x => ({ s with msg := x.1, own := x :: s.own, err := some x.2 }, true)

/-- The statistics, lines 548-578. -/
def rotS (c : Cfg) (r : Rot) (s : Fd) : Fd × Bool :=
  if c.msg && c.stats && c.shared then
    ({ s with stats := s.msg, out := match fileOf s.msg s with | some f => some f | none => s.out }, true)
  else
    let s := if s.stats ≠ -1 then closeFd s.stats s else s
    if !r.pathS then (s, false)
    else match r.openS with
      | none => ({ s with stats := -1 }, false)
      | some x => ({ s with stats := x.1, own := x :: s.own, out := some x.2 }, true)

/-- `sfptpd_log_rotate`, lines 503-578; the result tells whether it returns 0. -/
def rotate (c : Cfg) (r : Rot) (s : Fd) : Fd × Bool :=
  let a := if c.msg then rotM r s else (s, true)
  let b := if c.stats then rotS c r a.1 else (a.1, true)
  (b.1, a.2 && b.2)

/-- `sfptpd_log_close`, lines 626-636. -/
def closeLog (s : Fd) : Fd :=
  let s := if s.msg ≠ -1 ∧ s.msg ≠ s.stats then closeFd s.msg s else s
  if s.stats ≠ -1 then closeFd s.stats s else s

def fdInit : Fd := { msg := -1, stats := -1, own := [], err := none, out := none, wrong := false }

/-- A life of the log: `sfptpd_log_open` (lines 423-427, 493-496; `later` tells that nothing fails after the
rotation), rotations, and `sfptpd_log_close` at the end of `main` (`src/sfptpd_main.c` lines 887-889, 962). -/
def life (c : Cfg) (first : Rot) (later : Bool) (rs : List Rot) : Fd :=
  let a := rotate c first fdInit
  if a.2 && later then closeLog (rs.foldl (fun s r => (rotate c r s).1) a.1)
  else closeLog (closeLog a.1)

end Verif.Log
