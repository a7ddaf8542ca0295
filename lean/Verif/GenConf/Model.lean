import Verif.PtpConf.Model

/-
# Model: the general options

Parts of `src/sfptpd_general_config.c`: the trace levels and the verbosity of the
command line, the user and group to run as, the lists of clocks and interfaces,
the unique bits of clock identities, the declaration of sync instances and the
check at the end of the configuration.

Simplifications.
* A handler that fails ends the configuration (the daemon does not start), so the
  state it leaves behind is not modelled: it gives an error number only.
* A failed `assert` is the outcome `abort`; use of an uninitialised record is the
  outcome `undefined`.
* The databases of users and groups are parameters that do not change while an
  option is handled. A lookup by name that needs a larger buffer is repeated by
  the code, so only its last answer is modelled. Memory never runs out. The
  program is built with `HAVE_CAPS`.
* Sections form one list in the order of creation; the code keeps one list for
  each category and searches the categories in order. A section is known by its
  name, its category, and whether it is an instance or allows instances.
* The category GPS is included (`HAVE_GPS`).
* `pid`, `hostid` and `rand` give octets by a parameter.
-/

namespace Verif.GenConf

open Verif.PtpConf (Text isSpace digit readDigits scanNat sign clamp64 scanI)

/-- The outcome of a handler. -/
inductive Res (α : Type)
  | ok (a : α)
  | err (n : Nat)
  | abort
  | undefined
deriving DecidableEq

def eNOENT : Nat := 2
def eSRCH : Nat := 3
def eBADF : Nat := 9
def ePERM : Nat := 1
def eACCES : Nat := 13
def eEXIST : Nat := 17
def eINVAL : Nat := 22
def eNOSPC : Nat := 28
def eRANGE : Nat := 34

/-! ## Trace levels -/

/-- The trace levels, `src/include/sfptpd_general_config.h` (unsigned numbers of 32 bits). -/
structure Levels where
  general : Nat := 0
  threading : Nat := 0
  bic : Nat := 0
  netlink : Nat := 0
  ntp : Nat := 0
  servo : Nat := 0
  clocks : Nat := 0
deriving DecidableEq

/-- `sscanf(t, "%i", &level)` into an unsigned number. -/
def scanLevel (t : Text) : Option Nat := (scanI t).map fun v => (v % 4294967296).toNat

/-- `sscanf(t, "%63s", …)`: leading white space is left out, at most 63 characters. -/
def scanWord (t : Text) : Option Text :=
  let w := ((t.dropWhile isSpace).takeWhile (fun c => !isSpace c)).take 63
  if w = [] then none else some w

/-- `parse_trace_level`, lines 1245-1290. -/
def parseTraceLevel (l : Levels) (ps : List Text) : Res Levels :=
  match ps with
  | [a] => match scanLevel a with
    | none => .err eINVAL
    | some v => .ok { l with general := v }
  | [a, b] => match scanWord a with
    | none => .err eINVAL
    | some m => match scanLevel b with
      | none => .err eINVAL
      | some v =>
        if m = "general".toList then .ok { l with general := v }
        else if m = "threading".toList then .ok { l with threading := v }
        else if m = "bic".toList then .ok { l with bic := v }
        else if m = "netlink".toList then .ok { l with netlink := v }
        else if m = "ntp".toList then .ok { l with ntp := v }
        else if m = "servo".toList then .ok { l with servo := v }
        else if m = "clocks".toList then .ok { l with clocks := v }
        else .err eINVAL
  | _ => .abort

/-- `if (x < n) x = n;` -/
def atLeast (n x : Nat) : Nat := if x < n then n else x

/-- `sfptpd_config_general_set_verbose`, lines 1859-1868. -/
def verbose1 (l : Levels) : Levels :=
  { l with general := atLeast 3 l.general, netlink := atLeast 1 l.netlink,
           ntp := atLeast 1 l.ntp, clocks := atLeast 2 l.clocks }

/-- The same, lines 1870-1879. -/
def verbose2 (l : Levels) : Levels :=
  let l := { l with general := 6, netlink := 6, ntp := 6, clocks := 6, servo := 6, bic := 6 }
  if l.threading < 1 then { l with servo := 1 } else l

/-- `sfptpd_config_general_set_verbose`, lines 1852-1887. -/
def setVerbose (v : Nat) (l : Levels) : Levels :=
  let l := if v ≥ 1 then verbose1 l else l
  let l := if v ≥ 2 then verbose2 l else l
  if v ≥ 3 then { l with threading := 6 } else l

/-- The `-v` options of one pass over the command line, `src/sfptpd_config.c` lines
661-663 and 743-745: the verbosity is 1, 2, …, n. -/
def pass : Nat → Levels → Levels
  | 0, l => l
  | n + 1, l => setVerbose (n + 1) (pass n l)

/-- The `trace_level` lines of the configuration file. -/
def fileLevels : List (List Text) → Levels → Res Levels
  | [], l => .ok l
  | ps :: r, l => match parseTraceLevel l ps with
    | .ok l' => fileLevels r l'
    | e => e

/-- The levels at the start: command line, configuration file, command line again
(`src/sfptpd_main.c` lines 854-872). -/
def startLevels (n : Nat) (file : List (List Text)) : Res Levels :=
  match fileLevels file (pass n {}) with
  | .ok l => .ok (pass n l)
  | e => e

/-! ## User and group -/

/-- A record of the database of users. -/
structure Pw where
  name : Text
  uid : Nat
  gid : Nat
deriving DecidableEq

/-- The databases: every lookup gives an error number and perhaps a record. -/
structure Db where
  pwnam : Text → Nat × Option Pw
  pwuid : Nat → Nat × Option Pw
  grnam : Text → Nat × Option Nat
  groups : Text → Nat → List Nat

/-- What the daemon will run as. -/
structure Who where
  uid : Nat := 0
  gid : Nat := 0
  groups : List Nat := []
deriving DecidableEq

/-- `sscanf(t, "%ld", &nid)`. -/
def scanL (t : Text) : Option Int :=
  let (neg, r) := sign (t.dropWhile isSpace)
  (scanNat 10 r).map fun (m : Nat) => clamp64 (if neg then -(m : Int) else m)

/-- Assignment of a `long` to a `uid_t` or `gid_t`. -/
def toId (v : Int) : Nat := (v % 4294967296).toNat

/-- The error numbers that stand for "no such record", lines 736, 751 and 766. -/
def absent (rc : Nat) : Bool := rc = eNOENT || rc = eSRCH || rc = eBADF || rc = ePERM

/-- Lines 734-735 and 749-750. -/
def answer (a : Nat × Option Pw) : Nat := if a.1 = 0 ∧ a.2 = none then eNOENT else a.1

/-- Lines 728-757: the return code so far, the name for the list of groups (if it is
initialised), the user and the group. `none` if the user is not known. -/
def findUser (db : Db) (t : Text) : Option (Nat × Option Text × Nat × Nat) :=
  let a := db.pwnam t
  if absent (answer a) then
    match scanL t with
    | none => none
    | some v =>
      let u := toId v
      let b := db.pwuid u
      if absent (answer b) then some (answer b, some "(uid)".toList, u, 0)
      else match b.1, b.2 with
        | 0, some r => some (0, some r.name, r.uid, r.gid)
        | rc, _ => some (rc, none, u, 0)
  else match a.1, a.2 with
    | 0, some r => some (0, some r.name, r.uid, r.gid)
    | rc, _ => some (rc, none, 0, 0)

/-- Lines 763-778: the return code and the group. -/
def findGroup (db : Db) (t : Text) : Option (Nat × Nat) :=
  let a := db.grnam t
  match absent a.1, a.2 with
  | false, some g => some (a.1, g)
  | _, _ => (scanL t).map fun v => (a.1, toId v)

/-- `parse_user`, lines 693-820. -/
def parseUser (db : Db) (w : Who) (ps : List Text) : Res Who :=
  match ps with
  | [] => .abort
  | t :: r =>
    if r.length > 1 then .err eINVAL
    else if w.uid ≠ 0 ∨ w.gid ≠ 0 then .err eACCES
    else match findUser db t with
      | none => .err eNOENT
      | some (_, none, _, _) => .undefined
      | some (rc, some name, uid, gid) => match r with
        | [] => if rc = 0 then .ok ⟨uid, gid, db.groups name gid⟩ else .err rc
        | g :: _ => match findGroup db g with
          | none => .err eNOENT
          | some (rc', gid') =>
            if rc' = 0 then .ok ⟨uid, gid', db.groups name gid'⟩ else .err rc'

/-! ## Lists of clocks and interfaces -/

/-- `sfptpd_strncpy` into an array of 24 characters, `src/sfptpd_misc.c` lines 57-65. -/
def copy24 (t : Text) : Text := t.take 23

/-- The settings of clocks and time stamping. -/
structure Lists where
  clocks : List Text := []
  disciplineAll : Bool := true
  readonly : List Text := []
  interfaces : List Text := []
  all : Bool := false
deriving DecidableEq

/-- `parse_clock_list`, lines 1006-1035. -/
def parseClockList (s : Lists) (ps : List Text) : Res Lists :=
  if ps.length > 64 then .err eNOSPC
  else .ok { s with clocks := ps.map copy24, disciplineAll := false }

/-- `parse_clock_readonly`, lines 1038-1072. -/
def parseClockReadonly (s : Lists) (ps : List Text) : Res Lists :=
  if ps = [] then .abort
  else if ps.length > 64 then .err eNOSPC
  else .ok { s with readonly := ps.map copy24 }

/-- `parse_timestamping_interfaces`, lines 1147-1178. -/
def parseTsInterfaces (s : Lists) (ps : List Text) : Res Lists :=
  if ps = [] then .abort
  else if ps.length > 64 then .err eNOSPC
  else .ok { s with interfaces := ps.map copy24, all := s.all || ps.contains "*".toList }

/-! ## Unique bits of clock identities -/

/-- The hexadecimal digits at the start of a text, and the rest. -/
def hexSpan (t : Text) : Text × Text := (t.takeWhile (fun c => (digit 16 c).isSome), t.dropWhile (fun c => (digit 16 c).isSome))

/-- The value of hexadecimal digits. -/
def hexVal (ds : Text) : Nat := readDigits 16 0 ds

/-- The optional prefix `0x`; it must be followed by a digit. -/
def hexPrefix (t : Text) : Option Text :=
  match t with
  | '0' :: x :: r => if x = 'x' ∨ x = 'X' then (if (r.head?.bind (digit 16)).isSome then some r else none) else some t
  | _ => some t

/-- One `%hhx`: the low eight bits, and the rest of the text. -/
def scanOctet (t : Text) : Option (Nat × Text) :=
  let (neg, r) := sign (t.dropWhile isSpace)
  match hexPrefix r with
  | none => none
  | some r =>
    let (ds, rest) := hexSpan r
    if ds = [] then none
    else
      let m := if hexVal ds ≥ 18446744073709551616 then 18446744073709551615
        else if neg then (18446744073709551616 - hexVal ds) % 18446744073709551616 else hexVal ds
      some (m % 256, rest)

/-- The octets read by `sscanf` with `n` conversions `%hhx` separated by colons, lines 1612-1613. -/
def scanOctets : Nat → Text → List Nat
  | 0, _ => []
  | n + 1, t => match scanOctet t with
    | none => []
    | some (o, ':' :: rest) => o :: scanOctets n rest
    | some (o, _) => [o]

/-- What the system gives for the words `pid`, `hostid` and `rand`: 4, 8 and 4 octets. -/
structure Host where
  pid : List Nat
  hostid : List Nat
  rand : List Nat

/-- `memcpy(general->unique_clockid_bits + 8 - sz, &d, sz)`, line 1619. -/
def overlay (bits d : List Nat) : List Nat := bits.take (8 - d.length) ++ d

/-- `parse_unique_clockid_bits`, lines 1588-1622. A text of white space only makes
`sscanf` return −1, and the assertion on line 1617 fails. -/
def parseUniqueBits (h : Host) (bits : List Nat) (t : Text) : Res (List Nat) :=
  if t = "pid".toList then .ok (overlay bits h.pid)
  else if t = "hostid".toList then .ok (overlay bits h.hostid)
  else if t = "rand".toList then .ok (overlay bits h.rand)
  else if t.dropWhile isSpace = [] then .abort
  else
    let d := scanOctets 8 t
    if d = [] then .err eINVAL else .ok (overlay bits d)

/-! ## Sync instances -/

/-- A section of the configuration. -/
structure Sec where
  name : Text
  category : Nat
  isInst : Bool
  allows : Bool
deriving DecidableEq

/-- The sections, and the categories of sync modules declared (`declared_sync_modules`). -/
structure Conf where
  secs : List Sec
  declared : List Nat
deriving DecidableEq

/-- `SFPTPD_CONFIG_CATEGORY_CRNY`, `src/include/sfptpd_config.h` lines 468-484. -/
def catCrny : Nat := 5

/-- The sections made by `sfptpd_config_create`, `src/sfptpd_config.c` lines 428-460. -/
def initConf : Conf where
  secs := [⟨"general".toList, 0, false, false⟩, ⟨"freerun".toList, 1, false, true⟩,
    ⟨"ptp".toList, 2, false, true⟩, ⟨"pps".toList, 3, false, true⟩, ⟨"ntp".toList, 4, false, true⟩,
    ⟨"crny".toList, 5, false, true⟩, ⟨"gps".toList, 6, false, true⟩]
  declared := []

/-- `sfptpd_config_find`, `src/sfptpd_config.c` lines 603-620. -/
def find (c : Conf) (n : Text) : Option Sec := c.secs.find? (fun s => s.name = n)

/-- `sfptpd_config_section_add` of an instance, `src/sfptpd_config.c` lines 525-552. -/
def addSec (c : Conf) (s : Sec) : Res Conf :=
  if (find c s.name).isSome then .abort else .ok { c with secs := c.secs ++ [s] }

/-- The loop of `parse_sync_module`, lines 438-467. -/
def addInstances (cat : Nat) : List Text → Conf → Res Conf
  | [], c => .ok c
  | n :: r, c =>
    if n.length ≥ 64 then .err eRANGE
    else if (find c n).isSome then .err eEXIST
    else match addSec c ⟨n, cat, true, false⟩ with
      | .ok c' => addInstances cat r c'
      | e => e

/-- `parse_sync_module`, lines 405-470. -/
def parseSyncModule (c : Conf) (ps : List Text) : Res Conf :=
  match ps with
  | [] => .abort
  | m :: ns => match find c m with
    | none => .err eNOENT
    | some p =>
      if p.isInst then .err eNOENT
      else if !p.allows then .err eINVAL
      else addInstances p.category ns { c with declared := p.category :: c.declared }

/-- `validate_config`, lines 1643-1667; the name of an implicit instance is that of
`src/crny/sfptpd_crny_module.c` lines 2497-2500. -/
def validate (c : Conf) : Res Conf :=
  match find c "crny".toList with
  | none => .abort
  | some p =>
    if p.isInst then .abort
    else if c.declared.contains catCrny then .ok c
    else addSec c ⟨"crny0".toList, catCrny, true, false⟩

/-- The `sync_module` lines of the configuration. -/
def syncLines : List (List Text) → Conf → Res Conf
  | [], c => .ok c
  | ps :: r, c => match parseSyncModule c ps with
    | .ok c' => syncLines r c'
    | e => e

/-- The whole configuration: its `sync_module` lines and the check at the end. -/
def configure (file : List (List Text)) : Res Conf :=
  match syncLines file initConf with
  | .ok c => validate c
  | e => e

end Verif.GenConf
