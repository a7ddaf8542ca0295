/-
# Model: privileges at the start, and the message to the supervisor

`drop_user`, `claim_drop_privilege` and `notify_init` of `src/sfptpd_main.c`.

Simplifications.
* Real, effective and saved identities are the same (the program is not setuid). The
  capabilities are lists used as sets; the inheritable set is left out.
* The rules of the kernel are those of capabilities(7): `setgroups` and `setresgid` need
  `CAP_SETGID` unless the group stays, `setresuid` needs `CAP_SETUID` unless the user stays; leaving
  user 0 clears the effective set, and the permitted set unless capabilities are kept; becoming
  user 0 makes the permitted set effective; a permitted set can only be made smaller.
* Any call may fail for other reasons as well: the structure `Env` tells which do not.
* A call that fails ends the daemon, so its error number is not modelled (`none`).
* The program is built with `HAVE_CAPS`.
-/

namespace Verif.Start

/-! ## Credentials and the kernel -/

inductive Cap
  | sysTime | netBind | netAdmin | netRaw | dacOverride | setuid | setgid | other (n : Nat)
deriving DecidableEq

structure Cred where
  uid : Nat
  gid : Nat
  groups : List Nat
  permitted : List Cap
  effective : List Cap
  keep : Bool
deriving DecidableEq

def setgroups (gs : List Nat) (c : Cred) : Option Cred :=
  if Cap.setgid ∈ c.effective then some { c with groups := gs } else none

def setresgid (g : Nat) (c : Cred) : Option Cred :=
  if Cap.setgid ∈ c.effective ∨ g = c.gid then some { c with gid := g } else none

def setresuid (u : Nat) (c : Cred) : Option Cred :=
  if Cap.setuid ∈ c.effective ∨ u = c.uid then
    if c.uid = 0 ∧ u ≠ 0 then
      some { c with uid := u, effective := [], permitted := if c.keep then c.permitted else [] }
    else if c.uid ≠ 0 ∧ u = 0 then some { c with uid := u, effective := c.permitted }
    else some { c with uid := u }
  else none

/-- `cap_set_proc` with the same permitted and effective set. -/
def capset (want : List Cap) (c : Cred) : Option Cred :=
  if want.all (fun x => decide (x ∈ c.permitted)) then some { c with permitted := want, effective := want } else none

/-! ## The program -/

/-- The settings of the option `user`. -/
structure Conf where
  uid : Nat
  gid : Nat
  groups : List Nat

/-- Which calls do not fail for other reasons. -/
structure Env where
  prctl : Bool
  setgroups : Bool
  setresgid : Bool
  setresuid : Bool
  caps : Bool

/-- Lines 85-90. -/
def capsEssential : List Cap := [.sysTime, .netBind, .netAdmin, .netRaw]

/-- Lines 92-98. -/
def capsForRoot : List Cap := [.sysTime, .netBind, .netAdmin, .netRaw, .dacOverride]

/-- `drop_user`, lines 196-249. A failure of `prctl` is only logged. -/
def dropUser (env : Env) (conf : Conf) (c : Cred) : Option Cred :=
  let c := if conf.gid ≠ 0 ∨ conf.uid ≠ 0 then (if env.prctl then { c with keep := true } else c) else c
  (if conf.uid ≠ 0 then (if env.setgroups then setgroups conf.groups c else none) else some c).bind fun c =>
  (if conf.gid ≠ 0 then (if env.setresgid then setresgid conf.gid c else none) else some c).bind fun c =>
  if conf.uid ≠ 0 then (if env.setresuid then setresuid conf.uid c else none) else some c

/-- `claim_drop_privilege`, lines 123-193, for the user who started the program. -/
def claimDrop (env : Env) (conf : Conf) (user : Nat) (c : Cred) : Option Cred :=
  let required := if conf.uid = 0 ∧ user = 0 then capsForRoot else capsEssential
  if env.caps then capset required c else none

/-- Lines 917-928. -/
def start (env : Env) (conf : Conf) (c : Cred) : Option Cred :=
  (dropUser env conf c).bind (claimDrop env conf c.uid)

/-! ## The message to the supervisor -/

/-- An address of a local socket: a path, or an abstract name (of any octets). -/
inductive Addr
  | path (name : List Char)
  | abstract (name : List Char)
deriving DecidableEq

/-- `sfptpd_strncpy` into `n` octets, `src/sfptpd_misc.c` lines 57-65: the rest is filled
with zeros. -/
def copyN (n : Nat) (t : List Char) : List Char :=
  let t := t.take (n - 1)
  t ++ List.replicate (n - t.length) '\x00'

/-- Lines 530-535: the 108 octets of `sun_path`. -/
def sunPath (path : List Char) : List Char :=
  if path.head? = some '@' then '\x00' :: copyN 107 path else copyN 108 path

/-- What the kernel makes of `sun_path` with the length of the whole structure, unix(7). -/
def kernelAddr (sun : List Char) : Addr :=
  match sun with
  | '\x00' :: r => .abstract r
  | _ => .path (sun.takeWhile (· ≠ '\x00'))

/-- The messages. -/
inductive Notice
  | ready
  | errno (n : Int)
deriving DecidableEq

/-- `notify_init`, lines 505-561: the address and the message, if a message is sent. `path` is the
value of `NOTIFY_SOCKET`. The value of `rc` on line 552 is that of `connect`, 0. -/
def notify (path : Option (List Char)) (retcode : Int) : Option (Addr × Notice) :=
  match path with
  | none => none
  | some p =>
    if p.head? ≠ some '/' ∧ p.head? ≠ some '@' then none
    else
      let rc : Int := 0
      some (kernelAddr (sunPath p), if retcode = 0 then .ready else .errno rc)

end Verif.Start
