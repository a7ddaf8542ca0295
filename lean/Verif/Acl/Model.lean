import Verif.Common.CStr

/-!
# Model of the IPv4 access control lists

Models `src/ptp/ptpd2/dep/ipv4_acl.c` (lines 49-448) and the users
`checkACL`, `checkACLmask` and the start of `processMessage`
(`src/ptp/ptpd2/protocol.c:866-1020`).

`uint32_t` values are naturals with the C operations taken modulo `2^32`.
`qsort` is a parameter.  Memory allocation is assumed to succeed, debug output
(`dumpMaskTable`) is left out.  `net_octets[0] << 24` with a set top bit is
strictly undefined in C; the value every compiler gives is used.
-/

namespace Verif.Acl
open Verif.CStr

/-- `AclEntry` (`ipv4_acl.h:21-26`). -/
structure Entry where
  network : Nat
  bitmask : Nat
  netmask : Nat
  hitCount : Nat
deriving DecidableEq, Repr

/-- Result of the parsers: `ub` is undefined behaviour (out of bounds access,
oversized shift), `err` the return value -1. -/
inductive Res (α : Type) where
  | ub
  | err
  | ok (a : α)
deriving DecidableEq, Repr

/-- `ipToArray` (lines 70-119), the loop 87-112.  `acc` are the octets written
so far, `dest` has four elements. -/
def ipLoop (isMask : Bool) : List (List Char) → List Nat → Res (List Nat)
  | toks, acc =>
    if acc.length > 4 then .err
    else match toks with
      | [] => .ok acc
      | t :: ts =>
        match strtol t with
        | none => .err
        | some v =>
          if v < 0 ∨ 255 < v then .err
          else if acc.length ≥ 4 then .ub
          else if isMask && decide (v < 255) then .ok (acc ++ [v.toNat])
          else ipLoop isMask ts (acc ++ [v.toNat])

/-- `.` as only delimiter (line 94). -/
def isDot (c : Char) : Bool := c == '.'
/-- `/` as only delimiter (line 142). -/
def isSlash (c : Char) : Bool := c == '/'
/-- `", ;\t"` (line 231). -/
def isSep (c : Char) : Bool := c == ',' || c == ' ' || c == ';' || c == '\t'

/-- `ipToArray` (lines 70-119). -/
def ipToArray (text : List Char) (isMask : Bool) : Res (List Nat) :=
  ipLoop isMask (tokens isDot text) []

/-- Lines 151 and 178: four octets (absent ones zero) to a 32-bit number. -/
def pack (o : List Nat) : Nat :=
  (o.getD 0 0 <<< 24) ||| (o.getD 1 0 <<< 16) ||| (o.getD 2 0 <<< 8) ||| o.getD 3 0

/-- The loop of line 181: `for(tmp = bitmask; tmp<<count; count++);`.  A shift
by 32 is undefined (on x86 the shift count is taken modulo 32 and the loop does
not end). -/
def shiftLoop (tmp : Nat) : Nat → Nat → Res Nat
  | 0, _ => .ub
  | fuel + 1, count =>
    if 32 ≤ count then .ub
    else if (tmp <<< count) % 2 ^ 32 = 0 then .ok count
    else shiftLoop tmp fuel (count + 1)

/-- Lines 155-183: the bit mask and the mask length. -/
def parseMask (rest : List (List Char)) : Res (Nat × Nat) :=
  match rest with
  | [] => .ok (2 ^ 32 - 1, 32)
  | t :: _ =>
    if (tokens isDot t).length = 1 then
      match strtol t with
      | none => .err
      | some v =>
        if v < 0 ∨ 32 < v then .err
        else if v = 0 then .ok (0, 0)
        else .ok (((2 ^ 32 - 1) <<< (32 - v.toNat)) % 2 ^ 32, v.toNat)
    else if (tokens isDot t).length > 4 then .err
    else match ipToArray t true with
      | .ub => .ub
      | .err => .err
      | .ok o =>
        match shiftLoop (pack o) 33 0 with
        | .ub => .ub
        | .err => .err
        | .ok n => .ok (pack o, n)

/-- `parseAclEntry` (lines 122-192). -/
def parseAclEntry (line : List Char) : Res Entry :=
  match tokens isSlash line with
  | [] => .err
  | t :: rest =>
    if (tokens isDot t).length > 4 ∨ (tokens isDot t).length < 1 then .err
    else match ipToArray t false with
      | .ub => .ub
      | .err => .err
      | .ok o =>
        match parseMask rest with
        | .ub => .ub
        | .err => .err
        | .ok (m, n) => .ok ⟨pack o &&& m, m, n, 0⟩

/-- `maskParser` (lines 212-259), the loop 229-247. -/
def parseAll : List (List Char) → Res (List Entry)
  | [] => .ok []
  | t :: ts =>
    match parseAclEntry t with
    | .ub => .ub
    | .err => .err
    | .ok e =>
      match parseAll ts with
      | .ub => .ub
      | .err => .err
      | .ok es => .ok (e :: es)

/-- `createMaskTable` (lines 262-276) with `maskParser` (212-259): both passes
of the parser see the same text. -/
def createMaskTable (sort : List Entry → List Entry) (input : List Char) : Res (List Entry) :=
  if input = [] then .ok []
  else match parseAll (tokens isSep input) with
    | .ub => .ub
    | .err => .err
    | .ok [] => .err
    | .ok es => .ok (sort es)

/-- `PtpdAclOrder` (`ipv4_acl.h:16-19`). -/
inductive Order where
  | allowDeny
  | denyAllow
deriving DecidableEq, Repr

/-- `Ipv4AccessList` (`ipv4_acl.h:33-39`). -/
structure Acl where
  allow : List Entry
  deny : List Entry
  order : Order
  passed : Nat
  dropped : Nat
deriving DecidableEq, Repr

/-- `createIpv4AccessList` (lines 333-346); `err` is the NULL result. -/
def createAcl (sort : List Entry → List Entry) (allow deny : List Char) (o : Order) : Res Acl :=
  match createMaskTable sort allow, createMaskTable sort deny with
  | .ub, _ => .ub
  | _, .ub => .ub
  | .ok a, .ok d => .ok ⟨a, d, o, 0, 0⟩
  | _, _ => .err

/-- `matchAddress` (lines 350-367): whether the result is positive, and the
table with the hit counter updated. -/
def matchAddress (addr : Nat) : List Entry → Bool × List Entry
  | [] => (false, [])
  | e :: es =>
    if e.bitmask &&& addr = e.network then
      (true, { e with hitCount := (e.hitCount + 1) % 2 ^ 32 } :: es)
    else
      let (b, es') := matchAddress addr es
      (b, e :: es')

/-- `matchIpv4AccessList` (lines 372-448); `none` is the NULL dereference of
line 443. -/
def matchAcl (acl : Option Acl) (addr : Nat) : Option (Bool × Acl) :=
  match acl with
  | none => none
  | some acl =>
    let (ma, allow) := matchAddress addr acl.allow
    let (md, deny) := matchAddress addr acl.deny
    let ret := match acl.order with
      | .allowDeny => if !ma then false else if md then false else true
      | .denyAllow => if md && !ma then false else true
    some (ret, { acl with
      allow := allow
      deny := deny
      passed := if ret then (acl.passed + 1) % 2 ^ 32 else acl.passed
      dropped := if ret then acl.dropped else (acl.dropped + 1) % 2 ^ 32 })

/-- The list kinds (`constants.h:510-514`) with their configuration and table:
index 0 management, 1 timing, 2 monitoring. -/
structure Cfg where
  enabled : Nat → Bool
  acls : Nat → Option Acl

/-- The two cache words of `processMessage` (`protocol.c:972-973`), bit `i` of
the words being the result for list kind `i`, and the lists. -/
structure St where
  cfg : Cfg
  checked : Nat
  passed : Nat

/-- `checkACL` (`protocol.c:866-933`) for the type `1 << i`. -/
def checkACL (i : Nat) (addr : Nat) (s : St) : Option (Bool × St) :=
  if s.checked.testBit i then some (s.passed.testBit i, s)
  else
    if i < 3 && !s.cfg.enabled i then
      some (true, { s with checked := s.checked ||| 2 ^ i, passed := s.passed ||| 2 ^ i })
    else
      match (if i < 3 then s.cfg.acls i else none) with
      | none => some (false, s)
      | some acl =>
        match matchAcl (some acl) addr with
        | none => none
        | some (pass, acl') =>
          some (pass, { s with
            cfg := { s.cfg with acls := fun j => if j = i then some acl' else s.cfg.acls j }
            checked := s.checked ||| 2 ^ i
            passed := if pass then s.passed ||| 2 ^ i else s.passed })

/-- `checkACLmask` (`protocol.c:936-963`): `acl_bitmap_t` is 16 bits wide.  The
loop ends with a zero mask; `none` if it were to go on past bit 31. -/
def checkMaskLoop (addr : Nat) : Nat → Nat → Nat → St → Option (Bool × St)
  | 0, _, _, _ => none
  | fuel + 1, i, mask, s =>
    if mask = 0 then some (true, s)
    else if 32 ≤ i then none
    else if mask.testBit i then
      match checkACL i addr s with
      | none => none
      | some (false, s') => some (false, s')
      | some (true, s') => checkMaskLoop addr fuel (i + 1) (mask - 2 ^ i) s'
    else checkMaskLoop addr fuel (i + 1) mask s

/-- `checkACLmask` (`protocol.c:936-963`). -/
def checkACLmask (mask addr : Nat) (s : St) : Option (Bool × St) :=
  checkMaskLoop addr 33 0 mask s

/-- The access check of `processMessage` (`protocol.c:989-1020`).  `foreign`:
the source address is known and is not our own; `mgmt`: a management message. -/
def gate (foreign mgmt : Bool) (addr : Nat) (cfg : Cfg) : Option (Bool × St) :=
  let s : St := ⟨cfg, 0, 0⟩
  if foreign then
    if mgmt then checkACL 0 addr s
    else if cfg.enabled 1 then checkACL 1 addr s
    else some (true, s)
  else some (true, s)

end Verif.Acl
