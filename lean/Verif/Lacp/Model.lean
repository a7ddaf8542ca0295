import Mathlib.Data.List.Basic

/-!
# Sockets for bypassing a bond

Model of `src/ptp/ptpd2/sfptpd_lacp.c`, the iterator of `sfptpd_lacp.h` and the
choice of socket in `prepareSendMessage` (`src/ptp/ptpd2/dep/net.c`).

Sockets and interface indices are integers. Creating sockets, setting options and
sending probes are outcomes given from outside.
-/

namespace Verif.Lacp

/-- `SFPTP_MAX_PHYSICAL_IFS` (`src/include/sfptpd_constants.h:127`). -/
def maxIfs : Nat := 16

/-- `SFPTP_BOND_BYPASS_SOCK_COUNT` (`src/include/sfptpd_constants.h:133-135`). -/
def maxSocks : Nat := 64

/-! ## Masks -/

/-- `__builtin_ffsll(m) - 1` for a mask that is not zero. -/
def firstSet (m : BitVec 64) : Option Nat := (List.range 64).find? (fun i => m.getLsbD i)

/-- `1 << i` as an `int`: shifting by the width or more is undefined; shifting into
the sign bit gives the smallest integer, as GCC documents. -/
def one (i : Nat) : Option (BitVec 32) := if i < 32 then some (1#32 <<< i) else none

/-- `m &= ~(1 << i)`: the complement is an `int` that is extended to 64 bits with
its sign. -/
def clear (m : BitVec 64) (i : Nat) : Option (BitVec 64) := (one i).map fun b => m &&& (~~~b).signExtend 64

/-- `m |= (1 << i)`, extended likewise. -/
def set (m : BitVec 64) (i : Nat) : Option (BitVec 64) := (one i).map fun b => m ||| b.signExtend 64

/-- `FOR_EACH_MASK_IDX` (`sfptpd_lacp.h:66-71`): the indices for which the body runs,
in order, at most `n` times; `none` if undefined, or if there is no end within `n`. -/
def visitN : Nat → BitVec 64 → Option (List Nat)
  | 0, m => if m = 0 then some [] else none
  | n + 1, m =>
    if m = 0 then some []
    else
      match firstSet m with
      | none => none
      | some i =>
        match clear m i with
        | none => none
        | some m' => (visitN n m').map (i :: ·)

/-- The whole loop. -/
def visit (m : BitVec 64) : Option (List Nat) := visitN 64 m

/-! ## Pool of sockets -/

/-- The pool (`struct ptpd_transport`, `datatypes.h:657-673`): sockets by index, 0
for none, the mask of valid ones, and the map from sockets to interfaces. -/
structure Pool where
  socks : List Int
  mask : BitVec 64
  map : List (Int × Int)

/-- One turn of the loop of `createBondSocks` (`sfptpd_lacp.c:61-107`); `s` is the
socket, if it could be created and set up. -/
def createOne (p : Pool) (i : Nat) (s : Option Int) : Option Pool :=
  match s with
  | none => some p
  | some fd => (set p.mask i).map fun m => { p with socks := p.socks.set i fd, mask := m }

/-- The loop of `createBondSocks` from index `i` on. -/
def createFrom (p : Pool) (i : Nat) : List (Option Int) → Option Pool
  | [] => some p
  | s :: ss =>
    match createOne p i s with
    | none => none
    | some p' => createFrom p' (i + 1) ss

/-- `createBondSocks` (`sfptpd_lacp.c:27-112`) on a pool without sockets; there is
one outcome for each socket, four for each interface (assertion in line 60). -/
def create (outcomes : List (Option Int)) : Option Pool :=
  if outcomes.length > maxSocks then none
  else createFrom ⟨List.replicate maxSocks 0, 0, []⟩ 0 outcomes

/-- `invalidateBondBypassSocket` (`sfptpd_lacp.c:20-25`). -/
def invalidate (p : Pool) (i : Nat) : Option Pool :=
  (clear p.mask i).map fun m => { p with socks := p.socks.set i 0, mask := m }

/-- `bondSockFdIndexInSockPool` (`sfptpd_lacp.c:213-220`). -/
def indexOf (p : Pool) (fd : Int) : Option (Option Nat) :=
  (visit p.mask).map fun is => is.find? (fun i => p.socks[i]? = some fd)

/-! ## The map from sockets to interfaces -/

/-- `bondSockFindMulticastMappingByFd` (`sfptpd_lacp.c:201-211`). -/
def findFd (m : List (Int × Int)) (fd : Int) : Option (Int × Int) := m.find? (fun e => e.1 = fd)

/-- `bondSocksOnTxIfindex` (`sfptpd_lacp.c:164-199`) on the map; the probes that it
may send (line 175) have their effect in later calls. -/
def onTx (m : List (Int × Int)) (fd ifindex : Int) : List (Int × Int) :=
  let m :=
    match findFd m fd with
    | some e => if e.2 ≠ ifindex then [] else m
    | none => m
  let i := m.findIdx (fun e => e.2 = ifindex)
  if i < m.length ∨ i ≥ maxIfs then m else m ++ [(fd, ifindex)]

/-- The choice of socket in `prepareSendMessage` (`dep/net.c:2172-2225`): `pool` says
whether the pool is used for this message. -/
def chooseSock (m : List (Int × Int)) (eventSock : Int) (ifindex : Int) (pool : Bool) : Int :=
  let fd := if ifindex > 0 ∧ pool = true then m.foldl (fun fd e => if e.2 = ifindex then e.1 else fd) 0 else 0
  if fd ≤ 0 then eventSock else fd

/-- What happens to the map: a transmission is observed, or the map is cleared
(`probeBondSocks` line 143, `destroyBondSocks` line 128). -/
inductive Ev where
  | tx (fd ifindex : Int)
  | clear
deriving DecidableEq, Repr

/-- The map after an event. -/
def step (m : List (Int × Int)) : Ev → List (Int × Int)
  | .tx fd i => onTx m fd i
  | .clear => []

/-- The map after a history, starting empty. -/
def after (evs : List Ev) : List (Int × Int) := evs.foldl step []

end Verif.Lacp
