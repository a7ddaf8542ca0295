import Verif.Db.Model

/-!
# Monitoring of remote nodes

Model of `src/ptp/sfptpd_ptp_monitor.c` on the array store of the database
(`STORE_DEFAULT`, `src/include/sfptpd_db.h:38`).

Simplifications: a port identity is a pair of numbers; the data elements are opaque
(`T` timing, `C` computed, `X` transmission, and a status of grandmaster and rest);
the flag and value of an element in a record are an `Option`; times at which records
are made are left out; counters are unbounded. Text output other than the contents
of the JSON lines is left out.
-/

namespace Verif.Monitor
open Verif.Db

/-- `PortIdentity`. -/
structure PortId where
  clock : Nat
  port : Nat
deriving DecidableEq, Repr

/-- Values to search for. -/
inductive Val where
  | port (p : PortId)
  | seq (n : Nat)
  | mseq (n : Int)

/-- `struct monitor_record_common` (lines 77-83). -/
structure Common where
  port : PortId
  ref : PortId
  mseq : Int
  seq : Nat
deriving DecidableEq, Repr

/-- `memcmp` of port identities, as far as equality goes. -/
def cmpPort (a b : PortId) : Int := if a = b then 0 else 1

/-- The comparison functions of lines 153-178, by the indices of lines 196-203. -/
def cmpCommon (f : Nat) (v : Val) (c : Common) : Int :=
  match f, v with
  | 0, .port p => cmpPort p c.port
  | 1, .port p => cmpPort p c.ref
  | 2, .seq n => (n : Int) - c.seq
  | 3, .mseq n => n - c.mseq
  | _, _ => 1

/-- The sort functions of lines 190-194. -/
def sortCommon (f : Nat) (a b : Common) : Int :=
  match f with
  | 0 => cmpPort a.port b.port
  | 1 => cmpPort a.ref b.ref
  | 2 => (a.seq : Int) - b.seq
  | 3 => a.mseq - b.mseq
  | _ => 1

/-- A table of records with a common part. -/
def table {R : Type} (common : R → Common) : TableDef Val R where
  compareKey f v r := cmpCommon f v (common r)
  compareRecord f a b := sortCommon f (common a) (common b)

/-- `struct sfptpd_ptp_monitor_rx_event` (lines 85-93). -/
structure Rx (T C : Type) where
  common : Common
  timing : Option T
  computed : Option C
deriving DecidableEq, Repr

/-- `struct sfptpd_ptp_monitor_tx_event` (lines 95-101): `x` is message type and
timestamp. -/
structure Tx (X : Type) where
  common : Common
  x : X
deriving DecidableEq, Repr

/-- `struct sfptpd_ptp_monitor_slave_status` (lines 103-108). -/
structure Status (U : Type) where
  common : Common
  grandmaster : Nat
  rest : U
deriving DecidableEq, Repr

/-- `struct sfptpd_ptp_monitor_node` (lines 66-74): `info` is domain and address. -/
structure Node (A : Type) where
  port : PortId
  info : A
deriving DecidableEq, Repr

/-- `node_table_def` (lines 121-143). -/
def nodeTable {A : Type} : TableDef Val (Node A) where
  compareKey _ v r := match v with | .port p => cmpPort p r.port | _ => 1
  compareRecord _ a b := cmpPort a.port b.port

section
variable {S : Type}

/-- `monitor_register_node` (lines 302-331). -/
def register {A : Type} (o : Ops S (Node A)) (s : S) (p : PortId) (info : A) : Option S :=
  match find o nodeTable s ⟨[⟨0, .port p, false⟩], []⟩ with
  | none => none
  | some (some _) => some s
  | some none => (o.insert s ⟨p, info⟩).map (·.2)

/-- `monitor_obtain_rx_event_record` (lines 334-363) and the update by its callers
(lines 391-395, 424-428): the table and the counter. What is inserted first is
`garbage`, the memory at the address of the pointer (line 359: `&event`). -/
def rxUpdate {T C : Type} (o : Ops S (Rx T C)) (garbage : Rx T C) (s : S × Int) (p ref : PortId) (seq : Nat)
    (f : Rx T C → Rx T C) : Option (S × Int) :=
  match find o (table Rx.common) s.1 ⟨[⟨0, .port p, false⟩, ⟨1, .port ref, false⟩, ⟨2, .seq seq, false⟩], []⟩ with
  | none => none
  | some (some i) =>
    match o.getData s.1 i with
    | none => none
    | some ev => (o.setData s.1 i (f ev)).map (·, s.2)
  | some none =>
    match o.insert s.1 garbage with
    | none => none
    | some (i, s') => (o.setData s' i (f ⟨⟨p, ref, s.2, seq⟩, none, none⟩)).map (·, s.2 + 1)

/-- The loop of `sfptpd_ptp_monitor_update_rx_timing` (lines 380-396). -/
def rxTiming {T C : Type} (o : Ops S (Rx T C)) (garbage : Rx T C) (p ref : PortId) : S × Int → List (Nat × T) → Option (S × Int)
  | s, [] => some s
  | s, (seq, t) :: rest =>
    match rxUpdate o garbage s p ref seq (fun ev => { ev with timing := some t }) with
    | none => none
    | some s' => rxTiming o garbage p ref s' rest

/-- The loop of `sfptpd_ptp_monitor_update_rx_computed` (lines 413-429). -/
def rxComputed {T C : Type} (o : Ops S (Rx T C)) (garbage : Rx T C) (p ref : PortId) : S × Int → List (Nat × C) → Option (S × Int)
  | s, [] => some s
  | s, (seq, c) :: rest =>
    match rxUpdate o garbage s p ref seq (fun ev => { ev with computed := some c }) with
    | none => none
    | some s' => rxComputed o garbage p ref s' rest

/-- The loop of `sfptpd_ptp_monitor_log_tx_timestamp` (lines 447-460). -/
def txLog {X : Type} (o : Ops S (Tx X)) (p ref : PortId) : S × Int → List (Nat × X) → Option (S × Int)
  | s, [] => some s
  | s, (seq, x) :: rest =>
    match o.insert s.1 ⟨⟨p, ref, s.2, seq⟩, x⟩ with
    | none => none
    | some (_, s') => txLog o p ref (s', s.2 + 1) rest

/-- The record made by `sfptpd_ptp_monitor_update_slave_status` (lines 476-481): the
reference port and event number are zero. -/
def statusRecord {U : Type} (p : PortId) (n : Int) (gm : Nat) (u : U) : Status U := ⟨⟨p, ⟨0, 0⟩, n, 0⟩, gm, u⟩

/-- The table of latest states (lines 486-496). -/
def latestUpdate {U : Type} (o : Ops S (Status U)) (s : S) (p : PortId) (r : Status U) : Option S :=
  match find o (table Status.common) s ⟨[⟨0, .port p, false⟩], []⟩ with
  | none => none
  | some (some i) => o.setData s i r
  | some none => (o.insert s r).map (·.2)

end

/-- Types of the data elements. -/
structure Types where
  T : Type
  C : Type
  X : Type
  U : Type
  A : Type

/-- `struct sfptpd_ptp_monitor` (lines 45-64). -/
structure Mon (t : Types) where
  nodes : Arr (Node t.A)
  rx : Arr (Rx t.T t.C)
  tx : Arr (Tx t.X)
  log : Arr (Status t.U)
  latest : Arr (Status t.U)
  rxCount : Int
  txCount : Int
  logCount : Int

/-- What memory holds that was never written: fresh array elements, and the stack
read instead of a new record. -/
structure Junk (t : Types) where
  nodes : Nat → Slot (Node t.A)
  rx : Nat → Slot (Rx t.T t.C)
  tx : Nat → Slot (Tx t.X)
  log : Nat → Slot (Status t.U)
  latest : Nat → Slot (Status t.U)
  stack : Rx t.T t.C

/-- Reports by a node at `p` (domain and address `info`) on its reference port. -/
inductive Report (t : Types) where
  | timing (p : PortId) (info : t.A) (ref : PortId) (xs : List (Nat × t.T))
  | computed (p : PortId) (info : t.A) (ref : PortId) (xs : List (Nat × t.C))
  | sent (p : PortId) (info : t.A) (ref : PortId) (xs : List (Nat × t.X))
  | status (p : PortId) (info : t.A) (gm : Nat) (u : t.U)

/-- `sfptpd_ptp_monitor_create` (lines 256-272): `caps` gives the capacities and
cleared elements. -/
def create {t : Types} (capN capR capT capS : Nat) (zn : Slot (Node t.A)) (zr : Slot (Rx t.T t.C)) (zt : Slot (Tx t.X))
    (zs : Slot (Status t.U)) : Mon t :=
  ⟨arrCreate capN zn, arrCreate capR zr, arrCreate capT zt, arrCreate capS zs, arrCreate capS zs, 0, 0, 0⟩

/-- The four functions that receive reports (lines 366-496). -/
def receive {t : Types} (j : Junk t) (m : Mon t) : Report t → Option (Mon t)
  | .timing p info ref xs =>
    match register (arrOps j.nodes) m.nodes p info with
    | none => none
    | some n => (rxTiming (arrOps j.rx) j.stack p ref (m.rx, m.rxCount) xs).map (fun x => { m with nodes := n, rx := x.1, rxCount := x.2 })
  | .computed p info ref xs =>
    match register (arrOps j.nodes) m.nodes p info with
    | none => none
    | some n => (rxComputed (arrOps j.rx) j.stack p ref (m.rx, m.rxCount) xs).map (fun x => { m with nodes := n, rx := x.1, rxCount := x.2 })
  | .sent p info ref xs =>
    match register (arrOps j.nodes) m.nodes p info with
    | none => none
    | some n => (txLog (arrOps j.tx) p ref (m.tx, m.txCount) xs).map (fun x => { m with nodes := n, tx := x.1, txCount := x.2 })
  | .status p info gm u =>
    match register (arrOps j.nodes) m.nodes p info, (arrOps j.log).insert m.log (statusRecord p m.logCount gm u),
        latestUpdate (arrOps j.latest) m.latest p (statusRecord p m.logCount gm u) with
    | some n, some (_, l), some la => some { m with nodes := n, log := l, latest := la, logCount := m.logCount + 1 }
    | _, _, _ => none

/-- Records ordered by number (lines 893-906). -/
def inOrder {R : Type} (junk : Nat → Slot R) (common : R → Common) (qsort : (R → R → Int) → List R → List R) (a : Arr R) :
    Option (List R) :=
  query (arrOps junk) (table common) qsort a ⟨[], [3]⟩

/-- A line of JSON on a status (lines 824-885): node, grandmaster and the rest. -/
def jsonStatus {U : Type} (r : Status U) : PortId × Nat × U := (r.common.port, r.common.ref.clock, r.rest)

/-- What a flush writes, and the monitor left (lines 888-926). -/
structure Out (t : Types) where
  nodes : List (Node t.A)
  rx : List (Rx t.T t.C)
  tx : List (Tx t.X)
  log : List (Status t.U)
  latest : List (Status t.U)

/-- `sfptpd_ptp_monitor_flush` (lines 913-926); `qsort` for each type of record. -/
def flush {t : Types} (j : Junk t) (qr : (Rx t.T t.C → Rx t.T t.C → Int) → List (Rx t.T t.C) → List (Rx t.T t.C))
    (qt : (Tx t.X → Tx t.X → Int) → List (Tx t.X) → List (Tx t.X))
    (qs : (Status t.U → Status t.U → Int) → List (Status t.U) → List (Status t.U)) (m : Mon t) : Option (Out t × Mon t) :=
  match (visit (arrOps j.nodes) m.nodes), inOrder j.rx Rx.common qr m.rx, inOrder j.tx Tx.common qt m.tx,
      inOrder j.log Status.common qs m.log, inOrder j.latest Status.common qs m.latest with
  | some n, some r, some x, some l, some la =>
    match delete (arrOps j.rx) (table Rx.common) m.rx ⟨[], []⟩, delete (arrOps j.tx) (table Tx.common) m.tx ⟨[], []⟩,
        delete (arrOps j.log) (table Status.common) m.log ⟨[], []⟩ with
    | some r', some x', some l' => some (⟨n.map (·.2), r, x, l, la⟩, { m with rx := r', tx := x', log := l' })
    | _, _, _ => none
  | _, _, _, _, _ => none

end Verif.Monitor
