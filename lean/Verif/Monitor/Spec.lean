import Verif.Monitor.Model

/-!
# What the monitor of remote nodes is to report

Reports are cut into rounds by the flushes.
-/

namespace Verif.Monitor

section keyed
variable {K E R : Type} [DecidableEq K]

/-- The events of a key. -/
def ofKey (k : K) (evs : List (K × E)) : List E := evs.filterMap (fun e => if e.1 = k then some e.2 else none)

/-- One entry for each key, in order of first appearance, numbered from `base`. -/
def perKey (base : Int) (f : Int → K → List E → R) (evs : List (K × E)) : List R :=
  (evs.map (·.1)).eraseDups.zipIdx.map (fun x => f (base + x.2) x.1 (ofKey x.1 evs))

end keyed

variable {t : Types}

/-- A Sync as seen by a node: the node, the port it listens to and the sequence
number. -/
structure Key where
  node : PortId
  source : PortId
  seq : Nat
deriving DecidableEq, Repr

/-- What reports say of Syncs received. -/
def Report.rx : Report t → List (Key × (t.T ⊕ t.C))
  | .timing p _ ref xs => xs.map (fun x => (⟨p, ref, x.1⟩, .inl x.2))
  | .computed p _ ref xs => xs.map (fun x => (⟨p, ref, x.1⟩, .inr x.2))
  | _ => []

/-- What reports say of messages sent. -/
def Report.tx : Report t → List (PortId × PortId × Nat × t.X)
  | .sent p _ ref xs => xs.map (fun x => (p, ref, x.1, x.2))
  | _ => []

/-- States reported. -/
def Report.states : Report t → List (PortId × Nat × t.U)
  | .status p _ gm u => [(p, gm, u)]
  | _ => []

/-- Who reports. -/
def Report.speaker : Report t → PortId × t.A
  | .timing p i _ _ => (p, i)
  | .computed p i _ _ => (p, i)
  | .sent p i _ _ => (p, i)
  | .status p i _ _ => (p, i)

/-- The record of a Sync: the last value of each kind reported. -/
def rxRecord (n : Int) (k : Key) (es : List (t.T ⊕ t.C)) : Rx t.T t.C :=
  ⟨⟨k.node, k.source, n, k.seq⟩, (es.filterMap Sum.getLeft?).getLast?, (es.filterMap Sum.getRight?).getLast?⟩

/-- Records of messages sent, numbered from `n`. -/
def txRecords (n : Int) (es : List (PortId × PortId × Nat × t.X)) : List (Tx t.X) :=
  es.zipIdx.map (fun x => ⟨⟨x.1.1, x.1.2.1, n + x.2, x.1.2.2.1⟩, x.1.2.2.2⟩)

/-- Records of states, numbered from `n`. -/
def statusRecords (n : Int) (es : List (PortId × Nat × t.U)) : List (Status t.U) :=
  es.zipIdx.map (fun x => ⟨⟨x.1.1, ⟨0, 0⟩, n + x.2, 0⟩, x.1.2.1, x.1.2.2⟩)

/-- The last state of each node, with its number. -/
def lastStates (es : List (PortId × Nat × t.U)) : List (Option (Status t.U)) :=
  perKey 0 (fun _ p (l : List (Int × Nat × t.U)) => l.getLast?.map (fun e => ⟨⟨p, ⟨0, 0⟩, e.1, 0⟩, e.2.1, e.2.2⟩))
    (es.zipIdx.map (fun x => (x.1.1, ((x.2 : Int), x.1.2))))

/-- The first domain and address of each node. -/
def firstSeen (es : List (PortId × t.A)) : List (Option (Node t.A)) :=
  perKey 0 (fun _ p (l : List t.A) => l.head?.map (fun a => ⟨p, a⟩)) es

/-- The number of Syncs first reported in a round. -/
def syncs (round : List (Report t)) : Nat := ((round.flatMap Report.rx).map (·.1)).eraseDups.length

end Verif.Monitor
