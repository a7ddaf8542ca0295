import Verif.Monitor.Support

set_option linter.unusedSimpArgs false
set_option linter.unusedVariables false

/-!
# Properties C55 and C64: the monitor of remote nodes
-/

namespace Verif.Monitor
open Verif.Db

variable {t : Types}

/-! ## Runs -/

/-- The reports of a round. -/
def receiveAll (j : Junk t) : Mon t → List (Report t) → Option (Mon t)
  | m, [] => some m
  | m, r :: rs => (receive j m r).bind (fun m' => receiveAll j m' rs)

/-- The sorting functions of the library. -/
structure Sorts (t : Types) where
  rx : (Rx t.T t.C → Rx t.T t.C → Int) → List (Rx t.T t.C) → List (Rx t.T t.C)
  tx : (Tx t.X → Tx t.X → Int) → List (Tx t.X) → List (Tx t.X)
  status : (Status t.U → Status t.U → Int) → List (Status t.U) → List (Status t.U)

/-- They keep the contract. -/
structure Sorts.Ok (q : Sorts t) : Prop where
  rx : QsortOk q.rx
  tx : QsortOk q.tx
  status : QsortOk q.status

/-- Rounds of reports, each ended by a flush. -/
def run (j : Junk t) (q : Sorts t) : Mon t → List (List (Report t)) → Option (List (Out t) × Mon t)
  | m, [] => some ([], m)
  | m, round :: rest =>
    (receiveAll j m round).bind (fun m1 => (flush j q.rx q.tx q.status m1).bind
      (fun x => (run j q x.2 rest).map (fun y => (x.1 :: y.1, y.2))))

/-! ## Invariant -/

/-- The key of a record. -/
def rxKey (r : Rx t.T t.C) : Key := ⟨r.common.port, r.common.ref, r.common.seq⟩

theorem rxRecord_key (n : Int) (k : Key) (es : List (t.T ⊕ t.C)) : rxKey (rxRecord (t := t) n k es) = k := rfl

theorem rxSelect (p ref : PortId) (seq : Nat) (r : Rx t.T t.C) :
    checkLoop (table Rx.common) r [⟨0, .port p, false⟩, ⟨1, .port ref, false⟩, ⟨2, .seq seq, false⟩] =
      decide (rxKey r = ⟨p, ref, seq⟩) := by
  rw [Bool.eq_iff_iff, checkLoop_iff, decide_eq_true_iff]
  simp only [List.forall_mem_cons, List.not_mem_nil, false_imp_iff, implies_true, and_true, table, cmpCommon, cmpPort,
    Bool.false_eq_true, false_iff, ne_eq, Decidable.not_not, rxKey, Key.mk.injEq]
  constructor
  · rintro ⟨h1, h2, h3⟩
    refine ⟨?_, ?_, by omega⟩
    · by_contra hc; rw [if_neg (fun h => hc h.symm)] at h1; omega
    · by_contra hc; rw [if_neg (fun h => hc h.symm)] at h2; omega
  · rintro ⟨rfl, rfl, rfl⟩; simp

theorem portSelect {R : Type} (common : R → Common) (p : PortId) (r : R) :
    checkLoop (table common) r [⟨0, .port p, false⟩] = decide ((common r).port = p) := by
  rw [Bool.eq_iff_iff, checkLoop_iff, decide_eq_true_iff]
  simp only [List.forall_mem_cons, List.not_mem_nil, false_imp_iff, implies_true, and_true, table, cmpCommon, cmpPort,
    Bool.false_eq_true, false_iff, ne_eq, Decidable.not_not]
  constructor
  · intro h1
    by_contra hc; rw [if_neg (fun h => hc h.symm)] at h1; omega
  · rintro rfl; simp

theorem nodeSelect (p : PortId) (r : Node t.A) :
    checkLoop nodeTable r [⟨0, .port p, false⟩] = decide (r.port = p) := by
  rw [Bool.eq_iff_iff, checkLoop_iff, decide_eq_true_iff]
  simp only [List.forall_mem_cons, List.not_mem_nil, false_imp_iff, implies_true, and_true, nodeTable, cmpPort,
    Bool.false_eq_true, false_iff, ne_eq, Decidable.not_not]
  constructor
  · intro h1
    by_contra hc; rw [if_neg (fun h => hc h.symm)] at h1; omega
  · rintro rfl; simp

/-- The table of Syncs holds what was reported. -/
def RxOk (base : Int) (evs : List (Key × (t.T ⊕ t.C))) (s : Arr (Rx t.T t.C) × Int) : Prop :=
  (∃ live, ArrOk s.1 live ∧ (live.map (fun x => x.2)).Perm (perKey base (rxRecord (t := t)) evs)) ∧
  s.2 = base + (evs.map (·.1)).eraseDups.length

theorem set_head {R : Type} {live : List (Nat × R)} {i : Nat} (h : i ∉ live.map (·.1)) (x y : R) :
    ((i, x) :: live).map (fun z => if z.1 = i then (i, y) else z) = (i, y) :: live := by
  rw [List.map_cons]
  simp only [if_true]
  congr 1
  conv => rhs; rw [← List.map_id live]
  apply List.map_congr_left
  intro z hz
  rw [if_neg]; rfl
  intro he
  exact h (List.mem_map.2 ⟨z, hz, he⟩)

theorem rxUpdate_ok {junk : Nat → Slot (Rx t.T t.C)} (g : Rx t.T t.C) {base : Int} {evs : List (Key × (t.T ⊕ t.C))}
    {s : Arr (Rx t.T t.C) × Int} (h : RxOk base evs s) (p ref : PortId) (seq : Nat) (e : t.T ⊕ t.C) (f : Rx t.T t.C → Rx t.T t.C)
    (hf : ∀ n es, rxRecord n ⟨p, ref, seq⟩ (es ++ [e]) = f (rxRecord n ⟨p, ref, seq⟩ es)) :
    ∃ s', rxUpdate (arrOps junk) g s p ref seq f = some s' ∧ RxOk base (evs ++ [(⟨p, ref, seq⟩, e)]) s' := by
  obtain ⟨⟨live, h1, h2⟩, h3⟩ := h
  have hr := arrRefines junk
  unfold rxUpdate
  have hkey := fun (n : Int) (k : Key) (es : List (t.T ⊕ t.C)) (_ : es ≠ []) => rxRecord_key n k es
  rcases find_keyed junk (table Rx.common) rxKey
    ⟨[⟨0, .port p, false⟩, ⟨1, .port ref, false⟩, ⟨2, .seq seq, false⟩], []⟩ ⟨p, ref, seq⟩ (rxSelect p ref seq) h1
    with ⟨i, r, hf1, hf2, hf3⟩ | ⟨hf1, hf2⟩
  · rw [hf1]
    simp only [hr.get h1 i r hf2]
    obtain ⟨s', hs1, hs2⟩ := hr.set h1 i r (f r) hf2
    rw [hs1]
    refine ⟨_, rfl, ⟨_, hs2, ?_⟩, ?_⟩
    · exact keyed_set (g := fun r => r) rxKey hkey h2 (hr.nodup h1) hf2 hf3 e f (fun n es _ => hf n es) rfl
    · rw [h3, List.map_append, List.map_cons, List.map_nil, eraseDups_snoc, if_pos]
      exact (live_mem (g := fun r => r) rxKey hkey h2 _).2 ⟨_, hf2, hf3⟩
  · rw [hf1]
    obtain ⟨i, s1, hi1, hi2, hi3⟩ := hr.insert h1 g
    simp only [hi1]
    obtain ⟨s2, hs1, hs2⟩ := hr.set hi3 i g (f ⟨⟨p, ref, s.2, seq⟩, none, none⟩) (List.mem_cons_self ..)
    rw [hs1]
    rw [set_head hi2] at hs2
    refine ⟨_, rfl, ⟨_, hs2, ?_⟩, ?_⟩
    · refine keyed_insert (g := fun r => r) rxKey hkey h2 hf2 e ?_ i
      rw [← List.nil_append [e], hf, ← h3]
      rfl
    · rw [h3, List.map_append, List.map_cons, List.map_nil, eraseDups_snoc, if_neg, List.length_append]
      · simp; omega
      · rw [live_mem (g := fun r => r) rxKey hkey h2]
        rintro ⟨x, hx, he⟩
        exact hf2 x hx he

theorem rxTiming_ok {junk : Nat → Slot (Rx t.T t.C)} (g : Rx t.T t.C) {base : Int} (p ref : PortId) (xs : List (Nat × t.T)) :
    ∀ {evs : List (Key × (t.T ⊕ t.C))} {s : Arr (Rx t.T t.C) × Int}, RxOk base evs s →
    ∃ s', rxTiming (arrOps junk) g p ref s xs = some s' ∧ RxOk base (evs ++ xs.map (fun x => (⟨p, ref, x.1⟩, .inl x.2))) s' := by
  induction xs with
  | nil => intro evs s h; exact ⟨s, rfl, by simpa using h⟩
  | cons x xs ih =>
    intro evs s h
    obtain ⟨s1, h1, h2⟩ := rxUpdate_ok (junk := junk) g h p ref x.1 (.inl x.2) (fun ev => { ev with timing := some x.2 })
      (fun n es => by simp [rxRecord])
    obtain ⟨s2, h3, h4⟩ := ih h2
    refine ⟨s2, by simp only [rxTiming, h1]; exact h3, ?_⟩
    rw [List.append_assoc] at h4
    exact h4

theorem rxComputed_ok {junk : Nat → Slot (Rx t.T t.C)} (g : Rx t.T t.C) {base : Int} (p ref : PortId) (xs : List (Nat × t.C)) :
    ∀ {evs : List (Key × (t.T ⊕ t.C))} {s : Arr (Rx t.T t.C) × Int}, RxOk base evs s →
    ∃ s', rxComputed (arrOps junk) g p ref s xs = some s' ∧ RxOk base (evs ++ xs.map (fun x => (⟨p, ref, x.1⟩, .inr x.2))) s' := by
  induction xs with
  | nil => intro evs s h; exact ⟨s, rfl, by simpa using h⟩
  | cons x xs ih =>
    intro evs s h
    obtain ⟨s1, h1, h2⟩ := rxUpdate_ok (junk := junk) g h p ref x.1 (.inr x.2) (fun ev => { ev with computed := some x.2 })
      (fun n es => by simp [rxRecord])
    obtain ⟨s2, h3, h4⟩ := ih h2
    refine ⟨s2, by simp only [rxComputed, h1]; exact h3, ?_⟩
    rw [List.append_assoc] at h4
    exact h4

/-- The key of a node. -/
def nodeKey (o : Option (Node t.A)) : PortId := (o.map (·.port)).getD ⟨0, 0⟩

/-- The key of a state. -/
def stateKey (o : Option (Status t.U)) : PortId := (o.map (·.common.port)).getD ⟨0, 0⟩

/-- The table of nodes. -/
def NodesOk (seen : List (PortId × t.A)) (a : Arr (Node t.A)) : Prop :=
  ∃ live, ArrOk a live ∧ (live.map (fun x => some x.2)).Perm (firstSeen seen)

theorem register_ok {junk : Nat → Slot (Node t.A)} {seen : List (PortId × t.A)} {a : Arr (Node t.A)} (h : NodesOk seen a)
    (p : PortId) (info : t.A) : ∃ a', register (arrOps junk) a p info = some a' ∧ NodesOk (seen ++ [(p, info)]) a' := by
  obtain ⟨live, h1, h2⟩ := h
  have hr := arrRefines junk
  unfold register
  have hkey : ∀ (n : Int) (k : PortId) (es : List t.A), es ≠ [] →
      nodeKey (es.head?.map (fun a => (⟨k, a⟩ : Node t.A))) = k := by
    intro n k es he
    cases es with
    | nil => exact absurd rfl he
    | cons e es => rfl
  rcases find_keyed junk nodeTable (fun r : Node t.A => r.port) ⟨[⟨0, .port p, false⟩], []⟩ p (nodeSelect p) h1
    with ⟨i, r, hf1, hf2, hf3⟩ | ⟨hf1, hf2⟩
  · rw [hf1]
    refine ⟨a, rfl, live, h1, ?_⟩
    exact keyed_same (g := some) nodeKey hkey h2 ⟨_, hf2, hf3⟩ info (fun n es he => by
      cases es with
      | nil => exact absurd rfl he
      | cons e es => rfl)
  · rw [hf1]
    obtain ⟨i, s1, hi1, hi2, hi3⟩ := hr.insert h1 ⟨p, info⟩
    simp only [hi1]
    exact ⟨_, rfl, _, hi3, keyed_insert (g := some) nodeKey hkey h2 (by simpa [nodeKey] using hf2) info rfl i⟩

/-- A table that is only added to. -/
def LogOk {R : Type} (l : List R) (a : Arr R) : Prop := ∃ live, ArrOk a live ∧ (live.map (fun x => x.2)).Perm l

theorem log_insert {R : Type} {junk : Nat → Slot R} {l : List R} {a : Arr R} (h : LogOk l a) (r : R) :
    ∃ i a', (arrOps junk).insert a r = some (i, a') ∧ LogOk (l ++ [r]) a' := by
  obtain ⟨live, h1, h2⟩ := h
  obtain ⟨i, s1, hi1, hi2, hi3⟩ := (arrRefines junk).insert h1 r
  exact ⟨i, s1, hi1, _, hi3, (h2.cons r).trans (List.perm_append_singleton _ _).symm⟩

theorem txRecords_snoc (n : Int) (es : List (PortId × PortId × Nat × t.X)) (e : PortId × PortId × Nat × t.X) :
    txRecords n (es ++ [e]) = txRecords n es ++ [⟨⟨e.1, e.2.1, n + es.length, e.2.2.1⟩, e.2.2.2⟩] := by
  simp [txRecords, List.zipIdx_append]

theorem statusRecords_snoc (n : Int) (es : List (PortId × Nat × t.U)) (e : PortId × Nat × t.U) :
    statusRecords n (es ++ [e]) = statusRecords n es ++ [⟨⟨e.1, ⟨0, 0⟩, n + es.length, 0⟩, e.2.1, e.2.2⟩] := by
  simp [statusRecords, List.zipIdx_append]

theorem txLog_ok {junk : Nat → Slot (Tx t.X)} {n : Int} (p ref : PortId) (xs : List (Nat × t.X)) :
    ∀ {es : List (PortId × PortId × Nat × t.X)} {a : Arr (Tx t.X)}, LogOk (txRecords n es) a →
    ∃ a', txLog (arrOps junk) p ref (a, n + es.length) xs = some (a', n + (es ++ xs.map (fun x => (p, ref, x.1, x.2))).length) ∧
      LogOk (txRecords n (es ++ xs.map (fun x => (p, ref, x.1, x.2)))) a' := by
  induction xs with
  | nil => intro es a h; exact ⟨a, by simp [txLog], by simpa using h⟩
  | cons x xs ih =>
    intro es a h
    obtain ⟨i, a1, h1, h2⟩ := log_insert (junk := junk) h ⟨⟨p, ref, n + es.length, x.1⟩, x.2⟩
    rw [← txRecords_snoc n es (p, ref, x.1, x.2)] at h2
    obtain ⟨a2, h3, h4⟩ := ih h2
    rw [List.append_assoc] at h4 h3
    refine ⟨a2, ?_, h4⟩
    simp only [txLog, h1]
    have : n + (es.length : Int) + 1 = n + ((es ++ [(p, ref, x.1, x.2)]).length : Int) := by
      rw [List.length_append]; simp; omega
    rw [this]
    exact h3

/-- The table of latest states. -/
def LatestOk (es : List (PortId × Nat × t.U)) (a : Arr (Status t.U)) : Prop :=
  ∃ live, ArrOk a live ∧ (live.map (fun x => some x.2)).Perm (lastStates es)

theorem latest_ok {junk : Nat → Slot (Status t.U)} {es : List (PortId × Nat × t.U)} {a : Arr (Status t.U)} (h : LatestOk es a)
    (p : PortId) (gm : Nat) (u : t.U) :
    ∃ a', latestUpdate (arrOps junk) a p (statusRecord p es.length gm u) = some a' ∧ LatestOk (es ++ [(p, gm, u)]) a' := by
  obtain ⟨live, h1, h2⟩ := h
  have hr := arrRefines junk
  unfold latestUpdate
  have hkey : ∀ (n : Int) (k : PortId) (es : List (Int × Nat × t.U)), es ≠ [] →
      stateKey (es.getLast?.map (fun e => (⟨⟨k, ⟨0, 0⟩, e.1, 0⟩, e.2.1, e.2.2⟩ : Status t.U))) = k := by
    intro n k es he
    rw [List.getLast?_eq_some_getLast he]
    rfl
  have hsn : ((es ++ [(p, gm, u)]).zipIdx.map (fun x => (x.1.1, ((x.2 : Int), x.1.2)))) =
      es.zipIdx.map (fun x => (x.1.1, ((x.2 : Int), x.1.2))) ++ [(p, ((es.length : Int), gm, u))] := by
    simp [List.zipIdx_append]
  unfold LatestOk lastStates
  rw [hsn]
  unfold lastStates at h2
  rcases find_keyed junk (table Status.common) (fun r : Status t.U => r.common.port) ⟨[⟨0, .port p, false⟩], []⟩ p
      (portSelect Status.common p) h1 with ⟨i, r, hf1, hf2, hf3⟩ | ⟨hf1, hf2⟩
  · rw [hf1]
    obtain ⟨s', hs1, hs2⟩ := hr.set h1 i r (statusRecord p es.length gm u) hf2
    refine ⟨s', hs1, _, hs2, ?_⟩
    refine keyed_set (g := some) stateKey hkey h2 (hr.nodup h1) hf2 hf3 _ (fun _ => some (statusRecord p es.length gm u)) ?_ rfl
    intro n l _
    rw [List.getLast?_append]
    rfl
  · rw [hf1]
    obtain ⟨i, s1, hi1, hi2, hi3⟩ := hr.insert h1 (statusRecord p es.length gm u)
    simp only [hi1]
    exact ⟨_, rfl, _, hi3, keyed_insert (g := some) stateKey hkey h2 (by simpa [stateKey] using hf2) ((es.length : Int), gm, u) rfl i⟩

/-- The number of records made in earlier rounds. -/
def rxBase (past : List (List (Report t))) : Nat := (past.map syncs).sum

/-- The monitor after the rounds `past` and the reports `round`. -/
structure Ok (past : List (List (Report t))) (round : List (Report t)) (m : Mon t) : Prop where
  rx : RxOk (rxBase past) (round.flatMap Report.rx) (m.rx, m.rxCount)
  tx : LogOk (txRecords ((past.flatten.flatMap Report.tx).length : Nat) (round.flatMap Report.tx)) m.tx
  txn : m.txCount = ((past.flatten.flatMap Report.tx).length : Nat) + ((round.flatMap Report.tx).length : Nat)
  log : LogOk (statusRecords ((past.flatten.flatMap Report.states).length : Nat) (round.flatMap Report.states)) m.log
  logn : m.logCount = ((past.flatten.flatMap Report.states).length : Nat) + ((round.flatMap Report.states).length : Nat)
  latest : LatestOk ((past.flatten ++ round).flatMap Report.states) m.latest
  nodes : NodesOk ((past.flatten ++ round).map Report.speaker) m.nodes

theorem receive_ok {j : Junk t} {past : List (List (Report t))} {round : List (Report t)} {m : Mon t} (h : Ok past round m) (r : Report t) :
    ∃ m', receive j m r = some m' ∧ Ok past (round ++ [r]) m' := by
  obtain ⟨n, hn1, hn2⟩ := register_ok (junk := j.nodes) h.nodes r.speaker.1 r.speaker.2
  have hn3 : NodesOk ((past.flatten ++ (round ++ [r])).map Report.speaker) n := by
    rw [← List.append_assoc, List.map_append]; exact hn2
  have hfl {α : Type} (f : Report t → List α) : (round ++ [r]).flatMap f = round.flatMap f ++ f r := by simp
  have hfl2 {α : Type} (f : Report t → List α) : (past.flatten ++ (round ++ [r])).flatMap f = (past.flatten ++ round).flatMap f ++ f r := by
    rw [← List.append_assoc, List.flatMap_append]; simp
  cases r with
  | timing p info ref xs =>
    simp only [Report.speaker] at hn1
    obtain ⟨s', h1, h2⟩ := rxTiming_ok (junk := j.rx) j.stack p ref xs h.rx
    refine ⟨{ m with nodes := n, rx := s'.1, rxCount := s'.2 }, by simp only [receive, hn1, h1, Option.map_some], ?_⟩
    exact ⟨by rw [hfl]; exact h2, by rw [hfl]; simpa [Report.tx] using h.tx, by rw [hfl]; simpa [Report.tx] using h.txn,
      by rw [hfl]; simpa [Report.states] using h.log, by rw [hfl]; simpa [Report.states] using h.logn,
      by rw [hfl2]; simpa [Report.states] using h.latest, hn3⟩
  | computed p info ref xs =>
    simp only [Report.speaker] at hn1
    obtain ⟨s', h1, h2⟩ := rxComputed_ok (junk := j.rx) j.stack p ref xs h.rx
    refine ⟨{ m with nodes := n, rx := s'.1, rxCount := s'.2 }, by simp only [receive, hn1, h1, Option.map_some], ?_⟩
    exact ⟨by rw [hfl]; exact h2, by rw [hfl]; simpa [Report.tx] using h.tx, by rw [hfl]; simpa [Report.tx] using h.txn,
      by rw [hfl]; simpa [Report.states] using h.log, by rw [hfl]; simpa [Report.states] using h.logn,
      by rw [hfl2]; simpa [Report.states] using h.latest, hn3⟩
  | sent p info ref xs =>
    simp only [Report.speaker] at hn1
    obtain ⟨a', h1, h2⟩ := txLog_ok (junk := j.tx) p ref xs h.tx
    rw [← h.txn] at h1
    refine ⟨{ m with nodes := n, tx := a', txCount := (((past.flatten.flatMap Report.tx).length : Nat) : Int) +
      ((round.flatMap Report.tx ++ xs.map (fun x => (p, ref, x.1, x.2))).length : Nat) },
      by simp only [receive, hn1, h1, Option.map_some], ?_⟩
    exact ⟨by rw [hfl]; simpa [Report.rx] using h.rx, by rw [hfl]; exact h2, by rw [hfl]; rfl,
      by rw [hfl]; simpa [Report.states] using h.log, by rw [hfl]; simpa [Report.states] using h.logn,
      by rw [hfl2]; simpa [Report.states] using h.latest, hn3⟩
  | status p info gm u =>
    simp only [Report.speaker] at hn1
    obtain ⟨i, l, h1, h2⟩ := log_insert (junk := j.log) h.log (statusRecord p m.logCount gm u)
    obtain ⟨la, h3, h4⟩ := latest_ok (junk := j.latest) h.latest p gm u
    have hln : ((((past.flatten ++ round).flatMap Report.states).length : Nat) : Int) = m.logCount := by
      rw [h.logn, List.flatMap_append, List.length_append]; push_cast; rfl
    rw [hln] at h3
    refine ⟨{ m with nodes := n, log := l, latest := la, logCount := m.logCount + 1 },
      by simp only [receive, hn1, h1, h3], ?_⟩
    refine ⟨by rw [hfl]; simpa [Report.rx] using h.rx, by rw [hfl]; simpa [Report.tx] using h.tx, by rw [hfl]; simpa [Report.tx] using h.txn,
      ?_, ?_, by rw [hfl2]; exact h4, hn3⟩
    · rw [hfl]
      simp only [Report.states]
      rw [statusRecords_snoc]
      rw [h.logn] at h2
      exact h2
    · rw [hfl]
      simp only [Report.states, List.length_append, h.logn, List.length_singleton]
      push_cast; omega

theorem receiveAll_ok {j : Junk t} {past : List (List (Report t))} (rs : List (Report t)) :
    ∀ {round : List (Report t)} {m : Mon t}, Ok past round m → ∃ m', receiveAll j m rs = some m' ∧ Ok past (round ++ rs) m' := by
  induction rs with
  | nil => intro round m h; exact ⟨m, rfl, by simpa using h⟩
  | cons r rs ih =>
    intro round m h
    obtain ⟨m1, h1, h2⟩ := receive_ok (j := j) h r
    obtain ⟨m2, h3, h4⟩ := ih h2
    exact ⟨m2, by simp [receiveAll, h1, h3], by simpa using h4⟩

/-- What a flush must write after the rounds `past` and the reports `round`. -/
structure OutOk (past : List (List (Report t))) (round : List (Report t)) (out : Out t) : Prop where
  rx : out.rx = perKey (rxBase past) (rxRecord (t := t)) (round.flatMap Report.rx)
  tx : out.tx = txRecords ((past.flatten.flatMap Report.tx).length : Nat) (round.flatMap Report.tx)
  log : out.log = statusRecords ((past.flatten.flatMap Report.states).length : Nat) (round.flatMap Report.states)
  latest : (out.latest.map some).Perm (lastStates ((past.flatten ++ round).flatMap Report.states))
  latestOrder : out.latest.Pairwise (fun a b => a.common.mseq ≤ b.common.mseq)
  nodes : (out.nodes.map some).Perm (firstSeen ((past.flatten ++ round).map Report.speaker))

theorem zipIdx_increasing {α β : Type} (l : List α) (f : α × Nat → β) (num : β → Int) (n : Int) (h : ∀ x, num (f x) = n + x.2) :
    (l.zipIdx.map f).Pairwise (fun x y => num x < num y) := by
  rw [List.pairwise_map]
  simp only [h]
  have : (l.zipIdx.map (·.2)).Pairwise (· < ·) := by
    rw [List.zipIdx_map_snd]
    exact List.pairwise_lt_range'
  rw [List.pairwise_map] at this
  exact this.imp (fun h => by omega)

theorem flush_ok {j : Junk t} {q : Sorts t} (hq : q.Ok) {past : List (List (Report t))} {round : List (Report t)} {m : Mon t}
    (h : Ok past round m) :
    ∃ out m', flush j q.rx q.tx q.status m = some (out, m') ∧ OutOk past round out ∧ Ok (past ++ [round]) [] m' := by
  obtain ⟨⟨lr, hr1, hr2⟩, hr3⟩ := h.rx
  obtain ⟨lt, ht1, ht2⟩ := h.tx
  obtain ⟨ll, hl1, hl2⟩ := h.log
  obtain ⟨la, ha1, ha2⟩ := h.latest
  obtain ⟨ln, hn1, hn2⟩ := h.nodes
  obtain ⟨on, hon1, hon2⟩ := visit_spec (arrRefines j.nodes) hn1
  obtain ⟨or, hor1, hor2, hor3⟩ := inOrder_spec j.rx Rx.common hq.rx hr1
  obtain ⟨ot, hot1, hot2, hot3⟩ := inOrder_spec j.tx Tx.common hq.tx ht1
  obtain ⟨ol, hol1, hol2, hol3⟩ := inOrder_spec j.log Status.common hq.status hl1
  obtain ⟨oa, hoa1, hoa2, hoa3⟩ := inOrder_spec j.latest Status.common hq.status ha1
  obtain ⟨r', hr4, hr5⟩ := deleteAll_empty j.rx Rx.common hr1
  obtain ⟨x', ht4, ht5⟩ := deleteAll_empty j.tx Tx.common ht1
  obtain ⟨l', hl4, hl5⟩ := deleteAll_empty j.log Status.common hl1
  refine ⟨⟨on.map (·.2), or, ot, ol, oa⟩, { m with rx := r', tx := x', log := l' }, ?_, ?_, ?_⟩
  · simp only [flush, hon1, hor1, hot1, hol1, hoa1, hr4, ht4, hl4]
  · refine ⟨?_, ?_, ?_, ?_, hoa3, ?_⟩
    · exact sorted_unique (num := fun r => r.common.mseq) (hor2.trans hr2) hor3 (zipIdx_increasing _ _ (fun r : Rx t.T t.C => r.common.mseq) (rxBase past) (fun x => rfl))
    · exact sorted_unique (num := fun r => r.common.mseq) (hot2.trans ht2) hot3 (zipIdx_increasing _ _ (fun r : Tx t.X => r.common.mseq) _ (fun x => rfl))
    · exact sorted_unique (num := fun r => r.common.mseq) (hol2.trans hl2) hol3 (zipIdx_increasing _ _ (fun r : Status t.U => r.common.mseq) _ (fun x => rfl))
    · refine (hoa2.map some).trans ?_
      rw [List.map_map]; exact ha2
    · refine ((hon2.map (fun (x : Nat × Node t.A) => x.2)).map some).trans ?_
      rw [List.map_map]; exact hn2
  · have hfl {α : Type} (f : Report t → List α) : ((past ++ [round]).flatten.flatMap f) = past.flatten.flatMap f ++ round.flatMap f := by
      simp
    refine ⟨⟨⟨[], hr5, List.Perm.refl _⟩, ?_⟩, ⟨[], ht5, List.Perm.refl _⟩, ?_, ⟨[], hl5, List.Perm.refl _⟩, ?_, ?_, ?_⟩
    · rw [hr3]
      simp [rxBase, syncs]
    · rw [h.txn, hfl, List.length_append]; simp
    · rw [h.logn, hfl, List.length_append]; simp
    · have := h.latest
      simpa using this
    · have := h.nodes
      simpa using this

theorem run_ok {j : Junk t} {q : Sorts t} (hq : q.Ok) (rounds : List (List (Report t))) :
    ∀ {past : List (List (Report t))} {m : Mon t}, Ok past [] m →
    ∃ outs m', run j q m rounds = some (outs, m') ∧ outs.length = rounds.length ∧
      ∀ i out round, outs[i]? = some out → rounds[i]? = some round → OutOk (past ++ rounds.take i) round out := by
  induction rounds with
  | nil => intro past m h; exact ⟨[], m, rfl, rfl, by simp⟩
  | cons round rounds ih =>
    intro past m h
    obtain ⟨m1, h1, h2⟩ := receiveAll_ok (j := j) round h
    rw [List.nil_append] at h2
    obtain ⟨out, m2, h3, h4, h5⟩ := flush_ok (j := j) hq h2
    obtain ⟨outs, m3, h6, h7, h8⟩ := ih h5
    refine ⟨out :: outs, m3, by simp [run, h1, h3, h6], by simp [h7], ?_⟩
    intro i o r ho hr
    cases i with
    | zero =>
      simp only [List.getElem?_cons_zero, Option.some.injEq] at ho hr
      subst ho; subst hr
      simpa using h4
    | succ i =>
      simp only [List.getElem?_cons_succ] at ho hr
      have := h8 i o r ho hr
      rwa [List.append_assoc, List.singleton_append] at this

theorem create_ok {capN capR capT capS : Nat} (hN : 0 < capN) (hR : 0 < capR) (hT : 0 < capT) (hS : 0 < capS) (zn : Slot (Node t.A))
    (zr : Slot (Rx t.T t.C)) (zt : Slot (Tx t.X)) (zs : Slot (Status t.U)) : Ok [] [] (create capN capR capT capS zn zr zt zs) where
  rx := ⟨⟨[], ArrOk.empty _ hR zr, List.Perm.refl _⟩, rfl⟩
  tx := ⟨[], ArrOk.empty _ hT zt, List.Perm.refl _⟩
  txn := rfl
  log := ⟨[], ArrOk.empty _ hS zs, List.Perm.refl _⟩
  logn := rfl
  latest := ⟨[], ArrOk.empty _ hS zs, List.Perm.refl _⟩
  nodes := ⟨[], ArrOk.empty _ hN zn, List.Perm.refl _⟩

/-! ## Properties -/

/-- C55: in every round of reports, a Sync on which a node reported timing, computed
data or both, in any order and any number of times, is written once, with the last
timing and the last computed data, in order of first report, and numbered
consecutively over all rounds. No Sync that was not reported is written, and nothing
depends on what unused memory holds. -/
theorem C55_merged {capN capR capT capS : Nat} (hN : 0 < capN) (hR : 0 < capR) (hT : 0 < capT) (hS : 0 < capS) (zn : Slot (Node t.A))
    (zr : Slot (Rx t.T t.C)) (zt : Slot (Tx t.X)) (zs : Slot (Status t.U)) (j : Junk t) {q : Sorts t} (hq : q.Ok)
    (rounds : List (List (Report t))) :
    ∃ outs m, run j q (create capN capR capT capS zn zr zt zs) rounds = some (outs, m) ∧ outs.length = rounds.length ∧
      ∀ i out round, outs[i]? = some out → rounds[i]? = some round →
        out.rx = perKey (((rounds.take i).map syncs).sum : Nat) (rxRecord (t := t)) (round.flatMap Report.rx) := by
  obtain ⟨outs, m, h1, h2, h3⟩ := run_ok (j := j) hq rounds (create_ok hN hR hT hS zn zr zt zs)
  exact ⟨outs, m, h1, h2, fun i out round ho hr => (h3 i out round ho hr).rx⟩

/-- C64: every message sent and every state reported is written exactly once, in the
round of its report, in order and numbered consecutively; the table of latest states
holds for each node that ever reported one exactly its last; the table of nodes holds
each node that ever reported once, with the first domain and address seen. -/
theorem C64_logs_partial {capN capR capT capS : Nat} (hN : 0 < capN) (hR : 0 < capR) (hT : 0 < capT) (hS : 0 < capS) (zn : Slot (Node t.A))
    (zr : Slot (Rx t.T t.C)) (zt : Slot (Tx t.X)) (zs : Slot (Status t.U)) (j : Junk t) {q : Sorts t} (hq : q.Ok)
    (rounds : List (List (Report t))) :
    ∃ outs m, run j q (create capN capR capT capS zn zr zt zs) rounds = some (outs, m) ∧ outs.length = rounds.length ∧
      ∀ i out round, outs[i]? = some out → rounds[i]? = some round →
        out.tx = txRecords (((rounds.take i).flatten.flatMap Report.tx).length : Nat) (round.flatMap Report.tx) ∧
        out.log = statusRecords (((rounds.take i).flatten.flatMap Report.states).length : Nat) (round.flatMap Report.states) ∧
        (out.latest.map some).Perm (lastStates (((rounds.take i).flatten ++ round).flatMap Report.states)) ∧
        out.latest.Pairwise (fun a b => a.common.mseq ≤ b.common.mseq) ∧
        (out.nodes.map some).Perm (firstSeen (((rounds.take i).flatten ++ round).map Report.speaker)) := by
  obtain ⟨outs, m, h1, h2, h3⟩ := run_ok (j := j) hq rounds (create_ok hN hR hT hS zn zr zt zs)
  refine ⟨outs, m, h1, h2, fun i out round ho hr => ?_⟩
  have h := h3 i out round ho hr
  exact ⟨h.tx, h.log, h.latest, h.latestOrder, h.nodes⟩

/-- C64 in full on the line written for a state: it names the grandmaster reported. -/
def C64_json_statement : Prop := ∀ (p : PortId) (n : Int) (gm : Nat) (u : Unit), jsonStatus (statusRecord p n gm u) = (p, gm, u)

/-- C64 fails: the line names the reference port of the record, which is never set. -/
theorem C64_json_violated : ¬ C64_json_statement := by
  intro h
  exact absurd (h ⟨1, 1⟩ 0 7 ()) (by decide)

/-- What the line holds: the node and its state, and always the zero identity for the
grandmaster. -/
theorem C64_json_partial {U : Type} (p : PortId) (n : Int) (gm : Nat) (u : U) :
    jsonStatus (statusRecord p n gm u) = (p, 0, u) := rfl

/-! ### Examples -/

/-- All data are numbers. -/
abbrev nums : Types := ⟨Nat, Nat, Nat, Nat, Nat⟩

/-- Insertion sort. -/
def sorts : Sorts nums := ⟨isort, isort, isort⟩

theorem sorts_ok : sorts.Ok := ⟨isort_ok, isort_ok, isort_ok⟩

/-- Two rounds: a Sync reported by both kinds of data, the timing twice; a node that
moves; states of two nodes. -/
def reports : List (List (Report nums)) :=
  [[.timing ⟨1, 1⟩ 10 ⟨9, 1⟩ [(5, 100), (6, 101)], .computed ⟨1, 1⟩ 11 ⟨9, 1⟩ [(6, 200), (5, 201)], .timing ⟨2, 1⟩ 20 ⟨9, 1⟩ [(5, 102)],
    .timing ⟨1, 1⟩ 10 ⟨9, 1⟩ [(5, 103)], .status ⟨1, 1⟩ 10 9 1],
   [.status ⟨2, 1⟩ 21 9 1, .status ⟨1, 1⟩ 10 8 2, .sent ⟨2, 1⟩ 20 ⟨9, 1⟩ [(1, 7), (1, 8)], .timing ⟨1, 1⟩ 10 ⟨9, 1⟩ [(5, 104)]]]

/-- Memory never written. -/
def junk : Junk nums :=
  ⟨fun _ => ⟨false, true, 9, ⟨⟨5, 5⟩, 5⟩⟩, fun _ => ⟨false, true, 9, ⟨⟨⟨5, 5⟩, ⟨5, 5⟩, 5, 5⟩, some 5, none⟩⟩,
    fun _ => ⟨false, true, 9, ⟨⟨⟨5, 5⟩, ⟨5, 5⟩, 5, 5⟩, 5⟩⟩, fun _ => ⟨false, true, 9, ⟨⟨⟨5, 5⟩, ⟨5, 5⟩, 5, 5⟩, 5, 5⟩⟩,
    fun _ => ⟨false, true, 9, ⟨⟨⟨5, 5⟩, ⟨5, 5⟩, 5, 5⟩, 5, 5⟩⟩, ⟨⟨⟨1, 1⟩, ⟨9, 1⟩, 5, 6⟩, some 5, some 5⟩⟩

/-- A monitor with room for one record in each table at first. -/
def small : Mon nums := create 1 1 1 1 (junk.nodes 0) (junk.rx 0) (junk.tx 0) (junk.log 0)

example : (run junk sorts small reports).map (fun x => x.1.map (·.rx)) =
    some [[⟨⟨⟨1, 1⟩, ⟨9, 1⟩, 0, 5⟩, some 103, some 201⟩, ⟨⟨⟨1, 1⟩, ⟨9, 1⟩, 1, 6⟩, some 101, some 200⟩,
        ⟨⟨⟨2, 1⟩, ⟨9, 1⟩, 2, 5⟩, some 102, none⟩],
      [⟨⟨⟨1, 1⟩, ⟨9, 1⟩, 3, 5⟩, some 104, none⟩]] := by decide

example : (run junk sorts small reports).map (fun x => x.1.map (fun o => (o.tx, o.log))) =
    some [([], [⟨⟨⟨1, 1⟩, ⟨0, 0⟩, 0, 0⟩, 9, 1⟩]),
      ([⟨⟨⟨2, 1⟩, ⟨9, 1⟩, 0, 1⟩, 7⟩, ⟨⟨⟨2, 1⟩, ⟨9, 1⟩, 1, 1⟩, 8⟩],
        [⟨⟨⟨2, 1⟩, ⟨0, 0⟩, 1, 0⟩, 9, 1⟩, ⟨⟨⟨1, 1⟩, ⟨0, 0⟩, 2, 0⟩, 8, 2⟩])] := by decide

example : (run junk sorts small reports).map (fun x => x.1.map (fun o => (o.latest, o.nodes))) =
    some [([⟨⟨⟨1, 1⟩, ⟨0, 0⟩, 0, 0⟩, 9, 1⟩], [⟨⟨1, 1⟩, 10⟩, ⟨⟨2, 1⟩, 20⟩]),
      ([⟨⟨⟨2, 1⟩, ⟨0, 0⟩, 1, 0⟩, 9, 1⟩, ⟨⟨⟨1, 1⟩, ⟨0, 0⟩, 2, 0⟩, 8, 2⟩], [⟨⟨1, 1⟩, 10⟩, ⟨⟨2, 1⟩, 20⟩])] := by decide

end Verif.Monitor
