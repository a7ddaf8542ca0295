import Verif.Evtmon.Support

set_option linter.unusedSimpArgs false
set_option linter.unusedVariables false

/-!
# Monitoring: what a slave reports about itself (C65, C72)
-/

namespace Verif.Evtmon
open Verif.Time

/-- The record due for the times of a Sync message, given its correction in units of 2^-16 ns. -/
def timingOf (corr : SyncTimes → Int) (e : Nat × SyncTimes) : Nat × Timing :=
  (e.1, ⟨e.2.seq, ⟨e.2.send.sec, e.2.send.nsec⟩, corr e.2, ⟨e.2.receive.sec, e.2.receive.nsec⟩⟩)

/-- Times that a record can hold: after the epoch, and a correction that is converted without
overflow (C04). -/
def Storable (corr : SyncTimes → Int) (e : SyncTimes) : Prop :=
  0 ≤ e.send.sec ∧ 0 ≤ e.receive.sec ∧ toNs16 e.correction = some (corr e)

theorem Reports.all {R : Type} {n : Nat} {xs rest : List (Nat × R)} {ms : List (Msg R)} (h : Reports n xs ms rest) :
    ms.flatMap Msg.samples ++ rest = xs := by
  induction h with
  | rest => simp
  | full m xs ms xs' h hr ih => rw [List.flatMap_cons, List.append_assoc, ih]
  | change m x xs ms xs' h0 h hx hr ih => rw [List.flatMap_cons, List.append_assoc, ih]

theorem sampled_map {A B : Type} (k : Nat) (l : List A) (f : A → B) :
    (sampled k l).map f = ((l.zipIdx 0).filter fun x => x.2 % (k + 1) = 0).map fun x => f x.1 := by
  simp [sampled, Function.comp_def]

/-- The configurations in which samples are taken and sent: one event in `k + 1`, `n` to a
message. -/
def Enabled (c : Config) (k n : Nat) : Prop :=
  c.logging = true ∧ c.tlv = true ∧ c.skip = k ∧ k < 32768 ∧ c.perTlv = n ∧ 0 < n ∧ n ≤ 10

/-- **C65** (timing data, exactly): for any history of a slave the messages are those due, except
that after one that is not full the next begins with its first record instead of its own. -/
theorem C65_timing (c : Config) (k n : Nat) (hc : Enabled c k n) (corr : SyncTimes → Int) (evs : List (Nat × SyncTimes))
    (hs : ∀ e ∈ evs, Storable corr e.2) (m : Mem Timing) :
    ∃ fin due rest, timings c evs (m, State.init) = some (fin, stale n none due) ∧
      Reports n ((sampled k evs).map (timingOf corr)) due rest := by
  obtain ⟨hl, ht, hk, hk', hn, h0, hb⟩ := hc
  obtain ⟨fin, hfin⟩ := run_eq (R := Timing) (E := Nat × SyncTimes) hl ht hn hk hk' (base := 0) (size := 10) (by omega) id (fun e => e.1) (fun e => fillTiming e.2)
    (fun e => (timingOf corr e).2) evs (by
      intro e he old
      obtain ⟨h1, h2, h3⟩ := hs e he
      simp [fillTiming, h3, stamp_eq h1, stamp_eq h2, timingOf]) 0 m State.init 0 none [] (holds_init h0 m) (by simp [State.init])
  have hr := ideal_reports n ((sampled k evs).map (timingOf corr)) 0 [] (by simpa using h0)
  refine ⟨fin, _, _, ?_, by simpa using hr⟩
  have hid : (Msg.relabel id : Msg Timing → Msg Timing) = id := rfl
  rw [hid, List.map_id] at hfin
  rw [sampled_map]
  exact hfin

/-- **C65** (computed data, exactly). -/
theorem C65_computed (c : Config) (k n : Nat) (hc : Enabled c k n) (evs : List (Nat × Computed)) (m : Mem Computed) :
    ∃ fin due rest, computeds c evs (m, State.init) = some (fin, stale n none due) ∧ Reports n (sampled k evs) due rest := by
  obtain ⟨hl, ht, hk, hk', hn, h0, hb⟩ := hc
  obtain ⟨fin, hfin⟩ := run_eq (R := Computed) (E := Nat × Computed) hl ht hn hk hk' (base := 0) (size := 10) (by omega) id
    (fun e => e.1) (fun e _ => some e.2) (fun e => e.2) evs (by simp) 0 m State.init 0 none [] (holds_init h0 m)
    (by simp [State.init])
  have hr := ideal_reports n (sampled k evs) 0 [] (by simpa using h0)
  refine ⟨fin, _, _, ?_, by simpa using hr⟩
  have hid : (Msg.relabel id : Msg Computed → Msg Computed) = id := rfl
  rw [hid, List.map_id] at hfin
  rw [← List.map_id (sampled k evs), sampled_map]
  exact hfin

/-- Three samples of one parent and one of another with messages of two: the second message,
cut short, is followed by one that begins with its record. -/
example : (computeds ⟨true, true, 0, 2⟩ [(1, ⟨1, 0, 0⟩), (1, ⟨2, 0, 0⟩), (1, ⟨3, 0, 0⟩), (2, ⟨4, 0, 0⟩), (2, ⟨5, 0, 0⟩)]
    (fun _ => ⟨0, 0, 0⟩, State.init)).map Prod.snd =
    some [⟨1, [⟨1, 0, 0⟩, ⟨2, 0, 0⟩]⟩, ⟨1, [⟨3, 0, 0⟩]⟩, ⟨2, [⟨3, 0, 0⟩, ⟨5, 0, 0⟩]⟩] := by decide +kernel

example : Enabled (parse (some 2) defaultConfig) 2 8 ∧
    Storable (fun _ => 65536) ⟨7, ⟨100, 5, 0⟩, ⟨100, 900, 0⟩, ⟨0, 1, 0⟩⟩ := by
  constructor
  · unfold Enabled; decide
  · unfold Storable; decide

/-- **C65**: monitoring configured with any interval, and any history of a slave: each sample due
is reported, once, with the parent it was taken from. -/
def C65_statement : Prop :=
  ∀ (k : Nat) (corr : SyncTimes → Int) (evs : List (Nat × SyncTimes)), k < 2147483648 → (∀ e ∈ evs, Storable corr e.2) →
    ∀ m, ∃ fin msgs rest, timings (parse (some k) defaultConfig) evs (m, State.init) = some (fin, msgs) ∧
      Reports 8 ((sampled k evs).map (timingOf corr)) msgs rest

/-- A Sync for the witnesses. -/
def syncAt (p seq : Nat) : Nat × SyncTimes := (p, ⟨seq, ⟨100, 0, 0⟩, ⟨100, 1, 0⟩, ⟨0, 0, 0⟩⟩)

theorem syncAt_storable (p seq : Nat) : Storable (fun _ => 0) (syncAt p seq).2 := by
  have : toNs16 ⟨0, 0, 0⟩ = some 0 := by decide
  exact ⟨by simp [syncAt], by simp [syncAt], this⟩

/-- One Sync from a first parent, eight from a second: the second message has the first parent's
Sync in place of the second's first. -/
theorem C65_violated : ¬ C65_statement := by
  intro h
  obtain ⟨fin, msgs, rest, hrun, hrep⟩ := h 0 (fun _ => 0) (syncAt 1 10 :: (List.range 8).map fun i => syncAt 2 (20 + i)) (by omega)
    (by
      intro e he
      rcases List.mem_cons.mp he with rfl | he
      · exact syncAt_storable 1 10
      · obtain ⟨i, -, rfl⟩ := List.mem_map.mp he
        exact syncAt_storable 2 _) (fun _ => ⟨0, ⟨0, 0⟩, 0, ⟨0, 0⟩⟩)
  have hcomp : (timings (parse (some 0) defaultConfig) (syncAt 1 10 :: (List.range 8).map fun i => syncAt 2 (20 + i))
      (fun _ => ⟨0, ⟨0, 0⟩, 0, ⟨0, 0⟩⟩, State.init)).map (fun x => (x.2.map fun m => (m.source, m.records.map Timing.seq))) =
      some [(1, [10]), (2, [10, 21, 22, 23, 24, 25, 26, 27])] := by decide +kernel
  have hrun' : timings (parse (some 0) defaultConfig) (syncAt 1 10 :: (List.range 8).map fun i => syncAt 2 (20 + i))
      (fun _ => ⟨0, ⟨0, 0⟩, 0, ⟨0, 0⟩⟩, State.init) = some (fin, msgs) := hrun
  rw [hrun'] at hcomp
  have hall := congrArg (List.map fun x => (x.1, x.2.seq)) hrep.all
  have hxs : ((sampled 0 (syncAt 1 10 :: (List.range 8).map fun i => syncAt 2 (20 + i))).map (timingOf fun _ => 0)).map
      (fun x => (x.1, x.2.seq)) = [(1, 10), (2, 20), (2, 21), (2, 22), (2, 23), (2, 24), (2, 25), (2, 26), (2, 27)] := by decide +kernel
  rw [hxs] at hall
  simp only [Option.map_some, Option.some.injEq] at hcomp
  have hfl : (msgs.flatMap Msg.samples).map (fun x => (x.1, x.2.seq)) =
      (msgs.map fun m => (m.source, m.records.map Timing.seq)).flatMap fun x => x.2.map fun q => (x.1, q) := by
    simp [List.map_flatMap, List.flatMap_map, Msg.samples, Function.comp_def]
  rw [List.map_append, hfl, hcomp] at hall
  simp at hall

/-- The same with one parent only. -/
def C65_skip_statement : Prop :=
  ∀ (k p : Nat) (corr : SyncTimes → Int) (evs : List (Nat × SyncTimes)), k < 2147483648 → (∀ e ∈ evs, Storable corr e.2) →
    (∀ e ∈ evs, e.1 = p) → ∀ m, ∃ fin msgs rest, timings (parse (some k) defaultConfig) evs (m, State.init) = some (fin, msgs) ∧
      Reports 8 ((sampled k evs).map (timingOf corr)) msgs rest

/-- The interval is cut to sixteen bits without a word: asked to skip 65536 events, none is
skipped. -/
theorem C65_skip_violated : ¬ C65_skip_statement := by
  intro h
  obtain ⟨fin, msgs, rest, hrun, hrep⟩ := h 65536 1 (fun _ => 0) ((List.range 8).map fun i => syncAt 1 i) (by omega)
    (by
      intro e he
      obtain ⟨i, -, rfl⟩ := List.mem_map.mp he
      exact syncAt_storable 1 _)
    (by
      intro e he
      obtain ⟨i, -, rfl⟩ := List.mem_map.mp he
      rfl) (fun _ => ⟨0, ⟨0, 0⟩, 0, ⟨0, 0⟩⟩)
  have hcomp : (timings (parse (some 65536) defaultConfig) ((List.range 8).map fun i => syncAt 1 i)
      (fun _ => ⟨0, ⟨0, 0⟩, 0, ⟨0, 0⟩⟩, State.init)).map (fun x => (x.2.map fun m => (m.source, m.records.map Timing.seq))) =
      some [(1, [0, 1, 2, 3, 4, 5, 6, 7])] := by decide +kernel
  have hrun' : timings (parse (some 65536) defaultConfig) ((List.range 8).map fun i => syncAt 1 i)
      (fun _ => ⟨0, ⟨0, 0⟩, 0, ⟨0, 0⟩⟩, State.init) = some (fin, msgs) := hrun
  rw [hrun'] at hcomp
  have hall := congrArg (List.map fun x => (x.1, x.2.seq)) hrep.all
  have hxs : ((sampled 65536 ((List.range 8).map fun i => syncAt 1 i)).map (timingOf fun _ => 0)).map
      (fun x => (x.1, x.2.seq)) = [(1, 0)] := by decide +kernel
  rw [hxs] at hall
  simp only [Option.map_some, Option.some.injEq] at hcomp
  have hfl : (msgs.flatMap Msg.samples).map (fun x => (x.1, x.2.seq)) =
      (msgs.map fun m => (m.source, m.records.map Timing.seq)).flatMap fun x => x.2.map fun q => (x.1, q) := by
    simp [List.map_flatMap, List.flatMap_map, Msg.samples, Function.comp_def]
  rw [List.map_append, hfl, hcomp] at hall
  simp at hall

theorem parse_enabled (k : Nat) (hk : k < 32768) : Enabled (parse (some k) defaultConfig) k 8 := by
  refine ⟨rfl, rfl, ?_, hk, rfl, by omega, by omega⟩
  simp only [parse, s16]
  omega

/-- **C65** (the part that holds): with an interval below 32768, if the messages sent are all full
or if the parent is always the same. Missing: histories in which the parent changes while samples
are kept, where the code violates the statement as `C65_timing` says. -/
theorem C65_partial (k : Nat) (hk : k < 32768) (corr : SyncTimes → Int) (evs : List (Nat × SyncTimes))
    (hs : ∀ e ∈ evs, Storable corr e.2) (m : Mem Timing) :
    ∃ fin msgs, timings (parse (some k) defaultConfig) evs (m, State.init) = some (fin, msgs) ∧
      ((∀ x ∈ msgs, x.records.length = 8) ∨ (∃ p, ∀ e ∈ evs, e.1 = p) →
        ∃ rest, Reports 8 ((sampled k evs).map (timingOf corr)) msgs rest) := by
  obtain ⟨fin, due, rest, hrun, hrep⟩ := C65_timing _ k 8 (parse_enabled k hk) corr evs hs m
  refine ⟨fin, _, hrun, ?_⟩
  rintro (hfull | ⟨p, hp⟩)
  · rw [stale_full hfull (by omega)]; exact ⟨rest, hrep⟩
  · have := reports_one hrep (p := p) (by
      intro x hx
      obtain ⟨e, he, rfl⟩ := List.mem_map.mp hx
      unfold sampled at he
      obtain ⟨y, hy, rfl⟩ := List.mem_map.mp he
      have hz := (List.mem_filter.mp hy).1
      have : y.1 ∈ evs := by
        have h2 := List.mem_map_of_mem (f := Prod.fst) hz
        rwa [List.zipIdx_map_fst] at h2
      exact hp _ this) (by omega)
    rw [stale_of_full this]; exact ⟨rest, hrep⟩

/-- Twelve Syncs of one parent, one in two sampled: no message yet after twelve, one after
fifteen. -/
example : (timings (parse (some 1) defaultConfig) ((List.range 12).map fun i => syncAt 1 i)
      (fun _ => ⟨0, ⟨0, 0⟩, 0, ⟨0, 0⟩⟩, State.init)).map (fun x => x.2.length) = some 0 ∧
    (timings (parse (some 1) defaultConfig) ((List.range 15).map fun i => syncAt 1 i)
      (fun _ => ⟨0, ⟨0, 0⟩, 0, ⟨0, 0⟩⟩, State.init)).map (fun x => (x.2.map fun m => (m.source, m.records.map Timing.seq))) =
      some [(1, [0, 2, 4, 6, 8, 10, 12, 14])] := by
  constructor <;> decide +kernel

/-- **C65** (transmissions, exactly): the messages of one type, if the records of the other types
transmitted do not share its place in memory; in particular if only one type is transmitted, as
with the end-to-end mechanism. The messages carry the identity of the port itself. -/
theorem C65_tx (c : Config) (k n : Nat) (hc : Enabled c k n) (own : Nat) (t : TxType) (evs : List (Nat × Sent))
    (hs : ∀ e ∈ evs, e.2.type = t ∧ 0 ≤ e.2.time.sec ∨
      e.2.type ≠ t ∧ (3 * e.2.type.toNat + n ≤ 3 * t.toNat ∨ 3 * t.toNat + n ≤ 3 * e.2.type.toNat)) (m : Mem TxStamp) :
    ∃ fin out due rest, egresses c own evs ⟨m, fun _ => State.init⟩ = some (fin, out) ∧
      ofType t out = (stale n none due).map (fun x => ⟨own, x.records⟩) ∧
      Reports n ((sampled k (evs.filter fun e => e.2.type = t)).map fun e =>
        (e.1, (⟨e.2.seq, ⟨e.2.time.sec, e.2.time.nsec⟩⟩ : TxStamp))) due rest := by
  obtain ⟨hl, ht, hk, hk', hn, h0, hb⟩ := hc
  obtain ⟨fin, out, hfin, hout⟩ := tx_run hl ht hn hk hk' hb own t evs hs 0 ⟨m, fun _ => State.init⟩ 0 none [] (holds_init h0 m)
    (by simp [State.init]) (by intro u; simp [State.init]; exact h0)
  have hr := ideal_reports n ((sampled k (evs.filter fun e => e.2.type = t)).map fun e =>
        (e.1, (⟨e.2.seq, ⟨e.2.time.sec, e.2.time.nsec⟩⟩ : TxStamp))) 0 [] (by simpa using h0)
  refine ⟨fin, out, _, _, hfin, ?_, by simpa using hr⟩
  rw [hout, sampled_map]
  rfl

/-- Requests of the end-to-end mechanism. -/
example : ∀ e ∈ (List.range 9).map (fun i => ((1, ⟨.delayReq, i, ⟨5, 0, 0⟩⟩) : Nat × Sent)),
    e.2.type = .delayReq ∧ 0 ≤ e.2.time.sec := by decide

/-- **C65** for transmissions with the configuration a user can choose and a parent that does not
change: the messages of each type report the transmissions of that type. -/
def C65_tx_statement : Prop :=
  ∀ (own p : Nat) (t : TxType) (evs : List (Nat × Sent)), (∀ e ∈ evs, e.1 = p ∧ 0 ≤ e.2.time.sec) →
    ∀ m, ∃ fin out due rest, egresses (parse none defaultConfig) own evs ⟨m, fun _ => State.init⟩ = some (fin, out) ∧
      ofType t out = due.map (fun x => ⟨own, x.records⟩) ∧
      Reports 8 ((evs.filter fun e => e.2.type = t).map fun e =>
        (e.1, (⟨e.2.seq, ⟨e.2.time.sec, e.2.time.nsec⟩⟩ : TxStamp))) due rest

/-- A transmission for the witness. -/
def sentAt (t : TxType) (seq : Nat) : Nat × Sent := (1, ⟨t, seq, ⟨100, 0, 0⟩⟩)

/-- With the peer delay mechanism, requests and responses share memory: one response among eight
requests takes the place of the fourth. -/
theorem C65_tx_violated : ¬ C65_tx_statement := by
  intro h
  obtain ⟨fin, out, due, rest, hrun, hty, hrep⟩ := h 9 1 .pdelayReq
    ((List.range 4).map (sentAt .pdelayReq) ++ sentAt .pdelayResp 77 :: (List.range 4).map fun i => sentAt .pdelayReq (4 + i))
    (by decide) (fun _ => ⟨0, ⟨0, 0⟩⟩)
  have hcomp : (egresses (parse none defaultConfig) 9
      ((List.range 4).map (sentAt .pdelayReq) ++ sentAt .pdelayResp 77 :: (List.range 4).map fun i => sentAt .pdelayReq (4 + i))
      ⟨fun _ => ⟨0, ⟨0, 0⟩⟩, fun _ => State.init⟩).map (fun x => (ofType .pdelayReq x.2).map fun m => m.records.map TxStamp.seq) =
      some [[0, 1, 2, 77, 4, 5, 6, 7]] := by decide +kernel
  rw [hrun] at hcomp
  simp only [Option.map_some, Option.some.injEq, hty, List.map_map, Function.comp_def] at hcomp
  have hall := congrArg (List.map fun x => x.2.seq) hrep.all
  have hxs : ((((List.range 4).map (sentAt .pdelayReq) ++ sentAt .pdelayResp 77 :: (List.range 4).map fun i => sentAt .pdelayReq (4 + i)).filter
      fun e => e.2.type = .pdelayReq).map fun e => (e.1, (⟨e.2.seq, ⟨e.2.time.sec, e.2.time.nsec⟩⟩ : TxStamp))).map
      (fun x => x.2.seq) = [0, 1, 2, 3, 4, 5, 6, 7] := by decide +kernel
  rw [hxs] at hall
  have hfl : (due.flatMap Msg.samples).map (fun x => x.2.seq) = (due.map fun m => m.records.map TxStamp.seq).flatMap id := by
    simp [List.map_flatMap, List.flatMap_map, Msg.samples, Function.comp_def]
  rw [List.map_append, hfl, hcomp] at hall
  simp at hall

/-! ## Alarms -/

theorem and_bit {w : BitVec 32} {i : Nat} (hi : i < 32) : (w &&& bit i ≠ 0) ↔ w.getLsbD i = true := by
  constructor
  · intro h
    by_contra hc
    apply h
    apply BitVec.eq_of_getLsbD_eq
    intro j hj
    simp only [bit, BitVec.getLsbD_and, BitVec.getLsbD_shiftLeft, BitVec.getLsbD_zero, BitVec.getLsbD_one]
    by_cases hji : j = i
    · subst hji; simp at hc; simp [hc]
    · by_cases h2 : j < i
      · simp [h2]
      · have : j - i ≠ 0 := by omega
        simp [this]
  · intro h hc
    have := congrArg (fun x => x.getLsbD i) hc
    simp only [bit, BitVec.getLsbD_and, BitVec.getLsbD_shiftLeft, h, hi, Bool.true_and, decide_true, Nat.lt_irrefl, decide_false,
      Bool.not_false, Nat.sub_self, BitVec.getLsbD_one, BitVec.getLsbD_zero] at this
    simp at this

theorem bit_getLsbD {i j : Nat} (hj : j < 32) : (bit i).getLsbD j = decide (j = i) := by
  simp only [bit, BitVec.getLsbD_shiftLeft, BitVec.getLsbD_one, hj, decide_true, Bool.true_and]
  by_cases hji : j = i
  · subst hji; simp
  · by_cases h2 : j < i
    · simp [h2, hji]
    · have : j - i ≠ 0 := by omega
      simp [this, hji]

/-- What a translation makes of the bits. -/
theorem translate_bits (l : List (Nat × Nat)) (hl : ∀ x ∈ l, x.1 < 32) (hd : (l.map Prod.fst).Nodup) :
    ∀ (w r : BitVec 32) (b : Nat), b < 32 →
      (translate l w r).1.getLsbD b = (w.getLsbD b && !(l.any fun x => x.1 == b)) ∧
      (translate l w r).2.getLsbD b = (r.getLsbD b || l.any fun x => x.2 == b && w.getLsbD x.1) := by
  induction l with
  | nil => intro w r b hb; simp [translate]
  | cons x l ih =>
    obtain ⟨i, j⟩ := x
    intro w r b hb
    have hi : i < 32 := hl (i, j) (by simp)
    rw [List.map_cons, List.nodup_cons] at hd
    have ih' := ih (fun y hy => hl y (by simp [hy])) hd.2
    simp only [translate]
    by_cases h : w &&& bit i ≠ 0
    · rw [if_pos h]
      have hw := (and_bit hi).mp h
      obtain ⟨h1, h2⟩ := ih' (w &&& ~~~ bit i) (r ||| bit j) b hb
      rw [h1, h2]
      constructor
      · simp only [BitVec.getLsbD_and, BitVec.getLsbD_not, hb, decide_true, Bool.true_and, bit_getLsbD hb, List.any_cons]
        by_cases hbi : b = i
        · subst hbi; simp
        · have : (i == b) = false := by simp; exact fun e => hbi e.symm
          simp [hbi, this]
      · have hany : (l.any fun x => x.2 == b && (w &&& ~~~ bit i).getLsbD x.1) = l.any fun x => x.2 == b && w.getLsbD x.1 := by
          rw [Bool.eq_iff_iff]
          simp only [List.any_eq_true]
          constructor
          · rintro ⟨y, hy, hy2⟩
            refine ⟨y, hy, ?_⟩
            simp only [Bool.and_eq_true, BitVec.getLsbD_and] at hy2 ⊢
            exact ⟨hy2.1, hy2.2.1⟩
          · rintro ⟨y, hy, hy2⟩
            refine ⟨y, hy, ?_⟩
            have hy3 : y.1 < 32 := hl y (by simp [hy])
            have hne : y.1 ≠ i := fun e => hd.1 (List.mem_map.mpr ⟨y, hy, e⟩)
            simp only [Bool.and_eq_true, BitVec.getLsbD_and, BitVec.getLsbD_not, hy3, decide_true, Bool.true_and,
              bit_getLsbD hy3, hne, decide_false, Bool.not_false, and_true] at hy2 ⊢
            exact hy2
        rw [hany]
        simp only [BitVec.getLsbD_or, bit_getLsbD hb, List.any_cons, hw, Bool.and_true, Bool.or_assoc]
        congr 2
        rw [Bool.eq_iff_iff]; simp; exact eq_comm
    · rw [if_neg h]
      have hw : w.getLsbD i = false := by
        cases hc : w.getLsbD i
        · rfl
        · exact absurd ((and_bit hi).mpr hc) h
      obtain ⟨h1, h2⟩ := ih' w r b hb
      rw [h1, h2]
      constructor
      · simp only [List.any_cons]
        by_cases hbi : i = b
        · subst hbi; simp [hw]
        · have : (i == b) = false := by simpa using hbi
          simp [this]
      · simp [hw]

/-- The alarms of a port, by number (`SYNC_MODULE_ALARM_*`), that are for missing messages. -/
def MissingAlarm (i : Nat) : Prop := i ≤ 4

/-- The other alarms for which messages have a place: timestamps, interface, clock control. -/
def OtherAlarm (i : Nat) : Prop := i = 5 ∨ i = 6 ∨ i = 11 ∨ i = 12

theorem missing_bits (w : BitVec 32) (b : Nat) (hb : b < 32) :
    (translate msgTypeAlarms w 0).2.getLsbD b = ((0 == b && w.getLsbD 0) || (8 == b && w.getLsbD 1) || (9 == b && w.getLsbD 2) ||
      (3 == b && w.getLsbD 3) || (10 == b && w.getLsbD 4)) ∧
    (translate msgTypeAlarms w 0).1.getLsbD b = (w.getLsbD b && decide (5 ≤ b)) := by
  obtain ⟨h1, h2⟩ := translate_bits msgTypeAlarms (by decide) (by decide) w 0 b hb
  rw [h1, h2]
  constructor
  · simp [msgTypeAlarms, Bool.or_assoc]
  · congr 1
    rw [Bool.eq_iff_iff]
    simp [msgTypeAlarms]
    omega

theorem other_bits (w : BitVec 32) (b : Nat) (hb : b < 32) :
    (translate otherAlarms w 0).2.getLsbD b = ((0 == b && w.getLsbD 5) || (1 == b && w.getLsbD 6) || (2 == b && w.getLsbD 11) ||
      (3 == b && w.getLsbD 12)) ∧
    (translate otherAlarms w 0).1.getLsbD b = (w.getLsbD b && !(b == 5 || b == 6 || b == 11 || b == 12)) := by
  obtain ⟨h1, h2⟩ := translate_bits otherAlarms (by decide) (by decide) w 0 b hb
  rw [h1, h2]
  constructor
  · simp [otherAlarms, Bool.or_assoc]
  · congr 2
    rw [Bool.eq_iff_iff]
    simp [otherAlarms]
    omega

/-- What is left when the alarms with a place in messages have been taken away. -/
theorem left_over (w : BitVec 32) :
    (translate otherAlarms (translate msgTypeAlarms w 0).1 0).1 ≠ 0 ↔
      ∃ i, i < 32 ∧ ¬ MissingAlarm i ∧ ¬ OtherAlarm i ∧ w.getLsbD i = true := by
  constructor
  · intro h
    by_contra hc
    apply h
    apply BitVec.eq_of_getLsbD_eq
    intro b hb
    rw [(other_bits _ b hb).2, (missing_bits _ b hb).2, show BitVec.getLsbD (0 : BitVec 32) b = false from BitVec.getLsbD_zero]
    by_contra hne
    apply hc
    simp only [Bool.not_eq_false, Bool.and_eq_true, decide_eq_true_eq, Bool.not_eq_true', Bool.or_eq_false_iff, beq_eq_false_iff_ne] at hne
    refine ⟨b, hb, ?_, ?_, hne.1.1⟩
    · unfold MissingAlarm; omega
    · unfold OtherAlarm; omega
  · rintro ⟨i, hi, h1, h2, h3⟩ hc
    have := congrArg (fun x => x.getLsbD i) hc
    simp only [(other_bits _ i hi).2, (missing_bits _ i hi).2, show BitVec.getLsbD (0 : BitVec 32) i = false from BitVec.getLsbD_zero, h3] at this
    unfold MissingAlarm at h1
    unfold OtherAlarm at h2
    simp at this
    omega

theorem publish_other_low (w : BitVec 32) (selected inSync bondChanged : Bool) (b : Nat) (hb : b < 4) :
    (publish w selected inSync bondChanged).other.getLsbD b =
      (translate otherAlarms (translate msgTypeAlarms w 0).1 0).2.getLsbD b := by
  simp only [publish, BitVec.getLsbD_setWidth]
  have h16 : decide (b < 16) = true := by simp; omega
  rw [h16, Bool.true_and]
  split_ifs
  · rw [BitVec.getLsbD_or, bit_getLsbD (by omega)]
    have : decide (b = 4) = false := by simp; omega
    rw [this, Bool.or_false]
  · rfl

/-- **C72**: a slave has an alarm if, and only if, the monitoring station writes one in the line
about its status. -/
def C72_statement : Prop :=
  ∀ (w : BitVec 32) (selected inSync bondChanged : Bool),
    let j := json (publish w selected inSync bondChanged)
    (w ≠ 0 ↔ j.msgAlarms ≠ 0 ∨ j.alarms ≠ 0)

/-- A slave whose clock is near the epoch (alarm 13) is written to have no alarms. -/
theorem C72_violated : ¬ C72_statement := by
  intro h
  have := (h (bit 13) false false false).mp (by decide)
  revert this
  decide

/-- **C72** (the part that holds): what a monitoring station writes about a slave's status is what
the slave said: its flags, and exactly those alarms that it has and for which messages have a
place. Any other alarm is the question mark of the table, but is missing in the line. -/
theorem C72_partial (w : BitVec 32) (selected inSync bondChanged : Bool) :
    let s := publish w selected inSync bondChanged
    (json s).bondChanged = bondChanged ∧ (json s).selected = selected ∧ (json s).inSync = inSync ∧
    (∀ i, i < 32 → ((json s).msgAlarms.getLsbD i = true ↔ MissingAlarm i ∧ w.getLsbD i = true) ∧
      ((json s).alarms.getLsbD i = true ↔ OtherAlarm i ∧ w.getLsbD i = true)) ∧
    ((letters s)[0]? = some true ↔ ∃ i, i < 32 ∧ ¬ MissingAlarm i ∧ ¬ OtherAlarm i ∧ w.getLsbD i = true) := by
  intro s
  refine ⟨?_, ?_, ?_, ?_, ?_⟩
  · have : s.events = (if bondChanged then bit 0 else 0 : BitVec 32).setWidth 16 := rfl
    simp only [json, this]
    cases bondChanged <;> decide
  · have : s.flags = ((if inSync then bit 0 else 0 : BitVec 32) ||| (if selected then bit 1 else 0)).setWidth 16 := rfl
    simp only [json, this]
    cases selected <;> cases inSync <;> decide
  · have : s.flags = ((if inSync then bit 0 else 0 : BitVec 32) ||| (if selected then bit 1 else 0)).setWidth 16 := rfl
    simp only [json, this]
    cases selected <;> cases inSync <;> decide
  · intro i hi
    have hm : ∀ b, b < 16 → (s.missing.setWidth 32).getLsbD b = (translate msgTypeAlarms w 0).2.getLsbD b := by
      intro b hb
      have h1 : decide (b < 32) = true := by simp; omega
      have h2 : decide (b < 16) = true := by simpa using hb
      simp only [s, publish, BitVec.getLsbD_setWidth, h1, h2, Bool.true_and]
    have ho : ∀ b, b < 4 → (s.other.setWidth 32).getLsbD b = (translate otherAlarms (translate msgTypeAlarms w 0).1 0).2.getLsbD b := by
      intro b hb
      rw [BitVec.getLsbD_setWidth, publish_other_low w selected inSync bondChanged b hb]
      have h1 : decide (b < 32) = true := by simp; omega
      rw [h1, Bool.true_and]
    constructor
    · simp only [json]
      rw [(translate_bits (Evtmon.flip msgTypeAlarms) (by decide) (by decide) (s.missing.setWidth 32) 0 i hi).2]
      simp only [Evtmon.flip, msgTypeAlarms, List.map_cons, List.map_nil, Prod.swap, List.any_cons, List.any_nil, BitVec.getLsbD_zero]
      rw [hm 0 (by omega), hm 8 (by omega), hm 9 (by omega), hm 3 (by omega), hm 10 (by omega),
        (missing_bits w 0 (by omega)).1, (missing_bits w 8 (by omega)).1, (missing_bits w 9 (by omega)).1,
        (missing_bits w 3 (by omega)).1, (missing_bits w 10 (by omega)).1]
      unfold MissingAlarm
      simp
      constructor
      · rintro (⟨rfl, h⟩ | ⟨rfl, h⟩ | ⟨rfl, h⟩ | ⟨rfl, h⟩ | ⟨rfl, h⟩) <;> simp [h]
      · rintro ⟨h1, h2⟩
        have : i = 0 ∨ i = 1 ∨ i = 2 ∨ i = 3 ∨ i = 4 := by omega
        rcases this with rfl | rfl | rfl | rfl | rfl <;> simp [h2]
    · simp only [json]
      rw [(translate_bits (Evtmon.flip otherAlarms) (by decide) (by decide) (s.other.setWidth 32) 0 i hi).2]
      simp only [Evtmon.flip, otherAlarms, List.map_cons, List.map_nil, Prod.swap, List.any_cons, List.any_nil, BitVec.getLsbD_zero]
      rw [ho 0 (by omega), ho 1 (by omega), ho 2 (by omega), ho 3 (by omega)]
      rw [(other_bits _ 0 (by omega)).1, (other_bits _ 1 (by omega)).1, (other_bits _ 2 (by omega)).1, (other_bits _ 3 (by omega)).1,
        (missing_bits w 5 (by omega)).2, (missing_bits w 6 (by omega)).2, (missing_bits w 11 (by omega)).2, (missing_bits w 12 (by omega)).2]
      unfold OtherAlarm
      simp
      constructor
      · rintro (⟨rfl, h⟩ | ⟨rfl, h⟩ | ⟨rfl, h⟩ | ⟨rfl, h⟩) <;> simp [h]
      · rintro ⟨rfl | rfl | rfl | rfl, h⟩ <;> simp [h]
  · rw [← left_over]
    have hl : (letters s)[0]? = some (decide (s.other.setWidth 32 &&& bit 4 ≠ 0)) := rfl
    rw [hl]
    simp only [Option.some.injEq, decide_eq_true_eq]
    rw [and_bit (by omega), BitVec.getLsbD_setWidth]
    simp only [s, publish, BitVec.getLsbD_setWidth]
    have h4 : (translate otherAlarms (translate msgTypeAlarms w 0).1 0).2.getLsbD 4 = false := by
      rw [(other_bits _ 4 (by omega)).1]; simp
    split_ifs with h
    · refine ⟨fun _ => h, fun _ => ?_⟩
      rw [BitVec.getLsbD_or, bit_getLsbD (by omega)]
      simp only [decide_true, Bool.or_true, Bool.and_true]
      decide
    · refine ⟨fun hx => ?_, fun hx => absurd hx h⟩
      rw [h4] at hx
      simp at hx

/-- A slave that misses Follow_Ups and is near the epoch. -/
example : publish (bit 1 ||| bit 13) true false false = ⟨256, 16, 0, 2⟩ ∧
    (json (publish (bit 1 ||| bit 13) true false false)).msgAlarms = bit 1 := by decide

end Verif.Evtmon
