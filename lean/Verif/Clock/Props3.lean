import Verif.Clock.Props2

set_option linter.unusedSimpArgs false
set_option linter.unusedVariables false

/-!
# Clocks: new clocks, blocking, leap seconds and saved corrections (C145-C149, C151)
-/

namespace Verif.Clock

/-! ## C145 -/

/-- The operation differs from before at most in the remembered correction, the files and the
calls made. -/
structure Tuned (w w' : World) : Prop where
  ids : w'.ids = w.ids
  time : w'.time = w.time
  clk : ∀ j, w'.clk j = { w.clk j with corr := (w'.clk j).corr }

theorem adjustFreq_tuned (cfg : Cfg) (e : Env) (w : World) (i : Nat) (f : Rat) :
    Tuned w (adjustFreq cfg e w i f).1 ∧ (adjustFreq cfg e w i f).1.clk = w.clk := by
  unfold adjustFreq
  split
  · exact ⟨⟨rfl, rfl, fun _ => rfl⟩, rfl⟩
  · split
    · exact ⟨⟨rfl, rfl, fun _ => rfl⟩, rfl⟩
    · split
      · exact ⟨⟨rfl, rfl, fun _ => rfl⟩, rfl⟩
      · exact ⟨⟨rfl, rfl, fun _ => rfl⟩, rfl⟩

theorem corr_tuned (w : World) (i : Nat) (v : Rat) : Tuned w (w.set i { w.clk i with corr := v }) := by
  refine ⟨rfl, rfl, fun j => ?_⟩
  simp only [World.set]
  by_cases h : j = i
  · subst h; rw [if_pos rfl]
  · rw [if_neg h]

theorem loadFreq_tuned (cfg : Cfg) (e : Env) (w : World) (i : Nat) :
    Tuned w (loadFreq cfg e w i).1 := by
  unfold loadFreq
  simp only []
  split
  · obtain ⟨h1, h2⟩ := adjustFreq_tuned cfg e (rejectCorr w i) i 0
    have h3 := corr_tuned w i 0
    exact ⟨by rw [h1.ids]; rfl, by rw [h1.time]; rfl, fun j => by rw [h2]; exact h3.clk j⟩
  · obtain ⟨h1, h2⟩ := adjustFreq_tuned cfg e (keepCorr w i (savedCorr cfg w i).1) i
      (savedCorr cfg w i).1
    have h3 := corr_tuned w i (savedCorr cfg w i).1
    exact ⟨by rw [h1.ids]; rfl, by rw [h1.time]; rfl, fun j => by rw [h2]; exact h3.clk j⟩

/-- The first setting of a clock. -/
theorem setTime_first {cfg : Cfg} {e : Env} {w w' : World} {dst src : Nat} {rc : Nat}
    (hg : Good cfg w) (hs : Settable w dst src) (ha : Accurate e w) (ht : 0 ≤ e.adjT dst)
    (hd : (w.clk dst).done = false) (h : setTime cfg e w dst src none true = .ok (w', rc)) :
    w'.time = (fun j => if j = dst
      then w.time j + (w.time src - w.time dst) / 4294967296 * 4294967296 else w.time j) ∧
    (w'.clk dst).done = true := by
  unfold setTime at h
  simp only [hs.ne, hd, Bool.false_eq_true, and_false, or_self, if_false] at h
  have hc := compare_counted e w src dst
  have hx := compare_exact hg ha hs.inSrc hs.inDst
  rw [if_neg (by rw [hs.here.1, hs.here.2]; simp),
    if_neg (by rw [hs.noPhc hg _ hs.inDst, hs.noPhc hg _ hs.inSrc]; simp)] at hx
  generalize hcmp : compare e w src dst = r at h hc hx
  obtain ⟨w1, rc1, d⟩ := r
  simp only [Prod.mk.injEq] at h hc hx
  obtain ⟨rfl, rfl⟩ := hx
  simp only [Option.isNone_none, true_or, and_true, if_true] at h
  split at h
  · exact absurd h (by simp)
  · rename_i w2 rc2 hadj
    rcases adjustTime_cases hadj with ⟨-, h1 | ⟨-, h1⟩⟩ | ⟨-, -, -, -, -, h1⟩
    · rw [hc.noPhc, hs.noPhc hg _ hs.inDst] at h1
      exact absurd h1.2 (by simp)
    · rw [hc.ro, hs.free.1, hc.bl] at h1
      have := hs.free.2
      simp only [Bool.false_eq_true, false_or] at h1
      omega
    · rcases h1 with ⟨h1, -⟩ | ⟨-, h1, h2, -⟩
      · omega
      · simp only [] at h1 h2
        subst h1
        rw [if_pos rfl] at h
        simp only [Except.ok.injEq, Prod.mk.injEq] at h
        rw [← h.1]
        refine ⟨?_, by simp [World.set]⟩
        simp only [World.set]
        rw [h2, hc.time]

/-- A NIC clock that this program may step, whose time is that of a device just after reset. -/
structure Unset (cfg : Cfg) (e : Env) (w : World) (i : Nat) : Prop where
  able : Settable w i 0
  kind : (w.clk i).kind = .sfc ∨ (w.clk i).kind = .xnet ∨
    (w.clk i).kind = .nonSfc ∧ cfg.nonSfc = true
  early : e.base + w.time i < 5 * 365 * 86400 * (1000000000 * nanosecond)

/-- C145, as it should be: a NIC clock that is found, when its interface comes up, to be within
five years of the epoch is set to the system clock. -/
def C145_statement : Prop :=
  ∀ (cfg : Cfg) (e : Env) (w w' : World) (i : Nat), Usual cfg → Reach cfg w → Unset cfg e w i →
    Accurate e w → e.getFails i = false → 0 ≤ e.adjT i →
    correctNew cfg e w i = .ok w' → Close (w'.time i) (w'.time 0)

/-- In the year 2023, with accurate comparisons. -/
def modern (w : World) : Env := { honest w with base := 1700000000 * second }

/-- C145 does not hold: the mark that the initial correction has been made is never taken back.
A device that is removed, reset and inserted again keeps its time of 1970. -/
theorem C145_violated : ¬ C145_statement := by
  intro hs
  obtain ⟨w, hw, hp⟩ := witness (r := history plain [(.link [eth0] (some eth0), {}),
      (.rescan [], {}), (.hw (fun i => if i = 1 then -1700000000 * second else 0), {}),
      (.rescan [eth0], {})])
    (p := fun w => decide (w.ids = [1, 0]) && decide ((w.clk 1).deleted = false) &&
      decide ((w.clk 0).deleted = false) && (w.clk 1).phc.isSome &&
      decide ((w.clk 1).readOnly = false) && decide ((w.clk 1).blocked ≤ 0) &&
      decide (w.time 1 = -1700000000 * second) && decide ((w.clk 1).kind = .sfc) &&
      check (correctNew plain (modern w) w 1)
        (fun w' => decide (¬ Close (w'.time 1) (w'.time 0))))
    (by decide +kernel)
  simp only [Bool.and_eq_true, decide_eq_true_eq] at hp
  obtain ⟨⟨⟨⟨⟨⟨⟨⟨h1, h2⟩, h3⟩, h4⟩, h5⟩, h6⟩, h7⟩, h8⟩, h9⟩ := hp
  obtain ⟨w', hw', hp'⟩ := witness h9
  simp only [decide_eq_true_eq] at hp'
  have hset : Settable w 1 0 := by
    refine ⟨by rw [h1]; simp, by rw [h1]; simp, by simp, ⟨h2, h3⟩, ?_, ⟨h5, h6⟩⟩
    intro i hi h0
    rw [h1] at hi
    simp only [List.mem_cons, List.not_mem_nil, or_false, h0] at hi
    rw [hi]; exact h4
  refine hp' (hs plain (modern w) w w' 1 plain_usual (history_reach hw) ⟨hset, Or.inl h8, ?_⟩
    (fun i => ⟨rfl, rfl⟩) rfl (by simp [modern, honest]) hw')
  rw [h7]
  simp only [modern]
  decide

/-- C145, the part that holds: for a clock that has not been corrected before. -/
theorem C145_partial (cfg : Cfg) (hu : Usual cfg) (e : Env) (w w' : World) (i : Nat)
    (hr : Reach cfg w) (hs : Unset cfg e w i) (ha : Accurate e w) (hf : e.getFails i = false)
    (ht : 0 ≤ e.adjT i) (hd : (w.clk i).done = false) (h : correctNew cfg e w i = .ok w') :
    Close (w'.time i) (w'.time 0) ∧ (∀ j, j ≠ i → w'.time j = w.time j) := by
  have hg := hr.good hu
  have hl := loadFreq_tuned cfg e w i
  have hg1 := (loadFreq_moves e hu hg hs.able.inDst).good
  unfold correctNew at h
  simp only [] at h
  generalize (loadFreq cfg e w i).1 = w1 at h hl hg1
  have hset : Settable w1 i 0 := by
    refine ⟨by rw [hl.ids]; exact hs.able.inDst, by rw [hl.ids]; exact hs.able.inSrc, hs.able.ne,
      ?_, fun j hj h0 => ?_, ?_⟩
    · rw [hl.clk i, hl.clk 0]; exact hs.able.here
    · rw [hl.clk j]; exact hs.able.phc j (by rw [← hl.ids]; exact hj) h0
    · rw [hl.clk i]; exact hs.able.free
  have hk : (w1.clk i).kind = (w.clk i).kind := by rw [hl.clk i]
  rw [if_pos (by
    rw [hk]; unfold eligible
    rcases hs.kind with h1 | h1 | ⟨h1, h2⟩
    · simp [h1]
    · simp [h1]
    · simp [h1, h2]), hset.noPhc hg1 i hset.inDst, hf] at h
  simp only [Bool.or_self, Bool.false_eq_true, if_false] at h
  rw [if_pos (by
    left
    have := hs.early
    unfold secondsOf
    unfold nanosecond at this
    rw [hl.time]
    omega)] at h
  split at h
  · exact absurd h (by simp)
  · rename_i w2 rc hst
    simp only [Except.ok.injEq] at h
    subst h
    obtain ⟨h1, -⟩ := setTime_first hg1 hset (fun j => by rw [hl.time]; exact ha j) ht
      (by rw [hl.clk i]; exact hd) hst
    rw [h1, hl.time]
    refine ⟨?_, fun j hj => if_neg hj⟩
    have : ¬ (0 : Nat) = i := fun h => hs.able.ne h.symm
    simp only [if_true, if_neg this]
    unfold Close nanosecond
    constructor <;> omega

/-- A new adapter in the state of 1970. -/
example : check (history plain [(.hw (fun i => if i = 1 then -1700000000 * second else 0), {}),
      (.rescan [eth0], {})])
    (fun w => decide ((w.clk 1).done = false) && (w.clk 1).phc.isSome &&
      check (correctNew plain (modern w) w 1)
        (fun w' => decide (w'.time 1 = 0) && decide (w'.time 0 = 0))) = true := by
  decide +kernel

/-! ## C146 -/

/-- Who holds a clock blocked after some calls, each by a user: the last call of the user. -/
def holds : (Nat → Bool) → List (Nat × Bool) → (Nat → Bool)
  | h, [] => h
  | h, (u, b) :: os => holds (fun v => if v = u then b else h v) os

/-- The calls of the users as operations on clock `i`. -/
def blockOps (i : Nat) (os : List (Nat × Bool)) : List (Op × Env) :=
  os.map (fun p => (.block i p.2, {}))

/-- C146, as it should be: a clock is blocked as long as one of its users has blocked it and not
unblocked it. -/
def C146_statement : Prop :=
  ∀ (cfg : Cfg) (w w' : World) (i : Nat) (os : List (Nat × Bool)), Usual cfg → Reach cfg w →
    i ∈ w.ids → (w.clk i).blocked = 0 → run cfg w (blockOps i os) = .ok w' →
    (isBlocked w' i = true ↔ ∃ u, holds (fun _ => false) os u = true)

/-- C146 does not hold: calls are only counted, so that a user who unblocks a clock without having
blocked it undoes the call of another. -/
theorem C146_violated : ¬ C146_statement := by
  intro hs
  obtain ⟨w, hw, hp⟩ := witness (r := bootPlain plain)
    (p := fun w => decide (0 ∈ w.ids) && decide ((w.clk 0).blocked = 0) &&
      check (run plain w (blockOps 0 [(1, true), (2, false)]))
        (fun w' => decide (isBlocked w' 0 = false))) (by decide +kernel)
  simp only [Bool.and_eq_true, decide_eq_true_eq] at hp
  obtain ⟨⟨h1, h2⟩, h3⟩ := hp
  obtain ⟨w', hw', hp'⟩ := witness h3
  simp only [decide_eq_true_eq] at hp'
  have := (hs plain w w' 0 _ plain_usual ⟨{}, _, _, w, [], hw, rfl⟩ h1 h2 hw').mpr
    ⟨1, by simp [holds]⟩
  rw [hp'] at this
  exact absurd this (by simp)

/-- Every user blocks and unblocks in turn. -/
def Balanced : (Nat → Bool) → List (Nat × Bool) → Prop
  | _, [] => True
  | h, (u, b) :: os => h u = !b ∧ Balanced (fun v => if v = u then b else h v) os

theorem blocks_count (cfg : Cfg) (i : Nat) : ∀ (os : List (Nat × Bool)) (w w' : World)
    (h : Nat → Bool) (hs : List Nat), hs.Nodup → (∀ u, h u = true ↔ u ∈ hs) →
    (w.clk i).blocked = hs.length → Balanced h os → run cfg w (blockOps i os) = .ok w' →
    (isBlocked w' i = true ↔ ∃ u, holds h os u = true)
  | [], w, w', h, hs, hn, hm, hb, _, hr => by
    simp only [blockOps, List.map_nil, run, Except.ok.injEq] at hr
    subst hr
    simp only [isBlocked, hb, decide_eq_true_eq, holds, hm]
    cases hs with
    | nil => simp
    | cons a as =>
      simp only [List.length_cons, List.mem_cons]
      refine ⟨fun _ => ⟨a, Or.inl rfl⟩, fun _ => by omega⟩
  | (u, b) :: os, w, w', h, hs, hn, hm, hb, hbal, hr => by
    obtain ⟨hu, hrest⟩ := hbal
    have hr' : run cfg (setBlocked w i b).1 (blockOps i os) = .ok w' := by
      simp only [blockOps, List.map_cons, run] at hr
      split at hr
      · exact absurd hr (by simp)
      · rename_i w1 he
        unfold exec at he
        split at he
        · simp only [execOp, Except.ok.injEq] at he
          rw [he]; exact hr
        · exact absurd he (by simp)
    cases b with
    | true =>
      have hnot : u ∉ hs := fun hin => by
        rw [(hm u).mpr hin] at hu; exact absurd hu (by simp)
      refine blocks_count cfg i os _ w' _ (u :: hs) (List.nodup_cons.mpr ⟨hnot, hn⟩) (fun v => ?_)
        ?_ hrest hr'
      · by_cases hv : v = u
        · simp [hv]
        · simp [hv, hm]
      · simp only [setBlocked, World.set, if_true, List.length_cons, hb]
        push_cast
        rfl
    | false =>
      have hin : u ∈ hs := (hm u).mp (by rw [hu]; rfl)
      refine blocks_count cfg i os _ w' _ (hs.erase u) (hn.erase u) (fun v => ?_) ?_ hrest hr'
      · by_cases hv : v = u
        · simp [hv, hn.not_mem_erase]
        · simp [hv, hm, List.mem_erase_of_ne hv]
      · have hl := List.length_erase_of_mem hin
        have hpos : 0 < hs.length := List.length_pos_of_mem hin
        simp only [setBlocked, World.set, if_true, Bool.false_eq_true, if_false, hb]
        omega

/-- C146, the part that holds: for users who block and unblock in turn. -/
theorem C146_partial (cfg : Cfg) (w w' : World) (i : Nat) (os : List (Nat × Bool))
    (h0 : (w.clk i).blocked = 0) (hb : Balanced (fun _ => false) os)
    (hr : run cfg w (blockOps i os) = .ok w') :
    isBlocked w' i = true ↔ ∃ u, holds (fun _ => false) os u = true :=
  blocks_count cfg i os w w' _ [] List.nodup_nil (by simp) (by simp [h0]) hb hr

example : Balanced (fun _ => false) [(1, true), (2, true), (1, false)] ∧
    check (bootPlain plain) (fun w =>
      check (run plain w (blockOps 0 [(1, true), (2, true), (1, false)]))
        (fun w' => isBlocked w' 0)) = true := by
  constructor
  · simp [Balanced]
  · decide +kernel

/-! ## C147 -/

/-- C147, as it should be: scheduling a leap second returns 0 when the kernel took it. -/
def C147_statement : Prop :=
  ∀ (cfg : Cfg) (e : Env) (w : World) (t : Leap), Usual cfg → Reach cfg w → 0 ≤ e.adjS →
    (scheduleLeap e w t).2 = 0

/-- C147 does not hold: what adjtimex() returns is passed on, and that is the state of the clock,
5 for a clock that is not synchronized. -/
theorem C147_violated : ¬ C147_statement := by
  intro hs
  obtain ⟨w, hw, hp⟩ := witness (r := bootPlain plain)
    (p := fun w => decide ((scheduleLeap { adjS := 5 } w .ins61).2 = 5)) (by decide +kernel)
  simp only [decide_eq_true_eq] at hp
  have := hs plain { adjS := 5 } w .ins61 plain_usual ⟨{}, _, _, w, [], hw, rfl⟩ (by decide)
  rw [hp] at this
  exact absurd this (by decide)

/-- The leap second that a status of the kernel announces. -/
def announced (k : KStatus) : Option Leap :=
  match k.ins, k.del with
  | false, false => some .none
  | true, false => some .ins61
  | false, true => some .del59
  | true, true => none

/-- C147, the part that holds: the kernel is told of exactly the leap second asked for, other bits
are unchanged, and the later calls carry the same bits; 0 is returned if the kernel says TIME_OK. -/
theorem C147_partial (e : Env) (w : World) (t : Leap) (hro : (w.clk 0).readOnly = false) :
    ∃ k, (scheduleLeap e w t).1.writes = w.writes ++ [.status k] ∧
      (scheduleLeap e w t).1.kst = k ∧ announced k = some t ∧ k.unsync = w.kst.unsync ∧
      (e.adjS = 0 → (scheduleLeap e w t).2 = 0) ∧
      (e.adjS < 0 → (scheduleLeap e w t).2 = e.errno) := by
  refine ⟨leapStatus w.kst t, ?_⟩
  unfold scheduleLeap
  rw [hro]
  simp only [Bool.false_eq_true, if_false, World.log]
  refine ⟨trivial, trivial, ?_, ?_, ?_, ?_⟩
  · cases t <;> rfl
  · cases t <;> rfl
  · intro h; rw [h]; rfl
  · intro h; rw [if_pos h]

example : check (bootPlain plain)
    (fun w => decide ((w.clk 0).readOnly = false) &&
      decide ((scheduleLeap {} w .del59).1.writes = w.writes ++ [.status ⟨true, false, true⟩]))
    = true := by
  decide +kernel

/-! ## C148 -/

/-- C148, as it should be: at a leap second only the clocks that this program disciplines are
moved. -/
def C148_statement : Prop :=
  ∀ (cfg : Cfg) (e : Env) (w w' : World) (t : Leap) (rc : Nat), Usual cfg → Reach cfg w →
    leapNow cfg e w t = .ok (w', rc) →
    ∀ i ∈ w.ids, (w.clk i).discipline = false → w'.time i = w.time i

/-- A configuration that disciplines only the system clock. -/
def selective : Cfg := { plain with disciplineAll := false, listNames := ["system"] }

theorem selective_usual : Usual selective := ⟨by decide +kernel, by decide, by decide, by decide⟩

/-- C148 does not hold: `leap_second_now` looks at the type of the clock only. -/
theorem C148_violated : ¬ C148_statement := by
  intro hs
  obtain ⟨w, hw, hp⟩ := witness (r := history selective [(.rescan [eth0], {})])
    (p := fun w => decide (1 ∈ w.ids) && decide ((w.clk 1).discipline = false) &&
      decide (w.time 1 = 0) &&
      check (leapNow selective {} w .ins61)
        (fun r => decide (r.1.time 1 = -second))) (by decide +kernel)
  simp only [Bool.and_eq_true, decide_eq_true_eq] at hp
  obtain ⟨⟨⟨h1, h2⟩, h3⟩, h4⟩ := hp
  obtain ⟨⟨w', rc⟩, hw', hp'⟩ := witness h4
  simp only [decide_eq_true_eq] at hp'
  have := hs selective {} w w' .ins61 rc selective_usual (history_reach hw) hw' 1 h1 h2
  rw [hp', h3] at this
  exact absurd this (by decide)

/-- The clocks that a leap second moves. -/
def Leaps (cfg : Cfg) (e : Env) (c : Clk) (i : Nat) : Prop :=
  c.kind ≠ .system ∧ (c.kind = .nonSfc → cfg.nonSfc = true) ∧ c.phc.isSome = true ∧
  c.readOnly = false ∧ c.blocked ≤ 0 ∧ 0 ≤ e.adjT i

/-- How a leap second moves a clock: forward when a second is left out. -/
def shift : Leap → Int
  | .none => 0
  | .del59 => 1000000000 * nanosecond
  | .ins61 => -(1000000000 * nanosecond)

theorem eligible_iff (cfg : Cfg) (k : Kind) :
    eligible cfg k = true ↔ k ≠ .system ∧ (k = .nonSfc → cfg.nonSfc = true) := by
  cases k <;> simp [eligible]

/-- One turn of the loop moves one clock. -/
theorem leapOne_time {cfg : Cfg} {e : Env} {n : Int} {w w' : World} {i : Nat}
    (h : leapOne cfg e (n * 4294967296) w i = .ok w') :
    w'.ids = w.ids ∧ (∀ j, w'.clk j = { w.clk j with stepped := (w'.clk j).stepped }) ∧
    (∀ j, j ≠ i → w'.time j = w.time j) ∧
    (Leaps cfg e (w.clk i) i → w'.time i = w.time i + n * 4294967296) ∧
    (¬ Leaps cfg e (w.clk i) i → w'.time i = w.time i) := by
  unfold leapOne at h
  split at h
  · rename_i hel
    rw [eligible_iff] at hel
    split at h
    · exact absurd h (by simp)
    · rename_i w1 rc hadj
      simp only [Except.ok.injEq] at h
      subst h
      have hdiv : n * 4294967296 / 4294967296 * 4294967296 = n * 4294967296 := by omega
      rcases adjustTime_cases hadj with ⟨h1, h2⟩ | ⟨h1, h2, h3, -, h4, h5⟩
      · simp only [] at h1 h2
        rw [h1]
        refine ⟨rfl, fun _ => rfl, fun _ _ => rfl, fun hl => ?_, fun _ => rfl⟩
        obtain ⟨-, -, l1, l2, l3, -⟩ := hl
        rcases h2 with ⟨-, h2⟩ | ⟨-, h2 | h2⟩
        · unfold noPhc at h2
          rw [Option.isNone_eq_false_iff.mpr l1, Bool.and_false] at h2
          exact absurd h2 (by simp)
        · rw [l2] at h2; exact absurd h2 (by simp)
        · omega
      · have hp : (w.clk i).phc.isSome = true := by
          unfold noPhc at h1
          cases hc : (w.clk i).phc with
          | none => rw [hc] at h1; simp [hel.1] at h1
          | some _ => rfl
        rcases h5 with ⟨h5, -, h6, h7⟩ | ⟨h5, -, h6, h7⟩
        · simp only [] at h4 h6 h7
          refine ⟨h4, fun j => by rw [h7], fun j _ => by rw [h6], fun hl => ?_, fun _ => by rw [h6]⟩
          have := hl.2.2.2.2.2
          omega
        · simp only [] at h4 h6 h7
          refine ⟨h4, h7, fun j hj => by rw [h6]; exact if_neg hj, fun _ => ?_, fun hl => ?_⟩
          · rw [h6]
            simp only [if_true]
            rw [hdiv]
          · exact absurd ⟨hel.1, hel.2, hp, h2, h3, h5⟩ hl
  · rename_i hel
    simp only [Except.ok.injEq] at h
    subst h
    refine ⟨rfl, fun _ => rfl, fun _ _ => rfl, fun hl => ?_, fun _ => rfl⟩
    exact absurd ((eligible_iff cfg _).mpr ⟨hl.1, hl.2.1⟩) hel

theorem leapAll_time {cfg : Cfg} {e : Env} {n : Int} : ∀ (is : List Nat) {w w' : World},
    is.Nodup → leapAll cfg e (n * 4294967296) is w = .ok w' →
    (∀ j, j ∉ is → w'.time j = w.time j) ∧
    (∀ j ∈ is, (Leaps cfg e (w.clk j) j → w'.time j = w.time j + n * 4294967296) ∧
      (¬ Leaps cfg e (w.clk j) j → w'.time j = w.time j))
  | [], w, w', _, h => by
    simp only [leapAll, Except.ok.injEq] at h
    subst h
    exact ⟨fun _ _ => rfl, by simp⟩
  | i :: is, w, w', hn, h => by
    simp only [leapAll] at h
    split at h
    · exact absurd h (by simp)
    · rename_i w1 h1
      obtain ⟨-, hc, h2, h3, h4⟩ := leapOne_time h1
      rw [List.nodup_cons] at hn
      obtain ⟨h5, h6⟩ := leapAll_time is hn.2 h
      refine ⟨fun j hj => ?_, fun j hj => ?_⟩
      · rw [List.mem_cons, not_or] at hj
        rw [h5 j hj.2, h2 j hj.1]
      · rcases List.mem_cons.mp hj with rfl | hj'
        · rw [h5 j hn.1]
          exact ⟨h3, h4⟩
        · have hne : j ≠ i := fun he => hn.1 (he ▸ hj')
          have hle : Leaps cfg e (w1.clk j) j ↔ Leaps cfg e (w.clk j) j := by rw [hc j]; rfl
          have := h6 j hj'
          rw [hle, h2 j hne] at this
          exact this

/-- C148, the part that holds: each NIC clock that the program may write is put forward one second
when a second is deleted and back one second when one is inserted; the others, among them the system
clock, are not moved. -/
theorem C148_partial (cfg : Cfg) (hu : Usual cfg) (e : Env) (w w' : World) (t : Leap) (rc : Nat)
    (hr : Reach cfg w) (h : leapNow cfg e w t = .ok (w', rc)) :
    (rc = 0 ↔ t ≠ .none) ∧
    ∀ i ∈ w.ids,
      (¬ Leaps cfg e (w.clk i) i → w'.time i = w.time i) ∧
      (Leaps cfg e (w.clk i) i →
        w'.time i = w.time i + shift t) := by
  have hg := hr.good hu
  unfold leapNow at h
  cases t with
  | none =>
    simp only [Except.ok.injEq, Prod.mk.injEq] at h
    rw [← h.1, ← h.2]
    refine ⟨by simp [EINVAL], fun i _ => ⟨fun _ => rfl, fun _ => by simp [shift]⟩⟩
  | del59 =>
    simp only [] at h
    split at h
    · exact absurd h (by simp)
    · rename_i w1 h1
      simp only [Except.ok.injEq, Prod.mk.injEq] at h
      rw [← h.1, ← h.2]
      have hsec : second = 1000000000 * 4294967296 := by decide
      rw [hsec] at h1
      obtain ⟨-, h2⟩ := leapAll_time w.ids hg.nodup h1
      refine ⟨by simp, fun i hi => ⟨(h2 i hi).2, fun hl => ?_⟩⟩
      rw [(h2 i hi).1 hl]
      unfold shift nanosecond
      norm_num
  | ins61 =>
    simp only [] at h
    split at h
    · exact absurd h (by simp)
    · rename_i w1 h1
      simp only [Except.ok.injEq, Prod.mk.injEq] at h
      rw [← h.1, ← h.2]
      have hsec : -second = -1000000000 * 4294967296 := by decide
      rw [hsec] at h1
      obtain ⟨-, h2⟩ := leapAll_time w.ids hg.nodup h1
      refine ⟨by simp, fun i hi => ⟨(h2 i hi).2, fun hl => ?_⟩⟩
      rw [(h2 i hi).1 hl]
      unfold shift nanosecond
      norm_num

example : check (history plain [(.rescan [eth0], {})])
    (fun w => check (leapNow plain {} w .del59)
      (fun r => decide (r.1.time 1 = second) && decide (r.1.time 0 = 0))) = true := by
  decide +kernel

/-! ## C149 -/

/-- C149, as it should be: a clock can be found by its hardware id. -/
def C149_statement : Prop :=
  ∀ (cfg : Cfg) (w : World) (i : Nat), Usual cfg → Reach cfg w → i ∈ w.ids →
    (w.clk i).deleted = false → ∃ j, findByHwid w (w.clk i).hwid = some j ∧
      (w.clk j).hwid = (w.clk i).hwid

/-- C149, the part that holds: no clock of another id is ever returned — nothing is, as the
comparison is over no bytes. -/
theorem C149_partial (w : World) (hw : List Nat) : findByHwid w hw = none := by
  unfold findByHwid
  rw [List.find?_eq_none]
  intro i _
  simp

/-- C149 does not hold: a parenthesis is misplaced. -/
theorem C149_violated : ¬ C149_statement := by
  intro hs
  obtain ⟨w, hw, hp⟩ := witness (r := history plain [(.rescan [eth0], {})])
    (p := fun w => decide (1 ∈ w.ids) && decide ((w.clk 1).deleted = false)) (by decide +kernel)
  simp only [Bool.and_eq_true, decide_eq_true_eq] at hp
  obtain ⟨j, hj, -⟩ := hs plain w 1 plain_usual (history_reach hw) hp.1 hp.2
  rw [C149_partial] at hj
  exact absurd hj (by simp)

example : check (history plain [(.rescan [eth0], {})])
    (fun w => decide ((w.clk 1).hwid = [0x00, 0x0f, 0x53, 0x01, 0x02, 0x03, 0, 0]) &&
      decide (findByHwid w (w.clk 1).hwid = none)) = true := by
  decide +kernel

/-! ## C151 -/

/-- C151, as it should be: a frequency correction that was saved is restored to the six decimals
that are kept. -/
def C151_statement : Prop :=
  ∀ (cfg : Cfg) (e e' : Env) (w : World) (i : Nat) (f : Rat), Usual cfg → Reach cfg w →
    i ∈ w.ids → cfg.persistent = true → (saveFreq e w i f).2 = 0 →
    (loadFreq cfg e' (saveFreq e w i f).1 i).2 = 0 ∧
    |((loadFreq cfg e' (saveFreq e w i f).1 i).1.clk i).corr - f| ≤ 1 / 2000000

/-- A limit with seven decimals. -/
def fine : Cfg := { plain with limit := 1234567 / 10000000 }

theorem fine_usual : Usual fine := ⟨by decide +kernel, by decide, by decide, by decide⟩

/-- C151 does not hold: the value at the limit may be rounded up in the file, beyond the limit, and is
then rejected; zero is used and the file is deleted. -/
theorem C151_violated : ¬ C151_statement := by
  intro hs
  obtain ⟨w, hw, hp⟩ := witness (r := history fine [(.rescan [eth0], {})])
    (p := fun w => decide (1 ∈ w.ids) && decide ((saveFreq {} w 1 (1234567 / 10000000)).2 = 0) &&
      decide ((loadFreq fine {} (saveFreq {} w 1 (1234567 / 10000000)).1 1).2 = ENODATA))
    (by decide +kernel)
  simp only [Bool.and_eq_true, decide_eq_true_eq] at hp
  obtain ⟨⟨h1, h2⟩, h3⟩ := hp
  have := (hs fine {} {} w 1 _ fine_usual (history_reach hw) h1 rfl h2).1
  rw [h3] at this
  exact absurd this (by decide)

theorem file_near (f : Rat) : |ofFile (toFile f) - f| ≤ 1 / 2000000 := by
  have h1 := roundl_le (f * 1000000)
  have h2 := le_roundl (f * 1000000)
  unfold ofFile toFile
  rw [abs_le]
  constructor <;> linarith

/-- C151, the part that holds: for a correction that is not at the very limit; and if the clock can be
written then the restored value is what it is given. -/
theorem C151_partial (cfg : Cfg) (e e' : Env) (w : World) (i : Nat) (f : Rat)
    (hp : cfg.persistent = true) (hs : (saveFreq e w i f).2 = 0)
    (hf : |f| ≤ (w.clk i).maxAdj - 1 / 2000000) :
    (loadFreq cfg e' (saveFreq e w i f).1 i).2 = 0 ∧
    |((loadFreq cfg e' (saveFreq e w i f).1 i).1.clk i).corr - f| ≤ 1 / 2000000 := by
  have hn := file_near f
  rw [abs_le] at hf
  have hsave : (saveFreq e w i f).1.files i = some (toFile f) ∧
      ((saveFreq e w i f).1.clk i).maxAdj = (w.clk i).maxAdj := by
    unfold saveFreq at hs ⊢
    simp only [] at hs ⊢
    rw [if_neg (by push Not; constructor <;> linarith)] at hs ⊢
    cases hc : e.canWrite with
    | false => rw [hc] at hs; simp [EIO] at hs
    | true => simp [World.set]
  generalize (saveFreq e w i f).1 = w1 at hsave
  have hv : savedCorr cfg w1 i = (ofFile (toFile f), 0) := by
    unfold savedCorr
    rw [hp, hsave.1]
    rfl
  have hnn := hn
  rw [abs_le] at hnn
  unfold loadFreq
  rw [hv, hsave.2]
  simp only []
  rw [if_neg (by push Not; constructor <;> linarith)]
  refine ⟨rfl, ?_⟩
  rw [(adjustFreq_tuned cfg e' (keepCorr w1 i (ofFile (toFile f))) i (ofFile (toFile f))).2]
  simp only [keepCorr, World.set, if_true]
  exact hn

example : check (history plain [(.rescan [eth0], {})])
    (fun w => decide ((saveFreq {} w 1 (123456789 / 1000)).2 = 0) &&
      decide (((loadFreq plain {} (saveFreq {} w 1 (123456789 / 1000)).1 1).1.clk 1).corr
        = 123456789 / 1000)) = true := by
  decide +kernel

end Verif.Clock
