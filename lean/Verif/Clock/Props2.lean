import Verif.Clock.Facts
import Verif.Clock.Props

set_option linter.unusedSimpArgs false
set_option linter.unusedVariables false

/-!
# Clocks: comparing, setting and stepping (C142-C144, C150)
-/

namespace Verif.Clock

/-! ## C142 -/

/-- C142, as it should be: when setting one clock to another succeeds they agree, if the
comparisons are accurate. -/
def C142_statement : Prop :=
  ∀ (cfg : Cfg) (e : Env) (w w' : World) (dst src : Nat), Usual cfg → Reach cfg w →
    dst ∈ w.ids → src ∈ w.ids → Accurate e w → e.errno ≠ 0 →
    setTime cfg e w dst src none false = .ok (w', 0) → Close (w'.time dst) (w'.time src)

/-- The comparisons that tell the truth. -/
def honest (w : World) : Env :=
  { diff1 := fun i => .ok (w.time i - w.time 0), diff2 := fun i => .ok (w.time i - w.time 0) }

theorem honest_accurate (w : World) : Accurate (honest w) w := fun _ => ⟨rfl, rfl⟩

/-- C142 does not hold: setting a read-only clock, or one that is blocked, "succeeds". -/
theorem C142_violated : ¬ C142_statement := by
  intro hs
  obtain ⟨w, hw, hp⟩ := witness (r := history careful [(.link [eth0] (some eth0), {}),
      (.hw (fun i => if i = 1 then second else 0), {})])
    (p := fun w => decide (0 ∈ w.ids) && decide (1 ∈ w.ids) &&
      check (setTime careful (honest w) w 1 0 none false)
        (fun r => decide (r.2 = 0) && decide (¬ Close (r.1.time 1) (r.1.time 0))))
    (by decide +kernel)
  simp only [Bool.and_eq_true, decide_eq_true_eq] at hp
  obtain ⟨⟨h0, h1⟩, h2⟩ := hp
  obtain ⟨⟨w', rc⟩, hw', hp'⟩ := witness h2
  simp only [Bool.and_eq_true, decide_eq_true_eq] at hp'
  obtain ⟨rfl, hp'⟩ := hp'
  exact hp' (hs careful (honest w) w w' 1 0 careful_usual (history_reach hw) h1 h0
    (honest_accurate w) (by simp [honest]) hw')

theorem close_refl (a : Int) : Close a a := by
  unfold Close nanosecond; constructor <;> omega

/-- C142, the part that holds: for a clock that may be written; and the others are left as
they are. -/
theorem C142_partial (cfg : Cfg) (hu : Usual cfg) (e : Env) (w w' : World) (dst src : Nat)
    (hr : Reach cfg w) (hd : dst ∈ w.ids) (hsrc : src ∈ w.ids) (ha : Accurate e w)
    (hen : e.errno ≠ 0) (hro : (w.clk dst).readOnly = false) (hb : (w.clk dst).blocked ≤ 0)
    (h : setTime cfg e w dst src none false = .ok (w', 0)) :
    Close (w'.time dst) (w'.time src) ∧ ∀ j, j ≠ dst → w'.time j = w.time j := by
  have hg := hr.good hu
  unfold setTime at h
  simp only [Bool.false_eq_true, false_and, or_false] at h
  split at h
  · rename_i heq
    simp only [Except.ok.injEq, Prod.mk.injEq, and_true] at h
    rw [← h, heq]
    exact ⟨close_refl _, fun _ _ => rfl⟩
  · rename_i hne
    have hc := compare_counted e w src dst
    have hx := compare_exact hg ha hsrc hd
    generalize hcmp : compare e w src dst = r at h hc hx
    obtain ⟨w1, rc, d⟩ := r
    simp only [Prod.mk.injEq] at h hc hx
    split at hx
    · simp only [Prod.mk.injEq] at hx
      rw [hx.1] at h
      simp [ENOENT] at h
    · split at hx
      · simp only [Prod.mk.injEq] at hx
        rw [hx.1] at h
        simp [ENOSYS] at h
      · simp only [Prod.mk.injEq] at hx
        obtain ⟨rfl, rfl⟩ := hx
        simp only [Option.isNone_none, true_or, and_true, if_true, and_false, if_false] at h
        split at h
        · exact absurd h (by simp)
        · rename_i w2 rc2 hadj
          simp only [Except.ok.injEq, Prod.mk.injEq] at h
          obtain ⟨rfl, rfl⟩ := h
          rcases adjustTime_cases hadj with ⟨-, h1 | ⟨-, h1⟩⟩ | ⟨-, -, -, -, -, h1⟩
          · simp [ENODEV] at h1
          · rw [hc.ro, hro, hc.bl] at h1
            simp only [Bool.false_eq_true, false_or] at h1
            omega
          · rcases h1 with ⟨-, h1, -⟩ | ⟨-, -, h1, -⟩
            · exact absurd h1.symm hen
            · simp only [] at h1
              rw [h1, hc.time]
              have hne' : ¬ src = dst := fun h => hne h.symm
              refine ⟨?_, fun j hj => if_neg hj⟩
              simp only [if_true, if_neg hne']
              unfold Close nanosecond
              constructor <;> omega

/-- An adapter 5.25 ns ahead is set to within a fraction of a nanosecond. -/
example : check (history plain [(.link [eth0] (some eth0), {}),
      (.hw (fun i => if i = 1 then 21 * 2 ^ 30 else 0), {})])
    (fun w => decide ((w.clk 1).readOnly = false) && decide ((w.clk 1).blocked ≤ 0) &&
      check (setTime plain (honest w) w 1 0 none false)
        (fun r => decide (r.2 = 0) && decide (r.1.time 1 = -3 * 2 ^ 30) &&
          decide (Close (r.1.time 1) (r.1.time 0)))) = true := by
  decide +kernel

/-! ## C143 -/

/-- Both clocks can be compared and the first one may be written. -/
structure Settable (w : World) (dst src : Nat) : Prop where
  inDst : dst ∈ w.ids
  inSrc : src ∈ w.ids
  ne : dst ≠ src
  here : (w.clk dst).deleted = false ∧ (w.clk src).deleted = false
  phc : ∀ i ∈ w.ids, i ≠ 0 → (w.clk i).phc.isSome = true
  free : (w.clk dst).readOnly = false ∧ (w.clk dst).blocked ≤ 0

/-- Setting a clock moves it. -/
def Stepped (w w' : World) (dst : Nat) : Prop :=
  ∃ ns st, w'.writes = w.writes ++ [.step dst ns st]

/-- C143, as it should be: with a threshold the clock is set when the difference is no less
than the threshold. -/
def C143_statement : Prop :=
  ∀ (cfg : Cfg) (e : Env) (w w' : World) (dst src : Nat) (thr : Int) (rc : Nat), Usual cfg →
    Reach cfg w → Settable w dst src → Accurate e w →
    setTime cfg e w dst src (some thr) false = .ok (w', rc) →
    (Stepped w w' dst ↔ thr ≤ |w.time src - w.time dst|)

theorem Settable.noPhc {cfg : Cfg} {w : World} {d s : Nat} (hg : Good cfg w)
    (h : Settable w d s) : ∀ i ∈ w.ids, Verif.Clock.noPhc (w.clk i) = false := by
  intro i hi
  unfold Verif.Clock.noPhc
  by_cases h0 : i = 0
  · rw [h0, hg.kind0]; rfl
  · have := h.phc i hi h0
    rw [Option.isNone_eq_false_iff.mpr this, Bool.and_false]

/-- What setting with a threshold does. -/
theorem setTime_threshold {cfg : Cfg} {e : Env} {w w' : World} {dst src : Nat} {thr : Int}
    {rc : Nat} (hg : Good cfg w) (hs : Settable w dst src) (ha : Accurate e w)
    (h : setTime cfg e w dst src (some thr) false = .ok (w', rc)) :
    (thr ≤ w.time src - w.time dst →
      ∃ st, w'.writes = w.writes ++ [.step dst ((w.time src - w.time dst) / 4294967296) st]) ∧
    (¬ thr ≤ w.time src - w.time dst → w'.writes = w.writes ∧ w'.time = w.time) := by
  unfold setTime at h
  simp only [Bool.false_eq_true, false_and, or_false, if_neg hs.ne] at h
  have hc := compare_counted e w src dst
  have hx := compare_exact hg ha hs.inSrc hs.inDst
  rw [if_neg (by rw [hs.here.1, hs.here.2]; simp),
    if_neg (by rw [hs.noPhc hg _ hs.inDst, hs.noPhc hg _ hs.inSrc]; simp)] at hx
  generalize hcmp : compare e w src dst = r at h hc hx
  obtain ⟨w1, rc1, d⟩ := r
  simp only [Prod.mk.injEq] at h hc hx
  obtain ⟨rfl, rfl⟩ := hx
  simp only [Option.isNone_some, Bool.false_eq_true, false_or, Option.getD_some, true_and,
    and_false, if_false] at h
  split at h
  · rename_i hle
    refine ⟨fun _ => ?_, fun hn => absurd hle hn⟩
    split at h
    · exact absurd h (by simp)
    · rename_i w2 rc2 hadj
      simp only [Except.ok.injEq, Prod.mk.injEq] at h
      obtain ⟨rfl, rfl⟩ := h
      rcases adjustTime_cases hadj with ⟨-, h1 | ⟨-, h1⟩⟩ | ⟨-, -, -, h1, -⟩
      · rw [hc.noPhc, hs.noPhc hg _ hs.inDst] at h1
        exact absurd h1.2 (by simp)
      · rw [hc.ro, hs.free.1, hc.bl] at h1
        have := hs.free.2
        simp only [Bool.false_eq_true, false_or] at h1
        omega
      · simp only [] at h1
        rw [h1, hc.writes]
        exact ⟨_, rfl⟩
  · rename_i hle
    refine ⟨fun hp => absurd hp hle, fun _ => ?_⟩
    simp only [Except.ok.injEq, Prod.mk.injEq] at h
    rw [← h.1]
    exact ⟨hc.writes, hc.time⟩

/-- C143 does not hold: the difference is taken with its sign, so a clock that is ahead by any
amount is not set back.  (No caller in the program gives a threshold.) -/
theorem C143_violated : ¬ C143_statement := by
  intro hs
  obtain ⟨w, hw, hp⟩ := witness (r := history plain [(.link [eth0] (some eth0), {}),
      (.hw (fun i => if i = 1 then second else 0), {})])
    (p := fun w => decide (w.ids = [1, 0]) && decide ((w.clk 1).deleted = false) &&
      decide ((w.clk 0).deleted = false) && (w.clk 1).phc.isSome &&
      decide ((w.clk 1).readOnly = false) && decide ((w.clk 1).blocked ≤ 0) &&
      decide (w.time 1 = second) && decide (w.time 0 = 0) &&
      check (setTime plain (honest w) w 1 0 (some 1000) false)
        (fun r => decide (r.1.writes = w.writes)))
    (by decide +kernel)
  simp only [Bool.and_eq_true, decide_eq_true_eq] at hp
  obtain ⟨⟨⟨⟨⟨⟨⟨⟨h1, h2⟩, h3⟩, h4⟩, h5⟩, h6⟩, h7⟩, h8⟩, h9⟩ := hp
  obtain ⟨⟨w', rc⟩, hw', hp'⟩ := witness h9
  simp only [decide_eq_true_eq] at hp'
  have hset : Settable w 1 0 := by
    refine ⟨by rw [h1]; simp, by rw [h1]; simp, by simp, ⟨h2, h3⟩, ?_, ⟨h5, h6⟩⟩
    intro i hi h0
    rw [h1] at hi
    simp only [List.mem_cons, List.not_mem_nil, or_false, h0] at hi
    rw [hi]; exact h4
  have := (hs plain (honest w) w w' 1 0 1000 rc plain_usual (history_reach hw) hset
    (honest_accurate w) hw').mpr (by rw [h7, h8]; decide +kernel)
  obtain ⟨ns, st, hx⟩ := this
  rw [hp'] at hx
  simp at hx

/-- C143, the part that holds: the clock is set when it is behind by no less than the
threshold. -/
theorem C143_partial (cfg : Cfg) (hu : Usual cfg) (e : Env) (w w' : World) (dst src : Nat)
    (thr : Int) (rc : Nat) (hr : Reach cfg w) (hs : Settable w dst src) (ha : Accurate e w)
    (h : setTime cfg e w dst src (some thr) false = .ok (w', rc)) :
    Stepped w w' dst ↔ thr ≤ w.time src - w.time dst := by
  obtain ⟨h1, h2⟩ := setTime_threshold (hr.good hu) hs ha h
  constructor
  · rintro ⟨ns, st, hx⟩
    by_contra hn
    rw [(h2 hn).1] at hx
    simp at hx
  · intro hle
    obtain ⟨st, hx⟩ := h1 hle
    exact ⟨_, st, hx⟩

/-- An adapter a second behind is stepped by a second. -/
example : check (history plain [(.link [eth0] (some eth0), {}),
      (.hw (fun i => if i = 1 then -second else 0), {})])
    (fun w => check (setTime plain (honest w) w 1 0 (some 1000) false)
        (fun r => decide (r.1.writes = w.writes ++ [.step 1 1000000000 none]))) = true := by
  decide +kernel

/-! ## C144 -/

/-- C144, as it should be: stepping a clock never ends the program. -/
def C144_statement : Prop :=
  ∀ (cfg : Cfg) (e : Env) (w : World) (i : Nat) (off : Int), Usual cfg → Reach cfg w →
    i ∈ w.ids → ∃ r, adjustTime cfg e w i off = .ok r

/-- C144 does not hold: once the interface of any NIC clock has gone away, the next step of any
clock fails the assertion in `sfptpd_phc_record_step`. -/
theorem C144_violated : ¬ C144_statement := by
  intro hs
  obtain ⟨w, hw, hp⟩ := witness (r := history plain [(.link [eth0] (some eth0), {}),
      (.rescan [], {})])
    (p := fun w => decide (0 ∈ w.ids) &&
      !check (adjustTime plain {} w 0 second) (fun _ => true)) (by decide +kernel)
  simp only [Bool.and_eq_true, decide_eq_true_eq, Bool.not_eq_true'] at hp
  obtain ⟨r, hr⟩ := hs plain {} w 0 second plain_usual (history_reach hw) hp.1
  rw [hr] at hp
  exact absurd hp.2 (by simp [check])

/-- C144, the part that holds: the program is aborted exactly when the step is made while some
NIC clock has no PHC. -/
theorem C144_partial (cfg : Cfg) (e : Env) (w : World) (i : Nat) (off : Int) :
    (∀ r, adjustTime cfg e w i off ≠ .ok r) ↔
      ((w.clk i).kind = .system ∨ (w.clk i).phc.isSome = true) ∧ (w.clk i).readOnly = false ∧
      (w.clk i).blocked ≤ 0 ∧ 0 ≤ e.adjT i ∧
      ∃ j ∈ w.ids, (w.clk j).kind ≠ .system ∧ (w.clk j).phc = none := by
  have hno : ∀ j, noPhc (w.clk j) = true ↔ (w.clk j).kind ≠ .system ∧ (w.clk j).phc = none := by
    intro j; simp [noPhc]
  have hyes : noPhc (w.clk i) = false ↔
      (w.clk i).kind = .system ∨ (w.clk i).phc.isSome = true := by
    unfold noPhc
    cases (w.clk i).phc <;> simp
  have ha := adjustTime_aborts cfg e w i off .assertion
  have key : (∀ r, adjustTime cfg e w i off ≠ .ok r) ↔
      adjustTime cfg e w i off = .error .assertion := by
    cases hr : adjustTime cfg e w i off with
    | ok r => simp
    | error f =>
      have := (adjustTime_aborts cfg e w i off f).mp hr
      rw [this.1]
      simp
  rw [key, ha, hyes]
  simp only [true_and, hno]

/-- Without any scan of the interfaces the clocks keep their PHCs. -/
structure Held (w w' : World) : Prop where
  ids : w'.ids = w.ids
  kind : ∀ j, (w'.clk j).kind = (w.clk j).kind
  phc : ∀ j, (w'.clk j).phc = (w.clk j).phc

theorem Held.refl (w : World) : Held w w := ⟨rfl, fun _ => rfl, fun _ => rfl⟩

theorem Held.trans {a b c : World} (x : Held a b) (y : Held b c) : Held a c :=
  ⟨by rw [y.ids, x.ids], fun j => by rw [y.kind, x.kind], fun j => by rw [y.phc, x.phc]⟩

theorem Held.set (w : World) (i : Nat) (c : Clk) (h1 : c.kind = (w.clk i).kind)
    (h2 : c.phc = (w.clk i).phc) : Held w (w.set i c) := by
  refine ⟨rfl, fun j => ?_, fun j => ?_⟩ <;> simp only [World.set] <;>
    by_cases h : j = i
  · rw [if_pos h, h, h1]
  · rw [if_neg h]
  · rw [if_pos h, h, h2]
  · rw [if_neg h]

/-- Every NIC clock has a PHC. -/
def Equipped (w : World) : Prop :=
  ∀ j ∈ w.ids, (w.clk j).kind = .system ∨ (w.clk j).phc.isSome = true

theorem Held.equipped {w w' : World} (h : Held w w') (hq : Equipped w) : Equipped w' := by
  intro j hj
  rw [h.ids] at hj
  rw [h.kind, h.phc]
  exact hq j hj

/-- The operation does not abort and keeps the PHCs. -/
def Safe (w : World) (r : Except Fault World) : Prop := ∃ w', r = .ok w' ∧ Held w w'

theorem Counted.held {w w' : World} (h : Counted w w') : Held w w' :=
  ⟨h.ids, fun j => by rw [h.clk j], fun j => by rw [h.clk j]⟩

theorem adjustTime_safe (cfg : Cfg) (e : Env) {w : World} (i : Nat) (off : Int)
    (hq : Equipped w) : ∃ r, adjustTime cfg e w i off = .ok r ∧ Held w r.1 := by
  cases h : adjustTime cfg e w i off with
  | error f =>
    obtain ⟨-, -, -, -, -, j, hj, hn⟩ := (adjustTime_aborts cfg e w i off f).mp h
    rcases hq j hj with h1 | h1
    · simp [noPhc, h1] at hn
    · unfold noPhc at hn
      rw [Option.isNone_eq_false_iff.mpr h1, Bool.and_false] at hn
      exact absurd hn (by simp)
  | ok r =>
    refine ⟨r, rfl, ?_⟩
    rcases adjustTime_cases h with ⟨h1, -⟩ | ⟨-, -, -, -, h1, h2⟩
    · rw [h1]; exact Held.refl w
    · rcases h2 with ⟨-, -, -, h2⟩ | ⟨-, -, -, h2⟩
      · exact ⟨h1, fun j => by rw [h2], fun j => by rw [h2]⟩
      · exact ⟨h1, fun j => by rw [h2], fun j => by rw [h2]⟩

theorem adjustFreq_held (cfg : Cfg) (e : Env) (w : World) (i : Nat) (f : Rat) :
    Held w (adjustFreq cfg e w i f).1 := by
  unfold adjustFreq
  split
  · exact Held.refl w
  · split
    · exact Held.refl w
    · split
      · exact Held.refl w
      · exact ⟨rfl, fun _ => rfl, fun _ => rfl⟩

theorem loadFreq_held (cfg : Cfg) (e : Env) (w : World) (i : Nat) :
    Held w (loadFreq cfg e w i).1 := by
  unfold loadFreq
  simp only []
  split
  · refine Held.trans (b := rejectCorr w i) ?_ (adjustFreq_held cfg e _ i 0)
    have := Held.set w i { w.clk i with corr := 0 } rfl rfl
    exact ⟨rfl, this.kind, this.phc⟩
  · exact Held.trans (b := keepCorr w i (savedCorr cfg w i).1) (Held.set w i _ rfl rfl)
      (adjustFreq_held cfg e _ i _)

theorem setTime_safe (cfg : Cfg) (e : Env) {w : World} (dst src : Nat) (thr : Option Int)
    (ini : Bool) (hq : Equipped w) :
    ∃ r, setTime cfg e w dst src thr ini = .ok r ∧ Held w r.1 := by
  unfold setTime
  split
  · exact ⟨_, rfl, Held.refl w⟩
  · have hc := (compare_counted e w src dst).held
    simp only []
    split
    · obtain ⟨r, hr, hh⟩ := adjustTime_safe cfg e dst (compare e w src dst).2.2 (hc.equipped hq)
      rw [hr]
      obtain ⟨w2, rc⟩ := r
      simp only []
      split
      · exact ⟨_, rfl, hc.trans (hh.trans (Held.set _ _ _ rfl rfl))⟩
      · exact ⟨_, rfl, hc.trans hh⟩
    · exact ⟨_, rfl, hc⟩

theorem correctNew_safe (cfg : Cfg) (e : Env) {w : World} (i : Nat) (hq : Equipped w) :
    Safe w (correctNew cfg e w i) := by
  have hl := loadFreq_held cfg e w i
  unfold correctNew
  simp only []
  split
  · split
    · exact ⟨_, rfl, hl⟩
    · split
      · obtain ⟨r, hr, hh⟩ := setTime_safe cfg e i 0 none true (hl.equipped hq)
        rw [hr]
        exact ⟨_, rfl, hl.trans hh⟩
      · exact ⟨_, rfl, hl⟩
  · exact ⟨_, rfl, hl⟩

theorem leapAll_safe (cfg : Cfg) (e : Env) (off : Int) : ∀ (is : List Nat) {w : World},
    Equipped w → Safe w (leapAll cfg e off is w)
  | [], w, hq => ⟨w, rfl, Held.refl w⟩
  | i :: is, w, hq => by
    have h1 : ∃ w1, leapOne cfg e off w i = .ok w1 ∧ Held w w1 := by
      unfold leapOne
      split
      · obtain ⟨r, hr, hh⟩ := adjustTime_safe cfg e i off hq
        rw [hr]
        exact ⟨_, rfl, hh⟩
      · exact ⟨w, rfl, Held.refl w⟩
    obtain ⟨w1, e1, hh⟩ := h1
    obtain ⟨w2, e2, hh2⟩ := leapAll_safe cfg e off is (hh.equipped hq)
    exact ⟨w2, by simp only [leapAll, e1, e2], hh.trans hh2⟩

theorem configReadonly_held (i : Nat) : ∀ (ns : List String) (w : World),
    Held w (configReadonly w i ns)
  | [], w => Held.refl w
  | n :: ns, w => by
    unfold configReadonly
    refine Held.trans ?_ (configReadonly_held i ns _)
    split
    · exact Held.set w i _ rfl rfl
    · exact Held.refl w

theorem configAll_held (cfg : Cfg) (i : Nat) : ∀ (ns : List String) (w : World) (rc : Nat),
    Held w (configAll cfg w i rc ns).1
  | [], w, rc => Held.refl w
  | n :: ns, w, rc => by
    unfold configAll
    refine Held.trans ?_ (configAll_held cfg i ns _ _)
    unfold configList
    split
    · split
      · exact Held.refl w
      · split
        · exact Held.refl w
        · exact Held.set w i _ rfl rfl
    · exact Held.refl w

theorem fixupAll_safe (cfg : Cfg) (e : Env) : ∀ (is : List Nat) {w : World},
    Equipped w → Safe w (fixupAll cfg e is w)
  | [], w, hq => ⟨w, rfl, Held.refl w⟩
  | i :: is, w, hq => by
    unfold fixupAll
    split
    · exact fixupAll_safe cfg e is hq
    · have h1 := (configReadonly_held i cfg.readonlyNames w).trans
        (configAll_held cfg i cfg.listNames _ 0)
      obtain ⟨w1, e1, h2⟩ := correctNew_safe cfg e i (h1.equipped hq)
      obtain ⟨w2, e2, h3⟩ := fixupAll_safe cfg e is ((h1.trans h2).equipped hq)
      exact ⟨w2, by simp only [fixupClock, e1, e2], h1.trans (h2.trans h3)⟩

/-- An operation that looks at the interfaces again. -/
def Op.scans : Op → Bool
  | .rescan _ => true
  | .link _ _ => true
  | _ => false

theorem execOp_safe (cfg : Cfg) (e : Env) {w : World} (o : Op) (hq : Equipped w)
    (ho : o.scans = false) : Safe w (execOp cfg e w o) := by
  cases o with
  | adjTime i off =>
    obtain ⟨r, hr, hh⟩ := adjustTime_safe cfg e i off hq
    simp only [execOp, hr]; exact ⟨_, rfl, hh⟩
  | adjFreq i f => exact ⟨_, rfl, adjustFreq_held cfg e w i f⟩
  | setTime d s t n =>
    obtain ⟨r, hr, hh⟩ := setTime_safe cfg e d s t n hq
    simp only [execOp, hr]; exact ⟨_, rfl, hh⟩
  | compare a b => exact ⟨_, rfl, (compare_counted e w a b).held⟩
  | block i b => exact ⟨_, rfl, Held.set w i _ rfl rfl⟩
  | leapSchedule t =>
    refine ⟨_, rfl, ?_⟩
    unfold scheduleLeap
    split
    · exact Held.refl w
    · exact ⟨rfl, fun _ => rfl, fun _ => rfl⟩
  | leapNow t =>
    simp only [execOp, Verif.Clock.leapNow]
    cases t with
    | none => exact ⟨_, rfl, Held.refl w⟩
    | del59 =>
      obtain ⟨w1, e1, h1⟩ := leapAll_safe cfg e second w.ids hq
      simp only [e1]; exact ⟨_, rfl, h1⟩
    | ins61 =>
      obtain ⟨w1, e1, h1⟩ := leapAll_safe cfg e (-second) w.ids hq
      simp only [e1]; exact ⟨_, rfl, h1⟩
  | sync i b t =>
    refine ⟨_, rfl, ?_⟩
    unfold setSync
    split
    · exact Held.refl w
    · split
      · exact ⟨rfl, fun _ => rfl, fun _ => rfl⟩
      · split
        · exact Held.refl w
        · split
          · exact Held.refl w
          · simp only []
            split
            · exact Held.trans (b := w.log (.sync i b t)) ⟨rfl, fun _ => rfl, fun _ => rfl⟩
                (Held.set _ i _ rfl rfl)
            · exact ⟨rfl, fun _ => rfl, fun _ => rfl⟩
  | load i => exact ⟨_, rfl, loadFreq_held cfg e w i⟩
  | save i f =>
    refine ⟨_, rfl, ?_⟩
    unfold saveFreq
    simp only []
    split
    · exact Held.refl w
    · cases e.canWrite
      · exact Held.set w i _ rfl rfl
      · have := Held.set w i { w.clk i with corr := f } rfl rfl
        exact ⟨rfl, this.kind, this.phc⟩
  | rescan ifs => exact absurd ho (by simp [Op.scans])
  | link ifs f => exact absurd ho (by simp [Op.scans])
  | fixup => exact fixupAll_safe cfg e w.ids hq
  | hw t => exact ⟨_, rfl, ⟨rfl, fun _ => rfl, fun _ => rfl⟩⟩

/-- C144, the part that holds: while the interfaces stay as they are and every NIC clock has its
PHC, nothing that the program does with its clocks aborts it. -/
theorem C144_run_partial (cfg : Cfg) : ∀ (os : List (Op × Env)) (w : World), Equipped w →
    (∀ p ∈ os, p.1.scans = false ∧ ∀ i ∈ p.1.uses, i ∈ w.ids) →
    ∃ w', run cfg w os = .ok w' ∧ Equipped w'
  | [], w, hq, _ => ⟨w, rfl, hq⟩
  | (o, e) :: os, w, hq, hall => by
    obtain ⟨h1, h2⟩ := hall (o, e) (by simp)
    obtain ⟨w1, e1, hh⟩ := execOp_safe cfg e o hq h1
    obtain ⟨w', e2, hq'⟩ := C144_run_partial cfg os w1 (hh.equipped hq) (fun p hp => by
      rw [hh.ids]
      exact hall p (List.mem_cons_of_mem _ hp))
    refine ⟨w', ?_, hq'⟩
    have : exec cfg e w o = .ok w1 := by
      unfold exec
      rw [if_pos (by simpa using h2), e1]
    simp only [run, this, e2]

example : check (history plain [(.link [eth0] (some eth0), {})])
    (fun w => decide (w.ids = [1, 0]) && (w.clk 1).phc.isSome &&
      check (run plain w [(.adjTime 0 second, {}), (.leapNow .ins61, {}), (.fixup, {})])
        (fun w' => decide (w'.time 0 = second) && decide (w'.time 1 = -second))) = true := by
  decide +kernel

/-! ## C150 -/

/-- C150.  A comparison of two clocks that are there gives exactly their difference, and the
other way round its negative; nothing is written and no clock is moved. -/
theorem C150_compare (cfg : Cfg) (hu : Usual cfg) (e : Env) (w : World) (a b : Nat)
    (hr : Reach cfg w) (ia : a ∈ w.ids) (ib : b ∈ w.ids) (ha : Accurate e w) :
    ((compare e w a b).2.1 = 0 ↔
      ((w.clk a).deleted = false ∧ (a = 0 ∨ (w.clk a).phc.isSome = true)) ∧
      ((w.clk b).deleted = false ∧ (b = 0 ∨ (w.clk b).phc.isSome = true))) ∧
    ((compare e w a b).2.1 = 0 →
      (compare e w a b).2.2 = w.time a - w.time b ∧
      (compare e w b a).2 = (0, -(compare e w a b).2.2)) ∧
    (compare e w a b).1.writes = w.writes ∧ (compare e w a b).1.time = w.time ∧
    (compare e w a b).1.files = w.files := by
  have hg := hr.good hu
  have hc := compare_counted e w a b
  have hx := compare_exact hg ha ia ib
  have hy := compare_exact hg ha ib ia
  have hno : ∀ i ∈ w.ids, noPhc (w.clk i) = true ↔ ¬ (i = 0 ∨ (w.clk i).phc.isSome = true) := by
    intro i hi
    unfold noPhc
    by_cases h0 : i = 0
    · rw [h0, hg.kind0]; simp
    · have := hg.nic i hi h0
      cases (w.clk i).phc <;> simp [this, h0]
  have na := hno a ia
  have nb := hno b ib
  refine ⟨?_, ?_, hc.writes, hc.time, hc.files⟩
  · rw [hx]
    by_cases h1 : (w.clk a).deleted = true ∨ (w.clk b).deleted = true
    · rw [if_pos h1]
      simp only [ENOENT, OfNat.ofNat_ne_zero, false_iff]
      rcases h1 with h1 | h1 <;> rw [h1] <;> simp
    · rw [if_neg h1]
      by_cases h2 : noPhc (w.clk a) = true ∨ noPhc (w.clk b) = true
      · rw [if_pos h2]
        simp only [ENOSYS, OfNat.ofNat_ne_zero, false_iff]
        tauto
      · rw [if_neg h2]
        simp only [true_iff]
        simp only [not_or, Bool.not_eq_true] at h1
        tauto
  · intro h0
    rw [hx] at h0 ⊢
    by_cases h1 : (w.clk a).deleted = true ∨ (w.clk b).deleted = true
    · rw [if_pos h1] at h0; simp [ENOENT] at h0
    · rw [if_neg h1] at h0 ⊢
      rw [if_neg (by tauto)] at hy
      by_cases h2 : noPhc (w.clk a) = true ∨ noPhc (w.clk b) = true
      · rw [if_pos h2] at h0; simp [ENOSYS] at h0
      · rw [if_neg h2]
        rw [if_neg (by tauto)] at hy
        refine ⟨rfl, ?_⟩
        rw [hy]
        simp only [Prod.mk.injEq, true_and]
        omega

example : check (history plain [(.link [eth0] (some eth0), {}),
      (.hw (fun i => if i = 1 then 12345 else -7), {})])
    (fun w => decide ((compare (honest w) w 1 0).2 = (0, 12352)) &&
      decide ((compare (honest w) w 0 1).2 = (0, -12352))) = true := by
  decide +kernel

end Verif.Clock
