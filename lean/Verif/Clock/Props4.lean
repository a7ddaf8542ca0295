import Verif.Clock.Props3

set_option linter.unusedSimpArgs false
set_option linter.unusedVariables false

/-!
# Clocks: configuration and interfaces (C152-C157)
-/

namespace Verif.Clock

/-! ## C152 -/

/-- A name of the configuration means clock `i`: it is one of the names of the clock, or that of
an interface whose device is the clock. -/
def Named (w : World) (i : Nat) (n : String) : Prop :=
  n ∈ (w.clk i).names ∨
    i ≠ 0 ∧ (w.clk i).kind ≠ .system ∧ ∃ f ∈ w.ifs, f.phcIdx = (w.clk i).devIdx ∧ f.name = n

/-- The program is not told to leave clocks of this make alone. -/
def Ours (cfg : Cfg) (c : Clk) : Prop := c.kind = .nonSfc → cfg.nonSfc = true

theorem inConfig_iff (w : World) (i : Nat) (n : String) :
    inConfig w i n = true ↔ Named w i n := by
  unfold inConfig Named
  simp [and_assoc]

/-- A change of the flags of clock `i`. -/
def flagged (w : World) (i : Nat) (d r : Bool) : World :=
  w.set i { w.clk i with discipline := d, readOnly := r }

theorem flagged_named (w : World) (i : Nat) (d r : Bool) (n : String) :
    Named (flagged w i d r) i n ↔ Named w i n := by
  unfold Named flagged
  simp [World.set]

theorem flagged_self (w : World) (i : Nat) :
    flagged w i (w.clk i).discipline (w.clk i).readOnly = w := by
  unfold flagged World.set
  cases w
  simp only [World.mk.injEq, true_and, and_true]
  funext j
  by_cases h : j = i
  · rw [if_pos h, h]
  · rw [if_neg h]

theorem flagged_flagged (w : World) (i : Nat) (d r d' r' : Bool) :
    flagged (flagged w i d r) i d' r' = flagged w i d' r' := by
  unfold flagged World.set
  simp only [World.mk.injEq, true_and, and_true]
  funext j
  by_cases h : j = i
  · simp [h]
  · simp [h]

open Classical in
theorem configReadonly_eq (i : Nat) : ∀ (ns : List String) (w : World),
    configReadonly w i ns = if ∃ n ∈ ns, Named w i n then flagged w i false true else w
  | [], w => by simp [configReadonly]
  | n :: ns, w => by
    unfold configReadonly
    rw [configReadonly_eq i ns]
    by_cases h : inConfig w i n = true
    · have hn := (inConfig_iff w i n).mp h
      rw [if_pos h]
      have hf : w.set i { w.clk i with discipline := false, readOnly := true } =
          flagged w i false true := rfl
      rw [hf, if_pos (show ∃ m ∈ n :: ns, Named w i m from ⟨n, by simp, hn⟩)]
      by_cases h2 : ∃ m ∈ ns, Named (flagged w i false true) i m
      · rw [if_pos h2, flagged_flagged]
      · rw [if_neg h2]
    · have hn : ¬ Named w i n := fun h' => h ((inConfig_iff w i n).mpr h')
      rw [if_neg h]
      by_cases h2 : ∃ m ∈ ns, Named w i m
      · obtain ⟨m, hm, hm2⟩ := h2
        rw [if_pos ⟨m, hm, hm2⟩, if_pos ⟨m, List.mem_cons_of_mem _ hm, hm2⟩]
      · rw [if_neg h2, if_neg]
        rintro ⟨m, hm, hm2⟩
        rcases List.mem_cons.mp hm with rfl | hm'
        · exact hn hm2
        · exact h2 ⟨m, hm', hm2⟩

open Classical in
theorem configList_eq (cfg : Cfg) (w : World) (i : Nat) (n : String)
    (hr : (w.clk i).readOnly = false) :
    configList cfg w i n =
      if Named w i n then
        if (w.clk i).discipline = true then (w, 0)
        else if Ours cfg (w.clk i) then (flagged w i true false, 0) else (w, EINVAL)
      else (w, 0) := by
  unfold configList
  rw [hr]
  by_cases h : Named w i n
  · rw [if_pos h, if_pos ⟨rfl, (inConfig_iff w i n).mpr h⟩]
    by_cases hd : (w.clk i).discipline = true
    · rw [if_pos hd, if_pos hd]
    · rw [if_neg hd, if_neg hd]
      by_cases ho : Ours cfg (w.clk i)
      · rw [if_pos ho, if_neg (by
          rintro ⟨h1, h2⟩
          rw [ho h1] at h2; exact absurd h2 (by simp))]
        unfold flagged
        simp only [Prod.mk.injEq, and_true]
        congr 1
        simp [← hr]
      · rw [if_neg ho, if_pos]
        unfold Ours at ho
        push Not at ho
        exact ⟨ho.1, by simpa using ho.2⟩
  · rw [if_neg h, if_neg (by
      rintro ⟨-, h2⟩
      exact h ((inConfig_iff w i n).mp h2))]

open Classical in
/-- The flag of the clock after the whole list. -/
theorem configAll_eq (cfg : Cfg) (i : Nat) : ∀ (ns : List String) (w : World) (rc : Nat),
    (w.clk i).readOnly = false → (configAll cfg w i rc ns).1 =
      if Ours cfg (w.clk i) ∧ (∃ n ∈ ns, Named w i n) then flagged w i true false else w
  | [], w, rc, hr => by simp [configAll]
  | n :: ns, w, rc, hr => by
    unfold configAll
    rw [configList_eq cfg w i n hr]
    have hself := flagged_self w i
    rw [hr] at hself
    by_cases h : Named w i n
    · rw [if_pos h]
      have hex : ∃ m ∈ n :: ns, Named w i m := ⟨n, by simp, h⟩
      by_cases hd : (w.clk i).discipline = true
      · rw [if_pos hd, configAll_eq cfg i ns w 0 hr]
        rw [hd] at hself
        rw [hself]
        simp
      · rw [if_neg hd]
        by_cases ho : Ours cfg (w.clk i)
        · rw [if_pos ho, if_pos ⟨ho, hex⟩]
          have hr2 : ((flagged w i true false).clk i).readOnly = false := by
            simp [flagged, World.set]
          rw [configAll_eq cfg i ns _ 0 hr2]
          split
          · rw [flagged_flagged]
          · rfl
        · rw [if_neg ho, configAll_eq cfg i ns w _ hr]
          rw [if_neg (by tauto), if_neg (by tauto)]
    · rw [if_neg h, configAll_eq cfg i ns w 0 hr]
      have : (∃ m ∈ n :: ns, Named w i m) ↔ ∃ m ∈ ns, Named w i m := by
        constructor
        · rintro ⟨m, hm, hm2⟩
          rcases List.mem_cons.mp hm with rfl | hm'
          · exact absurd hm2 h
          · exact ⟨m, hm', hm2⟩
        · rintro ⟨m, hm, hm2⟩
          exact ⟨m, List.mem_cons_of_mem _ hm, hm2⟩
      simp only [this]

/-- C152.  After a new clock has been configured it is read-only exactly if clocks are not to be
adjusted or it is in the list of read-only clocks, and it is disciplined exactly if it is not
read-only, it is not of a make to be left alone, and all clocks are to be disciplined or it is in
the list of those that are. -/
theorem C152_configured (cfg : Cfg) (w : World) (i : Nat) (hd : (w.clk i).discipline = false) :
    (((configureNew cfg w i).1.clk i).readOnly = true ↔
      (w.clk i).readOnly = true ∨ ∃ n ∈ cfg.readonlyNames, Named w i n) ∧
    (((configureNew cfg w i).1.clk i).discipline = true ↔
      ¬ ((w.clk i).readOnly = true ∨ ∃ n ∈ cfg.readonlyNames, Named w i n) ∧
      Ours cfg (w.clk i) ∧
      (cfg.disciplineAll = true ∨ ∃ n ∈ cfg.listNames, Named w i n)) ∧
    ∀ j, j ≠ i → (configureNew cfg w i).1.clk j = w.clk j := by
  classical
  unfold configureNew
  simp only []
  rw [configReadonly_eq]
  by_cases hro : ∃ n ∈ cfg.readonlyNames, Named w i n
  · rw [if_pos hro]
    have hr : ((flagged w i false true).clk i).readOnly = true := by simp [flagged, World.set]
    have hd' : ((flagged w i false true).clk i).discipline = false := by simp [flagged, World.set]
    rw [if_pos hr]
    refine ⟨by simp [hr, hro], by simp only [hd']; simp [hro], fun j hj => ?_⟩
    simp [flagged, World.set, hj]
  · rw [if_neg hro]
    by_cases hr : (w.clk i).readOnly = true
    · rw [if_pos hr]
      exact ⟨by simp [hr], by simp [hd, hr], fun _ _ => rfl⟩
    · rw [if_neg hr]
      have hr' : (w.clk i).readOnly = false := by simpa using hr
      by_cases ha : cfg.disciplineAll = true
      · rw [if_pos ha]
        by_cases ho : Ours cfg (w.clk i)
        · rw [if_pos (by
            by_cases hk : (w.clk i).kind = .nonSfc
            · exact Or.inr (ho hk)
            · exact Or.inl hk)]
          refine ⟨by simp [World.set, hr', hro], by simp [World.set, hr', hro, ho, ha],
            fun j hj => by simp [World.set, hj]⟩
        · rw [if_neg (by unfold Ours at ho; push Not at ho ⊢; exact ⟨ho.1, ho.2⟩)]
          exact ⟨by simp [hr', hro], by simp [hd, ho], fun _ _ => rfl⟩
      · rw [if_neg ha]
        rw [configAll_eq cfg i _ w 0 hr']
        by_cases hl : Ours cfg (w.clk i) ∧ ∃ n ∈ cfg.listNames, Named w i n
        · rw [if_pos hl]
          refine ⟨by simp [flagged, World.set, hr', hro], ?_,
            fun j hj => by simp [flagged, World.set, hj]⟩
          simp only [flagged, World.set, if_true, true_iff]
          exact ⟨by simp [hr', hro], hl.1, Or.inr hl.2⟩
        · rw [if_neg hl]
          refine ⟨by simp [hr', hro], ?_, fun _ _ => rfl⟩
          simp only [hd, Bool.false_eq_true, false_iff]
          rintro ⟨-, h1, h2 | h2⟩
          · exact ha h2
          · exact hl ⟨h1, h2⟩

/-- A read-only adapter and a disciplined one. -/
def eth1 : Intf :=
  { name := "eth1", nic := 1, hasPhc := true, phcIdx := 1, cls := .nonSfc,
    mac := [0x3c, 0xec, 0xef, 0x01, 0x02, 0x04] }

example : check (history { careful with nonSfc := true } [(.rescan [eth0, eth1], {})])
    (fun w => decide (w.ids = [2, 1, 0]) && (w.clk 1).readOnly && !(w.clk 1).discipline &&
      !(w.clk 2).readOnly && (w.clk 2).discipline) = true := by
  decide +kernel

/-! ## C153 -/

/-- C153, as it should be: an entry of the clock list that names a clock which is not to be
disciplined is an error. -/
def C153_statement : Prop :=
  ∀ (cfg : Cfg) (w : World) (i : Nat) (n : String), (w.clk i).discipline = false →
    (w.clk i).readOnly = false → (∀ m ∈ cfg.readonlyNames, ¬ Named w i m) →
    cfg.disciplineAll = false → n ∈ cfg.listNames → Named w i n → ¬ Ours cfg (w.clk i) →
    (configureNew cfg w i).2 = EINVAL

/-- C153 does not hold: each entry overwrites the result of the one before. -/
theorem C153_violated : ¬ C153_statement := by
  intro hs
  have := hs { disciplineAll := false, listNames := ["phc1", "system"] }
    { ids := [0, 1]
      clk := fun i => if i = 1 then { kind := .nonSfc, names := ["phc1"] } else { kind := .system }
      next := 2, kst := ⟨true, false, false⟩, time := fun _ => 0, files := fun _ => none, ifs := []
      writes := [] } 1 "phc1" rfl rfl (by simp) rfl (by simp) (Or.inl (by simp))
    (by simp [Ours])
  exact absurd this (by decide)

open Classical in
theorem configAll_last (cfg : Cfg) (i : Nat) (n : String) : ∀ (ns : List String) (w : World)
    (rc : Nat), (w.clk i).discipline = false → (w.clk i).readOnly = false →
    ¬ Ours cfg (w.clk i) → (configAll cfg w i rc (ns ++ [n])).2 = if Named w i n then EINVAL else 0
  | [], w, rc, hd, hr, ho => by
    simp only [List.nil_append, configAll, configList_eq cfg w i n hr]
    by_cases h : Named w i n
    · rw [if_pos h, if_neg (by simp [hd]), if_neg ho, if_pos h]
    · rw [if_neg h, if_neg h]
  | m :: ns, w, rc, hd, hr, ho => by
    simp only [List.cons_append, configAll]
    have hw : (configList cfg w i m).1 = w := by
      rw [configList_eq cfg w i m hr]
      by_cases h : Named w i m
      · rw [if_pos h, if_neg (by simp [hd]), if_neg ho]
      · rw [if_neg h]
    rw [hw]
    exact configAll_last cfg i n ns w _ hd hr ho

/-- C153, the part that holds: it is reported if it is the last entry of the list; and whatever the
list is, such a clock is not disciplined (C152). -/
theorem C153_partial (cfg : Cfg) (w : World) (i : Nat) (ns : List String) (n : String)
    (hd : (w.clk i).discipline = false) (hr : (w.clk i).readOnly = false)
    (hro : ∀ m ∈ cfg.readonlyNames, ¬ Named w i m) (ha : cfg.disciplineAll = false)
    (hl : cfg.listNames = ns ++ [n]) (ho : ¬ Ours cfg (w.clk i)) :
    ((configureNew cfg w i).2 = EINVAL ↔ Named w i n) ∧
    ((configureNew cfg w i).2 = 0 ↔ ¬ Named w i n) := by
  classical
  unfold configureNew
  simp only []
  have hno : ¬ ∃ m ∈ cfg.readonlyNames, Named w i m := by push Not; exact hro
  have hr2 : ¬ (w.clk i).readOnly = true := by simp [hr]
  have ha2 : ¬ cfg.disciplineAll = true := by simp [ha]
  rw [configReadonly_eq, if_neg hno, if_neg hr2, if_neg ha2, hl,
    configAll_last cfg i n ns w 0 hd hr ho]
  by_cases h : Named w i n
  · rw [if_pos h]; simp [h, EINVAL]
  · rw [if_neg h]; simp [h, EINVAL]

example : (configureNew { disciplineAll := false, listNames := ["system", "phc1"] }
    { ids := [0, 1]
      clk := fun i => if i = 1 then { kind := .nonSfc, names := ["phc1"] } else { kind := .system }
      next := 2, kst := ⟨true, false, false⟩, time := fun _ => 0, files := fun _ => none, ifs := []
      writes := [] } 1).2 = EINVAL := by decide

/-! ## C154 -/

/-- C154, as it should be: a scan of the interfaces never frees the clocks that the rest of the
program uses. -/
def C154_statement : Prop :=
  ∀ (cfg : Cfg) (e : Env) (w : World) (ifs : List Intf), Usual cfg → Reach cfg w →
    rescan cfg e w ifs ≠ .error .dangling

/-- A list with an adapter of another make. -/
def mixed : Cfg := { plain with disciplineAll := false, listNames := ["eth1"] }

theorem mixed_usual : Usual mixed := ⟨by decide +kernel, by decide, by decide, by decide⟩

/-- C154 does not hold: when a clock in the configured list turns up that is not to be disciplined,
all clocks are freed in the middle of the scan, and the program goes on. -/
theorem C154_violated : ¬ C154_statement := by
  intro hs
  obtain ⟨w, hw, hp⟩ := witness (r := history mixed [(.rescan [eth0], {})])
    (p := fun w => match rescan mixed {} w [eth0, eth1] with
      | .error .dangling => true
      | _ => false) (by decide +kernel)
  have := hs mixed {} w [eth0, eth1] mixed_usual (history_reach hw)
  cases hr : rescan mixed {} w [eth0, eth1] with
  | ok w' => rw [hr] at hp; exact absurd hp (by simp)
  | error f =>
    cases f with
    | assertion => rw [hr] at hp; exact absurd hp (by simp)
    | dangling => exact this hr

theorem adjustTime_fault {cfg : Cfg} {e : Env} {w : World} {i : Nat} {off : Int} {f : Fault}
    (h : adjustTime cfg e w i off = .error f) : f = .assertion :=
  ((adjustTime_aborts cfg e w i off f).mp h).1

theorem correctNew_fault {cfg : Cfg} {e : Env} {w : World} {i : Nat} {f : Fault}
    (h : correctNew cfg e w i = .error f) : f = .assertion := by
  unfold correctNew at h
  simp only [] at h
  split at h
  · split at h
    · exact absurd h (by simp)
    · split at h
      · split at h
        · rename_i f' hs
          simp only [Except.error.injEq] at h
          subst h
          unfold setTime at hs
          split at hs
          · exact absurd hs (by simp)
          · simp only [] at hs
            split at hs
            · split at hs
              · rename_i f2 ha
                simp only [Except.error.injEq] at hs
                rw [← hs]
                exact adjustTime_fault ha
              · split at hs <;> exact absurd hs (by simp)
            · exact absurd hs (by simp)
        · exact absurd h (by simp)
      · exact absurd h (by simp)
  · exact absurd h (by simp)

theorem configAll_ok (cfg : Cfg) (i : Nat) (hn : cfg.nonSfc = true) : ∀ (ns : List String)
    (w : World), (configAll cfg w i 0 ns).2 = 0
  | [], w => rfl
  | n :: ns, w => by
    unfold configAll
    have : (configList cfg w i n).2 = 0 := by
      unfold configList
      rw [hn]
      split
      · split
        · rfl
        · simp
      · rfl
    rw [this]
    exact configAll_ok cfg i hn ns _

theorem configureNew_ok (cfg : Cfg) (w : World) (i : Nat)
    (hc : cfg.disciplineAll = true ∨ cfg.nonSfc = true ∨ cfg.listNames = []) :
    (configureNew cfg w i).2 = 0 := by
  unfold configureNew
  simp only []
  split
  · rfl
  · split
    · split <;> rfl
    · rename_i ha
      rcases hc with hc | hc | hc
      · exact absurd hc ha
      · exact configAll_ok cfg i hc _ _
      · rw [hc]; rfl

theorem initAll_fault {cfg : Cfg} {e : Env}
    (hc : cfg.disciplineAll = true ∨ cfg.nonSfc = true ∨ cfg.listNames = []) :
    ∀ {fs : List Intf} {w : World} {x : Fault}, initAll cfg e fs w = .error x → x = .assertion
  | [], w, x, h => by simp [initAll] at h
  | f :: fs, w, x, h => by
    simp only [initAll] at h
    split at h
    · rename_i y hy
      simp only [Except.error.injEq] at h
      subst h
      unfold initInterface at hy
      split at hy
      · split at hy
        · exact absurd hy (by simp)
        · simp only [] at hy
          split at hy
          · exact absurd hy (by simp)
          · rw [if_neg (by rw [configureNew_ok cfg _ _ hc]; simp)] at hy
            exact absurd hy (by simp)
      · split at hy
        · exact correctNew_fault hy
        · exact absurd hy (by simp)
    · exact initAll_fault hc h

/-- C154, the part that holds: when all clocks are disciplined, or those of other makes are allowed,
or no clocks are listed. -/
theorem C154_partial (cfg : Cfg) (e : Env) (w : World) (ifs : List Intf)
    (hc : cfg.disciplineAll = true ∨ cfg.nonSfc = true ∨ cfg.listNames = []) :
    rescan cfg e w ifs ≠ .error .dangling := by
  intro h
  unfold rescan at h
  split at h
  · rename_i f hf
    simp only [Except.error.injEq] at h
    rw [initAll_fault hc hf] at h
    exact absurd h (by simp)
  · exact absurd h (by simp)

example : check (history { mixed with nonSfc := true } [(.rescan [eth0, eth1], {})])
    (fun w => decide (w.ids = [2, 1, 0]) && (w.clk 2).discipline) = true := by
  decide +kernel

/-! ## C155 -/

/-- The frequencies that are written to clock `i`. -/
def freqsOf (i : Nat) (xs : List Write) : List Write :=
  xs.filter (fun x => match x with
    | .freq j _ _ _ => decide (j = i)
    | _ => false)

/-- C155, as it should be: an event of an interface that does not alter the set of interfaces does
not alter the frequency of a clock. -/
def C155_statement : Prop :=
  ∀ (cfg : Cfg) (e : Env) (w w' : World) (f : Option Intf) (i : Nat), Usual cfg → Reach cfg w →
    i ∈ w.ids → linkEvent cfg e w w.ifs f = .ok w' →
    freqsOf i w'.writes = freqsOf i w.writes

/-- C155 does not hold: the event of the link of an interface makes the program write the
saved frequency correction, or zero, to the clock of the interface, whatever a servo has set. -/
theorem C155_violated : ¬ C155_statement := by
  intro hs
  obtain ⟨w, hw, hp⟩ := witness (r := history plain [(.link [eth0] (some eth0), {}),
      (.adjFreq 1 1000, {})])
    (p := fun w => decide (1 ∈ w.ids) &&
      decide (freqsOf 1 w.writes = [.freq 1 none 0 none, .freq 1 none 65536 none]) &&
      check (linkEvent plain {} w w.ifs (some eth0))
        (fun w' => decide (freqsOf 1 w'.writes =
          [.freq 1 none 0 none, .freq 1 none 65536 none, .freq 1 none 0 none])))
    (by decide +kernel)
  simp only [Bool.and_eq_true, decide_eq_true_eq] at hp
  obtain ⟨⟨h1, h2⟩, h3⟩ := hp
  obtain ⟨w', hw', hp'⟩ := witness h3
  simp only [decide_eq_true_eq] at hp'
  have := hs plain {} w w' _ 1 plain_usual (history_reach hw) h1 hw'
  rw [hp', h2] at this
  exact absurd this (by decide)

/-- The correction that is saved for a clock, if it is in range, else none. -/
def kept (cfg : Cfg) (w : World) (i : Nat) : Rat :=
  match cfg.persistent, w.files i with
  | true, some n => if |(n : Rat) / 1000000| ≤ (w.clk i).maxAdj then (n : Rat) / 1000000 else 0
  | _, _ => 0

/-- C155, the part that holds: what the event writes to the NIC clock is the saved correction, or zero
if there is none. -/
theorem C155_partial (cfg : Cfg) (e : Env) (w : World) (i : Nat)
    (hk : (w.clk i).kind ≠ .system) (hp : (w.clk i).phc.isSome = true)
    (hr : (w.clk i).readOnly = false) (hb : (w.clk i).blocked ≤ 0) (hm : 0 ≤ (w.clk i).maxAdj) :
    ∃ q : Int, (loadFreq cfg e w i).1.writes = w.writes ++ [.freq i none q none] ∧
      |(q : Rat) * 1000 / 65536 - kept cfg w i| ≤ 1 / 100 ∧
      ((loadFreq cfg e w i).1.clk i).corr = kept cfg w i := by
  have hno : noPhc (w.clk i) = false := by
    unfold noPhc
    rw [Option.isNone_eq_false_iff.mpr hp, Bool.and_false]
  have hkept : kept cfg w i = if (w.clk i).maxAdj < (savedCorr cfg w i).1 ∨
      (savedCorr cfg w i).1 < -(w.clk i).maxAdj then 0 else (savedCorr cfg w i).1 := by
    unfold kept savedCorr
    cases cfg.persistent with
    | false =>
      simp only [Bool.false_eq_true, if_false]
      split <;> rfl
    | true =>
      cases w.files i with
      | none => simp
      | some n =>
        simp only [if_true, ofFile]
        by_cases h : |(n : Rat) / 1000000| ≤ (w.clk i).maxAdj
        · rw [if_pos h]
          rw [abs_le] at h
          rw [if_neg (by push Not; exact ⟨h.2, h.1⟩)]
        · rw [if_neg h]
          rw [abs_le] at h
          rw [if_pos (by
            by_contra hc
            push Not at hc
            exact h ⟨hc.2, hc.1⟩)]
  unfold loadFreq
  simp only []
  by_cases h : (w.clk i).maxAdj < (savedCorr cfg w i).1 ∨
      (savedCorr cfg w i).1 < -(w.clk i).maxAdj
  · rw [if_pos h]
    rw [if_pos h] at hkept
    simp only [hkept]
    have hno1 : noPhc { w.clk i with corr := 0 } = false := hno
    have h1 : (rejectCorr w i).clk i = { w.clk i with corr := 0 } := by
      simp [rejectCorr, World.set]
    refine ⟨freqField 0, ?_, freqField_near 0, ?_⟩
    · unfold adjustFreq freqWrite
      rw [h1]
      have hsat : saturate (w.clk i).maxAdj 0 = 0 := by
        unfold saturate
        simp only []
        have ha : ¬ (w.clk i).maxAdj < 0 := by linarith
        rw [if_neg ha, if_neg (by linarith)]
      rw [if_neg (by rw [hno1]; simp), if_neg (by simp [hr]), if_neg (by simpa using hb)]
      simp only [World.log, if_neg hk, hsat]
      rfl
    · rw [(adjustFreq_tuned cfg e (rejectCorr w i) i 0).2, h1]
  · rw [if_neg h]
    rw [if_neg h] at hkept
    simp only [hkept]
    generalize (savedCorr cfg w i).1 = v at *
    have hno1 : noPhc { w.clk i with corr := v } = false := hno
    have h1 : (keepCorr w i v).clk i = { w.clk i with corr := v } := by
      simp [keepCorr, World.set]
    refine ⟨freqField v, ?_, freqField_near v, ?_⟩
    · unfold adjustFreq freqWrite
      rw [h1]
      have hsat : saturate (w.clk i).maxAdj v = v := by
        push Not at h
        unfold saturate
        simp only []
        have ha : ¬ (w.clk i).maxAdj < v := by linarith [h.1]
        rw [if_neg ha, if_neg (by linarith [h.2])]
      rw [if_neg (by rw [hno1]; simp), if_neg (by simp [hr]), if_neg (by simpa using hb)]
      simp only [World.log, if_neg hk, hsat]
      rfl
    · rw [(adjustFreq_tuned cfg e (keepCorr w i v) i v).2, h1]

example : check (history plain [(.link [eth0] (some eth0), {}), (.save 1 2000, {}),
      (.adjFreq 1 1000, {}), (.link [eth0] (some eth0), {})])
    (fun w => decide (freqsOf 1 w.writes =
          [.freq 1 none 0 none, .freq 1 none 65536 none, .freq 1 none 131072 none])) = true := by
  decide +kernel

/-! ## C156 -/

/-- C156.  Adapters with different MAC addresses have clocks with different ids of eight bytes, and
the id shows the MAC address: at the front, or around ff:fe in the legacy format. -/
theorem C156_ids (cfg : Cfg) (m m' : List Nat) (h : m.length = 6) (h' : m'.length = 6)
    (hb : cfg.bits.length = 8) :
    (hwidOf cfg m = hwidOf cfg m' ↔ m = m') ∧ (hwidOf cfg m).length = 8 ∧
    (cfg.legacy = false → (hwidOf cfg m).take 6 = m ∧ (hwidOf cfg m).drop 6 = cfg.bits.drop 6) ∧
    (cfg.legacy = true → (hwidOf cfg m).take 3 = m.take 3 ∧
      (hwidOf cfg m).drop 5 = m.drop 3 ∧ ((hwidOf cfg m).drop 3).take 2 = [0xff, 0xfe]) := by
  match m, h with
  | [a, b, c, d, x, y], _ =>
    match m', h' with
    | [a', b', c', d', x', y'], _ =>
      match hbits : cfg.bits, hb with
      | [b0, b1, b2, b3, b4, b5, b6, b7], _ =>
        unfold hwidOf
        cases cfg.legacy <;> simp [hbits]

example : hwidOf plain [0, 0x0f, 0x53, 1, 2, 3] = [0, 0x0f, 0x53, 1, 2, 3, 0, 0] ∧
    hwidOf { plain with legacy := true } [0, 0x0f, 0x53, 1, 2, 3] =
      [0, 0x0f, 0x53, 0xff, 0xfe, 1, 2, 3] := by decide

/-! ## C157 -/

/-- NIC `n` has an interface with a PHC device. -/
def HasDevice (ifs : List Intf) (n : Nat) : Prop := ∃ f ∈ ifs, f.nic = n ∧ f.hasPhc = true

/-- C157, as it should be: after a scan that meets no errors each NIC clock has open the device of an
interface of its NIC, or there is none and the clock is marked as deleted. -/
def C157_statement : Prop :=
  ∀ (cfg : Cfg) (e : Env) (w w' : World) (ifs : List Intf) (i : Nat), Usual cfg → Reach cfg w →
    (∀ n, e.openRc n = 0) → rescan cfg e w ifs = .ok w' → i ∈ w'.ids → i ≠ 0 →
    (w'.clk i).deleted = false →
    ∃ f ∈ ifs, f.nic = (w'.clk i).nic ∧ f.hasPhc = true ∧ (w'.clk i).phc = some f.phcIdx.toNat

/-- The adapter comes back after a reset as another device. -/
def eth0b : Intf := { eth0 with phcIdx := 3 }

/-- C157 does not hold: a device that is open is not opened again when the index of the PHC of the
interface is another one. -/
theorem C157_violated : ¬ C157_statement := by
  intro hs
  obtain ⟨w, hw, hp⟩ := witness (r := history plain [(.rescan [eth0], {})])
    (p := fun w => check (rescan plain {} w [eth0b])
        (fun w' => decide (1 ∈ w'.ids) && decide ((w'.clk 1).deleted = false) &&
          decide ((w'.clk 1).phc = some 0)))
    (by decide +kernel)
  obtain ⟨w', hw', hp'⟩ := witness hp
  simp only [Bool.and_eq_true, decide_eq_true_eq] at hp'
  obtain ⟨⟨h1, h2⟩, h3⟩ := hp'
  obtain ⟨f, hf, -, -, h4⟩ := hs plain {} w w' [eth0b] 1 plain_usual (history_reach hw)
    (fun _ => rfl) hw' h1 (by simp) h2
  simp only [List.mem_singleton] at hf
  rw [hf, h3] at h4
  exact absurd h4 (by decide)

theorem primary_spec (n : Nat) : ∀ (fs : List Intf) (acc : Option Intf),
    (∀ p, acc = some p → p.nic = n) →
    (∀ p, primary n fs acc = some p → p.nic = n ∧ (acc = some p ∨ p ∈ fs)) ∧
    ((∃ p, primary n fs acc = some p ∧ p.hasPhc = true) ↔
      (∃ p, acc = some p ∧ p.hasPhc = true) ∨ HasDevice fs n)
  | [], acc, ha => by
    refine ⟨fun p hp => ⟨ha p hp, Or.inl hp⟩, ?_⟩
    simp [primary, HasDevice]
  | f :: fs, acc, ha => by
    unfold primary
    by_cases h : (acc.any fun p => p.hasPhc) = true
    · rw [if_pos h]
      refine ⟨fun p hp => ⟨ha p hp, Or.inl hp⟩, ?_⟩
      obtain ⟨p, hp, hp2⟩ := Option.any_eq_true _ _ |>.mp h
      simp only [hp2, hp, Option.some.injEq, exists_eq_left', true_or]
    · rw [if_neg h]
      have hacc : ¬ ∃ p, acc = some p ∧ p.hasPhc = true := by
        rintro ⟨p, hp, hp2⟩
        exact h (Option.any_eq_true _ _ |>.mpr ⟨p, hp, hp2⟩)
      by_cases hn : f.nic = n
      · rw [if_pos hn]
        obtain ⟨h1, h2⟩ := primary_spec n fs (some f) (fun p hp => by
          simp only [Option.some.injEq] at hp; rw [← hp]; exact hn)
        refine ⟨fun p hp => ⟨(h1 p hp).1, ?_⟩, ?_⟩
        · rcases (h1 p hp).2 with h3 | h3
          · simp only [Option.some.injEq] at h3
            exact Or.inr (by rw [h3]; simp)
          · exact Or.inr (List.mem_cons_of_mem _ h3)
        · rw [h2]
          constructor
          · rintro (⟨p, hp, hp2⟩ | ⟨g, hg, hg2⟩)
            · simp only [Option.some.injEq] at hp
              exact Or.inr ⟨f, by simp, hn, by rw [hp]; exact hp2⟩
            · exact Or.inr ⟨g, List.mem_cons_of_mem _ hg, hg2⟩
          · rintro (h3 | ⟨g, hg, hg1, hg2⟩)
            · exact absurd h3 hacc
            · rcases List.mem_cons.mp hg with rfl | hg'
              · exact Or.inl ⟨g, rfl, hg2⟩
              · exact Or.inr ⟨g, hg', hg1, hg2⟩
      · rw [if_neg hn]
        obtain ⟨h1, h2⟩ := primary_spec n fs acc ha
        refine ⟨fun p hp => ⟨(h1 p hp).1, ?_⟩, ?_⟩
        · rcases (h1 p hp).2 with h3 | h3
          · exact Or.inl h3
          · exact Or.inr (List.mem_cons_of_mem _ h3)
        · rw [h2]
          constructor
          · rintro (h3 | ⟨g, hg, hg2⟩)
            · exact Or.inl h3
            · exact Or.inr ⟨g, List.mem_cons_of_mem _ hg, hg2⟩
          · rintro (h3 | ⟨g, hg, hg1, hg2⟩)
            · exact Or.inl h3
            · rcases List.mem_cons.mp hg with rfl | hg'
              · exact absurd hg1 hn
              · exact Or.inr ⟨g, hg', hg1, hg2⟩

/-- What a renewal makes of a NIC clock when the devices can be opened. -/
theorem renew_spec (cfg : Cfg) (e : Env) (w : World) (i : Nat) (ho : ∀ n, e.openRc n = 0)
    (hk : (w.clk i).kind ≠ .system) :
    (renew cfg e w i).1.ifs = w.ifs ∧ (renew cfg e w i).1.ids = w.ids ∧
    (∀ j, j ≠ i → (renew cfg e w i).1.clk j = w.clk j) ∧
    ((renew cfg e w i).1.clk i).nic = (w.clk i).nic ∧
    (((renew cfg e w i).1.clk i).deleted = true ↔ ¬ HasDevice w.ifs (w.clk i).nic) ∧
    (((renew cfg e w i).1.clk i).phc.isSome = true ↔ HasDevice w.ifs (w.clk i).nic) ∧
    ((w.clk i).phc = none → HasDevice w.ifs (w.clk i).nic →
      ∃ f ∈ w.ifs, f.nic = (w.clk i).nic ∧ f.hasPhc = true ∧
        ((renew cfg e w i).1.clk i).phc = some f.phcIdx.toNat) := by
  obtain ⟨h1, h2⟩ := primary_spec (w.clk i).nic w.ifs none (by simp)
  simp only [reduceCtorEq, false_and, exists_false, false_or] at h1 h2
  unfold renew
  simp only []
  rw [if_neg hk]
  cases hpr : primary (w.clk i).nic w.ifs none with
  | none =>
    have hno : ¬ HasDevice w.ifs (w.clk i).nic := by
      rw [← h2, hpr]; simp
    simp only [World.set]
    refine ⟨trivial, trivial, fun j hj => by simp [hj], by simp, by simp [hno], by simp [hno],
      fun _ h => absurd h hno⟩
  | some f =>
    obtain ⟨hf1, hf2⟩ := h1 f hpr
    by_cases hp : f.hasPhc = true
    · have hyes : HasDevice w.ifs (w.clk i).nic := by
        rw [← h2, hpr]; exact ⟨f, rfl, hp⟩
      simp only [hp, if_true]
      cases hc : (w.clk i).phc with
      | none =>
        simp only [ho, ne_eq, not_true_eq_false, if_false, World.set, describe]
        refine ⟨trivial, trivial, fun j hj => by simp [hj], by simp, by simp [hyes],
          by simp [hyes], fun _ _ => ⟨f, hf2, hf1, hp, by simp⟩⟩
      | some k =>
        simp only [World.set, describe]
        refine ⟨trivial, trivial, fun j hj => by simp [hj], by simp, by simp [hyes],
          by simp [hyes, hc], fun h _ => absurd h (by simp)⟩
    · have hno : ¬ HasDevice w.ifs (w.clk i).nic := by
        rw [← h2, hpr]
        rintro ⟨p, hp1, hp2⟩
        simp only [Option.some.injEq] at hp1
        rw [hp1] at hp
        exact hp hp2
      simp only [hp, Bool.false_eq_true, if_false, World.set]
      refine ⟨trivial, trivial, fun j hj => by simp [hj], by simp, by simp [hno], by simp [hno],
        fun _ h => absurd h hno⟩

theorem renew_system (cfg : Cfg) (e : Env) (w : World) (i : Nat)
    (hk : (w.clk i).kind = .system) : (renew cfg e w i).1 = w := by
  unfold renew
  simp only []
  rw [if_pos hk]

theorem renewAll_spec (cfg : Cfg) (e : Env) (ho : ∀ n, e.openRc n = 0) : ∀ (is : List Nat)
    (w : World), is.Nodup →
    (renewAll cfg e is w).ifs = w.ifs ∧ (renewAll cfg e is w).ids = w.ids ∧
    (∀ j, j ∉ is → (renewAll cfg e is w).clk j = w.clk j) ∧
    (∀ j ∈ is, (w.clk j).kind ≠ .system →
      ((renewAll cfg e is w).clk j).nic = (w.clk j).nic ∧
      (((renewAll cfg e is w).clk j).deleted = true ↔ ¬ HasDevice w.ifs (w.clk j).nic) ∧
      (((renewAll cfg e is w).clk j).phc.isSome = true ↔ HasDevice w.ifs (w.clk j).nic))
  | [], w, _ => ⟨rfl, rfl, fun _ _ => rfl, by simp⟩
  | i :: is, w, hn => by
    rw [List.nodup_cons] at hn
    unfold renewAll
    have hstep : (renew cfg e w i).1.ifs = w.ifs ∧ (renew cfg e w i).1.ids = w.ids ∧
        (∀ j, j ≠ i → (renew cfg e w i).1.clk j = w.clk j) := by
      by_cases hk : (w.clk i).kind = .system
      · rw [renew_system cfg e w i hk]; exact ⟨rfl, rfl, fun _ _ => rfl⟩
      · have := renew_spec cfg e w i ho hk
        exact ⟨this.1, this.2.1, this.2.2.1⟩
    obtain ⟨r1, r2, r3⟩ := hstep
    obtain ⟨s1, s2, s3, s4⟩ := renewAll_spec cfg e ho is (renew cfg e w i).1 hn.2
    refine ⟨by rw [s1, r1], by rw [s2, r2], fun j hj => ?_, fun j hj hk => ?_⟩
    · rw [List.mem_cons, not_or] at hj
      rw [s3 j hj.2, r3 j hj.1]
    · rcases List.mem_cons.mp hj with rfl | hj'
      · rw [s3 j hn.1]
        have := renew_spec cfg e w j ho hk
        exact ⟨this.2.2.2.1, this.2.2.2.2.1, this.2.2.2.2.2.1⟩
      · have hne : j ≠ i := fun he => hn.1 (he ▸ hj')
        have := s4 j hj' (by rw [r3 j hne]; exact hk)
        rw [r1, r3 j hne] at this
        exact this

/-- C157, the part that holds: after a scan without errors a NIC clock is marked as deleted exactly if
no interface of its NIC has a PHC, and it has a device open exactly if it is not. -/
theorem C157_partial (cfg : Cfg) (hu : Usual cfg) (e : Env) (w w' : World) (ifs : List Intf)
    (i : Nat) (hr : Reach cfg w) (ho : ∀ n, e.openRc n = 0)
    (h : rescan cfg e w ifs = .ok w') (hi : i ∈ w'.ids) (h0 : i ≠ 0) :
    ((w'.clk i).deleted = true ↔ ¬ HasDevice w'.ifs (w'.clk i).nic) ∧
    ((w'.clk i).phc.isSome = true ↔ HasDevice w'.ifs (w'.clk i).nic) := by
  have hg := hr.good hu
  have hg' := (rescan_moves hu hg h).good
  unfold rescan at h
  split at h
  · exact absurd h (by simp)
  · rename_i w1 h1
    simp only [Except.ok.injEq] at h
    have m0 : Moves cfg w { w with ifs := ifs } :=
      Moves.objects hg rfl rfl rfl (fun j _ => Keeps.refl cfg j _)
    have hg1 := (initAll_moves hu m0.good h1).good
    obtain ⟨r1, r2, -, r4⟩ := renewAll_spec cfg e ho w1.ids w1 hg1.nodup
    subst h
    rw [r2] at hi
    obtain ⟨r5, r6, r7⟩ := r4 i hi (hg1.nic i hi h0)
    rw [r1, r5]
    exact ⟨r6, r7⟩

example : check (history plain [(.rescan [eth0, eth1], {}), (.rescan [eth1], {})])
    (fun w => decide (w.ids = [2, 1, 0]) && (w.clk 1).deleted && (w.clk 1).phc.isNone &&
      !(w.clk 2).deleted && decide ((w.clk 2).phc = some 1)) = true := by
  decide +kernel

end Verif.Clock
