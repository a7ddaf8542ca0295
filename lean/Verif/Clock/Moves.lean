import Verif.Clock.Support

set_option linter.unusedSimpArgs false
set_option linter.unusedVariables false

/-!
# Clocks: what every operation respects
-/

namespace Verif.Clock

/-- The invariant of the clock list. -/
structure Good (cfg : Cfg) (w : World) : Prop where
  lt : ∀ i ∈ w.ids, i < w.next
  sys : 0 ∈ w.ids
  kind0 : (w.clk 0).kind = .system
  nic : ∀ i ∈ w.ids, i ≠ 0 → (w.clk i).kind ≠ .system
  nodup : w.ids.Nodup
  rod : ∀ i ∈ w.ids, (w.clk i).readOnly = true → (w.clk i).discipline = false
  lim : ∀ i ∈ w.ids, i ≠ 0 → 0 ≤ (w.clk i).maxAdj ∧ (w.clk i).maxAdj ≤ cfg.limit
  nd : (w.clk 0).deleted = false
  adj0 : (w.clk 0).maxAdj = maxTick cfg * tickRes cfg + sysMax cfg

/-- What an operation may add to the calls made. -/
structure Allowed (cfg : Cfg) (w w' : World) (x : Write) : Prop where
  known : x.target ∈ w'.ids
  sane : Sane cfg x
  free : x.target ∈ w.ids → (w.clk x.target).readOnly = false
  open' : x.target ∈ w.ids → x.isTiming = true → (w.clk x.target).blocked ≤ 0

/-- How the state may change in an operation that does not block or unblock a clock. -/
structure Moves (cfg : Cfg) (w w' : World) : Prop where
  good : Good cfg w'
  sub : ∀ i ∈ w.ids, i ∈ w'.ids
  ro : ∀ i ∈ w.ids, (w.clk i).readOnly = true → (w'.clk i).readOnly = true
  bl : ∀ i ∈ w.ids, (w'.clk i).blocked = (w.clk i).blocked
  kd : ∀ i ∈ w.ids, (w'.clk i).kind = (w.clk i).kind
  dn : ∀ i ∈ w.ids, (w.clk i).done = true → (w'.clk i).done = true
  wr : ∃ xs, w'.writes = w.writes ++ xs ∧ ∀ x ∈ xs, Allowed cfg w w' x
  quiet : cfg.noAdjust = true → (∀ i ∈ w.ids, (w.clk i).readOnly = true) →
    (∀ i ∈ w'.ids, (w'.clk i).readOnly = true) ∧ w'.writes = w.writes

theorem Moves.refl {cfg : Cfg} {w : World} (h : Good cfg w) : Moves cfg w w :=
  { good := h
    sub := fun _ h => h
    ro := fun _ _ h => h
    bl := fun _ _ => rfl
    kd := fun _ _ => rfl
    dn := fun _ _ h => h
    wr := ⟨[], by simp, by simp⟩
    quiet := fun _ h => ⟨h, rfl⟩ }

theorem Moves.trans {cfg : Cfg} {w w' w'' : World} (a : Moves cfg w w') (b : Moves cfg w' w'') :
    Moves cfg w w'' := by
  obtain ⟨xs, hx, ax⟩ := a.wr
  obtain ⟨ys, hy, ay⟩ := b.wr
  refine
  { good := b.good
    sub := fun i h => b.sub i (a.sub i h)
    ro := fun i h hr => b.ro i (a.sub i h) (a.ro i h hr)
    bl := fun i h => by rw [b.bl i (a.sub i h), a.bl i h]
    kd := fun i h => by rw [b.kd i (a.sub i h), a.kd i h]
    dn := fun i h hr => b.dn i (a.sub i h) (a.dn i h hr)
    wr := ⟨xs ++ ys, by rw [hy, hx, List.append_assoc], ?_⟩
    quiet := fun hn h => ?_ }
  · intro x hmem
    rcases List.mem_append.mp hmem with h | h
    · have := ax x h
      exact ⟨b.sub _ this.known, this.sane, this.free, this.open'⟩
    · have := ay x h
      refine ⟨this.known, this.sane, fun hm => ?_, fun hm ht => ?_⟩
      · have hf := this.free (a.sub _ hm)
        cases hr : (w.clk x.target).readOnly with
        | false => rfl
        | true => rw [a.ro _ hm hr] at hf; exact absurd hf (by simp)
      · have := this.open' (a.sub _ hm) ht
        rwa [a.bl _ hm] at this
  · obtain ⟨h1, h2⟩ := a.quiet hn h
    obtain ⟨h3, h4⟩ := b.quiet hn h1
    exact ⟨h3, by rw [h4, h2]⟩

/-- What a change of one clock object has to respect. -/
structure Keeps (cfg : Cfg) (i : Nat) (c c' : Clk) : Prop where
  kind : c'.kind = c.kind
  ro : c.readOnly = true → c'.readOnly = true
  bl : c'.blocked = c.blocked
  dn : c.done = true → c'.done = true
  rod : (c.readOnly = true → c.discipline = false) → c'.readOnly = true → c'.discipline = false
  lim : i ≠ 0 → 0 ≤ c.maxAdj ∧ c.maxAdj ≤ cfg.limit → 0 ≤ c'.maxAdj ∧ c'.maxAdj ≤ cfg.limit
  nd : c.kind = .system → c'.deleted = c.deleted
  adj : c.kind = .system → c'.maxAdj = c.maxAdj

theorem Keeps.refl (cfg : Cfg) (i : Nat) (c : Clk) : Keeps cfg i c c :=
  ⟨rfl, id, rfl, id, id, fun _ => id, fun _ => rfl, fun _ => rfl⟩

/-- A change of clock objects without calls. -/
theorem Moves.objects {cfg : Cfg} {w w' : World} (h : Good cfg w) (hi : w'.ids = w.ids)
    (hn : w'.next = w.next) (hw : w'.writes = w.writes)
    (hk : ∀ i ∈ w.ids, Keeps cfg i (w.clk i) (w'.clk i)) : Moves cfg w w' :=
  { good :=
    { lt := by rw [hi, hn]; exact h.lt
      sys := by rw [hi]; exact h.sys
      kind0 := by rw [(hk 0 h.sys).kind]; exact h.kind0
      nic := fun i hm h0 => by
        rw [hi] at hm
        rw [(hk i hm).kind]; exact h.nic i hm h0
      nodup := by rw [hi]; exact h.nodup
      rod := fun i hm => by
        rw [hi] at hm
        exact (hk i hm).rod (h.rod i hm)
      lim := fun i hm h0 => by
        rw [hi] at hm
        exact (hk i hm).lim h0 (h.lim i hm h0)
      nd := by rw [(hk 0 h.sys).nd h.kind0]; exact h.nd
      adj0 := by rw [(hk 0 h.sys).adj h.kind0]; exact h.adj0 }
    sub := fun i hm => by rw [hi]; exact hm
    ro := fun i hm => (hk i hm).ro
    bl := fun i hm => (hk i hm).bl
    kd := fun i hm => (hk i hm).kind
    dn := fun i hm => (hk i hm).dn
    wr := ⟨[], by simp [hw], by simp⟩
    quiet := fun _ hr => ⟨fun i hm => by
      rw [hi] at hm
      exact (hk i hm).ro (hr i hm), hw⟩ }

theorem Moves.set {cfg : Cfg} {w : World} (h : Good cfg w) (i : Nat) (c : Clk)
    (hk : Keeps cfg i (w.clk i) c) : Moves cfg w (w.set i c) := by
  refine Moves.objects h rfl rfl rfl (fun j hj => ?_)
  simp only [World.set]
  split
  · rename_i he
    subst he
    exact hk
  · exact Keeps.refl cfg j _

/-- One call. -/
theorem Moves.log {cfg : Cfg} {w : World} (h : Good cfg w) (x : Write)
    (hm : x.target ∈ w.ids) (hs : Sane cfg x)
    (hr : (w.clk x.target).readOnly = false)
    (hb : x.isTiming = true → (w.clk x.target).blocked ≤ 0) : Moves cfg w (w.log x) :=
  { good := ⟨h.lt, h.sys, h.kind0, h.nic, h.nodup, h.rod, h.lim, h.nd, h.adj0⟩
    sub := fun _ h => h
    ro := fun _ _ h => h
    bl := fun _ _ => rfl
    kd := fun _ _ => rfl
    dn := fun _ _ h => h
    wr := ⟨[x], rfl, fun y hy => by
      rw [List.mem_singleton] at hy
      subst hy
      exact ⟨hm, hs, fun _ => hr, fun _ => hb⟩⟩
    quiet := fun _ ha => by rw [ha _ hm] at hr; exact absurd hr (by simp) }

/-! ## The operations -/

theorem recordStep_ok {w w' : World} (h : recordStep w = .ok w') :
    (∀ i ∈ w.ids, noPhc (w.clk i) = false) ∧
    w' = { w with
      clk := fun j => if j ∈ w.ids ∧ (w.clk j).kind ≠ .system
        then { w.clk j with stepped := true } else w.clk j } := by
  unfold recordStep at h
  split at h
  · exact absurd h (by simp)
  · rename_i hn
    simp only [Except.ok.injEq] at h
    refine ⟨fun i hi => ?_, h.symm⟩
    simp only [List.any_eq_true, not_exists, not_and, Bool.not_eq_true] at hn
    exact hn i hi

theorem recordStep_moves {cfg : Cfg} {w w' : World} (hg : Good cfg w)
    (h : recordStep w = .ok w') : Moves cfg w w' := by
  obtain ⟨-, rfl⟩ := recordStep_ok h
  refine Moves.objects hg rfl rfl rfl (fun j hj => ?_)
  simp only []
  split
  · exact ⟨rfl, id, rfl, id, id, fun _ => id, fun _ => rfl, fun _ => rfl⟩
  · exact Keeps.refl cfg j _

/-- Only the times of the devices differ. -/
theorem Moves.times {cfg : Cfg} {w : World} (hg : Good cfg w) (t : Nat → Int) :
    Moves cfg w { w with time := t } :=
  Moves.objects hg rfl rfl rfl (fun j _ => Keeps.refl cfg j _)

theorem adjustTime_moves {cfg : Cfg} {e : Env} {w w' : World} {i : Nat} {off : Int} {rc : Nat}
    (hg : Good cfg w) (hi : i ∈ w.ids) (h : adjustTime cfg e w i off = .ok (w', rc)) :
    Moves cfg w w' := by
  unfold adjustTime at h
  split at h
  · simp only [Except.ok.injEq, Prod.mk.injEq] at h
    rw [← h.1]; exact Moves.refl hg
  · split at h
    · simp only [Except.ok.injEq, Prod.mk.injEq] at h
      rw [← h.1]; exact Moves.refl hg
    · rename_i hro
      split at h
      · simp only [Except.ok.injEq, Prod.mk.injEq] at h
        rw [← h.1]; exact Moves.refl hg
      · rename_i hbl
        have hl := Moves.log hg (.step i (off / 4294967296) (statusFor cfg w i)) hi
          trivial (by simpa [Write.target] using hro) (fun _ => by
            simp only [Write.target]; omega)
        simp only [] at h
        split at h
        · simp only [Except.ok.injEq, Prod.mk.injEq] at h
          rw [← h.1]; exact hl
        · generalize ht : (fun j => if j = i then w.time j + off / 4294967296 * 4294967296
            else w.time j) = t at h
          split at h
          · exact absurd h (by simp)
          · rename_i w2 hr
            simp only [Except.ok.injEq, Prod.mk.injEq] at h
            rw [← h.1]
            have h2 := Moves.times hl.good t
            exact hl.trans (h2.trans (recordStep_moves h2.good hr))

theorem adjustFreq_moves {cfg : Cfg} (e : Env) {w : World} {i : Nat} (f : Rat)
    (hu : Usual cfg) (hg : Good cfg w) (hi : i ∈ w.ids) :
    Moves cfg w (adjustFreq cfg e w i f).1 := by
  unfold adjustFreq
  split
  · exact Moves.refl hg
  · split
    · exact Moves.refl hg
    · rename_i hro
      split
      · exact Moves.refl hg
      · rename_i hbl
        have key : ∀ x : Write, x.target = i → Sane cfg x → Moves cfg w (w.log x) := by
          intro x hx hs
          refine Moves.log hg x (by rw [hx]; exact hi) hs (by rw [hx]; simpa using hro)
            (fun _ => by rw [hx]; omega)
        unfold freqWrite
        simp only []
        split
        · rename_i hk
          refine key _ rfl ?_
          obtain ⟨h1, h2⟩ := tickOf_range hu.hz hu.divides (saturate (w.clk i).maxAdj f)
          exact ⟨h1, h2, tol_le_freqField (le_satRest (sysMax_nonneg hu.tol) _),
            freqField_le_tol (satRest_le (sysMax_nonneg hu.tol) _)⟩
        · rename_i hk
          have h0 : i ≠ 0 := fun h0 => hk (by rw [h0]; exact hg.kind0)
          obtain ⟨hl1, hl2⟩ := hg.lim i hi h0
          refine key _ rfl ?_
          rw [saturate_eq hl1]
          have a1 := limited_le hl1 f
          have a2 := le_limited (w.clk i).maxAdj f
          have b1 := roundl_le (limited (w.clk i).maxAdj f * (65536 / 1000))
          have b2 := le_roundl (limited (w.clk i).maxAdj f * (65536 / 1000))
          simp only [Sane, freqField]
          constructor <;> linarith

theorem measure_moves {cfg : Cfg} (r : Except Nat Int) {w : World} (i : Nat)
    (hg : Good cfg w) : Moves cfg w (measure r w i).1 := by
  unfold measure
  split
  · exact Moves.refl hg
  · split <;> exact Moves.set hg _ _ ⟨rfl, id, rfl, id, id, fun _ => id, fun _ => rfl, fun _ => rfl⟩

theorem compare_moves {cfg : Cfg} (e : Env) {w : World} (a b : Nat)
    (hg : Good cfg w) : Moves cfg w (compare e w a b).1 := by
  unfold compare
  split
  · exact Moves.refl hg
  · split
    · exact Moves.refl hg
    · have h1 := measure_moves (e.diff1 a) a hg
      split
      · rename_i heq
        rw [heq] at h1; exact h1
      · rename_i w1 d1 heq
        rw [heq] at h1
        have h2 := measure_moves (e.diff2 b) b h1.good
        split
        · rename_i heq2
          rw [heq2] at h2; exact h1.trans h2
        · rename_i heq2
          rw [heq2] at h2; exact h1.trans h2

theorem setTime_moves {cfg : Cfg} {e : Env} {w w' : World} {dst src : Nat} {thr : Option Int}
    {ini : Bool} {rc : Nat} (hg : Good cfg w) (hi : dst ∈ w.ids)
    (h : setTime cfg e w dst src thr ini = .ok (w', rc)) : Moves cfg w w' := by
  unfold setTime at h
  split at h
  · simp only [Except.ok.injEq, Prod.mk.injEq] at h
    rw [← h.1]; exact Moves.refl hg
  · simp only [] at h
    have hc := compare_moves e src dst hg
    split at h
    · split at h
      · exact absurd h (by simp)
      · rename_i w2 rc2 hr
        have ha := adjustTime_moves hc.good (hc.sub _ hi) hr
        split at h
        · simp only [Except.ok.injEq, Prod.mk.injEq] at h
          rw [← h.1]
          exact hc.trans (ha.trans (Moves.set ha.good _ _
            ⟨rfl, id, rfl, fun _ => rfl, id, fun _ => id, fun _ => rfl, fun _ => rfl⟩))
        · simp only [Except.ok.injEq, Prod.mk.injEq] at h
          rw [← h.1]
          exact hc.trans ha
    · simp only [Except.ok.injEq, Prod.mk.injEq] at h
      rw [← h.1]
      exact hc

theorem loadFreq_moves {cfg : Cfg} (e : Env) {w : World} {i : Nat}
    (hu : Usual cfg) (hg : Good cfg w) (hi : i ∈ w.ids) :
    Moves cfg w (loadFreq cfg e w i).1 := by
  unfold loadFreq
  simp only []
  split
  · have h1 : Moves cfg w (rejectCorr w i) := by
      refine Moves.objects hg rfl rfl rfl (fun j hj => ?_)
      simp only [rejectCorr, World.set]
      split
      · rename_i he
        subst he
        exact ⟨rfl, id, rfl, id, id, fun _ => id, fun _ => rfl, fun _ => rfl⟩
      · exact Keeps.refl cfg j _
    exact h1.trans (adjustFreq_moves e 0 hu h1.good (h1.sub i hi))
  · have h1 : Moves cfg w (keepCorr w i (savedCorr cfg w i).1) :=
      Moves.set hg _ _ ⟨rfl, id, rfl, id, id, fun _ => id, fun _ => rfl, fun _ => rfl⟩
    exact h1.trans (adjustFreq_moves e _ hu h1.good (h1.sub i hi))

theorem saveFreq_moves {cfg : Cfg} (e : Env) {w : World} (i : Nat) (f : Rat)
    (hg : Good cfg w) : Moves cfg w (saveFreq e w i f).1 := by
  unfold saveFreq
  simp only []
  split
  · exact Moves.refl hg
  · refine Moves.objects hg ?_ ?_ ?_ (fun j hj => ?_)
    · simp only [World.set]; split <;> rfl
    · simp only [World.set]; split <;> rfl
    · simp only [World.set]; split <;> rfl
    · simp only [World.set]
      split
      · rename_i he
        subst he
        exact ⟨rfl, id, rfl, id, id, fun _ => id, fun _ => rfl, fun _ => rfl⟩
      · split <;> exact Keeps.refl cfg j _

theorem correctNew_moves {cfg : Cfg} {e : Env} {w w' : World} {i : Nat}
    (hu : Usual cfg) (hg : Good cfg w) (hi : i ∈ w.ids) (h : correctNew cfg e w i = .ok w') :
    Moves cfg w w' := by
  unfold correctNew at h
  simp only [] at h
  have hl := loadFreq_moves e hu hg hi
  split at h
  · split at h
    · simp only [Except.ok.injEq] at h
      rw [← h]; exact hl
    · split at h
      · split at h
        · exact absurd h (by simp)
        · rename_i w2 rc hs
          simp only [Except.ok.injEq] at h
          rw [← h]
          exact hl.trans (setTime_moves hl.good (hl.sub _ hi) hs)
      · simp only [Except.ok.injEq] at h
        rw [← h]; exact hl
  · simp only [Except.ok.injEq] at h
    rw [← h]; exact hl

theorem scheduleLeap_moves {cfg : Cfg} (e : Env) {w : World} (t : Leap) (hg : Good cfg w) :
    Moves cfg w (scheduleLeap e w t).1 := by
  unfold scheduleLeap
  split
  · exact Moves.refl hg
  · rename_i hro
    simp only []
    have h1 : Moves cfg w { w with kst := leapStatus w.kst t } :=
      Moves.objects hg rfl rfl rfl (fun j _ => Keeps.refl cfg j _)
    exact h1.trans (Moves.log h1.good _ h1.good.sys trivial (by simpa [Write.target] using hro)
      (by intro h; exact absurd h (by simp [Write.isTiming])))

theorem leapOne_moves {cfg : Cfg} {e : Env} {off : Int} {w w' : World} {i : Nat}
    (hg : Good cfg w) (hi : i ∈ w.ids) (h : leapOne cfg e off w i = .ok w') : Moves cfg w w' := by
  unfold leapOne at h
  split at h
  · split at h
    · exact absurd h (by simp)
    · rename_i w2 rc hr
      simp only [Except.ok.injEq] at h
      rw [← h]
      exact adjustTime_moves hg hi hr
  · simp only [Except.ok.injEq] at h
    rw [← h]; exact Moves.refl hg

theorem leapAll_moves {cfg : Cfg} {e : Env} {off : Int} :
    ∀ {is : List Nat} {w w' : World}, Good cfg w → (∀ i ∈ is, i ∈ w.ids) →
    leapAll cfg e off is w = .ok w' → Moves cfg w w'
  | [], w, w', hg, _, h => by
    simp only [leapAll, Except.ok.injEq] at h
    rw [← h]; exact Moves.refl hg
  | i :: is, w, w', hg, hi, h => by
    simp only [leapAll] at h
    split at h
    · exact absurd h (by simp)
    · rename_i w1 h1
      have m1 := leapOne_moves hg (hi i (by simp)) h1
      exact m1.trans (leapAll_moves m1.good
        (fun j hj => m1.sub j (hi j (List.mem_cons_of_mem _ hj))) h)

theorem leapNow_moves {cfg : Cfg} {e : Env} {w w' : World} {t : Leap} {rc : Nat}
    (hg : Good cfg w) (h : leapNow cfg e w t = .ok (w', rc)) : Moves cfg w w' := by
  cases t with
  | none =>
    simp only [leapNow, Except.ok.injEq, Prod.mk.injEq] at h
    rw [← h.1]; exact Moves.refl hg
  | del59 =>
    simp only [leapNow] at h
    split at h
    · exact absurd h (by simp)
    · rename_i w1 h1
      simp only [Except.ok.injEq, Prod.mk.injEq] at h
      rw [← h.1]
      exact leapAll_moves hg (fun _ h => h) h1
  | ins61 =>
    simp only [leapNow] at h
    split at h
    · exact absurd h (by simp)
    · rename_i w1 h1
      simp only [Except.ok.injEq, Prod.mk.injEq] at h
      rw [← h.1]
      exact leapAll_moves hg (fun _ h => h) h1

theorem setSync_moves {cfg : Cfg} (e : Env) {w : World} {i : Nat} (b : Bool) (t : Nat)
    (hg : Good cfg w) (hi : i ∈ w.ids) : Moves cfg w (setSync cfg e w i b t).1 := by
  unfold setSync
  split
  · exact Moves.refl hg
  · rename_i hro
    split
    · exact Moves.objects hg rfl rfl rfl (fun j _ => Keeps.refl cfg j _)
    · split
      · exact Moves.refl hg
      · split
        · exact Moves.refl hg
        · simp only []
          have hl := Moves.log hg (.sync i b t) hi trivial (by simpa [Write.target] using hro)
            (by intro h; exact absurd h (by simp [Write.isTiming]))
          split
          · exact hl.trans (Moves.set hl.good i _ ⟨rfl, id, rfl, id, id, fun _ => id, fun _ => rfl, fun _ => rfl⟩)
          · exact hl

theorem configReadonly_moves {cfg : Cfg} {i : Nat} : ∀ (ns : List String) {w : World},
    Good cfg w → Moves cfg w (configReadonly w i ns)
  | [], w, hg => Moves.refl hg
  | n :: ns, w, hg => by
    simp only [configReadonly]
    split
    · have h1 : Moves cfg w (w.set i { w.clk i with discipline := false, readOnly := true }) :=
        Moves.set hg _ _ ⟨rfl, fun _ => rfl, rfl, id, fun _ _ => rfl, fun _ => id, fun _ => rfl, fun _ => rfl⟩
      exact h1.trans (configReadonly_moves ns h1.good)
    · exact configReadonly_moves ns hg

theorem configList_moves {cfg : Cfg} {i : Nat} (n : String) {w : World}
    (hg : Good cfg w) : Moves cfg w (configList cfg w i n).1 := by
  unfold configList
  split
  · rename_i h
    split
    · exact Moves.refl hg
    · split
      · exact Moves.refl hg
      · exact Moves.set hg _ _ ⟨rfl, id, rfl, id, fun _ hr => by
          simp only [h.1] at hr; exact absurd hr (by simp), fun _ => id, fun _ => rfl, fun _ => rfl⟩
  · exact Moves.refl hg

theorem configAll_moves {cfg : Cfg} {i : Nat} : ∀ (ns : List String) {w : World} (rc : Nat),
    Good cfg w → Moves cfg w (configAll cfg w i rc ns).1
  | [], w, rc, hg => Moves.refl hg
  | n :: ns, w, rc, hg => by
    simp only [configAll]
    have h1 := configList_moves (i := i) n hg
    exact h1.trans (configAll_moves ns _ h1.good)

theorem configureNew_moves {cfg : Cfg} {i : Nat} {w : World}
    (hg : Good cfg w) : Moves cfg w (configureNew cfg w i).1 := by
  unfold configureNew
  simp only []
  have h1 := configReadonly_moves (i := i) cfg.readonlyNames hg
  split
  · exact h1
  · rename_i hro
    split
    · split
      · exact h1.trans (Moves.set h1.good _ _ ⟨rfl, id, rfl, id, fun _ hr => by
          exact absurd hr hro, fun _ => id, fun _ => rfl, fun _ => rfl⟩)
      · exact h1
    · exact h1.trans (configAll_moves _ _ h1.good)

theorem fixupClock_moves {cfg : Cfg} {e : Env} {w w' : World} {i : Nat}
    (hu : Usual cfg) (hg : Good cfg w) (hi : i ∈ w.ids) (h : fixupClock cfg e w i = .ok w') :
    Moves cfg w w' := by
  unfold fixupClock at h
  simp only [] at h
  have h1 := configReadonly_moves (i := i) cfg.readonlyNames hg
  have h2 := configAll_moves (i := i) cfg.listNames 0 h1.good
  exact h1.trans (h2.trans (correctNew_moves hu h2.good (h2.sub _ (h1.sub _ hi)) h))

theorem fixupAll_moves {cfg : Cfg} {e : Env} (hu : Usual cfg) :
    ∀ {is : List Nat} {w w' : World}, Good cfg w → (∀ i ∈ is, i ∈ w.ids) →
    fixupAll cfg e is w = .ok w' → Moves cfg w w'
  | [], w, w', hg, _, h => by
    simp only [fixupAll, Except.ok.injEq] at h
    rw [← h]; exact Moves.refl hg
  | i :: is, w, w', hg, hi, h => by
    simp only [fixupAll] at h
    split at h
    · exact fixupAll_moves hu hg (fun j hj => hi j (List.mem_cons_of_mem _ hj)) h
    · split at h
      · exact absurd h (by simp)
      · rename_i w1 h1
        have m1 := fixupClock_moves hu hg (hi i (by simp)) h1
        exact m1.trans (fixupAll_moves hu m1.good
          (fun j hj => m1.sub j (hi j (List.mem_cons_of_mem _ hj))) h)

/-! ## Following the interfaces -/

theorem maxAdjOf_range {cfg : Cfg} (hu : Usual cfg) (e : Env) (n : Nat) :
    0 ≤ maxAdjOf cfg e n ∧ maxAdjOf cfg e n ≤ cfg.limit := by
  unfold maxAdjOf
  split
  · exact ⟨hu.limit, le_refl _⟩
  · exact ⟨by positivity, by linarith⟩

/-- The clock object after a renewal. -/
theorem renew_set {cfg : Cfg} (hu : Usual cfg) (e : Env) (w : World) (i : Nat) :
    (renew cfg e w i).1 = w ∨
    ((w.clk i).kind ≠ .system ∧ ∃ c, (renew cfg e w i).1 = w.set i c ∧ Keeps cfg i (w.clk i) c ∧
      c.readOnly = (w.clk i).readOnly ∧ c.discipline = (w.clk i).discipline) := by
  unfold renew
  simp only []
  split
  · exact Or.inl rfl
  · rename_i hk
    refine Or.inr ⟨hk, ?_⟩
    have hkeep : ∀ c : Clk, c.kind = (w.clk i).kind → c.readOnly = (w.clk i).readOnly →
        c.blocked = (w.clk i).blocked → c.done = (w.clk i).done →
        c.discipline = (w.clk i).discipline →
        (c.maxAdj = (w.clk i).maxAdj ∨ 0 ≤ c.maxAdj ∧ c.maxAdj ≤ cfg.limit) →
        Keeps cfg i (w.clk i) c := by
      intro c h1 h2 h3 h4 h5 h6
      refine ⟨h1, fun h => by rw [h2]; exact h, h3, fun h => by rw [h4]; exact h,
        fun h => by rw [h2, h5]; exact h, fun _ h => ?_, fun h => absurd h hk,
        fun h => absurd h hk⟩
      rcases h6 with h6 | h6
      · rw [h6]; exact h
      · exact h6
    split
    · split
      · split
        · split
          · exact ⟨_, rfl, hkeep _ rfl rfl rfl rfl rfl (Or.inl rfl), rfl, rfl⟩
          · exact ⟨_, rfl, hkeep _ rfl rfl rfl rfl rfl (Or.inr (maxAdjOf_range hu e _)), rfl, rfl⟩
        · exact ⟨_, rfl, hkeep _ rfl rfl rfl rfl rfl (Or.inr (maxAdjOf_range hu e _)), rfl, rfl⟩
      · exact ⟨_, rfl, hkeep _ rfl rfl rfl rfl rfl (Or.inl rfl), rfl, rfl⟩
    · exact ⟨_, rfl, hkeep _ rfl rfl rfl rfl rfl (Or.inl rfl), rfl, rfl⟩

theorem renew_moves {cfg : Cfg} (hu : Usual cfg) (e : Env) {w : World} (i : Nat)
    (hg : Good cfg w) : Moves cfg w (renew cfg e w i).1 := by
  rcases renew_set hu e w i with h | ⟨-, c, h, hk, -, -⟩
  · rw [h]; exact Moves.refl hg
  · rw [h]; exact Moves.set hg i c hk

theorem renewAll_moves {cfg : Cfg} (hu : Usual cfg) (e : Env) :
    ∀ (is : List Nat) {w : World}, Good cfg w → Moves cfg w (renewAll cfg e is w)
  | [], w, hg => Moves.refl hg
  | i :: is, w, hg => by
    simp only [renewAll]
    have h1 := renew_moves hu e i hg
    exact h1.trans (renewAll_moves hu e is h1.good)

/-- A new clock at the head of the list. -/
theorem Moves.add {cfg : Cfg} {w w' : World} (h : Good cfg w) (hi : w'.ids = w.next :: w.ids)
    (hn : w'.next = w.next + 1) (hw : w'.writes = w.writes)
    (hc : ∀ j, j ≠ w.next → w'.clk j = w.clk j)
    (hk : (w'.clk w.next).kind ≠ .system)
    (hr : (w'.clk w.next).readOnly = cfg.noAdjust)
    (hd : (w'.clk w.next).discipline = false)
    (hl : 0 ≤ (w'.clk w.next).maxAdj ∧ (w'.clk w.next).maxAdj ≤ cfg.limit) : Moves cfg w w' := by
  have hne : ∀ j ∈ w.ids, j ≠ w.next := fun j hj => Nat.ne_of_lt (h.lt j hj)
  have h0 : 0 ≠ w.next := hne 0 h.sys
  refine
  { good :=
    { lt := ?_
      sys := by rw [hi]; exact List.mem_cons_of_mem _ h.sys
      kind0 := by rw [hc 0 h0]; exact h.kind0
      nic := ?_
      nodup := by
        rw [hi]
        exact List.nodup_cons.mpr ⟨fun hm => hne _ hm rfl, h.nodup⟩
      rod := ?_
      lim := ?_
      nd := by rw [hc 0 h0]; exact h.nd
      adj0 := by rw [hc 0 h0]; exact h.adj0 }
    sub := fun i hm => by rw [hi]; exact List.mem_cons_of_mem _ hm
    ro := fun i hm hr => by rw [hc i (hne i hm)]; exact hr
    bl := fun i hm => by rw [hc i (hne i hm)]
    kd := fun i hm => by rw [hc i (hne i hm)]
    dn := fun i hm hr => by rw [hc i (hne i hm)]; exact hr
    wr := ⟨[], by simp [hw], by simp⟩
    quiet := ?_ }
  · rw [hi, hn]
    intro i hm
    rcases List.mem_cons.mp hm with h1 | h1
    · omega
    · have := h.lt i h1; omega
  · rw [hi]
    intro i hm h0'
    rcases List.mem_cons.mp hm with h1 | h1
    · rw [h1]; exact hk
    · rw [hc i (hne i h1)]; exact h.nic i h1 h0'
  · rw [hi]
    intro i hm
    rcases List.mem_cons.mp hm with h1 | h1
    · rw [h1]; exact fun _ => hd
    · rw [hc i (hne i h1)]; exact h.rod i h1
  · rw [hi]
    intro i hm h0'
    rcases List.mem_cons.mp hm with h1 | h1
    · rw [h1]; exact hl
    · rw [hc i (hne i h1)]; exact h.lim i h1 h0'
  · intro hno ha
    refine ⟨?_, hw⟩
    rw [hi]
    intro i hm
    rcases List.mem_cons.mp hm with h1 | h1
    · rw [h1, hr]; exact hno
    · rw [hc i (hne i h1)]; exact ha i h1

theorem findByNic_mem {w : World} {n i : Nat} (h : findByNic w n = some i) : i ∈ w.ids :=
  List.mem_of_find?_eq_some h

theorem initInterface_moves {cfg : Cfg} {e : Env} {w w' : World} {f : Intf}
    (hu : Usual cfg) (hg : Good cfg w) (h : initInterface cfg e w f = .ok w') :
    Moves cfg w w' := by
  unfold initInterface at h
  split at h
  · split at h
    · simp only [Except.ok.injEq] at h
      rw [← h]; exact Moves.refl hg
    · simp only [] at h
      split at h
      · simp only [Except.ok.injEq] at h
        rw [← h]; exact Moves.refl hg
      · have hkn : (freshClk cfg f).kind ≠ .system := by
          simp only [freshClk]
          cases f.cls <;> simp [kindOf]
        have hadd : Moves cfg w
            { (renew cfg e (w.set w.next (freshClk cfg f)) w.next).1 with
              ids := w.next :: (renew cfg e (w.set w.next (freshClk cfg f)) w.next).1.ids
              next := w.next + 1 } := by
          have hself : (w.set w.next (freshClk cfg f)).clk w.next = freshClk cfg f := by
            simp [World.set]
          rcases renew_set hu e (w.set w.next (freshClk cfg f)) w.next with hr | ⟨-, c, hr, hk, h1, h2⟩
          · rw [hr]
            refine Moves.add hg rfl rfl rfl (fun j hj => by simp [World.set, hj]) ?_ ?_ ?_ ?_
            · simp only [hself]; exact hkn
            · simp only [hself]; rfl
            · simp only [hself]; rfl
            · simp only [hself]; exact ⟨le_refl _, hu.limit⟩
          · rw [hr]
            rw [hself] at hk h1 h2
            have hc : ((w.set w.next (freshClk cfg f)).set w.next c).clk w.next = c := by
              simp [World.set]
            refine Moves.add hg rfl rfl rfl (fun j hj => by simp [World.set, hj]) ?_ ?_ ?_ ?_
            · simp only [hc]; rw [hk.kind]; exact hkn
            · simp only [hc]; rw [h1]; rfl
            · simp only [hc]; rw [h2]; rfl
            · simp only [hc]
              exact hk.lim (fun h0 => by
                have := hg.lt 0 hg.sys
                omega) ⟨le_refl _, hu.limit⟩
        have hcfg := configureNew_moves (i := w.next) hadd.good
        split at h
        · exact absurd h (by simp)
        · simp only [Except.ok.injEq] at h
          rw [← h]
          exact hadd.trans hcfg
  · rename_i i hf
    split at h
    · exact correctNew_moves hu hg (findByNic_mem hf) h
    · simp only [Except.ok.injEq] at h
      rw [← h]; exact Moves.refl hg

theorem initAll_moves {cfg : Cfg} {e : Env} (hu : Usual cfg) :
    ∀ {fs : List Intf} {w w' : World}, Good cfg w →
    initAll cfg e fs w = .ok w' → Moves cfg w w'
  | [], w, w', hg, h => by
    simp only [initAll, Except.ok.injEq] at h
    rw [← h]; exact Moves.refl hg
  | f :: fs, w, w', hg, h => by
    simp only [initAll] at h
    split at h
    · exact absurd h (by simp)
    · rename_i w1 h1
      have m1 := initInterface_moves hu hg h1
      exact m1.trans (initAll_moves hu m1.good h)

theorem rescan_moves {cfg : Cfg} {e : Env} {w w' : World} {ifs : List Intf}
    (hu : Usual cfg) (hg : Good cfg w) (h : rescan cfg e w ifs = .ok w') : Moves cfg w w' := by
  unfold rescan at h
  split at h
  · exact absurd h (by simp)
  · rename_i w1 h1
    simp only [Except.ok.injEq] at h
    rw [← h]
    have m0 : Moves cfg w { w with ifs := ifs } :=
      Moves.objects hg rfl rfl rfl (fun j _ => Keeps.refl cfg j _)
    have m1 := initAll_moves hu m0.good h1
    exact m0.trans (m1.trans (renewAll_moves hu e _ m1.good))

theorem clockOf_mem {cfg : Cfg} {w : World} (hg : Good cfg w) (f : Option Intf) :
    clockOf w f ∈ w.ids := by
  cases f with
  | none => exact hg.sys
  | some f =>
    simp only [clockOf]
    cases h : findByNic w f.nic with
    | none => exact hg.sys
    | some i => exact findByNic_mem h

theorem linkEvent_moves {cfg : Cfg} {e : Env} {w w' : World} {ifs : List Intf} {f : Option Intf}
    (hu : Usual cfg) (hg : Good cfg w) (h : linkEvent cfg e w ifs f = .ok w') :
    Moves cfg w w' := by
  unfold linkEvent at h
  split at h
  · exact absurd h (by simp)
  · rename_i w1 h1
    have m1 := rescan_moves hu hg h1
    exact m1.trans (correctNew_moves hu m1.good (clockOf_mem m1.good f) h)

/-! ## Whole executions -/

/-- An operation that does not block or unblock. -/
def Op.blocks : Op → Option Nat
  | .block i _ => some i
  | _ => none

theorem exec_uses {cfg : Cfg} {e : Env} {w w' : World} {o : Op} (h : exec cfg e w o = .ok w') :
    (∀ i ∈ o.uses, i ∈ w.ids) ∧ execOp cfg e w o = .ok w' := by
  unfold exec at h
  split at h
  · rename_i ha
    refine ⟨fun i hi => ?_, h⟩
    simp only [List.all_eq_true, decide_eq_true_eq] at ha
    exact ha i hi
  · exact absurd h (by simp)

theorem exec_moves {cfg : Cfg} {e : Env} {w w' : World} {o : Op}
    (hu : Usual cfg) (hg : Good cfg w) (hb : o.blocks = none) (h : exec cfg e w o = .ok w') :
    Moves cfg w w' := by
  obtain ⟨hm, h⟩ := exec_uses h
  cases o with
  | adjTime i off =>
    simp only [execOp] at h
    split at h
    · exact absurd h (by simp)
    · rename_i hr
      simp only [Except.ok.injEq] at h
      rw [← h]; exact adjustTime_moves hg (hm i (by simp [Op.uses])) hr
  | adjFreq i f =>
    simp only [execOp, Except.ok.injEq] at h
    rw [← h]; exact adjustFreq_moves e f hu hg (hm i (by simp [Op.uses]))
  | setTime dst src thr ini =>
    simp only [execOp] at h
    split at h
    · exact absurd h (by simp)
    · rename_i hr
      simp only [Except.ok.injEq] at h
      rw [← h]; exact setTime_moves hg (hm dst (by simp [Op.uses])) hr
  | compare a b =>
    simp only [execOp, Except.ok.injEq] at h
    rw [← h]; exact compare_moves e a b hg
  | block i b => exact absurd hb (by simp [Op.blocks])
  | leapSchedule t =>
    simp only [execOp, Except.ok.injEq] at h
    rw [← h]; exact scheduleLeap_moves e t hg
  | leapNow t =>
    simp only [execOp] at h
    split at h
    · exact absurd h (by simp)
    · rename_i hr
      simp only [Except.ok.injEq] at h
      rw [← h]; exact leapNow_moves hg hr
  | sync i b t =>
    simp only [execOp, Except.ok.injEq] at h
    rw [← h]; exact setSync_moves e b t hg (hm i (by simp [Op.uses]))
  | load i =>
    simp only [execOp, Except.ok.injEq] at h
    rw [← h]; exact loadFreq_moves e hu hg (hm i (by simp [Op.uses]))
  | save i f =>
    simp only [execOp, Except.ok.injEq] at h
    rw [← h]; exact saveFreq_moves e i f hg
  | rescan ifs => exact rescan_moves hu hg h
  | link ifs f => exact linkEvent_moves hu hg h
  | fixup => exact fixupAll_moves hu hg (fun _ h => h) h
  | hw t =>
    simp only [execOp, Except.ok.injEq] at h
    rw [← h]; exact Moves.times hg t

/-- Blocking changes nothing but the count. -/
theorem setBlocked_eq (w : World) (i : Nat) (b : Bool) :
    (setBlocked w i b).1.ids = w.ids ∧ (setBlocked w i b).1.writes = w.writes ∧
    (setBlocked w i b).1.next = w.next ∧ (setBlocked w i b).1.kst = w.kst ∧
    (∀ j, ((setBlocked w i b).1.clk j) =
      { w.clk j with blocked := ((setBlocked w i b).1.clk j).blocked }) := by
  refine ⟨rfl, rfl, rfl, rfl, fun j => ?_⟩
  simp only [setBlocked, World.set]
  split
  · rename_i h; subst h; rfl
  · rfl

theorem exec_block {cfg : Cfg} {e : Env} {w w' : World} {o : Op} {i : Nat}
    (hb : o.blocks = some i) (h : exec cfg e w o = .ok w') :
    ∃ b, w' = (setBlocked w i b).1 := by
  have h2 := (exec_uses h).2
  clear h
  cases o with
  | block j b =>
    simp only [Op.blocks, Option.some.injEq] at hb
    subst hb
    simp only [execOp, Except.ok.injEq] at h2
    exact ⟨b, h2.symm⟩
  | _ => exact absurd hb (by simp [Op.blocks])

theorem setBlocked_good {cfg : Cfg} {w : World} (hg : Good cfg w) (i : Nat) (b : Bool) :
    Good cfg (setBlocked w i b).1 := by
  obtain ⟨h1, h2, h3, -, h4⟩ := setBlocked_eq w i b
  refine ⟨?_, ?_, ?_, ?_, ?_, ?_, ?_, ?_, ?_⟩
  · rw [h1, h3]; exact hg.lt
  · rw [h1]; exact hg.sys
  · rw [h4]; exact hg.kind0
  · rw [h1]; intro j hj h0; rw [h4]; exact hg.nic j hj h0
  · rw [h1]; exact hg.nodup
  · rw [h1]; intro j hj; rw [h4]; exact hg.rod j hj
  · rw [h1]; intro j hj h0; rw [h4]; exact hg.lim j hj h0
  · rw [h4]; exact hg.nd
  · rw [h4]; exact hg.adj0

/-- What holds across any number of operations. -/
structure Lasts (cfg : Cfg) (w w' : World) : Prop where
  good : Good cfg w'
  sub : ∀ i ∈ w.ids, i ∈ w'.ids
  ro : ∀ i ∈ w.ids, (w.clk i).readOnly = true → (w'.clk i).readOnly = true
  kd : ∀ i ∈ w.ids, (w'.clk i).kind = (w.clk i).kind
  dn : ∀ i ∈ w.ids, (w.clk i).done = true → (w'.clk i).done = true
  wr : ∃ xs, w'.writes = w.writes ++ xs ∧ ∀ x ∈ xs, x.target ∈ w'.ids ∧ Sane cfg x ∧
    (x.target ∈ w.ids → (w.clk x.target).readOnly = false)
  quiet : cfg.noAdjust = true → (∀ i ∈ w.ids, (w.clk i).readOnly = true) →
    (∀ i ∈ w'.ids, (w'.clk i).readOnly = true) ∧ w'.writes = w.writes

theorem Moves.lasts {cfg : Cfg} {w w' : World} (h : Moves cfg w w') : Lasts cfg w w' := by
  obtain ⟨xs, h1, h2⟩ := h.wr
  exact ⟨h.good, h.sub, h.ro, h.kd, h.dn,
    ⟨xs, h1, fun x hx => ⟨(h2 x hx).known, (h2 x hx).sane, (h2 x hx).free⟩⟩, h.quiet⟩

theorem Lasts.trans {cfg : Cfg} {w w' w'' : World} (a : Lasts cfg w w') (b : Lasts cfg w' w'') :
    Lasts cfg w w'' := by
  obtain ⟨xs, hx, ax⟩ := a.wr
  obtain ⟨ys, hy, ay⟩ := b.wr
  refine ⟨b.good, fun i h => b.sub i (a.sub i h),
    fun i h hr => b.ro i (a.sub i h) (a.ro i h hr),
    fun i h => by rw [b.kd i (a.sub i h), a.kd i h],
    fun i h hr => b.dn i (a.sub i h) (a.dn i h hr),
    ⟨xs ++ ys, by rw [hy, hx, List.append_assoc], ?_⟩, fun hn h => ?_⟩
  · intro x hmem
    rcases List.mem_append.mp hmem with h | h
    · have := ax x h
      exact ⟨b.sub _ this.1, this.2.1, this.2.2⟩
    · have := ay x h
      refine ⟨this.1, this.2.1, fun hm => ?_⟩
      have hf := this.2.2 (a.sub _ hm)
      cases hr : (w.clk x.target).readOnly with
      | false => rfl
      | true => rw [a.ro _ hm hr] at hf; exact absurd hf (by simp)
  · obtain ⟨h1, h2⟩ := a.quiet hn h
    obtain ⟨h3, h4⟩ := b.quiet hn h1
    exact ⟨h3, by rw [h4, h2]⟩

theorem exec_lasts {cfg : Cfg} {e : Env} {w w' : World} {o : Op}
    (hu : Usual cfg) (hg : Good cfg w) (h : exec cfg e w o = .ok w') : Lasts cfg w w' := by
  cases hb : o.blocks with
  | none => exact (exec_moves hu hg hb h).lasts
  | some i =>
    obtain ⟨b, rfl⟩ := exec_block hb h
    obtain ⟨h1, h2, h3, -, h4⟩ := setBlocked_eq w i b
    refine ⟨setBlocked_good hg i b, fun j hj => by rw [h1]; exact hj,
      fun j _ hr => by rw [h4]; exact hr, fun j _ => by rw [h4], fun j _ hr => by rw [h4]; exact hr,
      ⟨[], by rw [h2]; simp, by simp⟩, fun _ ha => ⟨fun j hj => ?_, h2⟩⟩
    rw [h1] at hj
    rw [h4]; exact ha j hj

theorem run_lasts {cfg : Cfg} (hu : Usual cfg) : ∀ {os : List (Op × Env)} {w w' : World},
    Good cfg w → run cfg w os = .ok w' → Lasts cfg w w'
  | [], w, w', hg, h => by
    simp only [run, Except.ok.injEq] at h
    rw [← h]; exact (Moves.refl hg).lasts
  | (o, e) :: os, w, w', hg, h => by
    simp only [run] at h
    split at h
    · exact absurd h (by simp)
    · rename_i w1 h1
      have l1 := exec_lasts hu hg h1
      exact l1.trans (run_lasts hu l1.good h)

/-- The state after start-up. -/
theorem boot_lasts {cfg : Cfg} {e : Env} {t : Nat → Int} {fl : Nat → Option Int} {w : World}
    (hu : Usual cfg) (h : boot cfg e t fl = .ok w) :
    ∃ w0 : World, w0.ids = [0] ∧ w0.writes = [] ∧ (w0.clk 0).readOnly = cfg.noAdjust ∧
      Good cfg w0 ∧ Moves cfg w0 w := by
  unfold boot at h
  have hg : Good cfg (bootWorld cfg t fl) :=
    ⟨by simp [bootWorld], by simp [bootWorld], rfl, by simp [bootWorld], by simp [bootWorld],
      by simp [bootWorld], by simp [bootWorld], rfl, rfl⟩
  have h1 := configureNew_moves (i := 0) hg
  have h2 := correctNew_moves hu h1.good h1.good.sys h
  exact ⟨bootWorld cfg t fl, rfl, rfl, rfl, hg, h1.trans h2⟩

end Verif.Clock
