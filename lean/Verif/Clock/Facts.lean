import Verif.Clock.Moves

set_option linter.unusedSimpArgs false
set_option linter.unusedVariables false

/-!
# Clocks: what comparing and stepping do
-/

namespace Verif.Clock

/-- Nothing differs but counters of good comparisons. -/
structure Counted (w w' : World) : Prop where
  ids : w'.ids = w.ids
  next : w'.next = w.next
  kst : w'.kst = w.kst
  time : w'.time = w.time
  files : w'.files = w.files
  ifs : w'.ifs = w.ifs
  writes : w'.writes = w.writes
  clk : ∀ j, w'.clk j = { w.clk j with good := (w'.clk j).good }

theorem Counted.refl (w : World) : Counted w w := ⟨rfl, rfl, rfl, rfl, rfl, rfl, rfl, fun _ => rfl⟩

theorem Counted.trans {a b c : World} (x : Counted a b) (y : Counted b c) : Counted a c :=
  ⟨by rw [y.ids, x.ids], by rw [y.next, x.next], by rw [y.kst, x.kst], by rw [y.time, x.time],
   by rw [y.files, x.files], by rw [y.ifs, x.ifs], by rw [y.writes, x.writes],
   fun j => by rw [y.clk j, x.clk j]⟩

theorem Counted.set (w : World) (i n : Nat) : Counted w (w.set i { w.clk i with good := n }) :=
  ⟨rfl, rfl, rfl, rfl, rfl, rfl, rfl, fun j => by
    simp only [World.set]
    by_cases h : j = i
    · subst h; rw [if_pos rfl]
    · rw [if_neg h]⟩

theorem measure_counted (r : Except Nat Int) (w : World) (i : Nat) :
    Counted w (measure r w i).1 := by
  unfold measure
  split
  · exact Counted.refl w
  · split <;> exact Counted.set w i _

theorem compare_counted (e : Env) (w : World) (a b : Nat) : Counted w (compare e w a b).1 := by
  unfold compare
  split
  · exact Counted.refl w
  · split
    · exact Counted.refl w
    · have h1 := measure_counted (e.diff1 a) w a
      split
      · rename_i heq
        rw [heq] at h1; exact h1
      · rename_i w1 d1 heq
        rw [heq] at h1
        have h2 := measure_counted (e.diff2 b) w1 b
        split
        · rename_i heq2
          rw [heq2] at h2; exact h1.trans h2
        · rename_i heq2
          rw [heq2] at h2; exact h1.trans h2

theorem Counted.kind {w w' : World} (h : Counted w w') (j : Nat) :
    (w'.clk j).kind = (w.clk j).kind := by rw [h.clk j]

theorem Counted.noPhc {w w' : World} (h : Counted w w') (j : Nat) :
    Verif.Clock.noPhc (w'.clk j) = Verif.Clock.noPhc (w.clk j) := by rw [h.clk j]; rfl

theorem Counted.ro {w w' : World} (h : Counted w w') (j : Nat) :
    (w'.clk j).readOnly = (w.clk j).readOnly := by rw [h.clk j]

theorem Counted.bl {w w' : World} (h : Counted w w') (j : Nat) :
    (w'.clk j).blocked = (w.clk j).blocked := by rw [h.clk j]

theorem Counted.done {w w' : World} (h : Counted w w') (j : Nat) :
    (w'.clk j).done = (w.clk j).done := by rw [h.clk j]

theorem measure_exact {cfg : Cfg} {w : World} (hg : Good cfg w) {i : Nat} (hi : i ∈ w.ids)
    {r : Except Nat Int} (h : r = .ok (w.time i - w.time 0)) :
    (measure r w i).2 = .ok (w.time i - w.time 0) := by
  unfold measure
  split
  · rename_i hk
    have : i = 0 := by
      by_contra h0
      exact hg.nic i hi h0 hk
    rw [this, sub_self]
  · rw [h]

/-- A comparison with an accurate measurement. -/
theorem compare_exact {cfg : Cfg} {e : Env} {w : World} (hg : Good cfg w) (ha : Accurate e w)
    {a b : Nat} (ia : a ∈ w.ids) (ib : b ∈ w.ids) :
    (compare e w a b).2 =
      if (w.clk a).deleted = true ∨ (w.clk b).deleted = true then (ENOENT, 0)
      else if noPhc (w.clk a) = true ∨ noPhc (w.clk b) = true then (ENOSYS, 0)
      else (0, w.time a - w.time b) := by
  unfold compare
  by_cases h1 : (w.clk a).deleted = true ∨ (w.clk b).deleted = true
  · rw [if_pos (by simpa using h1), if_pos h1]
  · rw [if_neg (by simpa using h1), if_neg h1]
    by_cases h2 : noPhc (w.clk a) = true ∨ noPhc (w.clk b) = true
    · rw [if_pos (by simpa using h2), if_pos h2]
    · rw [if_neg (by simpa using h2), if_neg h2]
      have m1 := measure_exact hg ia (ha a).1
      have c1 := measure_counted (e.diff1 a) w a
      have g1 := (measure_moves (e.diff1 a) a hg).good
      split
      · rename_i heq; rw [heq] at m1; exact absurd m1 (by simp)
      · rename_i w1 d1 heq
        rw [heq] at m1 c1 g1
        simp only [] at m1 c1 g1
        have m2 := measure_exact (r := e.diff2 b) g1 (by rw [c1.ids]; exact ib)
          (by rw [c1.time]; exact (ha b).2)
        split
        · rename_i heq2; rw [heq2] at m2; exact absurd m2 (by simp)
        · rename_i w2 d2 heq2
          rw [heq2] at m2
          simp only [Except.ok.injEq] at m1 m2
          rw [m1, m2, c1.time]
          simp only [Prod.mk.injEq, true_and]
          omega

theorem recordStep_clk {w w' : World} (h : recordStep w = .ok w') (j : Nat) :
    w'.clk j = { w.clk j with stepped := (w'.clk j).stepped } := by
  obtain ⟨-, rfl⟩ := recordStep_ok h
  simp only []
  by_cases hc : j ∈ w.ids ∧ (w.clk j).kind ≠ .system
  · rw [if_pos hc]
  · rw [if_neg hc]

/-- What a step that is made changes: the time of that clock and nothing of the others. -/
theorem adjustTime_cases {cfg : Cfg} {e : Env} {w : World} {i : Nat} {off : Int}
    {r : World × Nat} (h : adjustTime cfg e w i off = .ok r) :
    (r.1 = w ∧ (r.2 = ENODEV ∧ noPhc (w.clk i) = true ∨
        r.2 = 0 ∧ ((w.clk i).readOnly = true ∨ 0 < (w.clk i).blocked))) ∨
    (noPhc (w.clk i) = false ∧ (w.clk i).readOnly = false ∧ (w.clk i).blocked ≤ 0 ∧
      r.1.writes = w.writes ++ [.step i (off / 4294967296) (statusFor cfg w i)] ∧
      r.1.ids = w.ids ∧
      (e.adjT i < 0 ∧ r.2 = e.errno ∧ r.1.time = w.time ∧ r.1.clk = w.clk ∨
       0 ≤ e.adjT i ∧ r.2 = 0 ∧
        r.1.time = (fun j => if j = i then w.time j + off / 4294967296 * 4294967296
          else w.time j) ∧
        ∀ j, r.1.clk j = { w.clk j with stepped := (r.1.clk j).stepped })) := by
  unfold adjustTime at h
  split at h
  · rename_i hp
    simp only [Except.ok.injEq] at h
    rw [← h]
    exact Or.inl ⟨rfl, Or.inl ⟨rfl, hp⟩⟩
  · rename_i hp
    split at h
    · rename_i hr
      simp only [Except.ok.injEq] at h
      rw [← h]
      exact Or.inl ⟨rfl, Or.inr ⟨rfl, Or.inl hr⟩⟩
    · rename_i hr
      split at h
      · rename_i hb
        simp only [Except.ok.injEq] at h
        rw [← h]
        exact Or.inl ⟨rfl, Or.inr ⟨rfl, Or.inr hb⟩⟩
      · rename_i hb
        refine Or.inr ⟨by simpa using hp, by simpa using hr, by omega, ?_⟩
        simp only [] at h
        split at h
        · rename_i ha
          simp only [Except.ok.injEq] at h
          rw [← h]
          exact ⟨rfl, rfl, Or.inl ⟨ha, rfl, rfl, rfl⟩⟩
        · rename_i ha
          generalize ht : (fun j => if j = i then w.time j + off / 4294967296 * 4294967296
            else w.time j) = t at h
          split at h
          · exact absurd h (by simp)
          · rename_i w2 hr
            simp only [Except.ok.injEq] at h
            rw [← h]
            obtain ⟨-, rfl⟩ := recordStep_ok hr
            refine ⟨rfl, rfl, Or.inr ⟨by omega, rfl, by rw [← ht], fun j => ?_⟩⟩
            exact recordStep_clk hr j

theorem recordStep_error {w : World} {f : Fault} (h : recordStep w = .error f) :
    f = .assertion ∧ ∃ j ∈ w.ids, noPhc (w.clk j) = true := by
  unfold recordStep at h
  split at h
  · rename_i ha
    simp only [Except.error.injEq] at h
    exact ⟨h.symm, by simpa using ha⟩
  · exact absurd h (by simp)

/-- When a step aborts the program. -/
theorem adjustTime_aborts (cfg : Cfg) (e : Env) (w : World) (i : Nat) (off : Int) (f : Fault) :
    adjustTime cfg e w i off = .error f ↔
      f = .assertion ∧ noPhc (w.clk i) = false ∧ (w.clk i).readOnly = false ∧
      (w.clk i).blocked ≤ 0 ∧ 0 ≤ e.adjT i ∧ ∃ j ∈ w.ids, noPhc (w.clk j) = true := by
  unfold adjustTime
  split
  · rename_i h; simp [h]
  · rename_i h
    split
    · rename_i h1; simp [h1]
    · rename_i h1
      split
      · rename_i h2
        simp only [reduceCtorEq, false_iff]
        rintro ⟨-, -, -, h3, -⟩
        omega
      · rename_i h2
        simp only []
        split
        · rename_i h3
          simp only [reduceCtorEq, false_iff]
          rintro ⟨-, -, -, -, h4, -⟩
          omega
        · rename_i h3
          split
          · rename_i f' hrec
            obtain ⟨h5, h6⟩ := recordStep_error hrec
            simp only [Except.error.injEq]
            refine ⟨fun h7 => ⟨by rw [← h7, h5], by simpa using h, by simpa using h1, by omega,
              by omega, h6⟩, fun h7 => by rw [h5, h7.1]⟩
          · rename_i w2 hrec
            have h5 := (recordStep_ok hrec).1
            simp only [reduceCtorEq, false_iff]
            rintro ⟨-, -, -, -, -, j, hj, hn⟩
            have := h5 j hj
            simp only [World.log] at this
            rw [hn] at this
            exact absurd this (by simp)

end Verif.Clock
