import Verif.Gps.Props

/-
# Properties of the GPS sync module: offset and accuracy
-/

set_option linter.unusedSimpArgs false
set_option linter.unusedVariables false

namespace Verif.Gps

/-! ## C397: a slave has a measured offset -/

/-- The difference of clock and real time last reported since there is a fix. The first argument after the
events is whether there is a fix. -/
def measured : List Ev → Bool → Option Int → Option Int
  | [], _, o => o
  | .data _ r _ _ :: es, f, o =>
    let f' := match r.status with | some x => decide (2 ≤ x.1) | none => f
    measured es f' (if f' = true then (match r.toff with | some x => some (x.2 - x.1) | none => o) else none)
  | .fail _ _ _ :: es, f, o => measured es f o
  | .stepClock :: es, f, o => measured es f o
  | .control _ :: es, f, o => measured es f o

/-- C397: the offset of a slave has been measured since there is a fix, and is the last one measured. -/
def C397_statement : Prop :=
  ∀ (th : Int) (es : List Ev), (run th es).s.st = .slave →
    measured es false none = some (run th es).s.offset

/-- A fix, but no times yet: a slave with an offset of 0. -/
theorem C397_violated : ¬ C397_statement := by
  intro h
  have := h 0 [.data 9 ⟨some (4, 9), some (3, 5, 1000), none⟩ (some 1) 0] (by decide)
  revert this; decide

theorem foldl_offset (es : List Ev) (i : Inst) (hi : Inv i) (o : Option Int) (ho : i.s.offset = o.getD 0) :
    (es.foldl step i).s.offset = (measured es i.s.fix o).getD 0 := by
  induction es generalizing i o with
  | nil => exact ho
  | cons e es ih =>
    rw [List.foldl_cons]
    cases e with
    | fail e t now => rw [fail_same i hi]; exact ih i hi o ho
    | stepClock => exact ih i hi o ho
    | control x => exact ih _ (step_inv i (.control x) hi) o ho
    | data b r t now =>
      obtain ⟨d1, d2, d3, d4⟩ := data_spec i hi b r t now
      have hm : measured (.data b r t now :: es) i.s.fix o =
          measured es (step i (.data b r t now)).s.fix
            (if (step i (.data b r t now)).s.fix = true
              then (match r.toff with | some x => some (x.2 - x.1) | none => o) else none) := by
        rw [d2]; rfl
      rw [hm]
      apply ih _ d1
      cases hf : (step i (.data b r t now)).s.fix with
      | false => simpa using d1.off hf
      | true =>
        rw [d4 hf]
        cases r.toff with
        | none => simpa using ho
        | some x => simp

/-- C397, the part that holds: the offset is the last one measured since there is a fix, or 0 if none has been
measured. Missing: an instance whose offset has not been measured is a slave all the same. -/
theorem C397_offset_partial (th : Int) (es : List Ev) :
    (run th es).s.offset = (measured es false none).getD 0 :=
  foldl_offset es (init th) (init_inv th) none rfl

/-- The offset is forgotten with the fix. -/
example : measured [.data 9 ⟨some (4, 9), some (3, 5, 1000), some (100, 350)⟩ (some 1) 0] false none = some 250 ∧
    measured [.data 9 ⟨some (4, 9), some (3, 5, 1000), some (100, 350)⟩ (some 1) 0,
      .data 9 ⟨none, some (1, 5, 2000), none⟩ (some 2) 0,
      .data 9 ⟨none, some (2, 5, 3000), none⟩ (some 3) 0] false none = none := by decide

/-! ## C398: the accuracy is the one last reported -/

/-- The error of time last reported. -/
def lastErr : List Ev → Int → Int
  | [], a => a
  | .data _ ⟨_, some (_, ept, _), _⟩ _ _ :: es, _ => lastErr es ept
  | _ :: es, a => lastErr es a

/-- C398: a slave answers a query with the error of time last reported. -/
def C398_statement : Prop :=
  ∀ (th : Int) (es : List Ev), (run th es).s.st = .slave → queryAcc (run th es) = some (lastErr es 0)

/-- The error grows from 5 ns to a second; nothing else changes. -/
theorem C398_violated : ¬ C398_statement := by
  intro h
  have := h 0 [.data 9 ⟨some (4, 9), some (3, 5, 1000), some (100, 350)⟩ (some 1) 0,
    .data 9 ⟨none, some (3, 1000000000, 2000), none⟩ (some 2) 0] (by decide)
  revert this; decide

/-- C398, the part that holds: a report of status that comes with a new offset, of an instance that is a slave then,
gives the accuracy. Missing: reports after which the offset is as before. -/
theorem C398_accuracy_partial (th : Int) (es : List Ev) (b : Nat) (r : Report) (t : Option Int)
    (now mode ept gt : Int) (hr : r.status = some (mode, ept, gt)) (hm : 2 ≤ mode)
    (hc : (run th (es ++ [.data b r t now])).s.offset ≠ (run th es).s.offset) :
    queryAcc (run th (es ++ [.data b r t now])) = some ept := by
  have hfix := (data_spec (run th es) (run_inv th es) b r t now).2.1
  have hinv := (data_spec (run th es) (run_inv th es) b r t now).1
  have hrun : run th (es ++ [.data b r t now]) = step (run th es) (.data b r t now) := by
    unfold run; rw [List.foldl_append]; rfl
  rw [hrun] at hc ⊢
  have hst : (step (run th es) (.data b r t now)).s.st = .slave := by
    rw [hinv.st, hfix, hr]; simp [stateOf, hm]
  have hacc : (step (run th es) (.data b r t now)).s.acc = ept := by
    generalize run th es = i at *
    have hs : step i (.data b r t now) = if (machine i.s b r).2 = true
        then updateState i (machine i.s b r).1 t now else i := rfl
    rw [hs] at hc ⊢
    split at hc
    · rename_i h2
      rw [if_pos h2]
      have hu : ∀ n : S, (updateState i n t now).s.acc = n.acc := by
        intro n; unfold updateState offIdChange; dsimp only; split
        · split <;> rfl
        · rfl
      have hp : ∀ (rc : Int) (u : Bool) (s : S), (parseState rc u s).acc = s.acc := by
        intro rc u s
        by_cases h0 : rc = 0 <;> cases hf : s.fix <;> cases u <;> simp [parseState, h0, hf]
      have hb : (useToff r (useStatus r (useSats r i.s))).acc = ept := by
        have h3 : ∀ s, (useToff r s).acc = s.acc := by
          intro s; unfold useToff
          cases r.toff with
          | none => rfl
          | some x => cases hf : s.fix <;> simp [hf]
        rw [h3]; unfold useStatus; rw [hr]
      have hnb : ¬ ((b : Int) < 0) := by omega
      rw [hu]
      unfold machine
      rw [if_neg hnb]
      dsimp only
      rw [hp, hb]
    · exact absurd rfl hc
  unfold queryAcc
  rw [if_pos hst, hacc]

example : (run 0 ([.data 9 ⟨some (4, 9), some (3, 5, 1000), some (100, 350)⟩ (some 1) 0] ++
      [.data 9 ⟨none, some (3, 70, 2000), some (100, 351)⟩ (some 2) 0])).s.offset ≠
    (run 0 [.data 9 ⟨some (4, 9), some (3, 5, 1000), some (100, 350)⟩ (some 1) 0]).s.offset := by decide

end Verif.Gps
