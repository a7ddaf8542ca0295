import Verif.Pps.Inv2

/-! The time of day, control and periods. -/

set_option linter.unusedSimpArgs false
set_option linter.unusedVariables false

namespace Verif.Pps
open Verif.Filter Verif.Stats

/-! ## Control -/

theorem granted_snoc (tr : List Entry) (e : Entry) : granted (tr ++ [e]) =
    match e.ev with
    | .control mask flags => if mask.clockCtrl then flags.clockCtrl else granted tr
    | _ => granted tr := by
  simp only [granted, List.foldl_append, List.foldl_cons, List.foldl_nil]
  cases e.ev <;> rfl

/-- The flags after an event. -/
def newFlags (f : Flags) : Ev → Flags
  | .control mask flags => ⟨if mask.clockCtrl then flags.clockCtrl else f.clockCtrl,
      if mask.tsProc then flags.tsProc else f.tsProc⟩
  | _ => f

theorem Move.flags {t i e t' i' outs} (mv : Move t i e t' i' outs) : i'.flags = newFlags i.flags e := by
  have hq : ∀ {i i' : Inst} {now : Int}, QuietMove i now i' → i'.flags = i.flags := by
    intro i i' now q; cases q <;> rfl
  cases mv with
  | tick now s c ns i' q => have := hq q; exact this
  | quiet now r score i1 q => rw [(finish_frame t i1 now r).2.2.2.2.1]; exact hq q
  | error now r score =>
    rw [(finish_frame t _ now r).2.2.2.2.1]
    rcases onError_frame i with ⟨-, h1⟩ | ⟨-, h1⟩ <;> (rw [h1]; rfl)
  | pulse now seq time r score t1 i1 o1 pm => rw [(finish_frame t1 i1 now r).2.2.2.2.1]; exact pm.kept.1.flags
  | control mask flags =>
    obtain ⟨pid, st, he, -, hst⟩ := control_eq i mask flags
    rw [he]; rfl
  | step off hsrc => rfl
  | save =>
    obtain ⟨sv, he, -, ho⟩ := save_eq i
    rw [he]; rfl
  | pid => rfl

theorem Hist.granted {m0 m : Mod} {tr : List Entry} (hh : Hist m0 m tr) (k : Nat)
    (h0 : ∀ i, m0.insts[k]? = some i → Fresh i) (i : Inst) (hi : m.insts[k]? = some i) :
    i.flags.clockCtrl = granted (own k tr) := by
  refine hh.inst k (J := fun i tr => i.flags.clockCtrl = Pps.granted tr) ?_ ?_ i hi
  · intro i hi
    rw [(h0 i hi).flags]; rfl
  · intro t i e t' i' outs tr hJ hs
    rw [granted_snoc, (step_move hs).flags, ← hJ]
    cases e <;> rfl

/-! ## Stepping at startup -/

theorem ServoMove.active {t i time t' i' outs} (h : ServoMove t i time t' i' outs) :
    i'.active = (i.active || outs.any Out.isFreq) := by
  cases h <;> simp [Out.isFreq]

theorem finish_isFreq (t : Tod) (i : Inst) (now : Int) (r : TodReply) : (finish t i now r).2.2.any Out.isFreq = false := by
  obtain ⟨nt, sy, cv, t', -, -, h⟩ := finish_eq t i now r
  rw [h]
  simp only
  split <;> simp [Out.isFreq]

theorem finish_active (t : Tod) (i : Inst) (now : Int) (r : TodReply) : (finish t i now r).2.1.active = i.active := by
  obtain ⟨nt, sy, cv, t', -, -, h⟩ := finish_eq t i now r
  rw [h]

theorem PulseMove.active {t i now seq time score t' i' outs} (h : PulseMove t i now seq time score t' i' outs) :
    i'.active = (i.active || outs.any Out.isFreq) := by
  obtain ⟨ca, cn, hcs⟩ := checkSeq_eq i seq
  have h1 : (checkSeq i seq).active = i.active := by rw [hcs]
  obtain ⟨a, b, c, d, hcp⟩ := checkPeriod_eq (checkSeq i seq) time
  have h2 : (checkPeriod (checkSeq i seq) time).active = i.active := by rw [hcp]; exact h1
  cases h with
  | first => simp
  | off => simpa using h1
  | skip => simpa using h1
  | few => simpa using h2
  | outlier j _ _ _ _ ho =>
    obtain ⟨p, n, hj⟩ := checkOutlier_eq ho
    have : j.active = i.active := by rw [hj]; exact h2
    simpa using this
  | used j t' i' outs' _ _ _ _ ho sm =>
    obtain ⟨p, n, hj⟩ := checkOutlier_eq ho
    have : j.active = i.active := by rw [hj]; exact h2
    simp only [List.any_append, List.any_cons, List.any_nil, Bool.or_false, Out.isFreq]
    rw [sm.active, this]

theorem acted_snoc (tr : List Entry) (e : Entry) :
    acted (tr ++ [e]) = (acted tr || (e.ev.pulse?.isSome && e.outs.any Out.isFreq)) := by
  simp [acted]

theorem Hist.active {m0 m : Mod} {tr : List Entry} (hh : Hist m0 m tr) (k : Nat)
    (h0 : ∀ i, m0.insts[k]? = some i → i.active = false) (i : Inst) (hi : m.insts[k]? = some i) :
    i.active = acted (own k tr) := by
  refine hh.inst k (J := fun i tr => i.active = acted tr) ?_ ?_ i hi
  · intro i hi
    rw [h0 i hi]; rfl
  · intro t i e t' i' outs tr hJ hs
    rw [acted_snoc, ← hJ]
    have hq : ∀ {i i' : Inst} {now : Int}, QuietMove i now i' → i'.active = i.active := by
      intro i i' now q; cases q <;> rfl
    cases step_move hs with
    | tick now s c ns i' q => rw [hq q]; simp
    | quiet now r score i1 q => rw [finish_active, hq q]; simp [Ev.pulse?]
    | error now r score =>
      rw [finish_active]
      rcases onError_frame i with ⟨-, h1⟩ | ⟨-, h1⟩ <;> rw [h1]
      · simp [Ev.pulse?]
      · simp [Ev.pulse?, Pps.reset]
    | pulse now seq time r score t1 i1 o1 pm =>
      rw [finish_active, pm.active, List.any_append, finish_isFreq]
      simp [Ev.pulse?]
    | control mask flags =>
      obtain ⟨pid, st, he, -, hst⟩ := control_eq i mask flags
      rw [he]; simp
    | step off hsrc => simp [Ev.pulse?]
    | save =>
      obtain ⟨sv, he, -, ho⟩ := save_eq i
      rw [he]; simp [Ev.pulse?]
    | pid => simp

/-! ## Periods without interruption -/

/-- While timestamps are processed, a slave knows the time of its latest pulse. -/
structure XOk (i : Inst) : Prop where
  proc : i.flags.tsProc = true
  stamp : i.state = .slave → i.stepped = false → i.stamp ≠ 0

theorem PulseMove.x {t i now seq time score t' i' outs} (h : PulseMove t i now seq time score t' i' outs)
    (hx : i.flags.tsProc = true) (ht : time ≠ 0) : i'.stamp ≠ 0 := by
  cases h with
  | first => simp only [hx, if_true]; exact ht
  | off hs hf => rw [hx] at hf; cases hf
  | skip => exact ht
  | few => exact ht
  | outlier => exact ht
  | used => exact ht

theorem finish_stamp (t : Tod) (i : Inst) (now : Int) (r : TodReply) :
    (finish t i now r).2.1.stamp = i.stamp ∧ (finish t i now r).2.1.stepped = i.stepped ∧
    (finish t i now r).2.1.good = i.good := by
  obtain ⟨nt, sy, cv, t', -, -, h⟩ := finish_eq t i now r
  rw [h]; exact ⟨rfl, rfl, rfl⟩

theorem Hist.xok {m0 m : Mod} {tr : List Entry} (hh : Hist m0 m tr) (k : Nat)
    (h0 : ∀ i, m0.insts[k]? = some i → Fresh i) (i : Inst) (hi : m.insts[k]? = some i)
    (ht : ∀ e ∈ own k tr, EntryTimeOk e.ev ∧ e.ev.switchesOff = false) : XOk i := by
  refine hh.inst k (J := fun i tr => (∀ e ∈ tr, EntryTimeOk e.ev ∧ e.ev.switchesOff = false) → XOk i) ?_ ?_ i hi ht
  · intro i hi _
    have f := h0 i hi
    exact ⟨by rw [f.flags], fun h => by rw [f.state] at h; cases h⟩
  · intro t i e t' i' outs tr hJ hs ht
    have hx := hJ (fun e he => ht e (by simp [he]))
    have he := ht ⟨k, e, outs⟩ (by simp)
    simp only at he
    have mv := step_move hs
    have hfl := mv.flags
    have hproc : i'.flags.tsProc = true := by
      rw [hfl]
      cases e with
      | control mask flags =>
        have h2 := he.2
        simp only [Ev.switchesOff] at h2
        cases h3 : mask.tsProc <;> cases h4 : flags.tsProc <;> simp_all [hx.proc, newFlags]
      | _ => exact hx.proc
    refine ⟨hproc, ?_⟩
    have hq : ∀ {i i' : Inst} {now : Int}, (i.state = .slave → i.stepped = false → i.stamp ≠ 0) → QuietMove i now i' →
        (i'.state = .slave → i'.stepped = false → i'.stamp ≠ 0) := by
      intro i i' now h q
      cases q with
      | same => exact h
      | alarm => exact h
      | late => intro h; cases h
      | well => intro h; cases h
    cases mv with
    | tick now s c ns i' q =>
      exact hq (i := { i with started := s, checked := c, alarms := { i.alarms with noSignal := ns } }) hx.stamp q
    | quiet now r score i1 q =>
      have hf := finish_frame t i1 now r
      have hg := finish_stamp t i1 now r
      rw [hf.1, hg.1, hg.2.1]
      exact hq hx.stamp q
    | error now r score =>
      rw [(finish_frame t _ now r).1]
      rcases onError_frame i with ⟨h1, h2⟩ | ⟨h1, h2⟩
      · rw [h2, h1]; intro h; cases h
      · rw [h2]; intro h; cases h
    | pulse now seq time r score t1 i1 o1 pm =>
      rw [(finish_stamp t1 i1 now r).1]
      intro _ _
      refine pm.x hx.proc ?_
      intro h
      have := he.1 seq time rfl
      omega
    | control mask flags =>
      obtain ⟨pid, st, hc, -, hst⟩ := control_eq i mask flags
      rw [hc]
      have h2 := he.2
      simp only [Ev.switchesOff] at h2
      have : st = i.stamp := by
        rw [hst, if_neg]
        intro h
        simp [h.2.1, h.2.2] at h2
      simp only [this]
      exact hx.stamp
    | step off hsrc => intro _ h; cases h
    | save =>
      obtain ⟨sv, he, -, ho⟩ := save_eq i
      rw [he]; exact hx.stamp
    | pid => exact hx.stamp

/-! ## What a pulse that was acted on has passed -/

/-- A poll with effects on the clock or a measurement used the pulse. -/
theorem acts_used {t i e t' i' outs} (mv : Move t i e t' i' outs) (hp : e.isPoll = true)
    (ha : outs.any Out.acts = true) :
    ∃ now seq time r score j t1 i1 o1, e = .poll now (.pulse seq time) r score ∧
      i.state = .slave ∧ i.flags.tsProc = true ∧ i.stepped = false ∧
      (checkPeriod (checkSeq i seq) time).good ≥ 3 ∧
      checkOutlier { checkPeriod (checkSeq i seq) time with
        alarms := { (checkPeriod (checkSeq i seq) time).alarms with badSignal := false } } = some (j, true) ∧
      ServoMove t j time t1 i1 o1 ∧
      i' = (finish t1 { i1 with score := score, seq := seq, lastPps := now, stamp := time } now r).2.1 ∧
      t' = (finish t1 { i1 with score := score, seq := seq, lastPps := now, stamp := time } now r).1 ∧
      outs = (o1 ++ [.sample i1.offset i1.synced i1.alarms]) ++
        (finish t1 { i1 with score := score, seq := seq, lastPps := now, stamp := time } now r).2.2 := by
  cases mv with
  | quiet now r score i1 q => rw [(finish_outs t i1 now r).1] at ha; cases ha
  | error now r score => rw [(finish_outs t _ now r).1] at ha; cases ha
  | pulse now seq time r score t1 i1 o1 pm =>
    rw [List.any_append, (finish_outs t1 i1 now r).1, Bool.or_false] at ha
    cases pm with
    | first => simp at ha
    | off => simp at ha
    | skip => simp at ha
    | few => simp at ha
    | outlier => simp at ha
    | used j t1 i1 o1 h1 h2 h3 h4 h5 sm =>
      exact ⟨now, seq, time, r, score, j, t1, i1, o1, rfl, h1, h2, h3, h4, h5, sm, rfl, rfl, rfl⟩
  | tick => cases hp
  | control => cases hp
  | step => cases hp
  | save => cases hp
  | pid => cases hp

/-! ## The time of day -/

/-- From the time of day `t`, or `t1` if the clock was stepped, to `t'`. -/
def TodMove (t t1 t' : Tod) : Ev → Prop
  | .poll now _ r _ =>
    (t.next < now → t' = todAsk { t1 with next := t.next + sec } r) ∧ (¬ t.next < now → t' = t1)
  | _ => t' = t1

/-- What an event does to the shared time of day. -/
theorem step_tod {t i e t' i' outs} (hs : t.source = true) (mv : Move t i e t' i' outs) :
    ∃ t1, t1 = (if outs.any Out.isStep then { t with offset := 0 } else t) ∧
      TodMove t t1 t' e := by
  have hfin : ∀ (t1 : Tod) (i1 : Inst) (now : Int) (r : TodReply), t1.source = true →
      (t1.next < now → (finish t1 i1 now r).1 = todAsk { t1 with next := t1.next + sec } r) ∧
      (¬ t1.next < now → (finish t1 i1 now r).1 = t1) := by
    intro t1 i1 now r h1
    unfold finish todPoll
    simp only
    split
    · exact ⟨fun h => by omega, fun _ => rfl⟩
    · refine ⟨fun _ => ?_, fun h => by omega⟩
      simp only [todFind, h1, if_true]
  refine ⟨_, rfl, ?_⟩
  cases mv with
  | tick => simp [TodMove]
  | quiet now r score i1 q =>
    simp only [(finish_outs t i1 now r).2, Bool.false_eq_true, if_false]
    exact hfin t i1 now r hs
  | error now r score =>
    simp only [(finish_outs t _ now r).2, Bool.false_eq_true, if_false]
    exact hfin t _ now r hs
  | pulse now seq time r score t1 i1 o1 pm =>
    simp only [List.any_append, (finish_outs t1 i1 now r).2, Bool.or_false]
    have ht : t1 = (if o1.any Out.isStep then { t with offset := 0 } else t) := by
      cases pm with
      | used j t1 i1 o1 h1 h2 h3 h4 h5 sm =>
        cases sm <;> simp [Out.isStep]
      | _ => simp
    have hn : t1.next = t.next ∧ t1.source = true := by
      rw [ht]; split <;> exact ⟨rfl, hs⟩
    have := hfin t1 i1 now r hn.2
    rw [hn.1] at this
    rw [← ht]
    exact this
  | control => simp [TodMove]
  | step off hsrc => simp [Out.isStep, TodMove]
  | save =>
    obtain ⟨sv, he, -, ho⟩ := save_eq i
    rcases ho with ho | ho <;> (rw [ho]; simp [Out.isStep, TodMove])
  | pid => simp [TodMove]

theorem todAsk_eq {t : Tod} (hs : t.source = true) (r : TodReply) :
    todAsk t r = { t with offset := r.value.getD t.offset, state := (r.status.map Prod.fst).getD t.state } := by
  unfold todAsk TodReply.value
  rw [if_pos hs]
  cases h : r.status with
  | none => simp
  | some x =>
    obtain ⟨st, off⟩ := x
    simp only
    by_cases h0 : off = 0
    · simp [h0]
    · cases h1 : r.compare <;> simp [h0]

/-- The shared time of day is the one seen. -/
structure DOk (t : Tod) (s : Seen) : Prop where
  source : t.source = true
  due : t.next = s.due
  val : ∀ k v, s.val = some (k, v) → t.offset = v

theorem seen_snoc (t0 : Int) (tr : List Entry) (e : Entry) : seen t0 (tr ++ [e]) = (seen t0 tr).next e := by
  simp [seen]

theorem DOk.step {t i e t' i' outs} {s : Seen} (h : DOk t s) (mv : Move t i e t' i' outs) (k : Nat) :
    DOk t' (s.next ⟨k, e, outs⟩) := by
  obtain ⟨hs, hd, hv⟩ := h
  obtain ⟨t1, ht1, hm⟩ := step_tod hs mv
  have hsrc : t1.source = true := by rw [ht1]; split <;> exact hs
  have hnx : t1.next = s.due := by rw [ht1]; split <;> exact hd
  let s1 : Seen := if outs.any Out.isStep then { s with val := none } else s
  have hs1 : s1.due = s.due := by simp only [s1]; split <;> rfl
  have h1 : DOk t1 s1 := by
    refine ⟨hsrc, by rw [hs1]; exact hnx, ?_⟩
    simp only [s1]
    rw [ht1]
    split
    · intro k v h; cases h
    · exact hv
  have hnext : s.next ⟨k, e, outs⟩ = match e with
      | .poll now _ r _ =>
        if s1.due < now then ⟨s1.due + 1000000000, match r.value with | some v => some (k, v) | none => s1.val⟩ else s1
      | _ => s1 := by
    unfold Seen.next
    cases e <;> rfl
  rw [hnext]
  cases e with
  | poll now g r score =>
    simp only [TodMove] at hm ⊢
    by_cases hlt : s1.due < now
    · rw [if_pos hlt]
      rw [hm.1 (by rw [hd, ← hs1]; exact hlt), todAsk_eq (by exact hsrc)]
      refine ⟨hsrc, by simp only; rw [hs1, hd]; rfl, ?_⟩
      simp only
      intro k' v h
      cases hr : r.value with
      | none =>
        simp only [hr, Option.getD_none] at h ⊢
        exact h1.val k' v h
      | some v' =>
        simp only [hr, Option.some.injEq, Prod.mk.injEq, Option.getD_some] at h ⊢
        exact h.2
    · rw [if_neg hlt]
      rw [hm.2 (by rw [hd, ← hs1]; exact hlt)]
      exact h1
  | tick => simp only [TodMove] at hm ⊢; rw [hm]; exact h1
  | control => simp only [TodMove] at hm ⊢; rw [hm]; exact h1
  | step => simp only [TodMove] at hm ⊢; rw [hm]; exact h1
  | save => simp only [TodMove] at hm ⊢; rw [hm]; exact h1
  | pid => simp only [TodMove] at hm ⊢; rw [hm]; exact h1

theorem Hist.dok {t0 : Int} {m0 m : Mod} {tr : List Entry} (hh : Hist m0 m tr) (hl : ∀ e ∈ tr, e.idx < m0.insts.length)
    (h0 : DOk m0.tod ⟨t0, none⟩) : DOk m.tod (seen t0 tr) ∧ m.insts.length = m0.insts.length := by
  induction hh with
  | nil => exact ⟨h0, rfl⟩
  | @snoc m tr m' outs k e hh h1 ih =>
    have ih' := ih (fun e he => hl e (by simp [he]))
    rw [seen_snoc]
    rcases step_some h1 with ⟨hn, rfl, rfl⟩ | ⟨i, t, i2, ha, hb, rfl, hc⟩
    · exfalso
      have := hl ⟨k, e, []⟩ (by simp)
      rw [List.getElem?_eq_none_iff, ih'.2] at hn
      simp only at this
      omega
    · exact ⟨ih'.1.step (step_move hb) k, by simpa using ih'.2⟩

theorem seenBy_snoc (k : Nat) (t0 : Int) (tr : List Entry) (e : Entry) : seenBy k t0 (tr ++ [e]) =
    ((seenBy k t0 tr).1.next e,
     if e.idx = k then
       match e.ev with
       | .poll now _ r _ => if (seenBy k t0 tr).1.due < now then
           r.value.or (if e.outs.any Out.isStep then none else (seenBy k t0 tr).2)
           else (if e.outs.any Out.isStep then none else (seenBy k t0 tr).2)
       | _ => if e.outs.any Out.isStep then none else (seenBy k t0 tr).2
     else (seenBy k t0 tr).2) := by
  simp only [seenBy, List.foldl_append, List.foldl_cons, List.foldl_nil]
  cases e.ev <;> rfl

theorem seenBy_fst (k : Nat) (t0 : Int) (tr : List Entry) : (seenBy k t0 tr).1 = seen t0 tr := by
  induction tr using List.reverseRecOn with
  | nil => rfl
  | append_singleton tr e ih => rw [seenBy_snoc, seen_snoc, ih]

/-- If the latest answer was to instance `k`, it is the latest that `k` got. -/
theorem seenBy_last (k : Nat) (t0 : Int) (tr : List Entry) : ∀ v, (seen t0 tr).val = some (k, v) →
    (seenBy k t0 tr).2 = some v := by
  induction tr using List.reverseRecOn with
  | nil => intro v h; cases h
  | append_singleton tr e ih =>
    intro v
    rw [seenBy_snoc, seen_snoc, seenBy_fst]
    obtain ⟨idx, ev, outs⟩ := e
    simp only [Seen.next]
    cases hst : outs.any Out.isStep with
    | true =>
      simp only [if_true]
      cases ev with
      | poll now g r score =>
        simp only
        by_cases hlt : (seen t0 tr).due < now
        · simp only [hlt, if_true]
          cases hr : r.value with
          | none => simp
          | some v' =>
            simp only [Option.some.injEq, Prod.mk.injEq]
            rintro ⟨rfl, rfl⟩
            simp
        · simp only [hlt, if_false]; intro h; cases h
      | _ => intro h; cases h
    | false =>
      simp only [Bool.false_eq_true, if_false]
      cases ev with
      | poll now g r score =>
        simp only
        by_cases hlt : (seen t0 tr).due < now
        · simp only [hlt, if_true]
          cases hr : r.value with
          | none =>
            simp only [Option.none_or]
            intro h; have := ih v h; simp [this]
          | some v' =>
            simp only [Option.some.injEq, Prod.mk.injEq]
            rintro ⟨rfl, rfl⟩
            simp
        · simp only [hlt, if_false]; intro h; have := ih v h; simp [this]
      | _ => intro h; have := ih v h; simp only [this, ite_self]

end Verif.Pps
