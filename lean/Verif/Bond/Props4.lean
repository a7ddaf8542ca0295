import Verif.Bond.Props3

set_option linter.unusedSimpArgs false
set_option linter.unusedVariables false

/-!
# Following changes of the link table
-/

namespace Verif.Bond

/-- Whether a port is given an interface anew. -/
def moved (ifs : Ifs) (old : Info) (tsCh : Bool) (p : Port) : Bool :=
  (active ifs p.clock p.sync old != p.phys) || tsCh

theorem ports_get (ifs : Ifs) (old : Info) (tsCh : Bool) (net : Nat → Bool) (ports : List Port) (n : Nat)
    (rc : Option Err) :
    (changePorts ifs old tsCh net n ports rc).1 = ports.map fun p =>
      if moved ifs old tsCh p then p.change ifs (active ifs p.clock p.sync old) else p := by
  induction ports generalizing n rc with
  | nil => rfl
  | cons p rest ih =>
    simp only [changePorts, List.map_cons, ih]
    unfold moved
    cases ((active ifs p.clock p.sync old != p.phys) || tsCh) <;> rfl

theorem ports_changed (ifs : Ifs) (old : Info) (tsCh : Bool) (net : Nat → Bool) (ports : List Port) (n : Nat)
    (rc : Option Err) :
    (changePorts ifs old tsCh net n ports rc).2.1 = ports.any (moved ifs old tsCh) := by
  induction ports generalizing n rc with
  | nil => rfl
  | cons p rest ih =>
    simp only [changePorts, List.any_cons, ih]
    rfl

theorem ports_active (ifs : Ifs) (old : Info) (tsCh : Bool) (net : Nat → Bool) (ports : List Port) (n : Nat)
    (rc : Option Err) :
    (changePorts ifs old tsCh net n ports rc).2.2.1 =
      ports.any fun p => active ifs p.clock p.sync old != p.phys := by
  induction ports generalizing n rc with
  | nil => rfl
  | cons p rest ih => simp only [changePorts, List.any_cons, ih]

theorem ports_rc (ifs : Ifs) (old : Info) (tsCh : Bool) (net : Nat → Bool) (ports : List Port) (p : Port) (n : Nat)
    (rc : Option Err) :
    (changePorts ifs old tsCh net n (ports ++ [p]) rc).2.2.2 =
      if moved ifs old tsCh p then changeRc (active ifs p.clock p.sync old) (net (n + ports.length)) else none := by
  induction ports generalizing n rc with
  | nil =>
    simp only [List.nil_append, changePorts, List.length_nil, Nat.add_zero]
    unfold moved
    cases ((active ifs p.clock p.sync old != p.phys) || tsCh) <;> rfl
  | cons q rest ih =>
    simp only [List.cons_append, changePorts, ih, List.length_cons]
    rw [show n + 1 + rest.length = n + (rest.length + 1) by omega]

theorem changed_phys (ifs : Ifs) (old : Info) (tsCh : Bool) (p : Port) :
    (if moved ifs old tsCh p then p.change ifs (active ifs p.clock p.sync old) else p).phys =
      active ifs p.clock p.sync old := by
  unfold moved
  cases h : (active ifs p.clock p.sync old != p.phys) with
  | true => rfl
  | false =>
    have : active ifs p.clock p.sync old = p.phys := by simpa using h
    cases tsCh
    · simp [this]
    · rfl

/-- The ways a change of the link table can go. -/
theorem change_cases (ifs : Ifs) (t : List Link) (net : Nat → Bool) (x : Intf) (c : Change)
    (h : change ifs t net x = .ok c) :
    ((∀ l ∈ t, l.name ≠ x.info.bondIf) ∧ c = finish x false (some .noent) 0 []) ∨
    (∃ l, Named t x.info.bondIf l ∧ ∃ new rc, probe ifs t l x.info = .ok (new, rc) ∧
      ((∃ e, e ≠ Err.noent ∧ c = finish x false (some e) new.num []) ∨
       ∃ ts, tsType ifs (x.ports.map Port.pref) new.active = .ok ts ∧
        (rc = none ∨ rc = some .noent ∨ rc = some .nodev) ∧
        c = finish
          { x with info := new
                   ts := if x.ports.any (moved ifs x.info (decide (ts ≠ x.ts))) then ts else x.ts
                   ports := x.ports.map fun p => if moved ifs x.info (decide (ts ≠ x.ts)) p then
                     p.change ifs (active ifs p.clock p.sync x.info) else p
                   ref := if x.ports.any (moved ifs x.info (decide (ts ≠ x.ts))) then .local else x.ref }
          (x.ports.any (moved ifs x.info (decide (ts ≠ x.ts))))
          (changePorts ifs x.info (decide (ts ≠ x.ts)) net 0 x.ports none).2.2.2 new.num
          (if (decide (new.num ≠ x.info.num) || decide (new.valid ≠ (List.range new.num).map x.info.slots)) ||
              (x.ports.any fun p => active ifs p.clock p.sync x.info != p.phys) || decide (ts ≠ x.ts) then
            reconfigure ifs (if x.ports.any (moved ifs x.info (decide (ts ≠ x.ts))) then ts else x.ts) x.info new ts
          else []))) := by
  unfold change at h
  cases hb : byName t x.info.bondIf with
  | none =>
    rw [hb] at h
    simp only at h
    injection h with h
    exact .inl ⟨(byName_none _ _).1 hb, h.symm⟩
  | some l =>
    rw [hb] at h
    simp only at h
    refine .inr ⟨l, (byName_iff _ _ _).1 hb, ?_⟩
    cases hp : probe ifs t l x.info with
    | abort => rw [hp] at h; cases h
    | ok v =>
      obtain ⟨new, rc⟩ := v
      rw [hp] at h
      simp only at h
      refine ⟨new, rc, rfl, ?_⟩
      by_cases hrc : rc ≠ none ∧ rc ≠ some .noent ∧ rc ≠ some .nodev
      · rw [if_pos hrc] at h
        injection h with h
        exact .inl ⟨.io, by simp, h.symm⟩
      rw [if_neg hrc] at h
      cases hts : tsType ifs (x.ports.map Port.pref) new.active with
      | error e =>
        rw [hts] at h
        simp only at h
        injection h with h
        refine .inl ⟨e, ?_, h.symm⟩
        intro he
        subst he
        unfold tsType at hts
        simp only at hts
        repeat' split at hts
        all_goals cases hts
      | ok ts =>
        rw [hts] at h
        simp only at h
        injection h with h
        refine .inr ⟨ts, rfl, ?_, ?_⟩
        · by_contra hcon
          refine hrc ⟨fun h => hcon (.inl h), fun h => hcon (.inr (.inl h)), fun h => hcon (.inr (.inr h))⟩
        · rw [← h]
          simp only [ports_get, ports_changed, ports_active]

theorem finish_get {x : Intf} {ch : Bool} {rc : Option Err} {n : Nat} {ops : List Op} {k : Nat} {p : Port}
    (h : (finish x ch rc n ops).intf.ports[k]? = some p) :
    ∃ q, x.ports[k]? = some q ∧ p = { q with alarm := !(decide (rc = none) && decide (n ≠ 0)) } := by
  have h' : (x.ports.map fun p => ({ p with alarm := !(decide (rc = none) && decide (n ≠ 0)) } : Port))[k]? = some p := h
  rw [List.getElem?_map] at h'
  cases hq : x.ports[k]? with
  | none => rw [hq] at h'; cases h'
  | some q => rw [hq] at h'; exact ⟨q, rfl, (Option.some.inj h').symm⟩

theorem finish_rc {x : Intf} {ch : Bool} {rc : Option Err} {n : Nat} {ops : List Op} :
    (finish x ch rc n ops).rc = none ↔ rc = none ∨ rc = some .noent := by
  unfold finish
  simp only
  split
  · rename_i h; simp [h]
  · rename_i h; simp [h]

/-! ## C236 -/

/-- **C236**, the full statement: after a change of the link table has been followed, every
port uses the interface that is to be chosen from the slaves that there are now. -/
def C236_statement : Prop :=
  ∀ (ifs : Ifs) (t : List Link) (net : Nat → Bool) (x : Intf) (c : Change) (ps : List Phys),
    (∃ l, Named t x.info.bondIf l) → change ifs t net x = .ok c → c.rc = none →
    Members c.intf.info ps → HeadOk ps →
    ∀ (k : Nat) (p p' : Port), x.ports[k]? = some p → c.intf.ports[k]? = some p' →
      p'.phys = Chosen ifs p.clock p.sync ps

/-- The choice is made from the slaves that there were before. -/
theorem C236_violated : ¬ C236_statement := by
  intro h
  have := h demo [⟨.physical, 2, 2, true, 0, 5, .none, 0, true⟩, ⟨.bond, 5, 5, true, 0, 0, .lacp, 0, false⟩]
    (fun _ => true)
    { info := { logical := 5, bondIf := 5, mode := .lacp, num := 1, slots := fun _ => ⟨some 1, true, false, true⟩,
                active := some 1 }
      ts := .hw, ports := [{ phys := some 1, clock := 1 }] } _ [⟨some 2, true, false, true⟩]
    ⟨⟨.bond, 5, 5, true, 0, 0, .lacp, 0, false⟩, [⟨.physical, 2, 2, true, 0, 5, .none, 0, true⟩], [], rfl, rfl, nofun⟩
    rfl rfl
    ⟨rfl, by
      intro k p hk
      match k, hk with
      | 0, hk => exact Option.some.inj hk
      | n + 1, hk => simp at hk⟩
    (by decide) 0 _ _ rfl rfl
  revert this
  decide

/-- **C236**, one change late: the choice is that from the slaves that there were before. When
there is an error, nothing is chosen. -/
theorem C236_late_partial (ifs : Ifs) (t : List Link) (net : Nat → Bool) (x : Intf) (c : Change) (ps : List Phys)
    (hn : ∃ l, Named t x.info.bondIf l) (h : change ifs t net x = .ok c) (hrc : c.rc = none)
    (hps : Members x.info ps) (hok : HeadOk ps) (k : Nat) (p p' : Port)
    (hp : x.ports[k]? = some p) (hp' : c.intf.ports[k]? = some p') :
    p'.phys = Chosen ifs p.clock p.sync ps := by
  rw [← C233_preferred_partial ifs p.clock p.sync x.info ps hps hok]
  rcases change_cases ifs t net x c h with ⟨h1, -⟩ | ⟨l, h1, new, rc, h2, ⟨e, he, h3⟩ | ⟨ts, h3, h4, h5⟩⟩
  · obtain ⟨l, a, b, hl, hl', -⟩ := hn
    exact absurd hl' (h1 l (by rw [hl]; simp))
  · rw [h3, finish_rc] at hrc
    rcases hrc with hrc | hrc
    · cases hrc
    · exact absurd (Option.some.inj hrc) he
  · rw [h5] at hp'
    obtain ⟨q, hq, hpq⟩ := finish_get hp'
    subst hpq
    simp only [List.getElem?_map, hp, Option.map_some] at hq
    have hq' := Option.some.inj hq
    show q.phys = _
    rw [← hq']
    exact changed_phys ifs x.info _ p

/-- **C236.** What is recorded about the slaves is always that of the new link table. -/
theorem C236_record (ifs : Ifs) (t : List Link) (net : Nat → Bool) (x : Intf) (c : Change) (l : Link)
    (hn : Named t x.info.bondIf l) (h : change ifs t net x = .ok c) (hrc : c.rc = none) (ha : Aggregate l)
    (hs : Supported l) (hlen : (below ifs t l).length ≤ 16) (ps : List Phys) (hps : Members c.intf.info ps) :
    ps.Perm ((below ifs t l).map (record ifs)) := by
  rcases change_cases ifs t net x c h with ⟨h1, -⟩ | ⟨l', h1, new, rc, h2, ⟨e, he, h3⟩ | ⟨ts, h3, h4, h5⟩⟩
  · obtain ⟨a, b, hl, hl', -⟩ := hn
    exact absurd hl' (h1 l (by rw [hl]; simp))
  · rw [h3, finish_rc] at hrc
    rcases hrc with hrc | hrc
    · cases hrc
    · exact absurd (Option.some.inj hrc) he
  · have hll : l' = l := by
      have e1 := (byName_iff t x.info.bondIf l).2 hn
      have e2 := (byName_iff t x.info.bondIf l').2 h1
      rw [e1] at e2
      exact (Option.some.inj e2).symm
    subst hll
    rw [h5] at hps
    exact (C225_slaves ifs t l' x.info new rc ha hs h2 ps hps).2.2.1 hlen

example : let t : List Link := [⟨.physical, 2, 2, true, 0, 5, .none, 0, true⟩, ⟨.bond, 5, 5, true, 0, 0, .lacp, 0, false⟩]
    let x : Intf := { info := { logical := 5, bondIf := 5, mode := .lacp, num := 1, active := some 2
                                slots := fun _ => ⟨some 2, true, false, true⟩ }
                      ts := .hw, ports := [{ phys := some 1, clock := 1 }] }
    (match change demo t (fun _ => true) x with
      | .ok c => decide (c.rc = none ∧ c.intf.info.valid = [⟨some 2, true, false, true⟩] ∧
          c.intf.ports = [{ phys := some 2, clock := 2 }])
      | .abort => false) = true ∧
      HeadOk [⟨some 2, true, false, true⟩] ∧ Chosen demo 1 0 [⟨some 2, true, false, true⟩] = some 2 := by decide

/-! ## C237 -/

/-- **C237.** When the interface disappears from the link table that is no error: the alarm is
raised and everything else stays as it is until it comes back. -/
theorem C237_gone (ifs : Ifs) (t : List Link) (net : Nat → Bool) (x : Intf) (hn : ∀ l ∈ t, l.name ≠ x.info.bondIf) :
    ∃ c, change ifs t net x = .ok c ∧ c.rc = none ∧ c.ops = [] ∧ c.changed = false ∧
      c.intf = { x with ports := x.ports.map fun p => { p with alarm := true } } := by
  refine ⟨finish x false (some .noent) 0 [], ?_, rfl, rfl, rfl, rfl⟩
  unfold change
  rw [(byName_none _ _).2 hn]

/-- **C237**, the full statement: when the alarm is off then a port has an interface. -/
def C237_statement : Prop :=
  ∀ (ifs : Ifs) (t : List Link) (net : Nat → Bool) (x : Intf) (c : Change), change ifs t net x = .ok c →
    ∀ p ∈ c.intf.ports, p.alarm = false → p.phys ≠ none

/-- An interface appears, but its port has not been given it yet. -/
theorem C237_violated : ¬ C237_statement := by
  intro h
  have := h demo [⟨.physical, 12, 12, true, 0, 5, .none, 0, true⟩, ⟨.bond, 5, 5, true, 0, 0, .lacp, 0, false⟩]
    (fun _ => true)
    { info := { logical := 5, bondIf := 5, mode := .lacp, num := 0, slots := fun _ => {} }
      ts := .sw, ports := [{ phys := none, clock := 0 }] } _ rfl _ (List.mem_singleton.2 rfl) rfl
  exact this rfl

/-- **C237**, when there were physical interfaces before. -/
theorem C237_alarm_partial (ifs : Ifs) (t : List Link) (net : Nat → Bool) (x : Intf) (c : Change)
    (h : change ifs t net x = .ok c) (ps : List Phys) (hps : Members x.info ps) (hne : ps ≠ [])
    (hi : ∀ p ∈ ps, p.intf ≠ none) (p : Port) (hp : p ∈ c.intf.ports) (ha : p.alarm = false) :
    p.phys ≠ none ∧ c.rc = none ∧ c.intf.info.num ≠ 0 ∧ ∃ l, Named t x.info.bondIf l := by
  obtain ⟨k, hk⟩ := List.getElem?_of_mem hp
  rcases change_cases ifs t net x c h with ⟨h1, h2⟩ | ⟨l, h1, new, rc, h2, ⟨e, he, h3⟩ | ⟨ts, h3, h4, h5⟩⟩
  · rw [h2] at hk
    obtain ⟨q, hq, hpq⟩ := finish_get hk
    rw [hpq] at ha
    cases ha
  · rw [h3] at hk
    obtain ⟨q, hq, hpq⟩ := finish_get hk
    rw [hpq] at ha
    cases ha
  · rw [h5] at hk
    obtain ⟨q, hq, hpq⟩ := finish_get hk
    rw [hpq] at ha
    simp only [Bool.not_eq_false', Bool.and_eq_true, decide_eq_true_eq] at ha
    refine ⟨?_, ?_, ?_, l, h1⟩
    · rw [hpq]
      show q.phys ≠ none
      simp only [List.getElem?_map] at hq
      cases hx : x.ports[k]? with
      | none => rw [hx] at hq; cases hq
      | some r =>
        rw [hx] at hq
        have hq' := Option.some.inj hq
        rw [← hq', changed_phys]
        obtain ⟨y, hy, hya⟩ := (C233_member ifs r.clock r.sync x.info ps hps).2 hne
        rw [hya]
        exact hi y hy
    · rw [h5, finish_rc]; exact .inl ha.1
    · rw [h5]; exact ha.2

example : let t : List Link := [⟨.physical, 2, 2, true, 0, 5, .none, 0, true⟩, ⟨.bond, 5, 5, true, 0, 0, .lacp, 0, false⟩]
    let x : Intf := { info := { logical := 5, bondIf := 5, mode := .lacp, num := 1, active := some 2
                                slots := fun _ => ⟨some 2, true, false, true⟩ }
                      ts := .hw, ports := [{ phys := some 2, clock := 2, alarm := true }] }
    (match change demo t (fun _ => true) x with
      | .ok c => decide (c.rc = none ∧ c.intf.ports = [{ phys := some 2, clock := 2, alarm := false }])
      | .abort => false) = true ∧
    (match change demo [] (fun _ => true) x with
      | .ok c => decide (c.rc = none ∧ c.intf.ports = x.ports)
      | .abort => false) = true := by decide

/-! ## C238 -/

/-- **C238**, the full statement: when a port is moved to an interface and that fails, an
error is returned. -/
def C238_statement : Prop :=
  ∀ (ifs : Ifs) (t : List Link) (net : Nat → Bool) (x : Intf) (c : Change), change ifs t net x = .ok c →
    ∀ (k : Nat) (p p' : Port), x.ports[k]? = some p → c.intf.ports[k]? = some p' → p'.phys ≠ p.phys →
      p'.phys ≠ none → net k = false → c.rc ≠ none

/-- Only the result for the last instance counts. -/
theorem C238_violated : ¬ C238_statement := by
  intro h
  have := h demo [⟨.physical, 2, 2, true, 0, 5, .none, 0, true⟩, ⟨.bond, 5, 5, true, 0, 0, .lacp, 0, false⟩]
    (fun k => k == 1)
    { info := { logical := 5, bondIf := 5, mode := .lacp, num := 1, active := some 2
                slots := fun _ => ⟨some 2, true, false, true⟩ }
      ts := .hw, ports := [{ phys := some 1, clock := 1 }, { phys := some 2, clock := 2 }] } _ rfl
    0 _ _ rfl rfl (by decide) (by decide) rfl
  exact this rfl

/-- **C238**, for the last instance. -/
theorem C238_last_partial (ifs : Ifs) (t : List Link) (net : Nat → Bool) (x : Intf) (c : Change)
    (h : change ifs t net x = .ok c) (p p' : Port) (k : Nat) (hlast : k + 1 = x.ports.length)
    (hp : x.ports[k]? = some p) (hp' : c.intf.ports[k]? = some p')
    (hm : p'.phys ≠ p.phys) (hsome : p'.phys ≠ none) (hnet : net k = false) :
    c.rc ≠ none ∧ ∀ q ∈ c.intf.ports, q.alarm = true := by
  rcases change_cases ifs t net x c h with ⟨h1, h2⟩ | ⟨l, h1, new, rc, h2, ⟨e, he, h3⟩ | ⟨ts, h3, h4, h5⟩⟩
  · rw [h2] at hp'
    obtain ⟨q, hq, hpq⟩ := finish_get hp'
    rw [hp] at hq
    have := Option.some.inj hq
    rw [hpq] at hm
    exact absurd (by rw [this]) hm
  · rw [h3] at hp'
    obtain ⟨q, hq, hpq⟩ := finish_get hp'
    rw [hp] at hq
    have := Option.some.inj hq
    rw [hpq] at hm
    exact absurd (by rw [this]) hm
  · rw [h5] at hp'
    obtain ⟨q, hq, hpq⟩ := finish_get hp'
    simp only [List.getElem?_map, hp, Option.map_some] at hq
    have hq' := Option.some.inj hq
    have hphys : p'.phys = active ifs p.clock p.sync x.info := by
      rw [hpq]
      show q.phys = _
      rw [← hq', changed_phys]
    have hports : x.ports = x.ports.dropLast ++ [p] := by
      have hne : x.ports ≠ [] := by intro hh; rw [hh] at hlast; simp at hlast
      have hl := List.dropLast_concat_getLast hne
      have : x.ports.getLast hne = p := by
        have e := List.getLast?_eq_getElem? (l := x.ports)
        rw [show x.ports.length - 1 = k by omega, hp, List.getLast?_eq_getLast_of_ne_nil hne] at e
        exact Option.some.inj e
      rw [this] at hl
      exact hl.symm
    have hrc' : (changePorts ifs x.info (decide (ts ≠ x.ts)) net 0 x.ports none).2.2.2 = some .io := by
      rw [hports, ports_rc]
      have hmv : moved ifs x.info (decide (ts ≠ x.ts)) p = true := by
        unfold moved
        rw [hphys] at hm
        have : (active ifs p.clock p.sync x.info != p.phys) = true := by simpa using hm
        rw [this]; rfl
      rw [if_pos hmv]
      have hk : 0 + x.ports.dropLast.length = k := by rw [List.length_dropLast]; omega
      rw [hk, hnet]
      unfold changeRc
      rw [hphys] at hsome
      rw [if_neg hsome]
      rfl
    constructor
    · rw [h5, Ne, finish_rc, hrc']
      simp
    · intro r hr
      obtain ⟨j, hj⟩ := List.getElem?_of_mem hr
      rw [h5] at hj
      obtain ⟨s, -, hs⟩ := finish_get hj
      rw [hs, hrc']
      rfl

example : let t : List Link := [⟨.physical, 2, 2, true, 0, 5, .none, 0, true⟩, ⟨.bond, 5, 5, true, 0, 0, .lacp, 0, false⟩]
    let x : Intf := { info := { logical := 5, bondIf := 5, mode := .lacp, num := 1, active := some 2
                                slots := fun _ => ⟨some 2, true, false, true⟩ }
                      ts := .hw, ports := [{ phys := some 1, clock := 1 }] }
    (match change demo t (fun _ => false) x with
      | .ok c => decide (c.rc = some .io ∧ c.intf.ports = [{ phys := some 2, clock := 2, alarm := true }])
      | .abort => false) = true := by decide

/-! ## C239 -/

/-- **C239**, the full statement: what ptpd keeps as a pointer to the record of slaves is
always to the record of the interface, and never to a variable that no longer exists. -/
def C239_statement : Prop :=
  ∀ (x y : Intf) (es : List Ev), x.ref = .own → run x es = some y → y.ref = .own

/-- A pointer to a local variable of the function that follows changes is kept. -/
theorem C239_violated : ¬ C239_statement := by
  intro h
  have := h
    { info := { logical := 5, bondIf := 5, mode := .lacp, num := 1, active := some 2
                slots := fun _ => ⟨some 2, true, false, true⟩ }
      ts := .hw, ports := [{ phys := some 1, clock := 1 }] } _
    [.table demo [⟨.physical, 2, 2, true, 0, 5, .none, 0, true⟩, ⟨.bond, 5, 5, true, 0, 0, .lacp, 0, false⟩]
      (fun _ => true)] rfl rfl
  cases this

/-- **C239**, exactly when that happens: a change of the link table leaves a pointer to a
variable that no longer exists when a port was moved, or when there was one already. -/
theorem C239_table_partial (ifs : Ifs) (t : List Link) (net : Nat → Bool) (x : Intf) (c : Change)
    (h : change ifs t net x = .ok c) :
    (c.intf.ref = .local ↔ x.ref = .local ∨ c.changed = true) ∧
      (c.changed = false → c.intf.ports.map (fun p => (p.phys, p.clock)) = x.ports.map (fun p => (p.phys, p.clock)) ∧
        c.intf.ts = x.ts) := by
  have hmap : ∀ (ch : Bool) (rc : Option Err) (n : Nat) (ops : List Op) (y : Intf),
      (finish y ch rc n ops).intf.ports.map (fun p => (p.phys, p.clock)) = y.ports.map (fun p => (p.phys, p.clock)) := by
    intro ch rc n ops y
    unfold finish
    simp only [List.map_map]
    rfl
  rcases change_cases ifs t net x c h with ⟨h1, h2⟩ | ⟨l, h1, new, rc, h2, ⟨e, he, h3⟩ | ⟨ts, h3, h4, h5⟩⟩
  · rw [h2]
    refine ⟨?_, fun _ => ⟨hmap _ _ _ _ _, rfl⟩⟩
    show x.ref = .local ↔ x.ref = .local ∨ false = true
    simp
  · rw [h3]
    refine ⟨?_, fun _ => ⟨hmap _ _ _ _ _, rfl⟩⟩
    show x.ref = .local ↔ x.ref = .local ∨ false = true
    simp
  · rw [h5]
    generalize hany : x.ports.any (moved ifs x.info (decide (ts ≠ x.ts))) = any
    constructor
    · show (if any = true then Ref.local else x.ref) = .local ↔ x.ref = .local ∨ any = true
      cases any <;> simp
    · intro hc
      have hc' : any = false := hc
      subst hc'
      refine ⟨?_, rfl⟩
      rw [hmap]
      simp only [List.map_map]
      apply List.map_congr_left
      intro p hp
      rw [List.any_eq_false] at hany
      have : moved ifs x.info (decide (ts ≠ x.ts)) p = false := by simpa using hany p hp
      simp only [Function.comp, this]
      rfl

/-- **C239**, over time: with no change of the link table that moves a port, the pointer stays
valid. -/
theorem C239_run_partial (x y : Intf) (es : List Ev) (hx : x.ref = .own)
    (hes : ∀ pre ifs t net post z c, es = pre ++ .table ifs t net :: post → run x pre = some z →
      change ifs t net z = .ok c → c.changed = false)
    (h : run x es = some y) : y.ref = .own := by
  induction es generalizing x with
  | nil => rw [run] at h; cases h; exact hx
  | cons e rest ih =>
    rw [run] at h
    cases hs : step x e with
    | none => rw [hs] at h; cases h
    | some z =>
      rw [hs] at h
      refine ih z ?_ (fun pre ifs t net post w c he hr hc =>
        hes (e :: pre) ifs t net post w c (by rw [he]; rfl) (by rw [run, hs]; exact hr) hc) h
      cases e with
      | table ifs t net =>
        unfold step at hs
        simp only at hs
        cases hc : change ifs t net x with
        | abort => rw [hc] at hs; cases hs
        | ok c =>
          rw [hc] at hs
          simp only at hs
          split at hs
          · have hz := Option.some.inj hs
            have hch := hes [] ifs t net rest x c rfl rfl hc
            have := (C239_table_partial ifs t net x c hc).1
            rw [hx, hch] at this
            rw [← hz]
            cases hr : c.intf.ref with
            | own => rfl
            | «local» => rcases this.1 hr with h | h <;> cases h
          · cases hs
      | state ifs k =>
        unfold step at hs
        have hz := Option.some.inj hs
        rw [← hz]
        unfold reselect
        split
        · exact hx
        · simp only
          split
          · exact hx
          · split
            · exact hx
            · rfl
      | sync k i =>
        unfold step at hs
        have hz := Option.some.inj hs
        rw [← hz]
        exact hx

example : (run { info := { logical := 5, bondIf := 5, mode := .lacp, num := 1, active := some 2
                           slots := fun _ => ⟨some 2, true, false, true⟩ }
                 ts := .hw, ports := [{ phys := some 2, clock := 2 }] }
    [.sync 0 2, .state demo 0, .table demo [] fun _ => true]).map (fun y => y.ref) = some .own := by decide

/-! ## C240 -/

/-- **C240**, the full statement: when an interface that is capable of hardware timestamps
leaves, and hardware timestamps were in use, then they are turned off for it. -/
def C240_statement : Prop :=
  ∀ (ifs : Ifs) (t : List Link) (net : Nat → Bool) (x : Intf) (c : Change) (ps ps' : List Phys) (i : Nat),
    change ifs t net x = .ok c → c.rc = none → x.ts = .hw → Members x.info ps → Members c.intf.info ps' →
    (∃ p ∈ ps, p.intf = some i) → (∀ p ∈ ps', p.intf ≠ some i) → ifs.ptp i = true → ifs.deleted i = false →
    Op.disable i ∈ c.ops

/-- When the one that remains has software timestamps only, those of the one that leaves stay
on. -/
theorem C240_violated : ¬ C240_statement := by
  intro h
  have := h demo [⟨.physical, 12, 12, true, 0, 5, .none, 0, true⟩, ⟨.bond, 5, 5, true, 0, 0, .lacp, 0, false⟩]
    (fun _ => true)
    { info := { logical := 5, bondIf := 5, mode := .lacp, num := 1, active := some 2
                slots := fun _ => ⟨some 2, true, false, true⟩ }
      ts := .hw, ports := [{ phys := some 2, clock := 2 }] } _
    [⟨some 2, true, false, true⟩] [⟨some 12, true, false, false⟩] 2 rfl rfl rfl
    ⟨rfl, by
      intro k p hk
      match k, hk with
      | 0, hk => exact Option.some.inj hk
      | n + 1, hk => simp at hk⟩
    ⟨rfl, by
      intro k p hk
      match k, hk with
      | 0, hk => exact Option.some.inj hk
      | n + 1, hk => simp at hk⟩
    (by decide) (by decide) rfl rfl
  revert this
  decide

theorem mem_intfs {b : Info} {ps : List Phys} (h : Members b ps) (i : Nat) :
    i ∈ b.valid.filterMap Phys.intf ↔ ∃ p ∈ ps, p.intf = some i := by
  rw [← h.eq, List.mem_filterMap]

/-- **C240**, when hardware timestamps remain in use. Then also every slave that is capable of
them has them turned on whenever the slaves have changed, and nothing is turned off but
for interfaces that leave. -/
theorem C240_timestamps_partial (ifs : Ifs) (t : List Link) (net : Nat → Bool) (x : Intf) (c : Change)
    (ps ps' : List Phys) (h : change ifs t net x = .ok c) (hrc : c.rc = none) (hn : ∃ l, Named t x.info.bondIf l)
    (hts : x.ts = .hw) (hts' : c.intf.ts = .hw) (hp : Members x.info ps) (hp' : Members c.intf.info ps')
    (hdiff : ps ≠ ps') :
    (∀ i, Op.disable i ∈ c.ops ↔ (∃ p ∈ ps, p.intf = some i) ∧ (∀ p ∈ ps', p.intf ≠ some i) ∧ ifs.ptp i = true ∧
      ifs.deleted i = false) ∧
    (∀ i, x.ports ≠ [] → (Op.enable i ∈ c.ops ↔ (∃ p ∈ ps', p.intf = some i) ∧ ifs.ptp i = true)) := by
  rcases change_cases ifs t net x c h with ⟨h1, h2⟩ | ⟨l, h1, new, rc, h2, ⟨e, he, h3⟩ | ⟨ts, h3, h4, h5⟩⟩
  · obtain ⟨l, a, b, hl, hl', -⟩ := hn
    exact absurd hl' (h1 l (by rw [hl]; simp))
  · rw [h3, finish_rc] at hrc
    rcases hrc with hrc | hrc
    · cases hrc
    · exact absurd (Option.some.inj hrc) he
  · rw [h5] at hp' hts' ⊢
    generalize hany : x.ports.any (moved ifs x.info (decide (ts ≠ x.ts))) = any at hts' ⊢
    have hp'' : Members new ps' := hp'
    have hcur : (if any = true then ts else x.ts) = .hw := hts'
    have hset : (decide (new.num ≠ x.info.num) || decide (new.valid ≠ (List.range new.num).map x.info.slots)) = true := by
      by_cases hnum : new.num = x.info.num
      · rw [hnum]
        simp only [ne_eq, not_true_eq_false, decide_false, Bool.false_or, decide_eq_true_eq]
        intro hv
        apply hdiff
        rw [hp.eq, hp''.eq, hv]
        rfl
      · simp [hnum]
    simp only [hset, Bool.true_or, if_true, hcur]
    show (∀ i, Op.disable i ∈ reconfigure ifs .hw x.info new ts ↔ _) ∧
      (∀ i, x.ports ≠ [] → (Op.enable i ∈ reconfigure ifs .hw x.info new ts ↔ _))
    unfold reconfigure
    simp only [List.mem_append, List.mem_map, List.mem_filter, mem_intfs hp, mem_intfs hp'']
    have hnews : ∀ i, (new.valid.filterMap Phys.intf).contains i = true ↔ ∃ p ∈ ps', p.intf = some i := by
      intro i
      rw [List.contains_iff_mem, mem_intfs hp'']
    constructor
    · intro i
      constructor
      · rintro (⟨a, ⟨ha, hb⟩, hab⟩ | ⟨a, -, hab⟩)
        · injection hab with hab
          subst hab
          simp only [Bool.and_eq_true, Bool.not_eq_true'] at hb
          refine ⟨ha, ?_, ?_, hb.1.2⟩
          · intro p hpp hpi
            have := (hnews a).2 ⟨p, hpp, hpi⟩
            rw [hb.1.1] at this
            cases this
          · have := hb.2
            simpa [isHw] using this
        · cases hab
      · rintro ⟨ha, hb, hc, hd⟩
        refine .inl ⟨i, ⟨ha, ?_⟩, rfl⟩
        have : (new.valid.filterMap Phys.intf).contains i = false := by
          cases hcon : (new.valid.filterMap Phys.intf).contains i with
          | false => rfl
          | true =>
            obtain ⟨p, hpp, hpi⟩ := (hnews i).1 hcon
            exact absurd hpi (hb p hpp)
        rw [this, hd]
        simp [isHw, hc]
    · intro i hports
      have htshw : ts = .hw := by
        cases any with
        | true => exact hcur
        | false =>
          by_contra hne
          obtain ⟨q, rest, hq⟩ := List.exists_cons_of_ne_nil hports
          rw [List.any_eq_false] at hany
          have := hany q (by rw [hq]; simp)
          unfold moved at this
          rw [hts] at this
          simp [hne] at this
      subst htshw
      have hisHw : isHw ifs .hw i (if new.active = some i then Ts.hw else .auto) = ifs.ptp i := by
        unfold isHw
        split <;> split <;> simp_all
      constructor
      · rintro (⟨a, -, hab⟩ | ⟨a, ⟨ha, hb⟩, hab⟩)
        · cases hab
        · injection hab with hab
          subst hab
          exact ⟨ha, by rw [← hisHw]; exact hb⟩
      · rintro ⟨ha, hb⟩
        exact .inr ⟨i, ⟨ha, by rw [hisHw]; exact hb⟩, rfl⟩

example : let t : List Link := [⟨.physical, 3, 3, true, 0, 5, .none, 0, true⟩, ⟨.bond, 5, 5, true, 0, 0, .lacp, 0, false⟩]
    let x : Intf := { info := { logical := 5, bondIf := 5, mode := .lacp, num := 1, active := some 2
                                slots := fun _ => ⟨some 2, true, false, true⟩ }
                      ts := .hw, ports := [{ phys := some 2, clock := 2 }] }
    (match change demo t (fun _ => true) x with
      | .ok c => decide (c.rc = none ∧ c.intf.ts = .hw ∧ c.ops = [.disable 2, .enable 3])
      | .abort => false) = true := by decide

/-! ## C241 -/

theorem probe_names (ifs : Ifs) (t : List Link) (l : Link) (b c : Info) (rc : Option Err)
    (h : probe ifs t l b = .ok (c, rc)) : c.logical = b.logical ∧ c.bondIf = l.name := by
  have hp : (parsed ifs t l b).1.logical = b.logical ∧ (parsed ifs t l b).1.bondIf = l.name := by
    by_cases ha : Aggregate l
    · obtain ⟨-, -, -, -, -, -, -, h8, h9, -⟩ := parsed_spec ifs t l b ha
      exact ⟨h8, h9⟩
    · unfold parsed
      unfold Aggregate at ha
      cases hl : l.type <;> simp_all <;> exact ⟨rfl, rfl⟩
  rw [probe_eq] at h
  simp only at h
  generalize (if Aggregate l ∧ (parsed ifs t l b).1.num = 0 then some Err.noent else (parsed ifs t l b).2) = r at h
  split at h
  · injection h with h; injection h with h _; subst h; exact hp
  · obtain ⟨-, h2, h3, -⟩ := choose_kept ifs l _ c _ _ h
    exact ⟨by rw [h2, hp.1], by rw [h3, hp.2]⟩

/-- **C241.** For a logical interface given by name, the search succeeds only if there is such a
link, and it is then about the link below all VLANs; a name that is empty, not in the
table or of a VLAN on nothing gives an error, and so does a link below without interface.
A bond without slaves gives none. -/
theorem C241_topology (ifs : Ifs) (t : List Link) (n : Nat) (b c : Info) (rc : Option Err)
    (h : topology ifs t n b = .done c rc) :
    (n = 0 ∧ rc = some .nodev ∧ c = b) ∨
    (n ≠ 0 ∧ (∀ l ∈ t, l.name ≠ n) ∧ rc = some .noent ∧ c = b) ∨
    (n ≠ 0 ∧ ∃ l, Named t n l ∧
      (((∃ p, Through t l p ∧ p.type = .vlan ∧ ∀ q, ¬ OnTop t p q) ∧ rc = some .inval ∧
          c = { b with logical := n }) ∨
       ∃ p r, Through t l p ∧ p.type ≠ .vlan ∧ probe ifs t p { b with logical := n } = .ok (c, r) ∧
        (rc = none ↔ r = none ∨ r = some .noent) ∧ rc ≠ some .noent ∧ c.logical = n ∧ c.bondIf = p.name)) := by
  unfold topology at h
  by_cases hn : n = 0
  · rw [if_pos hn] at h
    injection h with h1 h2
    exact .inl ⟨hn, h2.symm, h1.symm⟩
  rw [if_neg hn] at h
  cases hb : byName t n with
  | none =>
    rw [hb] at h
    simp only at h
    injection h with h1 h2
    exact .inr (.inl ⟨hn, (byName_none _ _).1 hb, h2.symm, h1.symm⟩)
  | some l =>
    rw [hb] at h
    simp only at h
    refine .inr (.inr ⟨hn, l, (byName_iff _ _ _).1 hb, ?_⟩)
    cases hw : walk t (t.length + 2) l with
    | hang => rw [hw] at h; cases h
    | inval =>
      rw [hw] at h
      simp only at h
      injection h with h1 h2
      exact .inl ⟨walk_inval_through t _ l hw, h2.symm, h1.symm⟩
    | found p =>
      rw [hw] at h
      simp only at h
      obtain ⟨k1, k2⟩ := (C224_found t l p).1 hw
      cases hp : probe ifs t p { b with logical := n } with
      | abort => rw [hp] at h; cases h
      | ok v =>
        obtain ⟨c', r⟩ := v
        rw [hp] at h
        simp only at h
        injection h with h1 h2
        subst h1
        refine .inr ⟨p, r, k1, k2, hp, ?_, ?_, ?_⟩
        · rw [← h2]
          by_cases hr : r = some .noent
          · simp [hr]
          · simp [hr]
        · rw [← h2]
          by_cases hr : r = some .noent
          · simp [hr]
          · simp [hr]
        · exact probe_names ifs t p _ _ _ hp

example : (match topology demo [⟨.physical, 1, 1, true, 0, 0, .none, 0, false⟩, ⟨.vlan, 2, 2, true, 1, 0, .none, 0, false⟩] 2 {} with
    | .done c rc => decide (rc = none ∧ c.logical = 2 ∧ c.bondIf = 1 ∧ c.active = some 1)
    | _ => false) = true := by decide

end Verif.Bond
