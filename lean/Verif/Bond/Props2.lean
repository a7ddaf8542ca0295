import Verif.Bond.Props

set_option linter.unusedSimpArgs false
set_option linter.unusedVariables false

/-!
# The active interface of a logical one
-/

namespace Verif.Bond

/-- Interfaces 1, 2, ... with index, name and clock equal to their number; those below 10
have hardware timestamps and all are up. -/
def demo : Ifs where
  byIndex i := if 0 < i ∧ i < 20 then some i.toNat else none
  byName n := if 0 < n ∧ n < 20 then some n else none
  deleted _ := false
  name i := i
  index i := i
  hw i := i < 10
  ptp i := i < 10
  link _ := some true
  clock i := i
  sys := 0

theorem findUp_spec (ifs : Ifs) (l : List Phys) (rc : Option Err) :
    (∃ a p b, l = a ++ p :: b ∧ (∀ q ∈ a, ∀ i, q.intf = some i → ifs.link i ≠ some true) ∧
        (∃ i, p.intf = some i ∧ ifs.link i = some true) ∧ findUp ifs l rc = (p.intf, none)) ∨
      ((∀ q ∈ l, ∀ i, q.intf = some i → ifs.link i ≠ some true) ∧
        (findUp ifs l rc).1 = none ∧
        ((∀ q ∈ l, ∃ i, q.intf = some i ∧ ifs.link i = some false) → l ≠ [] → (findUp ifs l rc).2 = none) ∧
        (l = [] → (findUp ifs l rc).2 = rc)) := by
  induction l generalizing rc with
  | nil => exact .inr ⟨nofun, rfl, fun _ h => absurd rfl h, fun _ => rfl⟩
  | cons p rest ih =>
    cases hp : p.intf.bind ifs.link with
    | none =>
      simp only [findUp, hp]
      have hno : ∀ i, p.intf = some i → ifs.link i ≠ some true := by
        intro i hi hl
        rw [hi] at hp
        have : ifs.link i = none := hp
        rw [this] at hl
        cases hl
      rcases ih (some .inval) with ⟨a, q, b, h1, h2, h3, h4⟩ | ⟨h1, h2, h3, h4⟩
      · refine .inl ⟨p :: a, q, b, by rw [h1]; rfl, ?_, h3, h4⟩
        intro x hx
        rcases List.mem_cons.1 hx with rfl | hx
        · exact hno
        · exact h2 x hx
      · refine .inr ⟨?_, h2, ?_, nofun⟩
        · intro x hx
          rcases List.mem_cons.1 hx with rfl | hx
          · exact hno
          · exact h1 x hx
        · intro hall _
          obtain ⟨i, hi, hl⟩ := hall p (by simp)
          rw [hi] at hp
          have : ifs.link i = none := hp
          rw [this] at hl
          cases hl
    | some v =>
      cases v with
      | true =>
        simp only [findUp, hp]
        cases hi : p.intf with
        | none => rw [hi] at hp; cases hp
        | some i =>
          rw [hi] at hp
          refine .inl ⟨[], p, rest, rfl, nofun, ⟨i, hi, hp⟩, by rw [hi]⟩
      | false =>
        simp only [findUp, hp]
        have hno : ∀ i, p.intf = some i → ifs.link i ≠ some true := by
          intro i hi hl
          rw [hi] at hp
          have : ifs.link i = some false := hp
          rw [this] at hl
          cases hl
        rcases ih none with ⟨a, q, b, h1, h2, h3, h4⟩ | ⟨h1, h2, h3, h4⟩
        · refine .inl ⟨p :: a, q, b, by rw [h1]; rfl, ?_, h3, h4⟩
          intro x hx
          rcases List.mem_cons.1 hx with rfl | hx
          · exact hno
          · exact h2 x hx
        · refine .inr ⟨?_, h2, ?_, nofun⟩
          · intro x hx
            rcases List.mem_cons.1 hx with rfl | hx
            · exact hno
            · exact h1 x hx
          · intro hall _
            by_cases hr : rest = []
            · rw [h4 hr]
            · exact h3 (fun q hq => hall q (by simp [hq])) hr

theorem parseBond_active (ifs : Ifs) (t : List Link) (m : Link) (b : Info) :
    (∀ x ∈ t, SlaveOf m x = true → (ifs.byIndex x.index).isSome ∨ (x.type ≠ .bond ∧ x.type ≠ .team)) →
    (parseBond ifs t m b).1.active =
      if m.mode = .activeBackup ∧ m.active > 0 then ifs.byIndex m.active else none := by
  intro hno
  unfold parseBond
  simp only
  have key : ∀ (rows : List Link) (c : Info), (∀ x ∈ rows, x ∈ t) →
      (bondLoop ifs t m rows c).active = c.active := by
    intro rows
    induction rows with
    | nil => intro c _; rfl
    | cons l rest ih =>
      intro c hsub
      have hr : ∀ x ∈ rest, x ∈ t := fun x hx => hsub x (by simp [hx])
      simp only [bondLoop]
      split
      · split
        · rename_i hs
          cases hi : ifs.byIndex l.index with
          | none =>
            rcases hno l (hsub l (by simp)) hs with h | h
            · rw [hi] at h; cases h
            · simp only
              rw [if_neg (by tauto)]
              exact ih c hr
          | some i => exact (ih _ hr).trans rfl
        · exact ih c hr
      · rfl
  rw [key t _ (fun _ h => h)]
  split <;> rfl

/-! ## C228 -/

/-- **C228.** When the search is successful there is an active interface, and it is one of
the physical interfaces found. -/
theorem C228_member (ifs : Ifs) (t : List Link) (l : Link) (b c : Info)
    (h : probe ifs t l b = .ok (c, none)) (ps : List Phys) (hps : Members c ps) :
    ∃ a, c.active = some a ∧ ∃ p ∈ ps, p.intf = some a := by
  have hps' := hps.eq
  subst hps'
  rw [probe_eq] at h
  simp only at h
  generalize hd : (parsed ifs t l b).1 = d at h
  generalize hrc : (if Aggregate l ∧ d.num = 0 then some Err.noent else (parsed ifs t l b).2) = rc at h
  have hsingle : ∀ (d : Info) (i : Nat), ∃ a, (d.single i).active = some a ∧
      ∃ p ∈ (d.single i).valid, p.intf = some a := by
    intro d i
    exact ⟨i, rfl, { d.slots 0 with intf := some i }, by simp [Info.valid, Info.single], rfl⟩
  by_cases hr : rc ≠ none ∧ rc ≠ some .noent
  · rw [if_pos hr] at h
    injection h with h
    injection h with _ h
    exact absurd h hr.1
  rw [if_neg hr] at h
  unfold choose at h
  by_cases h1 : d.mode = .activeBackup
  · rw [if_pos h1] at h
    cases ha : d.active with
    | none => rw [ha] at h; simp only at h; injection h with h; injection h with _ h; cases h
    | some a =>
      rw [ha] at h
      simp only at h
      split at h
      · rename_i hany
        injection h with h; injection h with h _
        subst h
        refine ⟨a, ha, ?_⟩
        obtain ⟨p, hp, hpa⟩ := List.any_eq_true.1 hany
        exact ⟨p, hp, by simpa using hpa⟩
      · injection h with h; injection h with _ h; cases h
  rw [if_neg h1] at h
  by_cases h2 : d.mode = .lacp ∨ d.bridge = true
  · rw [if_pos h2] at h
    have hnum : d.num ≠ 0 := by
      intro h0
      have hagg : Aggregate l := by
        by_contra hna
        have hp : (parsed ifs t l b) = (clear l b, none) := by
          unfold parsed
          unfold Aggregate at hna
          cases hl : l.type <;> simp_all
        rw [← hd, hp] at h2
        rcases h2 with h2 | h2 <;> cases h2
      have hv : d.valid = [] := by unfold Info.valid; rw [h0]; rfl
      rw [if_pos ⟨hagg, h0⟩] at hrc
      rw [hv, ← hrc] at h
      simp only [findUp] at h
      injection h with h; injection h with _ h; cases h
    rcases findUp_spec ifs d.valid rc with ⟨a, p, e, k1, k2, ⟨i, k3, k3'⟩, k4⟩ | ⟨k1, k2, k3, k4⟩
    · rw [k4, k3] at h
      simp only at h
      injection h with h; injection h with h _
      subst h
      refine ⟨i, rfl, p, ?_, k3⟩
      show p ∈ d.valid
      rw [k1]; simp
    · cases hfu : findUp ifs d.valid rc with
      | mk x y =>
        rw [hfu] at k2
        simp only at k2
        subst k2
        rw [hfu] at h
        simp only at h
        injection h with h; injection h with h _
        subst h
        have hmem : d.slots 0 ∈ d.valid := by
          unfold Info.valid
          exact List.mem_map.2 ⟨0, List.mem_range.2 (by omega), rfl⟩
        have hsome : ∃ i, (d.slots 0).intf = some i := by
          by_cases ha : Aggregate l
          · have hsub := (parsed_spec ifs t l b ha).1
            rw [hd] at hsub
            obtain ⟨x, _, hx⟩ := List.mem_map.1 (hsub.subset hmem)
            exact ⟨x.2, by rw [← hx]; rfl⟩
          · exfalso
            have hp : (parsed ifs t l b) = (clear l b, none) := by
              unfold parsed
              unfold Aggregate at ha
              cases hl : l.type <;> simp_all
            rw [← hd, hp] at h2
            rcases h2 with h2 | h2 <;> cases h2
        obtain ⟨i, hi⟩ := hsome
        exact ⟨i, hi, d.slots 0, hmem, hi⟩
  rw [if_neg h2] at h
  by_cases h3 : l.type = .macvlan
  · rw [if_pos h3] at h
    split at h
    · injection h with h; injection h with _ h; cases h
    · rename_i i _
      injection h with h; injection h with h _
      subst h
      exact hsingle d i
  rw [if_neg h3] at h
  split at h
  · cases h
  · split at h
    · injection h with h; injection h with _ h; cases h
    · rename_i i _
      injection h with h; injection h with h _
      subst h
      exact hsingle d i

/-- **C228.** In an active-backup bond the active interface is the active slave that the
kernel names; when there is none, or it is not among the slaves, that is reported as
ENOENT and no interface is active. -/
theorem C228_active_backup (ifs : Ifs) (t : List Link) (l : Link) (b c : Info) (rc : Option Err)
    (hl : l.type = .bond ∨ l.type = .team) (hm : l.mode = .activeBackup)
    (hdir : ∀ x ∈ t, SlaveOf l x = true → (ifs.byIndex x.index).isSome ∨ (x.type ≠ .bond ∧ x.type ≠ .team))
    (h : probe ifs t l b = .ok (c, rc)) (ps : List Phys) (hps : Members c ps) :
    (∃ a, l.active > 0 ∧ ifs.byIndex l.active = some a ∧ (∃ p ∈ ps, p.intf = some a) ∧
        c.active = some a ∧ rc = none) ∨
      ((∀ a, l.active > 0 → ifs.byIndex l.active = some a → ∀ p ∈ ps, p.intf ≠ some a) ∧
        c.active = none ∧ rc = some .noent) := by
  have ha : Aggregate l := by rcases hl with h | h <;> simp [Aggregate, h]
  obtain ⟨e1, e2, e3⟩ := probe_aggregate ifs t l b c rc ha (.inl hm) h
  obtain ⟨-, -, -, -, -, hmode, -⟩ := parsed_spec ifs t l b ha
  have hact : (parsed ifs t l b).1.active =
      if l.active > 0 then ifs.byIndex l.active else none := by
    have hpa := parseBond_active ifs t l (clear l b) hdir
    simp only [hm, true_and] at hpa
    unfold parsed
    rcases hl with hl | hl
    · rw [hl]; exact hpa
    · rw [hl]
      simp only [parseTeam]
      split
      · exact hpa
      · exact hpa
  rw [hps.eq, e1]
  unfold choose at e3
  rw [hmode, hm, if_pos rfl, hact] at e3
  by_cases hpos : l.active > 0
  · rw [if_pos hpos] at e3 hact
    cases hi : ifs.byIndex l.active with
    | none =>
      rw [hi] at e3
      simp only at e3
      injection e3 with e3; injection e3 with e3 e4
      subst e3
      refine .inr ⟨?_, by rw [hact, hi], e4.symm⟩
      intro a _ hh; cases hh
    | some a =>
      rw [hi] at e3
      simp only at e3
      by_cases hany : (parsed ifs t l b).1.valid.any (fun p => p.intf == some a) = true
      · rw [if_pos hany] at e3
        injection e3 with e3; injection e3 with e3 e4
        subst e3
        obtain ⟨p, hp, hpa⟩ := List.any_eq_true.1 hany
        have hne : (parsed ifs t l b).1.num ≠ 0 := by
          intro h0
          rw [← valid_length] at h0
          rw [List.length_eq_zero_iff.1 h0] at hp
          cases hp
        rw [if_neg hne] at e4
        exact .inl ⟨a, hpos, rfl, ⟨p, hp, by simpa using hpa⟩, by rw [hact, hi], e4.symm⟩
      · rw [if_neg hany] at e3
        injection e3 with e3; injection e3 with e3 e4
        subst e3
        refine .inr ⟨?_, rfl, e4.symm⟩
        intro a' _ hh p hp hpa
        injection hh with hh
        subst hh
        exact hany (List.any_eq_true.2 ⟨p, hp, by simpa using hpa⟩)
  · rw [if_neg hpos] at e3 hact
    simp only at e3
    injection e3 with e3; injection e3 with e3 e4
    subst e3
    refine .inr ⟨?_, hact, e4.symm⟩
    intro a hh; exact absurd hh hpos

example : (match probe demo [⟨.physical, 1, 1, true, 0, 5, .none, 0, true⟩,
      ⟨.physical, 2, 2, true, 0, 5, .none, 0, true⟩, ⟨.bond, 5, 5, true, 0, 0, .activeBackup, 2, false⟩]
      ⟨.bond, 5, 5, true, 0, 0, .activeBackup, 2, false⟩ {} with
    | .ok (c, rc) => decide (c.active = some 2 ∧ rc = none ∧ c.num = 2)
    | .abort => false) = true := by decide

/-- **C228.** In an LACP bond, team or a bridge the active interface is the first slave whose
link is up, or else the first slave. -/
theorem C228_lacp (ifs : Ifs) (t : List Link) (l : Link) (b c : Info) (rc : Option Err)
    (ha : Aggregate l) (hm : l.mode = .lacp ∨ (l.type = .bridge ∧ l.mode ≠ .activeBackup))
    (h : probe ifs t l b = .ok (c, rc)) (ps : List Phys) (hps : Members c ps) (hne : ps ≠ []) :
    (∃ x p y, ps = x ++ p :: y ∧ (∀ q ∈ x, ∀ i, q.intf = some i → ifs.link i ≠ some true) ∧
        (∃ i, p.intf = some i ∧ ifs.link i = some true) ∧ c.active = p.intf ∧ rc = none) ∨
      ((∀ q ∈ ps, ∀ i, q.intf = some i → ifs.link i ≠ some true) ∧
        c.active = (ps.head hne).intf ∧
        ((∀ q ∈ ps, ∃ i, q.intf = some i ∧ ifs.link i = some false) → rc = none)) := by
  have hs : Supported l := by rcases hm with h | h <;> simp [Supported, h]
  obtain ⟨e1, e2, e3⟩ := probe_aggregate ifs t l b c rc ha hs h
  obtain ⟨-, -, -, -, -, hmode, hbr, -⟩ := parsed_spec ifs t l b ha
  have hps' := hps.eq
  rw [e1] at hps'
  subst hps'
  have hnab : l.mode ≠ .activeBackup := by
    rcases hm with h | h
    · rw [h]; simp
    · exact h.2
  have hlb : (parsed ifs t l b).1.mode = .lacp ∨ (parsed ifs t l b).1.bridge = true := by
    rw [hmode, hbr]
    rcases hm with h | h
    · exact .inl h
    · exact .inr (by simpa using h.1)
  unfold choose at e3
  rw [if_neg (by rw [hmode]; exact hnab), if_pos hlb] at e3
  rcases findUp_spec ifs (parsed ifs t l b).1.valid
      (if (parsed ifs t l b).1.num = 0 then some .noent else none) with
    ⟨x, p, y, k1, k2, ⟨i, k3, k3'⟩, k4⟩ | ⟨k1, k2, k3, k4⟩
  · rw [k4, k3] at e3
    simp only at e3
    injection e3 with e3; injection e3 with e3 e4
    subst e3
    exact .inl ⟨x, p, y, k1, k2, ⟨i, k3, k3'⟩, k3.symm, e4.symm⟩
  · refine .inr ⟨k1, ?_, ?_⟩
    · generalize findUp ifs (parsed ifs t l b).1.valid _ = f at e3 k2
      obtain ⟨f1, f2⟩ := f
      simp only at k2
      subst k2
      simp only at e3
      injection e3 with e3; injection e3 with e3 e4
      subst e3
      show ((parsed ifs t l b).1.slots 0).intf = _
      have : (parsed ifs t l b).1.valid.head hne = (parsed ifs t l b).1.slots 0 := by
        have h0 : 0 < (parsed ifs t l b).1.num := by
          rw [← valid_length]; exact List.length_pos_iff.2 hne
        have := valid_getElem (parsed ifs t l b).1 0
        rw [if_pos h0] at this
        rw [List.head_eq_getElem]
        rw [List.getElem?_eq_getElem (List.length_pos_iff.2 hne)] at this
        exact Option.some.inj this
      rw [this]
    · intro hall
      have hrc := k3 hall hne
      generalize findUp ifs (parsed ifs t l b).1.valid _ = f at e3 k2 hrc
      obtain ⟨f1, f2⟩ := f
      simp only at k2 hrc
      subst k2
      subst hrc
      simp only at e3
      injection e3 with e3; injection e3 with e3 e4
      exact e4.symm

example : (match probe { demo with link := fun i => some (i == 3) } [⟨.physical, 1, 1, true, 0, 5, .none, 0, true⟩,
      ⟨.physical, 3, 3, true, 0, 5, .none, 0, true⟩, ⟨.bond, 5, 5, true, 0, 0, .lacp, 0, false⟩]
      ⟨.bond, 5, 5, true, 0, 0, .lacp, 0, false⟩ {} with
    | .ok (c, rc) => decide (c.active = some 3 ∧ rc = none ∧ c.num = 2)
    | .abort => false) = true := by decide

/-! ## Nothing left (C229) -/

/-- **C229**, the full statement: when no physical interface is found, none is active. -/
def C229_statement : Prop :=
  ∀ (ifs : Ifs) (t : List Link) (l : Link) (b c : Info) (rc : Option Err),
    probe ifs t l b = .ok (c, rc) → c.num = 0 → c.active = none

/-- When the last slave leaves an LACP bond or a bridge, the interface that was first stays
active. -/
theorem C229_violated : ¬ C229_statement := by
  intro h
  have := h demo [⟨.bond, 5, 5, true, 0, 0, .lacp, 0, false⟩] ⟨.bond, 5, 5, true, 0, 0, .lacp, 0, false⟩
    { num := 1, slots := fun _ => ⟨some 1, true, false, true⟩ } _ _ rfl rfl
  cases this

/-- **C229**, in all other cases. -/
theorem C229_none_partial (ifs : Ifs) (t : List Link) (l : Link) (b c : Info) (rc : Option Err)
    (hm : ¬ (Aggregate l ∧ (l.mode = .lacp ∨ (l.type = .bridge ∧ l.mode ≠ .activeBackup)) ∧
      (b.slots 0).intf ≠ none))
    (hdir : ∀ x ∈ t, SlaveOf l x = true → (ifs.byIndex x.index).isSome ∨ (x.type ≠ .bond ∧ x.type ≠ .team))
    (h : probe ifs t l b = .ok (c, rc)) (h0 : c.num = 0) : c.active = none := by
  by_cases hbt : (l.type = .bond ∨ l.type = .team) ∧ l.mode = .activeBackup
  · rcases C228_active_backup ifs t l b c rc hbt.1 hbt.2 hdir h c.valid (members_valid c) with
      ⟨a, -, -, ⟨p, hp, -⟩, -⟩ | ⟨-, h, -⟩
    · have := valid_length c
      rw [h0] at this
      rw [List.length_eq_zero_iff.1 this] at hp
      cases hp
    · exact h
  have hpact : (parsed ifs t l b).2 ≠ none → (parsed ifs t l b).1.num ≠ 0 →
      probe ifs t l b = .ok ((parsed ifs t l b).1, (parsed ifs t l b).2) := by
    intro k1 k2
    by_cases ha : Aggregate l
    · rw [probe_eq]
      simp only
      obtain ⟨-, -, -, -, -, -, -, -, -, -, k11⟩ := parsed_spec ifs t l b ha
      rcases k11 with k | k
      · exact absurd k k1
      · simp only [k2, and_false, if_false, k]
        rw [if_pos (by simp)]
    · exfalso
      apply k1
      unfold parsed
      unfold Aggregate at ha
      cases hl : l.type <;> simp_all
  by_cases hbad : (parsed ifs t l b).2 ≠ none ∧ (parsed ifs t l b).1.num ≠ 0
  · rw [hpact hbad.1 hbad.2] at h
    injection h with h; injection h with h _
    subst h
    exact absurd h0 hbad.2
  rw [probe_eq] at h
  simp only at h
  generalize hrc : (if Aggregate l ∧ (parsed ifs t l b).1.num = 0 then some Err.noent
    else (parsed ifs t l b).2) = r at h
  have hr : ¬ (r ≠ none ∧ r ≠ some .noent) := by
    rintro ⟨r1, r2⟩
    by_cases hcnd : Aggregate l ∧ (parsed ifs t l b).1.num = 0
    · rw [if_pos hcnd] at hrc; exact r2 hrc.symm
    · rw [if_neg hcnd] at hrc
      by_cases ha : Aggregate l
      · exact hbad ⟨by rw [hrc]; exact r1, fun hh => hcnd ⟨ha, hh⟩⟩
      · apply r1
        rw [← hrc]
        unfold parsed
        unfold Aggregate at ha
        cases hl : l.type <;> simp_all
  rw [if_neg hr] at h
  -- what is active after parsing
  have hslots : (parsed ifs t l b).1.num = 0 → ∀ k, ((parsed ifs t l b).1.slots k).intf = (b.slots k).intf := by
    intro hz
    by_cases ha : Aggregate l
    · obtain ⟨-, k2, -⟩ := parsed_spec ifs t l b ha
      have hnil : below ifs t l = [] := by
        rw [hz] at k2
        unfold maxPhys at k2
        exact List.length_eq_zero_iff.1 (by omega)
      have key : ∀ (rows : List Link) (d : Info), belowRows ifs t l rows = [] → d.num = 0 →
          (bondLoop ifs t l rows d).slots = d.slots ∧ (bondLoop ifs t l rows d).num = 0 := by
        intro rows
        induction rows with
        | nil => intro d _ hd; exact ⟨rfl, hd⟩
        | cons x rest ih =>
          intro d hb hd
          simp only [bondLoop, hd]
          rw [if_pos (by decide)]
          by_cases hs : (x.slave && x.master == l.index) = true
          · rw [belowRows_pos ifs t l x rest hs] at hb
            obtain ⟨hb1, hb2⟩ := List.append_eq_nil_iff.1 hb
            rw [if_pos hs]
            cases hi : ifs.byIndex x.index with
            | none =>
              simp only
              by_cases hty : x.type = .bond ∨ x.type = .team
              · rw [if_pos hty]
                have hdn : direct ifs t x = [] := by
                  unfold contrib at hb1
                  rw [hi] at hb1
                  simpa only [if_pos hty] using hb1
                have hnl : ∀ (rows : List Link) (d : Info), direct ifs rows x = [] →
                    (nestedLoop ifs x rows d).slots = d.slots ∧ (nestedLoop ifs x rows d).num = d.num := by
                  intro rows
                  induction rows with
                  | nil => intro d _; exact ⟨rfl, rfl⟩
                  | cons y rest ih2 =>
                    intro d hdd
                    simp only [nestedLoop]
                    split
                    · split
                      · rename_i hsy
                        have hsy' : SlaveOf x y = true := hsy
                        unfold direct at hdd
                        rw [List.filter_cons_of_pos hsy'] at hdd
                        cases hiy : ifs.byIndex y.index with
                        | none =>
                          rw [List.filterMap_cons_none (by rw [hiy]; rfl)] at hdd
                          exact ih2 d hdd
                        | some i =>
                          rw [List.filterMap_cons_some (b := (y, i)) (by rw [hiy]; rfl)] at hdd
                          cases hdd
                      · rename_i hsy
                        have hsy' : ¬ SlaveOf x y = true := hsy
                        unfold direct at hdd
                        rw [List.filter_cons_of_neg hsy'] at hdd
                        exact ih2 d hdd
                    · exact ⟨rfl, rfl⟩
                have hn : (nested ifs t x d).slots = d.slots ∧ (nested ifs t x d).num = 0 := by
                  unfold nested
                  simp only
                  generalize hd' : (if x.mode = .activeBackup ∧ x.active > 0 ∧ d.active = none then
                    { d with active := ifs.byIndex x.active } else d) = d'
                  have e1 : d'.slots = d.slots := by subst hd'; split <;> rfl
                  have e2 : d'.num = 0 := by subst hd'; split <;> exact hd
                  obtain ⟨f1, f2⟩ := hnl t d' hdn
                  split
                  · refine ⟨?_, by show (nestedLoop ifs x t d').num = 0; rw [f2, e2]⟩
                    funext j
                    show (if d.num ≤ j ∧ j < (nestedLoop ifs x t d').num then _ else (nestedLoop ifs x t d').slots j) = _
                    rw [f2, e2, if_neg (by omega), f1, e1]
                  · exact ⟨by rw [f1, e1], by rw [f2, e2]⟩
                obtain ⟨g1, g2⟩ := ih _ hb2 hn.2
                exact ⟨by rw [g1, hn.1], g2⟩
              · rw [if_neg hty]
                exact ih d hb2 hd
            | some i =>
              unfold contrib at hb1
              rw [hi] at hb1
              cases hb1
          · rw [if_neg hs]
            rw [belowRows_neg ifs t l x rest hs] at hb
            exact ih d hb hd
      have hpb : ∀ d : Info, d.num = 0 → (parseBond ifs t l d).1.slots = d.slots := by
        intro d hd
        unfold parseBond
        simp only
        refine ((key t _ ?_ ?_).1).trans ?_
        · rw [belowRows_all]; exact hnil
        · split <;> exact hd
        · split <;> rfl
      intro k
      unfold parsed
      rcases ha with ha | ha | ha
      · rw [ha]; show ((parseBond ifs t l (clear l b)).1.slots k).intf = _
        rw [hpb _ rfl]; rfl
      · rw [ha]
        have hz' : (parseBond ifs t l (clear l b)).1.num = 0 := by
          have := (parseBond_spec ifs t l (clear l b) rfl).2.1
          rw [this, hnil]; rfl
        simp only [parseTeam]
        split
        · show (if 0 ≤ k ∧ k < (parseBond ifs t l (clear l b)).1.num then _
            else (parseBond ifs t l (clear l b)).1.slots k).intf = _
          rw [hz', if_neg (by omega), hpb _ rfl]; rfl
        · rw [hpb _ rfl]; rfl
      · rw [ha]; show ((parseBond ifs t l { clear l b with bridge := true }).1.slots k).intf = _
        rw [hpb _ rfl]; rfl
    · intro k
      unfold parsed
      unfold Aggregate at ha
      cases hl : l.type <;> simp_all <;> rfl
  unfold choose at h
  by_cases h1 : (parsed ifs t l b).1.mode = .activeBackup
  · -- only a bridge can be in this mode here
    rw [if_pos h1] at h
    cases hact : (parsed ifs t l b).1.active with
    | none =>
      rw [hact] at h
      simp only at h
      injection h with h; injection h with h _
      subst h
      exact hact
    | some a =>
      rw [hact] at h
      simp only at h
      split at h
      · rename_i hany
        injection h with h; injection h with h _
        subst h
        exfalso
        obtain ⟨p, hp, -⟩ := List.any_eq_true.1 hany
        have := valid_length (parsed ifs t l b).1
        rw [h0] at this
        rw [List.length_eq_zero_iff.1 this] at hp
        cases hp
      · injection h with h; injection h with h _
        subst h
        rfl
  rw [if_neg h1] at h
  by_cases h2 : (parsed ifs t l b).1.mode = .lacp ∨ (parsed ifs t l b).1.bridge = true
  · rw [if_pos h2] at h
    have ha : Aggregate l := by
      by_contra hna
      have hp : (parsed ifs t l b) = (clear l b, none) := by
        unfold parsed
        unfold Aggregate at hna
        cases hl : l.type <;> simp_all
      rw [hp] at h2
      rcases h2 with h2 | h2 <;> cases h2
    obtain ⟨-, -, -, -, -, hmode, hbr, -⟩ := parsed_spec ifs t l b ha
    rw [hmode] at h1 h2
    rw [hbr] at h2
    have hlb : l.mode = .lacp ∨ (l.type = .bridge ∧ l.mode ≠ .activeBackup) := by
      rcases h2 with h2 | h2
      · exact .inl h2
      · exact .inr ⟨by simpa using h2, h1⟩
    have hslot0 : (b.slots 0).intf = none := by
      by_contra hcon
      exact hm ⟨ha, hlb, hcon⟩
    have hz : (parsed ifs t l b).1.num = 0 := by
      generalize findUp ifs (parsed ifs t l b).1.valid r = f at h
      obtain ⟨f1, f2⟩ := f
      cases f1 <;> simp only at h <;>
        (injection h with h; injection h with h _; subst h; exact h0)
    have hv : (parsed ifs t l b).1.valid = [] := by unfold Info.valid; rw [hz]; rfl
    rw [hv] at h
    simp only [findUp] at h
    injection h with h; injection h with h _
    subst h
    show ((parsed ifs t l b).1.slots 0).intf = none
    rw [hslots hz]
    exact hslot0
  rw [if_neg h2] at h
  have hone : ∀ i, ((parsed ifs t l b).1.single i).num = 1 := fun _ => rfl
  have hpa : (parsed ifs t l b).1.active = none := by
    by_cases ha : Aggregate l
    · obtain ⟨-, -, -, -, -, hmode, hbr, -⟩ := parsed_spec ifs t l b ha
      rw [hmode] at h1 h2
      rw [hbr] at h2
      have hnb : l.type ≠ .bridge := fun hh => h2 (.inr (by simpa using hh))
      have hpb := parseBond_active ifs t l (clear l b) hdir
      rw [if_neg (fun hh => h1 hh.1)] at hpb
      unfold parsed
      rcases ha with ha | ha | ha
      · rw [ha]; exact hpb
      · rw [ha]
        simp only [parseTeam]
        split <;> exact hpb
      · exact absurd ha hnb
    · unfold parsed
      unfold Aggregate at ha
      cases hl : l.type <;> simp_all <;> rfl
  by_cases h3 : l.type = .macvlan
  · rw [if_pos h3] at h
    split at h
    · injection h with h; injection h with h _; subst h; exact hpa
    · injection h with h; injection h with h _; subst h; exact absurd h0 (by simp [hone])
  rw [if_neg h3] at h
  split at h
  · cases h
  · split at h
    · injection h with h; injection h with h _; subst h; exact hpa
    · injection h with h; injection h with h _; subst h; exact absurd h0 (by simp [hone])

example : (match probe demo [⟨.bond, 5, 5, true, 0, 0, .activeBackup, 2, false⟩]
      ⟨.bond, 5, 5, true, 0, 0, .activeBackup, 2, false⟩ { slots := fun _ => ⟨some 1, true, false, true⟩ } with
    | .ok (c, rc) => decide (c.active = none ∧ rc = some .noent ∧ c.num = 0)
    | .abort => false) = true := by decide

/-! ## A bridge over a bond (C230) -/

/-- **C230**, the full statement: when a bridge has one slave, an active-backup bond, then the
active interface is the active slave of that bond. -/
def C230_statement : Prop :=
  ∀ (ifs : Ifs) (t : List Link) (l m : Link) (b c : Info) (a : Nat),
    l.type = .bridge → l.mode = .none → t.filter (SlaveOf l) = [m] → m.type = .bond →
    m.mode = .activeBackup → m.active > 0 → ifs.byIndex m.index = none → ifs.byIndex m.active = some a →
    (∃ x ∈ direct ifs t m, x.2 = a) → probe ifs t l b = .ok (c, none) → c.active = some a

/-- The active slave that was found is replaced by the first one that is up. -/
theorem C230_violated : ¬ C230_statement := by
  intro h
  have := h { demo with byIndex := fun i => if i = 1 ∨ i = 2 then some i.toNat else none }
    [⟨.physical, 1, 1, true, 0, 4, .none, 0, true⟩, ⟨.physical, 2, 2, true, 0, 4, .none, 0, true⟩,
      ⟨.bond, 4, 4, true, 0, 5, .activeBackup, 2, true⟩, ⟨.bridge, 5, 5, true, 0, 0, .none, 0, false⟩]
    ⟨.bridge, 5, 5, true, 0, 0, .none, 0, false⟩ ⟨.bond, 4, 4, true, 0, 5, .activeBackup, 2, true⟩ {} _ 2
    rfl rfl rfl rfl rfl (by decide) rfl rfl (by decide) rfl
  cases this

/-- **C230**, when all other slaves of the bond have no link and there are no more than
sixteen. -/
theorem C230_bridge_partial (ifs : Ifs) (t : List Link) (l m : Link) (b c : Info) (a : Nat)
    (hl : l.type = .bridge) (hlm : l.mode = .none) (hf : t.filter (SlaveOf l) = [m])
    (hmt : m.type = .bond) (hi : ifs.byIndex m.index = none)
    (hmem : ∃ x ∈ direct ifs t m, x.2 = a) (hlen : (direct ifs t m).length ≤ 16)
    (hup : ifs.link a = some true) (hdown : ∀ x ∈ direct ifs t m, x.2 ≠ a → ifs.link x.2 ≠ some true)
    (h : probe ifs t l b = .ok (c, none)) : c.active = some a := by
  have ha : Aggregate l := .inr (.inr hl)
  have hbel : below ifs t l = direct ifs t m := by
    unfold below
    rw [hf]
    simp [hi, hmt]
  have hperm := (C225_slaves ifs t l b c none ha (.inr (.inr hl)) h c.valid (members_valid c)).2.2.1
    (by rw [hbel]; exact hlen)
  rw [hbel] at hperm
  obtain ⟨x, hx, hxa⟩ := hmem
  have hin : record ifs x ∈ c.valid := hperm.symm.subset (List.mem_map.2 ⟨x, hx, rfl⟩)
  have hne : c.valid ≠ [] := List.ne_nil_of_mem hin
  rcases C228_lacp ifs t l b c none ha (.inr ⟨hl, by rw [hlm]; simp⟩) h c.valid (members_valid c) hne with
    ⟨u, p, v, k1, -, ⟨i, k3, k3'⟩, k4, -⟩ | ⟨k1, -⟩
  · rw [k4, k3]
    have hp : p ∈ c.valid := by rw [k1]; simp
    obtain ⟨y, hy, rfl⟩ := List.mem_map.1 (hperm.subset hp)
    have hyi : y.2 = i := Option.some.inj k3
    by_contra hcon
    exact hdown y hy (fun hh => hcon (by rw [← hh, hyi])) (by rw [hyi]; exact k3')
  · exact absurd hup (k1 _ hin a (by rw [← hxa]; rfl))

example : (match probe { demo with byIndex := fun i => if i = 1 ∨ i = 2 then some i.toNat else none
                                   link := fun i => some (i == 2) }
    [⟨.physical, 1, 1, true, 0, 4, .none, 0, true⟩, ⟨.physical, 2, 2, true, 0, 4, .none, 0, true⟩,
      ⟨.bond, 4, 4, true, 0, 5, .activeBackup, 2, true⟩, ⟨.bridge, 5, 5, true, 0, 0, .none, 0, false⟩]
    ⟨.bridge, 5, 5, true, 0, 0, .none, 0, false⟩ {} with
    | .ok (c, rc) => decide (c.active = some 2 ∧ rc = none)
    | .abort => false) = true := by decide

/-! ## Other links (C231) -/

/-- **C231.** A link that is not a bond, team or bridge stands for one interface: for a
macvlan the one that it is on, or else its own, for any other its own, found by name.
When there is no such interface or it was deleted, ENODEV is returned. -/
theorem C231_single (ifs : Ifs) (t : List Link) (l : Link) (b : Info) (ha : ¬ Aggregate l) :
    ∃ c rc, probe ifs t l b = .ok (c, rc) ∧
      (∀ i, (if l.type = .macvlan then
              (∃ j, ifs.byIndex l.lower = some j ∧ ifs.deleted j = false ∧ j = i) ∨
              ((∀ j, ifs.byIndex l.lower = some j → ifs.deleted j = true) ∧
                ifs.byIndex l.index = some i ∧ ifs.deleted i = false)
            else ifs.byName l.name = some i ∧ ifs.deleted i = false) →
          rc = none ∧ c.active = some i ∧ c.num = 1 ∧ (c.slots 0).intf = some i) ∧
      ((if l.type = .macvlan then
          (∀ j, ifs.byIndex l.lower = some j → ifs.deleted j = true) ∧
          (∀ j, ifs.byIndex l.index = some j → ifs.deleted j = true)
        else ∀ j, ifs.byName l.name = some j → ifs.deleted j = true) →
          rc = some .nodev ∧ c.active = none ∧ c.num = 0) := by
  have hp : parsed ifs t l b = (clear l b, none) := by
    unfold parsed
    unfold Aggregate at ha
    cases hl : l.type <;> simp_all
  rw [probe_eq]
  simp only [ha, false_and, if_false, hp]
  rw [if_neg (by simp)]
  unfold choose
  rw [if_neg (show ¬ (clear l b).mode = .activeBackup from nofun)]
  rw [if_neg (show ¬ ((clear l b).mode = .lacp ∨ (clear l b).bridge = true) by
    intro hh; rcases hh with hh | hh <;> cases hh)]
  have hlive : ∀ (o : Option Nat) (i : Nat), live ifs o = some i ↔ o = some i ∧ ifs.deleted i = false := by
    intro o i
    cases o with
    | none => simp [live]
    | some j =>
      unfold live
      cases hd : ifs.deleted j
      · simp only [Option.filter, hd, Bool.not_false, if_true]
        constructor
        · intro h; injection h with h; subst h; exact ⟨rfl, hd⟩
        · rintro ⟨h, -⟩; exact h
      · simp only [Option.filter, hd, Bool.not_true]
        constructor
        · intro h; simp at h
        · rintro ⟨h, h2⟩; injection h with h; subst h; rw [hd] at h2; cases h2
  have hdead : ∀ o : Option Nat, live ifs o = none ↔ ∀ i, o = some i → ifs.deleted i = true := by
    intro o
    cases o with
    | none => simp [live]
    | some j =>
      unfold live
      cases hd : ifs.deleted j
      · simp [Option.filter, hd]
      · simp [Option.filter, hd]
  by_cases h3 : l.type = .macvlan
  · simp only [h3, if_true]
    cases hl1 : live ifs (ifs.byIndex l.lower) with
    | some i =>
      simp only [Option.orElse]
      have k1 := (hlive _ _).1 hl1
      refine ⟨_, _, rfl, ?_, ?_⟩
      · rintro i' (⟨j, h1, h2, rfl⟩ | ⟨h1, -⟩)
        · rw [k1.1] at h1
          injection h1 with h1
          subst h1
          exact ⟨rfl, rfl, rfl, rfl⟩
        · have := h1 i k1.1
          rw [k1.2] at this; cases this
      · rintro ⟨h1, -⟩
        have := h1 i k1.1
        rw [k1.2] at this; cases this
    | none =>
      have k1 := (hdead _).1 hl1
      simp only [Option.orElse]
      cases hl2 : live ifs (ifs.byIndex l.index) with
      | some i =>
        have k2 := (hlive _ _).1 hl2
        refine ⟨_, _, rfl, ?_, ?_⟩
        · rintro i' (⟨j, h1, h2, rfl⟩ | ⟨-, h1, h2⟩)
          · rw [k1 _ h1] at h2; cases h2
          · rw [k2.1] at h1
            injection h1 with h1
            subst h1
            exact ⟨rfl, rfl, rfl, rfl⟩
        · rintro ⟨-, h1⟩
          have := h1 i k2.1
          rw [k2.2] at this; cases this
      | none =>
        have k2 := (hdead _).1 hl2
        refine ⟨_, _, rfl, ?_, fun _ => ⟨rfl, rfl, rfl⟩⟩
        rintro i' (⟨j, h1, h2, rfl⟩ | ⟨-, h1, h2⟩)
        · rw [k1 _ h1] at h2; cases h2
        · rw [k2 _ h1] at h2; cases h2
  · simp only [h3, if_false]
    rw [if_neg (show ¬ (clear l b).mode ≠ .none from fun hh => hh rfl)]
    cases hl1 : live ifs (ifs.byName l.name) with
    | some i =>
      have k1 := (hlive _ _).1 hl1
      refine ⟨_, _, rfl, ?_, ?_⟩
      · rintro i' ⟨h1, h2⟩
        rw [k1.1] at h1
        injection h1 with h1
        subst h1
        exact ⟨rfl, rfl, rfl, rfl⟩
      · intro h1
        have := h1 i k1.1
        rw [k1.2] at this; cases this
    | none =>
      have k1 := (hdead _).1 hl1
      refine ⟨_, _, rfl, ?_, fun _ => ⟨rfl, rfl, rfl⟩⟩
      rintro i' ⟨h1, h2⟩
      rw [k1 _ h1] at h2; cases h2

example : (match probe { demo with deleted := fun i => i == 2 } [] ⟨.macvlan, 3, 3, true, 2, 0, .none, 0, false⟩ {} with
    | .ok (c, rc) => decide (c.active = some 3 ∧ rc = none)
    | .abort => false) = true := by decide

/-! ## The primary slave (C232) -/

/-- The active slave of a bond is known from the link of the bond; the links of physical
interfaces do not have one (`src/sfptpd_netlink.c:572-573` and 880-894). -/
def FromKernel (t : List Link) : Prop :=
  ∀ x ∈ t, x.index > 0 ∧ (x.type ≠ .bond → x.type ≠ .team → x.active = 0)

/-- **C232**, the full statement: in an active-backup bond the active slave is marked as the
one to be used. -/
def C232_statement : Prop :=
  ∀ (ifs : Ifs) (t : List Link) (l : Link) (b c : Info) (a : Nat), FromKernel t →
    l.type = .bond → l.mode = .activeBackup → probe ifs t l b = .ok (c, none) → c.active = some a →
    ∃ p ∈ c.valid, p.intf = some a ∧ p.primary = true

/-- The number of the active slave is looked for in the link of the slave itself. -/
theorem C232_violated : ¬ C232_statement := by
  intro h
  have := h demo [⟨.physical, 1, 1, true, 0, 5, .none, 0, true⟩, ⟨.bond, 5, 5, true, 0, 0, .activeBackup, 1, false⟩]
    ⟨.bond, 5, 5, true, 0, 0, .activeBackup, 1, false⟩ {} _ 1 (by unfold FromKernel; decide) rfl rfl rfl rfl
  revert this
  decide

/-- **C232**, what happens instead: no physical slave is ever marked. -/
theorem C232_never_partial (ifs : Ifs) (t : List Link) (l : Link) (b c : Info) (rc : Option Err)
    (ha : Aggregate l) (hs : Supported l) (hk : FromKernel t)
    (hphys : ∀ x ∈ t, (ifs.byIndex x.index).isSome → x.type ≠ .bond ∧ x.type ≠ .team)
    (h : probe ifs t l b = .ok (c, rc)) (p : Phys) (hp : p ∈ c.valid) : p.primary = false := by
  have hsub := (C225_slaves ifs t l b c rc ha hs h c.valid (members_valid c)).1
  obtain ⟨x, hx, rfl⟩ := List.mem_map.1 (hsub.subset hp)
  have hdir : ∀ m, ∀ x ∈ direct ifs t m, x.1 ∈ t ∧ (ifs.byIndex x.1.index).isSome := by
    intro m x hx
    unfold direct at hx
    obtain ⟨y, hy, hyx⟩ := List.mem_filterMap.1 hx
    cases hi : ifs.byIndex y.index with
    | none => rw [hi] at hyx; cases hyx
    | some i =>
      rw [hi] at hyx
      have : (y, i) = x := Option.some.inj hyx
      subst this
      exact ⟨(List.mem_filter.1 hy).1, by rw [hi]; rfl⟩
  have hxt : x.1 ∈ t ∧ (ifs.byIndex x.1.index).isSome := by
    unfold below at hx
    obtain ⟨y, hy, hyx⟩ := List.mem_flatMap.1 hx
    cases hi : ifs.byIndex y.index with
    | none =>
      rw [hi] at hyx
      simp only at hyx
      split at hyx
      · exact hdir _ _ hyx
      · cases hyx
    | some i =>
      rw [hi] at hyx
      rcases List.mem_singleton.1 hyx with rfl
      exact ⟨(List.mem_filter.1 hy).1, by rw [hi]; rfl⟩
  obtain ⟨k1, k2⟩ := hk x.1 hxt.1
  obtain ⟨p1, p2⟩ := hphys x.1 hxt.1 hxt.2
  have hz := k2 p1 p2
  show decide (x.1.active = x.1.index) = false
  rw [hz]
  simp
  omega

example : FromKernel [⟨.physical, 1, 1, true, 0, 5, .none, 0, true⟩, ⟨.bond, 50, 5, true, 0, 0, .activeBackup, 1, false⟩] ∧
    ∀ x ∈ ([⟨.physical, 1, 1, true, 0, 5, .none, 0, true⟩, ⟨.bond, 50, 5, true, 0, 0, .activeBackup, 1, false⟩] : List Link),
      (demo.byIndex x.index).isSome → x.type ≠ .bond ∧ x.type ≠ .team := by
  unfold FromKernel; decide

end Verif.Bond
