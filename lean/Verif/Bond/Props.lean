import Verif.Bond.Support

set_option linter.unusedSimpArgs false
set_option linter.unusedVariables false

/-!
# The physical interfaces below a logical one
-/

namespace Verif.Bond

/-! ## VLANs (C224) -/

/-- The rounds of the loop over nested VLANs that `topology` allows for. -/
theorem through_walk (t : List Link) (l p : Link) (h : Through t l p) (hp : p.type ≠ .vlan) :
    ∃ n, walk t n l = .found p := by
  induction h with
  | here l => exact ⟨1, by simp only [walk]; rw [(vlanOf_stop t l).2 hp]⟩
  | @down l q p ho _ ih =>
    obtain ⟨n, hn⟩ := ih hp
    exact ⟨n + 1, by simp only [walk]; rw [(vlanOf_down t l q).2 ho]; exact hn⟩

theorem walk_total (t : List Link) (l : Link) :
    walk t (t.length + 2) l = .hang ↔ ∀ n, walk t n l = .hang := by
  constructor
  · intro h n
    rw [walk_hang_iff] at h ⊢
    exact after_forever t l (after_le t (t.length + 1) 1 l h) n
  · intro h
    exact h _

/-- **C224.** The search through nested VLANs ends at the link that is below all of them,
whenever there is one. -/
theorem C224_found (t : List Link) (l p : Link) :
    walk t (t.length + 2) l = .found p ↔ Through t l p ∧ p.type ≠ .vlan := by
  constructor
  · exact walk_found_through t _ l p
  · rintro ⟨h, hp⟩
    obtain ⟨n, hn⟩ := through_walk t l p h hp
    cases hw : walk t (t.length + 2) l with
    | hang =>
      have := (walk_total t l).1 hw n
      rw [hn] at this
      cases this
    | inval =>
      have h1 := walk_mono_inval t _ l hw n
      have h2 := walk_mono_found t _ l p hn (t.length + 2)
      rw [Nat.add_comm, h2] at h1
      cases h1
    | found q =>
      have h1 := walk_mono_found t _ l q hw n
      have h2 := walk_mono_found t _ l p hn (t.length + 2)
      rw [Nat.add_comm, h2] at h1
      exact h1.symm

/-- VLAN 5 on VLAN 7 on a bond. -/
example : walk [⟨.vlan, 3, 1, true, 2, 0, .none, 0, false⟩, ⟨.vlan, 2, 2, true, 1, 0, .none, 0, false⟩,
      ⟨.bond, 1, 3, true, 0, 0, .lacp, 0, false⟩] 5 ⟨.vlan, 3, 1, true, 2, 0, .none, 0, false⟩ =
    .found ⟨.bond, 1, 3, true, 0, 0, .lacp, 0, false⟩ := by decide

/-- **C224**, the full statement: for every table and link the search ends, with the link
below all VLANs or an error when there is none. -/
def C224_statement : Prop :=
  ∀ (t : List Link) (l : Link), ∃ n, walk t n l ≠ .hang

/-- It does not end when a VLAN is on itself. This needs a VLAN that was moved to another
network namespace, where the index of the interface it is on means another one. -/
theorem C224_violated : ¬ C224_statement := by
  intro h
  obtain ⟨n, hn⟩ := h [⟨.vlan, 2, 1, true, 2, 0, .none, 0, false⟩] ⟨.vlan, 2, 1, true, 2, 0, .none, 0, false⟩
  apply hn
  exact (walk_total [⟨.vlan, 2, 1, true, 2, 0, .none, 0, false⟩] _).1 (by decide) n

/-- **C224**, for tables without such a cycle: when a rank can be given to links that goes
down from every VLAN to what it is on, the search ends with the link below all VLANs, or
with an error at a VLAN that is on nothing in the table. -/
theorem C224_ends_partial (t : List Link) (rank : Link → Nat)
    (hr : ∀ l ∈ t, ∀ q, OnTop t l q → rank q < rank l) (l : Link) (hl : l ∈ t) :
    (∃ p, walk t (t.length + 2) l = .found p ∧ Through t l p ∧ p.type ≠ .vlan) ∨
      (walk t (t.length + 2) l = .inval ∧
        ∃ p, Through t l p ∧ p.type = .vlan ∧ ∀ q, ¬ OnTop t p q) := by
  have hend : ∀ n, ∀ l ∈ t, rank l < n → walk t n l ≠ .hang := by
    intro n
    induction n with
    | zero => intro l _ h; omega
    | succ n ih =>
      intro l hm hl
      simp only [walk]
      split
      · nofun
      · nofun
      · rename_i q hv
        have ho := (vlanOf_down _ _ _).1 hv
        have := hr l hm q ho
        exact ih q ho.2.2.mem (by omega)
  cases hw : walk t (t.length + 2) l with
  | hang => exact absurd ((walk_total t l).1 hw _) (hend (rank l + 1) l hl (by omega))
  | inval => exact .inr ⟨rfl, walk_inval_through t _ l hw⟩
  | found p =>
    obtain ⟨h1, h2⟩ := walk_found_through t _ l p hw
    exact .inl ⟨p, rfl, h1, h2⟩

/-- A rank for two VLANs of which the lower is on nothing. -/
example :
    let t : List Link := [⟨.vlan, 3, 1, true, 2, 0, .none, 0, false⟩, ⟨.vlan, 2, 2, true, 9, 0, .none, 0, false⟩]
    (∀ l ∈ t, ∀ q, OnTop t l q → q.index.toNat < l.index.toNat) ∧
      walk t 4 ⟨.vlan, 3, 1, true, 2, 0, .none, 0, false⟩ = .inval := by
  refine ⟨?_, by decide⟩
  intro l hl q hq
  have hv := (vlanOf_down _ _ _).2 hq
  rcases List.mem_cons.1 hl with rfl | hl
  · rw [show vlanOf _ _ = some (some (⟨.vlan, 2, 2, true, 9, 0, .none, 0, false⟩ : Link)) from rfl] at hv
    injection hv with hv
    injection hv with hv
    subst hv
    decide
  · rcases List.mem_singleton.1 hl with rfl
    rw [show vlanOf _ _ = none from rfl] at hv
    cases hv

/-! ## Slaves (C225) -/

/-- The kinds of link with slaves. -/
def Aggregate (l : Link) : Prop := l.type = .bond ∨ l.type = .team ∨ l.type = .bridge

instance (l : Link) : Decidable (Aggregate l) := inferInstanceAs (Decidable (_ ∨ _))

/-- The mode of the link can be handled. -/
def Supported (l : Link) : Prop := l.mode = .activeBackup ∨ l.mode = .lacp ∨ l.type = .bridge

theorem parseBond_spec (ifs : Ifs) (t : List Link) (m : Link) (b : Info) (hb : b.num = 0) :
    ((parseBond ifs t m b).1.valid).Subperm ((below ifs t m).map (record ifs)) ∧
      (parseBond ifs t m b).1.num = min maxPhys (below ifs t m).length ∧
      ((∀ l ∈ t, l.type ≠ .team) →
        (parseBond ifs t m b).1.valid = ((below ifs t m).map (record ifs)).take maxPhys) ∧
      (parseBond ifs t m b).1.oob = b.oob ∧
      (parseBond ifs t m b).1.mode = m.mode ∧ (parseBond ifs t m b).1.bridge = b.bridge ∧
      (parseBond ifs t m b).1.logical = b.logical ∧ (parseBond ifs t m b).1.bondIf = b.bondIf ∧
      (parseBond ifs t m b).2 =
        if m.mode = .activeBackup ∨ m.mode = .lacp ∨ b.bridge = true then none else some .inval := by
  unfold parseBond
  simp only
  generalize hb' : (if m.mode = .activeBackup ∧ m.active > 0 then
      { b with mode := m.mode, active := ifs.byIndex m.active }
      else { b with mode := m.mode, active := none }) = b'
  have hn : b'.num = 0 := by subst hb'; split <;> exact hb
  have hk : b'.oob = b.oob ∧ b'.mode = m.mode ∧ b'.bridge = b.bridge ∧ b'.logical = b.logical ∧
      b'.bondIf = b.bondIf := by
    subst hb'; split <;> exact ⟨rfl, rfl, rfl, rfl, rfl⟩
  have hv : b'.valid = [] := by unfold Info.valid; rw [hn]; rfl
  obtain ⟨y, h1, h2, h3, h4, h5, h6, h7⟩ := bondLoop_spec ifs t m t b' (by rw [hn]; decide)
  rw [hv, List.nil_append] at h1
  rw [belowRows_all] at h3 h4 h5
  rw [hn] at h2 h4 h5
  rw [h7.mode, hk.2.1, h7.bridge, hk.2.2.1]
  refine ⟨by rw [h1]; exact h3, by rw [h2, h4]; omega, ?_, h6.trans hk.1, rfl, rfl,
    h7.logical.trans hk.2.2.2.1, h7.bondIf.trans hk.2.2.2.2, rfl⟩
  intro hno
  rw [h1]
  exact h5 hno

/-- The state at the start of the search. -/
def clear (l : Link) (b : Info) : Info :=
  { b with bondIf := l.name, num := 0, active := none, mode := .none, bridge := false }

/-- What the parsing of a bond, team or bridge leaves. -/
def parsed (ifs : Ifs) (t : List Link) (l : Link) (b : Info) : Info × Option Err :=
  match l.type with
  | .bond => parseBond ifs t l (clear l b)
  | .team => parseTeam ifs t l (clear l b)
  | .bridge => parseBond ifs t l { clear l b with bridge := true }
  | _ => (clear l b, none)

theorem probe_eq (ifs : Ifs) (t : List Link) (l : Link) (b : Info) :
    probe ifs t l b =
      let rc := if Aggregate l ∧ (parsed ifs t l b).1.num = 0 then some .noent else (parsed ifs t l b).2
      if rc ≠ none ∧ rc ≠ some .noent then .ok ((parsed ifs t l b).1, rc)
      else choose ifs l (parsed ifs t l b).1 rc := by
  unfold probe parsed clear
  by_cases ha : Aggregate l
  · simp only [ha, true_and]
    rcases ha with h | h | h <;> simp only [h] <;> simp
  · simp only [ha, false_and, if_false]
    unfold Aggregate at ha
    split <;> simp_all

theorem parsed_spec (ifs : Ifs) (t : List Link) (l : Link) (b : Info) (ha : Aggregate l) :
    ((parsed ifs t l b).1.valid).Subperm ((below ifs t l).map (record ifs)) ∧
      (parsed ifs t l b).1.num = min maxPhys (below ifs t l).length ∧
      ((∀ x ∈ t, x.type ≠ .team) → l.type ≠ .team →
        (parsed ifs t l b).1.valid = ((below ifs t l).map (record ifs)).take maxPhys) ∧
      (l.type = .team → (parsed ifs t l b).2 = none →
        (parsed ifs t l b).1.valid.Pairwise fun x y => nameOf ifs x ≤ nameOf ifs y) ∧
      (parsed ifs t l b).1.oob = b.oob ∧
      (parsed ifs t l b).1.mode = l.mode ∧
      (parsed ifs t l b).1.bridge = decide (l.type = .bridge) ∧
      (parsed ifs t l b).1.logical = b.logical ∧ (parsed ifs t l b).1.bondIf = l.name ∧
      ((parsed ifs t l b).2 = none ↔ Supported l) ∧
      ((parsed ifs t l b).2 = none ∨ (parsed ifs t l b).2 = some .inval) := by
  have hc : (clear l b).num = 0 := rfl
  unfold parsed Supported
  rcases ha with h | h | h
  · obtain ⟨h1, h2, h3, h4, h5, h6, h7, h8, h9⟩ := parseBond_spec ifs t l (clear l b) hc
    simp only [h]
    refine ⟨h1, h2, fun hn _ => h3 hn, fun hh => (by cases hh), h4, h5, h6, h7, h8, ?_, ?_⟩
    · rw [h9, show (clear l b).bridge = false from rfl]
      simp
      tauto
    · rw [h9]; split <;> simp
  · simp only [h]
    obtain ⟨h1, h2, h3, h4, h5, h6, h7, h8, h9⟩ := parseBond_spec ifs t l (clear l b) hc
    unfold parseTeam
    simp only
    rw [h9, show (clear l b).bridge = false from rfl]
    by_cases hm : l.mode = .activeBackup ∨ l.mode = .lacp
    · have hm' : l.mode = .activeBackup ∨ l.mode = .lacp ∨ false = true := by tauto
      rw [if_pos hm', if_pos rfl]
      have hsv := sortFrom_valid ifs 0 (parseBond ifs t l (clear l b)).1 (Nat.zero_le _)
      simp only [List.take_zero, List.nil_append, List.drop_zero] at hsv
      refine ⟨?_, h2, fun _ hh => absurd rfl hh, ?_, h4, h5, h6, h7, h8, ?_, .inl rfl⟩
      · show (Info.sortFrom ifs 0 _).valid.Subperm _
        rw [hsv]
        exact (sort_perm ifs _).subperm.trans h1
      · intro _ _
        show (Info.sortFrom ifs 0 _).valid.Pairwise _
        rw [hsv]
        exact sort_sorted ifs _
      · constructor
        · intro _; tauto
        · intro _; rfl
    · have hm' : ¬ (l.mode = .activeBackup ∨ l.mode = .lacp ∨ false = true) := by simpa using hm
      rw [if_neg hm', if_neg (by simp)]
      refine ⟨h1, h2, fun _ hh => absurd rfl hh, ?_, h4, h5, h6, h7, h8, ?_, ?_⟩
      · intro _ hh; rw [h9, show (clear l b).bridge = false from rfl, if_neg hm'] at hh; cases hh
      · rw [h9, show (clear l b).bridge = false from rfl, if_neg hm']
        constructor
        · intro hh; cases hh
        · intro hh
          rcases hh with hh | hh | hh
          · exact absurd (.inl hh) hm
          · exact absurd (.inr hh) hm
          · cases hh
      · rw [h9]; split <;> simp
  · obtain ⟨h1, h2, h3, h4, h5, h6, h7, h8, h9⟩ :=
      parseBond_spec ifs t l { clear l b with bridge := true } rfl
    simp only [h]
    refine ⟨h1, h2, fun hn _ => h3 hn, fun hh => (by cases hh), h4, h5, h6, h7, h8, ?_, ?_⟩
    · rw [h9]
      simp
    · rw [h9]; split <;> simp

/-- What the choice of the active interface leaves alone. -/
theorem choose_kept (ifs : Ifs) (l : Link) (b c : Info) (rc rc' : Option Err)
    (h : choose ifs l b rc = .ok (c, rc')) :
    c.oob = b.oob ∧ c.logical = b.logical ∧ c.bondIf = b.bondIf ∧ c.mode = b.mode ∧
      c.bridge = b.bridge ∧
      ((b.mode = .activeBackup ∨ b.mode = .lacp ∨ b.bridge = true) → c.num = b.num ∧ c.valid = b.valid) := by
  unfold choose at h
  by_cases h1 : b.mode = .activeBackup
  · rw [if_pos h1] at h
    split at h
    · injection h with h; injection h with h _; subst h; exact ⟨rfl, rfl, rfl, rfl, rfl, fun _ => ⟨rfl, rfl⟩⟩
    · split at h <;> (injection h with h; injection h with h _; subst h; exact ⟨rfl, rfl, rfl, rfl, rfl, fun _ => ⟨rfl, rfl⟩⟩)
  rw [if_neg h1] at h
  by_cases h2 : b.mode = .lacp ∨ b.bridge = true
  · rw [if_pos h2] at h
    split at h <;> (injection h with h; injection h with h _; subst h; exact ⟨rfl, rfl, rfl, rfl, rfl, fun _ => ⟨rfl, rfl⟩⟩)
  rw [if_neg h2] at h
  have hno : ¬ (b.mode = .activeBackup ∨ b.mode = .lacp ∨ b.bridge = true) := by tauto
  by_cases h3 : l.type = .macvlan
  · rw [if_pos h3] at h
    split at h <;> (injection h with h; injection h with h _; subst h; exact ⟨rfl, rfl, rfl, rfl, rfl, fun hh => absurd hh hno⟩)
  rw [if_neg h3] at h
  by_cases h4 : b.mode ≠ .none
  · rw [if_pos h4] at h; cases h
  rw [if_neg h4] at h
  split at h <;> (injection h with h; injection h with h _; subst h; exact ⟨rfl, rfl, rfl, rfl, rfl, fun hh => absurd hh hno⟩)

/-- What a search that is not given up leaves of a bond, team or bridge. -/
theorem probe_aggregate (ifs : Ifs) (t : List Link) (l : Link) (b c : Info) (rc : Option Err)
    (ha : Aggregate l) (hs : Supported l) (h : probe ifs t l b = .ok (c, rc)) :
    c.valid = (parsed ifs t l b).1.valid ∧ c.num = (parsed ifs t l b).1.num ∧
      choose ifs l (parsed ifs t l b).1
        (if (parsed ifs t l b).1.num = 0 then some .noent else none) = .ok (c, rc) := by
  obtain ⟨-, -, -, -, -, hm, hbr, -, -, hsup, -⟩ := parsed_spec ifs t l b ha
  have hnone : (parsed ifs t l b).2 = none := hsup.2 hs
  rw [probe_eq] at h
  simp only [ha, true_and, hnone] at h
  have hcond : ¬ ((if (parsed ifs t l b).1.num = 0 then some Err.noent else none) ≠ none ∧
      (if (parsed ifs t l b).1.num = 0 then some Err.noent else none) ≠ some .noent) := by
    split <;> simp
  rw [if_neg hcond] at h
  have hmode : (parsed ifs t l b).1.mode = .activeBackup ∨ (parsed ifs t l b).1.mode = .lacp ∨
      (parsed ifs t l b).1.bridge = true := by
    rw [hm, hbr]
    rcases hs with h | h | h
    · exact .inl h
    · exact .inr (.inl h)
    · exact .inr (.inr (by simpa using h))
  obtain ⟨-, -, -, -, -, hk⟩ := choose_kept ifs l _ c _ rc h
  obtain ⟨hk1, hk2⟩ := hk hmode
  exact ⟨hk2, hk1, h⟩

/-- **C225.** The physical interfaces found below a bond, team or bridge are those that the
link table gives it, directly or through a bond or team in between, each with its state
and capabilities: all of them if there are no more than sixteen, and in the order of the
table when no teams are involved. Of more than sixteen, sixteen are used. -/
theorem C225_slaves (ifs : Ifs) (t : List Link) (l : Link) (b c : Info) (rc : Option Err)
    (ha : Aggregate l) (hs : Supported l) (h : probe ifs t l b = .ok (c, rc)) (ps : List Phys)
    (hps : Members c ps) :
    ps.Subperm ((below ifs t l).map (record ifs)) ∧
      ps.length = min 16 (below ifs t l).length ∧
      ((below ifs t l).length ≤ 16 → ps.Perm ((below ifs t l).map (record ifs))) ∧
      ((∀ x ∈ t, x.type ≠ .team) → l.type ≠ .team →
        ps = ((below ifs t l).map (record ifs)).take 16) := by
  obtain ⟨h1, h2, -⟩ := probe_aggregate ifs t l b c rc ha hs h
  obtain ⟨k1, k2, k3, -⟩ := parsed_spec ifs t l b ha
  rw [hps.eq, h1]
  have hlen : (parsed ifs t l b).1.valid.length = min 16 (below ifs t l).length := by
    rw [valid_length, k2]; rfl
  refine ⟨k1, hlen, ?_, k3⟩
  intro hle
  refine k1.perm_of_length_le ?_
  rw [hlen, List.length_map]
  omega

/-- An LACP bond of two interfaces and a bridge over a bond and an interface. -/
example :
    let ifs : Ifs := ⟨fun i => if i = 1 ∨ i = 2 then some i.toNat else none, fun _ => none,
      fun _ => false, fun i => i, fun i => i, fun i => i == 1, fun i => i == 1, fun _ => some true,
      fun i => i, 0⟩
    let t : List Link := [⟨.physical, 1, 1, true, 0, 4, .none, 0, true⟩,
      ⟨.physical, 2, 2, false, 0, 5, .none, 0, true⟩, ⟨.bond, 4, 4, true, 0, 5, .lacp, 0, true⟩,
      ⟨.bridge, 5, 5, true, 0, 0, .none, 0, false⟩]
    below ifs t ⟨.bond, 4, 4, true, 0, 5, .lacp, 0, true⟩ =
        [(⟨.physical, 1, 1, true, 0, 4, .none, 0, true⟩, 1)] ∧
      (match probe ifs t ⟨.bridge, 5, 5, true, 0, 0, .none, 0, false⟩ {} with
        | .ok (c, rc) => decide (c.valid.map (·.intf) = [some 2, some 1] ∧ c.active = some 2 ∧ rc = none)
        | .abort => false) = true := by decide

/-- **C225.** No store goes outside the array, whatever the link table. -/
theorem C225_bounds (ifs : Ifs) (t : List Link) (l : Link) (b c : Info) (rc : Option Err)
    (h : probe ifs t l b = .ok (c, rc)) : c.oob = b.oob ∧ c.num ≤ 16 := by
  rw [probe_eq] at h
  simp only at h
  by_cases ha : Aggregate l
  · obtain ⟨-, k2, -, -, k5, -⟩ := parsed_spec ifs t l b ha
    have hle : (parsed ifs t l b).1.num ≤ 16 := by rw [k2]; exact Nat.min_le_left _ _
    generalize (if Aggregate l ∧ (parsed ifs t l b).1.num = 0 then some Err.noent
      else (parsed ifs t l b).2) = r at h
    by_cases hr : r ≠ none ∧ r ≠ some .noent
    · rw [if_pos hr] at h
      injection h with h; injection h with h _; subst h
      exact ⟨k5, hle⟩
    · rw [if_neg hr] at h
      refine ⟨((choose_kept ifs l _ c _ rc h).1).trans k5, ?_⟩
      unfold choose at h
      split at h
      · split at h
        · injection h with h; injection h with h _; subst h; exact hle
        · split at h <;> (injection h with h; injection h with h _; subst h; exact hle)
      · split at h
        · split at h <;> (injection h with h; injection h with h _; subst h; exact hle)
        · split at h
          · split at h
            · injection h with h; injection h with h _; subst h; exact Nat.zero_le _
            · injection h with h; injection h with h _; subst h; show 1 ≤ 16; decide
          · split at h
            · cases h
            · split at h
              · injection h with h; injection h with h _; subst h; exact Nat.zero_le _
              · injection h with h; injection h with h _; subst h; show 1 ≤ 16; decide
  · have hp : parsed ifs t l b = (clear l b, none) := by
      unfold parsed
      unfold Aggregate at ha
      cases hl : l.type <;> simp_all
    simp only [ha, false_and, if_false, hp] at h
    rw [if_neg (by simp)] at h
    refine ⟨(choose_kept ifs l _ c _ rc h).1, ?_⟩
    unfold choose at h
    rw [if_neg (show ¬ (clear l b).mode = .activeBackup from nofun)] at h
    rw [if_neg (show ¬ ((clear l b).mode = .lacp ∨ (clear l b).bridge = true) by
      intro hh; rcases hh with hh | hh <;> cases hh)] at h
    split at h
    · split at h
      · injection h with h; injection h with h _; subst h; exact Nat.zero_le _
      · injection h with h; injection h with h _; subst h; show 1 ≤ 16; decide
    · split at h
      · cases h
      · split at h
        · injection h with h; injection h with h _; subst h; exact Nat.zero_le _
        · injection h with h; injection h with h _; subst h; show 1 ≤ 16; decide

/-! ## Order of teams (C226) -/

/-- **C226.** The slaves of a team are in the order of their names, so that the order in
which the kernel lists them makes no difference. -/
theorem C226_team_order (ifs : Ifs) (t t' : List Link) (l : Link) (b b' c c' : Info)
    (rc rc' : Option Err) (hl : l.type = .team) (hs : Supported l) (hp : t.Perm t')
    (h : probe ifs t l b = .ok (c, rc)) (h' : probe ifs t' l b' = .ok (c', rc'))
    (hlen : (below ifs t l).length ≤ 16)
    (hn : ∀ x ∈ below ifs t l, ∀ y ∈ below ifs t l, ifs.name x.2 = ifs.name y.2 → x = y)
    (ps ps' : List Phys) (hps : Members c ps) (hps' : Members c' ps') :
    ps = ps' ∧ ps.Pairwise fun x y => nameOf ifs x ≤ nameOf ifs y := by
  have ha : Aggregate l := .inr (.inl hl)
  have hdir : ∀ m, (direct ifs t m).Perm (direct ifs t' m) := fun m =>
    (hp.filter _).filterMap _
  have hbel : (below ifs t l).Perm (below ifs t' l) := by
    unfold below
    refine List.Perm.trans ((hp.filter _).flatMap_right _) ?_
    refine List.Perm.flatMap_left _ ?_
    intro x hx
    cases ifs.byIndex x.index with
    | some i => exact .refl _
    | none =>
      simp only
      split
      · exact hdir x
      · exact .refl _
  obtain ⟨-, -, q1, -⟩ := C225_slaves ifs t l b c rc ha hs h ps hps
  obtain ⟨-, -, q2, -⟩ := C225_slaves ifs t' l b' c' rc' ha hs h' ps' hps'
  have hlen' : (below ifs t' l).length ≤ 16 := by rw [← hbel.length_eq]; exact hlen
  have hperm : ps.Perm ps' := (q1 hlen).trans ((hbel.map _).trans (q2 hlen').symm)
  obtain ⟨e1, -, -⟩ := probe_aggregate ifs t l b c rc ha hs h
  obtain ⟨e2, -, -⟩ := probe_aggregate ifs t' l b' c' rc' ha hs h'
  obtain ⟨-, -, -, s1, -, -, -, -, -, u1, -⟩ := parsed_spec ifs t l b ha
  obtain ⟨-, -, -, s2, -, -, -, -, -, u2, -⟩ := parsed_spec ifs t' l b' ha
  have o1 := s1 hl (u1.2 hs)
  have o2 := s2 hl (u2.2 hs)
  rw [← e1, ← hps.eq] at o1
  rw [← e2, ← hps'.eq] at o2
  refine ⟨sorted_unique ifs ps ps' hperm o1 o2 ?_, o1⟩
  intro x hx y hy hxy
  obtain ⟨u, hu, rfl⟩ := List.mem_map.1 ((q1 hlen).subset hx)
  obtain ⟨v, hv, rfl⟩ := List.mem_map.1 ((q1 hlen).subset hy)
  exact congrArg _ (hn u hu v hv hxy)

/-- A team of two interfaces, listed both ways round. -/
example :
    let ifs : Ifs := ⟨fun i => if i = 1 ∨ i = 2 then some i.toNat else none, fun _ => none,
      fun _ => false, fun i => i, fun i => i, fun i => i == 1, fun i => i == 1, fun _ => some true,
      fun i => i, 0⟩
    let m : Link := ⟨.team, 5, 5, true, 0, 0, .lacp, 0, false⟩
    let x : Link := ⟨.physical, 1, 1, true, 0, 5, .none, 0, true⟩
    let y : Link := ⟨.physical, 2, 2, true, 0, 5, .none, 0, true⟩
    (match probe ifs [x, y, m] m {}, probe ifs [y, m, x] m {} with
      | .ok (c, _), .ok (d, _) => decide (c.valid = d.valid ∧ c.valid.map (·.intf) = [some 1, some 2])
      | _, _ => false) = true := by decide

/-! ## Bonds that cannot be handled (C227) -/

/-- **C227.** A bond or team in a mode that is not supported is refused with EINVAL when it
has slaves; this is the only way to get that error from one. -/
theorem C227_refused (ifs : Ifs) (t : List Link) (l : Link) (b : Info)
    (hl : l.type = .bond ∨ l.type = .team) (hne : below ifs t l ≠ []) :
    (¬ Supported l) → ∃ c, probe ifs t l b = .ok (c, some .inval) := by
  intro hs
  have ha : Aggregate l := by rcases hl with h | h <;> simp [Aggregate, h]
  obtain ⟨-, k2, -, -, -, -, -, -, -, k10, k11⟩ := parsed_spec ifs t l b ha
  have hr : (parsed ifs t l b).2 = some .inval := by
    rcases k11 with h | h
    · exact absurd (k10.1 h) hs
    · exact h
  have hn : (parsed ifs t l b).1.num ≠ 0 := by
    rw [k2]
    have : 0 < (below ifs t l).length := List.length_pos_iff.2 hne
    unfold maxPhys
    omega
  refine ⟨(parsed ifs t l b).1, ?_⟩
  rw [probe_eq]
  simp only
  have hno : ¬ (Aggregate l ∧ (parsed ifs t l b).1.num = 0) := fun hh => hn hh.2
  simp only [if_neg hno, hr]
  rw [if_pos (by simp)]

/-- **C227**, the full statement: whatever the link table, no assertion fails. -/
def C227_statement : Prop :=
  ∀ (ifs : Ifs) (t : List Link) (l : Link) (b : Info), probe ifs t l b ≠ .abort

/-- A bond without slaves, in the mode that bonds are created in, stops the daemon. -/
theorem C227_violated : ¬ C227_statement := by
  intro h
  refine h ⟨fun _ => none, fun _ => none, fun _ => false, fun _ => 0, fun _ => 0, fun _ => false,
    fun _ => false, fun _ => none, fun _ => 0, 0⟩
    [⟨.bond, 1, 1, true, 0, 0, .unsupported, 0, false⟩]
    ⟨.bond, 1, 1, true, 0, 0, .unsupported, 0, false⟩ {} ?_
  rfl

/-- **C227**, exactly when it does: a bond or team in an unsupported mode that has no
slaves. -/
theorem C227_abort_partial (ifs : Ifs) (t : List Link) (l : Link) (b : Info) :
    probe ifs t l b = .abort ↔
      (l.type = .bond ∨ l.type = .team) ∧ l.mode = .unsupported ∧ below ifs t l = [] := by
  constructor
  · intro h
    rw [probe_eq] at h
    simp only at h
    by_cases ha : Aggregate l
    · obtain ⟨-, k2, -, -, -, k6, k7, -, -, k10, k11⟩ := parsed_spec ifs t l b ha
      have hc : choose ifs l (parsed ifs t l b).1 (if Aggregate l ∧ (parsed ifs t l b).1.num = 0
          then some Err.noent else (parsed ifs t l b).2) = .abort ∧
          ((parsed ifs t l b).2 = none ∨ (parsed ifs t l b).1.num = 0) := by
        by_cases hn : (parsed ifs t l b).1.num = 0
        · simp only [ha, hn, and_self, if_true] at h ⊢
          rw [if_neg (by simp)] at h
          exact ⟨h, .inr trivial⟩
        · simp only [ha, hn, and_false, if_false] at h ⊢
          by_cases hr : (parsed ifs t l b).2 = none
          · rw [if_neg (by simp [hr])] at h
            exact ⟨h, .inl hr⟩
          · rcases k11 with k | k
            · exact absurd k hr
            · rw [if_pos (by simp [k])] at h
              cases h
      obtain ⟨hch, hor⟩ := hc
      unfold choose at hch
      split at hch
      · split at hch
        · cases hch
        · split at hch <;> cases hch
      · rename_i hm1
        split at hch
        · split at hch <;> cases hch
        · rename_i hm2
          rw [k6] at hm1 hm2
          rw [k7] at hm2
          have hnb : l.type ≠ .bridge := by
            intro hh
            exact hm2 (.inr (by simpa using hh))
          have hm3 : l.mode ≠ .lacp := fun hh => hm2 (.inl hh)
          split at hch
          · split at hch <;> cases hch
          · split at hch
            · rename_i hmode
              rw [k6] at hmode
              refine ⟨?_, ?_, ?_⟩
              · rcases ha with h | h | h
                · exact .inl h
                · exact .inr h
                · exact absurd h hnb
              · cases hmm : l.mode <;> simp_all
              · rcases hor with hor | hor
                · have := k10.1 hor
                  rcases this with h | h | h
                  · exact absurd h hm1
                  · exact absurd h hm3
                  · exact absurd h hnb
                · rw [k2] at hor
                  unfold maxPhys at hor
                  have : (below ifs t l).length = 0 := by omega
                  exact List.length_eq_zero_iff.1 this
            · split at hch <;> cases hch
    · have hp : parsed ifs t l b = (clear l b, none) := by
        unfold parsed
        unfold Aggregate at ha
        cases hl : l.type <;> simp_all
      simp only [ha, false_and, if_false, hp] at h
      rw [if_neg (by simp)] at h
      unfold choose at h
      rw [if_neg (show ¬ (clear l b).mode = .activeBackup from nofun)] at h
      rw [if_neg (show ¬ ((clear l b).mode = .lacp ∨ (clear l b).bridge = true) by
        intro hh; rcases hh with hh | hh <;> cases hh)] at h
      split at h
      · split at h <;> cases h
      · rw [if_neg (show ¬ (clear l b).mode ≠ .none by simp [clear])] at h
        split at h <;> cases h
  · rintro ⟨hl, hm, hb⟩
    have ha : Aggregate l := by rcases hl with h | h <;> simp [Aggregate, h]
    obtain ⟨-, k2, -, -, -, k6, k7, -, -, -, -⟩ := parsed_spec ifs t l b ha
    have hn : (parsed ifs t l b).1.num = 0 := by rw [k2, hb]; rfl
    have hnb : l.type ≠ .bridge := by rcases hl with h | h <;> simp [h]
    have hnm : l.type ≠ .macvlan := by rcases hl with h | h <;> simp [h]
    rw [probe_eq]
    simp only [ha, hn, and_self, if_true]
    rw [if_neg (by simp)]
    unfold choose
    rw [k6, k7, hm, if_neg (by simp), if_neg (by simp [hnb]), if_neg hnm, if_pos (by simp)]

example : (probe ⟨fun _ => some 1, fun _ => none, fun _ => false, fun _ => 0, fun _ => 0, fun _ => false,
      fun _ => false, fun _ => none, fun _ => 0, 0⟩
    [⟨.bond, 1, 1, true, 0, 0, .unsupported, 0, false⟩, ⟨.physical, 2, 2, true, 0, 1, .none, 0, true⟩]
    ⟨.bond, 1, 1, true, 0, 0, .unsupported, 0, false⟩ {} matches .ok (_, some .inval)) = true := by decide

end Verif.Bond
