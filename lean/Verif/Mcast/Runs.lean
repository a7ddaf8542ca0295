import Verif.Mcast.Support

set_option linter.unusedSimpArgs false
set_option linter.unusedVariables false

/-
# Runs and the register
-/

namespace Verif.Mcast

/-- The groups are as the register says. -/
structure Inv (s : St) (reg : List Entry) : Prop where
  good : Good s.groups s.next
  same : ∀ id pub, usersOf s.groups id pub = registered reg id pub

theorem inv_init : Inv .init [] :=
  ⟨⟨List.Pairwise.nil, List.Pairwise.nil, fun g h => absurd h List.not_mem_nil, fun g h => absurd h List.not_mem_nil⟩,
    fun id pub => rfl⟩

theorem returned_end (l : List Act) (rc : Nat) (h : ∀ a ∈ l, ∀ r, a ≠ .ret r) : returned (l ++ [.ret rc]) = some rc := by
  induction l with
  | nil => rfl
  | cons a l ih =>
    have ha := h a List.mem_cons_self
    have hl := ih fun b hb => h b (List.mem_cons_of_mem _ hb)
    cases a with
    | ret r => exact absurd rfl (ha r)
    | _ => exact hl

theorem add_returned (s : St) (u : User) (id : Nat) (pub okU okG : Bool) :
    returned (add s u id pub okU okG).2 = some (addUser s.groups s.next u id pub okU okG).2.2 := by
  unfold add
  dsimp only
  apply returned_end
  intro a ha r
  split at ha
  · exact absurd ha List.not_mem_nil
  · obtain ⟨w, _, rfl⟩ := List.mem_map.1 ha
    exact fun h => nomatch h

theorem remove_returned (s : St) (t id : Nat) (pub : Bool) :
    returned (remove s t id pub).2 = some (removeUser s.groups t id pub).2.1 := by
  unfold remove
  dsimp only
  apply returned_end
  intro a ha r
  obtain ⟨w, _, rfl⟩ := List.mem_map.1 ha
  exact fun h => nomatch h

theorem inv_add {s : St} {reg : List Entry} (h : Inv s reg) (u : User) (id : Nat) (pub okU okG : Bool) :
    Inv (add s u id pub okU okG).1
      (if (addUser s.groups s.next u id pub okU okG).2.2 = 0 then ⟨id, pub, u⟩ :: reg else reg) := by
  refine ⟨good_add h.good u id pub okU okG, fun id' pub' => ?_⟩
  have := users_add s.groups s.next u id pub okU okG id' pub'
  unfold add
  dsimp only
  rw [this]
  by_cases h0 : (addUser s.groups s.next u id pub okU okG).2.2 = 0
  · rw [if_pos h0, registered_cons, h.same, h.same]
    by_cases hx : id' = id ∧ pub' = pub
    · rw [if_pos ⟨h0, hx⟩, if_pos hx]
    · rw [if_neg fun hy => hx hy.2, if_neg hx]
  · rw [if_neg fun hy => h0 hy.1, if_neg h0, h.same]

theorem inv_remove {s : St} {reg : List Entry} (h : Inv s reg) (t id : Nat) (pub : Bool) :
    Inv (remove s t id pub).1 (if (removeUser s.groups t id pub).2.1 = 0 then
      reg.eraseP (fun e => decide (e.id = id) && (e.pub == pub && decide (e.user.thread = t))) else reg) := by
  refine ⟨good_remove h.good t id pub, fun id' pub' => ?_⟩
  have := (users_remove s.groups s.next h.good t id pub id' pub').1
  unfold remove
  dsimp only
  rw [this]
  by_cases h0 : (removeUser s.groups t id pub).2.1 = 0
  · rw [if_pos h0, registered_erase, h.same, h.same]
    by_cases hx : id' = id ∧ pub' = pub
    · rw [if_pos ⟨h0, hx⟩, if_pos hx]
    · rw [if_neg fun hy => hx hy.2, if_neg hx]
  · rw [if_neg fun hy => h0 hy.1, if_neg h0, h.same]

/-- The register after a step. -/
def after (reg : List Entry) (t : Nat) (i : In) (acts : List Act) : List Entry :=
  match returned acts with
  | none => reg
  | some rc => enter reg t i rc

theorem after_none {reg : List Entry} {t : Nat} {i : In} {acts : List Act} (h : ∀ rc, enter reg t i rc = reg) :
    after reg t i acts = reg := by
  unfold after
  split
  · rfl
  · exact h _

theorem step_inv {s s' : St} {reg : List Entry} (h : Inv s reg) {t : Nat} {i : In} {acts : List Act}
    (hs : step s t i = some (s', acts)) : Inv s' (after reg t i acts) := by
  have quiet : ∀ p, Inv (s.at t p) reg := fun p => ⟨h.good, h.same⟩
  have stay : ∀ rc, enter reg t (.lookup rc) 0 = reg := fun _ => rfl
  unfold step at hs
  split at hs
  · next id okU okG hp =>
    have hs := Option.some.inj hs
    have e1 : s' = (add s ⟨t, none⟩ id false okU okG).1 := by rw [hs]
    have e2 : acts = (add s ⟨t, none⟩ id false okU okG).2 := by rw [hs]
    rw [e1, e2]
    have := inv_add h ⟨t, none⟩ id false okU okG
    unfold after
    rw [add_returned]
    simp only [enter]
    split
    · next h0 => rw [if_neg h0] at this; exact this
    · next h0 => rw [if_pos (Decidable.not_not.1 h0)] at this; exact this
  · next id w okU okG hp =>
    split at hs
    · next e =>
      cases hs
      rw [after_none]
      · exact h
      · intro rc
        unfold enter
        split <;> rfl
    · next w =>
      have hs := Option.some.inj hs
      have e1 : s' = (add s ⟨t, some w⟩ id false okU okG).1 := (congrArg Prod.fst hs).symm
      have e2 : acts = .newWriter w :: (add s ⟨t, some w⟩ id false okU okG).2 := (congrArg Prod.snd hs).symm
      rw [e1, e2]
      have := inv_add h ⟨t, some w⟩ id false okU okG
      unfold after
      rw [show returned (.newWriter w :: (add s ⟨t, some w⟩ id false okU okG).2) =
        returned (add s ⟨t, some w⟩ id false okU okG).2 from rfl, add_returned]
      simp only [enter]
      split
      · next h0 => rw [if_neg h0] at this; exact this
      · next h0 => rw [if_pos (Decidable.not_not.1 h0)] at this; exact this
  · next id okU okG hp =>
    have hs := Option.some.inj hs
    have e1 : s' = (add s ⟨t, none⟩ id true okU okG).1 := by rw [hs]
    have e2 : acts = (add s ⟨t, none⟩ id true okU okG).2 := by rw [hs]
    rw [e1, e2]
    have := inv_add h ⟨t, none⟩ id true okU okG
    unfold after
    rw [add_returned]
    simp only [enter]
    split
    · next h0 => rw [if_neg h0] at this; exact this
    · next h0 => rw [if_pos (Decidable.not_not.1 h0)] at this; exact this
  · next id hp =>
    have hs := Option.some.inj hs
    have e1 : s' = (remove s t id false).1 := by rw [hs]
    have e2 : acts = (remove s t id false).2 := by rw [hs]
    rw [e1, e2]
    have := inv_remove h t id false
    unfold after
    rw [remove_returned]
    simp only [enter]
    split
    · next h0 => rw [if_neg h0] at this; exact this
    · next h0 => rw [if_pos (Decidable.not_not.1 h0)] at this; exact this
  · next id hp =>
    have hs := Option.some.inj hs
    have e1 : s' = (remove s t id true).1 := by rw [hs]
    have e2 : acts = (remove s t id true).2 := by rw [hs]
    rw [e1, e2]
    have := inv_remove h t id true
    unfold after
    rw [remove_returned]
    simp only [enter]
    split
    · next h0 => rw [if_neg h0] at this; exact this
    · next h0 => rw [if_pos (Decidable.not_not.1 h0)] at this; exact this
  · next id hp =>
    rw [after_none (by intro rc; unfold enter; split <;> rfl)]
    split at hs
    · cases hs; exact h
    · cases hs; exact quiet _
  · next id a okD ms hp =>
    rw [after_none (by intro rc; unfold enter; split <;> rfl)]
    split at hs
    · cases hs
    · next g hg =>
      obtain ⟨x, _, hx⟩ := Option.map_eq_some_iff.1 hs
      cases hx
      exact quiet _
  · next id dst m ds rc ret hp =>
    rw [after_none (by intro rc; unfold enter; split <;> rfl)]
    dsimp only at hs
    split at hs
    · cases hs; exact quiet _
    · cases hs; exact quiet _
  · cases hs
    exact h

theorem run_append (s : St) (is js : List (Nat × In)) : run s (is ++ js) =
    match run s is with
    | none => none
    | some (s', tr) => (run s' js).map (fun (s'', tr') => (s'', tr ++ tr')) := by
  induction is generalizing s with
  | nil => simp only [List.nil_append, run]; cases run s js <;> rfl
  | cons x is ih =>
    obtain ⟨t, i⟩ := x
    simp only [List.cons_append, run]
    cases step s t i with
    | none => rfl
    | some y =>
      obtain ⟨s', acts⟩ := y
      dsimp only
      rw [ih]
      cases run s' is with
      | none => rfl
      | some z =>
        obtain ⟨s'', tr⟩ := z
        simp only [Option.map_some]
        cases run s'' js <;> rfl

theorem run_ind (P : St → List Entry → Prop) (hstep : ∀ s reg t i s' acts, Inv s reg → P s reg →
      step s t i = some (s', acts) → P s' (after reg t i acts)) :
    ∀ (is : List (Nat × In)) (s s' : St) (reg : List Entry) (tr), Inv s reg → P s reg → run s is = some (s', tr) →
      Inv s' (registry reg tr) ∧ P s' (registry reg tr) := by
  intro is
  induction is with
  | nil =>
    intro s s' reg tr hi hp h
    cases h
    exact ⟨hi, hp⟩
  | cons x is ih =>
    obtain ⟨t, i⟩ := x
    intro s s' reg tr hi hp h
    unfold run at h
    cases hs : step s t i with
    | none => rw [hs] at h; cases h
    | some y =>
      obtain ⟨s1, acts⟩ := y
      rw [hs] at h
      obtain ⟨z, hz, hx⟩ := Option.map_eq_some_iff.1 h
      obtain ⟨s2, tr2⟩ := z
      cases hx
      have e : registry reg ((t, i, acts) :: tr2) = registry (after reg t i acts) tr2 := by
        conv => lhs; unfold registry
        unfold after
        cases returned acts <;> rfl
      rw [e]
      exact ih s1 _ _ tr2 (step_inv hi hs) (hstep s reg t i s1 acts hi hp hs) hz

theorem run_reg {is : List (Nat × In)} {s : St} {tr} (h : run .init is = some (s, tr)) : Inv s (registry [] tr) :=
  (run_ind (fun _ _ => True) (fun _ _ _ _ _ _ _ _ _ => trivial) is .init s [] tr inv_init trivial h).1

/-- A group exists exactly if somebody is registered. -/
theorem find_registered {s : St} {reg : List Entry} (h : Inv s reg) (id : Nat) :
    find id s.groups = none ↔ registered reg id true = [] ∧ registered reg id false = [] := by
  rw [← h.same, ← h.same]
  unfold usersOf
  cases hf : find id s.groups with
  | none => simp
  | some g =>
    have := h.good.used g (find_id hf).1
    simp only [Group.users, if_true, Bool.false_eq_true, if_false]
    constructor
    · intro hx; cases hx
    · rintro ⟨h1, h2⟩
      rcases this with h3 | h3
      · exact absurd h1 h3
      · exact absurd h2 h3

/-- The group at an address. -/
theorem addr_unique {s : St} {reg : List Entry} (h : Inv s reg) {g : Group} (hg : g ∈ s.groups) :
    s.groups.find? (fun x => decide (x.addr = g.addr)) = some g := by
  have : ∀ gs : List Group, gs.Pairwise (fun a b => a.addr ≠ b.addr) → g ∈ gs →
      gs.find? (fun x => decide (x.addr = g.addr)) = some g := by
    intro gs
    induction gs with
    | nil => intro _ h; exact absurd h List.not_mem_nil
    | cons a gs ih =>
      intro hp hg
      have hc := List.pairwise_cons.1 hp
      rw [List.find?_cons]
      rcases List.mem_cons.1 hg with rfl | hg
      · simp
      · have := hc.1 g hg
        simp [this, ih hc.2 hg]
  exact this _ h.good.addrs hg

end Verif.Mcast
