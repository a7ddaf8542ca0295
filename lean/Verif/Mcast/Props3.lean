import Verif.Mcast.Props2

set_option linter.unusedSimpArgs false
set_option linter.unusedVariables false

/-
# Properties C350 to C352: groups in use, recipients and writers
-/

namespace Verif.Mcast

/-! ## C350: groups are not freed while they are used -/

/-- C350: no interleaving of the calls of threads leads to undefined behaviour. -/
def C350_statement : Prop := ∀ is : List (Nat × In), (∀ t okD ms, (t, .gather okD ms) ∈ is → okD = true) →
  ∃ s tr, run .init is = some (s, tr)

/-- C350 fails: sending finds its group before it takes the lock, and the last user may leave in between. -/
theorem C350_violated : ¬ C350_statement := by
  intro h
  obtain ⟨s, tr, hr⟩ := h [(1, .subscribe 7 true true), (2, .lookup 7), (1, .unsubscribe 7), (2, .gather true [])] (by
    intro t okD ms hm
    simp at hm
    exact hm.2.1)
  cases hr

/-- Threads send only what they are registered to publish. -/
def Registered (is : List (Nat × In)) : Prop := ∀ pre t id post s tr, is = pre ++ (t, .lookup id) :: post →
  run .init pre = some (s, tr) → ∃ u ∈ registered (registry [] tr) id true, u.thread = t

/-- The threads that have looked up a group are registered for it, and it is there. -/
def Held (s : St) (reg : List Entry) : Prop := ∀ t id a, s.pc t = .found id a →
  (∃ u ∈ registered reg id true, u.thread = t) ∧ addrOf s.groups id = some a

theorem mem_registered {reg : List Entry} {id : Nat} {pub : Bool} {u : User} :
    u ∈ registered reg id pub ↔ ⟨id, pub, u⟩ ∈ reg := by
  unfold registered
  constructor
  · intro h
    obtain ⟨e, he, rfl⟩ := List.mem_map.1 h
    have := List.mem_filter.1 he
    simp only [Bool.and_eq_true, decide_eq_true_eq, beq_iff_eq] at this
    obtain ⟨h1, rfl, rfl⟩ := this
    exact h1
  · intro h
    exact List.mem_map.2 ⟨_, List.mem_filter.2 ⟨h, by simp⟩, rfl⟩

theorem held_at {s : St} {reg : List Entry} (h : Held s reg) {t : Nat} {p : Pc} (hp : ∀ id a, p ≠ .found id a) :
    Held (s.at t p) reg := by
  intro u id a hx
  by_cases hu : u = t
  · subst hu
    rw [at_self] at hx
    exact absurd hx (hp id a)
  · rw [at_other _ _ hu] at hx
    exact h u id a hx

theorem step_held {s s' : St} {reg : List Entry} {t : Nat} {i : In} {acts : List Act} (inv : Inv s reg) (h : Held s reg)
    (hl : ∀ id, i = .lookup id → ∃ u ∈ registered reg id true, u.thread = t)
    (hs : step s t i = some (s', acts)) : Held s' (after reg t i acts) := by
  have inv' := step_inv inv hs
  cases step_case hs with
  | add u id pub okU okG hp hu hr =>
    rw [hr]
    intro t' id' a hx
    obtain ⟨⟨v, h1, h2⟩, h3⟩ := h t' id' a hx
    refine ⟨⟨v, mem_registered.2 ?_, h2⟩, addrOf_add _ u id pub okU okG h3⟩
    have := mem_registered.1 h1
    split
    · exact List.mem_cons_of_mem _ this
    · exact this
  | remove id pub hp hr =>
    rw [hr] at inv' ⊢
    intro t' id' a hx
    obtain ⟨⟨v, h1, h2⟩, h3⟩ := h t' id' a hx
    have hne : t' ≠ t := by
      intro he
      subst he
      have : s.pc t' = .found id' a := hx
      rw [hp] at this
      cases this
    have hmem : v ∈ registered (if (removeUser s.groups t id pub).2.1 = 0 then
        reg.eraseP (fun e => decide (e.id = id) && (e.pub == pub && decide (e.user.thread = t))) else reg) id' true := by
      refine mem_registered.2 ?_
      have := mem_registered.1 h1
      split
      · refine (List.mem_eraseP_of_neg ?_).2 this
        have : v.thread ≠ t := by rw [h2]; exact hne
        simp [this]
      · exact this
    refine ⟨⟨v, hmem, h2⟩, ?_⟩
    rcases addrOf_remove inv.good t id pub h3 with h4 | h4
    · exact h4
    · exfalso
      have := ((find_registered inv' id').1 h4).1
      rw [this] at hmem
      exact absurd hmem List.not_mem_nil
  | none e he hr => rw [hr]; exact h
  | lookup id g hp hi hg hr =>
    rw [hr]
    intro u id' a hx
    by_cases hu : u = t
    · subst hu
      rw [at_self] at hx
      cases hx
      refine ⟨hl id hi, ?_⟩
      unfold addrOf
      have : (s.at u (.found id g.addr)).groups = s.groups := rfl
      rw [this, hg]
      rfl
    · rw [at_other _ _ hu] at hx
      exact h u id' a hx
  | gather id a okD ms g p acts hp hi hg hga hr =>
    rw [hr]
    apply held_at h
    obtain ⟨ds, _, hh⟩ := gather_acts hga
    rcases hh with ⟨_, rfl, rfl⟩ | ⟨_, rfl, rfl⟩ | ⟨rfl, rfl⟩ <;> exact fun _ _ h => nomatch h
  | last id dst m rc ret hp hi hr => rw [hr]; exact held_at h (fun _ _ h => nomatch h)
  | deliver id dst m ds rc ret hp hne hi hr => rw [hr]; exact held_at h (fun _ _ h => nomatch h)

/-- A step is undefined only if a group or an array is missing. -/
theorem step_defined {s : St} {reg : List Entry} (inv : Inv s reg) (h : Held s reg) (t : Nat) (i : In)
    (hd : ∀ okD ms, i = .gather okD ms → okD = true) : ∃ s' acts, step s t i = some (s', acts) := by
  cases hs : step s t i with
  | some y => exact ⟨y.1, y.2, rfl⟩
  | none =>
    exfalso
    unfold step at hs
    split at hs
    · cases hs
    · split at hs <;> cases hs
    · cases hs
    · cases hs
    · cases hs
    · split at hs <;> cases hs
    · next id a okD ms hp =>
      have ho := hd okD ms rfl
      subst ho
      obtain ⟨_, ha⟩ := h t id a hp
      unfold addrOf at ha
      cases hf : find id s.groups with
      | none => rw [hf] at ha; cases ha
      | some g =>
        rw [hf] at ha
        have ha := Option.some.inj ha
        dsimp only at ha
        subst ha
        rw [addr_unique inv (find_id hf).1] at hs
        dsimp only at hs
        have : gather g id true ms = none := Option.map_eq_none_iff.1 hs
        unfold gather at this
        simp at this
        split at this <;> cases this
    · cases hs
    · cases hs

/-- C350, part: if every thread that sends is registered as a publisher of the message when it starts to send, and
arrays can be allocated, then no interleaving leads to undefined behaviour. Threads that are not registered are
missing. -/
theorem C350_groups_partial (is : List (Nat × In)) (hd : ∀ t okD ms, (t, .gather okD ms) ∈ is → okD = true)
    (hreg : Registered is) : ∃ s tr, run .init is = some (s, tr) := by
  have key : ∀ is : List (Nat × In), (∀ t okD ms, (t, .gather okD ms) ∈ is → okD = true) → Registered is →
      ∃ s tr, run .init is = some (s, tr) ∧ Held s (registry [] tr) := by
    intro is
    induction is using List.reverseRecOn with
    | nil => intro _ _; exact ⟨.init, [], rfl, fun t id a h => nomatch h⟩
    | append_singleton is x ih =>
      obtain ⟨t, i⟩ := x
      intro hd hreg
      obtain ⟨s, tr, h1, h2⟩ := ih (fun t okD ms hm => hd t okD ms (List.mem_append_left _ hm))
        (fun pre t' id post s tr he hr => hreg pre t' id (post ++ [(t, i)]) s tr (by rw [he]; simp) hr)
      have inv := run_reg h1
      obtain ⟨s', acts, hs⟩ := step_defined inv h2 t i
        (fun okD ms hi => hd t okD ms (by rw [hi]; simp))
      refine ⟨s', tr ++ [(t, i, acts)], ?_, ?_⟩
      · rw [run_append, h1]
        simp only [run, hs, Option.map_some]
      · rw [registry_snoc]
        exact step_held inv h2 (fun id hi => hreg is t id [] s tr (by have hi : i = .lookup id := hi; rw [hi]) h1) hs
  obtain ⟨s, tr, h, _⟩ := key is hd hreg
  exact ⟨s, tr, h⟩

/-- The subscriber leaves while the publisher is sending. -/
example : Registered [(1, .subscribe 7 true true), (2, .publish 7 true true), (2, .lookup 7), (1, .unsubscribe 7),
    (2, .gather true [])] := by
  intro pre t id post s tr he hr
  match pre, he with
  | [], he => cases he
  | [_], he => cases he
  | [_, _], he =>
    simp only [List.cons_append, List.nil_append, List.cons.injEq, Prod.mk.injEq, In.lookup.injEq] at he
    obtain ⟨rfl, rfl, ⟨rfl, rfl⟩, _⟩ := he
    cases hr
    exact ⟨⟨2, none⟩, by decide, rfl⟩
  | [_, _, _], he => simp at he
  | [_, _, _, _], he => simp at he
  | _ :: _ :: _ :: _ :: _ :: pre, he => simp at he

theorem gather_kinds {g : Group} {id : Nat} {okD : Bool} {ms : List (Option Nat)} {p : Pc} {acts : List Act}
    (hga : gather g id okD ms = some (p, acts)) :
    ∀ a ∈ acts, (∃ w, a = .post w) ∨ (∃ m, a = .alloc m) ∨ (∃ m, a = .free m) ∨ ∃ r, a = .ret r := by
  intro a ha
  obtain ⟨ds, _, hh⟩ := gather_acts hga
  have hp : ∀ l : List Nat, a ∈ l.map Act.post → ∃ w, a = .post w := fun l h => by
    obtain ⟨w, _, rfl⟩ := List.mem_map.1 h; exact ⟨w, rfl⟩
  have hal : ∀ l : List (Nat × Nat), a ∈ l.map (fun d => Act.alloc d.2) → ∃ m, a = .alloc m := fun l h => by
    obtain ⟨w, _, rfl⟩ := List.mem_map.1 h; exact ⟨w.2, rfl⟩
  have hfr : ∀ l : List (Nat × Nat), a ∈ l.map (fun d => Act.free d.2) → ∃ m, a = .free m := fun l h => by
    obtain ⟨w, _, rfl⟩ := List.mem_map.1 h; exact ⟨w.2, rfl⟩
  rcases hh with ⟨_, rfl, rfl⟩ | ⟨_, rfl, rfl⟩ | ⟨rfl, rfl⟩
  · rcases List.mem_append.1 ha with ha | ha
    · exact .inl (hp _ ha)
    · exact .inr (.inl (hal _ ha))
  · rcases List.mem_append.1 ha with ha | ha
    · exact .inl (hp _ ha)
    · exact .inr (.inr (.inr ⟨_, List.mem_singleton.1 ha⟩))
  · rcases List.mem_append.1 ha with ha | ha
    · rcases List.mem_append.1 ha with ha | ha
      · rcases List.mem_append.1 ha with ha | ha
        · exact .inl (hp _ ha)
        · exact .inr (.inl (hal _ ha))
      · exact .inr (.inr (.inl (hfr _ ha)))
    · exact .inr (.inr (.inr ⟨_, List.mem_singleton.1 ha⟩))

/-! ## C351: only subscribers receive -/

/-- C351: a message is delivered only to threads that are subscribed at that time. -/
def C351_statement : Prop := ∀ (is : List (Nat × In)) (s : St) (tr), run .init is = some (s, tr) →
  ∀ t i s' acts, step s t i = some (s', acts) → ∀ d m id, .send d m id ∈ acts →
    ∃ u ∈ registered (registry [] tr) id false, u.thread = d

/-- C351 fails: recipients are gathered before they are sent to, and may leave in between. -/
theorem C351_violated : ¬ C351_statement := by
  intro h
  obtain ⟨u, hu, _⟩ := h [(1, .subscribe 7 true true), (2, .lookup 7), (2, .gather true [some 40]), (1, .unsubscribe 7)] _ _ rfl
    2 (.deliver 0) _ _ rfl 1 40 7 (by decide)
  exact absurd hu List.not_mem_nil

/-- The groups looked up keep their message. -/
def Ids (s : St) : Prop := ∀ t id a, s.pc t = .found id a → a < s.next ∧ ∀ g ∈ s.groups, g.addr = a → g.id = id

theorem add_origin (gs : List Group) (next : Nat) (u : User) (id : Nat) (pub okU okG : Bool) :
    next ≤ (addUser gs next u id pub okU okG).2.1 ∧ ∀ g' ∈ (addUser gs next u id pub okU okG).1,
      (∃ g ∈ gs, g.id = g'.id ∧ g.addr = g'.addr) ∨ g'.addr = next := by
  unfold addUser
  split
  · exact ⟨Nat.le_refl _, fun g' h => .inl ⟨g', h, rfl, rfl⟩⟩
  · cases hf : find id gs with
    | some g =>
      refine ⟨Nat.le_refl _, fun g' h => .inl ?_⟩
      rcases upd_mem _ _ _ g' h with h | ⟨x, hx, _, rfl⟩
      · exact ⟨g', h, rfl, rfl⟩
      · exact ⟨x, hx, (set_id _ _ _).1.symm, (set_id _ _ _).2.symm⟩
    | none =>
      dsimp only
      split
      · exact ⟨Nat.le_refl _, fun g' h => .inl ⟨g', h, rfl, rfl⟩⟩
      · refine ⟨Nat.le_succ _, fun g' h => ?_⟩
        rcases List.mem_cons.1 h with rfl | h
        · exact .inr (set_id _ _ _).2
        · exact .inl ⟨g', h, rfl, rfl⟩

theorem remove_origin (gs : List Group) (t id : Nat) (pub : Bool) : ∀ g' ∈ (removeUser gs t id pub).1,
    ∃ g ∈ gs, g.id = g'.id ∧ g.addr = g'.addr := by
  intro g' h
  unfold removeUser at h
  cases hf : find id gs with
  | none => rw [hf] at h; exact ⟨g', h, rfl, rfl⟩
  | some g =>
    rw [hf] at h
    dsimp only at h
    split at h
    · exact ⟨g', prune_sub _ _ _ h, rfl, rfl⟩
    · rcases upd_mem _ _ _ g' (prune_sub _ _ _ h) with h | ⟨x, hx, _, rfl⟩
      · exact ⟨g', h, rfl, rfl⟩
      · exact ⟨x, hx, (set_id _ _ _).1.symm, (set_id _ _ _).2.symm⟩

theorem ids_at {s : St} (h : Ids s) {t : Nat} {p : Pc} (hp : ∀ id a, p ≠ .found id a) : Ids (s.at t p) := by
  intro u id a hx
  by_cases hu : u = t
  · subst hu
    rw [at_self] at hx
    exact absurd hx (hp id a)
  · rw [at_other _ _ hu] at hx
    exact h u id a hx

theorem step_ids {s s' : St} {reg : List Entry} {t : Nat} {i : In} {acts : List Act} (inv : Inv s reg) (h : Ids s)
    (hs : step s t i = some (s', acts)) : Ids s' := by
  cases step_case hs with
  | add u id pub okU okG hp hu hr =>
    intro t' id' a hx
    obtain ⟨h1, h2⟩ := h t' id' a hx
    obtain ⟨h3, h4⟩ := add_origin s.groups s.next u id pub okU okG
    refine ⟨Nat.lt_of_lt_of_le h1 h3, fun g' hg' ha => ?_⟩
    rcases h4 g' hg' with ⟨g, hg, e1, e2⟩ | he
    · rw [← e1]; exact h2 g hg (e2.trans ha)
    · omega
  | remove id pub hp hr =>
    intro t' id' a hx
    obtain ⟨h1, h2⟩ := h t' id' a hx
    refine ⟨h1, fun g' hg' ha => ?_⟩
    obtain ⟨g, hg, e1, e2⟩ := remove_origin s.groups t id pub g' hg'
    rw [← e1]; exact h2 g hg (e2.trans ha)
  | none e he hr => exact h
  | lookup id g hp hi hg hr =>
    intro u id' a hx
    by_cases hu : u = t
    · subst hu
      rw [at_self] at hx
      cases hx
      obtain ⟨hm, hid⟩ := find_id hg
      refine ⟨inv.good.old g hm, fun g' hg' ha => ?_⟩
      have h1 := addr_unique inv hm
      have h2 := addr_unique inv (show g' ∈ s.groups from hg')
      rw [ha, h1] at h2
      rw [← Option.some.inj h2]
      exact hid
    · rw [at_other _ _ hu] at hx
      exact h u id' a hx
  | gather id a okD ms g p acts hp hi hg hga hr =>
    apply ids_at h
    obtain ⟨ds, _, hh⟩ := gather_acts hga
    rcases hh with ⟨_, rfl, rfl⟩ | ⟨_, rfl, rfl⟩ | ⟨rfl, rfl⟩ <;> exact fun _ _ h => nomatch h
  | last id dst m rc ret hp hi hr => exact ids_at h (fun _ _ h => nomatch h)
  | deliver id dst m ds rc ret hp hne hi hr => exact ids_at h (fun _ _ h => nomatch h)

theorem run_ids {is : List (Nat × In)} : ∀ {s : St} {tr}, run .init is = some (s, tr) → Ids s := by
  induction is using List.reverseRecOn with
  | nil => intro s tr h; cases h; intro t id a h; cases h
  | append_singleton is x ih =>
    intro s' tr' h
    obtain ⟨s, tr, acts, h1, hs, rfl⟩ := run_snoc h
    exact step_ids (run_reg h1) (ih h1) hs

theorem allocLoop_sub : ∀ (us : List User) (ms : List (Option Nat)), ∀ d ∈ (allocLoop us ms).1,
    ∃ u ∈ us, u.thread = d.1 ∧ u.writer = none := by
  intro us
  induction us with
  | nil => intro ms d h; exact absurd h List.not_mem_nil
  | cons u us ih =>
    intro ms d h
    unfold allocLoop at h
    cases hw : u.writer with
    | some w =>
      rw [hw] at h
      obtain ⟨v, hv, h1⟩ := ih ms d h
      exact ⟨v, List.mem_cons_of_mem _ hv, h1⟩
    | none =>
      rw [hw] at h
      dsimp only at h
      split at h
      · next m ms' =>
        rcases List.mem_cons.1 h with rfl | h
        · exact ⟨u, List.mem_cons_self, rfl, hw⟩
        · obtain ⟨v, hv, h1⟩ := ih ms' d h
          exact ⟨v, List.mem_cons_of_mem _ hv, h1⟩
      · exact absurd h List.not_mem_nil

/-- The group that is gathered from has the registered subscribers. -/
theorem gather_registered {is : List (Nat × In)} {s : St} {tr} (h : run .init is = some (s, tr)) {t id a : Nat} {g : Group}
    (hp : s.pc t = .found id a) (hg : s.groups.find? (fun g => decide (g.addr = a)) = some g) :
    g.subs = registered (registry [] tr) id false := by
  have inv := run_reg h
  have hm := List.mem_of_find?_eq_some hg
  have ha : g.addr = a := by simpa using List.find?_some hg
  have hid := (run_ids h t id a hp).2 g hm ha
  rw [← inv.same]
  unfold usersOf
  have : find id s.groups = some g := by
    have key : ∀ gs : List Group, gs.Pairwise (fun a b => a.id ≠ b.id) → g ∈ gs → find id gs = some g := by
      intro gs
      induction gs with
      | nil => intro _ h; exact absurd h List.not_mem_nil
      | cons b gs ih =>
        intro hpw hmem
        have hc := List.pairwise_cons.1 hpw
        rw [find_cons]
        rcases List.mem_cons.1 hmem with rfl | hmem
        · rw [if_pos hid]
        · rw [if_neg, ih hc.2 hmem]
          exact fun he => hc.1 g hmem (he.trans hid.symm)
    exact key _ inv.good.ids hm
  rw [this]
  rfl

/-- The recipients a thread has in its hands were subscribed at a time since which it has been sending. -/
def Since (is : List (Nat × In)) (t id d : Nat) : Prop := ∃ pre post s0 tr0 s1 tr1,
  is = pre ++ post ∧ run .init pre = some (s0, tr0) ∧ run s0 post = some (s1, tr1) ∧
    (∀ x ∈ tr1, x.1 = t → returned x.2.2 = none) ∧
    ∃ u ∈ registered (registry [] tr0) id false, u.thread = d ∧ u.writer = none

theorem since_snoc {is : List (Nat × In)} {t id d u : Nat} {i : In} {s s' : St} {tr} {acts : List Act}
    (hr : run .init is = some (s, tr)) (hs : step s u i = some (s', acts)) (hq : u = t → returned acts = none)
    (h : Since is t id d) : Since (is ++ [(u, i)]) t id d := by
  obtain ⟨pre, post, s0, tr0, s1, tr1, rfl, h1, h2, h3, h4⟩ := h
  rw [run_append, h1] at hr
  dsimp only at hr
  rw [h2] at hr
  simp only [Option.map_some, Option.some.injEq, Prod.mk.injEq] at hr
  obtain ⟨rfl, _⟩ := hr
  refine ⟨pre, post ++ [(u, i)], s0, tr0, s', tr1 ++ [(u, i, acts)], by simp, h1, ?_, ?_, h4⟩
  · rw [run_append, h2]
    simp only [run, hs, Option.map_some]
  · intro x hx he
    rcases List.mem_append.1 hx with hx | hx
    · exact h3 x hx he
    · rw [List.mem_singleton.1 hx] at he ⊢
      exact hq he

theorem sending_since {is : List (Nat × In)} : ∀ {s : St} {tr}, run .init is = some (s, tr) → ∀ t id ds rc,
    s.pc t = .sending id ds rc → ∀ d ∈ ds, Since is t id d.1 := by
  induction is using List.reverseRecOn with
  | nil => intro s tr h t id ds rc hp; cases h; cases hp
  | append_singleton is x ih =>
    obtain ⟨u, i⟩ := x
    intro s' tr' h t id ds rc hp d hd
    obtain ⟨s, tr, acts, h1, hs, rfl⟩ := run_snoc h
    by_cases hu : u = t
    · subst hu
      cases step_case hs with
      | add v id' pub okU okG hp' hv hr =>
        have : s.pc u = .sending id ds rc := hp
        rw [hp'] at this; cases this
      | remove id' pub hp' hr =>
        have : s.pc u = .sending id ds rc := hp
        rw [hp'] at this; cases this
      | none e he hr =>
        refine since_snoc h1 hs (fun _ => ?_) (ih h1 u id ds rc hp d hd)
        rcases he with rfl | he
        · rfl
        · rw [he] at hp; cases hp
      | lookup id' g hp' hi hg hr => rw [at_self] at hp; cases hp
      | gather id' a okD ms g p acts hp' hi hg hga hr =>
        rw [at_self] at hp
        obtain ⟨ds', ⟨ok, hal⟩, hh⟩ := gather_acts hga
        rcases hh with ⟨_, rfl, rfl⟩ | ⟨_, rfl, rfl⟩ | ⟨rfl, rfl⟩
        · cases hp
          have := allocLoop_sub g.subs ms d (by rw [hal]; exact hd)
          rw [gather_registered h1 hp' hg] at this
          obtain ⟨v, hv, h2⟩ := this
          refine ⟨is, [(u, i)], s, tr, s.at u (.sending id ds 0), [(u, i,
            (g.subs.filterMap (·.writer)).map .post ++ ds.map (fun d => Act.alloc d.2))], rfl, h1, ?_, ?_, ⟨v, hv, h2⟩⟩
          · simp only [run, hs, Option.map_some]
          · intro x hx _
            rw [List.mem_singleton.1 hx]
            refine returned_none _ fun a ha r => ?_
            rcases List.mem_append.1 ha with ha | ha
            · obtain ⟨w, _, rfl⟩ := List.mem_map.1 ha
              exact fun h => nomatch h
            · obtain ⟨w, _, rfl⟩ := List.mem_map.1 ha
              exact fun h => nomatch h
        · cases hp
        · cases hp
      | last id' dst m rc' ret hp' hi hr => rw [at_self] at hp; cases hp
      | deliver id' dst m ds' rc' ret hp' hne hi hr =>
        rw [at_self] at hp
        cases hp
        refine since_snoc h1 hs (fun _ => ?_) (ih h1 u id _ rc' hp' d (List.mem_cons_of_mem _ hd))
        split <;> rfl
    · have := step_other hs (fun h => hu h.symm)
      rw [this] at hp
      exact since_snoc h1 hs (fun he => absurd he hu) (ih h1 t id ds rc hp d hd)

/-- C351, part: whoever is sent a message was subscribed to it, for messages, at some time since which the sender has
been in this one call; and events are posted exactly to the subscribers for events that are registered at that time,
once for each subscription. That recipients are still subscribed when they are sent to is missing. -/
theorem C351_recipients_partial (is : List (Nat × In)) (s : St) (tr) (h : run .init is = some (s, tr)) (t : Nat) (i : In)
    (s' : St) (acts : List Act) (hs : step s t i = some (s', acts)) :
    (∀ d m id, .send d m id ∈ acts → Since is t id d) ∧
    ((∃ w, .post w ∈ acts) → ∃ id a, s.pc t = .found id a ∧ acts.filterMap (fun | .post w => some w | _ => none) =
      (registered (registry [] tr) id false).filterMap (·.writer)) := by
  cases step_case hs with
  | add u id pub okU okG hp hu hr =>
    have hk : ∀ a ∈ u.writer.toList.map .newWriter ++ (add s u id pub okU okG).2,
        (∀ d m id, a ≠ .send d m id) ∧ ∀ w, a ≠ .post w := by
      intro a ha
      unfold add at ha
      dsimp only at ha
      rcases List.mem_append.1 ha with ha | ha
      · obtain ⟨w, _, rfl⟩ := List.mem_map.1 ha
        exact ⟨(fun _ _ _ h => nomatch h), (fun _ h => nomatch h)⟩
      · rcases List.mem_append.1 ha with ha | ha
        · split at ha
          · exact absurd ha List.not_mem_nil
          · obtain ⟨w, _, rfl⟩ := List.mem_map.1 ha
            exact ⟨(fun _ _ _ h => nomatch h), (fun _ h => nomatch h)⟩
        · rw [List.mem_singleton.1 ha]
          exact ⟨(fun _ _ _ h => nomatch h), (fun _ h => nomatch h)⟩
    exact ⟨fun d m id ha => absurd rfl ((hk _ ha).1 d m id), fun ⟨w, ha⟩ => absurd rfl ((hk _ ha).2 w)⟩
  | remove id pub hp hr =>
    have hk : ∀ a ∈ (remove s t id pub).2, (∀ d m id, a ≠ .send d m id) ∧ ∀ w, a ≠ .post w := by
      intro a ha
      unfold remove at ha
      dsimp only at ha
      rcases List.mem_append.1 ha with ha | ha
      · obtain ⟨w, _, rfl⟩ := List.mem_map.1 ha
        exact ⟨(fun _ _ _ h => nomatch h), (fun _ h => nomatch h)⟩
      · rw [List.mem_singleton.1 ha]
        exact ⟨(fun _ _ _ h => nomatch h), (fun _ h => nomatch h)⟩
    exact ⟨fun d m id ha => absurd rfl ((hk _ ha).1 d m id), fun ⟨w, ha⟩ => absurd rfl ((hk _ ha).2 w)⟩
  | none e he hr =>
    refine ⟨fun d m id ha => ?_, fun ⟨w, ha⟩ => ?_⟩
    · obtain ⟨x, _, hx⟩ := List.mem_map.1 ha; cases hx
    · obtain ⟨x, _, hx⟩ := List.mem_map.1 ha; cases hx
  | lookup id g hp hi hg hr =>
    exact ⟨fun d m id ha => absurd ha List.not_mem_nil, fun ⟨w, ha⟩ => absurd ha List.not_mem_nil⟩
  | gather id a okD ms g p acts hp hi hg hga hr =>
    have hsub := gather_registered h hp hg
    obtain ⟨ds, _, hh⟩ := gather_acts hga
    have e1 : ∀ l : List Nat, (l.map Act.post).filterMap (fun | .post w => some w | _ => none) = l := fun l =>
      (filterMap_map_some _ Act.post (fun x : Nat => x) l (fun b => rfl)).trans (List.map_id' l)
    have e2 : ∀ l : List (Nat × Nat), (l.map (fun d => Act.alloc d.2)).filterMap
        (fun | .post w => some w | _ => none) = ([] : List Nat) := fun l => filterMap_map_none _ _ _ fun b => rfl
    have e3 : ∀ l : List (Nat × Nat), (l.map (fun d => Act.free d.2)).filterMap
        (fun | .post w => some w | _ => none) = ([] : List Nat) := fun l => filterMap_map_none _ _ _ fun b => rfl
    refine ⟨fun d m id' ha => ?_, fun _ => ⟨id, a, hp, ?_⟩⟩
    · exfalso
      rcases gather_kinds hga _ ha with ⟨_, hx⟩ | ⟨_, hx⟩ | ⟨_, hx⟩ | ⟨_, hx⟩ <;> cases hx
    · rw [← hsub]
      rcases hh with ⟨_, rfl, rfl⟩ | ⟨_, rfl, rfl⟩ | ⟨rfl, rfl⟩
      · rw [List.filterMap_append, e1, e2, List.append_nil]
      · rw [List.filterMap_append, e1]
        simp
      · rw [List.filterMap_append, List.filterMap_append, List.filterMap_append, e1, e2, e3]
        simp
  | last id dst m rc ret hp hi hr =>
    refine ⟨fun d m' id' ha => ?_, fun ⟨w, ha⟩ => ?_⟩
    · have : Act.send d m' id' = if ret = 0 then Act.send dst m id else Act.free m := by simpa using ha
      split at this
      · cases this
        exact sending_since h t id _ rc hp _ List.mem_cons_self
      · cases this
    · have : Act.post w = if ret = 0 then Act.send dst m id else Act.free m := by simpa using ha
      split at this <;> cases this
  | deliver id dst m ds rc ret hp hne hi hr =>
    refine ⟨fun d m' id' ha => ?_, fun ⟨w, ha⟩ => ?_⟩
    · have := List.mem_singleton.1 ha
      split at this
      · cases this
        exact sending_since h t id _ rc hp _ List.mem_cons_self
      · cases this
    · have := List.mem_singleton.1 ha
      split at this <;> cases this

/-- The recipient subscribes, is gathered and leaves; it is sent the message nevertheless. -/
example : (run .init [(1, .subscribe 7 true true), (2, .lookup 7), (2, .gather true [some 40]), (1, .unsubscribe 7),
    (2, .deliver 0)]).map (fun x => x.2.getLast?.map (fun y => y.2.2)) = some (some [.send 1 40 7, .ret 0]) ∧
  (run .init [(1, .subscribeEvent 7 (.ok 5) true true), (2, .lookup 7), (3, .subscribeEvent 7 (.ok 6) true true),
    (2, .gather true [])]).map (fun x => x.2.getLast?.map (fun y => y.2.2)) = some (some [.post 6, .post 5, .ret 0]) := by
  decide

/-! ## C352: writers of events -/

/-- The writers in the register. -/
def writers (reg : List Entry) : List Nat := reg.filterMap (·.user.writer)

theorem find_filter {β : Type} (p q : β → Bool) : ∀ l : List β, l.find? (fun x => p x && q x) = (l.filter p).find? q := by
  intro l
  induction l with
  | nil => rfl
  | cons a l ih =>
    rw [List.find?_cons]
    cases hp : p a
    · rw [List.filter_cons_of_neg (by simp [hp])]
      exact ih
    · rw [List.filter_cons_of_pos hp, List.find?_cons]
      cases hq : q a
      · exact ih
      · rfl

theorem writers_erase (p : Entry → Bool) : ∀ reg : List Entry, (writers reg).Perm
    (((reg.find? p).bind (·.user.writer)).toList ++ writers (reg.eraseP p)) := by
  intro reg
  induction reg with
  | nil => exact List.Perm.refl _
  | cons e reg ih =>
    rw [List.find?_cons, List.eraseP_cons]
    cases hp : p e with
    | true =>
      simp only [if_true, Option.bind_some]
      unfold writers
      rw [List.filterMap_cons]
      cases e.user.writer <;> exact List.Perm.refl _
    | false =>
      simp only [Bool.false_eq_true, if_false]
      have e1 : ∀ r : List Entry, writers (e :: r) = e.user.writer.toList ++ writers r := by
        intro r
        unfold writers
        rw [List.filterMap_cons]
        cases e.user.writer <;> rfl
      simp only [cond_false]
      rw [e1, e1]
      refine (ih.append_left _).trans ?_
      rw [← List.append_assoc, ← List.append_assoc]
      exact (List.perm_append_comm).append_right _

theorem step_writers {s s' : St} {reg : List Entry} {t : Nat} {i : In} {acts : List Act} (inv : Inv s reg)
    (hs : step s t i = some (s', acts)) :
    (writers reg ++ news acts).Perm (dels acts ++ writers (after reg t i acts)) := by
  have app : ∀ a b, news (a ++ b) = news a ++ news b := fun a b => List.filterMap_append
  have app2 : ∀ a b, dels (a ++ b) = dels a ++ dels b := fun a b => List.filterMap_append
  have none' : ∀ l : List Act, (∀ a ∈ l, (∀ w, a ≠ .newWriter w) ∧ ∀ w, a ≠ .delWriter w) → news l = [] ∧ dels l = [] := by
    intro l hl
    refine ⟨List.filterMap_eq_nil_iff.2 fun a ha => ?_, List.filterMap_eq_nil_iff.2 fun a ha => ?_⟩
    · have := (hl a ha).1
      cases a with
      | newWriter w => exact absurd rfl (this w)
      | _ => rfl
    · have := (hl a ha).2
      cases a with
      | delWriter w => exact absurd rfl (this w)
      | _ => rfl
  have quiet : ∀ l : List Act, (∀ a ∈ l, (∀ w, a ≠ .newWriter w) ∧ ∀ w, a ≠ .delWriter w) →
      (writers reg ++ news l).Perm (dels l ++ writers reg) := by
    intro l hl
    rw [(none' l hl).1, (none' l hl).2, List.append_nil]
    exact List.Perm.refl _
  cases step_case hs with
  | add u id pub okU okG hp hu hr =>
    rw [hr]
    have hn : news (u.writer.toList.map .newWriter) = u.writer.toList := by
      cases u.writer <;> rfl
    have hd : dels (u.writer.toList.map .newWriter) = [] := by
      cases u.writer <;> rfl
    have e1 : writers (⟨id, pub, u⟩ :: reg) = u.writer.toList ++ writers reg := by
      unfold writers
      rw [List.filterMap_cons]
      dsimp only
      cases u.writer <;> rfl
    rw [app, app2, hn, hd]
    unfold add
    dsimp only
    by_cases h0 : (addUser s.groups s.next u id pub okU okG).2.2 = 0
    · rw [if_pos h0, if_pos h0, List.nil_append, e1]
      have h1 : ∀ n, news [.ret n] = [] := fun _ => rfl
      have h2 : ∀ n, dels [.ret n] = [] := fun _ => rfl
      rw [h1, h2, List.append_nil, List.nil_append, List.nil_append]
      exact List.perm_append_comm
    · rw [if_neg h0, if_neg h0, app, app2]
      have h1 : ∀ n, news [.ret n] = [] := fun _ => rfl
      have h2 : ∀ n, dels [.ret n] = [] := fun _ => rfl
      have h3 : news (u.writer.toList.map .delWriter) = [] := by cases u.writer <;> rfl
      have h4 : dels (u.writer.toList.map .delWriter) = u.writer.toList := by cases u.writer <;> rfl
      rw [h1, h2, h3, h4]
      simp only [List.append_nil, List.nil_append]
      exact List.perm_append_comm
  | remove id pub hp hr =>
    rw [hr]
    obtain ⟨_, _, h3, h4⟩ := users_remove s.groups s.next inv.good t id pub id pub
    unfold remove
    dsimp only
    have h1 : ∀ n, news [.ret n] = [] := fun _ => rfl
    have h2 : ∀ n, dels [.ret n] = [] := fun _ => rfl
    have h5 : ∀ w : Option Nat, news (w.toList.map .delWriter) = [] := by intro w; cases w <;> rfl
    have h6 : ∀ w : Option Nat, dels (w.toList.map .delWriter) = w.toList := by intro w; cases w <;> rfl
    rw [app, app2, h1, h2, h5, h6, List.append_nil, List.append_nil, List.append_nil]
    by_cases h0 : (removeUser s.groups t id pub).2.1 = 0
    · rw [if_pos h0]
      obtain ⟨u, hf, hw⟩ := h3 h0
      rw [inv.same] at hf
      have key : reg.find? (fun e => decide (e.id = id) && (e.pub == pub && decide (e.user.thread = t))) =
          some ⟨id, pub, u⟩ := by
        have he : (fun e : Entry => decide (e.id = id) && (e.pub == pub && decide (e.user.thread = t))) =
            fun e => (decide (e.id = id) && e.pub == pub) && decide (e.user.thread = t) := by
          funext e
          rw [Bool.and_assoc]
        rw [he, find_filter]
        unfold registered at hf
        rw [List.find?_map] at hf
        obtain ⟨e, h7, h8⟩ := Option.map_eq_some_iff.1 hf
        have hm := List.mem_filter.1 (List.mem_of_find?_eq_some h7)
        simp only [Bool.and_eq_true, decide_eq_true_eq, beq_iff_eq] at hm
        obtain ⟨eid, epub, euser⟩ := e
        simp only at hm h8
        obtain ⟨_, rfl, rfl⟩ := hm
        subst h8
        exact h7
      have := writers_erase (fun e => decide (e.id = id) && (e.pub == pub && decide (e.user.thread = t))) reg
      rw [key] at this
      rw [hw]
      exact this
    · rw [if_neg h0, (h4 h0).2]
      exact List.Perm.refl _
  | none e he hr =>
    rw [hr]
    refine quiet _ fun a ha => ?_
    obtain ⟨x, _, rfl⟩ := List.mem_map.1 ha
    exact ⟨(fun _ h => nomatch h), (fun _ h => nomatch h)⟩
  | lookup id g hp hi hg hr => rw [hr]; exact quiet _ (fun a ha => absurd ha List.not_mem_nil)
  | gather id a okD ms g p acts hp hi hg hga hr =>
    rw [hr]
    refine quiet _ fun a ha => ?_
    rcases gather_kinds hga a ha with ⟨_, rfl⟩ | ⟨_, rfl⟩ | ⟨_, rfl⟩ | ⟨_, rfl⟩ <;>
      exact ⟨(fun _ h => nomatch h), (fun _ h => nomatch h)⟩
  | last id dst m rc ret hp hi hr =>
    rw [hr]
    refine quiet _ fun a ha => ?_
    rcases List.mem_cons.1 ha with rfl | ha
    · split <;> exact ⟨(fun _ h => nomatch h), (fun _ h => nomatch h)⟩
    · rw [List.mem_singleton.1 ha]
      exact ⟨(fun _ h => nomatch h), (fun _ h => nomatch h)⟩
  | deliver id dst m ds rc ret hp hne hi hr =>
    rw [hr]
    refine quiet _ fun a ha => ?_
    rw [List.mem_singleton.1 ha]
    split <;> exact ⟨(fun _ h => nomatch h), (fun _ h => nomatch h)⟩

/-- C352: the writers of events made for subscribers have been destroyed, except those of the subscribers that are
registered. -/
theorem C352_writers (is : List (Nat × In)) (s : St) (tr) (h : run .init is = some (s, tr)) :
    (made tr).Perm (destroyed tr ++ (registry [] tr).filterMap (·.user.writer)) := by
  have key : ∀ is : List (Nat × In), ∀ s tr, run .init is = some (s, tr) →
      (made tr).Perm (destroyed tr ++ writers (registry [] tr)) := by
    intro is
    induction is using List.reverseRecOn with
    | nil => intro s tr h; cases h; exact List.Perm.refl _
    | append_singleton is x ih =>
      obtain ⟨t, i⟩ := x
      intro s' tr' h
      obtain ⟨s, tr, acts, h1, hs, rfl⟩ := run_snoc h
      have hi := ih s tr h1
      have hw := step_writers (run_reg h1) hs
      rw [registry_snoc]
      have e1 : made (tr ++ [(t, i, acts)]) = made tr ++ news acts := by
        unfold made
        rw [List.flatMap_append]
        simp only [List.flatMap_cons, List.flatMap_nil, List.append_nil]
        rfl
      have e2 : destroyed (tr ++ [(t, i, acts)]) = destroyed tr ++ dels acts := by
        unfold destroyed
        rw [List.flatMap_append]
        simp only [List.flatMap_cons, List.flatMap_nil, List.append_nil]
        rfl
      rw [e1, e2]
      refine (hi.append_right _).trans ?_
      rw [List.append_assoc, List.append_assoc]
      exact hw.append_left _
  exact key is s tr h

/-- A writer kept, one destroyed with its subscription, and one whose subscription failed. -/
example : (run .init [(1, .subscribeEvent 7 (.ok 5) true true), (2, .subscribeEvent 7 (.ok 6) true true),
    (3, .subscribeEvent 7 (.ok 8) false true), (1, .unsubscribe 7)]).map
      (fun x => (made x.2, destroyed x.2, registry [] x.2)) =
    some ([5, 6, 8], [8, 5], [⟨7, false, ⟨2, some 6⟩⟩]) := by decide

end Verif.Mcast
