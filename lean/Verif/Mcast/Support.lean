import Verif.Mcast.Spec

set_option linter.unusedSimpArgs false
set_option linter.unusedVariables false

/-
# Lists of groups
-/

namespace Verif.Mcast

/-- The users of a message in the groups. -/
def usersOf (gs : List Group) (id : Nat) (pub : Bool) : List User :=
  match find id gs with
  | none => []
  | some g => g.users pub

theorem find_cons (id : Nat) (g : Group) (gs : List Group) :
    find id (g :: gs) = if g.id = id then some g else find id gs := by
  unfold find
  rw [List.find?_cons]
  by_cases h : g.id = id <;> simp [h]

theorem find_id {id : Nat} {gs : List Group} {g : Group} (h : find id gs = some g) : g ∈ gs ∧ g.id = id := by
  unfold find at h
  exact ⟨List.mem_of_find?_eq_some h, by simpa using List.find?_some h⟩

theorem set_id (g : Group) (pub : Bool) (l : List User) : (g.set pub l).id = g.id ∧ (g.set pub l).addr = g.addr := by
  unfold Group.set
  split <;> exact ⟨rfl, rfl⟩

theorem set_users (g : Group) (pub pub' : Bool) (l : List User) :
    (g.set pub l).users pub' = if pub' = pub then l else g.users pub' := by
  unfold Group.set Group.users
  cases pub <;> cases pub' <;> rfl

theorem usersOf_cons (id : Nat) (pub : Bool) (g : Group) (gs : List Group) :
    usersOf (g :: gs) id pub = if g.id = id then g.users pub else usersOf gs id pub := by
  unfold usersOf
  rw [find_cons]
  by_cases h : g.id = id
  · rw [if_pos h, if_pos h]
  · rw [if_neg h, if_neg h]

theorem usersOf_upd (id : Nat) (pub : Bool) (F : List User → List User) (id' : Nat) (pub' : Bool) : ∀ gs : List Group,
    usersOf (upd id (fun g => g.set pub (F (g.users pub))) gs) id' pub' =
      if id' = id ∧ pub' = pub ∧ find id gs ≠ none then F (usersOf gs id pub) else usersOf gs id' pub' := by
  intro gs
  induction gs with
  | nil => simp [upd, find]
  | cons g gs ih =>
    unfold upd
    by_cases hg : g.id = id
    · rw [if_pos hg, usersOf_cons, (set_id g pub _).1, set_users, usersOf_cons, usersOf_cons, find_cons, if_pos hg, if_pos hg]
      by_cases hi : id' = id
      · subst hi
        rw [if_pos hg, if_pos hg]
        by_cases hp : pub' = pub
        · subst hp; simp
        · simp [hp]
      · rw [if_neg (by rw [hg]; exact fun h => hi h.symm), if_neg (fun h => hi h.1), if_neg (by rw [hg]; exact fun h => hi h.symm)]
    · rw [if_neg hg, usersOf_cons, ih, usersOf_cons, usersOf_cons, find_cons, if_neg hg, if_neg hg]
      by_cases hi : g.id = id'
      · rw [if_pos hi, if_pos hi, if_neg]
        rintro ⟨h, _⟩
        exact hg (hi.trans h)
      · rw [if_neg hi, if_neg hi]

/-- Groups have different names and addresses, and users; addresses have been given out. -/
structure Good (gs : List Group) (next : Nat) : Prop where
  ids : gs.Pairwise (fun a b => a.id ≠ b.id)
  addrs : gs.Pairwise (fun a b => a.addr ≠ b.addr)
  used : ∀ g ∈ gs, g.pubs ≠ [] ∨ g.subs ≠ []
  old : ∀ g ∈ gs, g.addr < next

theorem find_none {id : Nat} {gs : List Group} (h : ∀ g ∈ gs, g.id ≠ id) : find id gs = none := by
  unfold find
  rw [List.find?_eq_none]
  intro g hg
  simpa using h g hg

theorem usersOf_prune (id id' : Nat) (pub : Bool) : ∀ gs : List Group, gs.Pairwise (fun a b => a.id ≠ b.id) →
    usersOf (prune id gs) id' pub = usersOf gs id' pub := by
  intro gs
  induction gs with
  | nil => intro _; rfl
  | cons g gs ih =>
    intro h
    have hc := List.pairwise_cons.1 h
    unfold prune
    by_cases hg : g.id = id
    · rw [if_pos hg]
      by_cases he : g.pubs = [] ∧ g.subs = []
      · rw [if_pos he, usersOf_cons]
        by_cases hi : g.id = id'
        · rw [if_pos hi]
          have hn : find id' gs = none := find_none fun a ha hai => hc.1 a ha (hi.trans hai.symm)
          unfold usersOf
          rw [hn]
          unfold Group.users
          rw [he.1, he.2]
          simp
        · rw [if_neg hi]
      · rw [if_neg he]
    · rw [if_neg hg, usersOf_cons, usersOf_cons, ih hc.2]

theorem prune_sub (id : Nat) : ∀ gs : List Group, ∀ g ∈ prune id gs, g ∈ gs := by
  intro gs
  induction gs with
  | nil => intro g h; exact h
  | cons a gs ih =>
    intro g h
    unfold prune at h
    split at h
    · split at h
      · exact List.mem_cons_of_mem _ h
      · exact h
    · rcases List.mem_cons.1 h with rfl | h
      · exact List.mem_cons_self
      · exact List.mem_cons_of_mem _ (ih g h)

theorem prune_pairwise (R : Group → Group → Prop) (id : Nat) : ∀ gs : List Group, gs.Pairwise R →
    (prune id gs).Pairwise R := by
  intro gs
  induction gs with
  | nil => intro h; exact h
  | cons a gs ih =>
    intro h
    have hc := List.pairwise_cons.1 h
    unfold prune
    split
    · split
      · exact hc.2
      · exact h
    · exact List.pairwise_cons.2 ⟨fun b hb => hc.1 b (prune_sub id gs b hb), ih hc.2⟩

/-- After removing what is unused, the only group that might have been empty is gone. -/
theorem prune_used (id : Nat) : ∀ gs : List Group, gs.Pairwise (fun a b => a.id ≠ b.id) →
    (∀ g ∈ gs, g.id ≠ id → g.pubs ≠ [] ∨ g.subs ≠ []) → ∀ g ∈ prune id gs, g.pubs ≠ [] ∨ g.subs ≠ [] := by
  intro gs
  induction gs with
  | nil => intro _ _ g h; exact absurd h List.not_mem_nil
  | cons a gs ih =>
    intro hp h g hg
    have hc := List.pairwise_cons.1 hp
    have rest : ∀ x ∈ gs, a.id = id → x.pubs ≠ [] ∨ x.subs ≠ [] := fun x hx ha =>
      h x (List.mem_cons_of_mem _ hx) fun hxi => hc.1 x hx (ha.trans hxi.symm)
    unfold prune at hg
    by_cases ha : a.id = id
    · rw [if_pos ha] at hg
      by_cases he : a.pubs = [] ∧ a.subs = []
      · rw [if_pos he] at hg
        exact rest g hg ha
      · rw [if_neg he] at hg
        rcases List.mem_cons.1 hg with rfl | hg
        · by_cases hx : g.pubs = []
          · exact .inr fun hy => he ⟨hx, hy⟩
          · exact .inl hx
        · exact rest g hg ha
    · rw [if_neg ha] at hg
      rcases List.mem_cons.1 hg with rfl | hg
      · exact h g List.mem_cons_self ha
      · exact ih hc.2 (fun x hx => h x (List.mem_cons_of_mem _ hx)) g hg

/-- A change that keeps names and addresses. -/
theorem upd_map (id : Nat) (f : Group → Group) (hf : ∀ g, (f g).id = g.id ∧ (f g).addr = g.addr) : ∀ gs : List Group,
    (upd id f gs).map (fun g => (g.id, g.addr)) = gs.map (fun g => (g.id, g.addr)) := by
  intro gs
  induction gs with
  | nil => rfl
  | cons a gs ih =>
    unfold upd
    split
    · simp [hf]
    · simp [ih]

theorem upd_mem (id : Nat) (f : Group → Group) : ∀ gs : List Group, ∀ g ∈ upd id f gs,
    g ∈ gs ∨ ∃ h ∈ gs, h.id = id ∧ g = f h := by
  intro gs
  induction gs with
  | nil => intro g h; exact absurd h List.not_mem_nil
  | cons a gs ih =>
    intro g h
    unfold upd at h
    split at h
    · next ha =>
      rcases List.mem_cons.1 h with rfl | h
      · exact .inr ⟨a, List.mem_cons_self, ha, rfl⟩
      · exact .inl (List.mem_cons_of_mem _ h)
    · rcases List.mem_cons.1 h with rfl | h
      · exact .inl List.mem_cons_self
      · rcases ih g h with h | ⟨x, hx, h1, h2⟩
        · exact .inl (List.mem_cons_of_mem _ h)
        · exact .inr ⟨x, List.mem_cons_of_mem _ hx, h1, h2⟩

theorem pairwise_of_map (gs hs : List Group) (h : hs.map (fun g => (g.id, g.addr)) = gs.map (fun g => (g.id, g.addr))) :
    (gs.Pairwise (fun a b => a.id ≠ b.id) → hs.Pairwise (fun a b => a.id ≠ b.id)) ∧
    (gs.Pairwise (fun a b => a.addr ≠ b.addr) → hs.Pairwise (fun a b => a.addr ≠ b.addr)) ∧
    ∀ n, (∀ g ∈ gs, g.addr < n) → ∀ g ∈ hs, g.addr < n := by
  have key : ∀ (R : Nat × Nat → Nat × Nat → Prop) (l : List Group),
      (l.map (fun g => (g.id, g.addr))).Pairwise R ↔ l.Pairwise (fun a b => R (a.id, a.addr) (b.id, b.addr)) :=
    fun R l => List.pairwise_map
  refine ⟨fun hp => ?_, fun hp => ?_, fun n hn g hg => ?_⟩
  · have := (key (fun a b => a.1 ≠ b.1) gs).2 hp
    rw [← h] at this
    exact (key _ hs).1 this
  · have := (key (fun a b => a.2 ≠ b.2) gs).2 hp
    rw [← h] at this
    exact (key _ hs).1 this
  · have : (g.id, g.addr) ∈ hs.map (fun g => (g.id, g.addr)) := List.mem_map.2 ⟨g, hg, rfl⟩
    rw [h] at this
    obtain ⟨x, hx, he⟩ := List.mem_map.1 this
    have he := (Prod.mk.inj he).2
    rw [← he]
    exact hn x hx

theorem good_add {gs : List Group} {next : Nat} (h : Good gs next) (u : User) (id : Nat) (pub okU okG : Bool) :
    Good (addUser gs next u id pub okU okG).1 (addUser gs next u id pub okU okG).2.1 := by
  unfold addUser
  split
  · exact h
  · cases hf : find id gs with
    | some g =>
      dsimp only
      have hm := upd_map id (fun g => g.set pub (u :: g.users pub)) (fun g => set_id g pub _) gs
      obtain ⟨h1, h2, h3⟩ := pairwise_of_map _ _ hm
      refine ⟨h1 h.ids, h2 h.addrs, fun g hg => ?_, h3 next h.old⟩
      rcases upd_mem _ _ _ g hg with hg | ⟨x, _, _, rfl⟩
      · exact h.used g hg
      · unfold Group.set
        cases pub
        · exact .inr (by simp)
        · exact .inl (by simp)
    | none =>
      dsimp only
      split
      · exact h
      · have hne : ∀ g ∈ gs, g.id ≠ id := by
          intro g hg
          unfold find at hf
          rw [List.find?_eq_none] at hf
          simpa using hf g hg
        refine ⟨List.pairwise_cons.2 ⟨fun g hg => ?_, h.ids⟩, List.pairwise_cons.2 ⟨fun g hg => ?_, h.addrs⟩,
          fun g hg => ?_, fun g hg => ?_⟩
        · rw [(set_id _ _ _).1]; exact fun he => hne g hg he.symm
        · rw [(set_id _ _ _).2]; exact Nat.ne_of_gt (h.old g hg)
        · rcases List.mem_cons.1 hg with rfl | hg
          · unfold Group.set
            cases pub
            · exact .inr (by simp)
            · exact .inl (by simp)
          · exact h.used g hg
        · rcases List.mem_cons.1 hg with rfl | hg
          · rw [(set_id _ _ _).2]; exact Nat.lt_succ_self _
          · exact Nat.lt_succ_of_lt (h.old g hg)

theorem good_remove {gs : List Group} {next : Nat} (h : Good gs next) (t id : Nat) (pub : Bool) :
    Good (removeUser gs t id pub).1 next := by
  have hp : ∀ hs : List Group, hs.Pairwise (fun a b => a.id ≠ b.id) → hs.Pairwise (fun a b => a.addr ≠ b.addr) →
      (∀ g ∈ hs, g.id ≠ id → g.pubs ≠ [] ∨ g.subs ≠ []) → (∀ g ∈ hs, g.addr < next) → Good (prune id hs) next :=
    fun hs h1 h2 h3 h4 => ⟨prune_pairwise _ id hs h1, prune_pairwise _ id hs h2, prune_used id hs h1 h3,
      fun g hg => h4 g (prune_sub id hs g hg)⟩
  unfold removeUser
  cases hf : find id gs with
  | none => exact h
  | some g =>
    dsimp only
    split
    · exact hp gs h.ids h.addrs (fun g hg _ => h.used g hg) h.old
    · have hm := upd_map id (fun g => g.set pub ((g.users pub).eraseP (fun u => decide (u.thread = t))))
        (fun g => set_id g pub _) gs
      obtain ⟨h1, h2, h3⟩ := pairwise_of_map _ _ hm
      refine hp _ (h1 h.ids) (h2 h.addrs) (fun g hg hne => ?_) (h3 next h.old)
      rcases upd_mem _ _ _ g hg with hg | ⟨x, _, hx, rfl⟩
      · exact h.used g hg
      · exact absurd ((set_id x pub _).1.trans hx) hne

/-- Adding a user, seen from outside. -/
theorem users_add (gs : List Group) (next : Nat) (u : User) (id : Nat) (pub okU okG : Bool) (id' : Nat) (pub' : Bool) :
    usersOf (addUser gs next u id pub okU okG).1 id' pub' =
      if (addUser gs next u id pub okU okG).2.2 = 0 ∧ id' = id ∧ pub' = pub then u :: usersOf gs id pub
      else usersOf gs id' pub' := by
  unfold addUser
  split
  · simp [eNOMEM]
  · cases hf : find id gs with
    | some g =>
      dsimp only
      rw [usersOf_upd id pub (fun l => u :: l)]
      rw [hf]
      simp
    | none =>
      dsimp only
      split
      · simp [eNOMEM]
      · rw [usersOf_cons, (set_id _ _ _).1, set_users]
        have hu : usersOf gs id pub = [] := by unfold usersOf; rw [hf]
        have hu' : usersOf gs id pub' = [] := by unfold usersOf; rw [hf]
        by_cases hi : id' = id
        · subst hi
          by_cases hp : pub' = pub
          · subst hp; simp [hu]
          · simp [hp, hu']
            unfold Group.users
            simp
        · simp [hi, Ne.symm hi]

/-- Removing a user, seen from outside. -/
theorem users_remove (gs : List Group) (next : Nat) (hg : Good gs next) (t id : Nat) (pub : Bool) (id' : Nat) (pub' : Bool) :
    usersOf (removeUser gs t id pub).1 id' pub' =
        (if (removeUser gs t id pub).2.1 = 0 ∧ id' = id ∧ pub' = pub then
          (usersOf gs id pub).eraseP (fun u => decide (u.thread = t)) else usersOf gs id' pub') ∧
    ((removeUser gs t id pub).2.1 = 0 ↔ ∃ u ∈ usersOf gs id pub, u.thread = t) ∧
    ((removeUser gs t id pub).2.1 = 0 → ∃ u, (usersOf gs id pub).find? (fun u => decide (u.thread = t)) = some u ∧
      (removeUser gs t id pub).2.2 = u.writer) ∧
    ((removeUser gs t id pub).2.1 ≠ 0 → (removeUser gs t id pub).2.1 = 2 ∧ (removeUser gs t id pub).2.2 = none) := by
  cases hf : find id gs with
  | none =>
    have hu : usersOf gs id pub = [] := by unfold usersOf; rw [hf]
    have hr : removeUser gs t id pub = (gs, eNOENT, none) := by unfold removeUser; rw [hf]
    rw [hr]
    simp [hu, eNOENT]
  | some g =>
    have hu : usersOf gs id pub = g.users pub := by unfold usersOf; rw [hf]
    cases hx : (g.users pub).find? (fun u => decide (u.thread = t)) with
    | none =>
      have hr : removeUser gs t id pub = (prune id gs, eNOENT, none) := by
        unfold removeUser
        rw [hf]
        dsimp only
        rw [hx]
      rw [hr]
      dsimp only
      rw [usersOf_prune id id' pub' gs hg.ids, hu]
      rw [List.find?_eq_none] at hx
      simp only [decide_eq_true_eq] at hx
      simp [eNOENT]
      exact hx
    | some u =>
      have hr : removeUser gs t id pub = (prune id (upd id (fun g => g.set pub ((g.users pub).eraseP
          (fun u => decide (u.thread = t)))) gs), 0, u.writer) := by
        unfold removeUser
        rw [hf]
        dsimp only
        rw [hx]
      rw [hr]
      dsimp only
      have hm := upd_map id (fun g => g.set pub ((g.users pub).eraseP (fun u => decide (u.thread = t))))
        (fun g => set_id g pub _) gs
      obtain ⟨h1, _, _⟩ := pairwise_of_map _ _ hm
      rw [usersOf_prune id id' pub' _ (h1 hg.ids), usersOf_upd id pub (fun l => l.eraseP (fun u => decide (u.thread = t))), hf]
      refine ⟨by simp, ⟨fun _ => ?_, fun _ => rfl⟩, fun _ => ⟨u, by rw [hu]; exact hx, rfl⟩, fun h => absurd rfl h⟩
      rw [hu]
      exact ⟨u, List.mem_of_find?_eq_some hx, by simpa using List.find?_some hx⟩

/-! ## The register -/

theorem filter_eraseP {β : Type} (p q : β → Bool) : ∀ l : List β,
    (l.eraseP (fun x => p x && q x)).filter p = (l.filter p).eraseP q := by
  intro l
  induction l with
  | nil => rfl
  | cons a l ih =>
    rw [List.eraseP_cons]
    cases hp : p a
    · simp [hp, ih]
    · cases hq : q a <;> simp [hp, hq, ih, List.eraseP_cons]

theorem filter_eraseP_other {β : Type} (p r : β → Bool) : ∀ l : List β, (∀ x ∈ l, r x = true → p x = false) →
    (l.eraseP r).filter p = l.filter p := by
  intro l
  induction l with
  | nil => intro _; rfl
  | cons a l ih =>
    intro h
    rw [List.eraseP_cons]
    cases hr : r a
    · simp only [cond_false, List.filter_cons]
      rw [ih fun x hx => h x (List.mem_cons_of_mem _ hx)]
    · simp [h a List.mem_cons_self hr]

theorem map_eraseP {β γ : Type} (f : β → γ) (q : γ → Bool) : ∀ l : List β,
    (l.eraseP (fun x => q (f x))).map f = (l.map f).eraseP q := by
  intro l
  induction l with
  | nil => rfl
  | cons a l ih =>
    rw [List.eraseP_cons, List.map_cons, List.eraseP_cons]
    cases q (f a) <;> simp [ih]

theorem registered_cons (reg : List Entry) (id : Nat) (pub : Bool) (u : User) (id' : Nat) (pub' : Bool) :
    registered (⟨id, pub, u⟩ :: reg) id' pub' =
      if id' = id ∧ pub' = pub then u :: registered reg id pub else registered reg id' pub' := by
  unfold registered
  by_cases h : id' = id ∧ pub' = pub
  · obtain ⟨rfl, rfl⟩ := h
    simp
  · rw [if_neg h, List.filter_cons_of_neg]
    simp only [Bool.and_eq_true, decide_eq_true_eq, beq_iff_eq]
    exact fun hx => h ⟨hx.1.symm, hx.2.symm⟩

theorem registered_erase (reg : List Entry) (id t : Nat) (pub : Bool) (id' : Nat) (pub' : Bool) :
    registered (reg.eraseP (fun e => decide (e.id = id) && (e.pub == pub && decide (e.user.thread = t)))) id' pub' =
      if id' = id ∧ pub' = pub then (registered reg id pub).eraseP (fun u => decide (u.thread = t))
      else registered reg id' pub' := by
  have e : (fun e : Entry => decide (e.id = id) && (e.pub == pub && decide (e.user.thread = t))) =
      fun e => (decide (e.id = id) && e.pub == pub) && decide (e.user.thread = t) := by
    funext e; rw [Bool.and_assoc]
  unfold registered
  by_cases h : id' = id ∧ pub' = pub
  · obtain ⟨rfl, rfl⟩ := h
    rw [if_pos ⟨rfl, rfl⟩, e, filter_eraseP]
    exact map_eraseP (fun e : Entry => e.user) (fun u => decide (u.thread = t)) _
  · rw [if_neg h, filter_eraseP_other]
    intro x _ hx
    simp only [Bool.and_eq_true, decide_eq_true_eq, beq_iff_eq] at hx
    rw [← Bool.not_eq_true]
    simp only [Bool.and_eq_true, decide_eq_true_eq, beq_iff_eq]
    rintro ⟨h1, h2⟩
    exact h ⟨h1.symm.trans hx.1, h2.symm.trans hx.2.1⟩

end Verif.Mcast
