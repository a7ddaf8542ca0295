import Verif.Mcast.Runs
import Mathlib.Data.List.Induction

set_option linter.unusedSimpArgs false
set_option linter.unusedVariables false

/-
# The kinds of steps
-/

namespace Verif.Mcast

/-- What a step can be. -/
inductive Case (s : St) (t : Nat) (i : In) : St → List Act → Prop
  | add (u : User) (id : Nat) (pub okU okG : Bool) (hp : s.pc t = .idle) (hu : u.thread = t)
      (hr : ∀ reg, after reg t i (u.writer.toList.map .newWriter ++ (add s u id pub okU okG).2) =
        if (addUser s.groups s.next u id pub okU okG).2.2 = 0 then ⟨id, pub, u⟩ :: reg else reg) :
      Case s t i (add s u id pub okU okG).1 (u.writer.toList.map .newWriter ++ (add s u id pub okU okG).2)
  | remove (id : Nat) (pub : Bool) (hp : s.pc t = .idle)
      (hr : ∀ reg, after reg t i (remove s t id pub).2 = if (removeUser s.groups t id pub).2.1 = 0 then
        reg.eraseP (fun e => decide (e.id = id) && (e.pub == pub && decide (e.user.thread = t))) else reg) :
      Case s t i (remove s t id pub).1 (remove s t id pub).2
  | none (e : Option Nat) (he : e = Option.none ∨ s.pc t = .idle) (hr : ∀ reg, after reg t i (e.toList.map .ret) = reg) : Case s t i s (e.toList.map .ret)
  | lookup (id : Nat) (g : Group) (hp : s.pc t = .idle) (hi : i = .lookup id) (hg : find id s.groups = some g)
      (hr : ∀ reg, after reg t i [] = reg) : Case s t i (s.at t (.found id g.addr)) []
  | gather (id a : Nat) (okD : Bool) (ms : List (Option Nat)) (g : Group) (p : Pc) (acts : List Act)
      (hp : s.pc t = .found id a) (hi : i = .gather okD ms)
      (hg : s.groups.find? (fun g => decide (g.addr = a)) = some g) (h : gather g id okD ms = some (p, acts))
      (hr : ∀ reg, after reg t i acts = reg) : Case s t i (s.at t p) acts
  | last (id dst m rc ret : Nat) (hp : s.pc t = .sending id [(dst, m)] rc) (hi : i = .deliver ret)
      (hr : ∀ reg, after reg t i [if ret = 0 then Act.send dst m id else Act.free m,
        .ret (if ret ≠ 0 ∧ rc = 0 then ret else rc)] = reg) :
      Case s t i (s.at t .idle) [if ret = 0 then Act.send dst m id else Act.free m,
        .ret (if ret ≠ 0 ∧ rc = 0 then ret else rc)]
  | deliver (id dst m : Nat) (ds : List (Nat × Nat)) (rc ret : Nat) (hp : s.pc t = .sending id ((dst, m) :: ds) rc)
      (hne : ds ≠ []) (hi : i = .deliver ret)
      (hr : ∀ reg, after reg t i [if ret = 0 then Act.send dst m id else Act.free m] = reg) :
      Case s t i (s.at t (.sending id ds (if ret ≠ 0 ∧ rc = 0 then ret else rc)))
        [if ret = 0 then Act.send dst m id else Act.free m]

theorem after_add (s : St) (u : User) (id : Nat) (pub okU okG : Bool) (t : Nat) (i : In) (pre : List Act)
    (hpre : returned (pre ++ (add s u id pub okU okG).2) = returned (add s u id pub okU okG).2)
    (hen : ∀ reg rc, enter reg t i rc = if rc = 0 then ⟨id, pub, u⟩ :: reg else reg) (reg : List Entry) :
    after reg t i (pre ++ (add s u id pub okU okG).2) =
      if (addUser s.groups s.next u id pub okU okG).2.2 = 0 then ⟨id, pub, u⟩ :: reg else reg := by
  unfold after
  rw [hpre, add_returned]
  exact hen reg _

theorem step_case {s s' : St} {t : Nat} {i : In} {acts : List Act} (hs : step s t i = some (s', acts)) :
    Case s t i s' acts := by
  unfold step at hs
  split at hs
  · next id okU okG hp =>
    have hs := Option.some.inj hs
    have e1 : s' = (add s ⟨t, none⟩ id false okU okG).1 := by rw [hs]
    have e2 : acts = (add s ⟨t, none⟩ id false okU okG).2 := by rw [hs]
    rw [e1, e2]
    exact Case.add ⟨t, none⟩ id false okU okG hp rfl fun reg => after_add s _ id false okU okG t _ [] rfl
      (fun reg rc => by unfold enter; by_cases h : rc = 0 <;> simp [h]) reg
  · next id w okU okG hp =>
    split at hs
    · next e =>
      cases hs
      exact Case.none (some e) (.inr hp) fun reg => after_none fun rc => by unfold enter; split <;> rfl
    · next w =>
      have hs := Option.some.inj hs
      have e1 : s' = (add s ⟨t, some w⟩ id false okU okG).1 := (congrArg Prod.fst hs).symm
      have e2 : acts = .newWriter w :: (add s ⟨t, some w⟩ id false okU okG).2 := (congrArg Prod.snd hs).symm
      rw [e1, e2]
      exact Case.add ⟨t, some w⟩ id false okU okG hp rfl fun reg => after_add s _ id false okU okG t _ [.newWriter w] rfl
        (fun reg rc => by unfold enter; by_cases h : rc = 0 <;> simp [h]) reg
  · next id okU okG hp =>
    have hs := Option.some.inj hs
    have e1 : s' = (add s ⟨t, none⟩ id true okU okG).1 := by rw [hs]
    have e2 : acts = (add s ⟨t, none⟩ id true okU okG).2 := by rw [hs]
    rw [e1, e2]
    exact Case.add ⟨t, none⟩ id true okU okG hp rfl fun reg => after_add s _ id true okU okG t _ [] rfl
      (fun reg rc => by unfold enter; by_cases h : rc = 0 <;> simp [h]) reg
  · next id hp =>
    have hs := Option.some.inj hs
    have e1 : s' = (remove s t id false).1 := by rw [hs]
    have e2 : acts = (remove s t id false).2 := by rw [hs]
    rw [e1, e2]
    refine Case.remove id false hp fun reg => ?_
    unfold after
    rw [remove_returned]
    unfold enter
    by_cases h : (removeUser s.groups t id false).2.1 = 0 <;> simp [h]
  · next id hp =>
    have hs := Option.some.inj hs
    have e1 : s' = (remove s t id true).1 := by rw [hs]
    have e2 : acts = (remove s t id true).2 := by rw [hs]
    rw [e1, e2]
    refine Case.remove id true hp fun reg => ?_
    unfold after
    rw [remove_returned]
    unfold enter
    by_cases h : (removeUser s.groups t id true).2.1 = 0 <;> simp [h]
  · next id hp =>
    split at hs
    · cases hs
      exact Case.none (some eCONNREFUSED) (.inr hp) fun reg => after_none fun rc => by unfold enter; split <;> rfl
    · next g hg =>
      cases hs
      exact Case.lookup id g hp rfl hg fun reg => rfl
  · next id a okD ms hp =>
    split at hs
    · cases hs
    · next g hg =>
      obtain ⟨⟨p, as⟩, hx, hy⟩ := Option.map_eq_some_iff.1 hs
      cases hy
      exact Case.gather id a okD ms g p acts hp rfl hg hx
        fun reg => after_none fun rc => by unfold enter; split <;> rfl
  · next id dst m ds rc ret hp =>
    dsimp only at hs
    split at hs
    · next h =>
      subst h
      cases hs
      exact Case.last id dst m rc ret hp rfl fun reg => after_none fun rc => by unfold enter; split <;> rfl
    · next h =>
      cases hs
      exact Case.deliver id dst m ds rc ret hp h rfl fun reg => after_none fun rc => by unfold enter; split <;> rfl
  · cases hs
    exact Case.none none (.inl rfl) fun reg => rfl

theorem registry_snoc (x : Nat × In × List Act) : ∀ (tr : List (Nat × In × List Act)) (reg : List Entry),
    registry reg (tr ++ [x]) = after (registry reg tr) x.1 x.2.1 x.2.2 := by
  obtain ⟨t, i, acts⟩ := x
  intro tr
  induction tr with
  | nil =>
    intro reg
    simp only [List.nil_append, registry, after]
    cases returned acts <;> rfl
  | cons y tr ih =>
    obtain ⟨t', i', as⟩ := y
    intro reg
    simp only [List.cons_append, registry]
    cases returned as <;> exact ih _

/-- A run and one step more. -/
theorem run_snoc {is : List (Nat × In)} {t : Nat} {i : In} {s s' : St} {tr} (h : run s (is ++ [(t, i)]) = some (s', tr)) :
    ∃ s1 tr1 acts, run s is = some (s1, tr1) ∧ step s1 t i = some (s', acts) ∧ tr = tr1 ++ [(t, i, acts)] := by
  rw [run_append] at h
  cases hr : run s is with
  | none => rw [hr] at h; cases h
  | some z =>
    obtain ⟨s1, tr1⟩ := z
    rw [hr] at h
    simp only [run] at h
    cases hs : step s1 t i with
    | none => rw [hs] at h; cases h
    | some y =>
      obtain ⟨s2, acts⟩ := y
      rw [hs] at h
      simp only [Option.map_some, Option.some.injEq, Prod.mk.injEq] at h
      exact ⟨s1, tr1, acts, rfl, by rw [hs, h.1], h.2.symm⟩

/-- The address of the group of a message. -/
def addrOf (gs : List Group) (id : Nat) : Option Nat := (find id gs).map (·.addr)

theorem addrOf_map : ∀ (gs hs : List Group) (h : hs.map (fun g => (g.id, g.addr)) = gs.map (fun g => (g.id, g.addr))) (id : Nat),
    addrOf hs id = addrOf gs id := by
  intro gs
  induction gs with
  | nil => intro hs h id; rw [List.map_eq_nil_iff.1 h]
  | cons g gs ih =>
    intro hs h id
    cases hs with
    | nil => cases h
    | cons k hs =>
      simp only [List.map_cons, List.cons.injEq, Prod.mk.injEq] at h
      unfold addrOf
      rw [find_cons, find_cons, h.1.1]
      by_cases hi : g.id = id
      · rw [if_pos hi, if_pos hi, Option.map_some, Option.map_some, h.1.2]
      · rw [if_neg hi, if_neg hi]
        exact ih hs h.2 id

theorem addrOf_add {gs : List Group} (next : Nat) (u : User) (id : Nat) (pub okU okG : Bool) {id' a : Nat}
    (h : addrOf gs id' = some a) : addrOf (addUser gs next u id pub okU okG).1 id' = some a := by
  unfold addUser
  split
  · exact h
  · cases hf : find id gs with
    | some g =>
      dsimp only
      rw [addrOf_map gs _ (upd_map id _ (fun g => set_id g pub _) gs), h]
    | none =>
      dsimp only
      split
      · exact h
      · unfold addrOf
        dsimp only
        rw [find_cons, (set_id _ _ _).1, if_neg]
        · exact h
        · intro he
          dsimp only at he
          subst he
          unfold addrOf at h
          rw [hf] at h
          cases h

theorem addrOf_prune (id id' a : Nat) : ∀ gs : List Group, gs.Pairwise (fun a b => a.id ≠ b.id) → addrOf gs id' = some a →
    addrOf (prune id gs) id' = some a ∨ find id' (prune id gs) = none := by
  intro gs
  induction gs with
  | nil => intro _ h; exact .inl h
  | cons g gs ih =>
    intro hp h
    have hc := List.pairwise_cons.1 hp
    unfold prune
    by_cases hg : g.id = id
    · rw [if_pos hg]
      split
      · by_cases hi : g.id = id'
        · right
          exact find_none fun x hx he => hc.1 x hx (hi.trans he.symm)
        · left
          unfold addrOf at h ⊢
          rw [find_cons, if_neg hi] at h
          exact h
      · exact .inl h
    · rw [if_neg hg]
      unfold addrOf at h ⊢
      rw [find_cons] at h ⊢
      by_cases hi : g.id = id'
      · rw [if_pos hi] at h ⊢
        exact .inl h
      · rw [if_neg hi] at h ⊢
        exact ih hc.2 h

theorem addrOf_remove {gs : List Group} {next : Nat} (hg : Good gs next) (t id : Nat) (pub : Bool) {id' a : Nat}
    (h : addrOf gs id' = some a) :
    addrOf (removeUser gs t id pub).1 id' = some a ∨ find id' (removeUser gs t id pub).1 = none := by
  unfold removeUser
  cases hf : find id gs with
  | none => exact .inl h
  | some g =>
    dsimp only
    split
    · exact addrOf_prune id id' a gs hg.ids h
    · have hm := upd_map id (fun g => g.set pub ((g.users pub).eraseP (fun u => decide (u.thread = t))))
        (fun g => set_id g pub _) gs
      exact addrOf_prune id id' a _ ((pairwise_of_map _ _ hm).1 hg.ids) (by rw [addrOf_map gs _ hm, h])

end Verif.Mcast
