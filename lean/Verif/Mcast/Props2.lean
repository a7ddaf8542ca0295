import Verif.Mcast.Cases

set_option linter.unusedSimpArgs false
set_option linter.unusedVariables false

/-
# Properties C348 to C352: messages, events and writers
-/

namespace Verif.Mcast

/-! ## C348: messages are not lost -/

/-- Messages a thread has in its hands. -/
def pending : Pc → List Nat
  | .sending _ ds _ => ds.map (·.2)
  | _ => []

/-- Messages allocated. -/
def als (acts : List Act) : List Nat := acts.filterMap (fun | .alloc m => some m | _ => none)
/-- Messages sent or freed. -/
def outs (acts : List Act) : List Nat := acts.filterMap (fun | .send _ m _ => some m | .free m => some m | _ => none)
/-- Writers made. -/
def news (acts : List Act) : List Nat := acts.filterMap (fun | .newWriter w => some w | _ => none)
/-- Writers destroyed. -/
def dels (acts : List Act) : List Nat := acts.filterMap (fun | .delWriter w => some w | _ => none)

theorem filterMap_map_none {β γ : Type} (f : Act → Option γ) (k : β → Act) (l : List β) (h : ∀ b, f (k b) = none) :
    (l.map k).filterMap f = [] := by
  rw [List.filterMap_map]
  exact List.filterMap_eq_nil_iff.2 fun b _ => h b

theorem filterMap_map_some {β γ : Type} (f : Act → Option γ) (k : β → Act) (g : β → γ) (l : List β)
    (h : ∀ b, f (k b) = some (g b)) : (l.map k).filterMap f = l.map g := by
  rw [List.filterMap_map]
  have : (f ∘ k) = some ∘ g := funext h
  rw [this]
  exact List.filterMap_eq_map ▸ rfl

theorem gather_acts {g : Group} {id : Nat} {okD : Bool} {ms : List (Option Nat)} {p : Pc} {acts : List Act}
    (h : gather g id okD ms = some (p, acts)) :
    ∃ ds, (∃ ok, allocLoop g.subs ms = (ds, ok)) ∧
      ((ds ≠ [] ∧ p = .sending id ds 0 ∧
        acts = (g.subs.filterMap (·.writer)).map .post ++ ds.map (fun d => Act.alloc d.2)) ∨
      (ds = [] ∧ p = .idle ∧ acts = (g.subs.filterMap (·.writer)).map .post ++ [.ret 0]) ∨
      (p = .idle ∧ acts = (g.subs.filterMap (·.writer)).map .post ++ ds.map (fun d => Act.alloc d.2) ++
        ds.reverse.map (fun d => Act.free d.2) ++ [.ret 11])) := by
  unfold gather at h
  dsimp only at h
  split at h
  · cases h
  · cases hl : allocLoop g.subs ms with
    | mk ds ok =>
      rw [hl] at h
      dsimp only at h
      refine ⟨ds, ⟨ok, rfl⟩, ?_⟩
      cases ok with
      | true =>
        simp only [if_true] at h
        by_cases hd : ds = []
        · rw [if_pos hd] at h
          cases h
          subst hd
          exact .inr (.inl ⟨rfl, rfl, by simp⟩)
        · rw [if_neg hd] at h
          cases h
          exact .inl ⟨hd, rfl, rfl⟩
      | false =>
        simp only [Bool.false_eq_true, if_false] at h
        cases h
        exact .inr (.inr ⟨rfl, rfl⟩)

theorem add_als (s : St) (u : User) (id : Nat) (pub okU okG : Bool) :
    als (u.writer.toList.map .newWriter ++ (add s u id pub okU okG).2) = [] ∧
    outs (u.writer.toList.map .newWriter ++ (add s u id pub okU okG).2) = [] := by
  unfold add als outs
  dsimp only
  rw [List.filterMap_append, List.filterMap_append, List.filterMap_append, List.filterMap_append]
  refine ⟨?_, ?_⟩
  · rw [filterMap_map_none _ _ _ (fun b => rfl)]
    split <;> simp
  · rw [filterMap_map_none _ _ _ (fun b => rfl)]
    split <;> simp

theorem remove_als (s : St) (t id : Nat) (pub : Bool) :
    als (remove s t id pub).2 = [] ∧ outs (remove s t id pub).2 = [] := by
  unfold remove als outs
  dsimp only
  rw [List.filterMap_append, List.filterMap_append]
  refine ⟨?_, ?_⟩
  · rw [filterMap_map_none _ _ _ (fun b => rfl)]; rfl
  · rw [filterMap_map_none _ _ _ (fun b => rfl)]; rfl

theorem at_self (s : St) (t : Nat) (p : Pc) : (s.at t p).pc t = p := by simp [St.at]
theorem at_other (s : St) {t u : Nat} (p : Pc) (h : u ≠ t) : (s.at t p).pc u = s.pc u := by simp [St.at, h]

/-- Other threads are not moved. -/
theorem step_other {s s' : St} {t u : Nat} {i : In} {acts : List Act} (hs : step s t i = some (s', acts)) (h : u ≠ t) :
    s'.pc u = s.pc u := by
  cases step_case hs with
  | add => rfl
  | remove => rfl
  | none => rfl
  | lookup => exact at_other _ _ h
  | gather => exact at_other _ _ h
  | last => exact at_other _ _ h
  | deliver => exact at_other _ _ h

theorem step_messages {s s' : St} {t : Nat} {i : In} {acts : List Act} (hs : step s t i = some (s', acts)) :
    (pending (s.pc t) ++ als acts).Perm (outs acts ++ pending (s'.pc t)) := by
  cases step_case hs with
  | add u id pub okU okG hp hu hr =>
    rw [(add_als s u id pub okU okG).1, (add_als s u id pub okU okG).2, List.append_nil]
    exact List.Perm.refl _
  | remove id pub hp hr =>
    rw [(remove_als s t id pub).1, (remove_als s t id pub).2, List.append_nil]
    exact List.Perm.refl _
  | none e he hr =>
    have h1 : als (e.toList.map .ret) = [] := filterMap_map_none _ _ _ fun b => rfl
    have h2 : outs (e.toList.map .ret) = [] := filterMap_map_none _ _ _ fun b => rfl
    rw [h1, h2, List.append_nil]
    exact List.Perm.refl _
  | lookup id g hp hi hg hr =>
    rw [hp, at_self]
    exact List.Perm.refl _
  | gather id a okD ms g p acts hp hi hg h hr =>
    rw [hp, at_self]
    obtain ⟨ds, _, hx⟩ := gather_acts h
    have hpost : als ((g.subs.filterMap (·.writer)).map .post) = [] := filterMap_map_none _ _ _ fun b => rfl
    have hpost2 : outs ((g.subs.filterMap (·.writer)).map .post) = [] := filterMap_map_none _ _ _ fun b => rfl
    have hal : als (ds.map (fun d => Act.alloc d.2)) = ds.map (·.2) := filterMap_map_some _ _ _ _ fun b => rfl
    have hal2 : outs (ds.map (fun d => Act.alloc d.2)) = [] := filterMap_map_none _ _ _ fun b => rfl
    have hfr : als (ds.reverse.map (fun d => Act.free d.2)) = [] := filterMap_map_none _ _ _ fun b => rfl
    have hfr2 : outs (ds.reverse.map (fun d => Act.free d.2)) = ds.reverse.map (·.2) :=
      filterMap_map_some _ _ _ _ fun b => rfl
    have app : ∀ a b, als (a ++ b) = als a ++ als b := fun a b => List.filterMap_append
    have app2 : ∀ a b, outs (a ++ b) = outs a ++ outs b := fun a b => List.filterMap_append
    have hret : ∀ n, als [.ret n] = [] := fun n => rfl
    have hret2 : ∀ n, outs [.ret n] = [] := fun n => rfl
    rcases hx with ⟨_, rfl, rfl⟩ | ⟨_, rfl, rfl⟩ | ⟨rfl, rfl⟩
    · rw [app, app2, hpost, hpost2, hal, hal2]
      simp only [pending, List.nil_append]
      exact List.Perm.refl _
    · rw [app, app2, hpost, hpost2, hret, hret2]
      exact List.Perm.refl _
    · rw [app, app2, app, app2, app, app2, hpost, hpost2, hal, hal2, hfr, hfr2, hret, hret2]
      simp only [pending, List.nil_append, List.append_nil]
      rw [List.map_reverse]
      exact (List.reverse_perm _).symm
  | last id dst m rc ret hp hi hr =>
    rw [hp, at_self]
    by_cases h : ret = 0
    · rw [if_pos h]; exact List.Perm.refl _
    · rw [if_neg h]; exact List.Perm.refl _
  | deliver id dst m ds rc ret hp hne hi hr =>
    rw [hp, at_self]
    have : als [if ret = 0 then Act.send dst m id else Act.free m] = [] := by split <;> rfl
    have h2 : outs [if ret = 0 then Act.send dst m id else Act.free m] = [m] := by split <;> rfl
    rw [this, h2, List.append_nil]
    exact List.Perm.refl _

/-- C348: however the threads interleave, a thread that is not in the middle of sending has sent or freed exactly the
messages it has allocated. -/
theorem C348_messages (is : List (Nat × In)) (s : St) (tr) (h : run .init is = some (s, tr)) (t : Nat)
    (hi : s.pc t = .idle) : (allocated t tr).Perm (disposed t tr) := by
  have key : ∀ (is : List (Nat × In)) (s s' : St) (tr), run s is = some (s', tr) →
      (pending (s.pc t) ++ allocated t tr).Perm (disposed t tr ++ pending (s'.pc t)) := by
    intro is
    induction is with
    | nil =>
      intro s s' tr h
      cases h
      simp only [allocated, disposed, List.flatMap_nil, List.append_nil, List.nil_append]
      exact List.Perm.refl _
    | cons x is ih =>
      obtain ⟨u, i⟩ := x
      intro s s' tr h
      unfold run at h
      cases hs : step s u i with
      | none => rw [hs] at h; cases h
      | some y =>
        obtain ⟨s1, acts⟩ := y
        rw [hs] at h
        obtain ⟨⟨s2, tr2⟩, hz, hx⟩ := Option.map_eq_some_iff.1 h
        cases hx
        have h1 := ih s1 _ tr2 hz
        have e1 : allocated t ((u, i, acts) :: tr2) = (if u = t then als acts else []) ++ allocated t tr2 := rfl
        have e2 : disposed t ((u, i, acts) :: tr2) = (if u = t then outs acts else []) ++ disposed t tr2 := rfl
        rw [e1, e2]
        by_cases hu : u = t
        · subst hu
          rw [if_pos rfl, if_pos rfl, ← List.append_assoc (pending (s.pc u)), List.append_assoc (outs acts)]
          refine ((step_messages hs).append_right (allocated u tr2)).trans ?_
          rw [List.append_assoc]
          exact h1.append_left (outs acts)
        · rw [if_neg hu, if_neg hu, ← step_other hs (fun h => hu h.symm)]
          exact h1
  have := key is .init s tr h
  rw [hi] at this
  simpa [pending, St.init] using this

/-- Of two messages one cannot be sent; another thread subscribes in between. -/
example : (run .init [(1, .subscribe 7 true true), (2, .subscribe 7 true true), (3, .lookup 7),
    (3, .gather true [some 40, some 41]), (3, .deliver 0), (4, .subscribe 7 true true), (3, .deliver 9)]).map
      (fun x => (allocated 3 x.2, disposed 3 x.2, x.2.getLast?.map (fun y => y.2.2))) =
    some ([40, 41], [40, 41], some [.free 41, .ret 9]) := by decide

theorem returned_none : ∀ l : List Act, (∀ a ∈ l, ∀ r, a ≠ .ret r) → returned l = none := by
  intro l
  induction l with
  | nil => intro _; rfl
  | cons a l ih =>
    intro h
    have := ih fun b hb => h b (List.mem_cons_of_mem _ hb)
    have ha := h a List.mem_cons_self
    cases a with
    | ret r => exact absurd rfl (ha r)
    | _ => exact this

theorem step_gather {s s' : St} {t : Nat} {okD : Bool} {ms : List (Option Nat)} {acts : List Act}
    (hs : step s t (.gather okD ms) = some (s', acts)) : (s' = s ∧ acts = []) ∨
      ∃ id a g p, s.pc t = .found id a ∧ s.groups.find? (fun g => decide (g.addr = a)) = some g ∧
        gather g id okD ms = some (p, acts) ∧ s' = s.at t p := by
  cases hp : s.pc t with
  | idle => simp only [step, hp] at hs; cases hs; exact .inl ⟨rfl, rfl⟩
  | sending id ds rc => simp only [step, hp] at hs; cases hs; exact .inl ⟨rfl, rfl⟩
  | found id a =>
    simp only [step, hp] at hs
    split at hs
    · cases hs
    · next g hg =>
      obtain ⟨⟨p, as⟩, hx, hy⟩ := Option.map_eq_some_iff.1 hs
      cases hy
      exact .inr ⟨id, a, g, p, rfl, hg, hx, rfl⟩

/-! ## C349: a failure is not half done -/

/-- C349: a call of send that fails because messages cannot be allocated tells nobody. -/
def C349_statement : Prop := ∀ (is : List (Nat × In)) (s : St) (tr), run .init is = some (s, tr) →
  ∀ t okD ms s' acts rc, step s t (.gather okD ms) = some (s', acts) → returned acts = some rc → rc ≠ 0 →
    ∀ a ∈ acts, (∀ w, a ≠ .post w) ∧ ∀ d m id, a ≠ .send d m id

/-- C349 fails: events have already been posted. -/
theorem C349_violated : ¬ C349_statement := by
  intro h
  have := h [(1, .subscribe 7 true true), (2, .subscribeEvent 7 (.ok 5) true true), (3, .lookup 7)] _ _ rfl 3 true [none] _ _
    11 rfl rfl (by decide) (.post 5) (by decide)
  exact this.1 5 rfl

/-- C349, part: no message has been sent, those allocated have been freed, and the call has ended, with `EAGAIN`. That
no events are posted is missing. -/
theorem C349_failure_partial (is : List (Nat × In)) (s : St) (tr) (h : run .init is = some (s, tr)) (t : Nat) (okD : Bool)
    (ms : List (Option Nat)) (s' : St) (acts : List Act) (rc : Nat) (hs : step s t (.gather okD ms) = some (s', acts))
    (hr : returned acts = some rc) (hrc : rc ≠ 0) :
    rc = 11 ∧ (∀ a ∈ acts, ∀ d m id, a ≠ .send d m id) ∧ s'.pc t = .idle ∧ s'.groups = s.groups ∧
      (acts.filterMap (fun | .alloc m => some m | _ => none)).Perm
        (acts.filterMap (fun | .free m => some m | _ => none)) := by
  rcases step_gather hs with ⟨_, rfl⟩ | ⟨id, a, g, p, hp, hg, hga, rfl⟩
  · cases hr
  · obtain ⟨ds, _, hh⟩ := gather_acts hga
    rcases hh with ⟨_, rfl, rfl⟩ | ⟨_, rfl, rfl⟩ | ⟨rfl, rfl⟩
    · exfalso
      rw [returned_none] at hr
      · cases hr
      · intro a ha r
        rcases List.mem_append.1 ha with ha | ha
        · obtain ⟨w, _, rfl⟩ := List.mem_map.1 ha
          exact fun h => nomatch h
        · obtain ⟨w, _, rfl⟩ := List.mem_map.1 ha
          exact fun h => nomatch h
    · exfalso
      rw [returned_end] at hr
      · cases hr; exact hrc rfl
      · intro a ha r
        obtain ⟨w, _, rfl⟩ := List.mem_map.1 ha
        exact fun h => nomatch h
    · have hm : ∀ a ∈ (g.subs.filterMap (·.writer)).map .post ++ ds.map (fun d => Act.alloc d.2) ++
          ds.reverse.map (fun d => Act.free d.2), (∀ r, a ≠ .ret r) ∧ ∀ d m id, a ≠ .send d m id := by
        intro a ha
        rcases List.mem_append.1 ha with ha | ha
        · rcases List.mem_append.1 ha with ha | ha
          · obtain ⟨w, _, rfl⟩ := List.mem_map.1 ha
            exact ⟨(fun _ h => nomatch h), (fun _ _ _ h => nomatch h)⟩
          · obtain ⟨w, _, rfl⟩ := List.mem_map.1 ha
            exact ⟨(fun _ h => nomatch h), (fun _ _ _ h => nomatch h)⟩
        · obtain ⟨w, _, rfl⟩ := List.mem_map.1 ha
          exact ⟨(fun _ h => nomatch h), (fun _ _ _ h => nomatch h)⟩
      rw [returned_end _ _ fun a ha => (hm a ha).1] at hr
      refine ⟨(Option.some.inj hr).symm, fun a ha d m id => ?_, at_self _ _ _, rfl, ?_⟩
      · rcases List.mem_append.1 ha with ha | ha
        · exact (hm a ha).2 d m id
        · rw [List.mem_singleton.1 ha]
          exact fun h => nomatch h
      · simp only [List.filterMap_append]
        rw [filterMap_map_none _ Act.post _ (fun b => rfl), filterMap_map_none _ Act.post _ (fun b => rfl),
          filterMap_map_some _ (fun d : Nat × Nat => Act.alloc d.2) (·.2) _ (fun b => rfl),
          filterMap_map_none _ (fun d : Nat × Nat => Act.alloc d.2) _ (fun b => rfl),
          filterMap_map_none _ (fun d : Nat × Nat => Act.free d.2) _ (fun b => rfl),
          filterMap_map_some _ (fun d : Nat × Nat => Act.free d.2) (·.2) _ (fun b => rfl)]
        simp only [List.filterMap_cons, List.filterMap_nil, List.append_nil, List.nil_append]
        rw [List.map_reverse]
        exact (List.reverse_perm _).symm

example : (run .init [(1, .subscribe 7 true true), (2, .subscribe 7 true true), (3, .lookup 7),
    (3, .gather true [some 40, none])]).map (fun x => x.2.getLast?.map (fun y => y.2.2)) =
    some (some [.alloc 40, .free 40, .ret 11]) := by decide

end Verif.Mcast
