import Verif.Mcast.Runs

set_option linter.unusedSimpArgs false
set_option linter.unusedVariables false

/-
# Properties C345 to C352: groups of threads for messages
-/

namespace Verif.Mcast

/-! ## C345: registration -/

/-- C345: whatever threads have called before, adding a user succeeds exactly if there is memory for it, and for a
group if it is the first user of the message; removing one succeeds exactly if the register, kept from the calls and
their return codes, has an entry of the thread, and otherwise fails with `ENOENT`; and sending is refused exactly if
nobody is registered for the message. -/
theorem C345_registration (is : List (Nat × In)) (s : St) (tr) (h : run .init is = some (s, tr)) (t : Nat)
    (hi : s.pc t = .idle) (id : Nat) (pub : Bool) :
    (∀ okU okG, ∃ s' acts, step s t (if pub then .publish id okU okG else .subscribe id okU okG) = some (s', acts) ∧
      (returned acts = some 0 ↔ okU = true ∧ (okG = true ∨
        ∃ p, registered (registry [] tr) id p ≠ []))) ∧
    (∃ s' acts, step s t (if pub then .unpublish id else .unsubscribe id) = some (s', acts) ∧
      returned acts = some (if ∃ u ∈ registered (registry [] tr) id pub, u.thread = t then 0 else 2)) ∧
    ∃ s' acts, step s t (.lookup id) = some (s', acts) ∧
      (returned acts = some 111 ↔ ∀ p, registered (registry [] tr) id p = []) := by
  have inv := run_reg h
  have hf := find_registered inv id
  refine ⟨fun okU okG => ?_, ?_, ?_⟩
  · have key : (addUser s.groups s.next ⟨t, none⟩ id pub okU okG).2.2 = 0 ↔ okU = true ∧ (okG = true ∨
        ∃ p, registered (registry [] tr) id p ≠ []) := by
      unfold addUser
      cases okU with
      | false => simp [eNOMEM]
      | true =>
        simp only [Bool.not_true, Bool.false_eq_true, if_false, true_and]
        cases hx : find id s.groups with
        | some g =>
          simp only [true_iff]
          right
          apply Classical.byContradiction
          intro hn
          have : find id s.groups = none := hf.2 ⟨Decidable.not_not.1 fun h => hn ⟨_, h⟩, Decidable.not_not.1 fun h => hn ⟨_, h⟩⟩
          rw [hx] at this
          cases this
        | none =>
          have h2 := hf.1 hx
          cases okG with
          | true => simp
          | false =>
            simp only [Bool.not_false, if_true, eNOMEM, Bool.false_eq_true, false_or]
            constructor
            · intro h; cases h
            · rintro ⟨p, hp⟩
              cases p
              · exact absurd h2.2 hp
              · exact absurd h2.1 hp
    refine ⟨(add s ⟨t, none⟩ id pub okU okG).1, (add s ⟨t, none⟩ id pub okU okG).2, ?_, ?_⟩
    · cases pub <;> simp only [step, hi, Bool.false_eq_true, if_false, if_true]
    · rw [add_returned, ← key, Option.some.injEq]
  · refine ⟨(remove s t id pub).1, (remove s t id pub).2, ?_, ?_⟩
    · cases pub <;> simp only [step, hi, Bool.false_eq_true, if_false, if_true]
    · rw [remove_returned]
      obtain ⟨_, h2, _, h4⟩ := users_remove s.groups s.next inv.good t id pub id pub
      rw [inv.same] at h2
      split
      · next hx => rw [h2.2 hx]
      · next hx => rw [(h4 fun h0 => hx (h2.1 h0)).1]
  · cases hx : find id s.groups with
    | none =>
      have h2 := hf.1 hx
      refine ⟨s, [.ret eCONNREFUSED], by simp only [step, hi, hx], ⟨fun _ p => ?_, fun _ => rfl⟩⟩
      cases p
      · exact h2.2
      · exact h2.1
    | some g =>
      refine ⟨s.at t (.found id g.addr), [], by simp only [step, hi, hx], ⟨fun h => (nomatch h), fun h => ?_⟩⟩
      have := hf.2 ⟨h true, h false⟩
      rw [hx] at this
      cases this

/-- A thread that subscribes twice must unsubscribe twice. -/
example : (run .init [(1, .subscribe 7 true true), (1, .subscribe 7 true true), (1, .unsubscribe 7),
    (1, .unsubscribe 7), (1, .unsubscribe 7)]).map (fun x => x.2.map (fun y => y.2.2)) =
      some [[.ret 0], [.ret 0], [.ret 0], [.ret 0], [.ret 2]] := by decide

/-! ## C346: nothing is left -/

theorem registered_mem (reg : List Entry) (e : Entry) (h : e ∈ reg) : e.user ∈ registered reg e.id e.pub := by
  unfold registered
  refine List.mem_map.2 ⟨e, List.mem_filter.2 ⟨h, ?_⟩, rfl⟩
  simp

/-- C346: the module can be destroyed exactly if every user has gone. -/
theorem C346_destroy (is : List (Nat × In)) (s : St) (tr) (h : run .init is = some (s, tr)) :
    destroy s = true ↔ registry [] tr = [] := by
  have inv := run_reg h
  unfold destroy
  constructor
  · intro he
    have hg : s.groups = [] := List.isEmpty_iff.1 he
    cases hr : registry [] tr with
    | nil => rfl
    | cons e reg =>
      have := registered_mem (registry [] tr) e (hr ▸ List.mem_cons_self)
      rw [← inv.same, hg] at this
      exact absurd this List.not_mem_nil
  · intro hr
    cases hg : s.groups with
    | nil => rfl
    | cons g gs =>
      have hm : g ∈ s.groups := hg ▸ List.mem_cons_self
      have hfind : find g.id s.groups = none := by
        rw [find_registered inv, hr]
        exact ⟨rfl, rfl⟩
      unfold find at hfind
      rw [List.find?_eq_none] at hfind
      exact absurd (decide_eq_true rfl) (hfind g hm)

example : (run .init [(1, .subscribe 7 true true), (2, .publish 7 true true), (1, .unsubscribe 7)]).map
    (fun x => destroy x.1) = some false ∧
  (run .init [(1, .subscribe 7 true true), (2, .publish 7 true true), (1, .unsubscribe 7), (2, .unpublish 7)]).map
    (fun x => destroy x.1) = some true := by decide

/-! ## C347: everybody is told -/

/-- Everything done in a run. -/
def allActs (tr : List (Nat × In × List Act)) : List Act := tr.flatMap (·.2.2)

theorem allocLoop_all : ∀ (us : List User) (l : List Nat),
    l.length = (us.filter (fun u => decide (u.writer = none))).length →
    allocLoop us (l.map some) = (((us.filter (fun u => decide (u.writer = none))).map (·.thread)).zip l, true) := by
  intro us
  induction us with
  | nil => intro l _; rfl
  | cons u us ih =>
    intro l h
    unfold allocLoop
    cases hw : u.writer with
    | some w =>
      have hn : ¬ decide (u.writer = none) = true := by simp [hw]
      rw [List.filter_cons_of_neg (p := fun u : User => decide (u.writer = none)) hn] at h ⊢
      exact ih l h
    | none =>
      have hn : decide (u.writer = none) = true := by simp [hw]
      rw [List.filter_cons_of_pos (p := fun u : User => decide (u.writer = none)) hn] at h ⊢
      cases l with
      | nil => cases h
      | cons m l =>
        simp only [List.map_cons]
        rw [ih l (by simpa using h)]
        rfl

theorem deliver_all (t id : Nat) : ∀ (ds : List (Nat × Nat)) (rs : List Nat), ds ≠ [] → rs.length = ds.length →
    ∀ (s : St) (rc : Nat), s.pc t = .sending id ds rc → ∃ s' tr,
      run s (rs.map (fun r => (t, .deliver r))) = some (s', tr) ∧ s'.pc t = .idle ∧
      allActs tr = (ds.zip rs).map (fun x => if x.2 = 0 then Act.send x.1.1 x.1.2 id else Act.free x.1.2) ++
        [.ret (if rc = 0 then (rs.find? (fun r => decide (r ≠ 0))).getD 0 else rc)] := by
  intro ds
  induction ds with
  | nil => intro _ h; exact absurd rfl h
  | cons d ds ih =>
    obtain ⟨dst, m⟩ := d
    intro rs _ hl s rc hp
    cases rs with
    | nil => cases hl
    | cons r rs =>
      have hrc : (if (if r ≠ 0 ∧ rc = 0 then r else rc) = 0 then (rs.find? (fun r => decide (r ≠ 0))).getD 0
          else (if r ≠ 0 ∧ rc = 0 then r else rc)) =
          if rc = 0 then ((r :: rs).find? (fun r => decide (r ≠ 0))).getD 0 else rc := by
        rw [List.find?_cons]
        by_cases h1 : rc = 0
        · by_cases h2 : r = 0
          · simp [h1, h2]
          · simp [h1, h2]
        · simp [h1]
      cases hds : ds with
      | nil =>
        subst hds
        have : rs = [] := by cases rs with
          | nil => rfl
          | cons _ _ => simp at hl
        subst this
        refine ⟨s.at t .idle, [(t, .deliver r, [if r = 0 then Act.send dst m id else Act.free m,
          .ret (if r ≠ 0 ∧ rc = 0 then r else rc)])], ?_, ?_, ?_⟩
        · simp only [List.map_cons, List.map_nil, run, step, hp, if_true, Option.map_some]
        · simp [St.at]
        · simp only [allActs, List.flatMap_cons, List.flatMap_nil, List.append_nil, List.zip_cons_cons, List.zip_nil_left,
            List.map_cons, List.map_nil, List.cons_append, List.nil_append]
          rw [← hrc]
          congr 2
          simp
      | cons e es =>
        have hne : ds ≠ [] := by rw [hds]; exact List.cons_ne_nil _ _
        rw [← hds]
        obtain ⟨s', tr, h1, h2, h3⟩ := ih rs hne (by simpa using hl)
          (s.at t (.sending id ds (if r ≠ 0 ∧ rc = 0 then r else rc))) (if r ≠ 0 ∧ rc = 0 then r else rc)
          (by simp [St.at])
        refine ⟨s', (t, .deliver r, [if r = 0 then Act.send dst m id else Act.free m]) :: tr, ?_, h2, ?_⟩
        · simp only [List.map_cons, run, step, hp]
          rw [if_neg hne]
          dsimp only
          rw [h1]
          rfl
        · have : allActs ((t, In.deliver r, [if r = 0 then Act.send dst m id else Act.free m]) :: tr) =
              (if r = 0 then Act.send dst m id else Act.free m) :: allActs tr := rfl
          rw [this, h3, hrc]
          rfl

/-- C347: if sending is not disturbed and there is memory, an event is posted for every subscriber that receives
events, and every other subscriber is sent a message of its own, one for each time it has subscribed; messages that
cannot be sent are freed; and the first error is returned. -/
theorem C347_delivery (is : List (Nat × In)) (s : St) (tr) (h : run .init is = some (s, tr)) (t : Nat)
    (hi : s.pc t = .idle) (id : Nat) (hr : ∃ p, registered (registry [] tr) id p ≠ []) (l rs : List Nat)
    (hl : l.length = ((registered (registry [] tr) id false).filter (fun u => decide (u.writer = none))).length)
    (hrs : rs.length = l.length) :
    ∃ s' tr', run s ((t, .lookup id) :: (t, .gather true (l.map some)) :: rs.map (fun r => (t, .deliver r))) =
        some (s', tr') ∧ s'.pc t = .idle ∧
      allActs tr' = ((registered (registry [] tr) id false).filterMap (·.writer)).map .post ++ l.map .alloc ++
        (((((registered (registry [] tr) id false).filter (fun u => decide (u.writer = none))).map (·.thread)).zip l).zip
          rs).map (fun x => if x.2 = 0 then Act.send x.1.1 x.1.2 id else Act.free x.1.2) ++
        [.ret ((rs.find? (fun r => decide (r ≠ 0))).getD 0)] := by
  have inv := run_reg h
  cases hf : find id s.groups with
  | none =>
    obtain ⟨p, hp⟩ := hr
    have := (find_registered inv id).1 hf
    cases p
    · exact absurd this.2 hp
    · exact absurd this.1 hp
  | some g =>
    have hsub : g.subs = registered (registry [] tr) id false := by
      rw [← inv.same]
      unfold usersOf
      rw [hf]
      rfl
    rw [← hsub] at hl ⊢
    have haddr := addr_unique inv (find_id hf).1
    have hal := allocLoop_all g.subs l hl
    have hstep1 : step s t (.lookup id) = some (s.at t (.found id g.addr), []) := by simp only [step, hi, hf]
    have hpc : (s.at t (.found id g.addr)).pc t = .found id g.addr := by simp [St.at]
    have hzl : ((((g.subs.filter (fun u => decide (u.writer = none))).map (·.thread)).zip l).map (fun d => Act.alloc d.2)) =
        l.map .alloc := by
      have : ∀ (a l : List Nat), l.length = a.length → (a.zip l).map (fun d => Act.alloc d.2) = l.map .alloc := by
        intro a
        induction a with
        | nil => intro l h; cases l with
          | nil => rfl
          | cons _ _ => cases h
        | cons x a ih => intro l h; cases l with
          | nil => rfl
          | cons y l => simp only [List.zip_cons_cons, List.map_cons]; rw [ih l (by simpa using h)]
      exact this _ l (by rw [hl, List.length_map])
    generalize hds : ((g.subs.filter (fun u => decide (u.writer = none))).map (·.thread)).zip l = ds at hal hzl
    have hdl : ds.length = l.length := by
      rw [← hds, List.length_zip, List.length_map, hl]
      exact Nat.min_self _
    have hg : gather g id true (l.map some) = some (if ds = [] then
        (.idle, (g.subs.filterMap (·.writer)).map .post ++ l.map .alloc ++ [.ret 0])
        else (.sending id ds 0, (g.subs.filterMap (·.writer)).map .post ++ l.map .alloc)) := by
      unfold gather
      dsimp only
      rw [if_neg (by simp), hal]
      dsimp only
      rw [hzl]
      simp
    have hstep2 : step (s.at t (.found id g.addr)) t (.gather true (l.map some)) =
        (gather g id true (l.map some)).map (fun (p, acts) => ((s.at t (.found id g.addr)).at t p, acts)) := by
      simp only [step, hpc]
      have e : (s.at t (.found id g.addr)).groups = s.groups := rfl
      rw [e, haddr]
    cases hds2 : ds with
    | nil =>
      have hl0 : l = [] := List.length_eq_zero_iff.1 (by rw [← hdl, hds2]; rfl)
      have hrs0 : rs = [] := List.length_eq_zero_iff.1 (by rw [hrs, hl0]; rfl)
      rw [hg, if_pos hds2] at hstep2
      refine ⟨(s.at t (.found id g.addr)).at t .idle, [(t, .lookup id, []), (t, .gather true (l.map some),
        (g.subs.filterMap (·.writer)).map .post ++ l.map .alloc ++ [.ret 0])], ?_, by simp [St.at], ?_⟩
      · rw [hrs0]
        simp only [run, hstep1, hstep2, List.map_nil, Option.map_some]
      · rw [hrs0]
        simp [allActs, hl0]
    | cons d es =>
      have hne : ds ≠ [] := by rw [hds2]; exact List.cons_ne_nil _ _
      rw [hg, if_neg hne] at hstep2
      obtain ⟨s', tr', h1, h2, h3⟩ := deliver_all t id ds rs hne (by rw [hrs, hdl])
        ((s.at t (.found id g.addr)).at t (.sending id ds 0)) 0 (by simp [St.at])
      rw [← hds2]
      refine ⟨s', (t, .lookup id, []) :: (t, .gather true (l.map some),
        (g.subs.filterMap (·.writer)).map .post ++ l.map .alloc) :: tr', ?_, h2, ?_⟩
      · simp only [run, hstep1, hstep2, Option.map_some]
        rw [h1]
        rfl
      · simp only [allActs, List.flatMap_cons, List.nil_append]
        have h3' : tr'.flatMap (fun x => x.2.2) = _ := h3
        rw [h3']
        simp

/-- One thread receives events and one messages. -/
example : (run .init [(1, .subscribeEvent 7 (.ok 5) true true), (2, .subscribe 7 true true), (3, .lookup 7),
    (3, .gather true [some 40]), (3, .deliver 0)]).map (fun x => (x.2.drop 2).map (fun y => y.2.2)) =
      some [[], [.post 5, .alloc 40], [.send 2 40 7, .ret 0]] := by decide

end Verif.Mcast
