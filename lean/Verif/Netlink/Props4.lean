import Verif.Netlink.Engine

set_option linter.unusedSimpArgs false
set_option linter.unusedVariables false

/-! Properties of the engine's distribution of link tables. -/

namespace Verif.Netlink

/-! ### Waiting for the first table -/

/-- What is received while waiting is well formed and receiving does not fail. -/
def Waits (ws : List Wait) : Prop := ∀ ps, Wait.ready ps ∈ ws → ∀ p ∈ ps, p.wf ∧ p.err = none

/-- C283 in full: waiting for a table either delivers one or says why not. -/
def C283_statement : Prop :=
  ∀ (ok : SendOk) (c : Nat) (ws : List Wait) (s s' : Nl) (err : Option Nat), Live ok s → Waits ws →
    tableWait ok c ws s = .ok (some (s', none, err)) → err ≠ none

/-- A wake-up without any change of the links ends the wait without a table and without setting
`errno`. -/
theorem C283_violated : ¬ C283_statement := by
  intro h
  have hw : Waits [.ready []] := by
    intro ps hps p hp
    simp only [List.mem_singleton, Wait.ready.injEq] at hps
    subst hps; cases hp
  have hc : ((tableWait (fun _ => true) 1 [.ready []] (setDriverStats [] Nl.init).1).map
      (fun o => o.map (fun x => (x.2.1, x.2.2)))).toOption = some (some (none, none)) := by decide +kernel
  cases ht : tableWait (fun _ => true) 1 [.ready []] (setDriverStats [] Nl.init).1 with
  | error e => rw [ht] at hc; cases hc
  | ok o =>
      rw [ht] at hc
      cases o with
      | none => cases hc
      | some x =>
          obtain ⟨s', t, err⟩ := x
          simp only [Except.map, Except.toOption, Option.map_some, Option.some.injEq, Prod.mk.injEq] at hc
          obtain ⟨rfl, rfl⟩ := hc
          exact h (fun _ => true) 1 [.ready []] _ s' none (.init [] (by decide)) hw ht rfl

/-- What `tableWait` does with the first event that is not an interruption. -/
theorem ready_spec (ok : SendOk) (c : Nat) (hc : c ≠ 0) (ps : List Pass) (ws : List Wait) (s : Nl)
    (hs : s.Inv) (hw : ∀ p ∈ ps, p.wf ∧ p.err = none) :
    ∃ r s' rc, Outcome s c false r s' rc ∧ r.w.Fine ∧ rounds ok ps s.work = .ok r ∧
      tableWait ok c (.ready ps :: ws) s = .ok (some (s',
        (if 0 < rc then some (s'.next + 3) else none), if rc < 0 then some 11 else none)) := by
  obtain ⟨r, s', rc, h1, h2, h3, h4⟩ := service_spec ok c false ps s hs
    (fun p hp => (hw p hp).1) (fun p hp => (hw p hp).2)
  refine ⟨r, s', rc, h4, h3, h2, ?_⟩
  simp only [tableWait, h1, bind, Except.bind, pure, Except.pure]
  have hi' := h4.inv hs h3
  cases h4 with
  | busy hb => rfl
  | wait rows hb hco => cases hco
  | same rows hb hco hp hsd hd => rfl
  | publish rows hb hco hp hsd hd =>
      have hpos : (s.current.version : Int) > 0 := by
        have := hs.ring.cur; have := hs.ring.count; omega
      have hnx : (s.wip c r.w (marked s.published.rows rows)).next = s.next := rfl
      have hslot : (s.wip c r.w (marked s.published.rows rows)).rotate.slot s.next =
          { s.slot s.next with rows := marked s.published.rows rows, cap := r.w.cap, ref := c } := by
        rw [rotate_slot _ _ (by rw [hnx]; exact fun hx => fin_succ_ne _ hx.symm), wip_cur]
      have hg := get_found hi' s.next (fun hx => fin_succ_ne _ hx.symm) (by rw [hslot]; exact hc)
      have hv : ((s.current.version : Int)).toNat =
          ((s.wip c r.w (marked s.published.rows rows)).rotate.slot s.next).version := by
        rw [hslot]; simp [Nl.current]
      rw [if_pos hpos, hv, hg]
      dsimp only
      rw [if_neg (by omega), if_pos hpos, if_neg (by omega)]
      congr 4
      show some s.next = some (s.next + 1 + 3)
      rw [fin_cycle]

/-- C283: a table delivered is the one just published, newer than all before, with one reference for
each consumer, and no error is reported with it; when neither a table nor an error comes of it, nothing
that matters has changed. -/
theorem C283_wait_partial (ok : SendOk) (c : Nat) (hc : c ≠ 0) (ws : List Wait) (s s' : Nl)
    (t : Option (Fin 4)) (err : Option Nat) (hs : Live ok s) (hw : Waits ws)
    (h : tableWait ok c ws s = .ok (some (s', t, err))) :
    (∀ k, t = some k → err = none ∧ s'.slot k = s'.published ∧ s'.published.ref = c ∧
      s'.published.version = s.current.version ∧ Sorted s'.published.rows ∧
      TablesDiffer s.published.rows s'.published.rows) ∧
    (t = none → err = none → ¬ TablesDiffer s'.published.rows s'.current.rows) := by
  have hi := hs.inv
  induction ws with
  | nil => simp [tableWait] at h
  | cons w ws ih =>
      have hw' : Waits ws := fun ps hps => hw ps (List.mem_cons_of_mem _ hps)
      cases w with
      | eintr => exact ih hw' h
      | error e =>
          simp only [tableWait, Except.ok.injEq, Option.some.injEq, Prod.mk.injEq] at h
          obtain ⟨rfl, rfl, rfl⟩ := h
          exact ⟨nofun, nofun⟩
      | timeout =>
          simp only [tableWait, Except.ok.injEq, Option.some.injEq, Prod.mk.injEq] at h
          obtain ⟨rfl, rfl, rfl⟩ := h
          exact ⟨nofun, nofun⟩
      | ready ps =>
          obtain ⟨r, s1, rc, h1, h2, h3, h4⟩ := ready_spec ok c hc ps ws s hi (hw ps (by simp))
          rw [h4] at h
          simp only [Except.ok.injEq, Option.some.injEq, Prod.mk.injEq] at h
          obtain ⟨rfl, ht, herr⟩ := h
          cases h1 with
          | busy hb => simp at ht herr; subst ht herr; exact ⟨nofun, nofun⟩
          | wait rows hb hco => cases hco
          | same rows hb hco hp hsd hd =>
              simp at ht herr
              subst ht herr
              refine ⟨nofun, fun _ _ => ?_⟩
              show ¬ TablesDiffer ((s.wip c r.w (marked s.published.rows rows)).slot (s.next + 3)).rows
                ((s.wip c r.w (marked s.published.rows rows)).slot s.next).rows
              rw [wip_slot _ _ _ _ _ (fin_pred_ne _), wip_cur]
              exact fun hx => hd ((differ_marked _ _).1 hx)
          | publish rows hb hco hp hsd hd =>
              have hpos : (0 : Int) < s.current.version := by
                have := hi.ring.cur; have := hi.ring.count; omega
              rw [if_pos hpos] at ht
              rw [if_neg (by omega)] at herr
              subst ht herr
              refine ⟨?_, nofun⟩
              intro k hk
              injection hk with hk
              subst hk
              have hnx : (s.wip c r.w (marked s.published.rows rows)).next = s.next := rfl
              have hslot : (s.wip c r.w (marked s.published.rows rows)).rotate.published =
                  { s.slot s.next with rows := marked s.published.rows rows, cap := r.w.cap, ref := c } := by
                show (s.wip c r.w (marked s.published.rows rows)).rotate.slot (s.next + 1 + 3) = _
                rw [fin_cycle, rotate_slot _ _ (by rw [hnx]; exact fun hx => fin_succ_ne _ hx.symm), wip_cur]
              refine ⟨rfl, rfl, ?_, ?_, ?_, ?_⟩
              · rw [hslot]
              · rw [hslot]; rfl
              · rw [hslot]; exact hsd.of_idx (marked_idx _ _)
              · rw [hslot]; exact (differ_marked _ _).2 hd

example : ((tableWait (fun _ => true) 1 [.eintr, .ready twoLinks] Nl.init).map (fun o =>
    o.map (fun x => (x.2.1, x.2.2, x.1.published.version)))).toOption =
    some (some (some 0, none, 1)) := by decide +kernel

/-! ### Runs of the engine -/

/-- The states of the engine and its subscribers: the first table has been waited for, then events
were handled. -/
inductive Booted (ok : SendOk) : Sys → Prop
  | start (keys : List String) (ws : List Wait) (nl : Nl) (k : Fin 4) (subs ms : Nat) : keys.length ≤ 16 →
      Waits ws → tableWait ok 1 ws (setDriverStats keys Nl.init).1 = .ok (some (nl, some k, none)) →
      Booted ok (Sys.start nl k subs ms)
  | step (s s' : Sys) (i : In) : Booted ok s → i.wf → step ok i s = .ok s' → Booted ok s'

theorem boot_ok (ok : SendOk) (keys : List String) (ws : List Wait) (nl : Nl) (k : Fin 4) (subs ms : Nat)
    (hk : keys.length ≤ 16) (hw : Waits ws)
    (h : tableWait ok 1 ws (setDriverStats keys Nl.init).1 = .ok (some (nl, some k, none))) :
    (Sys.start nl k subs ms).Ok := by
  have hset : (setDriverStats keys Nl.init).1 = { Nl.init with keys := keys } := by
    unfold setDriverStats; rw [if_neg (by omega)]
  have hi : (setDriverStats keys Nl.init).1.Inv := (Live.init (ok := ok) keys hk).inv
  rw [hset] at h hi
  induction ws with
  | nil => simp [tableWait] at h
  | cons w ws ih =>
      have hw' : Waits ws := fun ps hps => hw ps (List.mem_cons_of_mem _ hps)
      cases w with
      | eintr => exact ih hw' h
      | error e => simp [tableWait] at h
      | timeout => simp [tableWait] at h
      | ready ps =>
          obtain ⟨r, s1, rc, h1, h2, h3, h4⟩ := ready_spec ok 1 (by decide) ps ws _ hi (hw ps (by simp))
          rw [h4] at h
          simp only [Except.ok.injEq, Option.some.injEq, Prod.mk.injEq] at h
          obtain ⟨rfl, ht, herr⟩ := h
          have hi1 := h1.inv hi h2
          cases h1 with
          | busy hb => simp at ht
          | wait rows hb hco => cases hco
          | same rows hb hco hp hsd hd => simp at ht
          | publish rows hb hco hp hsd hd =>
              generalize hs0 : ({ Nl.init with keys := keys } : Nl) = s0 at *
              have hcount : s0.count = 1 := by rw [← hs0]; rfl
              have hneed : s0.needService = false := by rw [← hs0]; rfl
              have hexit : s0.exit = none := by rw [← hs0]; rfl
              have hpos : (0 : Int) < s0.current.version := by
                have := hi.ring.cur; omega
              rw [if_pos hpos] at ht
              injection ht with ht
              subst ht
              have hnx : (s0.wip 1 r.w (marked s0.published.rows rows)).next = s0.next := rfl
              have hslot : (s0.wip 1 r.w (marked s0.published.rows rows)).rotate.published =
                  { s0.slot s0.next with rows := marked s0.published.rows rows, cap := r.w.cap, ref := 1 } := by
                show (s0.wip 1 r.w (marked s0.published.rows rows)).rotate.slot (s0.next + 1 + 3) = _
                rw [fin_cycle, rotate_slot _ _ (by rw [hnx]; exact fun hx => fin_succ_ne _ hx.symm), wip_cur]
              have hcur : (s0.wip 1 r.w (marked s0.published.rows rows)).rotate.current.rows =
                  marked s0.published.rows rows := by
                have := rotate_new (s0.wip 1 r.w (marked s0.published.rows rows))
                rw [hnx] at this
                show ((s0.wip 1 r.w (marked s0.published.rows rows)).rotate.slot (s0.next + 1)).rows = _
                rw [this, wip_cur]
              refine start_ok _ subs ms hi1 hexit ?_ ?_ hneed ?_ ?_
              · show s0.count + 1 = 2
                omega
              · rw [hslot]
              · rw [hslot]; exact marked_no_down _ _
              · rw [hcur, hslot]

theorem Booted.ok {ok : SendOk} {s : Sys} (h : Booted ok s) : s.Ok := by
  induction h with
  | start keys ws nl k subs ms hk hw ht => exact boot_ok ok keys ws nl k subs ms hk hw ht
  | step s s' i _ hi hst ih =>
      obtain ⟨s1, h1, h2, _⟩ := step_spec ok i s ih hi
      rw [h1] at hst
      cases hst
      exact h2

/-- C284: no event makes the engine fail or end: no assertion fails, no table asked for is missing and
none is given back too often. -/
theorem C284_engine_safe (ok : SendOk) (s : Sys) (i : In) (hs : Booted ok s) (hi : i.wf) :
    ∃ s', step ok i s = .ok s' ∧ s'.eng.nl.exit = none := by
  obtain ⟨s1, h1, h2, _⟩ := step_spec ok i s hs.ok hi
  exact ⟨s1, h1, h2.exit⟩

/-- Two interfaces, then a third, then a fourth. -/
def boot (subs ms : Nat) (is : List In) : Except Fail Sys := do
  match ← tableWait (fun _ => true) 1 [.ready twoLinks] Nl.init with
  | some (nl, some k, none) => run (fun _ => true) is (Sys.start nl k subs ms)
  | _ => .error .more

def add (i : Int) : In := .fds true [{ data := [{ msgs := [.link { idx := i }] }] }] [[]]

example : ((boot 2 0 [add 7, add 8, add 9, add 10]).map (fun s =>
    (s.held, s.eng.polling, s.eng.nl.needService, s.eng.nl.exit))).toOption =
    some ([(0, 1), (1, 1), (0, 2), (1, 2), (0, 3), (1, 3)], false, true, none) := by decide +kernel

/-- C285: the references to a table are those of its holders: the subscribers it was sent to that have
not given it back, and the engine while it is the newest.  Nobody holds the table being written. -/
theorem C285_references_are_holders (ok : SendOk) (s : Sys) (hs : Booted ok s) :
    (∀ k, k ≠ s.eng.nl.next → (s.eng.nl.slot k).ref =
      (s.held.filter (fun h => h.2 = k)).length + if s.eng.table = some k then 1 else 0) ∧
    (∀ h ∈ s.held, h.2 ≠ s.eng.nl.next) ∧
    ∃ k, s.eng.table = some k ∧ (s.eng.nl.slot k).version + 1 = s.eng.nl.current.version := by
  have ho := hs.ok
  refine ⟨?_, ?_, ?_⟩
  · intro k hk
    rw [ho.refs k hk, ho.table]
    unfold holders
    rw [List.countP_eq_length_filter]
    by_cases h3 : k = s.eng.nl.next + 3
    · subst h3; simp
    · rw [if_neg h3, if_neg (by simpa using fun he => h3 he.symm)]
  · intro h hm he
    have : holders s.held s.eng.nl.next ≠ 0 := holders_pos.2 ⟨h, hm, he⟩
    exact this ho.heldOk
  · exact ⟨_, ho.table, ho.pub_version⟩

example : ((boot 2 0 [add 7, .release (0, 1) [] [[]]]).map (fun s =>
    (s.held, (s.eng.nl.slot 1).ref, (s.eng.nl.slot 0).ref))).toOption =
    some ([(1, 1)], 2, 0) := by decide +kernel

/-- C286: an event either publishes nothing and sends nothing, or publishes exactly the next version,
sent once to each subscriber.  Tables that subscribers hold keep their contents throughout. -/
theorem C286_delivered_once (ok : SendOk) (s s' : Sys) (i : In) (hs : Booted ok s) (hi : i.wf)
    (h : step ok i s = .ok s') :
    ∃ kept, (kept = s.held ∨ ∃ x ps pss, i = .release x ps pss ∧ kept = s.held.erase x) ∧
      ((s'.held = kept ∧ s'.eng.nl.published.version = s.eng.nl.published.version) ∨
       (s'.held = kept ++ (List.range s.eng.subs).map (·, s'.eng.nl.next + 3) ∧
        s'.eng.nl.published.version = s.eng.nl.published.version + 1)) ∧
      ∀ x ∈ kept, (s'.eng.nl.slot x.2).rows = (s.eng.nl.slot x.2).rows ∧
        (s'.eng.nl.slot x.2).version = (s.eng.nl.slot x.2).version := by
  obtain ⟨s1, h1, h2, h3⟩ := step_spec ok i s hs.ok hi
  rw [h1] at h
  cases h
  have hsub : ∀ x ∈ i.keeps s.held, x ∈ s.held := by
    intro x hx
    cases i with
    | fds => exact hx
    | timer => exact hx
    | release y ps pss => exact List.mem_of_mem_erase hx
  have hnn : ∀ x ∈ i.keeps s.held, x.2 ≠ s.eng.nl.next := fun x hx he =>
    holders_pos.2 ⟨x, hsub x hx, he⟩ hs.ok.heldOk
  refine ⟨i.keeps s.held, ?_, ?_, ?_⟩
  · cases i with
    | fds => exact .inl rfl
    | timer => exact .inl rfl
    | release y ps pss => exact .inr ⟨y, ps, pss, rfl, rfl⟩
  · cases h3 with
    | quiet a b c d e f z => exact .inl ⟨b, e⟩
    | fresh a b c d e f g z =>
        refine .inr ⟨?_, e⟩
        rw [b, a, fin_cycle]
  · intro x hx
    cases h3 with
    | quiet a b c d e f z => exact z _ (hnn x hx)
    | fresh a b c d e f g z =>
        refine z _ (hnn x hx) ?_
        intro he
        have : holders s'.held s'.eng.nl.next ≠ 0 := by
          rw [holders_pos]
          exact ⟨x, by rw [b]; exact List.mem_append_left _ hx, by rw [a]; exact he⟩
        exact this h2.heldOk

example : ((boot 3 0 [add 7]).map (fun s => (s.held, s.eng.nl.published.version))).toOption =
    some ([(0, 1), (1, 1), (2, 1)], 2) := by decide +kernel

/-- C287: no change is forgotten: if what has been received differs in something that matters from the
newest table then the coalescing timer is running or a subscriber still holds the oldest table. -/
theorem C287_no_lost_update (ok : SendOk) (s : Sys) (hs : Booted ok s)
    (hd : TablesDiffer s.eng.nl.published.rows s.eng.nl.current.rows) :
    s.eng.xoffCoalesce = true ∨ ∃ h ∈ s.held, h.2 = s.eng.nl.next + 1 := by
  have ho := hs.ok
  rcases ho.kept hd with hc | hn
  · exact .inl hc
  · refine .inr (holders_pos.1 ?_)
    have := ho.need hn
    rw [ho.refs _ (fin_succ_ne _), if_neg (fun he => fin_pred_ne_succ _ he.symm)] at this
    omega

example : ((boot 1 100 [add 7]).map (fun s => (s.eng.nl.published.rows.map (·.idx),
    s.eng.nl.current.rows.map (·.idx), s.eng.xoffCoalesce))).toOption =
    some ([3, 5], [3, 5, 7], true) := by decide +kernel

/-- C288: once the coalescing timer has fired everything received is published, unless a subscriber
still holds the oldest table. -/
theorem C288_timer_publishes (ok : SendOk) (s s' : Sys) (t : Bool) (ps : List Pass) (pss : List (List Pass))
    (hs : Booted ok s) (hi : (In.timer t ps pss).wf) (h : step ok (.timer t ps pss) s = .ok s')
    (hd : TablesDiffer s'.eng.nl.published.rows s'.eng.nl.current.rows) :
    ∃ x ∈ s'.held, x.2 = s'.eng.nl.next + 1 := by
  have hb' : Booted ok s' := .step s s' _ hs hi h
  have hoff : s'.eng.xoffCoalesce = false := by
    unfold step at h
    dsimp only at h
    cases hp : s.eng.xoffCoalesce with
    | false =>
        rw [hp] at h
        simp only [Bool.false_eq_true, if_false, Except.ok.injEq] at h
        rw [← h]; exact hp
    | true =>
        rw [hp] at h
        obtain ⟨e', h1, h2, h3, h4⟩ := fds_spec ok 0 t ps pss s hs.ok hi.1 hi.2 (fun _ => hp)
        simp only [if_true, h1, Except.map, Except.ok.injEq] at h
        rw [← h]; exact h4 rfl
  rcases C287_no_lost_update ok s' hb' hd with hc | hx
  · rw [hoff] at hc; cases hc
  · exact hx

example : ((boot 1 100 [add 7, .timer true [] [[]]]).map (fun s => (s.eng.nl.published.rows.map (·.idx),
    s.eng.xoffCoalesce, s.held))).toOption = some ([3, 5, 7], false, [(0, 1)]) := by decide +kernel

/-- C289: the engine stops listening to the kernel only while a subscriber holds the oldest table. -/
theorem C289_polling (ok : SendOk) (s : Sys) (hs : Booted ok s) (hp : s.eng.polling = false) :
    ∃ h ∈ s.held, h.2 = s.eng.nl.next + 1 := by
  have ho := hs.ok
  have hx : s.eng.xoffSpace = true := by
    have := ho.poll; rw [hp] at this
    cases h : s.eng.xoffSpace with
    | true => rfl
    | false => rw [h] at this; cases this
  have := ho.need (ho.space hx)
  rw [ho.refs _ (fin_succ_ne _), if_neg (fun he => fin_pred_ne_succ _ he.symm)] at this
  exact holders_pos.1 (by omega)

example : ((boot 1 0 [add 7, add 8, add 9, add 10, add 11]).map (fun s =>
    (s.eng.polling, s.eng.nl.next, s.held))).toOption = some (false, 0, [(0, 1), (0, 2), (0, 3)]) := by
  decide +kernel

/-- C290: whenever a table is published the interface module is told of exactly the interfaces that
are new or differ in something that matters, and of exactly those that have gone, each once; otherwise
it is told nothing. -/
theorem C290_hotplug_exact (ok : SendOk) (s s' : Sys) (i : In) (hs : Booted ok s) (hi : i.wf)
    (h : step ok i s = .ok s') :
    (s'.eng.nl.published.version = s.eng.nl.published.version → s'.eng.hot = s.eng.hot) ∧
    (s'.eng.nl.published.version ≠ s.eng.nl.published.version → ∃ ins rem : List Link,
      s'.eng.hot = s.eng.hot ++ (ins.map .insert ++ rem.map .remove) ∧
      (ins.map (·.idx)).Nodup ∧ (rem.map (·.idx)).Nodup ∧
      (∀ l, l ∈ ins ↔ l ∈ s'.eng.nl.published.rows ∧
        ((∀ a ∈ s.eng.nl.published.rows, a.idx ≠ l.idx) ∨
          ∃ a ∈ s.eng.nl.published.rows, a.idx = l.idx ∧ Matters a l)) ∧
      (∀ l, l ∈ rem ↔ l ∈ s.eng.nl.published.rows ∧ ∀ b ∈ s'.eng.nl.published.rows, b.idx ≠ l.idx)) := by
  obtain ⟨s1, h1, h2, h3⟩ := step_spec ok i s hs.ok hi
  rw [h1] at h
  cases h
  cases h3 with
  | quiet a b c d e f z => exact ⟨fun _ => c, fun hx => absurd e hx⟩
  | fresh a b c d e f g z =>
      refine ⟨fun hx => absurd hx (by omega), fun _ => ?_⟩
      obtain ⟨rows, hrows⟩ := d
      refine ⟨_, _, c, ?_, ?_, ?_, ?_⟩
      · exact (List.Nodup.sublist (List.filter_sublist.map _) h2.inv.prevSorted.nodup)
      · exact (List.Nodup.sublist (List.filter_sublist.map _) hs.ok.inv.prevSorted.nodup)
      · intro l
        rw [List.mem_filter]
        refine and_congr_right (fun hl => ?_)
        rw [hrows] at hl
        obtain ⟨b0, hb0, rfl⟩ := List.mem_map.1 hl
        have hmm := Matters_marked s.eng.nl.published.rows rows
        rcases annotate_ev s.eng.nl.published.rows b0 with ⟨n1, n2⟩ | ⟨a0, ha0, hi0, m1, m2⟩
        · have hup : (annotate s.eng.nl.published.rows b0).1.ev = .up := by rw [n2]
          simp only [hup, annotate_idx, decide_eq_true_eq]
          exact ⟨fun _ => .inl n1, fun _ => .inl trivial⟩
        · have huniq : ∀ a' ∈ s.eng.nl.published.rows, a'.idx = b0.idx → a' = a0 := fun a' ha' he' =>
            List.inj_on_of_nodup_map hs.ok.inv.prevSorted.nodup ha' ha0 (by rw [he', hi0])
          by_cases hm : Matters a0 b0
          · have hch : (annotate s.eng.nl.published.rows b0).1.ev = .change := by rw [m1 hm]
            simp only [hch, annotate_idx, decide_eq_true_eq]
            exact ⟨fun _ => .inr ⟨a0, ha0, hi0, (hmm a0 b0).2 hm⟩, fun _ => .inr trivial⟩
          · have hno : (annotate s.eng.nl.published.rows b0).1.ev = .none := by rw [m2 hm]
            simp only [hno, annotate_idx, decide_eq_true_eq]
            constructor
            · rintro (h | h) <;> cases h
            · rintro (h | ⟨a', ha', he', hm'⟩)
              · exact absurd hi0 (h a0 ha0)
              · rw [huniq a' ha' he'] at hm'
                exact absurd ((hmm a0 b0).1 hm') hm
      · intro l
        rw [List.mem_filter]
        refine and_congr_right (fun hl => ?_)
        simp [List.any_eq_true]

example : ((boot 1 0 [.fds true [{ data := [{ msgs := [.link { idx := 5, del := true },
      .link { idx := 7, name := some "eth0" }] }] }] [[]]]).map (fun s =>
    s.eng.hot.map (fun h => match h with | .insert l => (true, l.idx) | .remove l => (false, l.idx)))).toOption =
    some [(true, 7), (false, 5)] := by decide +kernel

end Verif.Netlink
