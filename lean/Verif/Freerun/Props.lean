import Verif.Freerun.Start
import Mathlib.Data.List.Induction
import Mathlib.Data.List.Forall2

set_option linter.unusedSimpArgs false
set_option linter.unusedVariables false

/-! # Properties of the freerun module (C291-C298) -/

namespace Verif.Freerun

/-! ## C291: the search for a clock ends -/

/-- C291: whatever the link table, looking for the clock of a link comes to an end. -/
def C291_statement : Prop := ∀ (e : Env) (l : Link), l ∈ e.rows → ∃ n f, find e n l = some f

/-- A VLAN whose lower link is in another network namespace. -/
def orphan : Link := { index := 7, name := 1, vlan := true, lower := 3 }

/-- A table with nothing but that. -/
def orphanEnv : Env :=
  { rows := [orphan], intf := fun _ => none, clock := fun _ => none, grade := fun _ => ⟨⊤, ⊤, 5⟩, sys := 0,
    setRc := fun _ => 0 }

/-- The search does not end when the link below a VLAN is not in the table. -/
theorem C291_violated : ¬ C291_statement := by
  intro h
  obtain ⟨n, f, hf⟩ := h orphanEnv orphan (by simp [orphanEnv])
  have hr : ∀ n, resolve orphanEnv n orphan = none := by
    intro n
    induction n with
    | zero => rfl
    | succ n ih =>
      have hb : byIndex orphanEnv.rows orphan.lower = none := by decide
      unfold resolve
      rw [if_pos (show orphan.vlan = true from rfl), hb]
      exact ih
  cases n with
  | zero => cases hf
  | succ n =>
    rw [find_eq, hr] at hf
    cases hf

/-- C291, for a hierarchy of links: where the link below each VLAN is in the table and no
link is below itself, the search ends. Missing: other tables, on which it need not. -/
theorem C291_search_ends_partial (e : Env) (hh : Hierarchy e.rows) (l : Link) (hl : l ∈ e.rows) :
    ∃ n f, find e n l = some f := by
  obtain ⟨cs, hcs⟩ := below_exists hh hl
  exact below_find hcs

/-- The search ends exactly if the tree below the link is finite, and then the clocks
found are those of the tree. -/
theorem C291_ends_iff (e : Env) (l : Link) : (∃ n f, find e n l = some f) ↔ ∃ cs, Below e l cs := by
  constructor
  · rintro ⟨n, f, h⟩
    obtain ⟨cs, hcs, -⟩ := find_sound h
    exact ⟨cs, hcs⟩
  · rintro ⟨cs, hcs⟩
    exact below_find hcs

/-- A VLAN on a bond of two interfaces and one interface more; the second interface of
the bond has the better clock. -/
def bondEnv : Env :=
  { rows := [{ index := 1, name := 1, master := 3 }, { index := 2, name := 2, master := 3 },
             { index := 3, name := 3 }, { index := 4, name := 4, vlan := true, lower := 3 },
             { index := 5, name := 5 }],
    intf := fun i => if i = 1 then some 1 else if i = 2 then some 2 else none,
    clock := fun i => some (i + 10),
    grade := fun c => if c = 11 then ⟨⊤, ⊤, 4⟩ else ⟨((100 : ℚ) : WithTop ℚ), ⊤, 3⟩,
    sys := 0, setRc := fun _ => 0 }

/-- Its rank. -/
def bondRank (l : Link) : Nat := if l.index = 4 then 2 else if l.index = 3 then 1 else 0

example : Hierarchy bondEnv.rows := by
  refine ⟨bondRank, ?_, by decide⟩
  intro l hl hv
  simp only [bondEnv, List.mem_cons, List.not_mem_nil, or_false] at hl
  rcases hl with rfl | rfl | rfl | rfl | rfl
  · cases hv
  · cases hv
  · cases hv
  · exact ⟨{ index := 3, name := 3 }, ⟨[{ index := 1, name := 1, master := 3 }, { index := 2, name := 2, master := 3 }],
      [{ index := 4, name := 4, vlan := true, lower := 3 }, { index := 5, name := 5 }], rfl, rfl, by decide⟩, by decide⟩
  · cases hv

/-! ## C292: the best clock below an interface is found -/

/-- C292: when the search ends it has found a clock exactly if there is one below the
link, and it is the first of the best ones. -/
theorem C292_best_clock (e : Env) (n : Nat) (l : Link) (f : Found) (h : find e n l = some f) :
    ∃ cs, Below e l cs ∧ (f.clock = none ↔ cs = []) ∧
      ∀ c, f.clock = some c → ∃ p, f.link = some p ∧ HasClock e p c ∧ FirstBest e.grade cs p c := by
  obtain ⟨cs, hb, h1, h2⟩ := find_clock h
  refine ⟨cs, hb, h1, fun c hc => ?_⟩
  obtain ⟨p, hp, -, hf⟩ := h2 c hc
  refine ⟨p, hp, ?_, hf⟩
  have hall : ∀ x ∈ cs, HasClock e x.1 x.2 := by
    have := @Below.rec e (fun _ cs _ => ∀ x ∈ cs, HasClock e x.1 x.2) (fun _ _ cs _ => ∀ x ∈ cs, HasClock e x.1 x.2)
      (fun _ hc => by intro x hx; simp only [List.mem_singleton] at hx; subst hx; exact hc)
      (fun _ _ _ ih => ih) (by simp) (fun _ _ ih => ih)
      (fun _ _ _ ih1 ih2 => by
        intro x hx
        rcases List.mem_append.1 hx with hx | hx
        · exact ih1 x hx
        · exact ih2 x hx)
    exact this hb
  obtain ⟨pre, post, rfl, -⟩ := hf
  exact hall (p, c) (by simp)

/-- The result does not depend on how long one waits for it. -/
theorem C292_one_result (e : Env) (n m : Nat) (l : Link) (f g : Found) (hf : find e n l = some f)
    (hg : find e m l = some g) : f = g := find_det hf hg

example : (find bondEnv 3 { index := 4, name := 4, vlan := true, lower := 3 }).map Found.clock = some (some 12) ∧
    (find bondEnv 3 { index := 5, name := 5 }).map Found.clock = some none := by decide +kernel

/-! ## C293: each instance has a clock of its own -/

/-- C293: when the module has started every instance has the clock of its interface, no
two have the same one, and each of them, and nothing else, has been set once from the
system clock. -/
theorem C293_own_clocks (e : Env) (n : Nat) (is js : List Inst) (set : List Nat)
    (hi : ∀ i ∈ is, i.clock = none) (h : startup e n [] is = some (0, js, set)) :
    js.map Inst.clock = set.map some ∧ set.Nodup ∧ js.length = is.length ∧
    ∀ (k : Nat) (i : Inst) (c : Nat), is[k]? = some i → set[k]? = some c → ClockOf e i.iface c ∧ e.setRc c = 0 ∧
      js[k]? = some { i with flags := 2#32, clock := some c } := by
  obtain ⟨ds, did, rest, hte, hf, hnd, -, hr⟩ := startup_cases is [] [] 0 js set (by simp) hi h
  rcases hr with ⟨rfl, -, h3, h4⟩ | ⟨h0, -⟩
  · simp only [List.append_nil] at hte
    subst hte
    simp only [List.nil_append] at h3
    subst h3
    subst h4
    have hlen := hf.length_eq
    refine ⟨?_, hnd, by simp [hlen], ?_⟩
    · clear h hi hnd
      induction hf with
      | nil => rfl
      | cons _ _ ih => simp only [List.length_cons, Nat.add_right_cancel_iff] at hlen; simp [given, ih hlen]
    · intro k i c hk hc
      have hp : ClockOf e i.iface c ∧ e.setRc c = 0 := by
        rw [List.getElem?_eq_some_iff] at hk hc
        obtain ⟨hk1, rfl⟩ := hk
        obtain ⟨hc1, rfl⟩ := hc
        exact hf.get hk1 hc1
      refine ⟨hp.1, hp.2, ?_⟩
      rw [List.getElem?_zipWith, hk, hc]
      rfl
  · exact absurd rfl h0

example : startup bondEnv 5 [] [{ iface := .named 4 }, { iface := .system }] =
    some (0, [{ iface := .named 4, flags := 2, clock := some 12 },
              { iface := .system, flags := 2, clock := some 0 }], [12, 0]) := by decide +kernel

/-! ## C294: why the module does not start -/

/-- C294: when the module does not start, that is because of the first instance without
an interface, without a clock, with a clock another instance has, or whose clock could
not be set; only the clocks of instances before it have been set, and its own if that
is what failed. -/
theorem C294_start_fails (e : Env) (n : Nat) (is js : List Inst) (rc : Int) (set : List Nat)
    (hi : ∀ i ∈ is, i.clock = none) (h : startup e n [] is = some (rc, js, set)) (hrc : rc ≠ 0) :
    ∃ pre i post cs, is = pre ++ i :: post ∧
      List.Forall₂ (fun x c => ClockOf e x.iface c ∧ e.setRc c = 0) pre cs ∧
      ((rc = 22 ∧ i.iface = .empty ∧ set = cs) ∨
       (rc = 19 ∧ NoClock e i.iface ∧ set = cs) ∨
       (rc = 16 ∧ (∃ c, ClockOf e i.iface c ∧ c ∈ cs) ∧ set = cs) ∨
       (∃ c, ClockOf e i.iface c ∧ c ∉ cs ∧ e.setRc c = rc ∧ set = cs ++ [c])) := by
  obtain ⟨ds, did, rest, hte, hf, -, -, hr⟩ := startup_cases is [] [] rc js set (by simp) hi h
  rcases hr with ⟨-, h0, -⟩ | ⟨-, i, j, post, s, rfl, hfl, -, rfl⟩
  · exact absurd h0 hrc
  · refine ⟨did, i, post, ds, hte, hf, ?_⟩
    simp only [List.nil_append] at hfl
    cases hfl with
    | unnamed h1 => exact .inl ⟨rfl, h1, by simp⟩
    | missing h1 => exact .inr (.inl ⟨rfl, h1, by simp⟩)
    | busy h1 h2 => exact .inr (.inr (.inl ⟨rfl, ⟨_, h1, h2⟩, by simp⟩))
    | unset h1 h2 h3 => exact .inr (.inr (.inr ⟨_, h1, h2, rfl, rfl⟩))

example : startup bondEnv 5 [] [{ iface := .named 4 }, { iface := .named 2 }] =
    some (16, [{ iface := .named 4, flags := 2, clock := some 12 }, { iface := .named 2 }], [12]) ∧
    startup bondEnv 5 [] [{ iface := .named 5 }] = some (19, [{ iface := .named 5 }], []) ∧
    startup bondEnv 5 [] [{ iface := .empty }] = some (22, [{ iface := .empty }], []) := by decide +kernel

/-! ## C295: control flags -/

/-- C295: after any messages a flag of an instance is what the last message that covers
it says, and what it was if there is none; nothing else of an instance changes. -/
theorem C295_flags (is js : List Inst) (ms : List Msg) (ds : List Did) (h : runMsgs is ms = some (js, ds))
    (k : Nat) (i : Inst) (hi : is[k]? = some i) :
    ∃ j, js[k]? = some j ∧ j = { i with flags := j.flags } ∧ ∀ b, b < 32 →
      (∀ v, FlagSays k b ms v → j.flags.getLsbD b = v) ∧
      (FlagSilent k b ms → j.flags.getLsbD b = i.flags.getLsbD b) := by
  induction ms using List.reverseRecOn generalizing js ds with
  | nil =>
    simp only [runMsgs, Option.some.injEq, Prod.mk.injEq] at h
    obtain ⟨rfl, -⟩ := h
    refine ⟨i, hi, rfl, fun b hb => ⟨fun v hv => ?_, fun _ => rfl⟩⟩
    generalize he : ([] : List Msg) = l at hv
    cases hv <;> simp at he
  | append_singleton ms x ih =>
    rw [runMsgs_append] at h
    cases hr : runMsgs is ms with
    | none => simp [hr] at h
    | some r =>
      obtain ⟨js0, ds0⟩ := r
      simp only [hr, Option.bind_some, runMsgs] at h
      cases hx : onMessage js0 x with
      | none => simp [hx] at h
      | some q =>
        obtain ⟨js1, d⟩ := q
        simp only [hx, Option.map_some, Option.some.injEq, Prod.mk.injEq] at h
        obtain ⟨rfl, -⟩ := h
        obtain ⟨j, hj, hje, hb⟩ := ih js0 ds0 hr
        obtain ⟨f, hf⟩ := (onMessage_clocks hx).2 k j hj
        refine ⟨{ j with flags := f }, hf, ?_, ?_⟩
        · rw [hje]
        · intro b hb32
          obtain ⟨h1, h2⟩ := onMessage_flag hx hj hf hb32
          obtain ⟨hb1, hb2⟩ := hb b hb32
          refine ⟨fun v hv => ?_, fun hs => ?_⟩
          · generalize he : ms ++ [x] = l at hv
            cases hv with
            | last hm =>
              obtain ⟨h3, h4⟩ := List.append_inj' he rfl
              simp only [List.cons.injEq, and_true] at h4
              rw [h1 _ _ h4, if_pos hm]
            | more hv hno =>
              obtain ⟨h3, h4⟩ := List.append_inj' he rfl
              simp only [List.cons.injEq, and_true] at h4
              subst h3
              subst h4
              rw [← hb1 v hv]
              by_cases hc : ∃ f q, x = .control (some k) f q
              · obtain ⟨f', q', rfl⟩ := hc
                rw [h1 f' q' rfl, hno f' q' rfl]
                simp
              · push Not at hc
                exact congrArg (fun t : Inst => t.flags.getLsbD b) (h2 hc)
          · rw [← hb2 (fun f' q' hm => hs f' q' (by simp [hm]))]
            by_cases hc : ∃ f q, x = .control (some k) f q
            · obtain ⟨f', q', rfl⟩ := hc
              rw [h1 f' q' rfl, hs f' q' (by simp)]
              simp
            · push Not at hc
              exact congrArg (fun t : Inst => t.flags.getLsbD b) (h2 hc)

/-- Two instances as they are after the start. -/
def twoInsts : List Inst :=
  [{ iface := .named 4, flags := 2, clock := some 12 }, { iface := .system, flags := 2, clock := some 0 }]

example : (runMsgs twoInsts [.control (some 0) 5 5, .control (some 1) 0 2, .control (some 0) 0 4]).map Prod.fst =
    some [{ iface := .named 4, flags := 3, clock := some 12 }, { iface := .system, flags := 0, clock := some 0 }] := by
  decide +kernel

/-! ## C296: messages are answered -/

/-- C296: with instances that have clocks, a message is handled unless it names no
instance of the module or asks for the topology of one that is not selected. -/
theorem C296_handled_iff (is : List Inst) (cs : List Nat) (hc : is.map Inst.clock = cs.map some) (m : Msg) :
    onMessage is m = none ↔
      (∃ h, About m = some h ∧ ∀ k, h = some k → is.length ≤ k) ∨
      (∃ k i, m = .topology (some k) ∧ is[k]? = some i ∧ i.flags.getLsbD 0 = false) := by
  have hclk : ∀ (k : Nat) (i : Inst), is[k]? = some i → ∃ c, i.clock = some c := by
    intro k i hk
    have : (is.map Inst.clock)[k]? = some i.clock := by simp [hk]
    rw [hc] at this
    simp only [List.getElem?_map, Option.map_eq_some_iff] at this
    obtain ⟨c, -, h⟩ := this
    exact ⟨c, h.symm⟩
  have hlook : ∀ h, lookup is h = none ↔ ∀ k, h = some k → is.length ≤ k := by
    intro h
    cases h with
    | none => simp [lookup]
    | some k => simp [lookup]
  have hsome : ∀ h k i, lookup is h = some (k, i) → h = some k ∧ is[k]? = some i := by
    intro h k i hl
    cases h with
    | none => simp [lookup] at hl
    | some q =>
      simp only [lookup, Option.map_eq_some_iff, Prod.mk.injEq] at hl
      obtain ⟨x, hx, rfl, rfl⟩ := hl
      exact ⟨rfl, hx⟩
  cases m with
  | getStatus h => simp [onMessage, About, hlook]
  | control h f q => simp [onMessage, About, hlook]
  | step h off =>
    simp only [onMessage, About, Option.some.injEq, exists_eq_left', ← hlook h, reduceCtorEq, false_and, exists_false,
      or_false]
    cases hl : lookup is h with
    | none => simp
    | some r =>
      obtain ⟨k, i⟩ := r
      obtain ⟨c, hcc⟩ := hclk k i (hsome h k i hl).2
      simp [hcc]
  | topology h =>
    simp only [onMessage, About, Option.some.injEq, exists_eq_left', ← hlook h]
    cases hl : lookup is h with
    | none => simp
    | some r =>
      obtain ⟨k, i⟩ := r
      obtain ⟨rfl, hk⟩ := hsome h k i hl
      obtain ⟨c, hcc⟩ := hclk k i hk
      have hbit : i.flags &&& 1 ≠ 0 ↔ i.flags.getLsbD 0 = true := by
        generalize i.flags = f
        constructor
        · intro hne
          by_contra hb
          apply hne
          apply BitVec.eq_of_getLsbD_eq
          intro b hb32
          rcases Nat.eq_zero_or_pos b with rfl | hp
          · rw [BitVec.getLsbD_and, Bool.eq_false_iff.2 hb]
            rfl
          · simp only [BitVec.getLsbD_and, BitVec.getLsbD_zero, BitVec.getLsbD_one]
            have : (decide (b = 0)) = false := by simp; omega
            simp [this]
        · intro hb he
          have : (f &&& 1).getLsbD 0 = (0 : BitVec 32).getLsbD 0 := by rw [he]
          rw [BitVec.getLsbD_and, hb] at this
          cases this
      simp only [hcc, reduceCtorEq, false_or]
      constructor
      · intro hn
        refine ⟨k, i, rfl, hk, ?_⟩
        split at hn
        · cases hn
        · rename_i hz
          by_contra hb
          exact hz (hbit.2 (by simpa using hb))
      · rintro ⟨k', i', he, hk', hb⟩
        simp only [Msg.topology.injEq, Option.some.injEq] at he
        subst he
        rw [hk] at hk'
        cases hk'
        rw [if_neg]
        rw [hbit, hb]
        simp
  | saveState => simp [onMessage, About, saveAll_eq hc]
  | run => simp [onMessage, About]
  | updateGm => simp [onMessage, About]
  | leap => simp [onMessage, About]
  | logStats => simp [onMessage, About]
  | endPeriod => simp [onMessage, About]
  | testMode => simp [onMessage, About]
  | other => simp [onMessage, About]

/-- A message whose sender waits is replied to. -/
theorem C296_replied (is js : List Inst) (m : Msg) (d : Did) (h : onMessage is m = some (js, d)) (hw : Awaited m) :
    d.disposal = .reply := by
  cases m with
  | getStatus h' =>
    simp only [onMessage, Option.map_eq_some_iff, Prod.mk.injEq] at h
    obtain ⟨_, _, _, rfl⟩ := h
    rfl
  | control h' f q =>
    simp only [onMessage, Option.map_eq_some_iff, Prod.mk.injEq] at h
    obtain ⟨_, _, _, rfl⟩ := h
    rfl
  | step h' off =>
    simp only [onMessage] at h
    split at h
    · cases h
    · split at h
      · cases h
      · cases h; rfl
  | topology h' =>
    simp only [onMessage] at h
    split at h
    · cases h
    · split at h
      · cases h
      · split at h
        · cases h; rfl
        · cases h
  | _ => cases hw

/-- Clocks are stepped as messages ask, in their order, and not otherwise. -/
theorem C296_steps (is js : List Inst) (cs : List Nat) (hc : is.map Inst.clock = cs.map some) (ms : List Msg)
    (ds : List Did) (h : runMsgs is ms = some (js, ds)) : ds.flatMap Did.stepped = stepsAsked cs ms := by
  induction ms generalizing is ds with
  | nil =>
    simp only [runMsgs, Option.some.injEq, Prod.mk.injEq] at h
    obtain ⟨-, rfl⟩ := h
    rfl
  | cons m ms ih =>
    simp only [runMsgs] at h
    cases hm : onMessage is m with
    | none => simp [hm] at h
    | some r =>
      obtain ⟨is1, d⟩ := r
      simp only [hm, Option.map_eq_some_iff, Prod.mk.injEq] at h
      obtain ⟨⟨js', ds'⟩, hr, rfl, rfl⟩ := h
      have hc1 : is1.map Inst.clock = cs.map some := by
        obtain ⟨hlen, hk⟩ := onMessage_clocks hm
        rw [← hc]
        apply List.ext_getElem?
        intro k
        simp only [List.getElem?_map]
        cases hi : is[k]? with
        | none =>
          rw [List.getElem?_eq_none_iff] at hi
          rw [List.getElem?_eq_none (by omega)]
        | some i =>
          obtain ⟨f, hf⟩ := hk k i hi
          rw [hf]
          rfl
      have hrest := ih is1 hc1 ds' hr
      simp only [List.flatMap_cons, hrest]
      have hone : ∀ h off, m = .step h off → ∃ k, h = some k ∧ d.stepped =
          (match cs[k]? with | some c => [(c, off)] | none => []) := by
        rintro h off rfl
        simp only [onMessage] at hm
        cases h with
        | none => simp [lookup] at hm
        | some k =>
          refine ⟨k, rfl, ?_⟩
          cases hk : is[k]? with
          | none => simp [lookup, hk] at hm
          | some i =>
            have hcl : (cs.map some)[k]? = some i.clock := by rw [← hc]; simp [hk]
            simp only [List.getElem?_map, Option.map_eq_some_iff] at hcl
            obtain ⟨c, hck, hci⟩ := hcl
            simp only [lookup, hk, Option.map_some, ← hci, Option.some.injEq, Prod.mk.injEq] at hm
            obtain ⟨-, rfl⟩ := hm
            simp [hck]
      cases m with
      | step h off =>
        obtain ⟨k, rfl, hs⟩ := hone h off rfl
        simp only [stepsAsked, hs]
        cases cs[k]? <;> rfl
      | getStatus h' =>
        simp only [onMessage, Option.map_eq_some_iff, Prod.mk.injEq] at hm
        obtain ⟨_, _, _, rfl⟩ := hm
        rfl
      | control h' f q =>
        simp only [onMessage, Option.map_eq_some_iff, Prod.mk.injEq] at hm
        obtain ⟨_, _, _, rfl⟩ := hm
        rfl
      | saveState =>
        simp only [onMessage, Option.map_eq_some_iff, Prod.mk.injEq] at hm
        obtain ⟨_, _, _, rfl⟩ := hm
        rfl
      | topology h' =>
        simp only [onMessage] at hm
        split at hm
        · cases hm
        · split at hm
          · cases hm
          · split at hm
            · cases hm; rfl
            · cases hm
      | _ =>
        simp only [onMessage, Option.some.injEq, Prod.mk.injEq] at hm
        obtain ⟨_, rfl⟩ := hm
        rfl

/-- Asked for its status an instance says that it is a slave of its clock without alarms
and offset, with the priority, class and traceability it is configured with; saving the
state covers every instance. -/
theorem C296_status (is : List Inst) (k : Nat) (i : Inst) (hi : is[k]? = some i) :
    ∃ d s, onMessage is (.getStatus (some k)) = some (is, d) ∧ d.status = some s ∧ s.state = 1 ∧ s.alarms = 0 ∧
      s.clock = i.clock ∧ s.offset = 0 ∧ s.prio = i.prio ∧ s.clkClass = i.clkClass ∧ s.remote = false ∧ s.steps = 0 ∧
      s.source = 160 ∧ s.timeTrace = i.timeTrace ∧ s.freqTrace = i.freqTrace := by
  refine ⟨{ disposal := .reply, status := some (statusOf i) }, statusOf i, ?_, rfl, rfl, rfl, rfl, rfl, rfl, rfl, rfl,
    rfl, rfl, rfl, rfl⟩
  simp [onMessage, lookup, hi]

/-- Saving the state covers every instance, in order. -/
theorem C296_saved (is : List Inst) (cs : List Nat) (hc : is.map Inst.clock = cs.map some) :
    ∃ d, onMessage is .saveState = some (is, d) ∧ d.saved = cs ∧ d.stepped = [] := by
  exact ⟨{ disposal := .free, saved := cs }, by simp [onMessage, saveAll_eq hc], rfl, rfl⟩

example : twoInsts.map Inst.clock = [12, 0].map some ∧
    (runMsgs twoInsts [.step (some 1) 5, .saveState, .step (some 0) (-3), .logStats]).map
      (fun r => r.2.flatMap Did.stepped) = some [(0, 5), (12, -3)] ∧
    onMessage twoInsts (.step none 5) = none ∧ onMessage twoInsts (.topology (some 0)) = none := by decide +kernel

/-! ## C297: creating the module -/

/-- C297: a module that could not be created leaves no memory allocated. -/
def C297_statement : Prop := ∀ (modOk tblOk : Bool) (instOk : List Bool) (thread : Int) (entries : Option Nat)
  (rc : Int) (mem : Mem) (buf : Option (List Info)),
  create modOk tblOk instOk thread entries = (rc, mem, buf) → rc ≠ 0 → mem = {}

/-- When an instance fails to start, all instances stay allocated. -/
theorem C297_violated : ¬ C297_statement := by
  intro h
  have := h true true [true] 19 none 19 { insts := 1 } none rfl (by decide)
  cases this

theorem createInstances_ok (os : List Bool) : ∀ j k, createInstances os j = .ok k ↔ (∀ o ∈ os, o = true) ∧ k = j + os.length := by
  induction os with
  | nil =>
    intro j k
    simp only [createInstances, Except.ok.injEq, List.not_mem_nil, false_implies, implies_true, List.length_nil, true_and]
    omega
  | cons o os ih =>
    intro j k
    cases o with
    | true =>
      simp only [createInstances, ih, List.mem_cons, forall_eq_or_imp, true_and, List.length_cons]
      constructor
      · rintro ⟨h1, h2⟩; exact ⟨h1, by omega⟩
      · rintro ⟨h1, h2⟩; exact ⟨h1, by omega⟩
    | false => simp [createInstances]

theorem createInstances_err (os : List Bool) : ∀ j rc, createInstances os j = .error rc → rc = 12 := by
  induction os with
  | nil => intro j rc h; cases h
  | cons o os ih =>
    intro j rc h
    cases o with
    | true => exact ih _ _ h
    | false => cases h; rfl

/-- C297, when the thread and its instances start: creating the module succeeds exactly
if there is memory and the thread starts, what it holds is then freed by shutting it
down, and a failure for lack of memory leaves none allocated. Missing: a failure to
start, which leaves the instances, and only those, allocated. -/
theorem C297_created_partial (modOk tblOk : Bool) (instOk : List Bool) (thread : Int) (entries : Option Nat)
    (rc : Int) (mem : Mem) (buf : Option (List Info)) (h : create modOk tblOk instOk thread entries = (rc, mem, buf)) :
    (rc = 0 ↔ modOk = true ∧ tblOk = true ∧ (∀ o ∈ instOk, o = true) ∧ thread = 0) ∧
    (rc = 0 → shutdown mem = {}) ∧
    (rc ≠ 0 → thread = 0 → mem = {} ∧ rc = 12) ∧
    (rc ≠ 0 → mem = {} ∨ (rc = thread ∧ mem = { insts := instOk.length })) := by
  unfold create at h
  cases modOk with
  | false => simp [ENOMEM] at h; obtain ⟨rfl, rfl, -⟩ := h; simp
  | true =>
    cases tblOk with
    | false => simp [ENOMEM] at h; obtain ⟨rfl, rfl, -⟩ := h; simp
    | true =>
      simp only [Bool.not_true, Bool.false_eq_true, if_false] at h
      cases hc : createInstances instOk 0 with
      | error r =>
        have hr := createInstances_err _ _ _ hc
        simp only [hc, Prod.mk.injEq] at h
        obtain ⟨rfl, rfl, -⟩ := h
        subst hr
        have hno : ¬ ∀ o ∈ instOk, o = true := by
          intro hall
          have := (createInstances_ok instOk 0 instOk.length).2 ⟨hall, by omega⟩
          rw [this] at hc
          cases hc
        refine ⟨⟨fun h => absurd h (by decide), fun h => absurd h.2.2.1 hno⟩, by simp, by simp, by simp⟩
      | ok k =>
        obtain ⟨hall, hk⟩ := (createInstances_ok _ _ _).1 hc
        have hk' : k = instOk.length := by omega
        simp only [hc] at h
        by_cases ht : thread = 0
        · rw [if_neg (by simpa using ht)] at h
          simp only [Prod.mk.injEq] at h
          obtain ⟨rfl, rfl, -⟩ := h
          refine ⟨⟨fun _ => ⟨rfl, rfl, hall, ht⟩, fun _ => rfl⟩, fun _ => by simp [shutdown], by simp, by simp⟩
        · rw [if_pos ht] at h
          simp only [Prod.mk.injEq] at h
          obtain ⟨rfl, rfl, -⟩ := h
          refine ⟨⟨fun h => absurd h ht, fun h => absurd h.2.2.2 ht⟩, fun h => absurd h ht, fun _ h => absurd h ht,
            fun _ => .inr ⟨rfl, by rw [hk']⟩⟩

theorem fill_get (num : Nat) : ∀ n k j, j < n → (fill num k n)[j]? = some (if k + j < num then some (k + j, k + j) else none) := by
  intro n
  induction n with
  | zero => intro k j hj; omega
  | succ n ih =>
    intro k j hj
    cases j with
    | zero => simp [fill]
    | succ j =>
      simp only [fill, List.getElem?_cons_succ]
      rw [ih (k + 1) j (by omega)]
      have : k + 1 + j = k + (j + 1) := by omega
      rw [this]

theorem fill_length (num : Nat) : ∀ n k, (fill num k n).length = n := by
  intro n
  induction n with
  | zero => intro k; rfl
  | succ n ih => intro k; simp [fill, ih]

/-- The buffer of a module that was created tells its instances in order, as many as
there is room for, and the rest of it is cleared. -/
theorem C297_buffer (modOk tblOk : Bool) (instOk : List Bool) (thread : Int) (n : Nat)
    (mem : Mem) (buf : Option (List Info)) (h : create modOk tblOk instOk thread (some n) = (0, mem, buf)) :
    ∃ b, buf = some b ∧ b.length = n ∧ ∀ j, j < n → b[j]? = some (if j < instOk.length then some (j, j) else none) := by
  have hp := (C297_created_partial modOk tblOk instOk thread (some n) 0 mem buf h).1.1 rfl
  obtain ⟨rfl, rfl, hall, rfl⟩ := hp
  unfold create at h
  have hc := (createInstances_ok instOk 0 instOk.length).2 ⟨hall, by omega⟩
  simp only [Bool.not_true, Bool.false_eq_true, if_false, hc, ne_eq, not_true_eq_false, Prod.mk.injEq, true_and,
    Option.map_some] at h
  refine ⟨_, h.2.symm, fill_length _ _ _, fun j hj => ?_⟩
  rw [fill_get _ _ _ _ hj]
  simp

example : create true true [true, true] 0 (some 3) = (0, ⟨1, 1, 2⟩, some [some (0, 0), some (1, 1), none]) := rfl

example : create true true [true, false, true] 0 (some 3) = (12, ⟨0, 0, 0⟩, none) := rfl

/-! ## C298: options -/

/-- C298: the option for traceability is accepted exactly if all its words are `time` or
`freq`, and then the instance is traceable in just those; other settings stay. -/
theorem C298_traceability (i j : Inst) (ws : List Word) (rc : Int) (h : parseTrace i ws = (rc, j)) :
    (rc = 0 ↔ ∀ w ∈ ws, w = .time ∨ w = .freq) ∧ (j.timeTrace = true ↔ Word.time ∈ ws) ∧
    (j.freqTrace = true ↔ Word.freq ∈ ws) ∧
    j = { i with timeTrace := j.timeTrace, freqTrace := j.freqTrace } := by
  have key : ∀ (ws : List Word) (r : Int) (a : Inst) (rc : Int) (b : Inst),
      ws.foldl (fun (x : Int × Inst) w =>
        match w with
        | .time => (x.1, { x.2 with timeTrace := true })
        | .freq => (x.1, { x.2 with freqTrace := true })
        | _ => (EINVAL, x.2)) (r, a) = (rc, b) →
      (rc = 0 ↔ r = 0 ∧ ∀ w ∈ ws, w = .time ∨ w = .freq) ∧
      (b.timeTrace = true ↔ a.timeTrace = true ∨ Word.time ∈ ws) ∧
      (b.freqTrace = true ↔ a.freqTrace = true ∨ Word.freq ∈ ws) ∧
      b = { a with timeTrace := b.timeTrace, freqTrace := b.freqTrace } := by
    intro ws
    induction ws with
    | nil =>
      intro r a rc b h
      simp only [List.foldl_nil, Prod.mk.injEq] at h
      obtain ⟨rfl, rfl⟩ := h
      simp
    | cons w ws ih =>
      intro r a rc b h
      simp only [List.foldl_cons] at h
      cases w with
      | time =>
        obtain ⟨h1, h2, h3, h4⟩ := ih _ _ _ _ h
        refine ⟨by rw [h1]; simp, by rw [h2]; simp, by rw [h3]; simp, by rw [h4]⟩
      | freq =>
        obtain ⟨h1, h2, h3, h4⟩ := ih _ _ _ _ h
        refine ⟨by rw [h1]; simp, by rw [h2]; simp, by rw [h3]; simp, by rw [h4]⟩
      | locked =>
        obtain ⟨h1, h2, h3, h4⟩ := ih _ _ _ _ h
        refine ⟨by rw [h1]; simp [EINVAL], by rw [h2]; simp, by rw [h3]; simp, h4⟩
      | holdover =>
        obtain ⟨h1, h2, h3, h4⟩ := ih _ _ _ _ h
        refine ⟨by rw [h1]; simp [EINVAL], by rw [h2]; simp, by rw [h3]; simp, h4⟩
      | freerunning =>
        obtain ⟨h1, h2, h3, h4⟩ := ih _ _ _ _ h
        refine ⟨by rw [h1]; simp [EINVAL], by rw [h2]; simp, by rw [h3]; simp, h4⟩
      | unknownWord =>
        obtain ⟨h1, h2, h3, h4⟩ := ih _ _ _ _ h
        refine ⟨by rw [h1]; simp [EINVAL], by rw [h2]; simp, by rw [h3]; simp, h4⟩
  obtain ⟨h1, h2, h3, h4⟩ := key ws 0 _ rc j h
  refine ⟨by rw [h1]; simp, by rw [h2]; simp, by rw [h3]; simp, ?_⟩
  rw [h4]

example : parseTrace { iface := .system, timeTrace := true } [.freq, .freq] =
    (0, { iface := .system, freqTrace := true }) ∧ (parseTrace { iface := .system } [.time, .locked]).1 = 22 := by
  decide

end Verif.Freerun
