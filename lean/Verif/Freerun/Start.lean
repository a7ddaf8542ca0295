import Verif.Freerun.Support

set_option linter.unusedSimpArgs false
set_option linter.unusedVariables false

/-! # Lemmas on the start and the messages of the freerun module -/

namespace Verif.Freerun

theorem find_clock {e : Env} {n : Nat} {l : Link} {f : Found} (h : find e n l = some f) :
    ∃ cs, Below e l cs ∧ (f.clock = none ↔ cs = []) ∧
      ∀ c, f.clock = some c → ∃ p, f.link = some p ∧ f.grade = e.grade c ∧ FirstBest e.grade cs p c := by
  obtain ⟨cs, hb, hi⟩ := find_sound h
  refine ⟨cs, hb, ?_, ?_⟩
  · rcases hi with ⟨rfl, rfl⟩ | ⟨p, c, rfl, pre, post, rfl, -⟩
    · simp
    · simp
  · intro c hc
    rcases hi with ⟨rfl, rfl⟩ | ⟨p, c', rfl, hf⟩
    · cases hc
    · simp only [Option.some.injEq] at hc
      subst hc
      exact ⟨p, rfl, rfl, hf⟩

theorem candidate_some {e : Env} {n : Nat} {x : IfName} {c : Nat} (h : candidate e n x = some (.ok (some c))) :
    ClockOf e x c := by
  unfold candidate at h
  cases x with
  | system => simp at h; exact h.symm
  | empty => simp at h
  | named x =>
    simp only at h
    cases hb : byName e.rows x with
    | none => simp [hb] at h
    | some l =>
      cases hf : find e n l with
      | none => simp [hb, hf] at h
      | some f =>
        simp only [hb, hf, Option.map_some, Option.some.injEq, Except.ok.injEq] at h
        obtain ⟨cs, hcs, -, h2⟩ := find_clock hf
        obtain ⟨p, -, -, hp⟩ := h2 c h
        exact ⟨l, cs, p, byName_some.1 hb, hcs, hp⟩

theorem candidate_none {e : Env} {n : Nat} {x : IfName} (h : candidate e n x = some (.ok none)) :
    NoClock e x := by
  unfold candidate at h
  cases x with
  | system => simp at h
  | empty => simp at h
  | named x =>
    simp only at h
    cases hb : byName e.rows x with
    | none => exact .inl (byName_none.1 hb)
    | some l =>
      cases hf : find e n l with
      | none => simp [hb, hf] at h
      | some f =>
        simp only [hb, hf, Option.map_some, Option.some.injEq, Except.ok.injEq] at h
        obtain ⟨cs, hcs, h1, -⟩ := find_clock hf
        rw [h1.1 h] at hcs
        exact .inr ⟨l, byName_some.1 hb, hcs⟩

theorem candidate_error {e : Env} {n : Nat} {x : IfName} {rc : Int} (h : candidate e n x = some (.error rc)) :
    x = .empty ∧ rc = 22 := by
  unfold candidate at h
  cases x with
  | system => simp at h
  | empty => simp [EINVAL] at h; exact ⟨rfl, h.symm⟩
  | named x =>
    simp only at h
    cases hb : byName e.rows x with
    | none => simp [hb] at h
    | some l =>
      cases hf : find e n l with
      | none => simp [hb, hf] at h
      | some f => simp [hb, hf] at h

/-- An instance that has been given its clock. -/
def given (i : Inst) (c : Nat) : Inst := { i with flags := 2, clock := some c }

/-- Why an instance does not get a clock; `used` are the clocks of the others. -/
inductive Fails (e : Env) (used : List Nat) (i : Inst) : Int → Inst → List Nat → Prop
  | unnamed : i.iface = .empty → Fails e used i 22 i []
  | missing : NoClock e i.iface → Fails e used i 19 i []
  | busy {c} : ClockOf e i.iface c → c ∈ used → Fails e used i 16 i []
  | unset {c} : ClockOf e i.iface c → c ∉ used → e.setRc c ≠ 0 → Fails e used i (e.setRc c) (given i c) [c]

theorem inUse_iff {is : List Inst} {c : Nat} : inUse is c = true ↔ ∃ i ∈ is, i.clock = some c := by
  simp [inUse]

theorem selectClock_cases {e : Env} {n : Nat} {pre post : List Inst} {i j : Inst} {rc : Int} {set : List Nat}
    {used : List Nat} (hu : pre.map Inst.clock = used.map some) (hi : i.clock = none)
    (hp : ∀ x ∈ post, x.clock = none) (h : selectClock e n pre i post = some (rc, j, set)) :
    (rc = 0 ∧ ∃ c, ClockOf e i.iface c ∧ c ∉ used ∧ e.setRc c = 0 ∧ j = given i c ∧ set = [c]) ∨
    (rc ≠ 0 ∧ Fails e used i rc j set) := by
  have hin : ∀ c, inUse (pre ++ i :: post) c = true ↔ c ∈ used := by
    intro c
    rw [inUse_iff]
    constructor
    · rintro ⟨x, hx, hc⟩
      simp only [List.mem_append, List.mem_cons] at hx
      rcases hx with hx | rfl | hx
      · have : some c ∈ used.map some := by
          rw [← hu, ← hc]
          exact List.mem_map_of_mem hx
        simpa using this
      · rw [hi] at hc; cases hc
      · rw [hp x hx] at hc; cases hc
    · intro hc
      have : some c ∈ pre.map Inst.clock := by rw [hu]; simpa using hc
      obtain ⟨x, hx, hxc⟩ := List.mem_map.1 this
      exact ⟨x, by simp [hx], hxc⟩
  unfold selectClock at h
  cases hc : candidate e n i.iface with
  | none => simp [hc] at h
  | some r =>
    cases r with
    | error x =>
      simp only [hc, Option.some.injEq, Prod.mk.injEq] at h
      obtain ⟨rfl, rfl, rfl⟩ := h
      obtain ⟨h1, rfl⟩ := candidate_error hc
      exact .inr ⟨by decide, .unnamed h1⟩
    | ok o =>
      cases o with
      | none =>
        simp only [hc, Option.some.injEq, Prod.mk.injEq] at h
        obtain ⟨rfl, rfl, rfl⟩ := h
        exact .inr ⟨by decide, .missing (candidate_none hc)⟩
      | some c =>
        have hco := candidate_some hc
        simp only [hc] at h
        by_cases hb : inUse (pre ++ i :: post) c = true
        · rw [if_pos hb] at h
          simp only [Option.some.injEq, Prod.mk.injEq] at h
          obtain ⟨rfl, rfl, rfl⟩ := h
          exact .inr ⟨by decide, .busy hco ((hin c).1 hb)⟩
        · rw [if_neg hb] at h
          simp only [Option.some.injEq, Prod.mk.injEq] at h
          obtain ⟨rfl, rfl, rfl⟩ := h
          have hn : c ∉ used := fun h => hb ((hin c).2 h)
          by_cases h0 : e.setRc c = 0
          · exact .inl ⟨h0, c, hco, hn, h0, rfl, rfl⟩
          · exact .inr ⟨h0, .unset hco hn h0⟩

theorem startup_cases {e : Env} {n : Nat} (todo : List Inst) : ∀ (pre : List Inst) (used : List Nat) (rc : Int)
    (js : List Inst) (set : List Nat), pre.map Inst.clock = used.map some → (∀ i ∈ todo, i.clock = none) →
    startup e n pre todo = some (rc, js, set) →
    ∃ ds : List Nat, ∃ did rest : List Inst, todo = did ++ rest ∧
      List.Forall₂ (fun i c => ClockOf e i.iface c ∧ e.setRc c = 0) did ds ∧
      ds.Nodup ∧ (∀ d ∈ ds, d ∉ used) ∧
      ((rest = [] ∧ rc = 0 ∧ js = pre ++ List.zipWith given did ds ∧ set = ds) ∨
       (rc ≠ 0 ∧ ∃ i j post s, rest = i :: post ∧ Fails e (used ++ ds) i rc j s ∧
          js = pre ++ List.zipWith given did ds ++ j :: post ∧ set = ds ++ s)) := by
  induction todo with
  | nil =>
    intro pre used rc js set _ _ h
    simp only [startup, Option.some.injEq, Prod.mk.injEq] at h
    obtain ⟨rfl, rfl, rfl⟩ := h
    exact ⟨[], [], [], rfl, .nil, by simp, by simp, .inl ⟨rfl, rfl, by simp, rfl⟩⟩
  | cons i post ih =>
    intro pre used rc js set hu hi h
    unfold startup at h
    cases hs : selectClock e n pre i post with
    | none => simp [hs] at h
    | some r =>
      obtain ⟨r1, j, s⟩ := r
      simp only [hs] at h
      have hc := selectClock_cases hu (hi i (by simp)) (fun x hx => hi x (by simp [hx])) hs
      by_cases h0 : r1 = 0
      · rw [if_neg (by simpa using h0)] at h
        rcases hc with ⟨-, c, hco, hcu, hset, rfl, rfl⟩ | ⟨hne, -⟩
        · cases hst : startup e n (pre ++ [given i c]) post with
          | none => simp [hst] at h
          | some q =>
            obtain ⟨q1, q2, q3⟩ := q
            simp only [hst, Option.some.injEq, Prod.mk.injEq] at h
            obtain ⟨rfl, rfl, rfl⟩ := h
            obtain ⟨ds, did, rest, hte, hf, hnd, hnu, hr⟩ := ih (pre ++ [given i c]) (used ++ [c]) _ _ _
              (by simp [hu, given]) (fun x hx => hi x (by simp [hx])) hst
            refine ⟨c :: ds, i :: did, rest, by simp [hte], .cons ⟨hco, hset⟩ hf, ?_, ?_, ?_⟩
            · rw [List.nodup_cons]
              refine ⟨fun hm => ?_, hnd⟩
              exact hnu c hm (by simp)
            · intro d hd
              rcases List.mem_cons.1 hd with rfl | hd
              · exact hcu
              · exact fun hm => hnu d hd (by simp [hm])
            · rcases hr with ⟨h1, h2, h3, h4⟩ | ⟨h1, i', j', post', s', h2, h3, h4, h5⟩
              · exact .inl ⟨h1, h2, by simp [h3], by simp [h4]⟩
              · exact .inr ⟨h1, i', j', post', s', h2, by simpa using h3, by simp [h4], by simp [h5]⟩
        · exact absurd h0 hne
      · rw [if_pos h0] at h
        simp only [Option.some.injEq, Prod.mk.injEq] at h
        obtain ⟨rfl, rfl, rfl⟩ := h
        rcases hc with ⟨h1, -⟩ | ⟨-, hfl⟩
        · exact absurd h1 h0
        · exact ⟨[], [], i :: post, rfl, .nil, by simp, by simp, .inr ⟨h0, i, j, post, s, rfl, by simpa using hfl,
            by simp, by simp⟩⟩

/-! ## The search ends -/

theorem LastWith.mem {α : Type} {P : α → Prop} {rows : List α} {o : α} (h : LastWith P rows o) : o ∈ rows := by
  obtain ⟨pre, post, rfl, -⟩ := h
  simp

theorem leads_exists {rows : List Link} {rank : Link → Nat}
    (h : ∀ l ∈ rows, l.vlan = true → ∃ o, LastWith (fun x => x.index = l.lower) rows o ∧ rank o < rank l) :
    ∀ (k : Nat) (l : Link), l ∈ rows → rank l ≤ k → ∃ p ∈ rows, Leads rows l p ∧ rank p ≤ rank l := by
  intro k
  induction k with
  | zero =>
    intro l hl hr
    cases hv : l.vlan with
    | false => exact ⟨l, hl, .plain hv, Nat.le_refl _⟩
    | true =>
      obtain ⟨o, -, ho⟩ := h l hl hv
      omega
  | succ k ih =>
    intro l hl hr
    cases hv : l.vlan with
    | false => exact ⟨l, hl, .plain hv, Nat.le_refl _⟩
    | true =>
      obtain ⟨o, ho, hro⟩ := h l hl hv
      obtain ⟨p, hp, hlp, hrp⟩ := ih o ho.mem (by omega)
      exact ⟨p, hp, .inner hv ho hlp, by omega⟩

theorem members_exist {e : Env} (i : Int) (os : List Link)
    (h : ∀ o ∈ os, o.master = i → ∃ cs, Below e o cs) : ∃ cs, Members e i os cs := by
  induction os with
  | nil => exact ⟨[], .nil⟩
  | cons o os ih =>
    obtain ⟨ds, hds⟩ := ih (fun x hx => h x (by simp [hx]))
    by_cases hm : o.master = i
    · obtain ⟨cs, hcs⟩ := h o (by simp) hm
      exact ⟨cs ++ ds, .take hm hcs hds⟩
    · exact ⟨ds, .skip hm hds⟩

theorem below_exists {e : Env} (h : Hierarchy e.rows) {l : Link} (hl : l ∈ e.rows) : ∃ cs, Below e l cs := by
  obtain ⟨rank, h1, h2⟩ := h
  have key : ∀ (k : Nat) (l : Link), l ∈ e.rows → rank l ≤ k → ∃ cs, Below e l cs := by
    intro k
    induction k with
    | zero =>
      intro l hl hr
      obtain ⟨p, hp, hlp, hrp⟩ := leads_exists h1 0 l hl hr
      by_cases hc : ∃ c, HasClock e p c
      · obtain ⟨c, hc⟩ := hc
        exact ⟨_, .clock hlp hc⟩
      · push Not at hc
        obtain ⟨cs, hcs⟩ := members_exist (e := e) p.index e.rows
          (fun o ho hm => by have := h2 o ho p hp hm; omega)
        exact ⟨cs, .members hlp hc hcs⟩
    | succ k ih =>
      intro l hl hr
      obtain ⟨p, hp, hlp, hrp⟩ := leads_exists h1 _ l hl (Nat.le_refl _)
      by_cases hc : ∃ c, HasClock e p c
      · obtain ⟨c, hc⟩ := hc
        exact ⟨_, .clock hlp hc⟩
      · push Not at hc
        obtain ⟨cs, hcs⟩ := members_exist (e := e) p.index e.rows
          (fun o ho hm => ih o ho (by have := h2 o ho p hp hm; omega))
        exact ⟨cs, .members hlp hc hcs⟩
  exact key _ l hl (Nat.le_refl _)

/-! ## Messages -/

theorem onMessage_clocks {is js : List Inst} {m : Msg} {d : Did} (h : onMessage is m = some (js, d)) :
    js.length = is.length ∧ ∀ (k : Nat) (i : Inst), is[k]? = some i → ∃ f, js[k]? = some { i with flags := f } := by
  have same : js = is → js.length = is.length ∧ ∀ (k : Nat) (i : Inst), is[k]? = some i →
      ∃ f, js[k]? = some { i with flags := f } := by
    rintro rfl
    exact ⟨rfl, fun k i hi => ⟨i.flags, hi⟩⟩
  cases m with
  | control h' f m =>
    simp only [onMessage, lookup] at h
    cases h' with
    | none => simp at h
    | some q =>
      cases hq : is[q]? with
      | none => simp [hq] at h
      | some i =>
        simp only [hq, Option.map_some, Option.some.injEq, Prod.mk.injEq] at h
        obtain ⟨rfl, -⟩ := h
        refine ⟨by simp, fun k i' hk => ?_⟩
        rw [List.getElem?_set]
        by_cases hqk : q = k
        · subst hqk
          rw [hq] at hk
          cases hk
          have hlt : q < is.length := by
            rw [List.getElem?_eq_some_iff] at hq
            exact hq.1
          exact ⟨_, by rw [if_pos rfl, if_pos hlt]⟩
        · exact ⟨i'.flags, by rw [if_neg hqk]; exact hk⟩
  | step h' off =>
    apply same
    simp only [onMessage] at h
    split at h
    · cases h
    · split at h
      · cases h
      · simp only [Option.some.injEq, Prod.mk.injEq] at h
        exact h.1.symm
  | topology h' =>
    apply same
    simp only [onMessage] at h
    split at h
    · cases h
    · split at h
      · cases h
      · split at h
        · simp only [Option.some.injEq, Prod.mk.injEq] at h
          exact h.1.symm
        · cases h
  | getStatus h' =>
    apply same
    simp only [onMessage, Option.map_eq_some_iff, Prod.mk.injEq] at h
    obtain ⟨_, _, h, _⟩ := h
    exact h.symm
  | saveState =>
    apply same
    simp only [onMessage, Option.map_eq_some_iff, Prod.mk.injEq] at h
    obtain ⟨_, _, h, _⟩ := h
    exact h.symm
  | run => apply same; simp only [onMessage, Option.some.injEq, Prod.mk.injEq] at h; exact h.1.symm
  | updateGm => apply same; simp only [onMessage, Option.some.injEq, Prod.mk.injEq] at h; exact h.1.symm
  | leap => apply same; simp only [onMessage, Option.some.injEq, Prod.mk.injEq] at h; exact h.1.symm
  | logStats => apply same; simp only [onMessage, Option.some.injEq, Prod.mk.injEq] at h; exact h.1.symm
  | endPeriod => apply same; simp only [onMessage, Option.some.injEq, Prod.mk.injEq] at h; exact h.1.symm
  | testMode => apply same; simp only [onMessage, Option.some.injEq, Prod.mk.injEq] at h; exact h.1.symm
  | other => apply same; simp only [onMessage, Option.some.injEq, Prod.mk.injEq] at h; exact h.1.symm

/-- How a message changes the flags of an instance. -/
theorem onMessage_flag {is js : List Inst} {m : Msg} {d : Did} (h : onMessage is m = some (js, d)) {k b : Nat}
    {i j : Inst} (hi : is[k]? = some i) (hj : js[k]? = some j) (hb : b < 32) :
    (∀ f q, m = .control (some k) f q → j.flags.getLsbD b =
      if q.getLsbD b then f.getLsbD b else i.flags.getLsbD b) ∧
    ((∀ f q, m ≠ .control (some k) f q) → j = i) := by
  cases m with
  | control h' f q =>
    simp only [onMessage, lookup] at h
    cases h' with
    | none => simp at h
    | some p =>
      cases hp : is[p]? with
      | none => simp [hp] at h
      | some i' =>
        simp only [hp, Option.map_some, Option.some.injEq, Prod.mk.injEq] at h
        obtain ⟨rfl, -⟩ := h
        rw [List.getElem?_set] at hj
        by_cases hpk : p = k
        · subst hpk
          rw [hi] at hp
          cases hp
          have hlt : p < is.length := by
            rw [List.getElem?_eq_some_iff] at hi
            exact hi.1
          rw [if_pos rfl, if_pos hlt] at hj
          simp only [Option.some.injEq] at hj
          subst hj
          constructor
          · intro f' q' he
            simp only [Msg.control.injEq, true_and] at he
            obtain ⟨rfl, rfl⟩ := he
            simp only [BitVec.getLsbD_or, BitVec.getLsbD_and, BitVec.getLsbD_not, hb, decide_true, Bool.true_and]
            cases q.getLsbD b <;> simp
          · intro hne
            exact absurd rfl (hne f q)
        · rw [if_neg hpk, hi] at hj
          cases hj
          refine ⟨fun f' q' he => ?_, fun _ => rfl⟩
          simp only [Msg.control.injEq, Option.some.injEq] at he
          exact absurd he.1 hpk
  | _ =>
    refine ⟨fun _ _ he => (by cases he), fun _ => ?_⟩
    have hjs : js = is := by
      simp only [onMessage] at h
      first
        | (simp only [Option.some.injEq, Prod.mk.injEq] at h; exact h.1.symm)
        | (simp only [Option.map_eq_some_iff, Prod.mk.injEq] at h
           obtain ⟨_, _, h, _⟩ := h
           exact h.symm)
        | (split at h
           · cases h
           · split at h
             · cases h
             · first
                 | (simp only [Option.some.injEq, Prod.mk.injEq] at h; exact h.1.symm)
                 | (split at h
                    · simp only [Option.some.injEq, Prod.mk.injEq] at h
                      exact h.1.symm
                    · cases h))
    rw [hjs, hi] at hj
    cases hj
    rfl

theorem runMsgs_append {is : List Inst} {a b : List Msg} : runMsgs is (a ++ b) =
    (runMsgs is a).bind fun (js, ds) => (runMsgs js b).map fun (ks, es) => (ks, ds ++ es) := by
  induction a generalizing is with
  | nil => simp [runMsgs]
  | cons m ms ih =>
    simp only [List.cons_append, runMsgs]
    cases hm : onMessage is m with
    | none => simp
    | some r =>
      obtain ⟨js, d⟩ := r
      simp only [ih]
      cases runMsgs js ms with
      | none => simp
      | some q =>
        obtain ⟨ks, ds⟩ := q
        simp only [Option.bind_some, Option.map_some]
        cases runMsgs ks b <;> simp

theorem saveAll_eq {is : List Inst} {cs : List Nat} (h : is.map Inst.clock = cs.map some) :
    saveAll is = some cs := by
  induction is generalizing cs with
  | nil =>
    cases cs with
    | nil => rfl
    | cons c cs => simp at h
  | cons i is ih =>
    cases cs with
    | nil => simp at h
    | cons c cs =>
      simp only [List.map_cons, List.cons.injEq] at h
      simp only [saveAll, h.1, ih h.2]

end Verif.Freerun
