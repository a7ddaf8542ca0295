import Verif.Netlink.Service

set_option linter.unusedSimpArgs false
set_option linter.unusedVariables false

/-! Properties of comparison, publication and versions. -/

namespace Verif.Netlink

theorem fin_back (n k : Fin 4) : ∃ j : Fin 4, n - j = k := by revert n k; decide

theorem Nl.Ring.cur {s : Nl} (h : s.Ring) : s.current.version = s.count := by
  have h1 := h.slots 0 h.count
  have h0 : ∀ n : Fin 4, n - 0 = n := by decide
  rw [h0] at h1
  exact h1

/-- C274: comparing two tables marks each row of the new one: as up exactly when the interface is not
in the old one, as changed exactly when it is and differs in something that matters; nothing else of
the rows is altered and none is marked as down. -/
theorem C274_events_exact (prev cur rows : List Link) (ch : Bool) (hp : Sorted prev) (hc : Sorted cur)
    (h : compare prev cur = .ok (rows, ch)) :
    rows.length = cur.length ∧
    ∀ (i : Nat) (b : Link), cur[i]? = some b → ∃ e, rows[i]? = some { b with ev := e } ∧ e ≠ .down ∧
      (e = .up ↔ ∀ a ∈ prev, a.idx ≠ b.idx) ∧
      (e = .change ↔ ∃ a ∈ prev, a.idx = b.idx ∧ Matters a b) := by
  rw [compare_spec prev cur hp hc] at h
  simp only [Except.ok.injEq, Prod.mk.injEq] at h
  obtain ⟨rfl, _⟩ := h
  refine ⟨by simp, ?_⟩
  intro i b hb
  simp only [List.getElem?_map, hb, Option.map_some]
  have huniq : ∀ a ∈ prev, ∀ a' ∈ prev, a.idx = a'.idx → a = a' :=
    fun a ha a' ha' he => List.inj_on_of_nodup_map hp.nodup ha ha' he
  rcases annotate_ev prev b with ⟨h1, h2⟩ | ⟨a, ha, hi, h1, h2⟩
  · refine ⟨.up, by rw [h2], by simp, by simpa using h1, ?_⟩
    constructor
    · intro h; cases h
    · rintro ⟨a, ha, he, _⟩; exact absurd he (h1 a ha)
  · by_cases hm : Matters a b
    · refine ⟨.change, by rw [h1 hm], by simp, ?_, ?_⟩
      · constructor
        · intro h; cases h
        · intro h; exact absurd hi (h a ha)
      · exact ⟨fun _ => ⟨a, ha, hi, hm⟩, fun _ => rfl⟩
    · refine ⟨.none, by rw [h2 hm], by simp, ?_, ?_⟩
      · constructor
        · intro h; cases h
        · intro h; exact absurd hi (h a ha)
      · constructor
        · intro h; cases h
        · rintro ⟨a', ha', he, hm'⟩
          have := huniq a ha a' ha' (by rw [hi, he])
          subst this
          exact absurd hm' hm

def tabA : List Link := [{ idx := 1, name := "lo" }, { idx := 2, name := "eth0" }, { idx := 5, name := "eth1" }]
def tabB : List Link :=
  [{ idx := 2, name := "eth0", flags := 0x20 }, { idx := 4, name := "vl" }, { idx := 5, name := "eth9" }]

example : Sorted tabA ∧ Sorted tabB ∧ ∃ rows, compare tabA tabB = .ok (rows, true) ∧
    rows.map (·.ev) = [.none, .up, .change] :=
  ⟨⟨by decide, by decide⟩, ⟨by decide, by decide⟩, _, rfl, by decide +kernel⟩

/-- C275: comparing two tables in order never fails, and reports a change exactly when an interface has
come, has gone, or differs in something that matters. -/
theorem C275_change_reported (prev cur : List Link) (hp : Sorted prev) (hc : Sorted cur) :
    ∃ rows ch, compare prev cur = .ok (rows, ch) ∧ (ch = true ↔ TablesDiffer prev cur) :=
  ⟨_, _, compare_spec prev cur hp hc, change_iff prev cur hp hc⟩

example : ∃ rows, compare tabA tabA = .ok (rows, false) := ⟨_, rfl⟩
example : ∃ rows, compare tabA (tabA.take 2) = .ok (rows, true) := ⟨_, rfl⟩

/-! ### Servicing -/

/-- Calls of the servicing function in turn: consumers, coalescing, what is received. -/
def serveAll (ok : SendOk) : List (Nat × Bool × List Pass) → Nl → Except Fail Nl
  | [], s => .ok s
  | (c, co, ps) :: rest, s => do
      let (s, _) ← service ok c co ps s
      serveAll ok rest s

/-- C276 in full: servicing well-formed messages never ends the process. -/
def C276_statement : Prop :=
  ∀ (ok : SendOk) (calls : List (Nat × Bool × List Pass)),
    (∀ x ∈ calls, ∀ p ∈ x.2.2, p.wf) → ∃ s, serveAll ok calls Nl.init = .ok s

/-- When receiving fails after messages were handled in the same pass the table is left unsorted; a
later call that receives nothing compares it all the same and an assertion fails. -/
theorem C276_violated : ¬ C276_statement := by
  intro h
  obtain ⟨s, hs⟩ := h (fun _ => true)
    [(1, false, [{ data := [{ msgs := [.link { idx := 5 }, .link { idx := 3 }] }], err := some 5 }]),
     (1, false, [])] (by
      intro x hx p hp
      simp only [List.mem_cons, List.not_mem_nil, or_false] at hx
      rcases hx with rfl | rfl
      · simp only [List.mem_singleton] at hp
        subst hp
        intro d hd
        simp only [List.mem_singleton] at hd
        subst hd
        refine ⟨?_, by simp⟩
        intro m hm
        simp only [List.mem_cons, List.not_mem_nil, or_false] at hm
        rcases hm with rfl | rfl <;> simp [Msg.wf]
      · cases hp)
  have : (serveAll (fun _ => true)
    [(1, false, [{ data := [{ msgs := [.link { idx := 5 }, .link { idx := 3 }] }], err := some 5 }]),
     (1, false, [])] Nl.init).toOption.isNone = true := by decide +kernel
  rw [hs] at this
  cases this

/-- C276: it does not while receiving does not fail. -/
theorem C276_servicing_safe_partial (ok : SendOk) (calls : List (Nat × Bool × List Pass))
    (hwf : ∀ x ∈ calls, ∀ p ∈ x.2.2, p.wf) (hfine : ∀ x ∈ calls, ∀ p ∈ x.2.2, p.err = none) :
    ∃ s, serveAll ok calls Nl.init = .ok s := by
  have gen : ∀ (calls : List (Nat × Bool × List Pass)) (s : Nl), s.Inv →
      (∀ x ∈ calls, ∀ p ∈ x.2.2, p.wf) → (∀ x ∈ calls, ∀ p ∈ x.2.2, p.err = none) →
      ∃ s', serveAll ok calls s = .ok s' := by
    intro calls
    induction calls with
    | nil => intro s _ _ _; exact ⟨s, rfl⟩
    | cons x rest ih =>
        intro s hs hw hf
        obtain ⟨c, co, ps⟩ := x
        obtain ⟨r, s1, rc, h1, _, h3, h4⟩ := service_spec ok c co ps s hs
          (hw (c, co, ps) (by simp)) (hf (c, co, ps) (by simp))
        obtain ⟨s2, h5⟩ := ih s1 (h4.inv hs h3) (fun x hx => hw x (by simp [hx]))
          (fun x hx => hf x (by simp [hx]))
        exact ⟨s2, by simp only [serveAll, h1, bind, Except.bind, h5]⟩
  exact gen calls Nl.init init_inv hwf hfine

example : ((serveAll (fun _ => true)
    [(1, true, [{ data := [{ msgs := [.link { idx := 5 }, .link { idx := 3 }] }] }]),
     (1, false, [])] Nl.init).map (fun s => (s.published.rows.map (·.idx), s.published.version))).toOption =
    some ([3, 5], 1) := by decide +kernel

/-- The states met while receiving does not fail. -/
inductive Live (ok : SendOk) : Nl → Prop
  | init (keys : List String) : keys.length ≤ 16 → Live ok (setDriverStats keys Nl.init).1
  | service (s s' : Nl) (c : Nat) (co : Bool) (ps : List Pass) (rc : Int) : Live ok s →
      (∀ p ∈ ps, p.wf) → (∀ p ∈ ps, p.err = none) → service ok c co ps s = .ok (s', rc) → Live ok s'
  | get (s s' : Nl) (v : Nat) (t : Option (Fin 4)) (rc : Int) : Live ok s →
      getTable v s = .ok (s', t, rc) → Live ok s'
  | release (s s' : Nl) (v c : Nat) (ps : List Pass) (rc : Int) : Live ok s →
      (∀ p ∈ ps, p.wf) → (∀ p ∈ ps, p.err = none) → v + 1 ≤ s.current.version →
      releaseTable ok v c ps s = .ok (s', rc) → Live ok s'

theorem Nl.Inv.ref {s : Nl} (h : s.Inv) (k : Fin 4) (n : Nat) (hne : (s.slot k).version ≠ 0) :
    (s.setSlot k { s.slot k with ref := n }).Inv := by
  have hslot : ∀ i, (s.setSlot k { s.slot k with ref := n }).slot i =
      if i = k then { s.slot k with ref := n } else s.slot i := fun i => rfl
  have hrows : ∀ i, ((s.setSlot k { s.slot k with ref := n }).slot i).rows = (s.slot i).rows := by
    intro i; rw [hslot]; split
    · rename_i hi; rw [hi]
    · rfl
  have hcap : ∀ i, ((s.setSlot k { s.slot k with ref := n }).slot i).cap = (s.slot i).cap := by
    intro i; rw [hslot]; split
    · rename_i hi; rw [hi]
    · rfl
  have hver : ∀ i, ((s.setSlot k { s.slot k with ref := n }).slot i).version = (s.slot i).version := by
    intro i; rw [hslot]; split
    · rename_i hi; rw [hi]
    · rfl
  refine ⟨⟨h.ring.count, h.ring.ver, h.ring.next, ?_, ?_⟩, ⟨⟨?_, ?_, ?_⟩, h.fine.keys⟩, ?_, ?_⟩
  · intro j hj
    show ((s.setSlot k { s.slot k with ref := n }).slot (s.next - j)).version = _
    rw [hver]; exact h.ring.slots j hj
  · intro j hj
    have := h.ring.unused j hj
    show (s.setSlot k { s.slot k with ref := n }).slot (s.next - j) = {}
    rw [hslot, if_neg]
    · exact this
    · intro he; rw [he] at this; rw [this] at hne; exact hne rfl
  · show (((s.setSlot k { s.slot k with ref := n }).slot s.next).rows.map (·.idx)).Nodup
    rw [hrows]; exact h.fine.ok.nodup
  · show ((s.setSlot k { s.slot k with ref := n }).slot s.next).rows.length ≤
      ((s.setSlot k { s.slot k with ref := n }).slot s.next).cap
    rw [hrows, hcap]; exact h.fine.ok.room
  · show ∀ r ∈ ((s.setSlot k { s.slot k with ref := n }).slot s.next).rows, 0 ≤ r.idx
    rw [hrows]; exact h.fine.ok.nonneg
  · show Sorted ((s.setSlot k { s.slot k with ref := n }).slot s.next).rows
    rw [hrows]; exact h.sorted
  · show Sorted ((s.setSlot k { s.slot k with ref := n }).slot (s.next + 3)).rows
    rw [hrows]; exact h.prevSorted

theorem Nl.Inv.exit {s : Nl} (h : s.Inv) (x : Option Nat) : Nl.Inv { s with exit := x } :=
  ⟨⟨h.ring.count, h.ring.ver, h.ring.next, h.ring.slots, h.ring.unused⟩, h.fine, h.sorted, h.prevSorted⟩

theorem Live.inv {ok : SendOk} {s : Nl} (h : Live ok s) : s.Inv := by
  induction h with
  | init keys hk =>
      have : setDriverStats keys Nl.init = ({ Nl.init with keys := keys }, 0) := by
        unfold setDriverStats; rw [if_neg (by omega)]
      rw [this]
      have hi := init_inv
      exact ⟨⟨hi.ring.count, hi.ring.ver, hi.ring.next, hi.ring.slots, hi.ring.unused⟩,
        ⟨hi.fine.ok.same (SameRows.refl _) rfl, hk⟩, hi.sorted, hi.prevSorted⟩
  | service s s' c co ps rc _ hwf hf hsv ih =>
      obtain ⟨r, s1, rc1, h1, _, h3, h4⟩ := service_spec ok c co ps s ih hwf hf
      rw [h1] at hsv
      cases hsv
      exact h4.inv ih h3
  | get s s' v t rc _ hg ih =>
      unfold getTable at hg
      simp only [bind, Except.bind, pure, Except.pure] at hg
      cases hf : findVersion s v s.count 0 with
      | error e => simp [hf] at hg
      | ok o =>
          cases o with
          | none => simp only [hf, Except.ok.injEq, Prod.mk.injEq] at hg; rw [← hg.1]; exact ih
          | some k =>
              simp only [hf] at hg
              split at hg
              · simp only [Except.ok.injEq, Prod.mk.injEq] at hg; rw [← hg.1]; exact ih.exit _
              · simp only [Except.ok.injEq, Prod.mk.injEq] at hg; rw [← hg.1]; exact ih
  | release s s' v c ps rc _ hwf hf hv hr ih =>
      unfold releaseTable at hr
      simp only [bind, Except.bind, pure, Except.pure] at hr
      cases hfv : findVersion s v s.count 0 with
      | error e => simp [hfv] at hr
      | ok o =>
          cases o with
          | none => simp only [hfv, Except.ok.injEq, Prod.mk.injEq] at hr; rw [← hr.1]; exact ih.exit _
          | some k =>
              simp only [hfv] at hr
              by_cases h0 : (s.slot k).ref = 0
              · rw [if_pos h0] at hr
                simp only [Except.ok.injEq, Prod.mk.injEq] at hr; rw [← hr.1]; exact ih.exit _
              · rw [if_neg h0] at hr
                have hne : (s.slot k).version ≠ 0 := by
                  intro hz
                  obtain ⟨j, rfl⟩ := fin_back s.next k
                  by_cases hj : j.val < s.count
                  · have := ih.ring.slots j hj; omega
                  · have := ih.ring.unused j (by omega); rw [this] at h0; exact h0 rfl
                have hi := ih.ref k ((s.slot k).ref - 1) hne
                by_cases hn : (s.setSlot k { s.slot k with ref := (s.slot k).ref - 1 }).needService = true
                · rw [if_pos hn] at hr
                  obtain ⟨r, s1, rc1, h1, _, h3, h4⟩ := service_spec ok c false ps _
                    (hi.needService false) hwf hf
                  rw [h1] at hr
                  cases hr
                  exact h4.inv (hi.needService false) h3
                · rw [if_neg hn] at hr
                  simp only [Except.ok.injEq, Prod.mk.injEq] at hr
                  rw [← hr.1]; exact hi

theorem Matters_marked (prev rows : List Link) (a b : Link) : Matters a (annotate prev b).1 ↔ Matters a b := by
  unfold annotate
  split <;> exact Iff.rfl

theorem differ_marked (prev rows : List Link) : TablesDiffer prev (marked prev rows) ↔ TablesDiffer prev rows := by
  unfold TablesDiffer
  have hmem : ∀ x, x ∈ marked prev rows ↔ ∃ b ∈ rows, (annotate prev b).1 = x := fun x => List.mem_map
  constructor
  · rintro (⟨x, hx, h⟩ | ⟨a, ha, h⟩ | ⟨a, ha, x, hx, hi, hm⟩)
    · obtain ⟨b, hb, rfl⟩ := (hmem x).1 hx
      exact .inl ⟨b, hb, by simpa [annotate_idx] using h⟩
    · refine .inr (.inl ⟨a, ha, fun b hb => ?_⟩)
      have := h _ ((hmem _).2 ⟨b, hb, rfl⟩)
      rwa [annotate_idx] at this
    · obtain ⟨b, hb, rfl⟩ := (hmem x).1 hx
      exact .inr (.inr ⟨a, ha, b, hb, by rwa [annotate_idx] at hi, (Matters_marked prev rows a b).1 hm⟩)
  · rintro (⟨b, hb, h⟩ | ⟨a, ha, h⟩ | ⟨a, ha, b, hb, hi, hm⟩)
    · exact .inl ⟨_, (hmem _).2 ⟨b, hb, rfl⟩, by simpa [annotate_idx] using h⟩
    · refine .inr (.inl ⟨a, ha, fun x hx => ?_⟩)
      obtain ⟨b, hb, rfl⟩ := (hmem x).1 hx
      rw [annotate_idx]; exact h b hb
    · exact .inr (.inr ⟨a, ha, _, (hmem _).2 ⟨b, hb, rfl⟩, by rwa [annotate_idx],
        (Matters_marked prev rows a b).2 hm⟩)

theorem Matters.irrefl (a : Link) : ¬ Matters a a := by
  unfold Matters; simp

theorem differ_self (rows : List Link) (h : Sorted rows) : ¬ TablesDiffer rows rows := by
  rintro (⟨b, hb, h'⟩ | ⟨a, ha, h'⟩ | ⟨a, ha, b, hb, hi, hm⟩)
  · exact h' b hb rfl
  · exact h' a ha rfl
  · have := List.inj_on_of_nodup_map h.nodup ha hb hi
    subst this
    exact Matters.irrefl a hm

/-- C277: a positive result is the version of a table just published: what had been received, sorted,
with one reference for each consumer, and it differs from the table published before it in something
that matters.  The table being written starts as its copy with the next version. -/
theorem C277_publication (ok : SendOk) (c : Nat) (co : Bool) (ps : List Pass) (s s' : Nl) (rc : Int)
    (hs : Live ok s) (hwf : ∀ p ∈ ps, p.wf) (hfine : ∀ p ∈ ps, p.err = none)
    (h : service ok c co ps s = .ok (s', rc)) (hrc : 0 < rc) :
    (s'.published.version : Int) = rc ∧ s'.published.version = s.current.version ∧
    s'.current.version = s'.published.version + 1 ∧
    s'.published.ref = c ∧ Sorted s'.published.rows ∧ s'.current.rows = s'.published.rows ∧
    TablesDiffer s.published.rows s'.published.rows ∧
    ∃ r, rounds ok ps s.work = .ok r ∧ (bare s'.published.rows).Perm (bare r.w.rows) := by
  have hi := hs.inv
  obtain ⟨r, s1, rc1, h1, h2, h3, h4⟩ := service_spec ok c co ps s hi hwf hfine
  rw [h1] at h
  cases h
  cases h4 with
  | busy _ => omega
  | wait rows => omega
  | same rows => omega
  | publish rows hb hco hp hsd hd =>
      have hn : (s.wip c r.w (marked s.published.rows rows)).next = s.next := rfl
      have hpub : (s.wip c r.w (marked s.published.rows rows)).rotate.published =
          { s.slot s.next with rows := marked s.published.rows rows, cap := r.w.cap, ref := c } := by
        show (s.wip c r.w (marked s.published.rows rows)).rotate.slot (s.next + 1 + 3) = _
        rw [fin_cycle, rotate_slot _ _ (by rw [hn]; exact fun h => fin_succ_ne s.next h.symm), wip_cur]
      have hcur : (s.wip c r.w (marked s.published.rows rows)).rotate.current.rows =
          marked s.published.rows rows ∧
          (s.wip c r.w (marked s.published.rows rows)).rotate.current.version = s.verNext := by
        have := rotate_new (s.wip c r.w (marked s.published.rows rows))
        rw [hn] at this
        unfold Nl.current
        show ((s.wip c r.w (marked s.published.rows rows)).rotate.slot (s.next + 1)).rows = _ ∧
          ((s.wip c r.w (marked s.published.rows rows)).rotate.slot (s.next + 1)).version = _
        rw [this, wip_cur]
        exact ⟨rfl, rfl⟩
      rw [hpub, hcur.1, hcur.2]
      have hv : (s.slot s.next).version = s.count := hi.ring.cur
      refine ⟨rfl, rfl, ?_, rfl, hsd.of_idx (marked_idx _ _), rfl, (differ_marked _ _).2 hd, r, h2, ?_⟩
      · show s.verNext = (s.slot s.next).version + 1
        rw [hv, hi.ring.ver]
      · show (bare (marked s.published.rows rows)).Perm _
        rw [marked_bare]; exact hp.map _

/-- A first table with two interfaces. -/
def twoLinks : List Pass := [{ data := [{ msgs := [.link { idx := 5 }, .link { idx := 3 }] }] }]

example : ((service (fun _ => true) 2 false twoLinks Nl.init).map (fun x =>
    (x.2, x.1.published.version, x.1.published.ref, x.1.current.version))).toOption =
    some (1, 1, 2, 2) := by decide +kernel

example : ((service (fun _ => true) 2 false twoLinks Nl.init).map (fun x =>
    x.1.published.rows.map (fun r => (r.idx, r.ev)))).toOption =
    some [(3, .up), (5, .up)] := by decide +kernel

/-- C278: a result of zero leaves the published tables as they were and keeps what was received for
the next call; it means that nothing that matters has changed, unless the caller is coalescing. -/
theorem C278_nothing_published (ok : SendOk) (c : Nat) (co : Bool) (ps : List Pass) (s s' : Nl)
    (hs : Live ok s) (hwf : ∀ p ∈ ps, p.wf) (hfine : ∀ p ∈ ps, p.err = none)
    (h : service ok c co ps s = .ok (s', 0)) :
    (∀ k, k ≠ s.next → s'.slot k = s.slot k) ∧ s'.next = s.next ∧
    s'.current.version = s.current.version ∧
    (∃ r, rounds ok ps s.work = .ok r ∧ (bare s'.current.rows).Perm (bare r.w.rows)) ∧
    (co = false → ¬ TablesDiffer s'.published.rows s'.current.rows) := by
  have hi := hs.inv
  obtain ⟨r, s1, rc1, h1, h2, h3, h4⟩ := service_spec ok c co ps s hi hwf hfine
  rw [h1] at h
  have hcount := hi.ring.count
  have hv : (s.slot s.next).version = s.count := hi.ring.cur
  cases h4 with
  | busy _ => cases h
  | wait rows hb hco hp hsd =>
      cases h
      refine ⟨fun k hk => wip_slot _ _ _ _ _ hk, rfl, ?_, ⟨r, h2, ?_⟩, ?_⟩
      · show ((s.wip c r.w rows).slot s.next).version = _; rw [wip_cur]; rfl
      · show (bare ((s.wip c r.w rows).slot s.next).rows).Perm _
        rw [wip_cur]; exact hp.map _
      · intro hf; rw [hco] at hf; cases hf
  | same rows hb hco hp hsd hd =>
      cases h
      refine ⟨fun k hk => wip_slot _ _ _ _ _ hk, rfl, ?_, ⟨r, h2, ?_⟩, ?_⟩
      · show ((s.wip c r.w (marked s.published.rows rows)).slot s.next).version = _; rw [wip_cur]; rfl
      · show (bare ((s.wip c r.w (marked s.published.rows rows)).slot s.next).rows).Perm _
        rw [wip_cur, show bare ({ s.slot s.next with rows := marked s.published.rows rows, cap := r.w.cap, ref := c } : Db).rows = bare rows from marked_bare _ _]
        exact hp.map _
      · intro _
        show ¬ TablesDiffer ((s.wip c r.w (marked s.published.rows rows)).slot (s.next + 3)).rows
          ((s.wip c r.w (marked s.published.rows rows)).slot s.next).rows
        rw [wip_cur, wip_slot _ _ _ _ _ (fin_pred_ne _)]
        exact fun hx => hd ((differ_marked _ _).1 hx)
  | publish rows hb hco hp hsd hd =>
      injection h with h
      injection h with _ h
      have : (s.slot s.next).version = 0 := by exact_mod_cast h
      omega

example : ((serveAll (fun _ => true) [(1, false, twoLinks),
    (1, false, [{ data := [{ msgs := [.link { idx := 3, flags := 0x20 }] }] }])] Nl.init).map (fun s =>
      (s.count, s.current.rows.map (fun r => (r.idx, r.flags)),
        s.published.rows.map (fun r => (r.idx, r.flags))))).toOption =
    some (2, [(3, 0x20), (5, 0)], [(3, 0), (5, 0)]) := by decide +kernel

/-- C279: a table with references that is not being written is left alone by servicing and stays out
of the place being written. -/
theorem C279_held_tables_kept (ok : SendOk) (c : Nat) (co : Bool) (ps : List Pass) (s s' : Nl) (rc : Int)
    (hs : Live ok s) (hwf : ∀ p ∈ ps, p.wf) (hfine : ∀ p ∈ ps, p.err = none)
    (h : service ok c co ps s = .ok (s', rc)) (k : Fin 4) (hk : k ≠ s.next) (hr : (s.slot k).ref ≠ 0) :
    s'.slot k = s.slot k ∧ k ≠ s'.next := by
  obtain ⟨r, s1, rc1, h1, h2, h3, h4⟩ := service_spec ok c co ps s hs.inv hwf hfine
  rw [h1] at h
  cases h
  cases h4 with
  | busy _ => exact ⟨rfl, hk⟩
  | wait rows => exact ⟨wip_slot _ _ _ _ _ hk, hk⟩
  | same rows => exact ⟨wip_slot _ _ _ _ _ hk, hk⟩
  | publish rows hb hco hp hsd hd =>
      have hne : k ≠ s.next + 1 := by rintro rfl; exact hr hb
      refine ⟨?_, hne⟩
      have hn : (s.wip c r.w (marked s.published.rows rows)).next = s.next := rfl
      rw [rotate_slot _ _ (by rw [hn]; exact hne), wip_slot _ _ _ _ _ hk]

example : ((serveAll (fun _ => true) [(1, false, twoLinks),
    (1, false, [{ data := [{ msgs := [.link { idx := 7 }] }] }])] Nl.init).map (fun s =>
      ((s.slot 0).rows.map (·.idx), (s.slot 0).ref, (s.slot 1).rows.map (·.idx)))).toOption =
    some ([3, 5], 1, [3, 5, 7]) := by decide +kernel

/-- C280 in full: asking for a version that is not kept is answered with `ENOENT`. -/
def C280_statement : Prop :=
  ∀ (ok : SendOk) (s : Nl) (v : Nat), Live ok s → (∀ k, (s.slot k).version ≠ v) →
    ∃ s', getTable v s = .ok (s', none, -2)

/-- Four publications, each released. -/
def grown : Except Fail Nl := serveAll (fun _ => true)
  [(0, false, twoLinks), (0, false, [{ data := [{ msgs := [.link { idx := 7 }] }] }]),
   (0, false, [{ data := [{ msgs := [.link { idx := 8 }] }] }]),
   (0, false, [{ data := [{ msgs := [.link { idx := 9 }] }] }])] Nl.init

theorem serveAll_live (ok : SendOk) (calls : List (Nat × Bool × List Pass)) (s s' : Nl) (hs : Live ok s)
    (hwf : ∀ x ∈ calls, ∀ p ∈ x.2.2, p.wf) (hfine : ∀ x ∈ calls, ∀ p ∈ x.2.2, p.err = none)
    (h : serveAll ok calls s = .ok s') : Live ok s' := by
  induction calls generalizing s with
  | nil => simp only [serveAll, Except.ok.injEq] at h; rw [← h]; exact hs
  | cons x rest ih =>
      obtain ⟨c, co, ps⟩ := x
      simp only [serveAll, bind, Except.bind] at h
      cases hx : service ok c co ps s with
      | error e => simp [hx] at h
      | ok p =>
          simp only [hx] at h
          exact ih p.1 (.service s p.1 c co ps p.2 hs (hwf (c, co, ps) (by simp)) (hfine (c, co, ps) (by simp)) hx)
            (fun x hx => hwf x (by simp [hx])) (fun x hx => hfine x (by simp [hx])) h

/-- The number of versions searched grows with each publication while only four are kept: after the
fourth the search for an unknown version runs off the front of the array. -/
theorem C280_violated : ¬ C280_statement := by
  intro h
  have hg : (grown.toOption.bind (fun s => (getTable 99 s).toOption)).isNone = true := by decide +kernel
  have hv : (grown.map (fun s => decide (∀ k, (s.slot k).version ≠ 99))).toOption = some true := by
    decide +kernel
  cases hs : grown with
  | error e => rw [hs] at hv; cases hv
  | ok s =>
      rw [hs] at hg hv
      have hl : Live (fun _ => true) s := by
        refine serveAll_live _ _ Nl.init s (.init [] (by decide)) ?_ ?_ hs
        · intro x hx p hp
          simp only [List.mem_cons, List.not_mem_nil, or_false] at hx
          rcases hx with rfl | rfl | rfl | rfl <;>
          · simp only [twoLinks, List.mem_singleton] at hp
            subst hp
            intro d hd
            simp only [List.mem_singleton] at hd
            subst hd
            refine ⟨?_, by simp⟩
            intro m hm
            simp only [List.mem_cons, List.not_mem_nil, or_false] at hm
            rcases hm with rfl | rfl <;> simp [Msg.wf]
        · intro x hx p hp
          simp only [List.mem_cons, List.not_mem_nil, or_false] at hx
          rcases hx with rfl | rfl | rfl | rfl <;>
          · simp only [twoLinks, List.mem_singleton] at hp
            subst hp; rfl
      simp only [Except.map, Except.toOption, Option.some.injEq, decide_eq_true_eq] at hv
      obtain ⟨s', h'⟩ := h (fun _ => true) s 99 hl hv
      simp only [Except.toOption, Option.bind_some, h', Option.isNone_some] at hg
      cases hg

/-- C280: a version among the last three published is found, and until the fourth publication a version
that is not kept is answered with `ENOENT`. -/
theorem C280_versions_found_partial (ok : SendOk) (s : Nl) (v : Nat) (hs : Live ok s) :
    (∀ k, (s.slot k).version = v → 0 < v → v < s.current.version → (s.slot k).ref ≠ 0 →
      getTable v s = .ok (s, some k, ((s.slot k).rows.length : Int))) ∧
    (s.current.version ≤ 4 → (∀ k, (s.slot k).version ≠ v) → getTable v s = .ok (s, none, -2)) := by
  have hi := hs.inv
  have hcount := hi.ring.count
  have hcv : s.current.version = s.count := hi.ring.cur
  constructor
  · intro k hk hv0 hvc hr
    obtain ⟨j, rfl⟩ := fin_back s.next k
    by_cases hj : j.val < s.count
    · have hver := hi.ring.slots j hj
      have hj0 : j ≠ 0 := by
        rintro rfl
        have : (0 : Fin 4).val = 0 := rfl
        rw [this] at hver
        omega
      have := findVersion_spec s hi.ring j hj0 hj
      unfold getTable
      rw [← hk, hver, this]
      simp only [bind, Except.bind, pure, Except.pure, if_neg hr]
    · have := hi.ring.unused j (by omega)
      rw [this] at hr
      exact absurd rfl hr
  · intro h4 hno
    have gen : ∀ n i, i + n = s.count → findVersion s v n i = .ok none := by
      intro n
      induction n with
      | zero => intro i _; rfl
      | succ n ih =>
          intro i hi'
          unfold findVersion
          have hnx : (s.next.val : Int) = (s.count : Int) - 1 := by
            rw [hi.ring.next]
            simp only [Fin.ofNat]
            rw [hcv] at h4
            omega
          have hge : ¬ ((s.next.val : Int) + 4 - 1 - i).tmod 4 < 0 := by
            have : 0 ≤ (s.next.val : Int) + 4 - 1 - i := by omega
            have := Int.tmod_nonneg 4 this
            omega
          dsimp only
          rw [if_neg hge, if_neg (hno _)]
          exact ih (i + 1) (by omega)
    unfold getTable
    rw [gen s.count 0 (by omega)]
    rfl

example : ((serveAll (fun _ => true) [(1, false, twoLinks)] Nl.init).map (fun s =>
    ((getTable 1 s).map (fun x => (x.2.1, x.2.2))).toOption)).toOption = some (some (some 0, 2)) := by
  decide +kernel

/-- C281: giving back a published table takes one reference from it and alters no other table, so
long as no servicing had been postponed; the process is not ended. -/
theorem C281_release_counts (ok : SendOk) (c : Nat) (ps : List Pass) (s : Nl) (k : Fin 4)
    (hs : Live ok s) (hv : (s.slot k).version < s.current.version) (hr : (s.slot k).ref ≠ 0)
    (hn : s.needService = false) :
    releaseTable ok (s.slot k).version c ps s =
      .ok ({ s with slot := fun i => if i = k then { s.slot k with ref := (s.slot k).ref - 1 } else s.slot i }, 0) := by
  have hi := hs.inv
  have hcount := hi.ring.count
  have hcv : s.current.version = s.count := hi.ring.cur
  obtain ⟨j, rfl⟩ := fin_back s.next k
  have hj : j.val < s.count := by
    by_contra hj
    have := hi.ring.unused j (by omega)
    rw [this] at hr; exact hr rfl
  have hver := hi.ring.slots j hj
  have hj0 : j ≠ 0 := by
    rintro rfl
    have : (0 : Fin 4).val = 0 := rfl
    rw [this] at hver
    omega
  have := findVersion_spec s hi.ring j hj0 hj
  unfold releaseTable
  rw [hver, this]
  simp only [bind, Except.bind, pure, Except.pure, if_neg hr]
  rw [if_neg (by show ¬ s.needService = true; rw [hn]; simp)]
  rfl

example : ((serveAll (fun _ => true) [(2, false, twoLinks)] Nl.init).map (fun s =>
    ((releaseTable (fun _ => true) 1 2 [] s).map (fun x => (x.1.published.ref, x.2))).toOption)).toOption =
    some (some (1, 0)) := by decide +kernel

/-- C282: servicing is refused, with nothing received or altered, exactly when the table to be
overwritten next still has references. -/
theorem C282_refused_iff_held (ok : SendOk) (c : Nat) (co : Bool) (ps : List Pass) (s s' : Nl) (rc : Int)
    (hs : Live ok s) (hwf : ∀ p ∈ ps, p.wf) (hfine : ∀ p ∈ ps, p.err = none)
    (h : service ok c co ps s = .ok (s', rc)) :
    (rc = -11 ↔ (s.slot (s.next + 1)).ref ≠ 0) ∧
    (rc = -11 → s'.slot = s.slot ∧ s'.next = s.next ∧ s'.needService = true) ∧
    (rc ≠ -11 → 0 ≤ rc ∧ s'.needService = s.needService) := by
  obtain ⟨r, s1, rc1, h1, h2, h3, h4⟩ := service_spec ok c co ps s hs.inv hwf hfine
  rw [h1] at h
  cases h
  cases h4 with
  | busy hb => exact ⟨by simp [hb], fun _ => ⟨rfl, rfl, rfl⟩, fun hx => absurd rfl hx⟩
  | wait rows hb => exact ⟨by simp [hb], by simp, fun _ => ⟨by simp, rfl⟩⟩
  | same rows hb => exact ⟨by simp [hb], by simp, fun _ => ⟨by simp, rfl⟩⟩
  | publish rows hb =>
      refine ⟨by rw [hb]; simp, ?_, fun _ => ⟨by omega, rfl⟩⟩
      intro hx
      omega

example : ((serveAll (fun _ => true) [(1, false, twoLinks),
    (1, false, [{ data := [{ msgs := [.link { idx := 7 }] }] }]),
    (1, false, [{ data := [{ msgs := [.link { idx := 8 }] }] }]),
    (1, false, [{ data := [{ msgs := [.link { idx := 9 }] }] }])] Nl.init).map (fun s =>
      (s.count, s.needService, s.current.rows.length))).toOption = some (4, true, 4) := by decide +kernel

end Verif.Netlink
