import Verif.Netlink.Props3

set_option linter.unusedSimpArgs false
set_option linter.unusedVariables false

/-! The engine's use of the link tables: its invariant and what each event does. -/

namespace Verif.Netlink

theorem inv_used {s : Nl} (hi : s.Inv) (k : Fin 4) (hk : k ≠ s.next) (hr : (s.slot k).ref ≠ 0) :
    ∃ j : Fin 4, s.next - j = k ∧ j ≠ 0 ∧ j.val < s.count ∧ (s.slot k).version = s.count - j.val := by
  obtain ⟨j, rfl⟩ := fin_back s.next k
  have hj : j.val < s.count := by
    by_contra hj
    have := hi.ring.unused j (by omega)
    rw [this] at hr; exact hr rfl
  refine ⟨j, rfl, ?_, hj, hi.ring.slots j hj⟩
  rintro rfl
  apply hk
  generalize s.next = n; revert n; decide

theorem get_found {s : Nl} (hi : s.Inv) (k : Fin 4) (hk : k ≠ s.next) (hr : (s.slot k).ref ≠ 0) :
    getTable (s.slot k).version s = .ok (s, some k, ((s.slot k).rows.length : Int)) := by
  obtain ⟨j, hj, hj0, hjc, hv⟩ := inv_used hi k hk hr
  have := findVersion_spec s hi.ring j hj0 hjc
  unfold getTable
  rw [hv, this]
  simp only [bind, Except.bind, pure, Except.pure]
  rw [hj, if_neg hr]

/-- One reference fewer. -/
def Nl.dec (s : Nl) (k : Fin 4) : Nl := s.setSlot k { s.slot k with ref := (s.slot k).ref - 1 }

theorem release_found {s : Nl} (ok : SendOk) (c : Nat) (ps : List Pass) (hi : s.Inv) (k : Fin 4)
    (hk : k ≠ s.next) (hr : (s.slot k).ref ≠ 0) :
    releaseTable ok (s.slot k).version c ps s =
      if s.needService then service ok c false ps { s.dec k with needService := false }
      else .ok (s.dec k, 0) := by
  obtain ⟨j, hj, hj0, hjc, hv⟩ := inv_used hi k hk hr
  have := findVersion_spec s hi.ring j hj0 hjc
  unfold releaseTable
  rw [hv, this]
  simp only [bind, Except.bind, pure, Except.pure]
  rw [hj, if_neg hr]
  rfl

theorem dec_inv {s : Nl} (hi : s.Inv) (k : Fin 4) (hk : k ≠ s.next) (hr : (s.slot k).ref ≠ 0) :
    (s.dec k).Inv := by
  obtain ⟨j, hj, hj0, hjc, hv⟩ := inv_used hi k hk hr
  exact hi.ref k _ (by omega)

theorem dec_ref (s : Nl) (k i : Fin 4) :
    ((s.dec k).slot i).ref = if i = k then (s.slot k).ref - 1 else (s.slot i).ref := by
  unfold Nl.dec Nl.setSlot
  dsimp only
  split <;> rfl

theorem dec_rows (s : Nl) (k i : Fin 4) : ((s.dec k).slot i).rows = (s.slot i).rows := by
  unfold Nl.dec Nl.setSlot
  dsimp only
  split
  · rename_i h; rw [h]
  · rfl

theorem dec_version (s : Nl) (k i : Fin 4) : ((s.dec k).slot i).version = (s.slot i).version := by
  unfold Nl.dec Nl.setSlot
  dsimp only
  split
  · rename_i h; rw [h]
  · rfl

/-- How many of the tables held are in a slot. -/
def holders (held : List (Nat × Fin 4)) (k : Fin 4) : Nat := held.countP (fun h => decide (h.2 = k))

theorem holders_append (a b : List (Nat × Fin 4)) (k : Fin 4) :
    holders (a ++ b) k = holders a k + holders b k := by
  unfold holders; rw [List.countP_append]

theorem holders_range (n : Nat) (k i : Fin 4) :
    holders ((List.range n).map (·, k)) i = if i = k then n else 0 := by
  unfold holders
  rw [List.countP_map]
  split
  · rename_i h; subst h
    have : ((fun h : Nat × Fin 4 => decide (h.2 = i)) ∘ (fun x : Nat => (x, i))) = fun _ => true := by
      funext x; simp
    rw [this]; simp
  · rename_i h
    have : ((fun h : Nat × Fin 4 => decide (h.2 = i)) ∘ (fun x : Nat => (x, k))) = fun _ => false := by
      funext x; simp only [Function.comp]; exact decide_eq_false (fun he => h he.symm)
    rw [this]; simp

theorem holders_pos {held : List (Nat × Fin 4)} {k : Fin 4} : holders held k ≠ 0 ↔ ∃ h ∈ held, h.2 = k := by
  unfold holders
  rw [← Nat.pos_iff_ne_zero, List.countP_pos_iff]
  simp

theorem holders_erase {held : List (Nat × Fin 4)} {h : Nat × Fin 4} (hm : h ∈ held) (k : Fin 4) :
    holders (held.erase h) k = if k = h.2 then holders held k - 1 else holders held k := by
  have hp := List.perm_cons_erase hm
  have : holders held k = holders (h :: held.erase h) k := hp.countP_eq _
  rw [this]
  unfold holders
  rw [List.countP_cons]
  split
  · rename_i hk; rw [hk]; simp
  · rename_i hk
    have : decide (h.2 = k) = false := decide_eq_false (fun he => hk he.symm)
    simp [this]

/-- What holds of the engine and the subscribers between events. -/
structure Sys.Ok (s : Sys) : Prop where
  inv : s.eng.nl.Inv
  exit : s.eng.nl.exit = none
  table : s.eng.table = some (s.eng.nl.next + 3)
  count : 2 ≤ s.eng.nl.count
  refs : ∀ k, k ≠ s.eng.nl.next →
    (s.eng.nl.slot k).ref = holders s.held k + if k = s.eng.nl.next + 3 then 1 else 0
  heldOk : holders s.held s.eng.nl.next = 0
  out : s.eng.out = []
  need : s.eng.nl.needService = true → (s.eng.nl.slot (s.eng.nl.next + 1)).ref ≠ 0
  space : s.eng.xoffSpace = true → s.eng.nl.needService = true
  poll : s.eng.polling = !s.eng.xoffSpace
  kept : TablesDiffer s.eng.nl.published.rows s.eng.nl.current.rows →
    s.eng.xoffCoalesce = true ∨ s.eng.nl.needService = true
  noDown : ∀ r ∈ s.eng.nl.published.rows, r.ev ≠ .down

/-- What holds when a table has been published and is about to be taken up. -/
structure Mid (e : Eng) (held : List (Nat × Fin 4)) : Prop where
  inv : e.nl.Inv
  exit : e.nl.exit = none
  table : e.table = some (e.nl.next + 2)
  count : 3 ≤ e.nl.count
  refs : ∀ k, k ≠ e.nl.next → (e.nl.slot k).ref =
    holders held k + (if k = e.nl.next + 2 then 1 else 0) + if k = e.nl.next + 3 then e.subs + 1 else 0
  heldOk : holders held e.nl.next = 0
  fresh : holders held (e.nl.next + 3) = 0
  out : e.out = []
  need : e.nl.needService = false
  poll : e.polling = !e.xoffSpace
  same : ¬ TablesDiffer e.nl.published.rows e.nl.current.rows
  noDown : ∀ r ∈ e.nl.published.rows, r.ev ≠ .down

/-- The engine with polling resumed. -/
def Eng.resume (e : Eng) : Eng := { e with xoffSpace := false, polling := true }

theorem resume_if (e : Eng) (h : e.polling = !e.xoffSpace) :
    (if e.xoffSpace = true then { e with xoffSpace := false, polling := true } else e) = e.resume := by
  cases e with
  | mk nl table prev subs sp co poll ms out hot =>
      simp only at h
      subst h
      cases sp <;> rfl

theorem resume_id (e : Eng) (h : e.polling = !e.xoffSpace) (hs : e.xoffSpace = false) : e.resume = e := by
  cases e with
  | mk nl table prev subs sp co poll ms out hot =>
      simp only at h hs
      subst h hs
      rfl

/-- The engine after taking up the table just published. -/
def Eng.took (e : Eng) : Eng :=
  { e with
    nl := e.nl.dec (e.nl.next + 2), prev := some (e.nl.next + 2), table := some (e.nl.next + 3)
    xoffSpace := false, polling := true
    hot := e.hot ++ hotplug (e.nl.slot (e.nl.next + 2)).rows (e.nl.slot (e.nl.next + 3)).rows
    out := e.out ++ (List.range e.subs).map (·, e.nl.next + 3) }

theorem fin_two_ne (n : Fin 4) : n + 2 ≠ n := by revert n; decide
theorem fin_two_three (n : Fin 4) : n + 2 ≠ n + 3 := by revert n; decide

theorem handle_mid (ok : SendOk) (ps : List Pass) (pss : List (List Pass)) (e : Eng) (held : List (Nat × Fin 4))
    (h : Mid e held) :
    handleNewTable ok (ps :: pss) (e.nl.published.version : Int) e = .ok e.took := by
  have hr3 : (e.nl.slot (e.nl.next + 3)).ref ≠ 0 := by
    rw [h.refs _ (fin_pred_ne _), if_pos rfl]; omega
  have hr2 : (e.nl.slot (e.nl.next + 2)).ref ≠ 0 := by
    rw [h.refs _ (fin_two_ne _), if_pos rfl]; omega
  have hget := get_found h.inv (e.nl.next + 3) (fin_pred_ne _) hr3
  have hrel := release_found ok (e.subs + 1) ps h.inv (e.nl.next + 2) (fin_two_ne _) hr2
  rw [h.need] at hrel
  simp only [Bool.false_eq_true, if_false] at hrel
  obtain ⟨j, hj, hj0, hjc, hv⟩ := inv_used h.inv (e.nl.next + 3) (fin_pred_ne _) hr3
  have hpos : 0 < (e.nl.published.version : Int) := by
    have : e.nl.published.version = e.nl.count - j.val := hv
    omega
  have hdown : ((e.nl.slot (e.nl.next + 3)).rows.any (fun l => decide (l.ev = .down))) = false := by
    rw [List.any_eq_false]
    intro r hr
    have := h.noDown r hr
    simpa using this
  have hloop : newTableLoop ok (ps :: pss) (e.nl.published.version : Int) e =
      .ok ({ e with
        nl := e.nl.dec (e.nl.next + 2), prev := some (e.nl.next + 2), table := some (e.nl.next + 3)
        xoffSpace := false, polling := true
        hot := e.hot ++ hotplug (e.nl.slot (e.nl.next + 2)).rows (e.nl.slot (e.nl.next + 3)).rows }, false) := by
    unfold newTableLoop
    rw [if_neg (by omega)]
    simp only [bind, Except.bind]
    have : (e.nl.published.version : Int).toNat = (e.nl.slot (e.nl.next + 3)).version := by
      simp [Nl.published]
    rw [this, hget]
    simp only [h.table, Option.some_or, ne_eq, not_true_eq_false, if_false, hdown, Bool.false_eq_true,
      hrel]
    have hres := resume_if { e with
      nl := e.nl.dec (e.nl.next + 2), prev := some (e.nl.next + 2), table := some (e.nl.next + 3)
      hot := e.hot ++ hotplug (e.nl.slot (e.nl.next + 2)).rows (e.nl.slot (e.nl.next + 3)).rows } h.poll
    simp only at hres
    rw [hres]
    unfold newTableLoop
    simp [Eng.resume]
  unfold handleNewTable
  rw [hloop]
  simp only [bind, Except.bind, Bool.false_eq_true, if_false, if_pos hpos, pure, Except.pure]
  rfl

theorem mid_ok (e : Eng) (held : List (Nat × Fin 4)) (h : Mid e held) : (collect e.took held).Ok := by
  have hr2 : (e.nl.slot (e.nl.next + 2)).ref ≠ 0 := by
    rw [h.refs _ (fin_two_ne _), if_pos rfl]; omega
  have hout : e.took.out = (List.range e.subs).map (·, e.nl.next + 3) := by
    show e.out ++ _ = _
    rw [h.out]; rfl
  have hpub : (e.nl.dec (e.nl.next + 2)).published.rows = e.nl.published.rows := dec_rows _ _ _
  have hcur : (e.nl.dec (e.nl.next + 2)).current.rows = e.nl.current.rows := dec_rows _ _ _
  refine ⟨dec_inv h.inv _ (fin_two_ne _) hr2, h.exit, rfl, ?_, ?_, ?_, rfl, ?_, ?_, ?_, ?_, ?_⟩
  · show 2 ≤ e.nl.count
    have := h.count; omega
  · intro k hk
    have hk' : k ≠ e.nl.next := hk
    show ((e.nl.dec (e.nl.next + 2)).slot k).ref = holders (held ++ e.took.out) k + if k = e.nl.next + 3 then 1 else 0
    rw [hout, holders_append, holders_range, dec_ref]
    by_cases h2 : k = e.nl.next + 2
    · subst h2
      rw [if_pos rfl, if_neg (fin_two_three _), if_neg (fin_two_three _), h.refs _ hk', if_pos rfl,
        if_neg (fin_two_three _)]
      omega
    · rw [if_neg h2, h.refs _ hk', if_neg h2]
      by_cases h3 : k = e.nl.next + 3
      · simp only [if_pos h3]; omega
      · simp only [if_neg h3]
  · show holders (held ++ e.took.out) e.nl.next = 0
    rw [hout, holders_append, holders_range, h.heldOk, if_neg (fun he => fin_pred_ne _ he.symm)]
  · intro hn
    have : e.nl.needService = true := hn
    rw [h.need] at this; cases this
  · intro hn; cases hn
  · rfl
  · intro hd
    have : TablesDiffer (e.nl.dec (e.nl.next + 2)).published.rows (e.nl.dec (e.nl.next + 2)).current.rows := hd
    rw [hpub, hcur] at this
    exact absurd this h.same
  · show ∀ r ∈ (e.nl.dec (e.nl.next + 2)).published.rows, r.ev ≠ .down
    rw [hpub]; exact h.noDown

/-- Servicing on behalf of the engine: what each outcome leaves.  `e0` is the engine before, its own
and the subscribers' references being right. -/
structure Pre (e : Eng) (held : List (Nat × Fin 4)) : Prop where
  inv : e.nl.Inv
  exit : e.nl.exit = none
  table : e.table = some (e.nl.next + 3)
  count : 2 ≤ e.nl.count
  refs : ∀ k, k ≠ e.nl.next →
    (e.nl.slot k).ref = holders held k + if k = e.nl.next + 3 then 1 else 0
  heldOk : holders held e.nl.next = 0
  out : e.out = []
  need : e.nl.needService = true → (e.nl.slot (e.nl.next + 1)).ref ≠ 0
  noDown : ∀ r ∈ e.nl.published.rows, r.ev ≠ .down

theorem pre_busy {e : Eng} {held : List (Nat × Fin 4)} (h : Pre e held)
    (hb : (e.nl.slot (e.nl.next + 1)).ref ≠ 0) (sp : Bool) :
    ({ eng := { e with nl := { e.nl with needService := true }, xoffSpace := sp, polling := !sp }
       held := held } : Sys).Ok :=
  ⟨h.inv.needService true, h.exit, h.table, h.count, h.refs, h.heldOk, h.out, fun _ => hb, fun _ => rfl,
   rfl, fun _ => .inr rfl, h.noDown⟩

theorem pre_wip {e : Eng} {held : List (Nat × Fin 4)} {c : Nat} {w : Work} {rows : List Link} (h : Pre e held)
    (hi : (e.nl.wip c w rows).Inv) (hn : e.nl.needService = false)
    (hk : TablesDiffer e.nl.published.rows rows → e.xoffCoalesce = true) :
    ({ eng := Eng.resume { e with nl := e.nl.wip c w rows }, held := held } : Sys).Ok := by
  refine ⟨hi, h.exit, h.table, h.count, ?_, h.heldOk, h.out, ?_, nofun, rfl, ?_, ?_⟩
  · intro k hk
    replace hk : k ≠ e.nl.next := hk
    show ((e.nl.wip c w rows).slot k).ref = _
    rw [wip_slot _ _ _ _ _ hk]; exact h.refs k hk
  · intro hx
    have : e.nl.needService = true := hx
    rw [hn] at this; cases this
  · intro hd
    refine .inl (hk ?_)
    have hd : TablesDiffer ((e.nl.wip c w rows).slot (e.nl.next + 3)).rows
      ((e.nl.wip c w rows).slot e.nl.next).rows := hd
    rw [wip_slot _ _ _ _ _ (fin_pred_ne _), wip_cur] at hd
    exact hd
  · show ∀ r ∈ ((e.nl.wip c w rows).slot (e.nl.next + 3)).rows, r.ev ≠ .down
    rw [wip_slot _ _ _ _ _ (fin_pred_ne _)]; exact h.noDown

theorem fin_3_2 (n : Fin 4) : n + 1 + 2 = n + 3 := by revert n; decide

theorem pre_mid {e : Eng} {held : List (Nat × Fin 4)} {w : Work} {rows : List Link} (h : Pre e held)
    (hi : (e.nl.wip (e.subs + 1) w (marked e.nl.published.rows rows)).Inv)
    (hb : (e.nl.slot (e.nl.next + 1)).ref = 0) (hpoll : e.polling = !e.xoffSpace) :
    Mid { e with nl := (e.nl.wip (e.subs + 1) w (marked e.nl.published.rows rows)).rotate } held := by
  have hn : e.nl.needService = false := by
    cases hx : e.nl.needService with
    | false => rfl
    | true => exact absurd hb (h.need hx)
  have hnx : (e.nl.wip (e.subs + 1) w (marked e.nl.published.rows rows)).next = e.nl.next := rfl
  generalize hm : marked e.nl.published.rows rows = m at *
  have hsl : ∀ k, k ≠ e.nl.next + 1 → (e.nl.wip (e.subs + 1) w m).rotate.slot k = (e.nl.wip (e.subs + 1) w m).slot k :=
    fun k hk => rotate_slot _ _ (by rw [hnx]; exact hk)
  have hpub : (e.nl.wip (e.subs + 1) w m).rotate.published.rows = m := by
    show ((e.nl.wip (e.subs + 1) w m).rotate.slot (e.nl.next + 1 + 3)).rows = m
    rw [fin_cycle, hsl _ (fun hx => fin_succ_ne _ hx.symm), wip_cur]
  have hcur : (e.nl.wip (e.subs + 1) w m).rotate.current.rows = m := by
    have := rotate_new (e.nl.wip (e.subs + 1) w m)
    rw [hnx] at this
    show ((e.nl.wip (e.subs + 1) w m).rotate.slot (e.nl.next + 1)).rows = m
    rw [this, wip_cur]
  have hsorted : Sorted m := by
    have := hi.sorted
    rw [show (e.nl.wip (e.subs + 1) w m).current = (e.nl.wip (e.subs + 1) w m).slot e.nl.next from rfl, wip_cur] at this
    exact this
  refine ⟨rotate_inv _ hi, h.exit, ?_, ?_, ?_, ?_, ?_, h.out, hn, hpoll, ?_, ?_⟩
  · show e.table = some (e.nl.next + 1 + 2)
    rw [fin_3_2]; exact h.table
  · show 3 ≤ e.nl.count + 1
    have := h.count; omega
  · intro k hk
    have hk' : k ≠ e.nl.next + 1 := hk
    show ((e.nl.wip (e.subs + 1) w m).rotate.slot k).ref = holders held k +
      (if k = e.nl.next + 1 + 2 then 1 else 0) + if k = e.nl.next + 1 + 3 then e.subs + 1 else 0
    rw [hsl _ hk', fin_3_2, fin_cycle]
    by_cases hkn : k = e.nl.next
    · subst hkn
      rw [wip_cur, h.heldOk, if_neg (fun hx => fin_pred_ne _ hx.symm), if_pos rfl]
      show e.subs + 1 = 0 + 0 + (e.subs + 1)
      omega
    · rw [wip_slot _ _ _ _ _ hkn, h.refs k hkn, if_neg hkn, Nat.add_zero]
  · show holders held (e.nl.next + 1) = 0
    have := h.refs (e.nl.next + 1) (fin_succ_ne _)
    rw [hb] at this; omega
  · show holders held (e.nl.next + 1 + 3) = 0
    rw [fin_cycle]; exact h.heldOk
  · show ¬ TablesDiffer (e.nl.wip (e.subs + 1) w m).rotate.published.rows (e.nl.wip (e.subs + 1) w m).rotate.current.rows
    rw [hpub, hcur]; exact differ_self _ hsorted
  · show ∀ r ∈ (e.nl.wip (e.subs + 1) w m).rotate.published.rows, r.ev ≠ .down
    rw [hpub, ← hm]; exact marked_no_down _ _

/-! ### The effect of an event -/

/-- What an event does, `held` being what the subscribers hold apart from what is sent: either nothing
is published, or the next version is, each subscriber is sent it once and the interface module is told. -/
inductive Effect (s s' : Sys) (held : List (Nat × Fin 4)) : Prop
  | quiet : s'.eng.nl.next = s.eng.nl.next → s'.held = held → s'.eng.hot = s.eng.hot →
      s'.eng.nl.published.rows = s.eng.nl.published.rows →
      s'.eng.nl.published.version = s.eng.nl.published.version → s'.eng.subs = s.eng.subs →
      (∀ k, k ≠ s.eng.nl.next → (s'.eng.nl.slot k).rows = (s.eng.nl.slot k).rows ∧
        (s'.eng.nl.slot k).version = (s.eng.nl.slot k).version) → Effect s s' held
  | fresh : s'.eng.nl.next = s.eng.nl.next + 1 →
      s'.held = held ++ (List.range s.eng.subs).map (·, s.eng.nl.next) →
      s'.eng.hot = s.eng.hot ++ hotplug s.eng.nl.published.rows s'.eng.nl.published.rows →
      (∃ rows, s'.eng.nl.published.rows = marked s.eng.nl.published.rows rows) →
      s'.eng.nl.published.version = s.eng.nl.published.version + 1 →
      TablesDiffer s.eng.nl.published.rows s'.eng.nl.published.rows → s'.eng.subs = s.eng.subs →
      (∀ k, k ≠ s.eng.nl.next → k ≠ s.eng.nl.next + 1 → (s'.eng.nl.slot k).rows = (s.eng.nl.slot k).rows ∧
        (s'.eng.nl.slot k).version = (s.eng.nl.slot k).version) → Effect s s' held

theorem Sys.Ok.pub_version {s : Sys} (h : s.Ok) : s.eng.nl.published.version + 1 = s.eng.nl.current.version := by
  have h1 := h.inv.ring.slots 1 (by have := h.count; have : (1 : Fin 4).val = 1 := rfl; omega)
  rw [← fin_pred] at h1
  have h2 := h.inv.ring.cur
  have h3 : s.eng.nl.published.version = s.eng.nl.count - 1 := h1
  have := h.count
  omega

theorem pub_version {s : Nl} (h : s.Inv) (hc : 2 ≤ s.count) : s.published.version + 1 = s.current.version := by
  have h1 := h.ring.slots 1 (by have : (1 : Fin 4).val = 1 := rfl; omega)
  rw [← fin_pred] at h1
  have h2 := h.ring.cur
  have h3 : s.published.version = s.count - 1 := h1
  omega

/-- Taking up a published table, seen from the engine that asked for servicing. -/
theorem take_up (ok : SendOk) (ps : List Pass) (pss : List (List Pass)) (e : Eng) (held : List (Nat × Fin 4))
    (r : Served) (rows : List Link) (h : Pre e held) (hpoll : e.polling = !e.xoffSpace) (hr : r.w.Fine)
    (hb : (e.nl.slot (e.nl.next + 1)).ref = 0) (hp : rows.Perm r.w.rows) (hsd : Sorted rows)
    (hd : TablesDiffer e.nl.published.rows rows) :
    ∃ e', handleNewTable ok (ps :: pss) (e.nl.current.version : Int)
        { e with nl := (e.nl.wip (e.subs + 1) r.w (marked e.nl.published.rows rows)).rotate } = .ok e' ∧
      (collect e' held).Ok ∧ e'.xoffSpace = false ∧ e'.polling = true ∧ e'.xoffCoalesce = e.xoffCoalesce ∧
      Effect { eng := e } (collect e' held) held := by
  have hinv : (e.nl.wip (e.subs + 1) r.w (marked e.nl.published.rows rows)).Inv := by
    refine wip_inv _ _ _ _ h.inv hr h.inv.fine.keys ?_ (hsd.of_idx (marked_idx _ _))
    have := congrArg List.length (marked_idx e.nl.published.rows rows)
    simp only [List.length_map] at this
    rw [this, hp.length_eq]; exact hr.ok.room
  have hm := pre_mid h hinv hb hpoll
  have hnx : (e.nl.wip (e.subs + 1) r.w (marked e.nl.published.rows rows)).next = e.nl.next := rfl
  have hslot : (e.nl.wip (e.subs + 1) r.w (marked e.nl.published.rows rows)).rotate.slot (e.nl.next + 1 + 3) =
      { e.nl.slot e.nl.next with rows := marked e.nl.published.rows rows, cap := r.w.cap, ref := e.subs + 1 } := by
    rw [fin_cycle, rotate_slot _ _ (by rw [hnx]; exact fun hx => fin_succ_ne _ hx.symm), wip_cur]
  have hpr : (e.nl.wip (e.subs + 1) r.w (marked e.nl.published.rows rows)).rotate.published.rows =
      marked e.nl.published.rows rows := congrArg Db.rows hslot
  have hpv : (e.nl.wip (e.subs + 1) r.w (marked e.nl.published.rows rows)).rotate.published.version =
      e.nl.current.version := by
    show ((e.nl.wip (e.subs + 1) r.w (marked e.nl.published.rows rows)).rotate.slot (e.nl.next + 1 + 3)).version = _
    rw [hslot]; rfl
  have hold : ((e.nl.wip (e.subs + 1) r.w (marked e.nl.published.rows rows)).rotate.slot (e.nl.next + 1 + 2)).rows =
      e.nl.published.rows := by
    rw [fin_3_2, rotate_slot _ _ (by rw [hnx]; exact fin_pred_ne_succ _), wip_slot _ _ _ _ _ (fin_pred_ne _)]
    rfl
  have hh := handle_mid ok ps pss _ held hm
  rw [show (({ e with nl := (e.nl.wip (e.subs + 1) r.w (marked e.nl.published.rows rows)).rotate } : Eng).nl.published.version : Int)
    = (e.nl.current.version : Int) from congrArg _ hpv] at hh
  refine ⟨_, hh, mid_ok _ held hm, rfl, rfl, rfl, ?_⟩
  refine .fresh rfl ?_ ?_ ⟨rows, ?_⟩ ?_ ?_ rfl ?_
  · show held ++ (e.out ++ (List.range e.subs).map (·, e.nl.next + 1 + 3)) = _
    rw [h.out, fin_cycle]; rfl
  · show e.hot ++ hotplug
      ((e.nl.wip (e.subs + 1) r.w (marked e.nl.published.rows rows)).rotate.slot (e.nl.next + 1 + 2)).rows
      ((e.nl.wip (e.subs + 1) r.w (marked e.nl.published.rows rows)).rotate.slot (e.nl.next + 1 + 3)).rows = _
    rw [hold]
    congr 2
    exact (dec_rows _ _ _).symm
  · exact (dec_rows _ _ _).trans hpr
  · refine (dec_version _ _ _).trans ?_
    show (e.nl.wip (e.subs + 1) r.w (marked e.nl.published.rows rows)).rotate.published.version = e.nl.published.version + 1
    rw [hpv, pub_version h.inv h.count]
  · have : (collect (Eng.took { e with nl := (e.nl.wip (e.subs + 1) r.w (marked e.nl.published.rows rows)).rotate }) held).eng.nl.published.rows
        = marked e.nl.published.rows rows := (dec_rows _ _ _).trans hpr
    rw [this]
    exact (differ_marked _ _).2 hd
  · intro k hk hk1
    have hx : (e.nl.wip (e.subs + 1) r.w (marked e.nl.published.rows rows)).rotate.slot k = e.nl.slot k := by
      rw [rotate_slot _ _ (by rw [hnx]; exact hk1), wip_slot _ _ _ _ _ hk]
    exact ⟨(dec_rows _ _ _).trans (congrArg Db.rows hx), (dec_version _ _ _).trans (congrArg Db.version hx)⟩

theorem Pre.wip_inv {e : Eng} {held : List (Nat × Fin 4)} (h : Pre e held) {r : Served} (hr : r.w.Fine)
    {rows : List Link} (hp : rows.Perm r.w.rows) (hsd : Sorted rows) (c : Nat) (prev : List Link) :
    (e.nl.wip c r.w rows).Inv ∧ (e.nl.wip c r.w (marked prev rows)).Inv := by
  refine ⟨Verif.Netlink.wip_inv _ _ _ _ h.inv hr h.inv.fine.keys (by rw [hp.length_eq]; exact hr.ok.room) hsd,
    Verif.Netlink.wip_inv _ _ _ _ h.inv hr h.inv.fine.keys ?_ (hsd.of_idx (marked_idx _ _))⟩
  have := congrArg List.length (marked_idx prev rows)
  simp only [List.length_map] at this
  rw [this, hp.length_eq]; exact hr.ok.room

theorem quiet_wip {e e0 : Eng} {held : List (Nat × Fin 4)} (c : Nat) (w : Work) (rows : List Link)
    (he : e.nl.next = e0.nl.next) (hh : e.hot = e0.hot) (hs : e.subs = e0.subs)
    (hp : e.nl.published.rows = e0.nl.published.rows) (hv : e.nl.published.version = e0.nl.published.version)
    (ho : e.out = []) (h0 : List (Nat × Fin 4)) (nl' : Eng) (hn : nl'.nl = e.nl.wip c w rows)
    (hh' : nl'.hot = e.hot) (ho' : nl'.out = e.out) (hs' : nl'.subs = e.subs)
    (hsame : ∀ k, (e.nl.slot k).rows = (e0.nl.slot k).rows ∧ (e.nl.slot k).version = (e0.nl.slot k).version) :
    Effect { eng := e0, held := h0 } (collect nl' held) held := by
  refine .quiet ?_ ?_ (hh'.trans hh) ?_ ?_ (hs'.trans hs) ?_
  · show nl'.nl.next = _
    rw [hn]; exact he
  · show held ++ nl'.out = held
    rw [ho', ho, List.append_nil]
  · show nl'.nl.published.rows = _
    rw [hn]
    show ((e.nl.wip c w rows).slot (e.nl.next + 3)).rows = _
    rw [wip_slot _ _ _ _ _ (fin_pred_ne _)]; exact hp
  · show nl'.nl.published.version = _
    rw [hn]
    show ((e.nl.wip c w rows).slot (e.nl.next + 3)).version = _
    rw [wip_slot _ _ _ _ _ (fin_pred_ne _)]; exact hv
  · intro k hk
    have hk : k ≠ e0.nl.next := hk
    show (nl'.nl.slot k).rows = _ ∧ (nl'.nl.slot k).version = _
    rw [hn, wip_slot _ _ _ _ _ (by rw [he]; exact hk)]
    exact hsame k

/-- The messages of an event are well formed, receiving does not fail, and there is enough of it. -/
def In.wf : In → Prop
  | .fds _ ps pss | .timer _ ps pss | .release _ ps pss =>
      (∀ p ∈ ps, p.wf ∧ p.err = none) ∧ pss ≠ []

theorem Effect.from {s s0 s' : Sys} {held : List (Nat × Fin 4)} (h : Effect s s' held)
    (he : s.eng.nl.next = s0.eng.nl.next) (hh : s.eng.hot = s0.eng.hot) (hs : s.eng.subs = s0.eng.subs)
    (hp : s.eng.nl.published.rows = s0.eng.nl.published.rows)
    (hv : s.eng.nl.published.version = s0.eng.nl.published.version)
    (hsame : ∀ k, (s.eng.nl.slot k).rows = (s0.eng.nl.slot k).rows ∧
      (s.eng.nl.slot k).version = (s0.eng.nl.slot k).version) : Effect s0 s' held := by
  cases h with
  | quiet a b c d e f z =>
      exact .quiet (a.trans he) b (c.trans hh) (d.trans hp) (e.trans hv) (f.trans hs)
        (fun k hk => ⟨(z k (by rw [he]; exact hk)).1.trans (hsame k).1, (z k (by rw [he]; exact hk)).2.trans (hsame k).2⟩)
  | fresh a b c d e f g z =>
      rw [he, hs] at b
      rw [hh, hp] at c
      rw [hp] at d f
      rw [hv] at e
      exact .fresh (a.trans (by rw [he])) b c d e f (g.trans hs)
        (fun k hk hk1 => ⟨(z k (by rw [he]; exact hk) (by rw [he]; exact hk1)).1.trans (hsame k).1,
          (z k (by rw [he]; exact hk) (by rw [he]; exact hk1)).2.trans (hsame k).2⟩)

theorem collect_id (e : Eng) (he : e.out = []) (h : List (Nat × Fin 4)) : collect e h = { eng := e, held := h } := by
  unfold collect; rw [he, List.append_nil]
  cases e; simp only at he; subst he; rfl

/-- Servicing the descriptors. -/
theorem fds_spec (ok : SendOk) (num : Nat) (t : Bool) (ps : List Pass) (pss : List (List Pass)) (s : Sys)
    (hs : s.Ok) (hw : ∀ p ∈ ps, p.wf ∧ p.err = none) (hpss : pss ≠ [])
    (hnum : num = 0 → s.eng.xoffCoalesce = true) :
    ∃ e', onUserFds ok num t ps pss s.eng = .ok e' ∧ (collect e' s.held).Ok ∧
      Effect s (collect e' s.held) s.held ∧ (num = 0 → e'.xoffCoalesce = false) := by
  obtain ⟨ps1, pss1, rfl⟩ := List.exists_cons_of_ne_nil hpss
  -- the engine with the flag decided
  obtain ⟨x, hx, hx0⟩ : ∃ x : Bool,
      (if s.eng.xoffCoalesce = false ∧ s.eng.coalesceMs ≠ 0 then
        if t then { s.eng with xoffCoalesce := true } else s.eng
      else if num = 0 then { s.eng with xoffCoalesce := false } else s.eng) =
        { s.eng with xoffCoalesce := x } ∧ (num = 0 → x = false) := by
    split
    · rename_i hc
      have hn : num ≠ 0 := fun h0 => by rw [hnum h0] at hc; cases hc.1
      split
      · exact ⟨true, rfl, fun h0 => absurd h0 hn⟩
      · exact ⟨s.eng.xoffCoalesce, rfl, fun h0 => absurd h0 hn⟩
    · split
      · exact ⟨false, rfl, fun _ => rfl⟩
      · rename_i hn; exact ⟨s.eng.xoffCoalesce, rfl, fun h0 => absurd h0 hn⟩
  unfold onUserFds
  rw [hx]
  simp only [bind, Except.bind, pure, Except.pure]
  have hpre : Pre { s.eng with xoffCoalesce := x } s.held :=
    ⟨hs.inv, hs.exit, hs.table, hs.count, hs.refs, hs.heldOk, hs.out, hs.need, hs.noDown⟩
  obtain ⟨r, nl', rc, h1, _, h3, h4⟩ := service_spec ok (s.eng.subs + 1) (s.eng.xoffSpace || x) ps s.eng.nl hs.inv
    (fun p hp => (hw p hp).1) (fun p hp => (hw p hp).2)
  rw [h1]
  dsimp only
  have hfree : (s.eng.nl.slot (s.eng.nl.next + 1)).ref = 0 → s.eng.nl.needService = false ∧ s.eng.xoffSpace = false := by
    intro hb
    have hn : s.eng.nl.needService = false := by
      cases hx : s.eng.nl.needService with
      | false => rfl
      | true => exact absurd hb (hs.need hx)
    refine ⟨hn, ?_⟩
    cases hx : s.eng.xoffSpace with
    | false => rfl
    | true => rw [hs.space hx] at hn; cases hn
  cases h4 with
  | busy hb =>
      simp only [show ¬ (-11 : Int) > 0 by decide, if_false, if_true]
      refine ⟨_, rfl, ?_, ?_, hx0⟩
      · have := pre_busy hpre hb true
        rw [collect_id _ (by exact hs.out)]; exact this
      · refine .quiet rfl ?_ rfl rfl rfl rfl (fun _ _ => ⟨rfl, rfl⟩)
        show s.held ++ s.eng.out = s.held
        rw [hs.out, List.append_nil]
  | wait rows hb hco hp hsd =>
      obtain ⟨hn, hsp⟩ := hfree hb
      have hxc : x = true := by rw [hsp] at hco; exact hco
      simp only [show ¬ (0 : Int) > 0 by decide, show (0 : Int) ≠ -11 by decide, if_false]
      refine ⟨_, rfl, ?_, ?_, hx0⟩
      · have := pre_wip hpre (hpre.wip_inv h3 hp hsd (s.eng.subs + 1) []).1 hn (fun _ => hxc)
        rw [resume_id _ (by exact hs.poll) (by exact hsp)] at this
        rw [collect_id _ (by exact hs.out)]; exact this
      · exact quiet_wip (e := s.eng) (e0 := s.eng) (s.eng.subs + 1) r.w rows rfl rfl rfl rfl rfl hs.out s.held _ rfl rfl rfl rfl (fun _ => ⟨rfl, rfl⟩)
  | same rows hb hco hp hsd hd =>
      obtain ⟨hn, hsp⟩ := hfree hb
      simp only [show ¬ (0 : Int) > 0 by decide, show (0 : Int) ≠ -11 by decide, if_false]
      refine ⟨_, rfl, ?_, ?_, hx0⟩
      · have := pre_wip hpre (hpre.wip_inv h3 hp hsd (s.eng.subs + 1) s.eng.nl.published.rows).2 hn
          (fun hx => absurd ((differ_marked _ _).1 hx) hd)
        rw [resume_id _ (by exact hs.poll) (by exact hsp)] at this
        rw [collect_id _ (by exact hs.out)]; exact this
      · exact quiet_wip (e := s.eng) (e0 := s.eng) (s.eng.subs + 1) r.w (marked s.eng.nl.published.rows rows) rfl rfl rfl rfl rfl hs.out s.held _ rfl rfl rfl rfl (fun _ => ⟨rfl, rfl⟩)
  | publish rows hb hco hp hsd hd =>
      obtain ⟨e', he, hok, _, _, hxc, heff⟩ := take_up ok ps1 pss1 { s.eng with xoffCoalesce := x } s.held r rows hpre
        hs.poll h3 hb hp hsd hd
      have hpos : (s.eng.nl.current.version : Int) > 0 := by
        have := hs.inv.ring.cur; have := hs.count; omega
      rw [if_pos hpos]
      exact ⟨e', he, hok, heff.from rfl rfl rfl rfl rfl (fun _ => ⟨rfl, rfl⟩), fun h0 => hxc.trans (hx0 h0)⟩

/-- Giving back a table. -/
theorem release_spec (ok : SendOk) (h : Nat × Fin 4) (ps : List Pass) (pss : List (List Pass)) (s : Sys)
    (hs : s.Ok) (hw : ∀ p ∈ ps, p.wf ∧ p.err = none) (hpss : pss ≠ []) (hm : h ∈ s.held) :
    ∃ e', onRelease ok h.2 ps pss s.eng = .ok e' ∧ (collect e' (s.held.erase h)).Ok ∧
      Effect s (collect e' (s.held.erase h)) (s.held.erase h) := by
  obtain ⟨ps1, pss1, rfl⟩ := List.exists_cons_of_ne_nil hpss
  have hpos : holders s.held h.2 ≠ 0 := holders_pos.2 ⟨h, hm, rfl⟩
  have hk : h.2 ≠ s.eng.nl.next := by
    intro he; rw [he] at hpos; exact hpos hs.heldOk
  have hr : (s.eng.nl.slot h.2).ref ≠ 0 := by rw [hs.refs _ hk]; omega
  have hrel := release_found ok (s.eng.subs + 1) ps hs.inv h.2 hk hr
  have hdi := dec_inv hs.inv h.2 hk hr
  have hrefs : ∀ k, k ≠ s.eng.nl.next → ((s.eng.nl.dec h.2).slot k).ref =
      holders (s.held.erase h) k + if k = s.eng.nl.next + 3 then 1 else 0 := by
    intro k hkn
    rw [dec_ref, holders_erase hm]
    by_cases hkh : k = h.2
    · rw [if_pos hkh, if_pos hkh, hs.refs _ hk, hkh]; omega
    · rw [if_neg hkh, if_neg hkh, hs.refs _ hkn]
  have hheld : holders (s.held.erase h) s.eng.nl.next = 0 := by
    rw [holders_erase hm, if_neg (fun he => hk he.symm), hs.heldOk]
  have hpub : (s.eng.nl.dec h.2).published.rows = s.eng.nl.published.rows := dec_rows _ _ _
  have hpv : (s.eng.nl.dec h.2).published.version = s.eng.nl.published.version := dec_version _ _ _
  have hcur : (s.eng.nl.dec h.2).current.rows = s.eng.nl.current.rows := dec_rows _ _ _
  unfold onRelease
  rw [hrel]
  simp only [bind, Except.bind, pure, Except.pure]
  cases hn : s.eng.nl.needService with
  | false =>
      simp only [Bool.false_eq_true, if_false, show ¬ (0 : Int) > 0 by decide]
      have hsp : s.eng.xoffSpace = false := by
        cases hx : s.eng.xoffSpace with
        | false => rfl
        | true => rw [hs.space hx] at hn; cases hn
      rw [hsp]
      simp only [Bool.false_eq_true, if_false]
      refine ⟨_, rfl, ?_, ?_⟩
      · rw [collect_id _ (by exact hs.out)]
        refine ⟨hdi, hs.exit, hs.table, hs.count, hrefs, hheld, hs.out, ?_, ?_, ?_, ?_, ?_⟩
        · intro hx
          have : s.eng.nl.needService = true := hx
          rw [hn] at this; cases this
        · exact nofun
        · show s.eng.polling = !false
          rw [hs.poll, hsp]
        · intro hd
          have hd : TablesDiffer (s.eng.nl.dec h.2).published.rows (s.eng.nl.dec h.2).current.rows := hd
          rw [hpub, hcur] at hd
          exact hs.kept hd
        · show ∀ r ∈ (s.eng.nl.dec h.2).published.rows, r.ev ≠ .down
          rw [hpub]; exact hs.noDown
      · refine .quiet rfl ?_ rfl hpub hpv rfl (fun k _ => ⟨dec_rows _ _ _, dec_version _ _ _⟩)
        show s.held.erase h ++ s.eng.out = _
        rw [hs.out, List.append_nil]
  | true =>
      simp only [if_true]
      have hpre : Pre { s.eng with nl := { s.eng.nl.dec h.2 with needService := false } } (s.held.erase h) := by
        refine ⟨hdi.needService false, hs.exit, hs.table, hs.count, hrefs, hheld, hs.out, nofun, ?_⟩
        show ∀ r ∈ (s.eng.nl.dec h.2).published.rows, r.ev ≠ .down
        rw [hpub]; exact hs.noDown
      obtain ⟨r, nl', rc, h1, _, h3, h4⟩ := service_spec ok (s.eng.subs + 1) false ps
        { s.eng.nl.dec h.2 with needService := false } hpre.inv
        (fun p hp => (hw p hp).1) (fun p hp => (hw p hp).2)
      rw [h1]
      dsimp only
      have hif : ∀ (nl : Nl), (if s.eng.xoffSpace = true then
          Except.ok ({ s.eng with nl := nl, xoffSpace := false, polling := true } : Eng)
          else .ok ({ s.eng with nl := nl } : Eng)) =
          (.ok (Eng.resume { s.eng with nl := nl }) : Except Fail Eng) := by
        intro nl
        rw [← resume_if { s.eng with nl := nl } hs.poll]
        split <;> rfl
      cases h4 with
      | busy hb =>
          simp only [show ¬ (-11 : Int) > 0 by decide, if_false]
          rw [hif]
          refine ⟨_, rfl, ?_, ?_⟩
          · rw [collect_id _ (by exact hs.out)]
            exact pre_busy hpre hb false
          · refine .quiet rfl ?_ rfl hpub hpv rfl (fun k _ => ⟨dec_rows _ _ _, dec_version _ _ _⟩)
            show s.held.erase h ++ s.eng.out = _
            rw [hs.out, List.append_nil]
      | wait rows hb hco => cases hco
      | same rows hb hco hp hsd hd =>
          simp only [show ¬ (0 : Int) > 0 by decide, if_false]
          rw [hif]
          refine ⟨_, rfl, ?_, ?_⟩
          · rw [collect_id _ (by exact hs.out)]
            exact pre_wip hpre (hpre.wip_inv h3 hp hsd (s.eng.subs + 1) _).2 rfl
              (fun hx => absurd ((differ_marked _ _).1 hx) hd)
          · exact quiet_wip (e := { s.eng with nl := { s.eng.nl.dec h.2 with needService := false } })
              (e0 := s.eng) (s.eng.subs + 1) r.w _ rfl rfl rfl hpub hpv hs.out s.held _ rfl rfl rfl rfl
              (fun k => ⟨dec_rows _ _ _, dec_version _ _ _⟩)
      | publish rows hb hco hp hsd hd =>
          obtain ⟨e', he, hok, hsp, hpl, _, heff⟩ := take_up ok ps1 pss1
            { s.eng with nl := { s.eng.nl.dec h.2 with needService := false } } (s.held.erase h) r rows hpre
            hs.poll h3 hb hp hsd hd
          have hpos : (({ s.eng.nl.dec h.2 with needService := false } : Nl).current.version : Int) > 0 := by
            have h1 := hpre.inv.ring.cur
            have h2 := hpre.inv.ring.count
            have h1' : ({ s.eng.nl.dec h.2 with needService := false } : Nl).current.version =
              ({ s.eng.nl.dec h.2 with needService := false } : Nl).count := h1
            have h2' : 1 ≤ ({ s.eng.nl.dec h.2 with needService := false } : Nl).count := h2
            omega
          rw [if_pos hpos, he]
          dsimp only
          rw [hsp]
          simp only [Bool.false_eq_true, if_false]
          exact ⟨e', rfl, hok, heff.from rfl rfl rfl hpub hpv (fun k => ⟨dec_rows _ _ _, dec_version _ _ _⟩)⟩

/-- What the subscribers hold after an event, apart from what is sent. -/
def In.keeps (i : In) (held : List (Nat × Fin 4)) : List (Nat × Fin 4) :=
  match i with
  | .release h _ _ => held.erase h
  | _ => held

theorem step_spec (ok : SendOk) (i : In) (s : Sys) (hs : s.Ok) (hi : i.wf) :
    ∃ s', step ok i s = .ok s' ∧ s'.Ok ∧ Effect s s' (i.keeps s.held) := by
  have idle : Effect s s s.held := .quiet rfl rfl rfl rfl rfl rfl (fun _ _ => ⟨rfl, rfl⟩)
  cases i with
  | fds t ps pss =>
      unfold step
      dsimp only
      cases hp : s.eng.polling with
      | false => exact ⟨s, by simp, hs, idle⟩
      | true =>
          obtain ⟨e', h1, h2, h3, h4⟩ := fds_spec ok 1 t ps pss s hs hi.1 hi.2 (by simp)
          exact ⟨_, by simp [h1, Except.map], h2, h3⟩
  | timer t ps pss =>
      unfold step
      dsimp only
      cases hp : s.eng.xoffCoalesce with
      | false => exact ⟨s, by simp, hs, idle⟩
      | true =>
          obtain ⟨e', h1, h2, h3, h4⟩ := fds_spec ok 0 t ps pss s hs hi.1 hi.2 (fun _ => hp)
          exact ⟨_, by simp [h1, Except.map], h2, h3⟩
  | release h ps pss =>
      unfold step
      dsimp only
      by_cases hm : h ∈ s.held
      · obtain ⟨e', h1, h2, h3⟩ := release_spec ok h ps pss s hs hi.1 hi.2 hm
        exact ⟨_, by simp [hm, h1, Except.map], h2, h3⟩
      · refine ⟨s, by simp [hm], hs, ?_⟩
        show Effect s s (s.held.erase h)
        rw [List.erase_of_not_mem hm]; exact idle

/-! ### Starting -/

theorem start_ok (nl : Nl) (subs ms : Nat) (hi : nl.Inv) (he : nl.exit = none) (hc : nl.count = 2)
    (hr : nl.published.ref = 1) (hn : nl.needService = false) (hd : ∀ r ∈ nl.published.rows, r.ev ≠ .down)
    (hsame : nl.current.rows = nl.published.rows) : (Sys.start nl (nl.next + 3) subs ms).Ok := by
  refine ⟨hi, he, rfl, by show 2 ≤ nl.count; omega, ?_, rfl, rfl, ?_, nofun, rfl, ?_, hd⟩
  · intro k hk
    have hk : k ≠ nl.next := hk
    show (nl.slot k).ref = 0 + if k = nl.next + 3 then 1 else 0
    by_cases h3 : k = nl.next + 3
    · rw [if_pos h3, h3]; exact hr
    · rw [if_neg h3]
      obtain ⟨j, hj⟩ := fin_back nl.next k
      have h2 : 2 ≤ j.val := by
        have h0 : ∀ n : Fin 4, n - 0 = n := by decide
        by_contra hlt
        have hall : ∀ j : Fin 4, ¬ 2 ≤ j.val → j = 0 ∨ j = 1 := by decide
        have : j = 0 ∨ j = 1 := hall j hlt
        rcases this with rfl | rfl
        · rw [h0] at hj; exact hk hj.symm
        · rw [← fin_pred] at hj; exact h3 hj.symm
      have := hi.ring.unused j (by omega)
      rw [hj] at this
      rw [this]
  · intro hx
    have : nl.needService = true := hx
    rw [hn] at this; cases this
  · intro hdx
    have hdx : TablesDiffer nl.published.rows nl.current.rows := hdx
    rw [hsame] at hdx
    exact absurd hdx (differ_self _ hi.prevSorted)

end Verif.Netlink
