import Verif.Netlink.Total

set_option linter.unusedSimpArgs false
set_option linter.unusedVariables false

/-! What servicing does to the ring of tables. -/

namespace Verif.Netlink

theorem fin_succ_ne (n : Fin 4) : n + 1 ≠ n := by revert n; decide
theorem fin_pred_ne (n : Fin 4) : n + 3 ≠ n := by revert n; decide
theorem fin_pred_ne_succ (n : Fin 4) : n + 3 ≠ n + 1 := by revert n; decide
theorem fin_cycle (n : Fin 4) : n + 1 + 3 = n := by revert n; decide
theorem fin_pred (n : Fin 4) : n + 3 = n - 1 := by revert n; decide

/-- What holds between calls while receiving does not fail. -/
structure Nl.Inv (s : Nl) : Prop where
  ring : s.Ring
  fine : s.work.Fine
  sorted : Sorted s.current.rows
  prevSorted : Sorted s.published.rows

/-- The state with the table being written replaced. -/
def Nl.wip (s : Nl) (c : Nat) (w : Work) (rows : List Link) : Nl :=
  { s.setSlot s.next { s.slot s.next with rows := rows, cap := w.cap, ref := c } with
      needTeams := w.needTeams, needEth := w.needEth
      famTeam := w.famTeam, famEth := w.famEth, sent := w.sent }

/-- The state with the table being written published and copied to the next place. -/
def Nl.rotate (s : Nl) : Nl :=
  { s.setSlot (s.next + 1)
      { rows := (s.slot s.next).rows, version := s.verNext, ref := (s.slot s.next).ref
        cap := if (s.slot (s.next + 1)).cap < (s.slot s.next).cap then (s.slot s.next).cap
               else (s.slot (s.next + 1)).cap } with
      next := s.next + 1, verNext := s.verNext + 1, count := s.count + 1 }

/-- The rows with the events of a comparison. -/
def marked (prev rows : List Link) : List Link := rows.map (fun b => (annotate prev b).1)

theorem marked_idx (prev rows : List Link) : (marked prev rows).map (·.idx) = rows.map (·.idx) := by
  unfold marked
  rw [List.map_map]
  exact List.map_congr_left (fun b _ => annotate_idx prev b)

theorem marked_bare (prev rows : List Link) : bare (marked prev rows) = bare rows := by
  unfold bare marked
  rw [List.map_map]
  refine List.map_congr_left (fun b _ => ?_)
  unfold annotate
  simp only [Function.comp]
  split <;> rfl

theorem marked_no_down (prev rows : List Link) : ∀ r ∈ marked prev rows, r.ev ≠ .down := by
  intro r hr
  obtain ⟨b, _, rfl⟩ := List.mem_map.1 hr
  unfold annotate
  split
  · simp
  · dsimp only; split <;> simp

/-- The outcomes of servicing. -/
inductive Outcome (s : Nl) (c : Nat) (co : Bool) (r : Served) : Nl → Int → Prop
  | busy : (s.slot (s.next + 1)).ref ≠ 0 → Outcome s c co r { s with needService := true } (-11)
  | wait (rows : List Link) : (s.slot (s.next + 1)).ref = 0 → co = true → rows.Perm r.w.rows →
      Sorted rows → Outcome s c co r (s.wip c r.w rows) 0
  | same (rows : List Link) : (s.slot (s.next + 1)).ref = 0 → co = false → rows.Perm r.w.rows →
      Sorted rows → ¬ TablesDiffer s.published.rows rows →
      Outcome s c co r (s.wip c r.w (marked s.published.rows rows)) 0
  | publish (rows : List Link) : (s.slot (s.next + 1)).ref = 0 → co = false → rows.Perm r.w.rows →
      Sorted rows → TablesDiffer s.published.rows rows →
      Outcome s c co r (s.wip c r.w (marked s.published.rows rows)).rotate s.current.version

theorem service_spec (ok : SendOk) (c : Nat) (co : Bool) (ps : List Pass) (s : Nl) (hs : s.Inv)
    (hwf : ∀ p ∈ ps, p.wf) (hfine : ∀ p ∈ ps, p.fine) :
    ∃ r s' rc, service ok c co ps s = .ok (s', rc) ∧ rounds ok ps s.work = .ok r ∧ r.w.Fine ∧
      Outcome s c co r s' rc := by
  obtain ⟨r, h1, h2, h3, h4⟩ := rounds_total ok ps s.work hs.fine hwf
  have herr := h3 hfine
  unfold service
  dsimp only
  by_cases hb : (s.slot (s.next + 1)).ref ≠ 0
  · rw [if_pos hb]
    exact ⟨r, _, _, rfl, h1, h2, .busy hb⟩
  · rw [if_neg hb]
    have hb0 : (s.slot (s.next + 1)).ref = 0 := by simpa using hb
    have hwork : (s.setSlot s.next { s.slot s.next with ref := c }).work = s.work := by
      simp [Nl.work, Nl.setSlot]
    rw [hwork, h1]
    simp only [bind, Except.bind, pure, Except.pure, herr]
    -- the rows after sorting
    obtain ⟨rows, hrows, hperm, hsorted⟩ : ∃ rows,
        (if r.any = true then { r.w with rows := sortRows r.w.rows } else r.w) = { r.w with rows := rows } ∧
        rows.Perm r.w.rows ∧ Sorted rows := by
      cases ha : r.any with
      | true =>
          exact ⟨sortRows r.w.rows, by simp, sortRows_perm _,
            sortRows_sorted _ h2.ok.nodup h2.ok.nonneg⟩
      | false => exact ⟨r.w.rows, by simp, .refl _, hs.sorted.of_idx (h4 ha herr)⟩
    rw [hrows]
    have hput : (s.setSlot s.next { s.slot s.next with ref := c }).put { r.w with rows := rows } =
        s.wip c r.w rows := by
      unfold Nl.put Nl.wip Nl.setSlot
      simp only [if_true]
      congr 1
      funext i
      by_cases hi : i = s.next <;> simp [hi]
    rw [hput]
    cases co with
    | true => exact ⟨r, _, _, rfl, rfl, h2, .wait rows hb0 rfl hperm hsorted⟩
    | false =>
        have e1 : ((s.wip c r.w rows).slot (s.next + 3)).rows = s.published.rows := by
          unfold Nl.wip Nl.setSlot Nl.published
          simp only [if_neg (fin_pred_ne s.next)]
        have e2 : ((s.wip c r.w rows).slot (s.wip c r.w rows).next).rows = rows := by
          unfold Nl.wip Nl.setSlot; simp
        simp only [Bool.false_eq_true, if_false]
        rw [e1, e2, compare_spec _ _ hs.prevSorted hsorted]
        simp only
        have e3 : ∀ rows', (s.wip c r.w rows).setSlot (s.wip c r.w rows).next
            { (s.wip c r.w rows).slot (s.wip c r.w rows).next with rows := rows' } = s.wip c r.w rows' := by
          intro rows'
          unfold Nl.wip Nl.setSlot
          simp only [if_true]
          congr 1
          funext i
          by_cases hi : i = s.next <;> simp [hi]
        rw [e3]
        have e4 : ∀ rows', ((s.wip c r.w rows').slot (s.next + 1)).ref = 0 := by
          intro rows'
          unfold Nl.wip Nl.setSlot
          simp only [if_neg (fin_succ_ne s.next), hb0]
        rw [if_neg (by rw [e4]; simp)]
        have hiff := change_iff s.published.rows rows hs.prevSorted hsorted
        by_cases hd : TablesDiffer s.published.rows rows
        · rw [if_pos (hiff.2 hd), if_neg (by rw [e4]; simp)]
          refine ⟨r, _, _, rfl, rfl, h2, ?_⟩
          have := Outcome.publish (s := s) (c := c) (co := false) (r := r) rows hb0 rfl hperm hsorted hd
          have ev : (((s.wip c r.w (marked s.published.rows rows)).slot
              (s.wip c r.w (marked s.published.rows rows)).next).version : Int) = s.current.version := by
            unfold Nl.wip Nl.setSlot Nl.current; simp
          rw [← ev] at this
          exact this
        · rw [if_neg (fun h => hd (hiff.1 h))]
          exact ⟨r, _, _, rfl, rfl, h2, .same rows hb0 rfl hperm hsorted hd⟩

theorem wip_slot (s : Nl) (c : Nat) (w : Work) (rows : List Link) (k : Fin 4) (h : k ≠ s.next) :
    (s.wip c w rows).slot k = s.slot k := by
  unfold Nl.wip Nl.setSlot; simp [h]

theorem wip_cur (s : Nl) (c : Nat) (w : Work) (rows : List Link) :
    (s.wip c w rows).slot s.next = { s.slot s.next with rows := rows, cap := w.cap, ref := c } := by
  unfold Nl.wip Nl.setSlot; simp

theorem wip_ring (s : Nl) (c : Nat) (w : Work) (rows : List Link) (h : s.Ring) : (s.wip c w rows).Ring := by
  have hsub : ∀ j : Fin 4, s.next - j = s.next ↔ j = 0 := by
    generalize s.next = n; revert n; decide
  refine ⟨h.count, h.ver, h.next, ?_, ?_⟩
  · intro j hj
    have := h.slots j hj
    by_cases hz : s.next - j = s.next
    · show ((s.wip c w rows).slot (s.next - j)).version = s.count - j.val
      rw [hz, wip_cur]; rw [hz] at this; exact this
    · show ((s.wip c w rows).slot (s.next - j)).version = s.count - j.val
      rw [wip_slot _ _ _ _ _ hz]; exact this
  · intro j hj
    have hc := h.count
    have hz : s.next - j ≠ s.next := by
      rw [Ne, hsub]; rintro rfl
      have : s.count ≤ 0 := hj
      omega
    show (s.wip c w rows).slot (s.next - j) = {}
    rw [wip_slot _ _ _ _ _ hz]; exact h.unused j hj

theorem perm_fine {w : Work} {rows : List Link} (hw : w.Fine) (hp : rows.Perm w.rows) :
    (rows.map (·.idx)).Nodup ∧ rows.length ≤ w.cap ∧ (∀ r ∈ rows, 0 ≤ r.idx) :=
  ⟨((hp.map _).nodup_iff).2 hw.ok.nodup, by rw [hp.length_eq]; exact hw.ok.room,
   fun r hr => hw.ok.nonneg r (hp.mem_iff.1 hr)⟩

theorem wip_inv (s : Nl) (c : Nat) (w : Work) (rows : List Link) (hs : s.Inv) (hw : w.Fine)
    (hk : s.keys.length ≤ 16) (hl : rows.length ≤ w.cap) (hsorted : Sorted rows) :
    (s.wip c w rows).Inv := by
  refine ⟨wip_ring s c w rows hs.ring, ?_, ?_, ?_⟩
  · refine ⟨⟨?_, ?_, ?_⟩, hk⟩
    · show (((s.wip c w rows).slot s.next).rows.map (·.idx)).Nodup
      rw [wip_cur]; exact hsorted.nodup
    · show ((s.wip c w rows).slot s.next).rows.length ≤ ((s.wip c w rows).slot s.next).cap
      rw [wip_cur]; exact hl
    · show ∀ r ∈ ((s.wip c w rows).slot s.next).rows, 0 ≤ r.idx
      rw [wip_cur]; exact hsorted.2
  · show Sorted ((s.wip c w rows).slot s.next).rows
    rw [wip_cur]; exact hsorted
  · show Sorted ((s.wip c w rows).slot (s.next + 3)).rows
    rw [wip_slot _ _ _ _ _ (fin_pred_ne _)]; exact hs.prevSorted

theorem rotate_slot (s : Nl) (k : Fin 4) (h : k ≠ s.next + 1) : s.rotate.slot k = s.slot k := by
  unfold Nl.rotate Nl.setSlot; simp [h]

theorem rotate_new (s : Nl) : s.rotate.slot (s.next + 1) =
    { rows := (s.slot s.next).rows, version := s.verNext, ref := (s.slot s.next).ref
      cap := if (s.slot (s.next + 1)).cap < (s.slot s.next).cap then (s.slot s.next).cap
             else (s.slot (s.next + 1)).cap } := by
  unfold Nl.rotate Nl.setSlot; simp

theorem rotate_ring (s : Nl) (h : s.Ring) : s.rotate.Ring := by
  have hc := h.count
  have key : ∀ j : Fin 4, j ≠ 0 → s.next + 1 - j ≠ s.next + 1 ∧ s.next + 1 - j = s.next - (j - 1) ∧
      (j - 1).val = j.val - 1 := by
    generalize s.next = n; revert n; decide
  refine ⟨by show 1 ≤ s.count + 1; omega, ?_, ?_, ?_, ?_⟩
  · show s.verNext + 1 = s.count + 1 + 1
    rw [h.ver]
  · show s.next + 1 = Fin.ofNat 4 (s.count + 1 + 3)
    rw [h.next]
    apply Fin.ext
    simp only [Fin.val_add, Fin.ofNat]
    have : (1 : Fin 4).val = 1 := rfl
    rw [this]
    omega
  · intro j hj
    show (s.rotate.slot (s.next + 1 - j)).version = s.count + 1 - j.val
    by_cases hz : j = 0
    · subst hz
      have : s.next + 1 - 0 = s.next + 1 := by generalize s.next = n; revert n; decide
      rw [this, rotate_new]
      show s.verNext = s.count + 1 - 0
      rw [h.ver]; rfl
    · obtain ⟨k1, k2, k3⟩ := key j hz
      rw [rotate_slot s _ k1, k2]
      have hj' : j.val < s.count + 1 := hj
      have hz' : j.val ≠ 0 := fun h0 => hz (Fin.ext h0)
      rw [h.slots (j - 1) (by rw [k3]; omega), k3]
      omega
  · intro j hj
    have hj' : s.count + 1 ≤ j.val := hj
    have hz : j ≠ 0 := by rintro rfl; have : (0 : Fin 4).val = 0 := rfl; omega
    obtain ⟨k1, k2, k3⟩ := key j hz
    show s.rotate.slot (s.next + 1 - j) = {}
    rw [rotate_slot s _ k1, k2]
    exact h.unused (j - 1) (by rw [k3]; omega)

theorem rotate_inv (s : Nl) (hs : s.Inv) : s.rotate.Inv := by
  refine ⟨rotate_ring s hs.ring, ?_, ?_, ?_⟩
  · refine ⟨⟨?_, ?_, ?_⟩, hs.fine.keys⟩
    · show ((s.rotate.slot (s.next + 1)).rows.map (·.idx)).Nodup
      rw [rotate_new]; exact hs.fine.ok.nodup
    · show (s.rotate.slot (s.next + 1)).rows.length ≤ (s.rotate.slot (s.next + 1)).cap
      rw [rotate_new]
      have : (s.slot s.next).rows.length ≤ (s.slot s.next).cap := hs.fine.ok.room
      dsimp only
      split <;> omega
    · show ∀ r ∈ (s.rotate.slot (s.next + 1)).rows, 0 ≤ r.idx
      rw [rotate_new]; exact hs.fine.ok.nonneg
  · show Sorted (s.rotate.slot (s.next + 1)).rows
    rw [rotate_new]; exact hs.sorted
  · show Sorted (s.rotate.slot (s.next + 1 + 3)).rows
    rw [fin_cycle, rotate_slot s _ (fun h => fin_succ_ne s.next h.symm)]
    exact hs.sorted

theorem Nl.Inv.needService {s : Nl} (h : s.Inv) (b : Bool) : Nl.Inv { s with needService := b } :=
  ⟨⟨h.ring.count, h.ring.ver, h.ring.next, h.ring.slots, h.ring.unused⟩, h.fine, h.sorted, h.prevSorted⟩

theorem Outcome.inv {s s' : Nl} {c : Nat} {co : Bool} {r : Served} {rc : Int} (hs : s.Inv) (hr : r.w.Fine)
    (h : Outcome s c co r s' rc) : s'.Inv := by
  have hk : s.keys.length ≤ 16 := hs.fine.keys
  cases h with
  | busy _ => exact hs.needService true
  | wait rows _ _ hp hsd =>
      exact wip_inv s c r.w rows hs hr hk (by rw [hp.length_eq]; exact hr.ok.room) hsd
  | same rows _ _ hp hsd _ =>
      refine wip_inv s c r.w _ hs hr hk ?_ (hsd.of_idx (marked_idx _ _))
      have := congrArg List.length (marked_idx s.published.rows rows)
      simp only [List.length_map] at this
      rw [this, hp.length_eq]; exact hr.ok.room
  | publish rows _ _ hp hsd _ =>
      refine rotate_inv _ (wip_inv s c r.w _ hs hr hk ?_ (hsd.of_idx (marked_idx _ _)))
      have := congrArg List.length (marked_idx s.published.rows rows)
      simp only [List.length_map] at this
      rw [this, hp.length_eq]; exact hr.ok.room

theorem init_inv : Nl.init.Inv := by
  refine ⟨⟨by decide, rfl, by decide, ?_, ?_⟩, ⟨⟨by simp [Nl.work, Nl.init], by simp [Nl.work, Nl.init],
    by simp [Nl.work, Nl.init]⟩, by simp [Nl.work, Nl.init]⟩, ?_, ?_⟩
  · decide
  · decide
  · exact Sorted.nil
  · exact Sorted.nil

/-! ### Finding a version -/

theorem findVersion_spec (s : Nl) (h : s.Ring) (j : Fin 4) (hj : j ≠ 0) (hc : j.val < s.count) :
    findVersion s (s.count - j.val) s.count 0 = .ok (some (s.next - j)) := by
  have idx : ∀ (n i : Fin 4), i ≠ 3 → ¬ (((n.val : Int) + 4 - 1 - (i.val : Int)).tmod 4 < 0) ∧
      Fin.ofNat 4 (((n.val : Int) + 4 - 1 - (i.val : Int)).tmod 4).toNat = n - (i + 1) := by decide
  have gen : ∀ (d i : Nat), i + d + 1 = j.val →
      findVersion s (s.count - j.val) (s.count - i) i = .ok (some (s.next - j)) := by
    intro d
    induction d with
    | zero =>
        intro i hi
        obtain ⟨m, hm⟩ : ∃ m, s.count - i = m + 1 := ⟨s.count - i - 1, by omega⟩
        rw [hm]
        unfold findVersion
        have hi3 : i < 3 := by have := j.isLt; omega
        obtain ⟨h1, h2⟩ := idx s.next ⟨i, by omega⟩ (by intro h; have := congrArg Fin.val h; simp at this; omega)
        have hji : (⟨i, by omega⟩ : Fin 4) + 1 = j := by
          apply Fin.ext
          simp only [Fin.val_add]
          have : (1 : Fin 4).val = 1 := rfl
          rw [this]; omega
        simp only at h1 h2
        rw [hji] at h2
        dsimp only
        rw [if_neg h1, h2, if_pos (h.slots j hc)]
    | succ d ih =>
        intro i hi
        obtain ⟨m, hm⟩ : ∃ m, s.count - i = m + 1 := ⟨s.count - i - 1, by omega⟩
        rw [hm]
        unfold findVersion
        have hi3 : i < 3 := by have := j.isLt; omega
        obtain ⟨h1, h2⟩ := idx s.next ⟨i, by omega⟩ (by intro h; have := congrArg Fin.val h; simp at this; omega)
        have hval : ((⟨i, by omega⟩ : Fin 4) + 1).val = i + 1 := by
          simp only [Fin.val_add]
          have : (1 : Fin 4).val = 1 := rfl
          rw [this]; omega
        have hver := h.slots ((⟨i, by omega⟩ : Fin 4) + 1) (by rw [hval]; omega)
        rw [hval] at hver
        simp only at h1 h2
        dsimp only
        rw [if_neg h1, h2, if_neg (by rw [hver]; omega)]
        have := ih (i + 1) (by omega)
        have hm' : m = s.count - (i + 1) := by omega
        rw [hm']; exact this
  have hj1 : j.val ≠ 0 := fun h0 => hj (Fin.ext h0)
  exact gen (j.val - 1) 0 (by omega)

end Verif.Netlink
