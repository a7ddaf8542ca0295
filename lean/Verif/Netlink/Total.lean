import Verif.Netlink.Compare
import Verif.Netlink.Props2

set_option linter.unusedSimpArgs false
set_option linter.unusedVariables false

/-! Well-formed messages are handled without failure; rounds of servicing. -/

namespace Verif.Netlink

theorem updRowM_total (i : Int) (f : Link → Except Fail Link) (hf : ∀ l, ∃ l', f l = .ok l')
    (rows : List Link) : ∃ rows', updRowM i f rows = .ok rows' := by
  induction rows with
  | nil => exact ⟨[], rfl⟩
  | cons r rs ih =>
      unfold updRowM
      by_cases h : r.idx = i
      · obtain ⟨l, hl⟩ := hf r
        exact ⟨l :: rs, by simp [h, hl, bind, Except.bind, pure, Except.pure]⟩
      · obtain ⟨rs', hr⟩ := ih
        exact ⟨r :: rs', by simp [h, hr, bind, Except.bind, pure, Except.pure]⟩

theorem bitset_total (b : Bitset) (hb : b.wf) : ∃ x, bitset32 b = .ok x := by
  obtain ⟨size, value⟩ := b
  cases value with
  | none => exact ⟨.inr 2, rfl⟩
  | some p =>
      have hp := hb.2 p rfl
      have key : ∀ size : BitVec 32, size.toNat ≤ 4294967264 →
          ∃ x, bitset32 { size := some size, value := some p } = .ok x := by
        intro size hs
        have := (C268_bitset_read_partial size p hs hp).2.2.2
        cases h : bitset32 { size := some size, value := some p } with
        | ok x => exact ⟨x, rfl⟩
        | error e =>
            exfalso
            cases e with
            | oob => exact this h
            | assertion =>
                simp only [bitset32] at h
                split at h
                · cases h
                · split at h
                  · split at h <;> cases h
                  · cases h
            | more =>
                simp only [bitset32] at h
                split at h
                · cases h
                · split at h
                  · split at h <;> cases h
                  · cases h
      cases size with
      | some n => exact key n (hb.1 n rfl)
      | none => exact key 0 (by decide)

theorem tsField_total (b : Option Bitset) (hb : ∀ x, b = some x → x.wf) (set : Nat → Link → Link)
    (l : Link) : ∃ r, tsField b set l = .ok r := by
  cases b with
  | none => exact ⟨_, rfl⟩
  | some b =>
      obtain ⟨x, hx⟩ := bitset_total b (hb b rfl)
      cases x with
      | inl v => exact ⟨(set v l, true), by simp only [tsField, hx, bind, Except.bind, pure, Except.pure]⟩
      | inr e => exact ⟨(l, false), by simp only [tsField, hx, bind, Except.bind, pure, Except.pure]⟩

theorem tsApply_total (m : TsMsg) (h : (Msg.ts m).wf) (l : Link) : ∃ l', tsApply m l = .ok l' := by
  unfold tsApply
  obtain ⟨h1, h2, h3⟩ := h
  dsimp only
  obtain ⟨⟨l1, g1⟩, e1⟩ := tsField_total m.so h1 (fun v l => { l with ts := { l.ts with so := v } })
    { l with ts := { l.ts with phc := m.phc.getD (-1) } }
  rw [e1]
  simp only [bind, Except.bind, pure, Except.pure]
  cases g1 with
  | false => exact ⟨_, rfl⟩
  | true =>
      obtain ⟨⟨l2, g2⟩, e2⟩ := tsField_total m.tx h2 (fun v l => { l with ts := { l.ts with tx := v } }) l1
      rw [if_neg (by simp), e2]
      cases g2 with
      | false => exact ⟨_, rfl⟩
      | true =>
          obtain ⟨⟨l3, g3⟩, e3⟩ := tsField_total m.rx h3 (fun v l => { l with ts := { l.ts with rx := v } }) l2
          simp only [not_true_eq_false, if_false]
          rw [e3]
          cases g3 <;> exact ⟨_, rfl⟩

theorem strIds_total (keys : List String) (hl : keys.length ≤ 16) (xs : List EString) (ids : List Int)
    (hi : ids.length = 16) : ∃ ids', strIds keys xs ids = .ok ids' := by
  induction xs generalizing ids with
  | nil => exact ⟨ids, rfl⟩
  | cons s xs ih =>
      unfold strIds
      dsimp only
      by_cases h : keys.findIdx (fun k => decide (k = s.value)) = keys.length
      · rw [if_pos h]; exact ih ids hi
      · rw [if_neg h]
        have := List.findIdx_le_length (p := fun k => decide (k = s.value)) (xs := keys)
        rw [if_pos (by omega)]
        exact ih _ (by simpa using hi)

theorem strApply_total (keys : List String) (hl : keys.length ≤ 16) (ss : List EStrSet) (l : Link) :
    ∃ l', strApply keys ss l = .ok l' := by
  induction ss generalizing l with
  | nil => exact ⟨l, rfl⟩
  | cons s ss ih =>
      unfold strApply
      split
      · rename_i n xs _ _ _
        obtain ⟨ids, hids⟩ := strIds_total keys hl xs (List.replicate 16 (-1)) (by simp)
        simp only [hids, bind, Except.bind]
        exact ih _
      · exact ih l

theorem teamOpts_total (team : Int) (os : List TOpt) (v : TVars) (rows : List Link)
    (hv : ∀ d, v.data = some d → 4 ≤ d.length) (ho : ∀ o ∈ os, ∀ d, o.data = some d → 4 ≤ d.length) :
    ∃ rows', teamOpts team os v rows = .ok rows' := by
  induction os generalizing v rows with
  | nil => exact ⟨rows, rfl⟩
  | cons o os ih =>
      have hd : ∀ d, (o.data.or v.data) = some d → 4 ≤ d.length := by
        intro d h
        cases hod : o.data with
        | none => rw [hod] at h; exact hv d (by simpa using h)
        | some x => rw [hod] at h; exact ho o (by simp) d (by rw [hod]; simpa using h)
      have step : ∃ v' rows', teamOpt team o v rows = .ok (v', rows') ∧ v'.data = o.data.or v.data := by
        unfold teamOpt
        simp only [bind, Except.bind, pure, Except.pure]
        have h2 : (teamVars o v).data = o.data.or v.data := by
          unfold teamVars
          dsimp only
          cases o.name.or v.name with
          | none => dsimp only; split
                    · rfl
                    · split <;> rfl
          | some n => dsimp only; split
                      · rfl
                      · split <;> rfl
        generalize teamVars o v = v2 at h2
        cases ho2 : v2.opt with
        | none => exact ⟨v2, rows, rfl, h2⟩
        | some b =>
            cases hdat : v2.data with
            | none => cases b <;> exact ⟨v2, rows, rfl, h2⟩
            | some d =>
                cases b with
                | true => exact ⟨v2, _, rfl, h2⟩
                | false =>
                    obtain ⟨a, b, c, e, rest, _, hu⟩ := u32_some d (hd d (by rw [← h2, hdat]))
                    have ha : ∃ r, applyActive d team v2.down rows = .ok r := by
                      unfold applyActive
                      rw [hu]
                      split <;> exact ⟨_, rfl⟩
                    obtain ⟨r, hr⟩ := ha
                    exact ⟨v2, r, by simp only [hr], h2⟩
      obtain ⟨v', rows', h1, h2⟩ := step
      obtain ⟨r, hr⟩ := ih v' rows' (by rw [h2]; exact hd) (fun x hx => ho x (by simp [hx]))
      exact ⟨r, by simp only [teamOpts, h1, bind, Except.bind, hr]⟩

theorem sendTeam_keys (ok : SendOk) (i : Int) (w : Work) : (sendTeam ok i w).1.keys = w.keys := by
  unfold sendTeam; split
  · split <;> rfl
  · rfl

theorem sendEth_keys (ok : SendOk) (l : Link) (w : Work) : (sendEth ok l w).1.keys = w.keys := by
  unfold sendEth
  by_cases h0 : w.famEth = 0
  · rw [if_pos h0]
  · rw [if_neg h0]
    dsimp only
    by_cases h1 : ok (.tsinfo l.idx) = true
    · simp only [h1, if_true]; split <;> rfl
    · simp only [if_neg h1]; split <;> rfl

theorem handleLink_keys (ok : SendOk) (a : Attrs) (w w' : Work) (c : Bool)
    (h : handleLink ok a w = .ok (w', c)) : w'.keys = w.keys := by
  unfold handleLink at h
  dsimp only at h
  by_cases hd : (parse a).ev = .down
  · simp only [hd, if_true] at h
    cases hr : rowsReplace (parse a) w.rows with
    | some rows => simp only [hr, Except.ok.injEq, Prod.mk.injEq] at h; rw [← h.1]
    | none => simp only [hr, Except.ok.injEq, Prod.mk.injEq] at h; rw [← h.1]
  · simp only [if_neg hd] at h
    cases hr : rowsReplace (parse a) w.rows with
    | some rows => simp only [hr, Except.ok.injEq, Prod.mk.injEq] at h; rw [← h.1]
    | none =>
        simp only [hr] at h
        split at h
        · cases h
        · rw [if_pos (parse_tsState a)] at h
          simp only [Except.ok.injEq, Prod.mk.injEq] at h
          rw [← h.1]
          generalize hw2 : (if (parse a).type = .team then
              if (sendTeam ok (parse a).idx { w with cap := grow w.rows.length w.cap, rows := w.rows ++ [parse a] }).2 = true
              then (sendTeam ok (parse a).idx { w with cap := grow w.rows.length w.cap, rows := w.rows ++ [parse a] }).1
              else { (sendTeam ok (parse a).idx { w with cap := grow w.rows.length w.cap, rows := w.rows ++ [parse a] }).1 with needTeams := true }
            else { w with cap := grow w.rows.length w.cap, rows := w.rows ++ [parse a] }) = w2
          have hk : w2.keys = w.keys := by
            have hst := sendTeam_keys ok (parse a).idx { w with cap := grow w.rows.length w.cap, rows := w.rows ++ [parse a] }
            rw [← hw2]
            split
            · split <;> exact hst
            · rfl
          have := sendEth_keys ok (parse a) w2
          split
          · rw [this, hk]
          · show (sendEth ok (parse a) w2).1.keys = w.keys
            rw [this, hk]

/-- What every message preserves. -/
structure Work.Fine (w : Work) : Prop where
  ok : w.Ok
  keys : w.keys.length ≤ 16

theorem wf_sane {m : Msg} (h : m.wf) : m.sane := by
  cases m <;> first | exact h | trivial

theorem handle_total (ok : SendOk) (m : Msg) (w : Work) (hw : w.Fine) (hm : m.wf) :
    ∃ w' c, handle ok m w = .ok (w', c) ∧ w'.Fine := by
  have fin : ∀ w' c, handle ok m w = .ok (w', c) → w'.keys = w.keys → w'.Fine := by
    intro w' c h hk
    exact ⟨(handle_Ok ok m w w' c hw.ok (wf_sane hm) h).1, by rw [hk]; exact hw.keys⟩
  cases m with
  | link a =>
      obtain ⟨w1, c, h1, _⟩ := handleLink_ok ok a w hw.ok
      exact ⟨w1, c, h1, fin w1 c h1 (handleLink_keys ok a w w1 c h1)⟩
  | ctrl x =>
      refine ⟨_, _, rfl, fin _ _ rfl ?_⟩
      unfold handleCtrl
      split
      · split <;> rfl
      · rfl
  | team t =>
      cases ho : t.opts with
      | none =>
          have : handle ok (.team t) w = .ok (w, false) := by simp [handle, handleTeam, ho, Except.map]
          exact ⟨w, false, this, fin _ _ this rfl⟩
      | some os =>
          obtain ⟨⟨i, hi, hpos⟩, hd⟩ := hm (by rw [ho]; simp)
          obtain ⟨rows, hr⟩ := teamOpts_total i os {} w.rows (by simp) (hd os ho)
          have : handle ok (.team t) w = .ok ({ w with rows := rows }, false) := by
            simp only [handle, handleTeam, ho, hi, Option.getD_some]
            rw [if_neg (by omega), hr]; rfl
          exact ⟨_, false, this, fin _ _ this rfl⟩
  | ts t =>
      obtain ⟨rows, hr⟩ := updRowM_total (t.idx.getD 0) (tsApply t) (tsApply_total t hm) w.rows
      have : handle ok (.ts t) w = .ok ({ w with rows := rows }, false) := by
        simp only [handle, handleTs, hr, bind, Except.bind, pure, Except.pure, Except.map]
      exact ⟨_, false, this, fin _ _ this rfl⟩
  | str t =>
      cases hk : w.keys with
      | nil =>
          have : handle ok (.str t) w = .ok (w, false) := by
            simp only [handle, handleStr, hk, pure, Except.pure, Except.map]
          exact ⟨w, false, this, fin _ _ this rfl⟩
      | cons k ks =>
          cases hs : t.sets with
          | none =>
              have : handle ok (.str t) w = .ok (w, false) := by
                simp only [handle, handleStr, hk, hs, pure, Except.pure, Except.map]
              exact ⟨w, false, this, fin _ _ this rfl⟩
          | some ss =>
              obtain ⟨rows, hr⟩ := updRowM_total (t.idx.getD 0) (strApply (k :: ks) ss)
                (strApply_total _ (by rw [← hk]; exact hw.keys) ss) w.rows
              have : handle ok (.str t) w = .ok ({ w with rows := rows }, false) := by
                simp only [handle, handleStr, hk, hs, hr, bind, Except.bind, pure, Except.pure, Except.map]
              exact ⟨_, false, this, fin _ _ this rfl⟩

theorem handleAll_total (ok : SendOk) (ms : List Msg) (w : Work) (hw : w.Fine) (hm : ∀ m ∈ ms, m.wf) :
    ∃ w', handleAll ok ms w = .ok w' ∧ w'.Fine := by
  induction ms generalizing w with
  | nil => exact ⟨w, rfl, hw⟩
  | cons m ms ih =>
      obtain ⟨w1, c, h1, h2⟩ := handle_total ok m w hw (hm m (by simp))
      obtain ⟨w2, h3, h4⟩ := ih w1 h2 (fun x hx => hm x (by simp [hx]))
      exact ⟨w2, by simp only [handleAll, h1, bind, Except.bind, h3], h4⟩

theorem runDgram_total (ok : SendOk) (d : Dgram) (w : Work) (hw : w.Fine)
    (hm : (∀ m ∈ d.msgs, m.wf) ∧ ∀ m ∈ d.junk, m.wf) :
    ∃ w', runDgram ok d w = .ok w' ∧ w'.Fine := by
  unfold runDgram
  cases hd : d.msgs with
  | nil => exact ⟨w, rfl, hw⟩
  | cons m ms =>
      rw [hd] at hm
      obtain ⟨w1, c, h1, h2⟩ := handle_total ok m w hw (hm.1 m (by simp))
      obtain ⟨w2, h3, h4⟩ := handleAll_total ok (if c = true then d.junk else ms) w1 h2 (by
        cases c with
        | true => exact hm.2
        | false => exact fun x hx => hm.1 x (by simp [show x ∈ ms from hx]))
      exact ⟨w2, by simp only [h1, bind, Except.bind, h3], h4⟩

theorem runData_total (ok : SendOk) (ds : List Dgram) (w : Work) (hw : w.Fine)
    (hm : ∀ d ∈ ds, (∀ m ∈ d.msgs, m.wf) ∧ ∀ m ∈ d.junk, m.wf) :
    ∃ w', runData ok ds w = .ok w' ∧ w'.Fine := by
  induction ds generalizing w with
  | nil => exact ⟨w, rfl, hw⟩
  | cons d ds ih =>
      obtain ⟨w1, h1, h2⟩ := runDgram_total ok d w hw (hm d (by simp))
      obtain ⟨w2, h3, h4⟩ := ih w1 h2 (fun x hx => hm x (by simp [hx]))
      exact ⟨w2, by simp only [runData, h1, bind, Except.bind, h3], h4⟩

theorem rescanTeams_same (ok : SendOk) (w : Work) :
    (rescanTeams ok w).rows = w.rows ∧ (rescanTeams ok w).cap = w.cap ∧ (rescanTeams ok w).keys = w.keys := by
  have gen : ∀ (ls : List Link) (w : Work),
      (ls.foldl (fun w l => if l.type = .team then (sendTeam ok l.idx w).1 else w) w).rows = w.rows ∧
      (ls.foldl (fun w l => if l.type = .team then (sendTeam ok l.idx w).1 else w) w).cap = w.cap ∧
      (ls.foldl (fun w l => if l.type = .team then (sendTeam ok l.idx w).1 else w) w).keys = w.keys := by
    intro ls
    induction ls with
    | nil => intro w; exact ⟨rfl, rfl, rfl⟩
    | cons l ls ih =>
        intro w
        rw [List.foldl_cons]
        obtain ⟨h1, h2, h3⟩ := ih (if l.type = .team then (sendTeam ok l.idx w).1 else w)
        have := sendTeam_rows ok l.idx w
        have := sendTeam_keys ok l.idx w
        rw [h1, h2, h3]
        split <;> simp_all
  exact gen w.rows w

theorem rescanEthLoop_same (ok : SendOk) (ls done : List Link) (w : Work) :
    ∃ ls', (rescanEthLoop ok done ls w).rows = done ++ ls' ∧ SameRows ls ls' ∧
      (rescanEthLoop ok done ls w).cap = w.cap ∧ (rescanEthLoop ok done ls w).keys = w.keys := by
  induction ls generalizing done w with
  | nil => exact ⟨[], by simp [rescanEthLoop], .nil, rfl, rfl⟩
  | cons l ls ih =>
      unfold rescanEthLoop
      split
      · obtain ⟨_, h2, h3⟩ := sendEth_rows ok l w
        have h4 := sendEth_keys ok l w
        dsimp only
        obtain ⟨ls', i1, i2, i3, i4⟩ := ih (done ++ [(sendEth ok l w).2.1]) (sendEth ok l w).1
        exact ⟨(sendEth ok l w).2.1 :: ls', by rw [i1]; simp, .cons h3 i2, by rw [i3, h2], by rw [i4, h4]⟩
      · obtain ⟨ls', i1, i2, i3, i4⟩ := ih (done ++ [l]) w
        exact ⟨l :: ls', by rw [i1]; simp, .cons (.refl l) i2, i3, i4⟩

theorem rescans_same (ok : SendOk) (w : Work) :
    SameRows w.rows (rescans ok w).rows ∧ (rescans ok w).cap = w.cap ∧ (rescans ok w).keys = w.keys := by
  unfold rescans
  dsimp only
  generalize hw1 : (if w.needTeams = true ∧ w.famTeam > 0 then rescanTeams ok w else w) = w1
  have h1 : w1.rows = w.rows ∧ w1.cap = w.cap ∧ w1.keys = w.keys := by
    rw [← hw1]; split
    · exact rescanTeams_same ok w
    · exact ⟨rfl, rfl, rfl⟩
  obtain ⟨h1, h2, h3⟩ := h1
  split
  · obtain ⟨ls, i1, i2, i3, i4⟩ := rescanEthLoop_same ok w1.rows [] w1
    refine ⟨?_, ?_, ?_⟩
    · show SameRows w.rows (rescanEthLoop ok [] w1.rows w1).rows
      rw [i1, ← h1]; exact i2
    · show (rescanEthLoop ok [] w1.rows w1).cap = w.cap
      rw [i3, h2]
    · show (rescanEthLoop ok [] w1.rows w1).keys = w.keys
      rw [i4, h3]
  · rw [h1]; exact ⟨SameRows.refl _, h2, h3⟩

theorem rescans_fine (ok : SendOk) (w : Work) (hw : w.Fine) : (rescans ok w).Fine := by
  obtain ⟨h1, h2, h3⟩ := rescans_same ok w
  exact ⟨hw.ok.same h1 h2, by rw [h3]; exact hw.keys⟩

/-- What rounds of servicing leave. -/
theorem rounds_total (ok : SendOk) (ps : List Pass) (w : Work) (hw : w.Fine) (hm : ∀ p ∈ ps, p.wf) :
    ∃ r, rounds ok ps w = .ok r ∧ r.w.Fine ∧
      ((∀ p ∈ ps, p.fine) → r.err = none) ∧
      (r.any = false → r.err = none → r.w.rows.map (·.idx) = w.rows.map (·.idx)) := by
  induction ps generalizing w with
  | nil =>
      refine ⟨_, rfl, rescans_fine ok w hw, by simp, ?_⟩
      intro _ _
      exact (rescans_same ok w).1.idx
  | cons p ps ih =>
      obtain ⟨w1, h1, h2⟩ := runData_total ok p.data (rescans ok w) (rescans_fine ok w hw) (hm p (by simp))
      unfold rounds
      simp only [h1, bind, Except.bind, pure, Except.pure]
      cases he : p.err with
      | some e =>
          refine ⟨_, rfl, h2, ?_, by simp⟩
          intro hf
          have := hf p (by simp)
          rw [Pass.fine, he] at this; cases this
      | none =>
          obtain ⟨r, i1, i2, i3, i4⟩ := ih w1 h2 (fun x hx => hm x (by simp [hx]))
          by_cases hd : p.data = []
          · have hw1 : w1 = rescans ok w := by
              rw [hd] at h1; simp only [runData, Except.ok.injEq] at h1; exact h1.symm
            simp only [hd, ne_eq, not_true_eq_false, if_false]
            split
            · refine ⟨r, i1, i2, fun hf => i3 (fun x hx => hf x (by simp [hx])), ?_⟩
              intro ha hne
              rw [i4 ha hne, hw1]; exact (rescans_same ok w).1.idx
            · refine ⟨_, rfl, h2, by simp, ?_⟩
              intro _ _
              rw [hw1]; exact (rescans_same ok w).1.idx
          · simp only [hd, ne_eq, not_false_eq_true, if_true, i1]
            exact ⟨_, rfl, i2, fun hf => i3 (fun x hx => hf x (by simp [hx])), by simp⟩

end Verif.Netlink
