import Verif.Netlink.Support

set_option linter.unusedSimpArgs false
set_option linter.unusedVariables false

/-! Handling messages in sequence. -/

namespace Verif.Netlink

/-- A message other than a link message leaves what link messages set. -/
theorem handle_other (ok : SendOk) (m : Msg) (w w' : Work) (c : Bool) (hm : ∀ a, m ≠ .link a)
    (h : handle ok m w = .ok (w', c)) : SameRows w.rows w'.rows ∧ w'.cap = w.cap := by
  cases m with
  | link a => exact absurd rfl (hm a)
  | ctrl x =>
      simp only [handle, Except.ok.injEq, Prod.mk.injEq] at h
      obtain ⟨rfl, _⟩ := h
      unfold handleCtrl
      split
      · split <;> exact ⟨SameRows.refl _, rfl⟩
      · exact ⟨SameRows.refl _, rfl⟩
  | team t =>
      simp only [handle, handleTeam] at h
      cases ho : t.opts with
      | none =>
          simp only [ho, Except.map, Except.ok.injEq, Prod.mk.injEq] at h
          rw [← h.1]; exact ⟨SameRows.refl _, rfl⟩
      | some os =>
          simp only [ho] at h
          by_cases ht : t.team.getD (-1) > 0
          · rw [if_neg (by simpa using ht)] at h
            cases hx : teamOpts (t.team.getD (-1)) os {} w.rows with
            | error e => simp [hx, Except.map] at h
            | ok r =>
                simp only [hx, Except.map, Except.ok.injEq, Prod.mk.injEq] at h
                rw [← h.1]; exact ⟨teamOpts_same _ _ _ _ _ hx, rfl⟩
          · rw [if_pos ht] at h; simp [Except.map] at h
  | ts t =>
      simp only [handle, handleTs, bind, Except.bind, pure, Except.pure] at h
      cases hx : updRowM (t.idx.getD 0) (tsApply t) w.rows with
      | error e => simp [hx, Except.map] at h
      | ok r =>
          simp only [hx, Except.map, Except.ok.injEq, Prod.mk.injEq] at h
          rw [← h.1]; exact ⟨updRowM_same _ _ (tsApply_same t) _ _ hx, rfl⟩
  | str t =>
      simp only [handle, handleStr, bind, Except.bind, pure, Except.pure] at h
      cases hk : w.keys with
      | nil =>
          simp only [hk, Except.map, Except.ok.injEq, Prod.mk.injEq] at h
          rw [← h.1]; exact ⟨SameRows.refl _, rfl⟩
      | cons k ks =>
          cases hs : t.sets with
          | none =>
              simp only [hk, hs, Except.map, Except.ok.injEq, Prod.mk.injEq] at h
              rw [← h.1]; exact ⟨SameRows.refl _, rfl⟩
          | some ss =>
              simp only [hk, hs] at h
              cases hx : updRowM (t.idx.getD 0) (strApply (k :: ks) ss) w.rows with
              | error e => simp [hx, Except.map] at h
              | ok r =>
                  simp only [hx, Except.map, Except.ok.injEq, Prod.mk.injEq] at h
                  rw [← h.1]; exact ⟨updRowM_same _ _ (strApply_same _ ss) _ _ hx, rfl⟩

theorem handleLink_Ok (ok : SendOk) (a : Attrs) (w w' : Work) (c : Bool) (hw : w.Ok) (ha : 0 ≤ a.idx)
    (h : handleLink ok a w = .ok (w', c)) : w'.Ok ∧ w.cap ≤ w'.cap := by
  obtain ⟨w1, c1, h1, hcap, hrows, hroom⟩ := handleLink_ok ok a w hw
  rw [h] at h1
  simp only [Except.ok.injEq, Prod.mk.injEq] at h1
  obtain ⟨rfl, rfl⟩ := h1
  refine ⟨?_, hcap⟩
  have hroom0 := hw.room
  rcases hrows with ⟨rows, hr, he⟩ | ⟨_, _, he⟩ | ⟨hn, hd, he⟩
  · obtain ⟨pre, r, post, e1, e2, e3, e4⟩ := rowsReplace_some _ _ _ hr
    have hnd := hw.nodup
    have hnn := hw.nonneg
    rw [e1] at hnd hnn hroom0
    rw [e4] at he
    by_cases hd : (parse a).ev = .down
    · rw [if_pos hd] at he
      refine ⟨?_, ?_, ?_⟩
      · rw [he]
        refine hnd.sublist ?_
        simp
      · rw [he]; simp at hroom0 ⊢; omega
      · intro x hx; rw [he] at hx
        apply hnn; simp at hx ⊢; tauto
    · rw [if_neg hd] at he
      refine ⟨?_, ?_, ?_⟩
      · rw [he]
        have : (pre ++ keep r (parse a) :: post).map (·.idx) = (pre ++ r :: post).map (·.idx) := by
          simp [keep_idx, e2]
        rw [this]; exact hnd
      · rw [he]; simp at hroom0 ⊢; omega
      · intro x hx; rw [he] at hx
        simp only [List.mem_append, List.mem_cons] at hx
        rcases hx with hx | rfl | hx
        · apply hnn; simp [hx]
        · rw [keep_idx, parse_idx]; exact ha
        · apply hnn; simp [hx]
  · exact ⟨by rw [he]; exact hw.nodup, by rw [he]; omega, by rw [he]; exact hw.nonneg⟩
  · have hn' := (rowsReplace_none _ _).1 hn
    refine ⟨?_, ?_, ?_⟩
    · rw [he, List.map_append, List.nodup_append]
      refine ⟨hw.nodup, by simp, ?_⟩
      intro x hx y hy
      simp only [List.map_cons, List.map_nil, List.mem_singleton] at hy
      obtain ⟨r, hr, rfl⟩ := List.mem_map.1 hx
      rw [hy]; exact hn' r hr
    · rw [he]; have := hroom hd; simp; omega
    · intro x hx; rw [he] at hx
      rcases List.mem_append.1 hx with hx | hx
      · exact hw.nonneg x hx
      · simp only [List.mem_singleton] at hx; rw [hx, parse_idx]; exact ha

theorem handle_Ok (ok : SendOk) (m : Msg) (w w' : Work) (c : Bool) (hw : w.Ok) (hm : m.sane)
    (h : handle ok m w = .ok (w', c)) : w'.Ok ∧ w.cap ≤ w'.cap := by
  cases m with
  | link a => exact handleLink_Ok ok a w w' c hw hm h
  | ctrl x =>
      obtain ⟨h1, h2⟩ := handle_other ok _ w w' c (by simp) h
      exact ⟨hw.same h1 h2, by omega⟩
  | team x =>
      obtain ⟨h1, h2⟩ := handle_other ok _ w w' c (by simp) h
      exact ⟨hw.same h1 h2, by omega⟩
  | ts x =>
      obtain ⟨h1, h2⟩ := handle_other ok _ w w' c (by simp) h
      exact ⟨hw.same h1 h2, by omega⟩
  | str x =>
      obtain ⟨h1, h2⟩ := handle_other ok _ w w' c (by simp) h
      exact ⟨hw.same h1 h2, by omega⟩

theorem handleAll_append (ok : SendOk) (ms ms' : List Msg) (w : Work) :
    handleAll ok (ms ++ ms') w = (handleAll ok ms w).bind (handleAll ok ms') := by
  induction ms generalizing w with
  | nil => rfl
  | cons m ms ih =>
      simp only [List.cons_append, handleAll, bind, Except.bind]
      cases handle ok m w with
      | error e => rfl
      | ok p => exact ih p.1

theorem handleAll_Ok (ok : SendOk) (ms : List Msg) (w w' : Work) (hw : w.Ok) (hm : ∀ m ∈ ms, m.sane)
    (h : handleAll ok ms w = .ok w') : w'.Ok ∧ w.cap ≤ w'.cap := by
  induction ms generalizing w with
  | nil => simp [handleAll] at h; subst h; exact ⟨hw, Nat.le_refl _⟩
  | cons m ms ih =>
      simp only [handleAll, bind, Except.bind] at h
      cases hh : handle ok m w with
      | error e => simp [hh] at h
      | ok p =>
          obtain ⟨w1, c⟩ := p
          simp only [hh] at h
          obtain ⟨h1, h2⟩ := handle_Ok ok m w w1 c hw (hm m (by simp)) hh
          obtain ⟨h3, h4⟩ := ih w1 h1 (fun x hx => hm x (by simp [hx])) h
          exact ⟨h3, by omega⟩

theorem latest_append_other (i : Int) (ms : List Msg) (m : Msg)
    (hm : ∀ a, m = .link a → a.idx ≠ i) : latest i (ms ++ [m]) = latest i ms := by
  unfold latest
  rw [List.filterMap_append]
  cases m with
  | link a => simp [hm a rfl]
  | _ => simp

theorem latest_append_same (i : Int) (ms : List Msg) (a : Attrs) (ha : a.idx = i) :
    latest i (ms ++ [.link a]) = some a := by
  unfold latest
  rw [List.filterMap_append]
  simp [ha]

/-- The rows match the last announcements. -/
structure Matches (ms : List Msg) (rows : List Link) : Prop where
  present : ∀ i, (∃ r ∈ rows, r.idx = i) ↔ ∃ a, latest i ms = some a ∧ a.del = false
  carries : ∀ r ∈ rows, ∀ a, latest r.idx ms = some a → Carries a r

theorem Matches.same {ms : List Msg} {m : Msg} {rows rows' : List Link} (h : Matches ms rows)
    (hm : ∀ a, m ≠ .link a) (hr : SameRows rows rows') : Matches (ms ++ [m]) rows' := by
  have hl : ∀ i, latest i (ms ++ [m]) = latest i ms :=
    fun i => latest_append_other i ms m (fun a ha => absurd ha (hm a))
  constructor
  · intro i
    rw [hl, ← h.present i]
    constructor
    · rintro ⟨r, hr', rfl⟩
      obtain ⟨r0, h0, h1⟩ := hr.mem hr'
      exact ⟨r0, h0, h1.idx.symm⟩
    · rintro ⟨r, hr', rfl⟩
      obtain ⟨r0, h0, h1⟩ := hr.mem' hr'
      exact ⟨r0, h0, h1.idx⟩
  · intro r hr' a ha
    rw [hl] at ha
    obtain ⟨r0, h0, h1⟩ := hr.mem hr'
    rw [h1.idx] at ha
    exact h1.carries (h.carries r0 h0 a ha)

theorem parse_down (a : Attrs) : (parse a).ev = .down ↔ a.del = true := by
  rw [parse_ev]; cases a.del <;> simp

theorem Matches.link {ms : List Msg} {w w' : Work} {c : Bool} (ok : SendOk) (a : Attrs)
    (h : Matches ms w.rows) (hw : w.Ok) (hh : handleLink ok a w = .ok (w', c)) :
    Matches (ms ++ [.link a]) w'.rows := by
  obtain ⟨w1, c1, h1, _, hrows, _⟩ := handleLink_ok ok a w hw
  rw [hh] at h1
  simp only [Except.ok.injEq, Prod.mk.injEq] at h1
  obtain ⟨rfl, rfl⟩ := h1
  have hsame : latest a.idx (ms ++ [.link a]) = some a := latest_append_same _ _ _ rfl
  have hoth : ∀ i, i ≠ a.idx → latest i (ms ++ [.link a]) = latest i ms := by
    intro i hi
    refine latest_append_other i ms _ ?_
    rintro b hb
    cases hb
    exact fun he => hi he.symm
  -- rows of other interfaces, rows of this one
  have key : (∀ i, i ≠ a.idx → ∀ r, (r ∈ w'.rows ∧ r.idx = i) ↔ (r ∈ w.rows ∧ r.idx = i)) ∧
      (a.del = true → ∀ r ∈ w'.rows, r.idx ≠ a.idx) ∧
      (a.del = false → ∃ r ∈ w'.rows, r.idx = a.idx) ∧
      (∀ r ∈ w'.rows, r.idx = a.idx → Carries a r) := by
    rcases hrows with ⟨rows, hr, he⟩ | ⟨hn, hd, he⟩ | ⟨hn, hd, he⟩
    · obtain ⟨pre, r0, post, e1, e2, e3, e4⟩ := rowsReplace_some _ _ _ hr
      rw [parse_idx] at e2 e3
      have hnd := hw.nodup
      rw [e1] at hnd
      have hpost : ∀ x ∈ post, x.idx ≠ a.idx := by
        intro x hx hxi
        simp only [List.map_append, List.map_cons] at hnd
        have := (List.nodup_append.1 hnd).2.1
        rw [List.nodup_cons] at this
        exact this.1 (List.mem_map.2 ⟨x, hx, by rw [hxi, e2]⟩)
      rw [he, e4, e1]
      by_cases hd : (parse a).ev = .down
      · rw [if_pos hd]
        have hdel := (parse_down a).1 hd
        refine ⟨?_, ?_, ?_, ?_⟩
        · intro i hi r
          constructor
          · rintro ⟨h1, h2⟩; refine ⟨?_, h2⟩; simp at h1 ⊢; tauto
          · rintro ⟨h1, h2⟩; refine ⟨?_, h2⟩
            simp at h1 ⊢
            rcases h1 with h1 | h1 | h1
            · exact .inl h1
            · exact absurd (by rw [← h2, h1, e2]) hi
            · exact .inr h1
        · intro _ r hr'
          rcases List.mem_append.1 hr' with hr' | hr'
          · exact e3 r hr'
          · exact hpost r hr'
        · intro hf; rw [hdel] at hf; cases hf
        · intro r hr' hi
          rcases List.mem_append.1 hr' with hr' | hr'
          · exact absurd hi (e3 r hr')
          · exact absurd hi (hpost r hr')
      · rw [if_neg hd]
        have hdel : a.del = false := by
          cases hx : a.del with
          | false => rfl
          | true => exact absurd ((parse_down a).2 hx) hd
        refine ⟨?_, ?_, ?_, ?_⟩
        · intro i hi r
          constructor
          · rintro ⟨h1, h2⟩; refine ⟨?_, h2⟩
            simp at h1 ⊢
            rcases h1 with h1 | h1 | h1
            · exact .inl h1
            · exact absurd (by rw [← h2, h1, keep_idx, parse_idx]) hi
            · exact .inr (.inr h1)
          · rintro ⟨h1, h2⟩; refine ⟨?_, h2⟩
            simp at h1 ⊢
            rcases h1 with h1 | h1 | h1
            · exact .inl h1
            · exact absurd (by rw [← h2, h1, e2]) hi
            · exact .inr (.inr h1)
        · intro hf; rw [hdel] at hf; cases hf
        · intro _; exact ⟨keep r0 (parse a), by simp, by rw [keep_idx, parse_idx]⟩
        · intro r hr' hi
          simp only [List.mem_append, List.mem_cons] at hr'
          rcases hr' with hr' | rfl | hr'
          · exact absurd hi (e3 r hr')
          · exact keep_carries a r0 _ (parse_carries a)
          · exact absurd hi (hpost r hr')
    · have hdel := (parse_down a).1 hd
      have hn' := (rowsReplace_none _ _).1 hn
      rw [parse_idx] at hn'
      rw [he]
      exact ⟨fun i _ r => Iff.rfl, fun _ => hn', fun hf => (by rw [hdel] at hf; cases hf),
        fun r hr' hi => absurd hi (hn' r hr')⟩
    · have hdel : a.del = false := by
        cases hx : a.del with
        | false => rfl
        | true => exact absurd ((parse_down a).2 hx) hd
      have hn' := (rowsReplace_none _ _).1 hn
      rw [parse_idx] at hn'
      rw [he]
      refine ⟨?_, ?_, ?_, ?_⟩
      · intro i hi r
        constructor
        · rintro ⟨h1, h2⟩; refine ⟨?_, h2⟩
          simp at h1
          rcases h1 with h1 | h1
          · exact h1
          · exact absurd (by rw [← h2, h1, parse_idx]) hi
        · rintro ⟨h1, h2⟩; exact ⟨by simp [h1], h2⟩
      · intro hf; rw [hdel] at hf; cases hf
      · intro _; exact ⟨parse a, by simp, parse_idx a⟩
      · intro r hr' hi
        simp only [List.mem_append, List.mem_singleton] at hr'
        rcases hr' with hr' | rfl
        · exact absurd hi (hn' r hr')
        · exact parse_carries a
  obtain ⟨k1, k2, k3, k4⟩ := key
  constructor
  · intro i
    by_cases hi : i = a.idx
    · subst hi
      rw [hsame]
      constructor
      · rintro ⟨r, hr, hri⟩
        refine ⟨a, rfl, ?_⟩
        cases hx : a.del with
        | false => rfl
        | true => exact absurd hri (k2 hx r hr)
      · rintro ⟨b, hb, hbd⟩
        cases hb
        exact k3 hbd
    · rw [hoth i hi, ← h.present i]
      constructor
      · rintro ⟨r, hr⟩; exact ⟨r, (k1 i hi r).1 hr⟩
      · rintro ⟨r, hr⟩; exact ⟨r, (k1 i hi r).2 hr⟩
  · intro r hr b hb
    by_cases hi : r.idx = a.idx
    · rw [hi, hsame] at hb
      cases hb
      exact k4 r hr hi
    · rw [hoth _ hi] at hb
      exact h.carries r ((k1 r.idx hi r).1 ⟨hr, rfl⟩).1 b hb

theorem handleAll_matches (ok : SendOk) (ms0 ms : List Msg) (w w' : Work) (hw : w.Ok)
    (h0 : Matches ms0 w.rows) (hs : ∀ m ∈ ms, m.sane) (h : handleAll ok ms w = .ok w') :
    Matches (ms0 ++ ms) w'.rows := by
  induction ms generalizing ms0 w with
  | nil => simp [handleAll] at h; subst h; simpa using h0
  | cons m ms ih =>
      simp only [handleAll, bind, Except.bind] at h
      cases hh : handle ok m w with
      | error e => simp [hh] at h
      | ok p =>
          obtain ⟨w1, c⟩ := p
          simp only [hh] at h
          have hok := (handle_Ok ok m w w1 c hw (hs m (by simp)) hh).1
          have hm : Matches (ms0 ++ [m]) w1.rows := by
            cases m with
            | link a => exact h0.link ok a hw hh
            | ctrl x => exact h0.same (by simp) (handle_other ok _ w w1 c (by simp) hh).1
            | team x => exact h0.same (by simp) (handle_other ok _ w w1 c (by simp) hh).1
            | ts x => exact h0.same (by simp) (handle_other ok _ w w1 c (by simp) hh).1
            | str x => exact h0.same (by simp) (handle_other ok _ w w1 c (by simp) hh).1
          have := ih (ms0 ++ [m]) w1 hok hm (fun x hx => hs x (by simp [hx])) h
          simpa using this

theorem Work.Ok.empty : Work.Ok {} := ⟨by simp, by simp, by simp⟩

theorem Matches.empty : Matches [] [] := ⟨by simp [latest], by simp⟩

end Verif.Netlink
