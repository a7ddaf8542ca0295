import Verif.Foreign.Model
/-! # Lemmas about the foreign master table -/
set_option linter.unusedSimpArgs false

namespace Verif.Foreign
variable {α : Type}

/-! ### The ring of announce times -/

/-- The ring `r` holds the newest two entries of the history `h` (newest first). -/
structure Ring (r : Rec α) (h : List Int) : Prop where
  len : r.times.length = 2
  tw : r.tw < 2
  tc : r.tc = min 2 h.length
  newest : ∀ x, h[0]? = some x → r.times.getD (1 - r.tw) 0 = x
  second : ∀ y, h[1]? = some y → r.times.getD r.tw 0 = y

theorem Ring.nil (r : Rec α) (h : r.times.length = 2) : Ring { r with tw := 0, tc := 0 } [] where
  len := h
  tw := by simp
  tc := by simp
  newest := by simp
  second := by simp

theorem Ring.blank (d : α) : Ring (Rec.blank d) [] := by
  constructor <;> simp [Rec.blank, threshold]

theorem Ring.announce {r : Rec α} {h : List Int} (hr : Ring r h) (now : Int) :
    Ring (r.announce now) (now :: h) := by
  obtain ⟨hl, htw, htc, h0, h1⟩ := hr
  match ht : r.times, hl with
  | [a, b], _ =>
    rw [ht] at h0 h1
    have hw : r.tw = 0 ∨ r.tw = 1 := by omega
    constructor
    · simp [Rec.announce, ht]
    · rcases hw with hw | hw <;> simp [Rec.announce, threshold, hw]
    · simp only [Rec.announce, threshold, List.length_cons, htc]; split <;> omega
    · rcases hw with hw | hw <;> simp [Rec.announce, threshold, hw, ht]
    · rcases hw with hw | hw <;> simp [Rec.announce, threshold, hw, ht] at * <;>
        intro y hy <;> simpa using h0 y hy

theorem Ring.latestOk {r : Rec α} {h : List Int} (hr : Ring r h) (thr : Int) :
    r.latestOk thr = true ↔ ∃ x, h[0]? = some x ∧ thr ≤ x := by
  obtain ⟨hl, htw, htc, h0, h1⟩ := hr
  have hw : r.tw = 0 ∨ r.tw = 1 := by omega
  cases h with
  | nil => simp at htc; simp [Rec.latestOk, htc]
  | cons x t =>
    have hne : r.tc ≠ 0 := by rw [htc]; simp
    have := h0 x (by simp)
    rw [List.getD_eq_getElem?_getD] at this
    have hi : ringIdx ((r.tw : Int) - 1) = 1 - r.tw := by
      rcases hw with hw | hw <;> simp [hw, ringIdx, threshold]
    simp [Rec.latestOk, hne, hi, this]

theorem Ring.earliestOk {r : Rec α} {h : List Int} (hr : Ring r h) (thr : Int) :
    (¬ r.tc < threshold ∧ r.earliestOk thr = true) ↔ ∃ y, h[1]? = some y ∧ thr ≤ y := by
  obtain ⟨hl, htw, htc, h0, h1⟩ := hr
  have hw : r.tw = 0 ∨ r.tw = 1 := by omega
  match h with
  | [] => simp at htc; simp [Rec.earliestOk, htc]
  | [x] => simp at htc; simp [Rec.earliestOk, htc, threshold]
  | x :: y :: t =>
    have hne : r.tc = 2 := by rw [htc]; simp
    have := h1 y (by simp)
    rw [List.getD_eq_getElem?_getD] at this
    have hi : ringIdx ((r.tw : Int) - 2) = r.tw := by
      rcases hw with hw | hw <;> simp [hw, ringIdx, threshold]
    simp [Rec.earliestOk, hne, hi, this, threshold]

/-- With arrival times that never decrease, the second newest lies in the window
exactly when at least two do. -/
theorem second_iff_count {h : List Int} (hs : h.Pairwise (fun a b => b ≤ a)) (thr : Int) :
    (∃ y, h[1]? = some y ∧ thr ≤ y) ↔ 2 ≤ (h.filter (fun x => decide (thr ≤ x))).length := by
  match h with
  | [] => simp
  | [x] => simp [List.filter]; split <;> simp
  | x :: y :: t =>
    simp only [List.getElem?_cons_succ, List.getElem?_cons_zero, Option.some.injEq]
    rw [List.pairwise_cons] at hs
    have hyx : y ≤ x := hs.1 y (by simp)
    have ht := (List.pairwise_cons.1 hs.2).1
    constructor
    · rintro ⟨z, rfl, hz⟩
      rw [List.filter_cons_of_pos (by simp; omega), List.filter_cons_of_pos (by simpa using hz)]
      simp
    · intro hc
      refine ⟨y, rfl, ?_⟩
      by_cases hy : thr ≤ y
      · exact hy
      · exfalso
        have : t.filter (fun x => decide (thr ≤ x)) = [] := by
          rw [List.filter_eq_nil_iff]
          intro a ha; have := ht a ha; simp; omega
        rw [List.filter_cons, List.filter_cons_of_neg (by simpa using hy), this] at hc
        split at hc <;> simp at hc

/-! ### Lookup -/

theorem findLoop_none {recs : List (Rec α)} {num : Nat} {pid : PortId} (hn : num ≤ recs.length) :
    ∀ fuel j, j < num →
      ∃ res, findLoop recs num pid fuel j = some res ∧
        (∀ k, res = some k → k < num ∧ ∃ r, recs[k]? = some r ∧ r.pid = pid) ∧
        (res = none → ∀ d, d < fuel → ∀ r, recs[(j + d) % num]? = some r → r.pid ≠ pid) := by
  intro fuel
  induction fuel with
  | zero => intro j hj; exact ⟨none, rfl, by simp, by simp⟩
  | succ n ih =>
    intro j hj
    have hlt : j < recs.length := by omega
    simp only [findLoop, List.getElem?_eq_getElem hlt]
    by_cases hp : recs[j].pid = pid
    · refine ⟨some j, by simp [hp], ?_, by simp⟩
      intro k hk; cases hk
      exact ⟨hj, recs[j], by simp [List.getElem?_eq_getElem hlt], hp⟩
    · obtain ⟨res, h1, h2, h3⟩ := ih ((j + 1) % num) (Nat.mod_lt _ (by omega))
      refine ⟨res, by simp [hp, h1], h2, ?_⟩
      intro hres d hd r hr
      cases d with
      | zero =>
        rw [Nat.add_zero, Nat.mod_eq_of_lt hj, List.getElem?_eq_getElem hlt] at hr
        cases hr; exact hp
      | succ d =>
        refine h3 hres d (by omega) r ?_
        rw [Nat.mod_add_mod]
        rw [← hr]; congr 2; omega

/-- With the search start inside the live records, lookup finds a record of the
identity exactly when there is one. -/
theorem find_spec {s : Ds α} {pid : PortId} (hn : s.num ≤ s.recs.length)
    (hb : s.best < s.num ∨ s.num = 0) :
    (∃ k r, s.find pid = some (some k) ∧ k < s.num ∧ s.recs[k]? = some r ∧ r.pid = pid) ∨
    (s.find pid = some none ∧ ∀ r ∈ s.live, r.pid ≠ pid) := by
  rcases Nat.eq_zero_or_pos s.num with h0 | hpos
  · right; simp [Ds.find, h0, findLoop, Ds.live]
  · have hb : s.best < s.num := by omega
    obtain ⟨res, h1, h2, h3⟩ := findLoop_none (pid := pid) hn s.num s.best hb
    cases res with
    | some k =>
      left
      obtain ⟨hk, r, hr, hp⟩ := h2 k rfl
      exact ⟨k, r, h1, hk, hr, hp⟩
    | none =>
      right
      refine ⟨h1, ?_⟩
      intro r hr
      obtain ⟨k, hk, hkr⟩ := List.getElem_of_mem hr
      simp only [Ds.live, List.length_take] at hk
      have hk' : k < s.num := by omega
      refine h3 rfl ((k + s.num - s.best) % s.num) (Nat.mod_lt _ hpos) r ?_
      have : (s.best + (k + s.num - s.best) % s.num) % s.num = k := by
        rw [Nat.add_mod_mod, show s.best + (k + s.num - s.best) = k + s.num by omega,
          Nat.add_mod_right, Nat.mod_eq_of_lt hk']
      rw [this, List.getElem?_eq_getElem (by omega)]
      simp [Ds.live] at hkr
      rw [hkr]

/-! ### Expiry -/

theorem shift_len {recs recs' : List (Rec α)} {i num : Nat} (h : shift recs i num = some recs') :
    recs'.length = recs.length ∧ i + 1 + num ≤ recs.length := by
  simp only [shift] at h
  split at h
  · cases h; simp; omega
  · cases h

theorem shift_live {recs recs' : List (Rec α)} {i num : Nat} (hi : i < num)
    (h : shift recs i num = some recs') :
    recs'.take (num - 1) = (recs.take num).take i ++ (recs.take num).drop (i + 1) := by
  simp only [shift] at h
  split at h
  · rename_i hle
    cases h
    apply List.ext_getElem
    · simp; omega
    · intro k h1 h2
      simp only [List.getElem_take, List.getElem_append, List.length_append, List.length_take,
        List.length_drop, List.getElem_drop]
      simp at h1 h2
      by_cases hk : k < i
      · simp [show k < min i recs.length by omega, show k < min i (min num recs.length) by omega]
        omega
      · simp [show ¬ k < min i recs.length by omega, show ¬ k < min i (min num recs.length) by omega,
          show min i recs.length = i by omega, show min i (min num recs.length) = i by omega]
        split
        · rfl
        · omega
  · cases h

theorem expireLoop_spec (thr : Int) : ∀ fuel (s s' : Ds α) i,
    s.num ≤ i + fuel → i ≤ s.num → s.num ≤ s.recs.length →
    expireLoop thr fuel s i = some s' →
    s'.live = s.live.take i ++ (s.live.drop i).filter (fun r => r.latestOk thr) ∧
    s'.recs.length = s.recs.length ∧ s'.num ≤ s.num ∧ s'.num = s'.live.length := by
  intro fuel
  induction fuel with
  | zero =>
    intro s s' i h1 h2 h3 h
    simp only [expireLoop, Option.some.injEq] at h
    subst h
    have : i = s.num := by omega
    subst this
    simp [Ds.live, List.take_take]
    omega
  | succ n ih =>
    intro s s' i h1 h2 h3 h
    simp only [expireLoop] at h
    split at h
    · rename_i hi
      have hlt : i < s.recs.length := by omega
      have hll : i < s.live.length := by simp [Ds.live]; omega
      have hgi : s.live[i] = s.recs[i] := by simp [Ds.live]
      rw [List.getElem?_eq_getElem hlt] at h
      simp only at h
      split at h
      · rename_i hok
        obtain ⟨hl, h4, h5, h6⟩ := ih s s' (i + 1) (by omega) (by omega) h3 h
        refine ⟨?_, h4, h5, h6⟩
        rw [hl, List.drop_eq_getElem_cons hll, List.take_succ_eq_append_getElem hll,
          List.filter_cons_of_pos (by rw [hgi]; exact hok), List.append_assoc]
        rfl
      · rename_i hok
        cases hsh : shift s.recs i s.num with
        | none => rw [hsh] at h; cases h
        | some recs =>
          rw [hsh] at h
          simp only at h
          have hsl := shift_len hsh
          obtain ⟨hl, h4, h5, h6⟩ := ih _ s' i (by simp; omega) (by simp; omega)
            (by simp; omega) h
          refine ⟨?_, by rw [h4]; exact hsl.1, by simp at h5; omega, h6⟩
          rw [hl]
          have hlv : ∀ w b, (Ds.live ⟨recs, s.num - 1, w, b⟩ : List (Rec α))
              = s.live.take i ++ s.live.drop (i + 1) := fun _ _ => shift_live hi hsh
          have e1 : s.live.drop i = s.live[i] :: s.live.drop (i + 1) :=
            List.drop_eq_getElem_cons hll
          rw [hlv, e1, List.filter_cons_of_neg (by rw [hgi]; exact hok)]
          have hti : (s.live.take i).length = i := by simp; omega
          rw [List.take_append_of_le_length (by omega), List.drop_append_of_le_length (by omega)]
          rw [List.take_of_length_le (by omega), List.drop_of_length_le (by omega)]
          simp
    · simp only [Option.some.injEq] at h
      subst h
      have : i = s.num := by omega
      subst this
      simp [Ds.live, List.take_take]
      omega

theorem expire_spec {s s' : Ds α} {thr : Int} (hn : s.num ≤ s.recs.length)
    (h : s.expire thr = some s') :
    s'.live = s.live.filter (fun r => r.latestOk thr) ∧
    s'.recs.length = s.recs.length ∧ s'.num ≤ s.num ∧ s'.num = s'.live.length := by
  have := expireLoop_spec thr s.num s s' 0 (by omega) (by omega) hn h
  simpa using this

end Verif.Foreign
