import Verif.Bmc.Model
import Verif.Foreign.Lemmas
/-! # Lemmas about the election -/
set_option linter.unusedSimpArgs false

namespace Verif.Bmc
open Verif.Foreign

/-! ### deleteUnselectedMasters -/

theorem deleteLoop_sub (l : Local) (thr : Int) : ∀ rs ri kept best,
    ∃ sub, (deleteLoop l thr rs ri kept best).1 = kept ++ sub ∧ sub.Sublist rs := by
  intro rs
  induction rs with
  | nil => intro ri kept best; exact ⟨[], by simp [deleteLoop]⟩
  | cons r rs ih =>
    intro ri kept best
    simp only [deleteLoop]
    split
    · split
      · obtain ⟨sub, h1, h2⟩ := ih (ri + 1) (kept ++ [r]) kept.length
        exact ⟨r :: sub, by simp [h1], h2.cons_cons r⟩
      · obtain ⟨sub, h1, h2⟩ := ih (ri + 1) kept best
        exact ⟨sub, h1, h2.cons r⟩
    · obtain ⟨sub, h1, h2⟩ := ih (ri + 1) (kept ++ [r]) best
      exact ⟨r :: sub, by simp [h1], h2.cons_cons r⟩

theorem deleteLoop_past (l : Local) (thr : Int) : ∀ rs ri kept best, best < ri →
    (deleteLoop l thr rs ri kept best).2 = best := by
  intro rs
  induction rs with
  | nil => intro ri kept best _; rfl
  | cons r rs ih =>
    intro ri kept best hb
    simp only [deleteLoop]
    split
    · rw [if_neg (by omega)]; exact ih _ _ _ (by omega)
    · exact ih _ _ _ (by omega)

theorem deleteLoop_best (l : Local) (thr : Int) : ∀ rs ri kept best (r : Rec Ann), kept.length ≤ ri → ri ≤ best →
    rs[best - ri]? = some r → qualification l thr r = .qualified →
    (deleteLoop l thr rs ri kept best).1[(deleteLoop l thr rs ri kept best).2]? = some r := by
  intro rs
  induction rs with
  | nil => intro ri kept best r _ _ h; simp at h
  | cons x rs ih =>
    intro ri kept best r hk hle hr hq
    by_cases hb : ri = best
    · subst hb
      simp at hr
      subst hr
      simp only [deleteLoop, hq, if_true]
      rw [deleteLoop_past _ _ _ _ _ _ (by omega)]
      obtain ⟨sub, h1, _⟩ := deleteLoop_sub l thr rs (ri + 1) (kept ++ [x]) kept.length
      rw [h1]; simp
    · have hr' : rs[best - (ri + 1)]? = some r := by
        rw [show best - ri = (best - (ri + 1)) + 1 by omega] at hr
        simpa using hr
      simp only [deleteLoop]
      split
      · exact ih _ _ _ _ (by omega) (by omega) hr' hq
      · exact ih _ _ _ _ (by simp; omega) (by omega) hr' hq

theorem delete_sub (l : Local) (thr : Int) (s : Ds Ann) :
    (deleteUnselected l thr s).live.Sublist s.live ∧
    (deleteUnselected l thr s).num = (deleteUnselected l thr s).live.length ∧
    (deleteUnselected l thr s).wr = (deleteUnselected l thr s).num ∧
    (deleteUnselected l thr s).recs.length = s.recs.length ∧
    ∀ r ∈ (deleteUnselected l thr s).recs, r ∈ s.recs := by
  obtain ⟨sub, h1, h2⟩ := deleteLoop_sub l thr s.live 0 [] s.best
  simp only [List.nil_append] at h1
  have hlen : sub.length ≤ s.recs.length := by
    have := h2.length_le; simp [Ds.live] at this; omega
  have hrecs : (deleteUnselected l thr s).recs = sub ++ s.recs.drop sub.length := by
    simp [deleteUnselected, h1]
  have hnum : (deleteUnselected l thr s).num = sub.length := by
    simp [deleteUnselected, h1]
  have hl : (deleteUnselected l thr s).live = sub := by
    simp only [Ds.live, hrecs, hnum]; simp
  refine ⟨by rw [hl]; exact h2, by rw [hl, hnum], rfl, by rw [hrecs]; simp; omega, ?_⟩
  intro r hr
  rw [hrecs, List.mem_append] at hr
  rcases hr with hr | hr
  · exact List.mem_of_mem_take (h2.subset hr)
  · exact List.mem_of_mem_drop hr

theorem delete_best {l : Local} {thr : Int} {s : Ds Ann} {r : Rec Ann}
    (hr : s.live[s.best]? = some r) (hq : qualification l thr r = .qualified) :
    (deleteUnselected l thr s).live[(deleteUnselected l thr s).best]? = some r := by
  have h := deleteLoop_best l thr s.live 0 [] s.best r (by simp) (by omega) (by simpa using hr) hq
  obtain ⟨sub, h1, h2⟩ := deleteLoop_sub l thr s.live 0 [] s.best
  simp only [List.nil_append] at h1
  have hl : (deleteUnselected l thr s).live = sub := by
    simp only [Ds.live, deleteUnselected]
    simpa [Ds.live] using h1
  have hb : (deleteUnselected l thr s).best = (deleteLoop l thr s.live 0 [] s.best).2 := rfl
  rw [hl, hb, ← h1]; exact h

/-! ### Election -/

theorem firstQual_spec (l : Local) (thr : Int) : ∀ rs i d k b d',
    firstQual l thr rs i d = (k, b, d') →
    (b = true → i ≤ k ∧ ∃ r, rs[k - i]? = some r ∧ qualification l thr r = .qualified ∧
        ∀ x ∈ rs.take (k - i), qualification l thr x ≠ .qualified) ∧
    (b = false → ∀ x ∈ rs, qualification l thr x ≠ .qualified) := by
  intro rs
  induction rs with
  | nil => intro i d k b d' h; simp [firstQual] at h; obtain ⟨rfl, rfl, rfl⟩ := h; simp
  | cons r rs ih =>
    intro i d k b d' h
    simp only [firstQual] at h
    have step : ∀ d0, qualification l thr r ≠ .qualified →
        firstQual l thr rs (i + 1) d0 = (k, b, d') →
        (b = true → i ≤ k ∧ ∃ x, (r :: rs)[k - i]? = some x ∧ qualification l thr x = .qualified ∧
          ∀ y ∈ (r :: rs).take (k - i), qualification l thr y ≠ .qualified) ∧
        (b = false → ∀ x ∈ (r :: rs), qualification l thr x ≠ .qualified) := by
      intro d0 hne h'
      obtain ⟨h1, h2⟩ := ih _ _ _ _ _ h'
      refine ⟨fun hb => ?_, fun hb x hx => ?_⟩
      · obtain ⟨hle, x, hx, hq, hall⟩ := h1 hb
        refine ⟨by omega, x, ?_, hq, ?_⟩
        · rw [show k - i = (k - (i + 1)) + 1 by omega]; simpa using hx
        · intro y hy
          rw [show k - i = (k - (i + 1)) + 1 by omega, List.take_succ_cons] at hy
          rcases List.mem_cons.1 hy with rfl | hy
          · exact hne
          · exact hall y hy
      · rcases List.mem_cons.1 hx with rfl | hx
        · exact hne
        · exact h2 hb x hx
    split at h
    · rename_i hq
      simp only [Prod.mk.injEq] at h
      obtain ⟨rfl, rfl, rfl⟩ := h
      simp [hq]
    · rename_i hq; exact step _ (by rw [hq]; decide) h
    · rename_i hq1 hq2; exact step _ hq1 h

theorem scan_append (l : Local) (parent : Nat) (thr : Int) (r : Rec Ann) : ∀ rs i sc,
    scan l parent thr (rs ++ [r]) i sc
      = scanStep l parent thr (scan l parent thr rs i sc) (i + rs.length) r := by
  intro rs
  induction rs with
  | nil => intro i sc; rfl
  | cons x rs ih =>
    intro i sc
    simp only [List.cons_append, scan, List.length_cons]
    rw [ih]; congr 1; omega

/-- The candidate of the second loop is always a qualified record of the list. -/
theorem scan_best (l : Local) (parent : Nat) (thr : Int) (live : List (Rec Ann)) : ∀ rs i sc,
    (∀ k, rs[k]? = live[i + k]?) →
    (∃ r, live[sc.besti]? = some r ∧ r.data = sc.best ∧ qualification l thr r = .qualified) →
    ∃ r, live[(scan l parent thr rs i sc).besti]? = some r ∧
      r.data = (scan l parent thr rs i sc).best ∧ qualification l thr r = .qualified := by
  intro rs
  induction rs with
  | nil => intro i sc _ h; exact h
  | cons x rs ih =>
    intro i sc hidx h
    simp only [scan]
    apply ih
    · intro k
      have := hidx (k + 1)
      simp only [List.getElem?_cons_succ] at this
      rw [this]; congr 1; omega
    · have hx : live[i]? = some x := by have := hidx 0; simpa using this.symm
      simp only [scanStep]
      split
      · rename_i hq
        simp only
        split
        · exact ⟨x, hx, rfl, hq⟩
        · exact h
      · exact h
      · exact h

theorem elect_some {l : Local} {parent : Nat} {thr : Int} {live : List (Rec Ann)} {b : Nat}
    (h : (elect l parent thr live).1 = some b) :
    ∃ r, live[b]? = some r ∧ qualification l thr r = .qualified := by
  simp only [elect] at h
  split at h
  · cases h
  · rename_i i d hf
    obtain ⟨h1, _⟩ := firstQual_spec l thr live 0 false _ _ _ hf
    obtain ⟨_, r, hr, hq, _⟩ := h1 rfl
    simp only [Nat.sub_zero] at hr
    rw [hr] at h
    simp only at h
    split at h
    · simp only [Option.some.injEq] at h
      have := scan_best l parent thr live (live.drop (i + 1)) (i + 1)
        { besti := i, best := r.data, count := 1, hadResult := false, disc := d }
        (by intro k; simp [List.getElem?_drop]) ⟨r, hr, rfl, hq⟩
      obtain ⟨x, hx, _, hqx⟩ := this
      rw [h] at hx
      exact ⟨x, hx, hqx⟩
    · cases h

end Verif.Bmc
