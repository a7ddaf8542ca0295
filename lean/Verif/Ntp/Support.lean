import Verif.Ntp.Spec

/-!
# Lemmas for the NTP module
-/

set_option linter.unusedVariables false
set_option linter.unusedSimpArgs false

namespace Verif.Ntp

theorem firstSelected_some {k : Nat} {l : List Peer} {i : Nat} (h : firstSelected k l = some i) :
    k ≤ i ∧ i - k < l.length ∧ ∃ p, l[i - k]? = some p ∧ chosen l = some p := by
  induction l generalizing k with
  | nil => simp [firstSelected] at h
  | cons a l ih =>
    rw [firstSelected] at h
    split at h
    · rename_i hc
      cases h
      refine ⟨Nat.le_refl _, by simp, a, by simp, ?_⟩
      simp only [Bool.and_eq_true, Bool.not_eq_true'] at hc
      simp [chosen, hc.1, hc.2]
    · rename_i hc
      obtain ⟨h1, h2, p, h3, h4⟩ := ih h
      refine ⟨by omega, by simp; omega, p, ?_, ?_⟩
      · rw [show i - k = (i - (k + 1)) + 1 by omega, List.getElem?_cons_succ]; exact h3
      · have hc' : (a.selected && !a.self) = false := by
          rw [Bool.and_comm]; simpa using hc
        simp only [chosen, List.find?_cons, hc']
        exact h4

theorem firstSelected_none {k : Nat} {l : List Peer} (h : firstSelected k l = none) : chosen l = none := by
  induction l generalizing k with
  | nil => rfl
  | cons a l ih =>
    rw [firstSelected] at h
    split at h
    · cases h
    · rename_i hc
      have hc' : (a.selected && !a.self) = false := by
        rw [Bool.and_comm]; simpa using hc
      simp only [chosen, List.find?_cons, hc']
      exact ih h

theorem peerAt_first {l : List Peer} {i : Nat} (h : firstSelected 0 l = some i) :
    chosen l = some (peerAt l i) ∧ i < l.length := by
  obtain ⟨_, h2, p, h3, h4⟩ := firstSelected_some h
  simp only [Nat.sub_zero] at h2 h3
  refine ⟨?_, h2⟩
  rw [h4, peerAt, List.getD_eq_getElem?_getD, h3]; rfl

theorem anyCandidate_iff (l : List Peer) :
    anyCandidate l = true ↔ ∃ p ∈ l, p.self = false ∧ (p.candidate = true ∨ p.shortlist = true) := by
  simp [anyCandidate]

/-- The state in which no peer is followed. -/
theorem idle_ruled (l : List Peer) (h : chosen l = none) :
    (if anyCandidate l = true then St.selection else St.listening) = ruled (some none) l := by
  have : (if anyCandidate l = true then St.selection else St.listening) =
      if ∃ p ∈ l, p.self = false ∧ (p.candidate = true ∨ p.shortlist = true) then St.selection else St.listening := by
    by_cases hc : anyCandidate l = true
    · rw [if_pos hc, if_pos ((anyCandidate_iff l).1 hc)]
    · rw [if_neg hc, if_neg (fun hx => hc ((anyCandidate_iff l).2 hx))]
  rw [this]
  simp [ruled, h]

/-- The facts of a state that follows a peer. -/
def Follows (s : State) : Prop :=
  s.st = .slave → ∃ i : Nat, s.sel = i ∧ i < s.peers.length ∧ ∃ p, peerAt s.peers i = p ∧ chosen s.peers = some p ∧
    s.offset = p.offset ∧ s.disp = some p.disp ∧ s.stratum = p.stratum

/-- What `parseOk` leaves alone, and the state it gives. -/
theorem parseOk_spec (s : State) (bad : Bool) (score : Int) :
    (parseOk s bad score).must = s.must ∧ (parseOk s bad score).cannot = s.cannot ∧ (parseOk s bad score).cc = s.cc ∧
    (parseOk s bad score).peers = s.peers ∧ Follows (parseOk s bad score) ∧
    ((parseOk s bad score).st = .slave → bad = false) ∧
    (bad = false → (parseOk s bad score).st = ruled (some none) s.peers) ∧
    (parseOk s bad score).st ≠ .disabled ∧ (parseOk s bad score).st ≠ .faulty ∧
    (parseOk s bad score).id = (chosen s.peers).bind offsetId := by
  unfold parseOk
  split
  · rename_i i hi
    obtain ⟨hc, hl⟩ := peerAt_first hi
    cases bad
    · rw [if_neg (by simp)]
      refine ⟨rfl, rfl, rfl, rfl, ?_, fun _ => rfl, fun _ => ?_, by simp, by simp, by simp [hc]⟩
      · intro _
        exact ⟨i, rfl, hl, _, rfl, hc, rfl, rfl, rfl⟩
      · simp [ruled, hc]
    · rw [if_pos rfl]
      refine ⟨rfl, rfl, rfl, rfl, ?_, ?_, nofun, ?_, ?_, by simp [hc]⟩
      · intro h; simp only at h; split at h <;> cases h
      · intro h; simp only at h; split at h <;> cases h
      · simp only; split <;> simp
      · simp only; split <;> simp
  · rename_i hi
    have hc := firstSelected_none hi
    refine ⟨rfl, rfl, rfl, rfl, ?_, ?_, ?_, ?_, ?_, by simp [hc]⟩
    · intro h; simp only at h; split at h <;> cases h
    · intro h; simp only at h; split at h <;> cases h
    · intro _; exact idle_ruled _ hc
    · simp only; split <;> simp
    · simp only; split <;> simp

theorem parseError_ruled (s : State) (rc : Nat) : (parseError s rc).st = ruled (some (some rc)) (parseError s rc).peers := by
  show (if rc = 92 then St.disabled else if rc = 11 then .listening else .faulty) = ruled (some (some rc)) []
  by_cases h92 : rc = 92
  · subst h92; rfl
  · by_cases h11 : rc = 11
    · subst h11; rfl
    · rw [if_neg h92, if_neg h11]
      unfold ruled
      split <;> simp_all

/-- An induction over a run. -/
theorem run_effects {P : Mod → List Ev → List Out → Prop}
    (hs : ∀ m es o e m' o', P m es o → step m e = .ok (m', o') → P m' (es ++ [e]) (o ++ o'))
    {m : Mod} {es0 : List Ev} {o0 : List Out} (h0 : P m es0 o0) {es : List Ev} {m' : Mod} {o : List Out}
    (h : run es m = .ok (m', o)) : P m' (es0 ++ es) (o0 ++ o) := by
  induction es generalizing m es0 o0 o with
  | nil => cases h; simpa using h0
  | cons e es ih =>
    rw [run] at h
    cases hq : step m e with
    | error f => rw [hq] at h; cases h
    | ok r =>
      obtain ⟨m1, o1⟩ := r
      rw [hq] at h
      dsimp only at h
      cases hr : run es m1 with
      | error f => rw [hr] at h; cases h
      | ok r =>
        obtain ⟨m2, o2⟩ := r
        rw [hr] at h
        cases h
        have := ih (hs _ _ _ _ _ _ h0 hq) hr
        simpa [List.append_assoc] using this

end Verif.Ntp
