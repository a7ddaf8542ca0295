import Verif.Config.Model
import Mathlib.Data.List.Forall2

set_option linter.unusedSimpArgs false
set_option linter.unusedVariables false

/-!
# The tokenizer on words instead of buffer positions
-/

namespace Verif.Config

/-- Completed words, the characters of the current one, flags. -/
structure Abs where
  done : List (List Nat)
  cur : Option (List Nat)
  escaped : Bool
  sq : Bool
  dq : Bool

def absStep (max : Nat) (a : Abs) (c : Nat) : Abs × Bool :=
  if !a.escaped ∧ c = 92 then ({ a with escaped := true }, false)
  else match a.cur with
    | none =>
      if a.sq ∨ a.dq then
        if !a.escaped ∧ ((a.sq ∧ c = 39) ∨ (a.dq ∧ c = 34)) then
          (⟨a.done ++ [[]], none, false, false, false⟩, decide (a.done.length + 1 = max))
        else ({ a with cur := some [c], escaped := false }, false)
      else if !a.escaped ∧ c = 39 then ({ a with sq := true, escaped := false }, false)
      else if !a.escaped ∧ c = 34 then ({ a with dq := true, escaped := false }, false)
      else if !a.escaped ∧ (c = 10 ∨ c = 35) then (a, true)
      else if c ≠ 32 ∧ c ≠ 9 then ({ a with cur := some [c], escaped := false }, false)
      else ({ a with escaped := false }, false)
    | some w =>
      if a.escaped then ({ a with cur := some (w ++ [c]), escaped := false }, false)
      else if (a.sq ∧ c = 39) ∨ (a.dq ∧ c = 34) ∨ (!a.sq ∧ !a.dq ∧ (c = 32 ∨ c = 9 ∨ c = 10 ∨ c = 35)) then
        (⟨a.done ++ [w], none, false, false, false⟩, decide (c = 10 ∨ c = 35 ∨ a.done.length + 1 = max))
      else ({ a with cur := some (w ++ [c]) }, false)

def absEnd (a : Abs) : List (List Nat) :=
  match a.cur with
  | none => a.done
  | some w => a.done ++ [w]

def absRun (max : Nat) : List Nat → Abs → List (List Nat)
  | [], a => absEnd a
  | c :: cs, a => if (absStep max a c).2 then absEnd (absStep max a c).1 else absRun max cs (absStep max a c).1

/-- The C string at a position of a buffer. -/
def str (buf : List Nat) (p : Nat) : List Nat := (buf.drop p).takeWhile (fun c => decide (c ≠ 0))

/-- A word is stored, terminated, at a position, below a limit. -/
def Stored (buf : List Nat) (lim : Nat) (p : Nat) (w : List Nat) : Prop :=
  p + w.length < lim ∧ 0 ∉ w ∧ (∀ k, k < w.length → buf[p + k]? = w[k]?) ∧ buf[p + w.length]? = some 0

theorem Stored.mono {buf buf' : List Nat} {lim lim' p w} (h : Stored buf lim p w) (hl : lim ≤ lim')
    (hb : ∀ i, i < lim → buf'[i]? = buf[i]?) : Stored buf' lim' p w := by
  obtain ⟨h1, h2, h3, h4⟩ := h
  refine ⟨by omega, h2, fun k hk => ?_, ?_⟩
  · rw [hb _ (by omega), h3 k hk]
  · rw [hb _ (by omega), h4]

theorem Stored.str {buf lim p w} (h : Stored buf lim p w) : str buf p = w := by
  obtain ⟨_, h2, h3, h4⟩ := h
  unfold Config.str
  have hd : buf.drop p = w ++ 0 :: buf.drop (p + w.length + 1) := by
    apply List.ext_getElem?
    intro k
    rw [List.getElem?_drop]
    rcases Nat.lt_trichotomy k w.length with hk | hk | hk
    · rw [List.getElem?_append_left hk, h3 k hk]
    · subst hk; rw [List.getElem?_append_right (Nat.le_refl _), h4]; simp
    · rw [List.getElem?_append_right (by omega), show k - w.length = (k - w.length - 1) + 1 by omega, List.getElem?_cons_succ,
        List.getElem?_drop]
      congr 1; omega
  rw [hd, List.takeWhile_append_of_pos (by intro c hc; simp; intro h0; exact h2 (h0 ▸ hc))]
  simp

/-- The buffer position below which completed tokens lie. -/
def lim (s : Tok) : Nat := match s.token with
  | none => s.pos
  | some t => t

/-- Correspondence of the two, while the loop runs, with the input to come. -/
structure Rel (s : Tok) (a : Abs) (rest : List Nat) : Prop where
  input : ∃ tail, s.buf.drop s.pos = rest ++ 0 :: tail
  nz : 0 ∉ rest
  escaped : s.escaped = a.escaped
  sq : s.sq = a.sq
  dq : s.dq = a.dq
  cur : match s.token, a.cur with
    | none, none => True
    | some t, some w => 0 ∉ w ∧ s.pos = t + w.length + (if s.escaped then 1 else 0) ∧
        ∀ k, k < w.length → s.buf[t + k]? = w[k]?
    | _, _ => False
  done : List.Forall₂ (Stored s.buf (lim s)) s.tokens a.done

theorem Rel.head {s : Tok} {a : Abs} {c : Nat} {rest : List Nat} (h : Rel s a (c :: rest)) :
    s.buf[s.pos]? = some c ∧ c ≠ 0 ∧ s.pos < s.buf.length ∧ (∃ tail, s.buf.drop (s.pos + 1) = rest ++ 0 :: tail) ∧ 0 ∉ rest := by
  obtain ⟨tail, ht⟩ := h.input
  have hg : s.buf[s.pos]? = some c := by
    have := congrArg (fun l => l[0]?) ht
    simp only [List.getElem?_drop, Nat.add_zero] at this
    rw [this]; rfl
  have hnz := h.nz
  simp only [List.mem_cons, not_or] at hnz
  refine ⟨hg, fun h0 => hnz.1 h0.symm, (List.getElem?_eq_some_iff.1 hg).1, ⟨tail, ?_⟩, hnz.2⟩
  have := congrArg (fun l => l.drop 1) ht
  simpa [List.drop_drop] using this

theorem Rel.stored_all {s : Tok} {a : Abs} {rest : List Nat} (h : Rel s a rest) (buf' : List Nat) (l' : Nat) (hl : lim s ≤ l')
    (hb : ∀ i, i < lim s → buf'[i]? = s.buf[i]?) : List.Forall₂ (Stored buf' l') s.tokens a.done :=
  h.done.imp (fun _ _ hs => hs.mono hl hb)

theorem drop_set_above {l : List Nat} {i j : Nat} (x : Nat) (h : i < j) : (l.set i x).drop j = l.drop j := by
  apply List.ext_getElem?
  intro k
  rw [List.getElem?_drop, List.getElem?_drop, List.getElem?_set, if_neg (by omega)]

/-- One step corresponds. -/
theorem rel_step {max : Nat} {s : Tok} {a : Abs} {c : Nat} {rest : List Nat} (h : Rel s a (c :: rest)) (hm : a.done.length < max) :
    ∃ s' stop, tokStep max s = some (s', stop) ∧ stop = (absStep max a c).2 ∧ s'.buf.length = s.buf.length ∧
      (if stop then s'.token = none ∧ (absStep max a c).1.cur = none ∧
          ∃ l, List.Forall₂ (Stored s'.buf l) s'.tokens (absStep max a c).1.done
        else Rel s' (absStep max a c).1 rest ∧ (absStep max a c).1.done.length < max) := by
  obtain ⟨hc, hnz, hlt, hrest, hnr⟩ := h.head
  have hlen : s.tokens.length = a.done.length := h.done.length_eq
  obtain ⟨buf, pos, token, esc, sq, dq, tokens⟩ := s
  obtain ⟨done, cur, aesc, asq, adq⟩ := a
  have e1 := h.escaped
  have e2 := h.sq
  have e3 := h.dq
  simp only at e1 e2 e3 hc hlt hrest hlen hm
  subst e1 e2 e3
  have hcur := h.cur
  simp only at hcur
  unfold tokStep absStep
  simp only [hc, if_neg hnz]
  by_cases hb : (!esc) = true ∧ c = 92
  · rw [if_pos hb, if_pos hb]
    refine ⟨_, _, rfl, rfl, rfl, ?_⟩
    simp only [Bool.false_eq_true, if_false]
    refine ⟨⟨hrest, hnr, rfl, rfl, rfl, ?_, ?_⟩, hm⟩
    · cases token with
      | none => cases cur <;> simp_all
      | some t =>
        cases cur with
        | none => exact hcur
        | some w =>
          simp only at hcur ⊢
          have he : esc = false := by simpa using hb.1
          refine ⟨hcur.1, ?_, hcur.2.2⟩
          have := hcur.2.1
          simp only [he, Bool.false_eq_true, if_false] at this
          simp only [if_true]; omega
    · apply h.stored_all
      · cases token <;> simp [lim]
      · intros; rfl
  rw [if_neg hb, if_neg hb]
  cases token with
  | none =>
    cases cur with
    | some w => exact absurd hcur (by simp)
    | none =>
      simp only
      have tokenStart : ∀ sq dq, Rel ⟨buf, pos + 1, some pos, false, sq, dq, tokens⟩ ⟨done, some [c], false, sq, dq⟩ rest := by
        intro sq dq
        refine ⟨hrest, hnr, rfl, rfl, rfl, ?_, ?_⟩
        · simp only
          refine ⟨by simp; exact fun h0 => hnz h0.symm, by simp, ?_⟩
          intro k hk
          simp at hk
          subst hk
          simpa using hc
        · exact h.stored_all _ _ (by simp [lim]) (by intros; rfl)
      have move : ∀ sq dq, Rel ⟨buf, pos + 1, none, false, sq, dq, tokens⟩ ⟨done, none, false, sq, dq⟩ rest := by
        intro sq dq
        exact ⟨hrest, hnr, rfl, rfl, rfl, trivial, h.stored_all _ _ (by simp [lim]) (by intros; rfl)⟩
      by_cases hq : sq = true ∨ dq = true
      · rw [if_pos hq, if_pos hq]
        by_cases hcl : (!esc) = true ∧ (sq = true ∧ c = 39 ∨ dq = true ∧ c = 34)
        · rw [if_pos hcl, if_pos hcl, if_pos (by omega)]
          have hst : List.Forall₂ (Stored (buf.set pos 0) (pos + 1)) (tokens ++ [pos]) (done ++ [[]]) := by
            apply List.rel_append
            · exact h.stored_all _ _ (by simp [lim]) (fun i hi => by simp only [lim] at hi; rw [List.getElem?_set, if_neg (by omega)])
            · refine List.Forall₂.cons ⟨by simp, by simp, by simp, ?_⟩ .nil
              rw [List.getElem?_set]; simp [hlt]
          rw [hlen]
          by_cases hfin : done.length + 1 = max
          · rw [if_pos hfin]
            refine ⟨_, _, rfl, by simp [hfin], by simp, ?_⟩
            simp only [if_true]
            refine ⟨trivial, trivial, _, hst⟩
          · rw [if_neg hfin]
            refine ⟨_, _, rfl, by simp [hfin], by simp, ?_⟩
            simp only [Bool.false_eq_true, if_false]
            refine ⟨⟨?_, hnr, rfl, rfl, rfl, trivial, ?_⟩, by simp; omega⟩
            · simp only; rw [drop_set_above _ (by omega)]; exact hrest
            · exact hst
        · rw [if_neg hcl, if_neg hcl]
          refine ⟨_, _, rfl, rfl, rfl, ?_⟩
          simp only [Bool.false_eq_true, if_false]
          exact ⟨tokenStart _ _, hm⟩
      · rw [if_neg hq, if_neg hq]
        by_cases h1 : (!esc) = true ∧ c = 39
        · rw [if_pos h1, if_pos h1]
          exact ⟨_, _, rfl, rfl, rfl, by simp only [Bool.false_eq_true, if_false]; exact ⟨move _ _, hm⟩⟩
        rw [if_neg h1, if_neg h1]
        by_cases h2 : (!esc) = true ∧ c = 34
        · rw [if_pos h2, if_pos h2]
          exact ⟨_, _, rfl, rfl, rfl, by simp only [Bool.false_eq_true, if_false]; exact ⟨move _ _, hm⟩⟩
        rw [if_neg h2, if_neg h2]
        by_cases h3 : (!esc) = true ∧ (c = 10 ∨ c = 35)
        · rw [if_pos h3, if_pos h3]
          refine ⟨_, _, rfl, rfl, rfl, ?_⟩
          simp only [if_true]
          exact ⟨trivial, trivial, _, h.done⟩
        rw [if_neg h3, if_neg h3]
        by_cases h4 : c ≠ 32 ∧ c ≠ 9
        · rw [if_pos h4, if_pos h4]
          exact ⟨_, _, rfl, rfl, rfl, by simp only [Bool.false_eq_true, if_false]; exact ⟨tokenStart _ _, hm⟩⟩
        · rw [if_neg h4, if_neg h4]
          exact ⟨_, _, rfl, rfl, rfl, by simp only [Bool.false_eq_true, if_false]; exact ⟨move _ _, hm⟩⟩
  | some t =>
    cases cur with
    | none => exact absurd hcur (by simp)
    | some w =>
      simp only at hcur
      obtain ⟨w1, w2, w3⟩ := hcur
      simp only
      cases esc with
      | true =>
        simp only [if_true] at w2 ⊢
        rw [if_neg (by omega)]
        refine ⟨_, _, rfl, rfl, ?_, ?_⟩
        · simp only [List.length_append, List.length_take, List.length_drop]; omega
        simp only [Bool.false_eq_true, if_false]
        have hlow : ∀ i, i < t + 1 → (buf.take (t + 1) ++ (buf.drop t).take (pos - t - 1) ++ buf.drop pos)[i]? = buf[i]? := by
          intro i hi
          rw [List.append_assoc, List.getElem?_append_left (by simp; omega), List.getElem?_take, if_pos (by omega)]
        have hmid : ∀ k, k < w.length →
            (buf.take (t + 1) ++ (buf.drop t).take (pos - t - 1) ++ buf.drop pos)[t + 1 + k]? = buf[t + k]? := by
          intro k hk
          rw [List.append_assoc, List.getElem?_append_right (by simp; omega),
            List.getElem?_append_left (by simp; omega), List.getElem?_take, if_pos (by simp; omega), List.getElem?_drop]
          congr 1; simp; omega
        have hhigh : (buf.take (t + 1) ++ (buf.drop t).take (pos - t - 1) ++ buf.drop pos).drop pos = buf.drop pos := by
          have : (buf.take (t + 1) ++ (buf.drop t).take (pos - t - 1)).length = pos := by simp; omega
          generalize buf.take (t + 1) ++ (buf.drop t).take (pos - t - 1) = pre at this ⊢
          rw [List.drop_append_of_le_length (by omega), List.drop_eq_nil_of_le (by omega), List.nil_append]
        have hpos : (buf.take (t + 1) ++ (buf.drop t).take (pos - t - 1) ++ buf.drop pos)[pos]? = some c := by
          have := congrArg (fun l => l[0]?) hhigh
          simp only [List.getElem?_drop, Nat.add_zero] at this
          rw [this, hc]
        refine ⟨⟨?_, hnr, rfl, rfl, rfl, ?_, ?_⟩, hm⟩
        · obtain ⟨tail, ht⟩ := hrest
          refine ⟨tail, ?_⟩
          simp only
          rw [← ht, ← List.drop_drop, hhigh, List.drop_drop]
        · simp only [Bool.false_eq_true, if_false]
          refine ⟨by simp [w1]; exact fun h0 => hnz h0.symm, by simp; omega, ?_⟩
          intro k hk
          simp at hk
          by_cases hk' : k < w.length
          · rw [hmid k hk', w3 k hk', List.getElem?_append_left hk']
          · have hkw : k = w.length := by omega
            subst hkw
            rw [show t + 1 + w.length = pos by omega, hpos, List.getElem?_append_right (Nat.le_refl _)]
            simp
        · exact h.stored_all _ _ (by simp [lim]) (fun i hi => hlow i (by simp [lim] at hi; omega))
      | false =>
        simp only [Bool.false_eq_true, if_false] at w2 ⊢
        by_cases hcl : sq = true ∧ c = 39 ∨ dq = true ∧ c = 34 ∨ (!sq) = true ∧ (!dq) = true ∧ (c = 32 ∨ c = 9 ∨ c = 10 ∨ c = 35)
        · rw [if_pos hcl, if_pos hcl, if_pos (by omega), hlen]
          have hst : List.Forall₂ (Stored (buf.set pos 0) (pos + 1)) (tokens ++ [t]) (done ++ [w]) := by
            apply List.rel_append
            · exact h.stored_all _ _ (by simp [lim]; omega) (fun i hi => by simp only [lim] at hi; rw [List.getElem?_set, if_neg (by omega)])
            · refine List.Forall₂.cons ⟨by omega, w1, ?_, ?_⟩ .nil
              · intro k hk; rw [List.getElem?_set, if_neg (by omega), w3 k hk]
              · rw [List.getElem?_set, if_pos (by omega), if_pos hlt]
          by_cases hfin : c = 10 ∨ c = 35 ∨ done.length + 1 = max
          · rw [if_pos hfin]
            refine ⟨_, _, rfl, by simp [hfin], by simp, ?_⟩
            simp only [if_true]
            exact ⟨trivial, trivial, _, hst⟩
          · rw [if_neg hfin]
            refine ⟨_, _, rfl, by simp [hfin], by simp, ?_⟩
            simp only [Bool.false_eq_true, if_false]
            refine ⟨⟨?_, hnr, rfl, rfl, rfl, trivial, ?_⟩, by simp; omega⟩
            · simp only; rw [drop_set_above _ (by omega)]; exact hrest
            · exact hst
        · rw [if_neg hcl, if_neg hcl]
          refine ⟨_, _, rfl, rfl, rfl, ?_⟩
          simp only [Bool.false_eq_true, if_false]
          refine ⟨⟨hrest, hnr, rfl, rfl, rfl, ?_, ?_⟩, hm⟩
          · simp only [Bool.false_eq_true, if_false]
            refine ⟨by simp [w1]; exact fun h0 => hnz h0.symm, by simp; omega, ?_⟩
            intro k hk
            simp at hk
            by_cases hk' : k < w.length
            · rw [w3 k hk', List.getElem?_append_left hk']
            · have hkw : k = w.length := by omega
              subst hkw
              rw [show t + w.length = pos by omega, hc, List.getElem?_append_right (Nat.le_refl _)]
              simp
          · exact h.stored_all _ _ (by simp [lim]) (fun i hi => rfl)

/-- The whole run corresponds. -/
theorem rel_run {max : Nat} (rest : List Nat) : ∀ {s : Tok} {a : Abs} (n : Nat), rest.length < n → Rel s a rest → a.done.length < max →
    ∃ s' buf toks, tokLoop max n s = some s' ∧ tokEnd max s' = some (buf, toks) ∧ buf.length = s.buf.length ∧
      toks.map (str buf) = absRun max rest a ∧ toks.length ≤ max ∧ ∀ p ∈ toks, p < buf.length := by
  have fin : ∀ {buf l toks done}, List.Forall₂ (Stored buf l) toks done →
      toks.map (str buf) = done ∧ ∀ p ∈ toks, p < buf.length := by
    intro buf l toks done hf
    induction hf with
    | nil => simp
    | cons h1 _ ih =>
      refine ⟨by simp [h1.str, ih.1], ?_⟩
      intro p hp
      rcases List.mem_cons.1 hp with rfl | hp
      · have := (List.getElem?_eq_some_iff.1 h1.2.2.2).1; omega
      · exact ih.2 p hp
  induction rest with
  | nil =>
    intro s a n hn h hm
    obtain ⟨n, rfl⟩ : ∃ m, n = m + 1 := ⟨n - 1, by omega⟩
    obtain ⟨tail, ht⟩ := h.input
    have hc : s.buf[s.pos]? = some 0 := by
      have := congrArg (fun l => l[0]?) ht
      simp only [List.getElem?_drop, Nat.add_zero] at this
      rw [this]; rfl
    have hlt := (List.getElem?_eq_some_iff.1 hc).1
    have hlen : s.tokens.length = a.done.length := h.done.length_eq
    have hl : tokLoop max (n + 1) s = some s := by simp [tokLoop, tokStep, hc]
    simp only [absRun, absEnd]
    have hcur := h.cur
    cases htok : s.token with
    | none =>
      rw [htok] at hcur
      cases hac : a.cur with
      | some w => rw [hac] at hcur; exact absurd hcur (by simp)
      | none =>
        have := fin h.done
        exact ⟨s, s.buf, s.tokens, hl, by simp [tokEnd, htok], rfl, this.1, by omega, this.2⟩
    | some t =>
      rw [htok] at hcur
      cases hac : a.cur with
      | none => rw [hac] at hcur; exact absurd hcur (by simp)
      | some w =>
        rw [hac] at hcur
        obtain ⟨w1, w2, w3⟩ := hcur
        have hp : (if s.escaped = true then s.pos - 1 else s.pos) = t + w.length := by
          split at w2 <;> simp_all
        have hst : List.Forall₂ (Stored (s.buf.set (t + w.length) 0) (t + w.length + 1)) (s.tokens ++ [t]) (a.done ++ [w]) := by
          apply List.rel_append
          · exact h.stored_all _ _ (by simp [lim, htok]; omega)
              (fun i hi => by simp only [lim, htok] at hi; rw [List.getElem?_set, if_neg (by omega)])
          · refine List.Forall₂.cons ⟨by omega, w1, ?_, ?_⟩ .nil
            · intro k hk; rw [List.getElem?_set, if_neg (by omega), w3 k hk]
            · rw [List.getElem?_set, if_pos rfl, if_pos (by split at w2 <;> omega)]
        have := fin hst
        refine ⟨s, _, _, hl, ?_, ?_, this.1, by simp; omega, this.2⟩
        · simp only [tokEnd, htok, hp]
          rw [if_neg (by rintro ⟨h1, h2⟩; rw [if_pos h1] at w2; omega),
            if_pos ⟨by split at w2 <;> omega, by omega⟩]
        · simp
  | cons c rest ih =>
    intro s a n hn h hm
    obtain ⟨n, rfl⟩ : ∃ m, n = m + 1 := ⟨n - 1, by omega⟩
    obtain ⟨s', stop, h1, h2, h3, h4⟩ := rel_step h hm
    simp only [absRun]
    cases stop with
    | true =>
      simp only [if_true] at h4
      obtain ⟨k1, k2, l, k3⟩ := h4
      have hmax : (absStep max a c).1.done.length ≤ max := by
        clear h1 h2 h3 k1 k2 k3 ih h
        unfold absStep
        repeat' split
        all_goals simp only [List.length_append, List.length_cons, List.length_nil]
        all_goals omega
      have := fin k3
      refine ⟨s', s'.buf, s'.tokens, by simp [tokLoop, h1], by simp [tokEnd, k1], h3, ?_, by rw [k3.length_eq]; exact hmax, this.2⟩
      rw [← h2, if_pos rfl, this.1]
      simp [absEnd, k2]
    | false =>
      simp only [Bool.false_eq_true, if_false] at h4
      obtain ⟨s'', buf, toks, k1, k2, k3, k4, k5⟩ := ih n (by simp at hn; omega) h4.1 h4.2
      refine ⟨s'', buf, toks, by simp [tokLoop, h1, k1], k2, by rw [k3, h3], ?_, k5⟩
      rw [← h2]; simpa using k4

/-- The tokenizer on a terminated line. -/
theorem tokenize_eq (line tail : List Nat) (max : Nat) (hm : 0 < max) (hz : 0 ∉ line) :
    ∃ buf toks, tokenize (line ++ 0 :: tail) max = some (buf, toks) ∧ buf.length = (line ++ 0 :: tail).length ∧
      toks.map (str buf) = absRun max line ⟨[], none, false, false, false⟩ ∧ toks.length ≤ max ∧ ∀ p ∈ toks, p < buf.length := by
  obtain ⟨s', buf, toks, h1, h2, h3⟩ := rel_run (max := max) line (s := ⟨line ++ 0 :: tail, 0, none, false, false, false, []⟩)
    (a := ⟨[], none, false, false, false⟩) ((line ++ 0 :: tail).length + 1) (by simp; omega)
    ⟨⟨tail, by simp⟩, hz, rfl, rfl, rfl, trivial, List.Forall₂.nil⟩ (by simpa using hm)
  exact ⟨buf, toks, by unfold tokenize; rw [h1]; exact h2, h3⟩

end Verif.Config
