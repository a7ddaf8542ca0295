import Verif.Codec.Props
import Verif.Dispatch.Support

/-! # Properties of the reception of messages: C45, C46, C66 -/

set_option linter.unusedSimpArgs false
set_option linter.unusedVariables false

namespace Verif.Dispatch
open Verif.Codec Verif.Codec.Spec Spec

/-- Memory holding the given bytes from address 0 on. -/
private def mem (l : List Nat) : Mem := fun i => BitVec.ofNat 8 (l.getD i 0)

/-- Handlers that record what they are given. -/
private def recorder (messageType : Nat) : Env (List (Bool × Handler × Tlv)) where
  messageType := messageType
  permitted _ := true
  run1 h t s := (s ++ [(false, h, t)], .cont)
  run2 h t s := (s ++ [(true, h, t)], .cont)

/-! ## C45: TLVs are dispatched once, in order -/

/-- The full claim: if the bytes after the message's body are TLVs, not more than 32,
those with an organisation long enough for it, and the handlers raise no error, then
exactly these TLVs are looked up, in order. -/
def C45_statement : Prop :=
  ∀ (env : Env (List (Bool × Handler × Tlv))) (m : Mem) (safe off junk : Nat) (s : List (Bool × Handler × Tlv)) (ts : List TLV),
    env.messageType ≠ 13 → Suffix m off safe ts → (∀ t ∈ ts, IsOrg t.type → 6 ≤ t.value.length) → ts.length ≤ 32 →
    (∀ h t s, (env.run1 h t s).2 ≠ .error) →
    ∃ b s' seen, processTLVs env m safe off junk s = some (b, s', seen) ∧
      seen.map (fun t => (t.type, slice m (t.offset + 4) t.length)) = ts.map (fun t => (t.type, t.value))

/-- After a TLV of an organisation the next six bytes are skipped. -/
theorem C45_violated : ¬ C45_statement := by
  intro h
  obtain ⟨b, s', seen, e, hs⟩ := h (recorder 12) (mem [0x80, 0, 0, 6, 0, 0x0F, 0x53, 0, 0, 9, 0x80, 0x08, 0, 0]) 14 0 0 []
    [⟨0x8000, [0, 0x0F, 0x53, 0, 0, 9]⟩, ⟨0x8008, []⟩] (by decide) (by refine ⟨by decide, by decide, by decide, by decide, by decide, by decide, rfl⟩)
    (by decide) (by decide) (fun _ _ _ => by simp [recorder])
  have e' : processTLVs (recorder 12) (mem [0x80, 0, 0, 6, 0, 0x0F, 0x53, 0, 0, 9, 0x80, 0x08, 0, 0]) 14 0 0 []
      = some (true, [], [⟨0x8000, 0, 10, 6⟩]) := by decide +kernel
  rw [e'] at e
  cases e
  revert hs
  decide

/-- With a TLV of an organisation in last place only: exactly the TLVs are looked up;
each handler for one of them, permitted by the access control lists and for this type
of message, is called in order, first those of the first pass, then, unless the
message is to be dropped, those of the second; and the message is handled unless one of
them had it dropped or gave an error. Missing from the full claim: TLVs after that of an
organisation. -/
theorem C45_partial {σ : Type} (env : Env σ) (m : Mem) (safe off junk : Nat) (s : σ) (ts : List TLV) (hm : env.messageType ≠ 13)
    (hs : Suffix m off safe ts) (hl : ∀ t ∈ ts.dropLast, ¬ IsOrg t.type) (ho : ∀ t ∈ ts, IsOrg t.type → 6 ≤ t.value.length)
    (h32 : (wanted env.permitted env.messageType off ts).length ≤ 32) :
    ∃ seen, processTLVs env m safe off junk s
        = some ((both env (wanted env.permitted env.messageType off ts) s).1, (both env (wanted env.permitted env.messageType off ts) s).2, seen) ∧
      ((pass (·.pass1) env.run1 (wanted env.permitted env.messageType off ts) s).1 ≠ .error →
        seen.map (fun t => (t.type, slice m (t.offset + 4) t.length)) = ts.map (fun t => (t.type, t.value))) := by
  obtain ⟨w1, w2⟩ := walk_ok env m safe junk ts (safe + 1) off ⟨s, [], false, []⟩ hs (by omega) hl ho (by simpa using h32)
  unfold processTLVs
  simp only [hm, if_false]
  by_cases he : (pass (·.pass1) env.run1 (wanted env.permitted env.messageType off ts) s).1 = .error
  · obtain ⟨a', e1, e2⟩ := w1 he
    refine ⟨a'.seen, ?_, fun h => absurd he h⟩
    rw [e1]
    simp [both, he, e2]
  · rw [w2 he]
    refine ⟨lookedAll off ts, ?_, fun _ => ?_⟩
    · simp only [Option.map_some, List.nil_append, Bool.false_or]
      by_cases hd : (pass (·.pass1) env.run1 (wanted env.permitted env.messageType off ts) s).1 = .drop
      · simp [both, hd]
      · have hc : (pass (·.pass1) env.run1 (wanted env.permitted env.messageType off ts) s).1 = .cont := by
          revert he hd
          cases (pass (·.pass1) env.run1 (wanted env.permitted env.messageType off ts) s).1 <;> simp
        simp only [both, hc, reduceCtorEq, decide_false, Bool.false_eq_true, if_false, if_true, Bool.true_eq_false]
        rcases secondPass_ok env (wanted env.permitted env.messageType off ts)
          (pass (·.pass1) env.run1 (wanted env.permitted env.messageType off ts) s).2 false with h | ⟨h1, h2⟩
        · rw [h]; simp
        · rw [h2]; simp [h1]
    · rename_i hx
      clear w1 w2 he h32 hl ho hx
      induction ts generalizing off with
      | nil => rfl
      | cons t ts ih =>
        obtain ⟨-, -, h3, h4⟩ := hs
        simp only [lookedAll, List.map_cons, looked, h3]
        rw [ih (off + 4 + t.value.length) h4]

example : Suffix (mem [0x80, 0x08, 0, 1, 7, 0x80, 0, 0, 7, 0, 0x0F, 0x53, 0, 0, 1, 0xAA]) 0 16
      [⟨0x8008, [7]⟩, ⟨0x8000, [0, 0x0F, 0x53, 0, 0, 1, 0xAA]⟩] ∧
    processTLVs (recorder 12) (mem [0x80, 0x08, 0, 1, 7, 0x80, 0, 0, 7, 0, 0x0F, 0x53, 0, 0, 1, 0xAA]) 16 0 0 []
      = some (true, [(true, ⟨6, 0x8000, 0x000F53, 1, 0x1000, 4, false, true⟩, ⟨0x8000, 5, 15, 1⟩)], [⟨0x8008, 0, 4, 1⟩, ⟨0x8000, 5, 15, 7⟩]) := by
  refine ⟨⟨by decide, by decide, by decide, by decide, by decide, by decide, rfl⟩, by decide +kernel⟩

/-- What holds of every handler called and the TLV it is given: the handler is one of the
table, for the TLV's type, permitted by the access control lists and for the message; and
the TLV lies in the message, or is one of an organisation whose length, less than six,
has wrapped. -/
def Proper (permitted : Nat → Bool) (messageType safe : Nat) (h : Handler) (t : Tlv) : Prop :=
  h ∈ tlvHandlers ∧ h.type = t.type ∧ permitted h.acl = true ∧ h.messages.testBit messageType = true ∧ t.value ≤ safe ∧
    (t.value + t.length ≤ safe ∨ (IsOrg t.type ∧ 65530 ≤ t.length))

/-- Whatever is preserved by the handlers when called properly holds in the end. -/
private theorem proper_all {σ : Type} (env : Env σ) (m : Mem) (safe off junk : Nat) (s : σ) (b : Bool) (s' : σ) (seen : List Tlv) (P : σ → Prop)
    (h1 : ∀ h t s, Proper env.permitted env.messageType safe h t → P s → P (env.run1 h t s).1)
    (h2 : ∀ h t s, Proper env.permitted env.messageType safe h t → P s → P (env.run2 h t s).1) (hs : P s)
    (e : processTLVs env m safe off junk s = some (b, s', seen)) : P s' := by
  have hacc : ∀ (h : Handler) (t : Tlv) (a : Acc σ), h ∈ tlvHandlers → h.type = t.type → t.value ≤ safe → t.length < 65536 →
      (IsOrg t.type → t.value + t.length ≤ safe + 6) → (¬ IsOrg t.type → t.value + t.length ≤ safe) →
      P a.state → (∀ e ∈ a.entries, Proper env.permitted env.messageType safe e.1 e.2) →
      P (accept env h t a).2.state ∧ ∀ e ∈ (accept env h t a).2.entries, Proper env.permitted env.messageType safe e.1 e.2 := by
    intro h t a hm ht hv h16 ho hn hP hE
    unfold accept
    by_cases c1 : env.permitted h.acl = false
    · rw [if_pos c1]; exact ⟨hP, hE⟩
    · by_cases c2 : h.messages.testBit env.messageType = false
      · rw [if_neg c1, if_pos c2]; exact ⟨hP, hE⟩
      · by_cases c3 : a.entries.length = 32
        · rw [if_neg c1, if_neg c2, if_pos c3]; exact ⟨hP, hE⟩
        · rw [if_neg c1, if_neg c2, if_neg c3]
          have c1' : env.permitted h.acl = true := by simpa using c1
          have c2' : h.messages.testBit env.messageType = true := by simpa using c2
          have hq : Proper env.permitted env.messageType safe h (if orgExt t.type then { t with length := (t.length + 65536 - 6) % 65536 } else t) := by
            by_cases c4 : orgExt t.type = true
            · rw [if_pos c4]
              have c5 := (orgExt_iff _).1 c4
              refine ⟨hm, ht, c1', c2', hv, ?_⟩
              have := ho c5
              by_cases c6 : 6 ≤ t.length
              · left; simp only; omega
              · right; exact ⟨c5, by simp only; omega⟩
            · rw [if_neg c4]
              exact ⟨hm, ht, c1', c2', hv, .inl (hn (mt (orgExt_iff _).2 c4))⟩
          have hE' : ∀ e ∈ a.entries ++ [(h, if orgExt t.type then { t with length := (t.length + 65536 - 6) % 65536 } else t)],
              Proper env.permitted env.messageType safe e.1 e.2 := by
            intro e he
            rw [List.mem_append, List.mem_singleton] at he
            rcases he with he | rfl
            · exact hE e he
            · exact hq
          simp only
          by_cases c5 : h.pass1 = true
          · have c6 : ¬ IsOrg t.type := fun hc => by
              have := org_pass1 h hm (by rw [ht]; exact hc)
              rw [this] at c5; cases c5
            have hP' : P (env.run1 h t a.state).1 := h1 h t _ ⟨hm, ht, c1', c2', hv, .inl (hn c6)⟩ hP
            rw [if_pos c5]
            generalize env.run1 h t a.state = r at hP'
            obtain ⟨r1, r2⟩ := r
            cases r2 <;> exact ⟨hP', hE'⟩
          · rw [if_neg c5]
            exact ⟨hP, hE'⟩
  have hone : ∀ (off ty len : Nat) (a : Acc σ), len < 65536 → off + 4 ≤ safe → P a.state →
      (∀ e ∈ a.entries, Proper env.permitted env.messageType safe e.1 e.2) →
      P (oneTLV env m safe off ty len a).2.state ∧
        ∀ e ∈ (oneTLV env m safe off ty len a).2.entries, Proper env.permitted env.messageType safe e.1 e.2 := by
    intro off ty len a h16 hoff hP hE
    unfold oneTLV
    by_cases c1 : len > safe - (off + 4)
    · rw [if_pos c1]; exact ⟨hP, hE⟩
    · rw [if_neg c1]
      by_cases c2 : orgExt ty = true
      · rw [if_pos c2]
        by_cases c3 : safe - (off + 4) < 6
        · have : (msgUnpackOrgTLVSubHeader m (off + 4) (safe - (off + 4))).1 = none := by
            unfold msgUnpackOrgTLVSubHeader; rw [if_pos (by omega)]
          rw [this]; exact ⟨hP, hE⟩
        · rw [sub_read (by omega)]
          simp only
          cases hk : lookup ty _ with
          | none => exact ⟨hP, hE⟩
          | some h =>
            exact hacc h _ _ (lookup_mem hk).1 (lookup_mem hk).2 (by simp only; omega) h16 (fun _ => by simp only; omega)
              (fun hc => absurd ((orgExt_iff _).1 c2) hc) hP hE
      · rw [if_neg c2]
        simp only
        cases hk : lookup ty none with
        | none => exact ⟨hP, hE⟩
        | some h =>
          exact hacc h _ _ (lookup_mem hk).1 (lookup_mem hk).2 (by simp only; omega) h16 (fun hc => absurd ((orgExt_iff _).2 hc) c2)
            (fun _ => by simp only; omega) hP hE
  have hw : ∀ (fuel off : Nat) (a : Acc σ) r, walk env m safe junk fuel off a = some r → P a.state →
      (∀ e ∈ a.entries, Proper env.permitted env.messageType safe e.1 e.2) →
      P r.2.state ∧ ∀ e ∈ r.2.entries, Proper env.permitted env.messageType safe e.1 e.2 := by
    intro fuel
    induction fuel with
    | zero => intro off a r h; simp [walk] at h
    | succ f ih =>
      intro off a r h hP hE
      unfold walk at h
      split at h
      · split at h
        · rename_i type length x hx
          have hlen : off + 4 ≤ safe := by
            unfold msgUnpackTLVHeader at hx
            by_cases g1 : 0 + 2 > safe - off
            · rw [if_pos g1] at hx; cases hx
            · rw [if_neg g1] at hx
              simp only at hx
              split at hx
              · cases hx
              · split at hx
                · cases hx
                · omega
          have hb : length < 65536 := by
            rw [header_read hlen] at hx
            cases hx
            exact number_two
          have := hone off type length a hb hlen hP hE
          generalize oneTLV env m safe off type length a = q at *
          obtain ⟨q1, q2⟩ := q
          cases q1 with
          | none => simp only [Option.some.injEq] at h; subst h; exact this
          | some o => exact ih o q2 r h this.1 this.2
        · simp only [Option.some.injEq] at h; subst h; exact ⟨hP, hE⟩
      · simp only [Option.some.injEq] at h; subst h; exact ⟨hP, hE⟩
  have h2p : ∀ (es : List (Handler × Tlv)) (s : σ) (d : Bool), (∀ e ∈ es, Proper env.permitted env.messageType safe e.1 e.2) → P s →
      P (secondPass env es s d).2 := by
    intro es
    induction es with
    | nil => intro s d _ hP; exact hP
    | cons e es ih =>
      obtain ⟨h, t⟩ := e
      intro s d hE hP
      simp only [secondPass]
      have hE' : ∀ e ∈ es, Proper env.permitted env.messageType safe e.1 e.2 := fun e he => hE e (List.mem_cons_of_mem _ he)
      by_cases c : h.pass2 = true
      · rw [if_pos c]
        have hP' := h2 h t s (hE (h, t) (by simp)) hP
        generalize env.run2 h t s = r at hP'
        obtain ⟨r1, r2⟩ := r
        cases r2
        · exact ih r1 d hE' hP'
        · exact ih r1 true hE' hP'
        · exact hP'
      · rw [if_neg c]; exact ih s d hE' hP
  unfold processTLVs at e
  simp only [Option.map_eq_some_iff] at e
  obtain ⟨r, hr, e⟩ := e
  have hfin : P r.2.state ∧ ∀ e ∈ r.2.entries, Proper env.permitted env.messageType safe e.1 e.2 := by
    by_cases h : env.messageType = 13
    · rw [if_pos h] at hr; cases hr; exact ⟨hs, by simp⟩
    · rw [if_neg h] at hr; exact hw _ _ _ _ hr hs (by simp)
  split at e
  · cases e; exact hfin.1
  · split at e
    · cases e; exact hfin.1
    · have := h2p r.2.entries r.2.state false hfin.2 hfin.1
      generalize secondPass env r.2.entries r.2.state false = q at *
      cases e
      exact this

/-- Whatever the bytes, only handlers permitted by the access control lists and for the
message's type are called, each for a TLV of its type: anything they preserve is
preserved. -/
theorem C45_permitted {σ : Type} (env : Env σ) (m : Mem) (safe off junk : Nat) (s : σ) (b : Bool) (s' : σ) (seen : List Tlv) (P : σ → Prop)
    (hc : ∀ h t s, h ∈ tlvHandlers → h.type = t.type → env.permitted h.acl = true → h.messages.testBit env.messageType = true → P s →
      P (env.run1 h t s).1 ∧ P (env.run2 h t s).1) (hs : P s)
    (e : processTLVs env m safe off junk s = some (b, s', seen)) : P s' :=
  proper_all env m safe off junk s b s' seen P (fun h t s hp hP => (hc h t s hp.1 hp.2.1 hp.2.2.1 hp.2.2.2.1 hP).1)
    (fun h t s hp hP => (hc h t s hp.1 hp.2.1 hp.2.2.1 hp.2.2.2.1 hP).2) hs e

example : processTLVs { recorder 12 with permitted := fun a => a == 0 } (mem [0x80, 0x04, 0, 1, 7]) 5 0 0 [] = some (true, [], [⟨0x8004, 0, 4, 1⟩]) := by
  decide +kernel

/-! ## C71: padding -/

/-- Zeros after the end of a message do not prevent it from being handled, and no
handler is called for them. -/
def C71_statement : Prop :=
  ∀ (env : Env (List (Bool × Handler × Tlv))) (m : Mem) (safe off junk : Nat) (s : List (Bool × Handler × Tlv)),
    (∀ i, off ≤ i → i < safe → m i = 0) → ∃ seen, processTLVs env m safe off junk s = some (true, s, seen)

/-- A single octet of padding: the type of the TLV is never set. -/
theorem C71_violated : ¬ C71_statement := by
  intro h
  obtain ⟨seen, e⟩ := h (recorder 12) (mem [0]) 1 0 1 [] (by intro i h1 h2; have : i = 0 := by omega
                                                             subst this; rfl)
  have e' : processTLVs (recorder 12) (mem [0]) 1 0 1 [] = some (false, [], []) := by decide +kernel
  rw [e'] at e
  cases e

/-- What is missing: a number of octets that leaves one after those that make up whole
headers of TLVs. -/
theorem C71_partial {σ : Type} (env : Env σ) (m : Mem) (safe off junk : Nat) (s : σ)
    (hz : ∀ i, off ≤ i → i < safe → m i = 0) (hn : (safe - off) % 4 ≠ 1) :
    ∃ seen, processTLVs env m safe off junk s = some (true, s, seen) := by
  have zero : ∀ a n, off ≤ a → a + n ≤ safe → n ≤ 2 → ofBE (load m a n) = 0 := by
    intro a n h1 h2 h3
    have : n = 0 ∨ n = 1 ∨ n = 2 := by omega
    rcases this with rfl | rfl | rfl
    · rfl
    · simp [load, ofBE, List.range_succ, hz a h1 (by omega)]
    · simp [load, ofBE, List.range_succ, hz a h1 (by omega), hz (a + 1) (by omega) (by omega)]
  have walks : ∀ (fuel o : Nat) (a : Acc σ), 0 < fuel → off ≤ o → safe < o + fuel → (safe - o) % 4 ≠ 1 →
      ∃ seen, walk env m safe junk fuel o a = some (true, { a with seen := seen }) := by
    intro fuel
    induction fuel using Nat.strong_induction_on with
    | _ fuel ih =>
    intro o a h0 h1 h2 h3
    cases fuel with
    | zero =>
      omega
    | succ f =>
      unfold walk
      by_cases c1 : o < safe
      · rw [if_pos c1]
        have c2 : ¬ 0 + 2 > safe - o := by omega
        by_cases c3 : safe - o < 4
        · have e : msgUnpackTLVHeader m o (safe - o) = (some 0, some 0, false, o + 2) := by
            unfold msgUnpackTLVHeader
            rw [if_neg c2]
            simp only [zero o 2 h1 (by omega) (by omega)]
            rw [if_pos ⟨trivial, c3⟩]
          rw [e]
          exact ⟨a.seen, by simp⟩
        · have e : msgUnpackTLVHeader m o (safe - o) = (some 0, some 0, true, o + 4) := by
            unfold msgUnpackTLVHeader
            rw [if_neg c2]
            simp only [zero o 2 h1 (by omega) (by omega)]
            rw [if_neg (by omega), if_neg (by omega), zero (o + 2) 2 (by omega) (by omega) (by omega)]
          have e2 : oneTLV env m safe o 0 0 a = (some (o + 4 + 0), { a with seen := a.seen ++ [⟨0, o, o + 4, 0⟩] }) := by
            unfold oneTLV
            rw [if_neg (by omega), if_neg (by decide)]
            have : lookup 0 none = none := by decide
            simp only [this]
          rw [e]
          simp only [e2]
          obtain ⟨seen, hs⟩ := ih f (by omega) (o + 4 + 0) { a with seen := a.seen ++ [⟨0, o, o + 4, 0⟩] } (by omega) (by omega) (by omega) (by omega)
          exact ⟨seen, hs⟩
      · rw [if_neg c1]
        exact ⟨a.seen, by simp⟩
  unfold processTLVs
  by_cases hm : env.messageType = 13
  · exact ⟨[], by simp [hm, secondPass]⟩
  · obtain ⟨seen, hs⟩ := walks (safe + 1) off ⟨s, [], false, []⟩ (by omega) (by omega) (by omega) hn
    exact ⟨seen, by simp [hm, hs, secondPass]⟩

example : processTLVs (recorder 0) (mem []) 46 44 7 [] = some (true, [], []) ∧
    processTLVs (recorder 0) (mem []) 51 44 7 [] = some (true, [], [⟨0, 44, 48, 0⟩]) := by
  constructor <;> decide +kernel

/-! ## C46: any bytes -/

/-- TLV processing of any bytes ends. -/
theorem C46_terminates {σ : Type} (env : Env σ) (m : Mem) (safe off junk : Nat) (s : σ) : processTLVs env m safe off junk s ≠ none := by
  have hone : ∀ (off ty len : Nat) (a : Acc σ) o, (oneTLV env m safe off ty len a).1 = some o → off + 4 ≤ o := by
    intro off ty len a o
    unfold oneTLV
    by_cases h1 : len > safe - (off + 4)
    · rw [if_pos h1]; simp
    · rw [if_neg h1]
      by_cases h2 : orgExt ty = true
      · rw [if_pos h2]
        cases (msgUnpackOrgTLVSubHeader m (off + 4) (safe - (off + 4))).1 with
        | none => simp
        | some g =>
          simp only
          cases lookup ty (some g) with
          | none => simp; omega
          | some h => simp only; split <;> simp; omega
      · rw [if_neg h2]
        simp only
        cases lookup ty none with
        | none => simp; omega
        | some h => simp only; split <;> simp; omega
  have hw : ∀ (fuel off : Nat) (a : Acc σ), 0 < fuel → safe < off + fuel → walk env m safe junk fuel off a ≠ none := by
    intro fuel
    induction fuel with
    | zero => intro off a h; omega
    | succ f ih =>
      intro off a _ hf
      unfold walk
      split
      · split
        · rename_i type length _ _
          have := hone off type length a
          generalize oneTLV env m safe off type length a = q at *
          obtain ⟨q1, q2⟩ := q
          cases q1 with
          | none => simp
          | some o =>
            have := this o rfl
            exact ih o q2 (by omega) (by omega)
        · simp
      · simp
  unfold processTLVs
  simp only [ne_eq, Option.map_eq_none_iff]
  by_cases h : env.messageType = 13
  · rw [if_pos h]; simp
  · rw [if_neg h]; exact hw _ _ _ (by omega) (by omega)

example : processTLVs (recorder 12) (mem [0, 0, 0, 0, 0, 3, 0, 0, 0, 0]) 10 0 0 [] = some (false, [], [⟨0, 0, 4, 0⟩]) := by decide +kernel

/-- What is done depends on the bytes of the message only. -/
theorem C46_local {σ : Type} (env : Env σ) (m m' : Mem) (safe off junk : Nat) (s : σ) (he : ∀ i, i < safe → m i = m' i) :
    processTLVs env m safe off junk s = processTLVs env m' safe off junk s := by
  have hone : ∀ (off ty len : Nat) (a : Acc σ), oneTLV env m safe off ty len a = oneTLV env m' safe off ty len a := by
    intro off ty len a
    unfold oneTLV
    rw [(C43_tlvHeaders m m' (off + 4) (safe - (off + 4)) (fun i h1 h2 => he i (by omega))).2.1]
  have hw : ∀ (fuel off : Nat) (a : Acc σ), walk env m safe junk fuel off a = walk env m' safe junk fuel off a := by
    intro fuel
    induction fuel with
    | zero => intro off a; rfl
    | succ f ih =>
      intro off a
      unfold walk
      rw [(C43_tlvHeaders m m' off (safe - off) (fun i h1 h2 => he i (by omega))).1.1]
      simp only [hone, ih]
  unfold processTLVs
  rw [hw]

example : ∀ i, i < 4 → (mem [0x80, 8, 0, 0]) i = (mem [0x80, 8, 0, 0, 0xFF]) i := by decide

/-- The full claim on bounds: whatever the bytes, every TLV handed to a handler lies in
the message. -/
def C46_statement : Prop :=
  ∀ (env : Env (List (Bool × Handler × Tlv))) (m : Mem) (safe off junk : Nat) (s : List (Bool × Handler × Tlv)) (b : Bool)
    (s' : List (Bool × Handler × Tlv)) (seen : List Tlv) (P : List (Bool × Handler × Tlv) → Prop),
    (∀ h t s, t.value + t.length ≤ safe → P s → P (env.run1 h t s).1 ∧ P (env.run2 h t s).1) → P s →
    processTLVs env m safe off junk s = some (b, s', seen) → P s'

/-- A slave status TLV with a length of less than six is handed over with a length of
about 65530. -/
theorem C46_violated : ¬ C46_statement := by
  intro h
  have := h (recorder 12) (mem [0x80, 0, 0, 0, 0, 0x0F, 0x53, 0, 0, 1]) 10 0 0 [] true
    [(true, ⟨6, 0x8000, 0x000F53, 1, 0x1000, 4, false, true⟩, ⟨0x8000, 0, 10, 65530⟩)] [⟨0x8000, 0, 10, 0⟩]
    (fun s => ∀ e ∈ s, e.2.2.value + e.2.2.length ≤ 10)
    (fun h t s ht hP => by
      constructor <;>
      · intro e he
        simp only [recorder, List.mem_append, List.mem_singleton] at he
        rcases he with he | rfl
        · exact hP e he
        · exact ht)
    (by simp) (by decide +kernel)
  revert this
  decide

/-- Every TLV handed to a handler lies in the message, except those of an organisation
with a length of less than six, whose value begins in the message and whose length has
wrapped. Missing from the full claim: these. -/
theorem C46_bounds_partial {σ : Type} (env : Env σ) (m : Mem) (safe off junk : Nat) (s : σ) (b : Bool) (s' : σ) (seen : List Tlv) (P : σ → Prop)
    (hc : ∀ h t s, t.value ≤ safe → (t.value + t.length ≤ safe ∨ (IsOrg t.type ∧ 65530 ≤ t.length)) → P s →
      P (env.run1 h t s).1 ∧ P (env.run2 h t s).1) (hs : P s)
    (e : processTLVs env m safe off junk s = some (b, s', seen)) : P s' :=
  proper_all env m safe off junk s b s' seen P (fun h t s hp hP => (hc h t s hp.2.2.2.2.1 hp.2.2.2.2.2 hP).1)
    (fun h t s hp hP => (hc h t s hp.2.2.2.2.1 hp.2.2.2.2.2 hP).2) hs e

example : processTLVs (recorder 12) (mem [0x80, 0x04, 0, 2, 7, 7, 0x80, 0x05, 0, 1, 9]) 11 0 0 []
    = some (true, [(true, ⟨3, 0x8004, 0, 0, 0x1000, 4, false, true⟩, ⟨0x8004, 0, 4, 2⟩), (true, ⟨4, 0x8005, 0, 0, 0x1000, 4, false, true⟩, ⟨0x8005, 6, 10, 1⟩)],
      [⟨0x8004, 0, 4, 2⟩, ⟨0x8005, 6, 10, 1⟩]) := by decide +kernel

/-- The table of TLVs kept for the second pass, of 32 entries, is never exceeded. -/
theorem C46_table {σ : Type} (env : Env σ) (m : Mem) (safe junk fuel off : Nat) (a : Acc σ) (r : Bool × Acc σ) (ha : a.entries.length ≤ 32)
    (e : walk env m safe junk fuel off a = some r) : r.2.entries.length ≤ 32 := by
  have hacc : ∀ (h : Handler) (t : Tlv) (a : Acc σ), a.entries.length ≤ 32 → (accept env h t a).2.entries.length ≤ 32 := by
    intro h t a ha
    unfold accept
    by_cases c1 : env.permitted h.acl = false
    · rw [if_pos c1]; exact ha
    · by_cases c2 : h.messages.testBit env.messageType = false
      · rw [if_neg c1, if_pos c2]; exact ha
      · by_cases c3 : a.entries.length = 32
        · rw [if_neg c1, if_neg c2, if_pos c3]; exact ha
        · rw [if_neg c1, if_neg c2, if_neg c3]
          simp only
          by_cases c5 : h.pass1 = true
          · rw [if_pos c5]
            generalize env.run1 h t a.state = q
            obtain ⟨q1, q2⟩ := q
            cases q2 <;> · simp; omega
          · rw [if_neg c5]; simp; omega
  have hone : ∀ (off ty len : Nat) (a : Acc σ), a.entries.length ≤ 32 → (oneTLV env m safe off ty len a).2.entries.length ≤ 32 := by
    intro off ty len a ha
    unfold oneTLV
    by_cases h1 : len > safe - (off + 4)
    · rw [if_pos h1]; exact ha
    · rw [if_neg h1]
      by_cases h2 : orgExt ty = true
      · rw [if_pos h2]
        cases (msgUnpackOrgTLVSubHeader m (off + 4) (safe - (off + 4))).1 with
        | none => exact ha
        | some g =>
          simp only
          cases lookup ty (some g) with
          | none => exact ha
          | some h => exact hacc h _ _ ha
      · rw [if_neg h2]
        simp only
        cases lookup ty none with
        | none => exact ha
        | some h => exact hacc h _ _ ha
  induction fuel generalizing off a with
  | zero => simp [walk] at e
  | succ f ih =>
    unfold walk at e
    split at e
    · split at e
      · rename_i type length _ _
        have := hone off type length a ha
        generalize oneTLV env m safe off type length a = q at *
        obtain ⟨q1, q2⟩ := q
        cases q1 with
        | none => simp only [Option.some.injEq] at e; subst e; exact this
        | some o => exact ih o q2 this e
      · simp only [Option.some.injEq] at e; subst e; exact ha
    · simp only [Option.some.injEq] at e; subst e; exact ha

example : (walk (recorder 12) (fun i => if i % 4 < 2 then (if i % 4 = 0 then 0x80#8 else 0x08#8) else 0#8) 132 0 133 0 ⟨[], [], false, []⟩).map
    (fun r => (r.1, r.2.entries.length)) = some (false, 32) := by decide +kernel

/-! ## C66: which port handles a datagram -/

/-- The port at position `i` is the one to handle a message of the domain: the first
with that domain, or, if there is none, the last monitoring port. -/
def Chosen (ports : List Port) (domain i : Nat) : Prop :=
  (∃ p, ports[i]? = some p ∧ p.domain = domain ∧ ∀ j q, j < i → ports[j]? = some q → q.domain ≠ domain) ∨
  ((∀ p ∈ ports, p.domain ≠ domain) ∧ ∃ p, ports[i]? = some p ∧ p.monitor = true ∧ ∀ j q, i < j → ports[j]? = some q → q.monitor = false)

private theorem choose_ok (d : Nat) : ∀ (ports : List Port) (k : Nat) (mon : Option Nat) (i : Nat),
    choose d ports k mon = some i ↔ ((∃ p n, i = k + n ∧ ports[n]? = some p ∧ p.domain = d ∧ ∀ j q, j < n → ports[j]? = some q → q.domain ≠ d) ∨
      ((∀ p ∈ ports, p.domain ≠ d) ∧ ((∃ p n, i = k + n ∧ ports[n]? = some p ∧ p.monitor = true ∧ ∀ j q, n < j → ports[j]? = some q → q.monitor = false) ∨
        ((∀ p ∈ ports, p.monitor = false) ∧ mon = some i))))
  | [], k, mon, i => by simp [choose]
  | p :: ps, k, mon, i => by
    simp only [choose]
    by_cases h : p.domain = d
    · rw [if_pos h]
      constructor
      · intro e
        cases e
        exact .inl ⟨p, 0, rfl, rfl, h, fun j q hj => by omega⟩
      · rintro (⟨q, n, rfl, hq, hd, hall⟩ | ⟨hall, -⟩)
        · cases n with
          | zero => rfl
          | succ n => exact absurd h (hall 0 p (by omega) rfl)
        · exact absurd h (hall p (by simp))
    · rw [if_neg h, choose_ok d ps (k + 1) _ i]
      constructor
      · rintro (⟨q, n, rfl, hq, hd, hall⟩ | ⟨hall, hr⟩)
        · refine .inl ⟨q, n + 1, by omega, by simpa using hq, hd, fun j r hj hr => ?_⟩
          cases j with
          | zero => simp at hr; subst hr; exact h
          | succ j => exact hall j r (by omega) (by simpa using hr)
        · refine .inr ⟨fun q hq => ?_, ?_⟩
          · rcases List.mem_cons.1 hq with rfl | hq
            · exact h
            · exact hall q hq
          · rcases hr with ⟨q, n, rfl, hq, hm, hl⟩ | ⟨hn, hm⟩
            · refine .inl ⟨q, n + 1, by omega, by simpa using hq, hm, fun j r hj hr => ?_⟩
              cases j with
              | zero => omega
              | succ j => exact hl j r (by omega) (by simpa using hr)
            · by_cases hpm : p.monitor = true
              · rw [if_pos hpm] at hm
                cases hm
                refine .inl ⟨p, 0, rfl, rfl, hpm, fun j r hj hr => ?_⟩
                cases j with
                | zero => omega
                | succ j => exact hn r (List.mem_of_getElem? (by simpa using hr))
              · rw [if_neg hpm] at hm
                refine .inr ⟨fun q hq => ?_, hm⟩
                rcases List.mem_cons.1 hq with rfl | hq
                · simpa using hpm
                · exact hn q hq
      · rintro (⟨q, n, rfl, hq, hd, hall⟩ | ⟨hall, hr⟩)
        · cases n with
          | zero => simp at hq; subst hq; exact absurd hd h
          | succ n => exact .inl ⟨q, n, by omega, by simpa using hq, hd, fun j r hj hr => hall (j + 1) r (by omega) (by simpa using hr)⟩
        · refine .inr ⟨fun q hq => hall q (List.mem_cons_of_mem _ hq), ?_⟩
          rcases hr with ⟨q, n, rfl, hq, hm, hl⟩ | ⟨hn, hm⟩
          · cases n with
            | zero =>
              simp at hq; subst hq
              refine .inr ⟨fun r hr => ?_, by rw [if_pos hm]; rfl⟩
              obtain ⟨j, hj⟩ := List.mem_iff_getElem?.1 hr
              exact hl (j + 1) r (by omega) (by simpa using hj)
            | succ n => exact .inl ⟨q, n, by omega, by simpa using hq, hm, fun j r hj hr => hl (j + 1) r (by omega) (by simpa using hr)⟩
          · have hpm : ¬ p.monitor = true := by simp [hn p (by simp)]
            exact .inr ⟨fun q hq => hn q (List.mem_cons_of_mem _ hq), by rw [if_neg hpm]; exact hm⟩

private theorem chosen_iff (ports : List Port) (d i : Nat) : choose d ports 0 none = some i ↔ Chosen ports d i := by
  rw [choose_ok]
  unfold Chosen
  simp only [Nat.zero_add, reduceCtorEq, and_false, or_false]
  constructor
  · rintro (⟨p, n, rfl, h⟩ | ⟨h1, p, n, rfl, h⟩)
    · exact .inl ⟨p, h⟩
    · exact .inr ⟨h1, p, h⟩
  · rintro (⟨p, h⟩ | ⟨h1, p, h⟩)
    · exact .inl ⟨p, i, rfl, h⟩
    · exact .inr ⟨h1, p, i, rfl, h⟩

private theorem unpack_iff (m : Mem) (type safe n : Nat) : unpackPortMessage m type safe = some n ↔ ∃ k, fixedLength type = some k ∧ k ≤ safe ∧ 34 + n = k := by
  obtain ⟨⟨-, -, -⟩, ⟨-, hs, -⟩, ⟨-, hr, -⟩, ⟨-, ha, -⟩⟩ := C43_messages m m safe (fun _ _ => rfl)
  have h1 : ∀ {α : Type} (o : Option α) (L v : Nat), (o = none ↔ safe < 34 + v) → ((o.map fun _ => v) = some n ↔ (34 + v ≤ safe ∧ n = v)) := by
    intro α o L v h
    cases o with
    | none => simp at h ⊢; omega
    | some x => simp at h ⊢; omega
  have hsig : ((table signaling).unpack m 0 safe).ok = true ↔ 44 ≤ safe := by
    constructor
    · intro h
      by_contra hc
      have := (C43_tables_partial m m 0 safe (fun _ _ _ => rfl)).2.2.2.2 (signaling, 44) (by simp) (by simp only; omega)
      simp only at this
      rw [this] at h; cases h
    · intro h
      obtain ⟨vs, q, e, -⟩ := seg_signaling.good.unpack m 0 safe h
      rw [e]
  have hman : ((table management).unpack m 0 safe).ok = true ↔ 48 ≤ safe := by
    constructor
    · intro h
      by_contra hc
      have := (C43_tables_partial m m 0 safe (fun _ _ _ => rfl)).2.2.2.2 (management, 48) (by simp) (by simp only; omega)
      simp only at this
      rw [this] at h; cases h
    · intro h
      obtain ⟨vs, q, e, -⟩ := seg_management.good.unpack m 0 safe h
      rw [e]
  have hif : ∀ (c : Bool) (L v : Nat), (c = true ↔ 34 + v ≤ safe) → ((if c = true then some v else none) = some n ↔ (34 + v ≤ safe ∧ n = v)) := by
    intro c L v h
    cases c <;> simp at h ⊢ <;> omega
  unfold unpackPortMessage
  by_cases c0 : type = 11
  · rw [if_pos c0, h1 _ 0 30 ha]; subst c0; simp [fixedLength]; omega
  · rw [if_neg c0]
    by_cases c1 : type = 0 ∨ type = 8 ∨ type = 1 ∨ type = 2
    · rw [if_pos c1, h1 _ 0 10 hs]
      rcases c1 with rfl | rfl | rfl | rfl <;> simp [fixedLength] <;> omega
    · rw [if_neg c1]
      by_cases c2 : type = 9 ∨ type = 3 ∨ type = 10
      · rw [if_pos c2, h1 _ 0 20 hr]
        rcases c2 with rfl | rfl | rfl <;> simp [fixedLength] <;> omega
      · rw [if_neg c2]
        by_cases c3 : type = 13
        · rw [if_pos c3, hif _ 0 14 hman]; subst c3; simp [fixedLength]; omega
        · rw [if_neg c3]
          by_cases c4 : type = 12
          · rw [if_pos c4, hif _ 0 10 hsig]; subst c4; simp [fixedLength]; omega
          · rw [if_neg c4]
            have : fixedLength type = none := by
              unfold fixedLength
              split <;> simp_all
            simp [this]

/-- A datagram is given to TLV processing and the handlers of a port exactly if: it has
at least 34 bytes; access control lets it pass; its version is 2; the port is the one
for its domain; it is not from that port; and the lesser of the bytes received and the
length it claims is enough for its type. That length, and the end of the fixed part,
are what TLV processing is given. -/
theorem C66_delivery (ports : List Port) (gate : Bool → Bool) (m : Mem) (length i safe off : Nat) (h : Header) :
    processMessage ports gate m length = .deliver i safe off h ↔
      (msgUnpackHeader m length).1 = some h ∧ gate (decide (h.messageType = 13)) = true ∧ h.version = 2 ∧
      Chosen ports h.domain i ∧ (∀ p, ports[i]? = some p → ¬ (p.identity = h.identity ∧ p.number = h.port)) ∧
      safe = min length h.messageLength ∧ fixedLength h.messageType = some off ∧ off ≤ safe := by
  obtain ⟨⟨-, hh, -⟩, -⟩ := C43_messages m m length (fun _ _ => rfl)
  unfold processMessage
  by_cases h34 : length < 34
  · rw [if_pos h34, hh.2 h34]; simp
  · rw [if_neg h34]
    cases hd : (msgUnpackHeader m length).1 with
    | none => exact absurd (hh.1 hd) h34
    | some g =>
      simp only [Option.some.injEq]
      by_cases c1 : gate (decide (g.messageType = 13)) = false
      · rw [if_pos c1]
        simp only [reduceCtorEq, false_iff]
        rintro ⟨rfl, h1, -⟩
        rw [c1] at h1; cases h1
      · rw [if_neg c1]
        by_cases c2 : g.version = 2
        · rw [if_neg (by simpa using c2)]
          cases hc : choose g.domain ports 0 none with
          | none =>
            simp only [reduceCtorEq, false_iff]
            rintro ⟨rfl, -, -, h1, -⟩
            rw [(chosen_iff _ _ _).2 h1] at hc; cases hc
          | some k =>
            have hk := (chosen_iff _ _ _).1 hc
            simp only
            obtain ⟨p, hp, hdom⟩ : ∃ p, ports[k]? = some p ∧ (g.domain = p.domain ∨ p.monitor = true) := by
              rcases hk with ⟨p, hp, hd, -⟩ | ⟨-, p, hp, hm, -⟩
              · exact ⟨p, hp, .inl hd.symm⟩
              · exact ⟨p, hp, .inr hm⟩
            rw [hp]
            simp only
            unfold processPortMessage
            rw [if_neg (by rcases hdom with hdom | hdom <;> simp [hdom])]
            simp only
            have hsafe : (if g.messageLength < length then g.messageLength else length) = min length g.messageLength := by split <;> omega
            rw [hsafe]
            have huniq : ∀ j, Chosen ports g.domain j → j = k := fun j hj => by
              have := (chosen_iff _ _ _).2 hj; rw [hc] at this; cases this; rfl
            by_cases c3 : p.number = g.port ∧ g.identity = p.identity
            · rw [if_pos c3]
              simp only [reduceCtorEq, false_iff]
              rintro ⟨rfl, -, -, h1, h2, -⟩
              have := huniq _ h1
              subst this
              exact h2 p hp ⟨c3.2.symm, c3.1⟩
            · rw [if_neg c3]
              cases hu : unpackPortMessage m g.messageType (min length g.messageLength) with
              | none =>
                simp only [reduceCtorEq, false_iff]
                rintro ⟨rfl, -, -, -, -, rfl, h2, h3⟩
                have := (unpack_iff m g.messageType (min length g.messageLength) (off - 34)).2 ⟨off, h2, h3, by
                  unfold fixedLength at h2; split at h2 <;> simp at h2 <;> omega⟩
                rw [hu] at this; cases this
              | some n =>
                simp only [Fate.deliver.injEq]
                obtain ⟨v, e1, e2, e3⟩ := (unpack_iff _ _ _ _).1 hu
                constructor
                · rintro ⟨rfl, rfl, rfl, rfl⟩
                  refine ⟨rfl, by simpa using c1, c2, hk, fun q hq => ?_, rfl, by rw [e1, e3], by omega⟩
                  rw [hp] at hq; cases hq
                  rintro ⟨q1, q2⟩
                  exact c3 ⟨q2, q1.symm⟩
                · rintro ⟨rfl, -, -, h1, -, rfl, h2, h3⟩
                  refine ⟨(huniq _ h1).symm, rfl, ?_, rfl⟩
                  rw [e1] at h2; cases h2; omega
        · rw [if_pos (by simpa using c2)]
          simp only [reduceCtorEq, false_iff]
          rintro ⟨rfl, -, h1, -⟩
          exact c2 h1

example : processMessage [⟨0, false, 7, 1⟩, ⟨3, false, 7, 2⟩] (fun _ => true) (mem [0x08, 2, 0, 44, 3, 0, 0, 0, 0, 0, 0, 0, 0, 0, 0, 0, 0, 0, 0, 0, 0, 0, 0, 0, 0, 0, 0, 9, 0, 2]) 48
    = .deliver 1 44 44 ⟨0, 8, 0, 2, 44, 3, 0, 0, 0, 0, 0, 9, 2, 0, 0, 0⟩ := by decide +kernel

/-- The assertion that the port has the message's domain or is a monitoring port does
not fail, and no port beyond the list is used. -/
theorem C66_no_assertion (ports : List Port) (gate : Bool → Bool) (m : Mem) (length : Nat) : processMessage ports gate m length ≠ .assertion := by
  unfold processMessage
  split
  · simp
  · cases hd : (msgUnpackHeader m length).1 with
    | none => simp
    | some g =>
      simp only
      split
      · simp
      · split
        · simp
        · cases hc : choose g.domain ports 0 none with
          | none => simp
          | some k =>
            have hk := (chosen_iff _ _ _).1 hc
            obtain ⟨p, hp, hdom⟩ : ∃ p, ports[k]? = some p ∧ (g.domain = p.domain ∨ p.monitor = true) := by
              rcases hk with ⟨p, hp, hd, -⟩ | ⟨-, p, hp, hm, -⟩
              · exact ⟨p, hp, .inl hd.symm⟩
              · exact ⟨p, hp, .inr hm⟩
            simp only [hp]
            unfold processPortMessage
            rw [if_neg (by rcases hdom with hdom | hdom <;> simp [hdom])]
            simp only
            split
            · simp
            · split <;> simp

example : processMessage [⟨0, false, 7, 1⟩, ⟨0, true, 7, 2⟩] (fun _ => true) (mem [0x0D, 2, 0, 48, 3]) 48
    = .deliver 1 48 48 ⟨0, 13, 0, 2, 48, 3, 0, 0, 0, 0, 0, 0, 0, 0, 0, 0⟩ := by decide +kernel

end Verif.Dispatch
