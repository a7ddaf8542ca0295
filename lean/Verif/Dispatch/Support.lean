import Verif.Codec.Bounds
import Verif.Dispatch.Spec

/-! # Lemmas on the reception of messages -/

set_option linter.unusedSimpArgs false
set_option linter.unusedVariables false

namespace Verif.Dispatch
open Verif.Codec Verif.Codec.Spec Spec

theorem orgExt_iff (t : Nat) : orgExt t = true ↔ IsOrg t := by
  simp [orgExt, IsOrg, or_assoc]

/-- The handlers found by the search. -/
theorem filter_find (l : List Handler) (hn : (l.map (·.type)).Nodup) (p q : Handler → Bool) (ty : Nat) (hp : ∀ h, p h = true → h.type = ty) :
    l.filter (fun h => p h && q h) = ((l.find? p).toList.filter q) := by
  induction l with
  | nil => rfl
  | cons h l ih =>
    simp only [List.map_cons, List.nodup_cons] at hn
    rw [List.filter_cons, List.find?_cons]
    cases e : p h with
    | false => simp [ih hn.2]
    | true =>
      have he : l.filter (fun h => p h && q h) = [] := by
        rw [List.filter_eq_nil_iff]
        intro g hg hc
        simp only [Bool.and_eq_true] at hc
        apply hn.1
        rw [hp h e, ← hp g hc.1]
        exact List.mem_map_of_mem hg
      cases hq : q h <;> simp [he, hq]

theorem table_nodup : (tlvHandlers.map (·.type)).Nodup := by decide

theorem org_pass1 : ∀ h ∈ tlvHandlers, IsOrg h.type → h.pass1 = false := by decide

theorem lookup_mem {ty : Nat} {o : Option (Nat × Nat)} {h : Handler} (e : lookup ty o = some h) : h ∈ tlvHandlers ∧ h.type = ty := by
  unfold lookup at e
  have := List.find?_some e
  simp only [Bool.and_eq_true, decide_eq_true_eq] at this
  exact ⟨List.mem_of_find?_eq_some e, this.1⟩

/-- The handlers wanted for a TLV are those found. -/
theorem lookup_wanted (t : TLV) (o : Option (Nat × Nat)) (q : Handler → Bool)
    (hn : ¬ IsOrg t.type → o = none) (hs : IsOrg t.type → o = some (number (t.value.take 3), number ((t.value.drop 3).take 3))) :
    tlvHandlers.filter (fun h => decide (Matches h t) && q h) = (lookup t.type o).toList.filter q := by
  rw [filter_find _ table_nodup _ _ t.type (fun h hh => (of_decide_eq_true hh).1)]
  congr 2
  unfold lookup
  congr 1
  funext h
  by_cases ho : IsOrg t.type
  · rw [hs ho]
    simp only [Matches, ho, forall_const, Bool.decide_and]
  · rw [hn ho]
    simp [Matches, ho]

theorem slice_append_take {m : Mem} {a n k : Nat} (h : k ≤ n) : (slice m a n).take k = slice m a k := by
  unfold slice
  rw [← List.map_take, List.take_range, Nat.min_eq_left h]

theorem slice_drop {m : Mem} {a n k : Nat} : (slice m a n).drop k = slice m (a + k) (n - k) := by
  unfold slice
  apply List.ext_getElem
  · simp
  · intro i h1 h2
    simp [Nat.add_assoc]

theorem header_read {m : Mem} {off safe : Nat} (h : off + 4 ≤ safe) :
    msgUnpackTLVHeader m off (safe - off) = (some (number (slice m off 2)), some (number (slice m (off + 2) 2)), true, off + 4) := by
  unfold msgUnpackTLVHeader
  rw [if_neg (by omega)]
  simp only
  rw [if_neg (by omega), if_neg (by omega), ofBE_eq, ofBE_eq]
  rfl

theorem sub_read {m : Mem} {a len : Nat} (h : 6 ≤ len) :
    (msgUnpackOrgTLVSubHeader m a len).1 = some (number (slice m a 3), number (slice m (a + 3) 3)) := by
  unfold msgUnpackOrgTLVSubHeader
  rw [if_neg (by omega), ofBE_eq, ofBE_eq]
  rfl

theorem suffix_le {m : Mem} {safe : Nat} : ∀ {ts : List TLV} {off : Nat}, Suffix m off safe ts → off ≤ safe
  | [], _, h => by simp [Suffix] at h; omega
  | t :: ts, _, h => by have := suffix_le h.2.2.2; omega

/-! ## Acceptance -/

/-- The effect of the first pass on one TLV: the saved form has the length without
organisation header. -/
theorem accept_ok {σ : Type} (env : Env σ) (h : Handler) (t : Tlv) (g : Tlv) (a : Acc σ) (hlen : a.entries.length < 32)
    (hg : g = if orgExt t.type then { t with length := (t.length + 65536 - 6) % 65536 } else t) (hp : h.pass1 = true → g = t) :
    let es := ([h].filter fun h => env.permitted h.acl && h.messages.testBit env.messageType).map fun h => (h, g)
    let p := pass (·.pass1) env.run1 es a.state
    (p.1 = .error → (accept env h t a).1 = false ∧ (accept env h t a).2.state = p.2) ∧
    (p.1 ≠ .error → accept env h t a = (true, { a with state := p.2, entries := a.entries ++ es, drop := a.drop || decide (p.1 = .drop) })) := by
  intro es p
  by_cases h1 : env.permitted h.acl = false
  · have he : es = [] := by simp [es, h1]
    have hpv : p = (.cont, a.state) := by simp [p, he, pass]
    have ha : accept env h t a = (true, a) := by unfold accept; rw [if_pos h1]
    simp [hpv, he, ha]
  · by_cases h2 : h.messages.testBit env.messageType = false
    · have he : es = [] := by simp [es, h2]
      have hpv : p = (.cont, a.state) := by simp [p, he, pass]
      have ha : accept env h t a = (true, a) := by unfold accept; rw [if_neg h1, if_pos h2]
      simp [hpv, he, ha]
    · have he : es = [(h, g)] := by
        have h1' : env.permitted h.acl = true := by simpa using h1
        have h2' : h.messages.testBit env.messageType = true := by simpa using h2
        simp [es, h1', h2']
      unfold accept
      rw [if_neg h1, if_neg h2, if_neg (by omega)]
      simp only
      rw [← hg]
      cases hp1 : h.pass1 with
      | false =>
        have hpv : p = (.cont, a.state) := by simp [p, he, pass, hp1]
        simp [hpv, he]
      | true =>
        have hgt := hp hp1
        subst hgt
        simp only [if_true]
        cases hr : (env.run1 h g a.state).2 with
        | error =>
          have hpv : p = (.error, (env.run1 h g a.state).1) := by simp [p, he, pass, hp1, hr]
          simp [hpv]
        | drop =>
          have hpv : p = (.drop, (env.run1 h g a.state).1) := by simp [p, he, pass, hp1, hr]
          simp [hpv, he]
        | cont =>
          have hpv : p = (.cont, (env.run1 h g a.state).1) := by simp [p, he, pass, hp1, hr]
          simp [hpv, he]

/-- A pass over two lists. -/
theorem pass_append {σ : Type} (part : Handler → Bool) (run : Handler → Tlv → σ → σ × Result) : ∀ (es fs : List (Handler × Tlv)) (s : σ),
    ((pass part run es s).1 = .error → pass part run (es ++ fs) s = pass part run es s) ∧
    ((pass part run es s).1 ≠ .error → (pass part run (es ++ fs) s).2 = (pass part run fs (pass part run es s).2).2 ∧
      ((pass part run (es ++ fs) s).1 = .error ↔ (pass part run fs (pass part run es s).2).1 = .error) ∧
      ((pass part run (es ++ fs) s).1 ≠ .error → ((pass part run (es ++ fs) s).1 = .drop ↔ (pass part run es s).1 = .drop ∨
        (pass part run fs (pass part run es s).2).1 = .drop)))
  | [], fs, s => by simp [pass]
  | (h, t) :: es, fs, s => by
    have ih := pass_append part run es fs
    simp only [List.cons_append, pass]
    by_cases hp : part h = true
    · simp only [hp, if_true]
      generalize hr : run h t s = r
      obtain ⟨s1, r2⟩ := r
      obtain ⟨i1, i2⟩ := ih s1
      cases r2 with
      | error => simp
      | cont => simp; exact ⟨i1, i2⟩
      | drop =>
        simp only [reduceCtorEq, if_false, true_and]
        generalize pass part run (es ++ fs) s1 = A at *
        generalize pass part run es s1 = B at *
        obtain ⟨A1, A2⟩ := A
        obtain ⟨B1, B2⟩ := B
        clear ih hr
        simp only at i1 i2
        by_cases hB : B1 = .error
        · have := i1 hB
          subst hB
          simp only [Prod.mk.injEq] at this
          obtain ⟨rfl, rfl⟩ := this
          simp
        · obtain ⟨j1, j2, j3⟩ := i2 hB
          clear i1 i2
          revert j1 j2 j3
          cases A1 <;> cases B1 <;> simp only [reduceCtorEq, if_true, if_false, ne_eq, not_true_eq_false, not_false_eq_true] at hB ⊢ <;>
            generalize pass part run fs B2 = C <;> obtain ⟨C1, C2⟩ := C <;> cases C1 <;> simp
    · have hp' : part h = false := by simpa using hp
      simp only [hp', Bool.false_eq_true, if_false]
      exact ih s

/-! ## The walk over well-formed TLVs -/

/-- The TLV as looked up. -/
def looked (off : Nat) (t : TLV) : Tlv := ⟨t.type, off, if IsOrg t.type then off + 10 else off + 4, t.value.length⟩

theorem oneTLV_ok {σ : Type} (env : Env σ) (m : Mem) (safe off : Nat) (t : TLV) (a : Acc σ) (hl : off + 4 + t.value.length ≤ safe)
    (hv : slice m (off + 4) t.value.length = t.value) (hb : t.value.length < 65536) (ho : IsOrg t.type → 6 ≤ t.value.length)
    (h32 : a.entries.length + (wanted env.permitted env.messageType off [t]).length ≤ 32) :
    let p := pass (·.pass1) env.run1 (wanted env.permitted env.messageType off [t]) a.state
    let r := oneTLV env m safe off t.type t.value.length a
    (p.1 = .error → r.1 = none ∧ r.2.state = p.2) ∧
    (p.1 ≠ .error → r = (some (off + 4 + (if IsOrg t.type then 6 else 0) + t.value.length),
      ⟨p.2, a.entries ++ wanted env.permitted env.messageType off [t], a.drop || decide (p.1 = .drop), a.seen ++ [looked off t]⟩)) := by
  intro p r
  have key : ∀ (o : Option (Nat × Nat)), (¬ IsOrg t.type → o = none) →
      (IsOrg t.type → o = some (number (t.value.take 3), number ((t.value.drop 3).take 3))) →
      r = (match lookup t.type o with
        | none => (some (off + 4 + (if IsOrg t.type then 6 else 0) + t.value.length), { a with seen := a.seen ++ [looked off t] })
        | some h => (if (accept env h (looked off t) { a with seen := a.seen ++ [looked off t] }).1
            then some (off + 4 + (if IsOrg t.type then 6 else 0) + t.value.length) else none,
          (accept env h (looked off t) { a with seen := a.seen ++ [looked off t] }).2)) → _ := fun o hn hs hr => by
    have hw : wanted env.permitted env.messageType off [t]
        = (((lookup t.type o).toList.filter fun h => env.permitted h.acl && h.messages.testBit env.messageType).map fun h => (h, given off t)) := by
      rw [← lookup_wanted t o _ hn hs]
      simp only [wanted, List.append_nil]
      congr 2
      funext h
      rw [Bool.and_assoc]
    exact (show (p.1 = .error → r.1 = none ∧ r.2.state = p.2) ∧ (p.1 ≠ .error → r = (some (off + 4 + (if IsOrg t.type then 6 else 0) + t.value.length),
      ⟨p.2, a.entries ++ wanted env.permitted env.messageType off [t], a.drop || decide (p.1 = .drop), a.seen ++ [looked off t]⟩)) from by
        cases hlk : lookup t.type o with
        | none =>
          rw [hlk] at hr hw
          simp only [Option.toList_none, List.filter_nil, List.map_nil] at hw
          have hp : p = (.cont, a.state) := by simp only [p, hw, pass]
          rw [hp, hw, hr]
          simp
        | some h =>
          rw [hlk] at hr hw
          simp only [Option.toList_some] at hw
          have hp1 : h.pass1 = true → given off t = looked off t := fun h1 => by
            have hm := lookup_mem hlk
            have : ¬ IsOrg t.type := fun hc => by
              have := org_pass1 h hm.1 (by rw [hm.2]; exact hc)
              rw [this] at h1; cases h1
            simp [given, looked, this]
          by_cases hfull : a.entries.length < 32
          · obtain ⟨a1, a2⟩ := accept_ok env h (looked off t) (given off t) { a with seen := a.seen ++ [looked off t] } hfull (by
              by_cases hc : IsOrg t.type
              · have := (orgExt_iff t.type).2 hc
                have h6 := ho hc
                simp only [looked, given, hc, this, if_true, Tlv.mk.injEq, true_and]
                omega
              · have : orgExt t.type = false := by
                  have := mt (orgExt_iff t.type).1 hc
                  simpa using this
                simp [looked, given, hc, this]) hp1
            rw [← hw] at a1 a2
            refine ⟨fun he => ?_, fun he => ?_⟩
            · obtain ⟨b1, b2⟩ := a1 he
              rw [hr]
              simp only [b1]
              exact ⟨by simp, b2⟩
            · have b := a2 he
              rw [hr]
              simp only [b]
              simp only [if_true]
              rfl
          · have h0 : wanted env.permitted env.messageType off [t] = [] := List.eq_nil_of_length_eq_zero (by omega)
            have hacc : accept env h (looked off t) { a with seen := a.seen ++ [looked off t] } = (true, { a with seen := a.seen ++ [looked off t] }) := by
              rw [h0] at hw
              unfold accept
              by_cases h1 : env.permitted h.acl = false
              · rw [if_pos h1]
              · by_cases h2 : h.messages.testBit env.messageType = false
                · rw [if_neg h1, if_pos h2]
                · simp [h1, h2] at hw
            have hp : p = (.cont, a.state) := by simp only [p, h0, pass]
            rw [hp, h0, hr]
            simp only [hacc]
            simp)
  by_cases hc : IsOrg t.type
  · have h6 := ho hc
    refine key (some (number (slice m (off + 4) 3), number (slice m (off + 4 + 3) 3))) (fun h => absurd hc h) (fun _ => ?_) ?_
    · rw [← hv, slice_append_take (by omega), slice_drop, slice_append_take (by omega)]
    · simp only [r, oneTLV]
      rw [if_neg (by omega), if_pos ((orgExt_iff _).2 hc), sub_read (by omega)]
      simp only [looked, if_pos hc]
      cases lookup t.type _ <;> rfl
  · have hx : ¬ orgExt t.type = true := mt (orgExt_iff _).1 hc
    refine key none (fun _ => rfl) (fun h => absurd h hc) ?_
    simp only [r, oneTLV]
    rw [if_neg (by omega), if_neg hx]
    simp only [looked, if_neg hc]
    cases lookup t.type _ <;> rfl

theorem wanted_cons (p : Nat → Bool) (ty off : Nat) (t : TLV) (ts : List TLV) :
    wanted p ty off (t :: ts) = wanted p ty off [t] ++ wanted p ty (off + 4 + t.value.length) ts := by
  simp [wanted]

/-- The TLVs as looked up. -/
def lookedAll : Nat → List TLV → List Tlv
  | _, [] => []
  | off, t :: ts => looked off t :: lookedAll (off + 4 + t.value.length) ts

theorem number_two {m : Mem} {a : Nat} : number (slice m a 2) < 65536 := by
  have := number_lt (slice m a 2)
  simpa [slice] using this

theorem walk_done {σ : Type} (env : Env σ) (m : Mem) (safe junk fuel off : Nat) (a : Acc σ) (h : safe ≤ off) (hf : 0 < fuel) :
    walk env m safe junk fuel off a = some (true, a) := by
  cases fuel with
  | zero => omega
  | succ f => unfold walk; rw [if_neg (by omega)]

theorem walk_ok {σ : Type} (env : Env σ) (m : Mem) (safe junk : Nat) : ∀ (ts : List TLV) (fuel off : Nat) (a : Acc σ), Suffix m off safe ts →
    safe < off + fuel → (∀ t ∈ ts.dropLast, ¬ IsOrg t.type) → (∀ t ∈ ts, IsOrg t.type → 6 ≤ t.value.length) →
    a.entries.length + (wanted env.permitted env.messageType off ts).length ≤ 32 →
    ((pass (·.pass1) env.run1 (wanted env.permitted env.messageType off ts) a.state).1 = .error →
      ∃ a', walk env m safe junk fuel off a = some (false, a') ∧
        a'.state = (pass (·.pass1) env.run1 (wanted env.permitted env.messageType off ts) a.state).2) ∧
    ((pass (·.pass1) env.run1 (wanted env.permitted env.messageType off ts) a.state).1 ≠ .error →
      walk env m safe junk fuel off a = some (true,
        ⟨(pass (·.pass1) env.run1 (wanted env.permitted env.messageType off ts) a.state).2, a.entries ++ wanted env.permitted env.messageType off ts,
          a.drop || decide ((pass (·.pass1) env.run1 (wanted env.permitted env.messageType off ts) a.state).1 = .drop),
          a.seen ++ lookedAll off ts⟩)) := by
  intro ts
  induction ts with
  | nil =>
    intro fuel off a hs hf _ _ _
    simp only [Suffix] at hs
    rw [walk_done env m safe junk fuel off a (by omega) (by omega)]
    simp [wanted, pass, lookedAll]
  | cons t ts ih =>
    intro fuel off a hs hf hl ho h32
    obtain ⟨h1, h2, h3, h4⟩ := hs
    have hle := suffix_le h4
    have hb : t.value.length < 65536 := by rw [← h2]; exact number_two
    rw [wanted_cons] at h32 ⊢
    rw [List.length_append] at h32
    obtain ⟨f, rfl⟩ : ∃ f, fuel = f + 1 := ⟨fuel - 1, by omega⟩
    obtain ⟨o1, o2⟩ := oneTLV_ok env m safe off t a (by omega) h3 hb (ho t (by simp)) (by omega)
    have hw : walk env m safe junk (f + 1) off a = (match oneTLV env m safe off t.type t.value.length a with
        | (none, a) => some (false, a)
        | (some off, a) => walk env m safe junk f off a) := by
      conv_lhs => unfold walk
      rw [if_pos (by omega), header_read (by omega), h1, h2]
      rfl
    obtain ⟨q1, q2⟩ := pass_append (·.pass1) env.run1 (wanted env.permitted env.messageType off [t])
      (wanted env.permitted env.messageType (off + 4 + t.value.length) ts) a.state
    by_cases he : (pass (·.pass1) env.run1 (wanted env.permitted env.messageType off [t]) a.state).1 = .error
    · rw [q1 he]
      refine ⟨fun _ => ?_, fun h => absurd he h⟩
      obtain ⟨b1, b2⟩ := o1 he
      refine ⟨(oneTLV env m safe off t.type t.value.length a).2, ?_, b2⟩
      rw [hw]
      generalize oneTLV env m safe off t.type t.value.length a = r at b1
      obtain ⟨r1, r2⟩ := r
      simp only at b1
      subst b1
      rfl
    · obtain ⟨s1, s2, s3⟩ := q2 he
      have hone := o2 he
      rw [hw, hone]
      simp only
      cases ts with
      | nil =>
        simp only [Suffix] at h4
        rw [walk_done env m safe junk f _ _ (by omega) (by omega)]
        simp only [wanted, List.append_nil]
        have e2 : ∀ s : σ, pass (·.pass1) env.run1 [] s = (.cont, s) := fun s => rfl
        simp only [lookedAll]
        refine ⟨fun h => absurd h ?_, fun _ => ?_⟩
        · simpa [wanted] using he
        · simp [wanted]
      | cons t' ts' =>
        have hno : ¬ IsOrg t.type := hl t (by simp)
        rw [if_neg hno]
        obtain ⟨j1, j2⟩ := ih f (off + 4 + 0 + t.value.length)
          ⟨(pass (·.pass1) env.run1 (wanted env.permitted env.messageType off [t]) a.state).2, a.entries ++ wanted env.permitted env.messageType off [t],
            a.drop || decide ((pass (·.pass1) env.run1 (wanted env.permitted env.messageType off [t]) a.state).1 = .drop), a.seen ++ [looked off t]⟩
          (by simpa using h4) (by omega) (fun x hx => hl x (by simp [hx])) (fun x hx => ho x (List.mem_cons_of_mem _ hx))
          (by simp only [List.length_append]; simpa [Nat.add_assoc] using h32)
        simp only [Nat.add_zero] at j1 j2 ⊢
        refine ⟨fun h => ?_, fun h => ?_⟩
        · obtain ⟨a', e1, e2⟩ := j1 (s2.1 h)
          exact ⟨a', e1, by rw [e2, s1]⟩
        · rw [j2 (fun hc => h (s2.2 hc))]
          rw [s1]
          simp only [Option.some.injEq, Prod.mk.injEq, true_and, Acc.mk.injEq, List.append_assoc, lookedAll, List.cons_append, List.nil_append, and_true]
          have := s3 h
          rw [Bool.or_assoc]
          congr 1
          rw [← Bool.decide_or]
          exact (decide_eq_decide.2 this).symm

theorem secondPass_ok {σ : Type} (env : Env σ) : ∀ (es : List (Handler × Tlv)) (s : σ) (d : Bool),
    secondPass env es s d = (decide ((pass (·.pass2) env.run2 es s).1 = .cont) && !d, (pass (·.pass2) env.run2 es s).2) ∨
    ((pass (·.pass2) env.run2 es s).1 = .error ∧ secondPass env es s d = (false, (pass (·.pass2) env.run2 es s).2))
  | [], s, d => by simp [secondPass, pass]
  | (h, t) :: es, s, d => by
    simp only [secondPass, pass]
    by_cases hp : h.pass2 = true
    · simp only [hp, if_true]
      generalize env.run2 h t s = r
      obtain ⟨s1, r2⟩ := r
      cases r2 with
      | error => simp
      | cont => simpa using secondPass_ok env es s1 d
      | drop =>
        have := secondPass_ok env es s1 true
        simp only [Bool.not_true, Bool.and_false] at this
        have e : secondPass env es s1 true = (false, (pass (·.pass2) env.run2 es s1).2) := by rcases this with h | h; exact h; exact h.2
        simp only [e]
        left
        generalize pass (·.pass2) env.run2 es s1 = B
        obtain ⟨B1, B2⟩ := B
        cases B1 <;> simp
    · have hp' : h.pass2 = false := by simpa using hp
      simp only [hp', Bool.false_eq_true, if_false]
      exact secondPass_ok env es s d

end Verif.Dispatch
