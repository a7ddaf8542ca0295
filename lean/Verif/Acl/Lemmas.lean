import Verif.Acl.Model

set_option linter.unusedSimpArgs false
set_option linter.unusedVariables false

/-! # Lemmas about the access control list model -/

namespace Verif.Acl
open Verif.CStr

/-! ## Numerals -/

/-- Specification: the value of a decimal numeral, most significant digit first. -/
def numeral : List Char → Nat
  | [] => 0
  | c :: cs => (c.toNat - '0'.toNat) * 10 ^ cs.length + numeral cs

/-- Specification: `t` is a decimal numeral (leading zeros allowed) with value `v`. -/
def IsNumeral (t : List Char) (v : Nat) : Prop :=
  t ≠ [] ∧ (∀ c ∈ t, '0' ≤ c ∧ c ≤ '9') ∧ numeral t = v

theorem digit_props {c : Char} (h : '0' ≤ c ∧ c ≤ '9') :
    c.isDigit = true ∧ c ≠ '-' ∧ c ≠ '+' ∧ isSpace c = false ∧ isDot c = false ∧ isSlash c = false ∧ isSep c = false := by
  obtain ⟨h1, h2⟩ := h
  rw [Char.le_def, UInt32.le_iff_toNat_le] at h1 h2
  have e0 : ('0' : Char).val.toNat = 48 := rfl
  have e9 : ('9' : Char).val.toNat = 57 := rfl
  rw [e0] at h1
  rw [e9] at h2
  have key : ∀ x : Char, (x.val.toNat < 48 ∨ 57 < x.val.toNat) → c ≠ x := by
    intro x hx he
    subst he
    omega
  have hne : ∀ x : Char, (x.val.toNat < 48 ∨ 57 < x.val.toNat) → (c == x) = false := by
    intro x hx
    simpa using key x hx
  refine ⟨?_, key _ (by decide), key _ (by decide), ?_, ?_, ?_, ?_⟩
  · simp only [Char.isDigit, Bool.and_eq_true, decide_eq_true_eq, ge_iff_le, UInt32.le_iff_toNat_le]
    exact ⟨h1, h2⟩
  · simp only [isSpace, Bool.or_eq_false_iff]
    refine ⟨⟨⟨⟨⟨?_, ?_⟩, ?_⟩, ?_⟩, ?_⟩, ?_⟩ <;> exact hne _ (by decide)
  · exact hne _ (by decide)
  · exact hne _ (by decide)
  · simp only [isSep, Bool.or_eq_false_iff]
    refine ⟨⟨⟨?_, ?_⟩, ?_⟩, ?_⟩ <;> exact hne _ (by decide)

theorem foldl_numeral (t : List Char) : ∀ a : Nat,
    t.foldl (fun n c => 10 * n + (c.toNat - 48)) a = a * 10 ^ t.length + numeral t := by
  induction t with
  | nil => intro a; simp [numeral]
  | cons c cs ih =>
    intro a
    rw [List.foldl_cons, ih]
    have e : ('0' : Char).toNat = 48 := rfl
    simp only [numeral, e, List.length_cons, Nat.pow_succ]
    generalize c.toNat - 48 = k
    generalize 10 ^ cs.length = p
    grind

theorem takeWhile_all {α} {p : α → Bool} : ∀ {l : List α}, (∀ x ∈ l, p x = true) → l.takeWhile p = l
  | [], _ => rfl
  | a :: l, h => by
    rw [List.takeWhile_cons_of_pos (h a (by simp)), takeWhile_all (fun x hx => h x (by simp [hx]))]

/-- `strtol` reads back numerals. -/
theorem strtol_numeral {t v} (h : IsNumeral t v) (hv : v ≤ 9223372036854775807) :
    strtol t = some (v : Int) := by
  obtain ⟨hne, hd, hn⟩ := h
  cases t with
  | nil => exact absurd rfl hne
  | cons c cs =>
    have hc := digit_props (hd c (by simp))
    have h1 : (c :: cs).dropWhile isSpace = c :: cs := by
      rw [List.dropWhile_cons_of_neg]; simp [hc.2.2.2.1]
    have h2 : (c :: cs).takeWhile Char.isDigit = c :: cs :=
      takeWhile_all (fun x hx => (digit_props (hd x hx)).1)
    have e1 : ((c :: cs).head? == some '-') = false := by simp [hc.2.1]
    have e2 : ((c :: cs).head? == some '+') = false := by simp [hc.2.2.1]
    unfold strtol
    simp only [h1, e1, e2, Bool.or_self, Bool.false_eq_true, if_false, h2, foldl_numeral, hn]
    simp
    omega

/-! ## Dotted octets -/

/-- Specification: numerals joined by dots. -/
def dotted : List (List Char) → List Char
  | [] => []
  | [t] => t
  | t :: u :: ts => t ++ '.' :: dotted (u :: ts)

theorem tokens_dotted : ∀ (ts : List (List Char)), (∀ t ∈ ts, t ≠ [] ∧ ∀ c ∈ t, isDot c = false) →
    tokens isDot (dotted ts) = ts
  | [], _ => rfl
  | [t], h => by
    have := tokens_tok (d := isDot) (t := t) (r := []) (h t (by simp)).1 (h t (by simp)).2 (.inl rfl)
    rw [List.append_nil, tokens_nil] at this
    simpa [dotted] using this
  | t :: u :: ts, h => by
    rw [dotted, tokens_tok (h t (by simp)).1 (h t (by simp)).2 (.inr ⟨'.', _, rfl, rfl⟩)]
    rw [show '.' :: dotted (u :: ts) = ['.'] ++ dotted (u :: ts) from rfl,
      tokens_skip (by simp [isDot]),
      tokens_dotted (u :: ts) (fun x hx => h x (by simp [hx]))]

/-- Specification: the texts `ts` are numerals with values `vs`, all at most `m`. -/
inductive Numerals (m : Nat) : List (List Char) → List Nat → Prop
  | nil : Numerals m [] []
  | cons {t v ts vs} : IsNumeral t v → v ≤ m → Numerals m ts vs → Numerals m (t :: ts) (v :: vs)

theorem Numerals.length {m ts vs} (h : Numerals m ts vs) : ts.length = vs.length := by
  induction h with
  | nil => rfl
  | cons _ _ _ ih => simp [ih]

theorem Numerals.nodot {m ts vs} (h : Numerals m ts vs) :
    ∀ t ∈ ts, t ≠ [] ∧ ∀ c ∈ t, isDot c = false := by
  induction h with
  | nil => simp
  | @cons t v ts vs h1 h2 h3 ih =>
    intro x hx
    rcases List.mem_cons.1 hx with rfl | hx
    · exact ⟨h1.1, fun c hc => (digit_props (h1.2.1 c hc)).2.2.2.2.1⟩
    · exact ih x hx

theorem Numerals.chars {m ts vs} (h : Numerals m ts vs) :
    ∀ c ∈ dotted ts, ('0' ≤ c ∧ c ≤ '9') ∨ c = '.' := by
  induction h with
  | nil => simp [dotted]
  | @cons t v ts vs h1 h2 h3 ih =>
    intro c hc
    cases ts with
    | nil => exact .inl (h1.2.1 c hc)
    | cons u us =>
      rw [dotted, List.mem_append] at hc
      rcases hc with hc | hc
      · exact .inl (h1.2.1 c hc)
      · rcases List.mem_cons.1 hc with rfl | hc
        · exact .inr rfl
        · exact ih c hc

theorem dotted_ne {m ts vs} (h : Numerals m ts vs) (hl : 0 < ts.length) : dotted ts ≠ [] := by
  cases h with
  | nil => simp at hl
  | @cons t v ts vs h1 h2 h3 =>
    cases ts with
    | nil => exact h1.1
    | cons u us => simp [dotted]

theorem Numerals.bound {m ts vs} (h : Numerals m ts vs) : ∀ v ∈ vs, v ≤ m := by
  induction h with
  | nil => simp
  | @cons t v ts vs h1 h2 h3 ih =>
    intro x hx
    rcases List.mem_cons.1 hx with rfl | hx
    · exact h2
    · exact ih x hx

theorem ipLoop_net {ts vs} (h : Numerals 255 ts vs) : ∀ acc : List Nat, acc.length + ts.length ≤ 4 →
    ipLoop false ts acc = .ok (acc ++ vs) := by
  induction h with
  | nil =>
    intro acc ha
    unfold ipLoop
    rw [if_neg (by simp at ha; omega)]
    simp
  | @cons t v ts vs h1 h2 h3 ih =>
    intro acc ha
    simp only [List.length_cons] at ha
    unfold ipLoop
    rw [if_neg (by omega)]
    simp only [strtol_numeral h1 (show v ≤ 9223372036854775807 by omega)]
    rw [if_neg (by omega), if_neg (by omega)]
    simp only [Bool.false_and, Bool.false_eq_true, if_false, Int.toNat_natCast]
    rw [ih (acc ++ [v]) (by simp; omega)]
    simp

/-- What the mask parser keeps: everything up to and including the first octet below 255. -/
def keepMask : List Nat → List Nat
  | [] => []
  | v :: vs => if v < 255 then [v] else v :: keepMask vs

theorem ipLoop_mask {ts vs} (h : Numerals 255 ts vs) : ∀ acc : List Nat, acc.length + ts.length ≤ 4 →
    ipLoop true ts acc = .ok (acc ++ keepMask vs) := by
  induction h with
  | nil =>
    intro acc ha
    unfold ipLoop
    rw [if_neg (by simp at ha; omega)]
    simp [keepMask]
  | @cons t v ts vs h1 h2 h3 ih =>
    intro acc ha
    simp only [List.length_cons] at ha
    unfold ipLoop
    rw [if_neg (by omega)]
    simp only [strtol_numeral h1 (show v ≤ 9223372036854775807 by omega)]
    rw [if_neg (by omega), if_neg (by omega)]
    by_cases hv : v < 255
    · rw [if_pos (by simp; omega), keepMask, if_pos hv]; simp
    · rw [if_neg (by simp; omega), keepMask, if_neg hv, Int.toNat_natCast, ih (acc ++ [v]) (by simp; omega)]
      simp

/-! ## Bits -/

/-- Specification: the number written as dotted octets, absent ones being zero. -/
def addrValue (o : List Nat) : Nat :=
  o.getD 0 0 * 2 ^ 24 + o.getD 1 0 * 2 ^ 16 + o.getD 2 0 * 2 ^ 8 + o.getD 3 0

theorem or4 (a b c d : Nat) (hb : b ≤ 255) (hc : c ≤ 255) (hd : d ≤ 255) :
    (a <<< 24) ||| (b <<< 16) ||| (c <<< 8) ||| d = a * 2 ^ 24 + b * 2 ^ 16 + c * 2 ^ 8 + d := by
  rw [Nat.or_assoc, Nat.or_assoc]
  rw [← Nat.shiftLeft_add_eq_or_of_lt (i := 8) (by omega) c]
  rw [← Nat.shiftLeft_add_eq_or_of_lt (i := 16) (b := c <<< 8 + d) (by rw [Nat.shiftLeft_eq]; omega) b]
  rw [← Nat.shiftLeft_add_eq_or_of_lt (i := 24) (by simp only [Nat.shiftLeft_eq]; omega) a]
  simp only [Nat.shiftLeft_eq]
  omega

theorem getD_le {o : List Nat} (h : ∀ v ∈ o, v ≤ 255) (i : Nat) : o.getD i 0 ≤ 255 := by
  rw [List.getD_eq_getElem?_getD]
  cases he : o[i]? with
  | none => simp
  | some v => simpa using h v (List.mem_of_getElem? he)

theorem pack_eq {o : List Nat} (h : ∀ v ∈ o, v ≤ 255) : pack o = addrValue o :=
  or4 _ _ _ _ (getD_le h 1) (getD_le h 2) (getD_le h 3)

theorem addrValue_lt {o : List Nat} (h : ∀ v ∈ o, v ≤ 255) : addrValue o < 2 ^ 32 := by
  have := getD_le h 0; have := getD_le h 1; have := getD_le h 2; have := getD_le h 3
  unfold addrValue; omega

/-- Masking keeps the upper bits. -/
theorem mask_and {k x : Nat} (hk : k ≤ 32) (hx : x < 2 ^ 32) :
    (2 ^ 32 - 2 ^ k) &&& x = x / 2 ^ k * 2 ^ k := by
  have hm : 2 ^ 32 - 2 ^ k = ((2 ^ (32 - k) - 1) <<< k) := by
    rw [Nat.shiftLeft_eq, Nat.sub_mul, ← Nat.pow_add, Nat.one_mul, show 32 - k + k = 32 by omega]
  rw [hm]
  apply Nat.eq_of_testBit_eq
  intro i
  rw [Nat.testBit_and, Nat.testBit_shiftLeft, Nat.testBit_two_pow_sub_one, Nat.testBit_mul_two_pow,
    Nat.testBit_div_two_pow]
  by_cases hi : k ≤ i
  · by_cases h32 : i < 32
    · have : i - k < 32 - k := by omega
      simp [hi, this, show i - k + k = i by omega]
    · have hxi : x.testBit i = false := by
        apply Nat.testBit_lt_two_pow
        exact Nat.lt_of_lt_of_le hx (Nat.pow_le_pow_right (by omega) (by omega))
      simp [hi, hxi, show i - k + k = i by omega]
  · simp [hi]

theorem shl_mask {n : Nat} (hn : n ≤ 32) (h0 : 0 < n) :
    ((2 ^ 32 - 1) <<< (32 - n)) % 2 ^ 32 = 2 ^ 32 - 2 ^ (32 - n) := by
  have : n = 1 ∨ n = 2 ∨ n = 3 ∨ n = 4 ∨ n = 5 ∨ n = 6 ∨ n = 7 ∨ n = 8 ∨ n = 9 ∨ n = 10 ∨ n = 11 ∨ n = 12 ∨
      n = 13 ∨ n = 14 ∨ n = 15 ∨ n = 16 ∨ n = 17 ∨ n = 18 ∨ n = 19 ∨ n = 20 ∨ n = 21 ∨ n = 22 ∨ n = 23 ∨
      n = 24 ∨ n = 25 ∨ n = 26 ∨ n = 27 ∨ n = 28 ∨ n = 29 ∨ n = 30 ∨ n = 31 ∨ n = 32 := by omega
  rcases this with h|h|h|h|h|h|h|h|h|h|h|h|h|h|h|h|h|h|h|h|h|h|h|h|h|h|h|h|h|h|h|h <;> subst h <;> rfl

/-- An entry built from a network and a contiguous mask matches by prefix. -/
theorem match_iff {net addr n : Nat} (hn : n ≤ 32) (h1 : net < 2 ^ 32) (h2 : addr < 2 ^ 32) :
    ((2 ^ 32 - 2 ^ (32 - n)) &&& addr = net &&& (2 ^ 32 - 2 ^ (32 - n))) ↔
      addr / 2 ^ (32 - n) = net / 2 ^ (32 - n) := by
  rw [Nat.and_comm net, mask_and (by omega) h1, mask_and (by omega) h2]
  constructor
  · intro h
    exact Nat.eq_of_mul_eq_mul_right (Nat.two_pow_pos _) h
  · intro h; rw [h]

/-- The counting loop ends for every even mask. -/
theorem shiftLoop_ok {tmp : Nat} (h : tmp % 2 = 0) : ∀ (fuel c : Nat), c + fuel = 33 → c ≤ 31 →
    ∃ n, shiftLoop tmp fuel c = .ok n := by
  intro fuel
  induction fuel with
  | zero => intro c h1 h2; omega
  | succ fuel ih =>
    intro c h1 h2
    unfold shiftLoop
    rw [if_neg (by omega)]
    split
    · exact ⟨c, rfl⟩
    · rename_i hne
      by_cases hc : c = 31
      · subst hc
        exfalso
        apply hne
        rw [Nat.shiftLeft_eq]
        omega
      · exact ih (c + 1) (by omega) (by omega)

/-- The counting loop runs into the oversized shift for every odd mask. -/
theorem shiftLoop_odd {tmp : Nat} (h : tmp % 2 = 1) : ∀ (fuel c : Nat), shiftLoop tmp fuel c = .ub := by
  intro fuel
  induction fuel with
  | zero => intro c; rfl
  | succ fuel ih =>
    intro c
    unfold shiftLoop
    split
    · rfl
    · rename_i hc
      rw [if_neg]
      · exact ih (c + 1)
      · intro h0
        have hb : ((tmp <<< c) % 2 ^ 32).testBit c = true := by
          rw [Nat.testBit_mod_two_pow, Nat.testBit_shiftLeft]
          simp [show c < 32 by omega, h]
        rw [h0] at hb
        simp at hb

theorem shiftLoop_noerr {tmp : Nat} : ∀ (fuel c : Nat), shiftLoop tmp fuel c ≠ .err := by
  intro fuel
  induction fuel with
  | zero => intro c; simp [shiftLoop]
  | succ fuel ih =>
    intro c
    unfold shiftLoop
    split
    · simp
    · split
      · simp
      · exact ih _

/-- A contiguous mask keeps its value when cut after the first octet below 255. -/
theorem keepMask_value {vs : List Nat} {k : Nat} (hb : ∀ v ∈ vs, v ≤ 255) (hl : vs.length ≤ 4)
    (hk : k ≤ 32) (h : addrValue vs = 2 ^ 32 - 2 ^ k) : addrValue (keepMask vs) = addrValue vs := by
  have hk' : k = 0 ∨ k = 1 ∨ k = 2 ∨ k = 3 ∨ k = 4 ∨ k = 5 ∨ k = 6 ∨ k = 7 ∨ k = 8 ∨ k = 9 ∨ k = 10 ∨ k = 11 ∨ k = 12 ∨
      k = 13 ∨ k = 14 ∨ k = 15 ∨ k = 16 ∨ k = 17 ∨ k = 18 ∨ k = 19 ∨ k = 20 ∨ k = 21 ∨ k = 22 ∨ k = 23 ∨
      k = 24 ∨ k = 25 ∨ k = 26 ∨ k = 27 ∨ k = 28 ∨ k = 29 ∨ k = 30 ∨ k = 31 ∨ k = 32 := by omega
  -- at most one octet is neither 255 nor 0, and it is followed by zeros
  have key : ∀ a b c d : Nat, a ≤ 255 → b ≤ 255 → c ≤ 255 → d ≤ 255 →
      a * 2 ^ 24 + b * 2 ^ 16 + c * 2 ^ 8 + d = 2 ^ 32 - 2 ^ k →
      (a < 255 → b = 0 ∧ c = 0 ∧ d = 0) ∧ (b < 255 → c = 0 ∧ d = 0) ∧ (c < 255 → d = 0) := by
    intro a b c d ha hb hc hd h
    rcases hk' with e|e|e|e|e|e|e|e|e|e|e|e|e|e|e|e|e|e|e|e|e|e|e|e|e|e|e|e|e|e|e|e|e <;> subst e <;>
      refine ⟨fun _ => ⟨?_, ?_, ?_⟩, fun _ => ⟨?_, ?_⟩, fun _ => ?_⟩ <;> omega
  have key' := key _ _ _ _ (getD_le hb 0) (getD_le hb 1) (getD_le hb 2) (getD_le hb 3) h
  obtain ⟨k1, k2, k3⟩ := key'
  clear key hk' h hb
  match vs, hl with
  | [], _ => rfl
  | [a], _ => 
    simp only [keepMask, ite_self]
  | [a, b], _ =>
    simp only [List.getD_cons_zero, List.getD_cons_succ, List.getD_nil] at k1 k2 k3
    simp only [keepMask, ite_self]
    split
    · simp only [addrValue, List.getD_cons_zero, List.getD_cons_succ, List.getD_nil]; omega
    · rfl
  | [a, b, c], _ =>
    simp only [List.getD_cons_zero, List.getD_cons_succ, List.getD_nil] at k1 k2 k3
    simp only [keepMask, ite_self]
    split
    · simp only [addrValue, List.getD_cons_zero, List.getD_cons_succ, List.getD_nil]; omega
    · split
      · simp only [addrValue, List.getD_cons_zero, List.getD_cons_succ, List.getD_nil]; omega
      · rfl
  | [a, b, c, d], _ =>
    simp only [List.getD_cons_zero, List.getD_cons_succ, List.getD_nil] at k1 k2 k3
    simp only [keepMask, ite_self]
    split
    · simp only [addrValue, List.getD_cons_zero, List.getD_cons_succ, List.getD_nil]; omega
    · split
      · simp only [addrValue, List.getD_cons_zero, List.getD_cons_succ, List.getD_nil]; omega
      · split
        · simp only [addrValue, List.getD_cons_zero, List.getD_cons_succ, List.getD_nil]; omega
        · rfl

theorem keepMask_le {vs : List Nat} (hb : ∀ v ∈ vs, v ≤ 255) : ∀ v ∈ keepMask vs, v ≤ 255 := by
  induction vs with
  | nil => simp [keepMask]
  | cons a vs ih =>
    intro v hv
    unfold keepMask at hv
    split at hv
    · simp at hv; subst hv; exact hb _ (by simp)
    · rcases List.mem_cons.1 hv with rfl | hv
      · exact hb _ (by simp)
      · exact ih (fun x hx => hb x (by simp [hx])) v hv

end Verif.Acl
