import Verif.Crny.Text
import Mathlib.Tactic.Linarith
import Mathlib.Data.Nat.Bitwise

/-!
# Properties: chronyd's numbers and options
-/

set_option linter.unusedVariables false

namespace Verif.Crny

/-! ## C136 -/

/-- Two's complement of `n` in `b` bits. -/
def twos (n b : Nat) : Int := if 2 * n < 2 ^ b then n else (n : Int) - 2 ^ b

theorem toSigned_eq (x : BitVec 32) (i : Nat) (hi : i < 31) (hx : x.toNat < 2 ^ (i + 1)) :
    toSigned x i = twos x.toNat (i + 1) := by
  have hp : (1#32 <<< i).toNat = 2 ^ i := by
    have : 2 ^ i < 2 ^ 32 := Nat.pow_lt_pow_right (by decide) (by omega)
    rw [BitVec.toNat_shiftLeft]
    simp only [BitVec.toNat_ofNat, Nat.shiftLeft_eq, Nat.reducePow, Nat.reduceMod, Nat.one_mul]
    exact Nat.mod_eq_of_lt (by omega)
  have hpos : 0 < 2 ^ i := Nat.two_pow_pos i
  have hlt : 2 ^ i < 2 ^ 32 := Nat.pow_lt_pow_right (by decide) (by omega)
  have hm : ((1#32 <<< i) - 1).toNat = 2 ^ i - 1 := by
    have h1 : (1 : BitVec 32).toNat = 1 := rfl
    rw [BitVec.toNat_sub, hp, h1]
    omega
  have h1 : (x &&& ((1#32 <<< i) - 1)).toNat = x.toNat % 2 ^ i := by
    rw [BitVec.toNat_and, hm, Nat.and_two_pow_sub_one_eq_mod]
  have hb : (x &&& (1#32 <<< i) ≠ 0) ↔ 2 ^ i ≤ x.toNat := by
    have he : (x &&& (1#32 <<< i)).toNat = x.toNat &&& 2 ^ i := by rw [BitVec.toNat_and, hp]
    have h2 : x.toNat &&& 2 ^ i = (x.toNat.testBit i).toNat * 2 ^ i := Nat.and_two_pow _ _
    have h3 : x.toNat.testBit i = decide (2 ^ i ≤ x.toNat) := by
      rw [Nat.testBit_eq_decide_div_mod_eq]
      congr 1
      rw [Nat.pow_succ] at hx
      by_cases hc : 2 ^ i ≤ x.toNat
      · have : x.toNat / 2 ^ i = 1 := Nat.div_eq_of_lt_le (by omega) (by omega)
        simp [this, hc]
      · have : x.toNat / 2 ^ i = 0 := Nat.div_eq_of_lt (by omega)
        simp [this, hc]
    constructor
    · intro hne
      by_contra hc
      apply hne
      apply BitVec.eq_of_toNat_eq
      rw [he, h2, h3]
      simp [hc]
    · intro hc hz
      rw [hz] at he
      rw [h2, h3] at he
      simp [hc] at he
      omega
  unfold toSigned
  simp only [hb, h1, hp]
  unfold twos
  rw [Nat.pow_succ] at hx ⊢
  by_cases hc : 2 ^ i ≤ x.toNat
  · have h4 : x.toNat % 2 ^ i = x.toNat - 2 ^ i := by
      rw [Nat.mod_eq_sub_mod hc, Nat.mod_eq_of_lt (by omega)]
    have h5 : ¬ 2 * x.toNat < 2 ^ i * 2 := by omega
    rw [if_pos hc, if_neg h5, h4]
    have : ((2 : Int) ^ (i + 1)) = 2 ^ i * 2 := Int.pow_succ 2 i
    rw [this]
    push_cast [hc]
    linarith
  · have h4 : x.toNat % 2 ^ i = x.toNat := Nat.mod_eq_of_lt (by omega)
    have h5 : 2 * x.toNat < 2 ^ i * 2 := by omega
    rw [if_neg hc, if_pos h5, h4]

/-- **C136.** A number of chronyd's wire format — seven bits of exponent above twenty-five of coefficient, both
in two's complement — is read as coefficient times two to the exponent less 25. -/
theorem C136_float (x : BitVec 32) :
    toFloat x = (twos (x.toNat % 2 ^ 25) 25 : Rat) * (2 : Rat) ^ (twos (x.toNat / 2 ^ 25) 7 - 25) := by
  have hm : (((1#32 <<< 25) - 1)).toNat = 2 ^ 25 - 1 := by decide
  have h1 : (x &&& ((1#32 <<< 25) - 1)).toNat = x.toNat % 2 ^ 25 := by
    rw [BitVec.toNat_and, hm, Nat.and_two_pow_sub_one_eq_mod]
  have h2 : (x >>> 25).toNat = x.toNat / 2 ^ 25 := by
    rw [BitVec.toNat_ushiftRight, Nat.shiftRight_eq_div_pow]
  have hl : x.toNat < 2 ^ 32 := x.isLt
  unfold toFloat
  rw [toSigned_eq _ 24 (by decide) (by rw [h1]; exact Nat.mod_lt _ (by decide)),
    toSigned_eq _ 6 (by decide) (by rw [h2]; omega), h1, h2]

/-- The number −3/2⁴: coefficient −3·2²⁰, exponent 1. -/
example : toFloat 0x03D00000#32 = -3 / 16 := by decide +kernel

/-! ## C137 -/

/-- What `/proc/PID/cmdline` holds: each argument and a zero. -/
def cmdline (args : List (List UInt8)) : List UInt8 := args.flatMap (· ++ [0])

/-- The letters of chronyd's options without a value: `46dhmnpqQrRsUvx`. -/
def letters : List UInt8 := [52, 54, 100, 104, 109, 110, 112, 113, 81, 114, 82, 115, 85, 118, 120]

/-- An argument that gives the option `x`, alone or along with others. -/
def givesX (a : List UInt8) : Prop := ∃ l, a = 45 :: l ∧ (∀ c ∈ l, c ∈ letters) ∧ 120 ∈ l

/-- The command line as `read` delivers it: non-empty pieces. -/
def Pieces (reads : List (List UInt8)) (text : List UInt8) : Prop := reads.flatten = text ∧ [] ∉ reads

/-- **C137**: chronyd run with the option `x` is not taken to discipline the clock. -/
def C137_statement : Prop :=
  ∀ (args : List (List UInt8)) (reads : List (List UInt8)), (∀ a ∈ args, 0 ∉ a) → Pieces reads (cmdline args) →
    (∃ a ∈ args, givesX a) → controls reads = false

/-- `chronyd -rx` is missed. -/
theorem C137_violated : ¬ C137_statement := by
  intro h
  have := h [[99], [45, 114, 120]] [cmdline [[99], [45, 114, 120]]] (by decide) ⟨by decide, by decide⟩
    ⟨_, List.mem_cons_of_mem _ (List.mem_singleton.2 rfl), [114, 120], rfl, by decide, by decide⟩
  exact absurd this (by decide)

theorem scanBuf_x (l : List UInt8) : scanBuf .x l = .x := by
  induction l with
  | nil => rfl
  | cons c l ih => exact ih

theorem scanBuf_append (s : Opt) (a b : List UInt8) : scanBuf s (a ++ b) = scanBuf (scanBuf s a) b :=
  List.foldl_append

theorem scanReads_flatten (reads : List (List UInt8)) (s : Opt) (h : [] ∉ reads) :
    scanReads s reads = scanBuf s reads.flatten := by
  induction reads generalizing s with
  | nil => rfl
  | cons b r ih =>
    have hb : b ≠ [] := fun e => h (e ▸ List.mem_cons_self)
    have hr : [] ∉ r := fun m => h (List.mem_cons_of_mem _ m)
    unfold scanReads
    rw [List.flatten_cons, scanBuf_append]
    by_cases hs : s = .x
    · subst hs
      rw [if_pos (Or.inr rfl), scanBuf_x, scanBuf_x]
    · rw [if_neg (fun hc => hc.elim hb hs), ih _ hr]

theorem scanBuf_ignore (l : List UInt8) (h : 0 ∉ l) : scanBuf .ignore l = .ignore := by
  induction l with
  | nil => rfl
  | cons c l ih =>
    have h0 : c ≠ 0 := fun e => h (e ▸ List.mem_cons_self)
    have : Opt.ignore.next c = .ignore := by simp [Opt.next, h0]
    show scanBuf (Opt.ignore.next c) l = _
    rw [this]
    exact ih (fun m => h (List.mem_cons_of_mem _ m))

theorem scan_arg (a : List UInt8) (h : 0 ∉ a) :
    scanBuf .start (a ++ [0]) = if [45, 120] <+: a then .x else .start := by
  match a, h with
  | [], _ => decide
  | [c], h =>
    have h0 : c ≠ 0 := fun e => h (e ▸ List.mem_cons_self)
    have hp : ¬ [45, 120] <+: [c] := fun hp => by simpa using hp.length_le
    rw [if_neg hp]
    by_cases hc : c = 45 <;> simp [scanBuf, Opt.next, h0, hc]
  | c :: d :: l, h =>
    have h0 : c ≠ 0 := fun e => h (e ▸ List.mem_cons_self)
    have h1 : d ≠ 0 := fun e => h (e ▸ List.mem_cons_of_mem _ List.mem_cons_self)
    have hl : 0 ∉ l := fun m => h (List.mem_cons_of_mem _ (List.mem_cons_of_mem _ m))
    have hi : scanBuf .ignore (l ++ [0]) = .start := by
      rw [scanBuf_append, scanBuf_ignore l hl]; rfl
    have hg : Opt.ignore.next d = .ignore := by simp [Opt.next, h1]
    show scanBuf ((Opt.start.next c).next d) (l ++ [0]) = _
    by_cases hc : c = 45
    · subst hc
      have : Opt.start.next 45 = .minus := rfl
      rw [this]
      by_cases hd : d = 120
      · subst hd
        have : Opt.minus.next 120 = .x := rfl
        rw [this, scanBuf_x, if_pos ⟨l, rfl⟩]
      · have : Opt.minus.next d = .ignore := by simp [Opt.next, h1, hd]
        rw [this, hi, if_neg]
        rintro ⟨t, ht⟩
        simp only [List.cons_append, List.nil_append, List.cons.injEq] at ht
        exact hd ht.2.1.symm
    · have : Opt.start.next c = .ignore := by simp [Opt.next, h0, hc]
      rw [this, hg, hi, if_neg]
      rintro ⟨t, ht⟩
      simp only [List.cons_append, List.nil_append, List.cons.injEq] at ht
      exact hc ht.1.symm

theorem scan_args (args : List (List UInt8)) (h : ∀ a ∈ args, 0 ∉ a) :
    scanBuf .start (cmdline args) = .x ↔ ∃ a ∈ args, [45, 120] <+: a := by
  induction args with
  | nil => simp [cmdline, scanBuf]
  | cons a r ih =>
    have ih := ih (fun b hb => h b (List.mem_cons_of_mem _ hb))
    have : cmdline (a :: r) = (a ++ [0]) ++ cmdline r := rfl
    rw [this, scanBuf_append, scan_arg a (h a List.mem_cons_self)]
    by_cases hp : [45, 120] <+: a
    · rw [if_pos hp, scanBuf_x]
      exact ⟨fun _ => ⟨a, List.mem_cons_self, hp⟩, fun _ => rfl⟩
    · rw [if_neg hp, ih]
      constructor
      · rintro ⟨b, hb, h⟩; exact ⟨b, List.mem_cons_of_mem _ hb, h⟩
      · rintro ⟨b, hb, h⟩
        rcases List.mem_cons.1 hb with e | hb
        · exact absurd (e ▸ h) hp
        · exact ⟨b, hb, h⟩

/-- **C137, the part that holds.** However `read` cuts the command line, chronyd is taken not to discipline the
clock exactly if an argument begins with `-x`. Missing: `x` behind other letters; and an argument that is the value of
an option is taken for an option. -/
theorem C137_partial (args : List (List UInt8)) (reads : List (List UInt8)) (h : ∀ a ∈ args, 0 ∉ a)
    (hr : Pieces reads (cmdline args)) : controls reads = false ↔ ∃ a ∈ args, [45, 120] <+: a := by
  unfold controls
  rw [scanReads_flatten reads _ hr.2, hr.1, ← scan_args args h]
  simp

/-- `chronyd -r -x` in pieces that cut the option. -/
example : controls [[99, 0, 45, 114, 0, 45], [120, 0]] = false :=
  (C137_partial [[99], [45, 114], [45, 120]] _ (by decide) ⟨by decide, by decide⟩).2 ⟨_, List.mem_cons_of_mem _
    (List.mem_cons_of_mem _ (List.mem_singleton.2 rfl)), by decide⟩

end Verif.Crny
