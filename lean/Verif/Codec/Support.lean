import Verif.Codec.Spec
import Mathlib.Tactic.Ring
import Mathlib.Tactic.Linarith

/-! # Lemmas about the encoding of fields and tables -/

set_option linter.unusedSimpArgs false
set_option linter.unusedVariables false

namespace Verif.Codec
open Spec

/-! ## Numbers -/

theorem foldl_be (l : List Byte) (x : Nat) : l.foldl (fun v b => v * 256 + b.toNat) x = x * 256 ^ l.length + number l := by
  induction l generalizing x with
  | nil => simp [number]
  | cons y ys ih => rw [List.foldl_cons, ih]; simp only [number, List.length_cons, Nat.pow_succ]; ring

theorem ofBE_eq (l : List Byte) : ofBE l = number l := by
  unfold ofBE; rw [foldl_be]; simp

theorem number_lt (l : List Byte) : number l < 256 ^ l.length := by
  induction l with
  | nil => simp [number]
  | cons y ys ih =>
    simp only [number, List.length_cons, Nat.pow_succ]
    have := y.isLt
    nlinarith

theorem number_append (l r : List Byte) : number (l ++ r) = number l * 256 ^ r.length + number r := by
  rw [← ofBE_eq, ofBE, List.foldl_append, foldl_be, foldl_be, Nat.zero_mul, Nat.zero_add]

theorem number_inj {l r : List Byte} (hl : l.length = r.length) (h : number l = number r) : l = r := by
  induction l generalizing r with
  | nil => cases r <;> simp_all
  | cons x xs ih =>
    cases r with
    | nil => simp at hl
    | cons y ys =>
      simp only [List.length_cons, Nat.add_right_cancel_iff] at hl
      simp only [number, hl] at h
      have h1 := number_lt xs; have h2 := number_lt ys
      rw [hl] at h1
      have hp : 0 < 256 ^ ys.length := Nat.pow_pos (by omega)
      have e1 := congrArg (· / 256 ^ ys.length) h
      have e2 := congrArg (· % 256 ^ ys.length) h
      simp only [Nat.add_comm (_ * _), Nat.add_mul_div_right _ _ hp, Nat.div_eq_of_lt h1, Nat.div_eq_of_lt h2, Nat.zero_add,
        Nat.add_mul_mod_self_right, Nat.mod_eq_of_lt h1, Nat.mod_eq_of_lt h2] at e1 e2
      rw [BitVec.eq_of_toNat_eq e1, ih hl e2]

@[simp] theorem toBE_length (n v : Nat) : (toBE n v).length = n := by
  induction n generalizing v with
  | zero => rfl
  | succ k ih => simp [toBE, ih]

theorem number_toBE (n v : Nat) : number (toBE n v) = v % 256 ^ n := by
  induction n generalizing v with
  | zero => simp [toBE, number, Nat.mod_one]
  | succ k ih =>
    simp only [toBE, number_append, ih, number, List.length_cons, List.length_nil, BitVec.toNat_ofNat]
    rw [Nat.pow_succ 256 k, Nat.mul_comm (256 ^ k), Nat.mod_mul]
    omega

theorem ofBE_toBE {n v : Nat} (h : v < 256 ^ n) : ofBE (toBE n v) = v := by
  rw [ofBE_eq, number_toBE, Nat.mod_eq_of_lt h]

@[simp] theorem load_length (m : Mem) (a n : Nat) : (load m a n).length = n := by simp [load]

theorem load_eq_slice (m : Mem) (a n : Nat) : load m a n = slice m a n := rfl

theorem load_add (m : Mem) (a n k : Nat) : load m a (n + k) = load m a n ++ load m (a + n) k := by
  simp only [load, List.range_add, List.map_append, List.map_map]
  congr 1
  exact List.map_congr_left fun i _ => by simp [Nat.add_assoc]

theorem load_congr {m m' : Mem} {a n : Nat} (h : ∀ i, a ≤ i → i < a + n → m i = m' i) : load m a n = load m' a n :=
  List.map_congr_left fun i hi => h _ (by omega) (by have := List.mem_range.mp hi; omega)

theorem load_getElem {m : Mem} {a n i : Nat} (hi : i < n) : (load m a n)[i]? = some (m (a + i)) := by
  simp [load, hi]

/-- Equal slices are equal bytes. -/
theorem eq_of_load {m m' : Mem} {a a' n : Nat} (h : load m a n = load m' a' n) {i : Nat} (hi : i < n) : m (a + i) = m' (a' + i) := by
  have := congrArg (·[i]?) h
  simpa [load_getElem hi] using this

theorem load_shift {m m' : Mem} {a a' n : Nat} (h : load m a n = load m' a' n) {o k : Nat} (hk : o + k ≤ n) :
    load m (a + o) k = load m' (a' + o) k :=
  List.map_congr_left fun i hi => by
    have := List.mem_range.mp hi
    rw [Nat.add_assoc, Nat.add_assoc]; exact eq_of_load h (by omega)

theorem load_store_self (m : Mem) (a : Nat) (l : List Byte) : load (store m a l) a l.length = l := by
  refine List.ext_getElem? fun i => ?_
  by_cases hi : i < l.length
  · rw [load_getElem hi]
    unfold store
    rw [if_pos (by omega), Nat.add_sub_cancel_left]
    simp [List.getD, hi]
  · rw [List.getElem?_eq_none (by simp; omega), List.getElem?_eq_none (by omega)]

theorem load_store_out {m : Mem} {a b n : Nat} {l : List Byte} (h : a + n ≤ b ∨ b + l.length ≤ a) : load (store m b l) a n = load m a n :=
  load_congr fun i h1 h2 => by unfold store; rw [if_neg (by omega)]

theorem store_out {m : Mem} {b i : Nat} {l : List Byte} (h : i < b ∨ b + l.length ≤ i) : store m b l i = m i := by
  unfold store; rw [if_neg (by omega)]

theorem store_append (m : Mem) (a : Nat) (l r : List Byte) : store (store m a l) (a + l.length) r = store m a (l ++ r) := by
  funext i
  simp only [store, List.length_append, List.getD]
  by_cases h1 : a + l.length ≤ i ∧ i < a + l.length + r.length
  · rw [if_pos h1, if_pos (by omega), List.getElem?_append_right (by omega)]; congr 2; omega
  · rw [if_neg h1]
    by_cases h2 : a ≤ i ∧ i < a + l.length
    · rw [if_pos h2, if_pos (by omega), List.getElem?_append_left (by omega)]
    · rw [if_neg h2, if_neg (by omega)]

theorem store_store (m : Mem) (a : Nat) {l r : List Byte} (h : l.length = r.length) : store (store m a l) a r = store m a r := by
  funext i
  simp only [store, h]
  by_cases h1 : a ≤ i ∧ i < a + r.length
  · rw [if_pos h1, if_pos h1]
  · rw [if_neg h1, if_neg h1]; simp [h1]

/-! ## Bit fields -/

theorem pow256 (n : Nat) : 256 ^ n = 2 ^ (8 * n) := by rw [Nat.pow_mul]

theorem joined_lt {ws vs : List Nat} (h : Fits ws vs) : joined ws vs < 2 ^ ws.sum := by
  induction h with
  | nil => simp [joined]
  | cons hv _ ih =>
    simp only [joined, List.sum_cons, Nat.pow_add]
    nlinarith

theorem joined_append {ws vs ws' vs' : List Nat} (h : ws.length = vs.length) :
    joined (ws ++ ws') (vs ++ vs') = joined ws vs * 2 ^ ws'.sum + joined ws' vs' := by
  induction ws generalizing vs with
  | nil => cases vs <;> simp_all [joined]
  | cons w ws ih =>
    cases vs with
    | nil => simp at h
    | cons v vs =>
      simp only [List.cons_append, joined, ih (by simpa using h), List.sum_append, Nat.pow_add]
      ring

theorem joined_inj {ws vs vs' : List Nat} (h : Fits ws vs) (h' : Fits ws vs') (e : joined ws vs = joined ws vs') : vs = vs' := by
  induction h generalizing vs' with
  | nil => cases h'; rfl
  | cons hv ht ih =>
    rename_i w v ws vs
    cases h' with
    | cons hv' ht' =>
      rename_i v' vs''
      simp only [joined] at e
      have l1 := joined_lt ht; have l2 := joined_lt ht'
      have hp : 0 < 2 ^ ws.sum := Nat.pow_pos (by omega)
      have e1 := congrArg (· / 2 ^ ws.sum) e
      have e2 := congrArg (· % 2 ^ ws.sum) e
      simp only [Nat.add_comm (_ * _), Nat.add_mul_div_right _ _ hp, Nat.div_eq_of_lt l1, Nat.div_eq_of_lt l2, Nat.zero_add,
        Nat.add_mul_mod_self_right, Nat.mod_eq_of_lt l1, Nat.mod_eq_of_lt l2] at e1 e2
      rw [e1, ih ht' e2]

theorem Spec.Holds.unique {ws vs vs' : List Nat} {l : List Byte} (h : Holds ws vs l) (h' : Holds ws vs' l) : vs = vs' :=
  joined_inj h.1 h'.1 (h.2.2.symm.trans h'.2.2)

theorem Spec.Holds.bytes {ws vs : List Nat} {l l' : List Byte} (h : Holds ws vs l) (h' : Holds ws vs l') : l = l' :=
  number_inj (by have := h.2.1; have := h'.2.1; omega) (h.2.2.trans h'.2.2.symm)

theorem Spec.Fits.append {ws vs ws' vs' : List Nat} (h : Fits ws vs) (h' : Fits ws' vs') : Fits (ws ++ ws') (vs ++ vs') :=
  List.rel_append h h'

theorem Spec.Fits.length {ws vs : List Nat} (h : Fits ws vs) : ws.length = vs.length := List.Forall₂.length_eq h

theorem Spec.Holds.append {ws vs ws' vs' : List Nat} {l l' : List Byte} (h : Holds ws vs l) (h' : Holds ws' vs' l') :
    Holds (ws ++ ws') (vs ++ vs') (l ++ l') := by
  refine ⟨h.1.append h'.1, ?_, ?_⟩
  · rw [List.sum_append, List.length_append, h.2.1, h'.2.1]; ring
  · rw [number_append, joined_append h.1.length, h.2.2, h'.2.2, pow256, ← h'.2.1]

theorem Spec.Fits.split {ws ws' vs : List Nat} (h : Fits (ws ++ ws') vs) : ∃ u v, vs = u ++ v ∧ Fits ws u ∧ Fits ws' v := by
  induction ws generalizing vs with
  | nil => exact ⟨[], vs, rfl, .nil, h⟩
  | cons w ws ih =>
    cases h with
    | cons hv ht =>
      obtain ⟨u, v, e, h1, h2⟩ := ih ht
      exact ⟨_ :: u, v, by rw [e]; rfl, .cons hv h1, h2⟩

/-! ## Types and tables -/

/-- The type is a codec of `n` bytes of bit fields of widths `ws`. -/
structure Good (t : Ty) (ws : List Nat) (n : Nat) : Prop where
  arity : t.arity = ws.length
  sum : ws.sum = 8 * n
  unpack : ∀ m a len, n ≤ len → ∃ vs h, t.unpack m a len = ⟨true, n, vs.map some, h⟩ ∧ Holds ws vs (load m a n) ∧ h ≤ a + n
  pack : ∀ vs m a sp, n ≤ sp → Fits ws vs → ∃ l h, t.pack vs m a sp = ⟨true, n, store m a l, h⟩ ∧ l.length = n ∧ Holds ws vs l ∧ h ≤ a + n

/-- The rows are a codec of `n` bytes of bit fields of widths `ws`. -/
structure Seg (fs : List Field) (ws : List Nat) (n : Nat) : Prop where
  arity : (fs.map (fun f => f.ty.arity)).sum = ws.length
  sum : ws.sum = 8 * n
  unpack : ∀ rest m a len off k, off + n ≤ len → ∃ vs h,
    (unpackFields m a len (fs ++ rest) off k = ⟨(unpackFields m a len rest (off + n) (k + n)).ok,
      (unpackFields m a len rest (off + n) (k + n)).size, vs.map some ++ (unpackFields m a len rest (off + n) (k + n)).vals,
      max h (unpackFields m a len rest (off + n) (k + n)).hi⟩) ∧ Holds ws vs (load m (a + off) n) ∧ h ≤ a + off + n
  pack : ∀ rest vs us m a sp off k, off + n ≤ sp → Fits ws vs → ∃ l h,
    (packFields a sp (fs ++ rest) (vs ++ us) m off k = ⟨(packFields a sp rest us (store m (a + off) l) (off + n) (k + n)).ok,
      (packFields a sp rest us (store m (a + off) l) (off + n) (k + n)).size,
      (packFields a sp rest us (store m (a + off) l) (off + n) (k + n)).mem,
      max h (packFields a sp rest us (store m (a + off) l) (off + n) (k + n)).hi⟩) ∧ l.length = n ∧ Holds ws vs l ∧ h ≤ a + off + n

theorem holds_uint {n : Nat} (l : List Byte) (h : l.length = n) : Holds [8 * n] [ofBE l] l := by
  refine ⟨.cons ?_ .nil, by simp [h], ?_⟩
  · rw [ofBE_eq, ← pow256, ← h]; exact number_lt l
  · simp [joined, ofBE_eq]

theorem holds_toBE {n v : Nat} (h : v < 2 ^ (8 * n)) : Holds [8 * n] [v] (toBE n v) := by
  refine ⟨.cons h .nil, by simp, ?_⟩
  rw [number_toBE, pow256, Nat.mod_eq_of_lt h]; simp [joined]

theorem good_uint (n : Nat) : Good (uint n) [8 * n] n where
  arity := rfl
  sum := by simp
  unpack m a len _ := ⟨[_], _, rfl, holds_uint _ (by simp), le_refl _⟩
  pack vs m a sp _ hf := by
    cases hf with
    | cons hv ht =>
      cases ht
      exact ⟨_, _, rfl, by simp, holds_toBE hv, le_refl _⟩

theorem good_checked (n : Nat) : Good (checked n) [8 * n] n where
  arity := rfl
  sum := by simp
  unpack m a len hl := ⟨[_], _, by simp only [checked, if_pos hl]; rfl, holds_uint _ (by simp), le_refl _⟩
  pack vs m a sp hl hf := by
    cases hf with
    | cons hv ht =>
      cases ht
      exact ⟨_, _, by simp only [checked, if_pos hl]; rfl, by simp, holds_toBE hv, le_refl _⟩

theorem seg_nil : Seg [] [] 0 where
  arity := rfl
  sum := rfl
  unpack rest m a len off k h := by
    refine ⟨[], 0, ?_, ?_, by omega⟩
    · simp
    · exact ⟨.nil, by simp, by simp [load, number, joined]⟩
  pack rest vs us m a sp off k h hf := by
    cases hf
    refine ⟨[], 0, ?_, rfl, ⟨.nil, by simp, by simp [number, joined]⟩, by omega⟩
    have : store m (a + off) [] = m := by funext i; simp only [store, List.length_nil]; rw [if_neg (by omega)]
    simp [this]

theorem seg_field {t : Ty} {ws : List Nat} {n : Nat} (g : Good t ws n) : Seg [⟨n, t⟩] ws n where
  arity := by simp [g.arity]
  sum := g.sum
  unpack rest m a len off k h := by
    obtain ⟨vs, hi, e, hh, hb⟩ := g.unpack m (a + off) (len - off) (by omega)
    refine ⟨vs, hi, ?_, hh, hb⟩
    simp only [List.singleton_append, unpackFields]
    rw [if_neg (by omega), e]
  pack rest vs us m a sp off k h hf := by
    obtain ⟨l, hi, e, hl, hh, hb⟩ := g.pack vs m (a + off) (sp - off) (by omega) hf
    refine ⟨l, hi, ?_, hl, hh, hb⟩
    have ha : t.arity = vs.length := g.arity.trans hf.length
    simp only [List.singleton_append, packFields, ha, List.take_left, List.drop_left]
    rw [if_neg (by omega), e]

theorem Seg.append {fs gs : List Field} {ws ws' : List Nat} {n k : Nat} (h : Seg fs ws n) (h' : Seg gs ws' k) :
    Seg (fs ++ gs) (ws ++ ws') (n + k) where
  arity := by simp [h.arity, h'.arity]
  sum := by rw [List.sum_append, h.sum, h'.sum]; ring
  unpack rest m a len off j hb := by
    obtain ⟨vs, hi, e, hh, hx⟩ := h.unpack (gs ++ rest) m a len off j (by omega)
    obtain ⟨vs', hi', e', hh', hx'⟩ := h'.unpack rest m a len (off + n) (j + n) (by omega)
    refine ⟨vs ++ vs', max hi hi', ?_, ?_, by omega⟩
    · rw [List.append_assoc, e, e']
      simp only [Nat.add_assoc, List.map_append, List.append_assoc, max_assoc]
    · rw [load_add, Nat.add_assoc]
      exact hh.append hh'
  pack rest vs us m a sp off j hb hf := by
    obtain ⟨u, v, rfl, hu, hv⟩ := hf.split
    obtain ⟨l, hi, e, hl, hh, hx⟩ := h.pack (gs ++ rest) u (v ++ us) m a sp off j (by omega) hu
    obtain ⟨l', hi', e', hl', hh', hx'⟩ := h'.pack rest v us (store m (a + off) l) a sp (off + n) (j + n) (by omega) hv
    have es : store (store m (a + off) l) (a + (off + n)) l' = store m (a + off) (l ++ l') := by
      rw [← store_append, hl, Nat.add_assoc]
    rw [es] at e'
    refine ⟨l ++ l', max hi hi', ?_, by simp [hl, hl'], hh.append hh', by omega⟩
    rw [List.append_assoc, List.append_assoc, e, e']
    simp only [Nat.add_assoc, max_assoc]

theorem Seg.cons {t : Ty} {fs : List Field} {ws ws' : List Nat} {n k : Nat} (h : Good t ws n) (h' : Seg fs ws' k) :
    Seg (⟨n, t⟩ :: fs) (ws ++ ws') (n + k) := (seg_field h).append h'

theorem Seg.good {fs : List Field} {ws : List Nat} {n : Nat} (h : Seg fs ws n) : Good (table fs) ws n where
  arity := h.arity
  sum := h.sum
  unpack m a len hl := by
    obtain ⟨vs, hi, e, hh, hb⟩ := h.unpack [] m a len 0 0 (by omega)
    refine ⟨vs, max hi a, ?_, hh, by omega⟩
    simpa [unpackFields, table] using e
  pack vs m a sp hl hf := by
    obtain ⟨l, hi, e, hn, hh, hb⟩ := h.pack [] vs [] m a sp 0 0 (by omega) hf
    refine ⟨l, max hi a, ?_, hn, hh, by omega⟩
    simpa [packFields, table] using e

/-! ### Nibbles -/

theorem nibbles (x : Byte) : (x >>> 4).toNat * 16 + (x &&& 0x0F#8).toNat = x.toNat ∧ (x >>> 4).toNat < 16 ∧ (x &&& 0x0F#8).toNat < 16 := by
  revert x; decide

theorem unnibble (p q : Nat) (hp : p < 16) (hq : q < 16) (x : Byte) :
    ((((x &&& 0x0F#8) ||| (BitVec.ofNat 8 p <<< 4)) &&& 0xF0#8) ||| BitVec.ofNat 8 q).toNat = p * 16 + q := by
  have h : ∀ p q : Fin 16, ((BitVec.ofNat 8 p.val <<< 4) ||| BitVec.ofNat 8 q.val).toNat = p.val * 16 + q.val := by decide
  have h2 : ∀ p : Fin 16, (BitVec.ofNat 8 p.val <<< 4) &&& 0xF0#8 = BitVec.ofNat 8 p.val <<< 4 := by decide
  have h3 : ∀ x : Byte, (x &&& 0x0F#8) &&& 0xF0#8 = 0#8 := by decide
  have hd : ∀ a b c : Byte, (a ||| b) &&& c = (a &&& c) ||| (b &&& c) := fun a b c => by
    ext i hi; simp [Bool.and_or_distrib_right]
  rw [hd, h3, BitVec.zero_or, h2 ⟨p, hp⟩]
  exact h ⟨p, hp⟩ ⟨q, hq⟩

theorem seg_nibbles : Seg [⟨0, upper⟩, ⟨1, lower⟩] [4, 4] 1 where
  arity := rfl
  sum := rfl
  unpack rest m a len off k h := by
    obtain ⟨h1, h2, h3⟩ := nibbles (m (a + off))
    refine ⟨[(m (a + off) >>> 4).toNat, (m (a + off) &&& 0x0F#8).toNat], a + off + 1, ?_, ?_, le_refl _⟩
    · simp only [List.cons_append, List.nil_append, unpackFields, Nat.add_zero]
      rw [if_neg (by omega), if_neg (by omega)]
      simp only [upper, lower, List.map_cons, List.map_nil, List.cons_append, List.nil_append]
      congr 1
      omega
    · refine ⟨.cons h2 (.cons h3 .nil), by simp [load], ?_⟩
      simp only [load, List.range_one, List.map_cons, List.map_nil, number, joined, List.length_nil, List.sum_cons, List.sum_nil, Nat.add_zero]
      omega
  pack rest vs us m a sp off k h hf := by
    cases hf with
    | cons hp ht =>
      rename_i p vs
      cases ht with
      | cons hq ht =>
        rename_i q vs
        cases ht
        refine ⟨[(((m (a + off) &&& 0x0F#8) ||| (BitVec.ofNat 8 p <<< 4)) &&& 0xF0#8) ||| BitVec.ofNat 8 q], a + off + 1, ?_, rfl, ?_, le_refl _⟩
        · simp only [List.cons_append, List.nil_append, packFields, Nat.add_zero]
          rw [if_neg (by omega), if_neg (by omega)]
          simp only [upper, lower, List.take_succ_cons, List.take_zero, List.headD_cons, List.drop_succ_cons, List.drop_zero]
          have es : store m (a + off) [(m (a + off) &&& 0x0F#8) ||| (BitVec.ofNat 8 p <<< 4)] (a + off)
              = (m (a + off) &&& 0x0F#8) ||| (BitVec.ofNat 8 p <<< 4) := by simp [store]
          rw [es, store_store _ _ (by rfl)]
          congr 1
          omega
        · refine ⟨.cons hp (.cons hq .nil), by simp, ?_⟩
          have := unnibble p q (by simpa using hp) (by simpa using hq) (m (a + off))
          simp only [number, joined, List.length_nil, List.sum_cons, List.sum_nil, this]
          omega

theorem Seg.nibbles {fs : List Field} {ws : List Nat} {k : Nat} (h : Seg fs ws k) :
    Seg (⟨0, upper⟩ :: ⟨1, lower⟩ :: fs) (4 :: 4 :: ws) (1 + k) := seg_nibbles.append h

/-! ### The tables -/

theorem seg_portIdentity : Seg portIdentity [64, 16] 10 := .cons (good_checked 8) (.cons (good_uint 2) seg_nil)
theorem seg_timestamp : Seg timestamp [48, 32] 10 := .cons (good_checked 6) (.cons (good_uint 4) seg_nil)
theorem seg_clockQuality : Seg clockQuality [8, 8, 16] 4 := .cons (good_uint 1) (.cons (good_uint 1) (.cons (good_uint 2) seg_nil))

theorem seg_header : Seg header headerBits 34 :=
  .nibbles (.nibbles (.cons (good_uint 2) (.cons (good_uint 1) (.cons (good_uint 1) (.cons (good_uint 1) (.cons (good_uint 1)
    (.cons (good_uint 8) (.cons (good_uint 4) (.cons seg_portIdentity.good (.cons (good_uint 2) (.cons (good_uint 1) (.cons (good_uint 1)
    seg_nil))))))))))))

theorem seg_signaling : Seg signaling (headerBits ++ [64, 16]) 44 := .cons seg_header.good (.cons seg_portIdentity.good seg_nil)

theorem seg_management : Seg management (headerBits ++ [64, 16, 8, 8, 4, 4, 8]) 48 :=
  .cons seg_header.good (.cons seg_portIdentity.good (.cons (good_uint 1) (.cons (good_uint 1) (.nibbles (.cons (good_uint 1) seg_nil)))))

theorem seg_rxTiming : Seg rxTiming [64, 16] 10 := .cons seg_portIdentity.good seg_nil
theorem seg_rxTimingElement : Seg rxTimingElement [16, 48, 32, 64, 32, 48, 32] 34 :=
  .cons (good_uint 2) (.cons seg_timestamp.good (.cons (good_uint 8) (.cons (good_uint 4) (.cons seg_timestamp.good seg_nil))))
theorem seg_rxComputed : Seg rxComputed [64, 16, 8, 8] 12 := .cons seg_portIdentity.good (.cons (good_uint 1) (.cons (good_uint 1) seg_nil))
theorem seg_rxComputedElement : Seg rxComputedElement [16, 64, 64, 32] 22 :=
  .cons (good_uint 2) (.cons (good_uint 8) (.cons (good_uint 8) (.cons (good_uint 4) seg_nil)))
theorem seg_txElement : Seg txTimestampsElement [16, 48, 32] 12 := .cons (good_uint 2) (.cons seg_timestamp.good seg_nil)
theorem seg_status : Seg slaveStatus [64, 48, 32, 16, 16, 16, 16, 8] 27 :=
  .cons (good_checked 8) (.cons seg_timestamp.good (.cons (good_uint 2) (.cons (good_uint 2) (.cons (good_uint 2) (.cons (good_uint 2)
    (.cons (good_uint 1) seg_nil))))))
theorem seg_managementTLV : Seg managementTLV [16, 16, 16] 6 := .cons (good_uint 2) (.cons (good_uint 2) (.cons (good_uint 2) seg_nil))
theorem seg_defaultDataSet : Seg defaultDataSet [8, 8, 16, 8, 8, 8, 16, 8, 64, 8, 8] 20 :=
  .cons (good_uint 1) (.cons (good_uint 1) (.cons (good_uint 2) (.cons (good_uint 1) (.cons seg_clockQuality.good (.cons (good_uint 1)
    (.cons (good_checked 8) (.cons (good_uint 1) (.cons (good_uint 1) seg_nil))))))))

end Verif.Codec
