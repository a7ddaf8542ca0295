import Verif.Lacp.Model
import Mathlib.Data.List.Nodup
import Mathlib.Tactic.Linarith

set_option linter.unusedSimpArgs false
set_option linter.unusedVariables false

/-!
# Lemmas on bond sockets
-/

namespace Verif.Lacp

/-- The set bits of a mask in increasing order. -/
def bits (m : BitVec 64) : List Nat := (List.range 64).filter (fun i => m.getLsbD i)

theorem mem_bits {m : BitVec 64} {i : Nat} : i ∈ bits m ↔ m.getLsbD i = true := by
  simp only [bits, List.mem_filter, List.mem_range]
  constructor
  · exact fun h => h.2
  · intro h; exact ⟨by by_contra hc; rw [BitVec.getLsbD_of_ge m i (by omega)] at h; simp at h, h⟩

theorem firstSet_head (m : BitVec 64) : firstSet m = (bits m).head? := by
  simp only [firstSet, bits, List.head?_filter]

theorem bits_zero {m : BitVec 64} : bits m = [] ↔ m = 0 := by
  constructor
  · intro h
    apply BitVec.eq_of_getLsbD_eq
    intro i hi
    cases hb : m.getLsbD i
    · simp
    · have := mem_bits.2 hb; rw [h] at this; simp at this
  · rintro rfl; decide

theorem one_bit (i j : Nat) : (1#32 <<< i).getLsbD j = (decide (j < 32) && decide (j = i)) := by
  simp only [BitVec.getLsbD_shiftLeft, BitVec.getLsbD_one]
  by_cases h1 : j < 32 <;> by_cases h2 : j = i <;> simp [h1, h2]
  omega

theorem clear_bit {m m' : BitVec 64} {i : Nat} (h : clear m i = some m') (j : Nat) :
    i < 32 ∧ m'.getLsbD j = (m.getLsbD j && if j < 32 then decide (j ≠ i) else decide (i ≠ 31)) := by
  simp only [clear, one] at h
  split at h
  · rename_i hi
    simp only [Option.map_some, Option.some.injEq] at h
    subst h
    refine ⟨hi, ?_⟩
    simp only [BitVec.getLsbD_and, BitVec.getLsbD_signExtend]
    by_cases hj : j < 64
    · by_cases hj2 : j < 32
      · rw [if_pos hj2, if_pos hj2]
        simp only [BitVec.getLsbD_not, one_bit, hj, hj2]
        simp
      · rw [if_neg hj2, if_neg hj2]
        simp only [BitVec.msb_eq_getLsbD_last, BitVec.getLsbD_not, one_bit, hj]
        by_cases h31 : i = 31
        · simp [h31]
        · simp [h31, Ne.symm h31]
    · rw [BitVec.getLsbD_of_ge m j (by omega)]; simp
  · simp at h

theorem set_bit {m m' : BitVec 64} {i : Nat} (h : set m i = some m') (j : Nat) :
    i < 32 ∧ m'.getLsbD j = (m.getLsbD j || (decide (j < 64) && if j < 32 then decide (j = i) else decide (i = 31))) := by
  simp only [set, one] at h
  split at h
  · rename_i hi
    simp only [Option.map_some, Option.some.injEq] at h
    subst h
    refine ⟨hi, ?_⟩
    simp only [BitVec.getLsbD_or, BitVec.getLsbD_signExtend]
    by_cases hj2 : j < 32
    · rw [if_pos hj2, if_pos hj2]
      simp only [one_bit, hj2]
      simp
    · rw [if_neg hj2, if_neg hj2]
      simp only [BitVec.msb_eq_getLsbD_last, one_bit]
      simp [eq_comm]
  · simp at h

theorem clear_some {m : BitVec 64} {i : Nat} (h : i < 32) : ∃ m', clear m i = some m' := by
  simp only [clear, one, if_pos h]; exact ⟨_, rfl⟩

theorem set_some {m : BitVec 64} {i : Nat} (h : i < 32) : ∃ m', set m i = some m' := by
  simp only [set, one, if_pos h]; exact ⟨_, rfl⟩

theorem bits_sorted (m : BitVec 64) : (bits m).Pairwise (· < ·) :=
  List.Pairwise.filter _ List.pairwise_lt_range

/-- Clearing the lowest bit below 31 leaves the others. -/
theorem bits_clear {m m' : BitVec 64} {i : Nat} {rest : List Nat} (hb : bits m = i :: rest) (hc : clear m i = some m')
    (h : i < 31 ∨ ∀ j, 32 ≤ j → m.getLsbD j = false) : bits m' = rest := by
  have hs := bits_sorted m
  rw [hb, List.pairwise_cons] at hs
  have hf : bits m' = (bits m).filter (fun j => decide (j ≠ i)) := by
    simp only [bits, List.filter_filter]
    congr 1
    funext j
    rw [(clear_bit hc j).2, Bool.and_comm]
    by_cases hj : j < 32
    · rw [if_pos hj]
    · rw [if_neg hj]
      rcases h with h | h
      · have : i ≠ 31 := by omega
        have : j ≠ i := by omega
        simp [*]
      · rw [h j (by omega)]; simp
  rw [hf, hb, List.filter_cons_of_neg (by simp)]
  rw [List.filter_eq_self]
  intro j hj
  have := hs.1 j hj
  simp only [decide_eq_true_eq]
  omega

theorem visitN_cons {n : Nat} {m : BitVec 64} {i : Nat} {rest : List Nat} (hb : bits m = i :: rest) :
    visitN (n + 1) m = match clear m i with | none => none | some m' => (visitN n m').map (i :: ·) := by
  have hm : m ≠ 0 := by intro h; rw [bits_zero.2 h] at hb; simp at hb
  simp only [visitN, if_neg hm, firstSet_head, hb, List.head?_cons]
  cases clear m i <;> rfl

theorem visitN_nil {n : Nat} {m : BitVec 64} (hb : bits m = []) : visitN n m = some [] := by
  have := bits_zero.1 hb
  subst this
  cases n <;> simp [visitN]

theorem visitN_spec (n : Nat) : ∀ m : BitVec 64, (bits m).length ≤ n →
    ((∀ j, 32 ≤ j → m.getLsbD j = false) → visitN n m = some (bits m)) ∧
    (m.getLsbD 31 = true → visitN n m = some ((bits m).filter (· < 32))) ∧
    (m.getLsbD 31 = false → (∃ j, 32 ≤ j ∧ m.getLsbD j = true) → visitN n m = none) := by
  induction n with
  | zero =>
    intro m hl
    have hb : bits m = [] := List.length_eq_zero_iff.1 (by omega)
    have hz := bits_zero.1 hb
    rw [visitN_nil hb, hb]
    subst hz
    simp
  | succ n ih =>
    intro m hl
    cases hb : bits m with
    | nil =>
      have hz := bits_zero.1 hb
      rw [visitN_nil hb]
      subst hz
      simp
    | cons i rest =>
      rw [visitN_cons hb]
      have hi : m.getLsbD i = true := mem_bits.1 (by rw [hb]; simp)
      have hs := bits_sorted m
      rw [hb, List.pairwise_cons] at hs
      have hmin : ∀ j, m.getLsbD j = true → i ≤ j := by
        intro j hj
        have : j ∈ bits m := mem_bits.2 hj
        rw [hb] at this
        rcases List.mem_cons.1 this with h | h
        · omega
        · have := hs.1 j h; omega
      have hlen : rest.length ≤ n := by rw [hb] at hl; simpa using hl
      refine ⟨?_, ?_, ?_⟩
      · intro h
        have h32 : i < 32 := by by_contra hc; rw [h i (by omega)] at hi; simp at hi
        obtain ⟨m', hm'⟩ := clear_some (m := m) h32
        have hr := bits_clear hb hm' (Or.inr h)
        simp only [hm']
        have hx : ∀ j, 32 ≤ j → m'.getLsbD j = false := by intro j hj; rw [(clear_bit hm' j).2, h j hj]; simp
        rw [(ih m' (by rw [hr]; exact hlen)).1 hx, hr]
        rfl
      · intro h
        have hi31 := hmin 31 h
        obtain ⟨m', hm'⟩ := clear_some (m := m) (show i < 32 by omega)
        simp only [hm']
        by_cases e : i = 31
        · subst e
          have hz : bits m' = [] := by
            rw [List.eq_nil_iff_forall_not_mem]
            intro j hj
            have hj := mem_bits.1 hj
            rw [(clear_bit hm' j).2, Bool.and_eq_true] at hj
            have := hmin j hj.1
            have h2 := hj.2
            split at h2
            · simp at h2; omega
            · simp at h2
          rw [visitN_nil hz]
          have : (rest.filter (· < 32)) = [] := by
            rw [List.filter_eq_nil_iff]
            intro j hj
            have := hs.1 j hj
            simp; omega
          simp [List.filter_cons, this]
        · have hr := bits_clear hb hm' (Or.inl (by omega))
          have h' : m'.getLsbD 31 = true := by
            rw [(clear_bit hm' 31).2, h]; simp; omega
          rw [(ih m' (by rw [hr]; exact hlen)).2.1 h', hr]
          rw [List.filter_cons_of_pos (by simp; omega)]
          rfl
      · rintro h ⟨j, hj, hbj⟩
        by_cases h32 : i < 32
        · have h31 : i < 31 := by
            rcases Nat.lt_or_eq_of_le (show i ≤ 31 by omega) with h' | h'
            · exact h'
            · rw [h'] at hi; rw [hi] at h; simp at h
          obtain ⟨m', hm'⟩ := clear_some (m := m) h32
          have hr := bits_clear hb hm' (Or.inl h31)
          simp only [hm']
          have h' : m'.getLsbD 31 = false := by rw [(clear_bit hm' 31).2, h]; simp
          have hj' : m'.getLsbD j = true := by
            rw [(clear_bit hm' j).2, hbj, if_neg (by omega)]; simp; omega
          rw [(ih m' (by rw [hr]; exact hlen)).2.2 h' ⟨j, hj, hj'⟩]
          rfl
        · simp only [clear, one, if_neg h32, Option.map_none]

theorem bits_length (m : BitVec 64) : (bits m).length ≤ 64 := by
  simpa [bits] using List.length_filter_le (fun i => m.getLsbD i) (List.range 64)

/-! ## Creation -/

theorem createFrom_spec (outs : List (Option Int)) : ∀ (p : Pool) (k : Nat), k + outs.length ≤ 31 → p.socks.length = 64 →
    (∀ j, k ≤ j → p.mask.getLsbD j = false) →
    ∃ p', createFrom p k outs = some p' ∧ p'.map = p.map ∧ p'.socks.length = 64 ∧
      (∀ j, p'.mask.getLsbD j = if j < k then p.mask.getLsbD j else (outs[j - k]?.join).isSome) ∧
      (∀ j, j < 64 → p'.socks[j]? = if k ≤ j then (outs[j - k]?.join).or p.socks[j]? else p.socks[j]?) := by
  induction outs with
  | nil =>
    intro p k hk hl hz
    refine ⟨p, rfl, rfl, hl, ?_, ?_⟩
    · intro j
      split
      · rfl
      · rw [hz j (by omega)]; simp
    · intro j hj; split <;> simp
  | cons s ss ih =>
    intro p k hk hl hz
    simp only [List.length_cons] at hk
    cases s with
    | none =>
      obtain ⟨p', h1, h2, h3, h4, h5⟩ := ih p (k + 1) (by omega) hl (fun j hj => hz j (by omega))
      refine ⟨p', by simp only [createFrom, createOne]; exact h1, h2, h3, ?_, ?_⟩
      · intro j
        rw [h4 j]
        by_cases hj : j < k
        · rw [if_pos hj, if_pos (by omega)]
        · rw [if_neg hj]
          by_cases he : j = k
          · subst he; rw [if_pos (by omega), hz j (by omega)]; simp
          · rw [if_neg (by omega)]
            have : j - k = (j - (k + 1)) + 1 := by omega
            rw [this, List.getElem?_cons_succ]
      · intro j hj
        rw [h5 j hj]
        by_cases h : k ≤ j
        · rw [if_pos h]
          by_cases he : j = k
          · subst he; rw [if_neg (by omega)]; simp
          · rw [if_pos (by omega)]
            have : j - k = (j - (k + 1)) + 1 := by omega
            rw [this, List.getElem?_cons_succ]
        · rw [if_neg h, if_neg (by omega)]
    | some fd =>
      obtain ⟨m', hm'⟩ := set_some (m := p.mask) (show k < 32 by omega)
      have hbit : ∀ j, m'.getLsbD j = (p.mask.getLsbD j || decide (j = k)) := by
        intro j
        rw [(set_bit hm' j).2]
        by_cases hj : j < 32
        · rw [if_pos hj]; simp [show j < 64 by omega]
        · rw [if_neg hj]
          have h1 : k ≠ 31 := by omega
          have h2 : j ≠ k := by omega
          simp [h1, h2]
      obtain ⟨p', h1, h2, h3, h4, h5⟩ := ih { p with socks := p.socks.set k fd, mask := m' } (k + 1) (by omega) (by simpa using hl)
        (fun j hj => by simp only [hbit j, hz j (by omega)]; simp; omega)
      refine ⟨p', by simp only [createFrom, createOne, hm', Option.map_some]; exact h1, h2, h3, ?_, ?_⟩
      · intro j
        rw [h4 j]
        by_cases hj : j < k
        · rw [if_pos hj, if_pos (by omega)]
          simp only [hbit]; simp; omega
        · rw [if_neg hj]
          by_cases he : j = k
          · subst he; rw [if_pos (by omega)]; simp only [hbit]; simp
          · rw [if_neg (by omega)]
            have : j - k = (j - (k + 1)) + 1 := by omega
            rw [this, List.getElem?_cons_succ]
      · intro j hj
        rw [h5 j hj]
        by_cases h : k ≤ j
        · rw [if_pos h]
          by_cases he : j = k
          · subst he; rw [if_neg (by omega)]; simp [hl, hj]
          · rw [if_pos (by omega)]
            have : j - k = (j - (k + 1)) + 1 := by omega
            rw [this, List.getElem?_cons_succ]
            simp only
            rw [List.getElem?_set_ne (by omega)]
        · rw [if_neg h, if_neg (by omega)]
          simp only
          rw [List.getElem?_set_ne (by omega)]

end Verif.Lacp
