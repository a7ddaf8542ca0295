/-!
# Ring buffers

Several modules keep their most recent samples in an array with a write index
and a saturating count.  This file models that idiom and proves what the array
holds.
-/

namespace Verif.Ring

/-- Write index and count after storing one element: the index wraps at `max`,
the count saturates. -/
def advance (max w num : Nat) : Nat × Nat :=
  (if w + 1 ≥ max then 0 else w + 1, if num < max then num + 1 else num)

/-- Specification: the last `n` elements. -/
def lastN {α} (n : Nat) (l : List α) : List α := l.drop (l.length - n)

/-- What a ring of size `max` holds after the history `hist`. -/
structure Ok {α} (max : Nat) (hist : List α) (buf : List α) (w num : Nat) : Prop where
  len : max ≤ buf.length
  num_eq : num = min hist.length max
  w_lt : w < max
  w_eq : num < max → w = num
  rot : (buf.take num).drop w ++ (buf.take num).take w = lastN max hist

theorem Ok.init {α} {max : Nat} (h : 0 < max) {buf : List α} (hb : max ≤ buf.length) : Ok max [] buf 0 0 :=
  ⟨hb, by simp, h, fun _ => rfl, by simp [lastN]⟩

theorem lastN_length {α} (n : Nat) (l : List α) : (lastN n l).length = min l.length n := by
  unfold lastN; rw [List.length_drop]; omega

theorem lastN_snoc_short {α} (n : Nat) (l : List α) (x : α) (h : l.length < n) :
    lastN n (l ++ [x]) = lastN n l ++ [x] := by
  unfold lastN
  rw [show l.length - n = 0 by omega, show (l ++ [x]).length - n = 0 by simp; omega]
  rfl

theorem lastN_snoc_long {α} (n : Nat) (l : List α) (x : α) (h : n ≤ l.length) (hn : 0 < n) :
    lastN n (l ++ [x]) = (lastN n l).drop 1 ++ [x] := by
  unfold lastN
  rw [List.length_append, List.length_singleton, List.drop_drop, List.drop_append_of_le_length (by omega)]
  congr 2
  omega

theorem Ok.push {α} {max : Nat} {hist buf : List α} {w num : Nat} (h : Ok max hist buf w num) (x : α) :
    Ok max (hist ++ [x]) (buf.set w x) (advance max w num).1 (advance max w num).2 := by
  obtain ⟨hl, hn, hw, hwe, hr⟩ := h
  have hmin : min hist.length max = if hist.length ≤ max then hist.length else max := Nat.min_def
  by_cases hlt : num < max
  · have hwn := hwe hlt
    subst hwn
    have hlen : hist.length = w := by rw [hmin] at hn; split at hn <;> omega
    have ht : (buf.set w x).take (w + 1) = buf.take w ++ [x] := by
      rw [List.take_succ_eq_append_getElem (by simp; omega), List.getElem_set_self, List.take_set_of_le (Nat.le_refl _)]
    have hr' : buf.take w = lastN max hist := by
      rw [← hr]
      rw [List.drop_eq_nil_of_le (by simp; omega), List.nil_append, List.take_take, Nat.min_self]
    simp only [advance, if_pos hlt]
    refine ⟨by simp; exact hl, by simp [hlen]; omega, ?_, ?_, ?_⟩
    · split <;> omega
    · intro h; rw [if_neg (by omega)]
    · rw [ht, lastN_snoc_short _ _ _ (by omega), ← hr']
      split
      · simp
      · rw [List.drop_eq_nil_of_le (by simp; omega), List.take_of_length_le (by simp; omega)]; rfl
  · have hnum : num = max := by rw [hmin] at hn; split at hn <;> omega
    have hlen : max ≤ hist.length := by rw [hmin] at hn; split at hn <;> omega
    subst hnum
    simp only [advance, if_neg hlt]
    refine ⟨by simp; exact hl, by simp; omega, ?_, fun h => absurd h hlt, ?_⟩
    · split <;> omega
    · rw [lastN_snoc_long _ _ _ hlen (by omega), ← hr, List.take_set]
      have hT : (buf.take num).length = num := by simp; omega
      generalize buf.take num = T at *
      have hset : T.set w x = T.take w ++ x :: T.drop (w + 1) := by
        rw [List.set_eq_take_append_cons_drop, if_pos (by omega)]
      have hdrop : T.drop w = T[w] :: T.drop (w + 1) := List.drop_eq_getElem_cons (by omega)
      have htl : (T.take w).length = w := by simp; omega
      rw [hset, hdrop]
      simp only [List.cons_append, List.drop_succ_cons, List.drop_zero]
      split
      · rename_i hge
        have : T.drop (w + 1) = [] := List.drop_eq_nil_of_le (by omega)
        rw [this]; simp
      · have hA : (T.take w ++ [x]).length = w + 1 := by simp; omega
        rw [show T.take w ++ x :: T.drop (w + 1) = (T.take w ++ [x]) ++ T.drop (w + 1) by simp,
          List.drop_left' hA, List.take_left' hA]
        simp

/-- The held elements are those of the recent history. -/
theorem Ok.perm {α} {max : Nat} {hist buf : List α} {w num : Nat} (h : Ok max hist buf w num) :
    (buf.take num).Perm (lastN max hist) := by
  rw [← h.rot]
  have := List.take_append_drop w (buf.take num)
  conv => lhs; rw [← this]
  exact List.perm_append_comm

/-- When full, the element to be overwritten is the oldest. -/
theorem Ok.oldest {α} {max : Nat} {hist buf : List α} {w num : Nat} (h : Ok max hist buf w num) (hf : ¬ num < max) :
    buf[w]? = (lastN max hist).head? := by
  have hn := h.num_eq
  have hw := h.w_lt
  have hl := h.len
  have hnum : num = max := by omega
  rw [← h.rot]
  have hlt : w < (buf.take num).length := by simp; omega
  rw [List.drop_eq_getElem_cons hlt]
  simp only [List.cons_append, List.head?_cons, List.getElem_take]
  rw [List.getElem?_eq_getElem]

end Verif.Ring
