import Mathlib.Tactic.Linarith
import Mathlib.Data.List.TakeWhile
import Verif.Ntp6.Spec

/-!
# Lemmas: packets, fragments and the buffer
-/

set_option linter.unusedVariables false
set_option linter.unusedSimpArgs false

namespace Verif.Ntp6

/-! ## Packets -/

theorem shape12 {b : List Nat} (h : 12 ≤ b.length) :
    ∃ b0 b1 b2 b3 b4 b5 b6 b7 b8 b9 b10 b11 d, b = b0 :: b1 :: b2 :: b3 :: b4 :: b5 :: b6 :: b7 :: b8 :: b9 :: b10 :: b11 :: d := by
  match b, h with
  | b0 :: b1 :: b2 :: b3 :: b4 :: b5 :: b6 :: b7 :: b8 :: b9 :: b10 :: b11 :: d, _ => exact ⟨_, _, _, _, _, _, _, _, _, _, _, _, d, rfl⟩

/-- The fields of a datagram as the sender would have set them. -/
def headOf (b : List Nat) : Head :=
  { leap := u8 b 0 / 64, version := version b, error := isError b, more := isMore b, op := opcode b, seq := seqOf b,
    status := statusOf b, assoc := u16 b 6, offset := offsetOf b }

theorem validate_iff {b : List Nat} {seq op : Nat} :
    validate b seq op = true ↔ 12 ≤ b.length ∧ version b ≤ 4 ∧ 1 ≤ version b ∧ mode b = 6 ∧ isResponse b = true ∧ seqOf b = seq ∧ opcode b = op := by
  unfold validate
  simp only [Bool.and_eq_true, decide_eq_true_eq, and_assoc]

theorem flags_eq {x : Nat} (hx : x < 256) (h : x / 128 % 2 = 1) :
    x = 128 + (if decide (x / 64 % 2 = 1) then 64 else 0) + (if decide (x / 32 % 2 = 1) then 32 else 0) + x % 32 := by
  by_cases h1 : x / 64 % 2 = 1 <;> by_cases h2 : x / 32 % 2 = 1 <;> simp only [h1, h2, decide_true, decide_false, if_true, if_false, Bool.false_eq_true] <;> omega

theorem message_of {b : List Nat} {seq op : Nat} (hb : ∀ x ∈ b, x < 256) (h : validate b seq op = true) (hc : 12 + countOf b ≤ b.length) :
    (headOf b).Fits ∧ (headOf b).seq = seq ∧ (headOf b).op = op ∧
      b = (headOf b).message ((b.drop 12).take (countOf b)) (b.drop (12 + countOf b)) ∧
      ((b.drop 12).take (countOf b)).length = countOf b := by
  obtain ⟨h1, h2, h3, h4, h5, h6, h7⟩ := validate_iff.1 h
  obtain ⟨b0, b1, b2, b3, b4, b5, b6, b7, b8, b9, b10, b11, d, rfl⟩ := shape12 h1
  have hl : (((b0 :: b1 :: b2 :: b3 :: b4 :: b5 :: b6 :: b7 :: b8 :: b9 :: b10 :: b11 :: d).drop 12).take
      (countOf (b0 :: b1 :: b2 :: b3 :: b4 :: b5 :: b6 :: b7 :: b8 :: b9 :: b10 :: b11 :: d))).length =
      countOf (b0 :: b1 :: b2 :: b3 :: b4 :: b5 :: b6 :: b7 :: b8 :: b9 :: b10 :: b11 :: d) := by
    rw [List.length_take, List.length_drop]; omega
  simp only [List.mem_cons, forall_eq_or_imp] at hb
  obtain ⟨e0, e1, e2, e3, e4, e5, e6, e7, e8, e9, e10, e11, -⟩ := hb
  refine ⟨?_, h6, h7, ?_, hl⟩
  · simp only [headOf, Head.Fits, version, opcode, seqOf, statusOf, offsetOf, u16, u8, List.getD_cons_zero, List.getD_cons_succ] at *
    omega
  · unfold Head.message
    rw [hl]
    have f := flags_eq e1 (by simpa [isResponse, u8] using h5)
    simp only [headOf, version, mode, isError, isMore, opcode, seqOf, statusOf, offsetOf, countOf, u16, u8, List.getD_cons_zero, List.getD_cons_succ, be16] at *
    simp only [List.cons_append, List.nil_append, List.drop_succ_cons, List.drop_zero]
    rw [← f]
    have k0 : b0 / 64 * 64 + b0 / 8 % 8 * 8 + 6 = b0 := by omega
    have kd : ∀ x y : Nat, y < 256 → (x * 256 + y) / 256 = x := by intros; omega
    have km : ∀ x y : Nat, y < 256 → (x * 256 + y) % 256 = y := by intros; omega
    rw [k0, kd b2 b3 e3, kd b4 b5 e5, kd b6 b7 e7, kd b8 b9 e9, kd b10 b11 e11, km b2 b3 e3, km b4 b5 e5, km b6 b7 e7, km b8 b9 e9, km b10 b11 e11]
    have : List.drop (12 + (b10 * 256 + b11)) (b0 :: b1 :: b2 :: b3 :: b4 :: b5 :: b6 :: b7 :: b8 :: b9 :: b10 :: b11 :: d) = List.drop (b10 * 256 + b11) d := by
      rw [← List.drop_drop]; rfl
    rw [this, List.take_append_drop]

/-- Reading back a message. -/
theorem read_message {h : Head} (hf : h.Fits) {d pad : List Nat} (hd : d.length < 65536) :
    validate (h.message d pad) h.seq h.op = true ∧ isError (h.message d pad) = h.error ∧ isMore (h.message d pad) = h.more ∧
    offsetOf (h.message d pad) = h.offset ∧ countOf (h.message d pad) = d.length ∧ statusOf (h.message d pad) = h.status ∧
    (h.message d pad).length = 12 + d.length + pad.length ∧ (h.message d pad).drop 12 = d ++ pad := by
  obtain ⟨f1, f2, f3, f4, f5, f6, f7, f8⟩ := hf
  have kd : ∀ n : Nat, n / 256 * 256 + n % 256 = n := by intros; omega
  have e1 : ∀ (a c : Bool), (128 + (if a then 64 else 0) + (if c then 32 else 0) + h.op) / 128 % 2 = 1 := by
    intro a c; cases a <;> cases c <;> simp <;> omega
  have e2 : ∀ (a c : Bool), decide ((128 + (if a then 64 else 0) + (if c then 32 else 0) + h.op) / 64 % 2 = 1) = a := by
    intro a c; cases a <;> cases c <;> simp <;> omega
  have e3 : ∀ (a c : Bool), decide ((128 + (if a then 64 else 0) + (if c then 32 else 0) + h.op) / 32 % 2 = 1) = c := by
    intro a c; cases a <;> cases c <;> simp <;> omega
  have e4 : ∀ (a c : Bool), (128 + (if a then 64 else 0) + (if c then 32 else 0) + h.op) % 32 = h.op := by
    intro a c; cases a <;> cases c <;> simp <;> omega
  refine ⟨?_, ?_, ?_, ?_, ?_, ?_, ?_, ?_⟩
  · rw [validate_iff]
    simp only [Head.message, version, mode, isResponse, seqOf, opcode, u16, u8, be16, List.cons_append, List.nil_append, List.getD_cons_zero, List.getD_cons_succ, List.length_cons]
    refine ⟨by omega, by omega, by omega, by omega, by rw [e1]; rfl, by rw [kd], by rw [e4]⟩
  · simp only [Head.message, isError, u8, be16, List.cons_append, List.nil_append, List.getD_cons_zero, List.getD_cons_succ]; rw [e2]
  · simp only [Head.message, isMore, u8, be16, List.cons_append, List.nil_append, List.getD_cons_zero, List.getD_cons_succ]; rw [e3]
  · simp only [Head.message, offsetOf, u16, u8, be16, List.cons_append, List.nil_append, List.getD_cons_zero, List.getD_cons_succ, kd]
  · simp only [Head.message, countOf, u16, u8, be16, List.cons_append, List.nil_append, List.getD_cons_zero, List.getD_cons_succ, kd]
  · simp only [Head.message, statusOf, u16, u8, be16, List.cons_append, List.nil_append, List.getD_cons_zero, List.getD_cons_succ, kd]
  · simp only [Head.message, be16, List.length_append, List.length_cons, List.length_nil]
  · simp only [Head.message, be16, List.cons_append, List.nil_append, List.drop_succ_cons, List.drop_zero]

/-! ## Fragments -/

/-- In order and without overlap. -/
def Sorted (fr : List (Nat × Nat)) : Prop := fr.Pairwise (fun a b => a.1 < b.1 ∧ a.1 + a.2 ≤ b.1)

theorem sorted_last {fr : List (Nat × Nat)} (hs : Sorted fr) {x : Nat × Nat} (hx : fr.getLast? = some x) :
    ∀ f ∈ fr, f.1 + f.2 ≤ x.1 + x.2 := by
  obtain ⟨l, rfl⟩ : ∃ l, fr = l ++ [x] := by
    have hne : fr ≠ [] := by rintro rfl; simp at hx
    refine ⟨fr.dropLast, ?_⟩
    rw [List.getLast?_eq_some_getLast hne] at hx
    rw [← Option.some.inj hx]; exact (List.dropLast_concat_getLast hne).symm
  intro f hf
  rcases List.mem_append.1 hf with h | h
  · have := (List.pairwise_append.1 hs).2.2 f h x (by simp); omega
  · rw [List.mem_singleton.1 h]

theorem place_some {fr fr' : List (Nat × Nat)} {o c : Nat} (hs : Sorted fr) (h : place fr o c = some fr') :
    ∃ pre post, fr = pre ++ post ∧ fr' = pre ++ (o, c) :: post ∧ (∀ f ∈ pre, f.1 < o ∧ f.1 + f.2 ≤ o) ∧ (∀ f ∈ post, o < f.1 ∧ o + c ≤ f.1) := by
  unfold place at h
  simp only at h
  refine ⟨fr.takeWhile (fun f => f.1 < o), fr.dropWhile (fun f => f.1 < o), (List.takeWhile_append_dropWhile).symm, ?_, ?_, ?_⟩
  · split at h; · cases h
    split at h; · cases h
    split at h; · cases h
    exact (Option.some.inj h).symm
  · intro f hf
    have h1 : f.1 < o := by simpa using List.mem_takeWhile_imp hf
    refine ⟨h1, ?_⟩
    have hsp : Sorted (fr.takeWhile (fun f => decide (f.1 < o))) := List.Pairwise.sublist (List.takeWhile_sublist _) hs
    have hne : fr.takeWhile (fun f => decide (f.1 < o)) ≠ [] := List.ne_nil_of_mem hf
    have hl := List.getLast?_eq_some_getLast hne
    have := sorted_last hsp hl f hf
    split at h; · cases h
    split at h; · cases h
    rename_i h2
    rw [hl] at h2
    simp only [Option.any_some, decide_eq_true_eq] at h2
    omega
  · intro f hf
    have hsp : Sorted (fr.dropWhile (fun f => decide (f.1 < o))) := List.Pairwise.sublist (List.dropWhile_sublist _) hs
    cases hd : fr.dropWhile (fun f => decide (f.1 < o)) with
    | nil => rw [hd] at hf; cases hf
    | cons x l =>
      have hx : ¬ x.1 < o := by
        have := List.head?_dropWhile_not (fun f : Nat × Nat => decide (f.1 < o)) fr
        rw [hd] at this
        simpa using this
      rw [hd] at h hf hsp
      simp only [List.head?_cons, Option.any_some, decide_eq_true_eq] at h
      split at h; · cases h
      split at h; · cases h
      split at h; · cases h
      rcases List.mem_cons.1 hf with rfl | hm
      · omega
      · have := (List.pairwise_cons.1 hsp).1 f hm; omega

theorem place_sorted {fr fr' : List (Nat × Nat)} {o c : Nat} (hs : Sorted fr) (h : place fr o c = some fr') :
    Sorted fr' ∧ fr'.length = fr.length + 1 ∧ (∀ f, f ∈ fr' ↔ f = (o, c) ∨ f ∈ fr) := by
  obtain ⟨pre, post, rfl, rfl, h1, h2⟩ := place_some hs h
  refine ⟨?_, by simp; omega, fun f => by simp only [List.mem_append, List.mem_cons]; tauto⟩
  unfold Sorted at *
  rw [List.pairwise_append] at hs ⊢
  obtain ⟨s1, s2, s3⟩ := hs
  refine ⟨s1, List.pairwise_cons.2 ⟨fun f hf => h2 f hf, s2⟩, ?_⟩
  intro a ha b hb
  rcases List.mem_cons.1 hb with rfl | hb
  · exact h1 a ha
  · exact s3 a ha b hb

/-- A fragment that fits between the others is stored. -/
theorem place_fits {fr : List (Nat × Nat)} {o c : Nat} (hs : Sorted fr)
    (h : ∀ f ∈ fr, (f.1 < o ∧ f.1 + f.2 ≤ o) ∨ (o < f.1 ∧ o + c ≤ f.1)) : ∃ fr', place fr o c = some fr' := by
  unfold place
  simp only
  rw [if_neg, if_neg, if_neg]
  · exact ⟨_, rfl⟩
  · intro hc
    obtain ⟨f, hf, hx⟩ := (Option.any_eq_true _ _).1 hc
    have hm : f ∈ fr := (List.dropWhile_sublist _).subset (List.mem_of_head? hf)
    have hn : ¬ f.1 < o := by
      have := List.head?_dropWhile_not (fun f : Nat × Nat => decide (f.1 < o)) fr
      rw [hf] at this; simpa using this
    simp only [decide_eq_true_eq] at hx
    rcases h f hm with h' | h' <;> omega
  · intro hc
    obtain ⟨f, hf, hx⟩ := (Option.any_eq_true _ _).1 hc
    have hm' := List.mem_of_getLast? hf
    have hm : f ∈ fr := (List.takeWhile_sublist _).subset hm'
    have hn : f.1 < o := by simpa using List.mem_takeWhile_imp hm'
    simp only [decide_eq_true_eq] at hx
    rcases h f hm with h' | h' <;> omega
  · intro hc
    obtain ⟨f, hf, hx⟩ := (Option.any_eq_true _ _).1 hc
    have hm : f ∈ fr := (List.dropWhile_sublist _).subset (List.mem_of_head? hf)
    simp only [decide_eq_true_eq] at hx
    rcases h f hm with h' | h' <;> omega

/-- A fragment that is there already is not stored again. -/
theorem place_dup {fr : List (Nat × Nat)} {o c c' : Nat} (hs : Sorted fr) (h : (o, c') ∈ fr) : place fr o c = none := by
  unfold place
  simp only
  have hd : ∃ l, fr.dropWhile (fun f => decide (f.1 < o)) = (o, c') :: l := by
    induction fr with
    | nil => cases h
    | cons x l ih =>
      rcases List.mem_cons.1 h with rfl | hm
      · exact ⟨l, by rw [List.dropWhile_cons_of_neg (by simp)]⟩
      · have := (List.pairwise_cons.1 hs).1 _ hm
        rw [List.dropWhile_cons_of_pos (by simpa using this.1)]
        exact ih (List.pairwise_cons.1 hs).2 hm
  obtain ⟨l, hl⟩ := hd
  rw [if_pos]
  rw [hl]; simp

/-! ## The buffer -/

theorem blit_length {buf d : List Nat} {o : Nat} (h : o + d.length ≤ buf.length) : (blit buf o d).length = buf.length := by
  unfold blit; simp only [List.length_append, List.length_take, List.length_drop]; omega

theorem blit_at {buf d : List Nat} {o : Nat} (h : o + d.length ≤ buf.length) : ((blit buf o d).drop o).take d.length = d := by
  unfold blit
  have : (buf.take o).length = o := by rw [List.length_take]; omega
  rw [List.append_assoc, List.drop_append_of_le_length (by omega), List.drop_of_length_le (by omega), List.nil_append,
    List.take_append_of_le_length (Nat.le_refl _), List.take_length]

theorem blit_get {buf d : List Nat} {o i : Nat} (h : o + d.length ≤ buf.length) (hi : i < o ∨ o + d.length ≤ i) :
    (blit buf o d)[i]? = buf[i]? := by
  unfold blit
  have hl : (buf.take o).length = o := by rw [List.length_take]; omega
  rcases hi with hi | hi
  · rw [List.append_assoc, List.getElem?_append_left (by omega), List.getElem?_take_of_lt hi]
  · rw [List.getElem?_append_right (by simp; omega), List.getElem?_drop]
    congr 1; simp only [List.length_append, hl]; omega

theorem blit_other {buf d : List Nat} {o a n : Nat} (h : o + d.length ≤ buf.length) (ha : a + n ≤ o ∨ o + d.length ≤ a) :
    ((blit buf o d).drop a).take n = (buf.drop a).take n := by
  apply List.ext_getElem?
  intro i
  by_cases hi : i < n
  · rw [List.getElem?_take_of_lt hi, List.getElem?_take_of_lt hi, List.getElem?_drop, List.getElem?_drop, blit_get h (by omega)]
  · rw [List.getElem?_take_eq_none (by omega), List.getElem?_take_eq_none (by omega)]

end Verif.Ntp6
