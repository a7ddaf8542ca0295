import Verif.Ntp7.Spec
import Mathlib.Tactic.Linarith

/-!
# Lemmas about packets and buffers of the mode 7 client
-/

set_option linter.unusedSimpArgs false
set_option linter.unusedVariables false

namespace Verif.Ntp7

/-! ## Headers -/

theorem head_length (m : Msg) (n : Nat) : (m.head n).length = 8 := by simp [Msg.head, w16]

theorem check_head {m : Msg} {n : Nat} (rest : List Nat) (hf : m.Fits) (hn : n < 4096) :
    check (m.head n ++ rest) m.code = true := by
  obtain ⟨h1, h2, h3, h4, h5, h6⟩ := hf
  cases hm : m.more <;>
    simp [check, Msg.head, w16, u8, u16, version, mode, isAuth, isResponse, mbzOf, hm] <;>
    omega

theorem fields_head {m : Msg} {n : Nat} (rest : List Nat) (hf : m.Fits) (hn : n < 4096) :
    errOf (m.head n ++ rest) = m.err ∧ itemsOf (m.head n ++ rest) = n ∧ sizeOf_ (m.head n ++ rest) = m.size ∧
      seqOf (m.head n ++ rest) = m.seq ∧ isMore (m.head n ++ rest) = m.more := by
  obtain ⟨h1, h2, h3, h4, h5, h6⟩ := hf
  cases hm : m.more <;>
    simp [errOf, itemsOf, sizeOf_, seqOf, isMore, Msg.head, w16, u8, u16, hm] <;>
    omega

theorem about_of_check {b : List Nat} {code : Nat} (hb : ∀ x ∈ b, x < 256) (h : check b code = true) : About code b := by
  match b, hb, h with
  | [], _, h => simp [check] at h
  | [_], _, h => simp [check] at h
  | [_, _], _, h => simp [check] at h
  | [_, _, _], _, h => simp [check] at h
  | [_, _, _, _], _, h => simp [check] at h
  | [_, _, _, _, _], _, h => simp [check] at h
  | [_, _, _, _, _, _], _, h => simp [check] at h
  | [_, _, _, _, _, _, _], _, h => simp [check] at h
  | b0 :: b1 :: b2 :: b3 :: b4 :: b5 :: b6 :: b7 :: r, hb, h =>
    simp only [List.mem_cons, forall_eq_or_imp] at hb
    obtain ⟨g0, g1, g2, g3, g4, g5, g6, g7, -⟩ := hb
    simp [check, u8, u16, version, mode, isAuth, isResponse, mbzOf] at h
    obtain ⟨⟨⟨⟨⟨⟨⟨h1, h2⟩, h3⟩, h4⟩, h5⟩, h6⟩, h7⟩, h8⟩ := h
    refine ⟨{ version := b0 / 8 % 8, more := b0 / 64 % 2 = 1, seq := b1, code := code, err := (b4 * 256 + b5) / 4096,
              size := b6 * 256 + b7 }, (b4 * 256 + b5) % 4096, r, ?_, rfl, ?_, ?_⟩
    · refine ⟨?_, ?_, ?_, ?_, ?_, ?_⟩ <;> simp <;> omega
    · omega
    · simp only [Msg.head, w16, List.cons_append, List.nil_append, List.cons.injEq, and_true]
      refine ⟨?_, trivial, h7, h8, ?_, ?_, ?_, ?_⟩
      · by_cases hm : b0 / 64 % 2 = 1
        · simp [hm]; omega
        · simp [hm]; omega
      all_goals omega

theorem foreign {b : List Nat} {code : Nat} (hb : ∀ x ∈ b, x < 256) (h : ¬ About code b) : check b code = false := by
  cases hc : check b code with
  | false => rfl
  | true => exact absurd (about_of_check hb hc) h

/-! ## Buffers -/

theorem blit_length {buf : List Nat} {o : Nat} {d : List Nat} (h : o + d.length ≤ buf.length) :
    (blit buf o d).length = buf.length := by
  simp [blit]; omega

theorem blit_nil (buf : List Nat) (o : Nat) : blit buf o [] = buf := by simp [blit]

theorem blit_blit {buf : List Nat} {o : Nat} {x y : List Nat} (h : o + x.length ≤ buf.length) :
    blit (blit buf o x) (o + x.length) y = blit buf o (x ++ y) := by
  have h1 : (buf.take o ++ x).length = o + x.length := by simp; omega
  unfold blit
  rw [List.take_append_of_le_length (by omega), ← h1, List.take_length, List.drop_append, h1]
  rw [List.drop_eq_nil_of_le (by simp; omega)]
  simp [List.drop_drop, Nat.add_assoc, Nat.add_comm]

theorem blit_take {buf : List Nat} {d : List Nat} (h : d.length ≤ buf.length) :
    blit buf 0 d = d ++ buf.drop d.length := by
  simp [blit]

theorem copy_items {size pad : Nat} (post : List Nat) : ∀ (items : List (List Nat)) (pre : List Nat) (pos : Nat) (buf : List Nat),
    (∀ x ∈ items, x.length = size) → pos + items.length * (size + pad) ≤ buf.length →
    copyItems (pre ++ items.flatten ++ post) size pad items.length pre.length pos buf =
      .ok (blit buf pos ((items.map (fun x => x ++ List.replicate pad 0)).flatten))
  | [], pre, pos, buf, _, _ => by simp [copyItems, blit_nil]
  | x :: items, pre, pos, buf, hs, hp => by
    have hx : x.length = size := hs x (by simp)
    have hlen : ((x :: items).length) * (size + pad) = items.length * (size + pad) + (size + pad) := by
      simp [Nat.add_mul]
    rw [hlen] at hp
    have hl : (x ++ List.replicate pad 0).length = size + pad := by simp [hx]
    have hr : (((pre ++ (x :: items).flatten ++ post).drop pre.length).take size) = x := by
      simp [← hx]
    rw [List.length_cons]
    unfold copyItems
    rw [if_neg (by simp [hx]), if_neg (by omega), hr]
    have ih := copy_items (size := size) (pad := pad) post items (pre ++ x) (pos + (size + pad))
      (blit buf pos (x ++ List.replicate pad 0)) (fun y hy => hs y (by simp [hy]))
      (by rw [blit_length (by omega)]; omega)
    have e1 : pre ++ x ++ items.flatten ++ post = pre ++ (x :: items).flatten ++ post := by simp
    rw [e1, List.length_append, hx] at ih
    rw [ih, ← hl, blit_blit (by omega)]
    simp

/-- The copy stays inside both arrays when the tests before it have passed. -/
theorem copy_ok (b : List Nat) (size pad : Nat) : ∀ (n r pos : Nat) (buf : List Nat),
    r + n * size ≤ b.length → pos + n * (size + pad) ≤ buf.length →
    ∃ buf', copyItems b size pad n r pos buf = .ok buf' ∧ buf'.length = buf.length
  | 0, r, pos, buf, _, _ => ⟨buf, rfl, rfl⟩
  | n + 1, r, pos, buf, h1, h2 => by
    rw [Nat.add_mul, Nat.one_mul] at h1 h2
    unfold copyItems
    have hl : ((b.drop r).take size ++ List.replicate pad 0).length = size + pad := by simp; omega
    rw [if_neg (by omega), if_neg (by omega)]
    obtain ⟨buf', h3, h4⟩ := copy_ok b size pad n (r + size) (pos + (size + pad))
      (blit buf pos ((b.drop r).take size ++ List.replicate pad 0)) (by omega) (by rw [blit_length (by omega)]; omega)
    exact ⟨buf', h3, by rw [h4, blit_length (by omega)]⟩

/-! ## One message -/

theorem pad_eq (size req : Nat) : (if size < req then req - size else 0) = req - size := by split <;> omega

theorem take_msg {m : Msg} {req : Nat} {s : Rs} (hf : m.Fits) (hs : m.Sized)
    (hroom : s.pos + m.items.length * (m.size + (req - m.size)) ≤ s.buf.length) :
    take req s m.bytes = .stored { count := s.count + 1, last := if m.more then s.last else m.seq, pos := s.pos + m.items.length * (m.size + (req - m.size)), items := s.items + m.items.length, buf := blit s.buf s.pos ((m.items.map (fillUp req)).flatten) } := by
  have hb : m.bytes = m.head m.items.length ++ (m.items.flatten ++ m.pad) := by simp [Msg.bytes]
  obtain ⟨f1, f2, f3, f4, f5⟩ := fields_head (m.items.flatten ++ m.pad) hf hs.1
  rw [← hb] at f1 f2 f3 f4 f5
  have hc := copy_items (size := m.size) (pad := req - m.size) m.pad m.items (m.head m.items.length) s.pos s.buf hs.2 hroom
  rw [head_length] at hc
  change copyItems m.bytes m.size (req - m.size) m.items.length 8 s.pos s.buf = _ at hc
  unfold take
  simp only [f2, f3, f4, f5, pad_eq]
  rw [if_neg (by omega), hc]
  have hm : m.items.map (fun x => x ++ List.replicate (req - m.size) 0) = m.items.map (fillUp req) := by
    apply List.map_congr_left
    intro x hx
    simp [fillUp, hs.2 x hx]
  rw [hm]

theorem flatten_sized {items : List (List Nat)} {n : Nat} (h : ∀ x ∈ items, x.length = n) :
    items.flatten.length = items.length * n := by
  induction items with
  | nil => simp
  | cons x l ih =>
    simp [Nat.add_mul, h x (by simp), ih (fun y hy => h y (by simp [hy]))]
    omega

theorem on_msg {m : Msg} {code req : Nat} {s : Rs} (hf : m.Fits) (hs : m.Sized) (hc : m.code = code) (he : m.err = 0)
    (hsize : s.count = 0 ∨ m.size ≤ req) (hlast : m.more = true ∨ 127 < s.last) :
    onPacket code req s m.bytes = take req s m.bytes := by
  have hb : m.bytes = m.head m.items.length ++ (m.items.flatten ++ m.pad) := by simp [Msg.bytes]
  obtain ⟨f1, f2, f3, f4, f5⟩ := fields_head (m.items.flatten ++ m.pad) hf hs.1
  have hchk := check_head (m.items.flatten ++ m.pad) hf hs.1
  rw [← hb] at f1 f2 f3 f4 f5 hchk
  have hl : m.bytes.length = 8 + (m.items.length * m.size + m.pad.length) := by
    rw [hb]; simp only [List.length_append, head_length, flatten_sized hs.2]
  unfold onPacket
  rw [← hc, hchk, if_neg (by simp), f1, f2, f3, f5, if_neg (by simp [he]), if_neg (by omega)]
  rw [if_neg, if_neg]
  · rcases hlast with h | h
    · simp [h]
    · simp; intro _; omega
  · rcases hsize with h | h
    · simp [h]
    · simp; intro _; omega

end Verif.Ntp7
