import Verif.TxCache.Spec
import Mathlib.Data.List.Nodup
import Mathlib.Data.List.Induction

set_option linter.unusedSimpArgs false
set_option linter.unusedVariables false

/-! # Lemmas on the cache of transmit timestamps -/

namespace Verif.TxCache

/-- The bit of a slot. -/
def bit (x : BitVec 32) (s : Nat) : Bool := x.getLsbD (31 - s)

/-- The slot holds a request. -/
def Cache.busy (c : Cache) (s : Nat) : Bool := decide (s < 32) && !bit c.free s

theorem bit_slotBit {s i : Nat} (hs : s < 32) (hi : i < 32) : bit (slotBit s) i = decide (i = s) := by
  have h1 : BitVec.getLsbD (1#32) (31 - i - (31 - s)) = decide (31 - i - (31 - s) = 0) := by
    simp only [BitVec.getLsbD_ofNat]
    cases h : 31 - i - (31 - s) with
    | zero => rfl
    | succ n => simp [Nat.testBit_succ]
  unfold bit slotBit
  rw [BitVec.getLsbD_shiftLeft, h1]
  by_cases h : i = s
  · subst h; simp; omega
  · have : ¬ (31 - i < 31 - s ∨ 31 - i = 31 - s) ∨ 31 - i < 31 - s := by omega
    rcases this with h' | h'
    · have : ¬ (31 - i - (31 - s) = 0) := by omega
      simp [h, this]
    · simp [h, h']

theorem bit_or {x : BitVec 32} {s i : Nat} (hs : s < 32) (hi : i < 32) :
    bit (x ||| slotBit s) i = (bit x i || decide (i = s)) := by
  rw [← bit_slotBit hs hi]; simp only [bit, BitVec.getLsbD_or]

theorem bit_clear {x : BitVec 32} {s i : Nat} (hs : s < 32) (hi : i < 32) :
    bit (x &&& ~~~ slotBit s) i = (bit x i && !decide (i = s)) := by
  rw [← bit_slotBit hs hi]
  have : 31 - i < 32 := by omega
  simp only [bit, BitVec.getLsbD_and, BitVec.getLsbD_not, this, decide_true, Bool.true_and]

theorem bit_not {x : BitVec 32} {i : Nat} (hi : i < 32) : bit (~~~ x) i = !bit x i := by
  have : 31 - i < 32 := by omega
  simp only [bit, BitVec.getLsbD_not, this, decide_true, Bool.true_and]

/-- The slots whose bits are set. -/
def bits (x : BitVec 32) : List Nat := (List.range 32).filter (bit x)

theorem clz_head (x : BitVec 32) : clz x = (bits x).head?.getD 32 := by
  unfold clz bits
  rw [List.head?_filter]; rfl

theorem mem_bits {x : BitVec 32} {s : Nat} : s ∈ bits x ↔ s < 32 ∧ bit x s = true := by
  simp [bits]

theorem bits_nodup (x : BitVec 32) : (bits x).Nodup := List.Nodup.filter _ List.nodup_range

theorem eq_zero_iff {x : BitVec 32} : x = 0 ↔ ∀ s < 32, bit x s = false := by
  constructor
  · rintro rfl s hs
    exact show BitVec.getLsbD (0 : BitVec 32) (31 - s) = false from BitVec.getLsbD_zero
  · intro h
    apply BitVec.eq_of_getLsbD_eq
    intro i hi
    have := h (31 - i) (by omega)
    unfold bit at this
    rw [show 31 - (31 - i) = i by omega] at this
    rw [this]
    exact (show BitVec.getLsbD (0 : BitVec 32) i = false from BitVec.getLsbD_zero).symm

theorem bits_ne_nil {x : BitVec 32} (h : x ≠ 0) : bits x ≠ [] := by
  intro hb
  apply h
  rw [eq_zero_iff]
  intro s hs
  cases hbit : bit x s with
  | false => rfl
  | true => exact absurd (mem_bits.2 ⟨hs, hbit⟩) (by rw [hb]; simp)

theorem bits_zero : bits 0 = [] := by
  rw [List.eq_nil_iff_forall_not_mem]
  intro s hs
  have := mem_bits.1 hs
  rw [eq_zero_iff.1 rfl s this.1] at this
  simp at this

theorem bits_tail {x : BitVec 32} {s : Nat} {l : List Nat} (h : bits x = s :: l) :
    bits (x &&& ~~~ slotBit s) = l := by
  have hs : s < 32 := (mem_bits.1 (by rw [h]; simp : s ∈ bits x)).1
  have hn := bits_nodup x
  rw [h] at hn
  have h1 : bits (x &&& ~~~ slotBit s) = (bits x).filter (fun i => !decide (i = s)) := by
    unfold bits
    rw [List.filter_filter]
    apply List.filter_congr
    intro i hi
    rw [bit_clear hs (List.mem_range.1 hi), Bool.and_comm]
  rw [h1, h, List.filter_cons_of_neg (by simp)]
  rw [List.filter_eq_self]
  intro i hi
  have := (List.nodup_cons.1 hn).1
  simp
  rintro rfl
  exact this hi

theorem slotsFrom_eq (n : Nat) (x : BitVec 32) : slotsFrom n x = (bits x).take n := by
  induction n generalizing x with
  | zero => simp [slotsFrom]
  | succ n ih =>
    unfold slotsFrom
    by_cases hx : x = 0
    · rw [if_pos hx, hx, bits_zero]; rfl
    · rw [if_neg hx]
      cases hb : bits x with
      | nil => exact absurd hb (bits_ne_nil hx)
      | cons s l =>
        have hc : clz x = s := by rw [clz_head, hb]; rfl
        rw [hc, ih, bits_tail hb]; rfl

theorem slots_eq (c : Cache) : c.slots = (List.range 32).filter c.busy := by
  unfold Cache.slots
  rw [slotsFrom_eq, List.take_of_length_le]
  · unfold bits
    apply List.filter_congr
    intro i hi
    have := List.mem_range.1 hi
    rw [bit_not this]; simp [Cache.busy, this]
  · exact Nat.le_trans (List.length_filter_le _ _) (by simp)

theorem mem_slots {c : Cache} {s : Nat} : s ∈ c.slots ↔ c.busy s = true := by
  rw [slots_eq]; simp [Cache.busy]

theorem slots_nodup (c : Cache) : c.slots.Nodup := by
  rw [slots_eq]; exact List.Nodup.filter _ List.nodup_range

theorem busy_lt {c : Cache} {s : Nat} (h : c.busy s = true) : s < 32 := by
  simp [Cache.busy] at h; exact h.1

theorem clz_free {x : BitVec 32} (h : x ≠ 0) : clz x < 32 ∧ bit x (clz x) = true := by
  cases hb : bits x with
  | nil => exact absurd hb (bits_ne_nil h)
  | cons s l =>
    have hc : clz x = s := by rw [clz_head, hb]; rfl
    rw [hc]
    exact mem_bits.1 (by rw [hb]; simp)

/-- Freeing a slot. -/
theorem busy_or {c c' : Cache} {s i : Nat} (hs : s < 32) (h : c'.free = c.free ||| slotBit s) :
    c'.busy i = (c.busy i && !decide (i = s)) := by
  unfold Cache.busy
  by_cases hi : i < 32
  · rw [h, bit_or hs hi]; simp [hi]
  · simp [hi]

/-- Filling a slot. -/
theorem busy_clear {c c' : Cache} {s i : Nat} (hs : s < 32)
    (h : c'.free = c.free &&& ~~~ slotBit s) : c'.busy i = (c.busy i || decide (i = s)) := by
  unfold Cache.busy
  by_cases hi : i < 32
  · rw [h, bit_clear hs hi]; simp [hi]
  · simp [hi]; omega

/-! ## Matching -/

theorem matchPdu_iff {p : Pkt} {pkt : List Nat} :
    matchPdu p pkt = true ↔ ∃ a b, pkt = a ++ p.data ++ b ∧ b.length = p.trailer := by
  unfold matchPdu
  constructor
  · intro h
    by_cases hl : pkt.length < p.data.length + p.trailer
    · rw [if_pos hl] at h; simp at h
    · rw [if_neg hl] at h
      have h := eq_of_beq h
      refine ⟨pkt.take (pkt.length - p.data.length - p.trailer),
        (pkt.drop (pkt.length - p.data.length - p.trailer)).drop p.data.length, ?_, ?_⟩
      · conv_rhs => rw [List.append_assoc]
        conv_rhs => enter [2, 1]; rw [← h]
        rw [List.take_append_drop, List.take_append_drop]
      · simp; omega
  · rintro ⟨a, b, rfl, hb⟩
    rw [if_neg (by simp; omega)]
    have : (a ++ p.data ++ b).length - p.data.length - p.trailer = a.length := by simp; omega
    rw [this]
    simp [List.append_assoc]

theorem match_none {c : Cache} {pkt : List Nat} {now : Int}
    (h : ∀ s, c.busy s = true → matchPdu (c.packet s) pkt = false) : c.match pkt now = (c, none) := by
  unfold Cache.match
  rw [List.find?_eq_none.2]
  intro s hs
  rw [h s (mem_slots.1 hs)]; simp

/-- The two cases of a search of the cache. -/
theorem match_cases (c : Cache) (pkt : List Nat) (now : Int) :
    (c.match pkt now = (c, none) ∧ ∀ s, c.busy s = true → matchPdu (c.packet s) pkt = false) ∨
    ∃ s, c.busy s = true ∧ matchPdu (c.packet s) pkt = true ∧
      c.match pkt now = ({ c with
        free := c.free ||| slotBit s
        lastSat := if c.lastSat ≤ (c.packet s).sent then (c.packet s).sent else c.lastSat
        stats := c.stats.resolve (now - (c.packet s).sent) },
        some (⟨s, (c.packet s).seq % 4294967296⟩, (c.packet s).user)) := by
  cases h : c.slots.find? fun s => matchPdu (c.packet s) pkt with
  | none =>
    left
    refine ⟨by unfold Cache.match; rw [h], fun s hs => ?_⟩
    have := List.find?_eq_none.1 h s (mem_slots.2 hs)
    simpa using this
  | some s =>
    right
    refine ⟨s, mem_slots.1 (List.mem_of_find?_eq_some h), ?_, by unfold Cache.match; rw [h]⟩
    exact List.find?_some (p := fun s => matchPdu (c.packet s) pkt) h

/-- A search with one candidate. -/
theorem match_some {c : Cache} {pkt : List Nat} {now : Int} {s : Nat} (hs : c.busy s = true)
    (hm : matchPdu (c.packet s) pkt = true)
    (h : ∀ i, i ≠ s → c.busy i = true → matchPdu (c.packet i) pkt = false) :
    (c.match pkt now).2 = some (⟨s, (c.packet s).seq % 4294967296⟩, (c.packet s).user) := by
  rcases match_cases c pkt now with ⟨_, h0⟩ | ⟨i, hi, hmi, heq⟩
  · rw [h0 s hs] at hm; simp at hm
  · by_cases his : i = s
    · rw [heq, his]
    · rw [h i his hi] at hmi; simp at hmi

/-! ## The check -/

theorem alarmSlot_off (now : Int) (c : Cache) (s : Nat) : alarmSlot now (c, .off) s = (c, .off) := by
  unfold alarmSlot; rw [if_neg]; simp [Tristate.val]

/-- The requests dropped by a check. -/
def Cache.dropped (c : Cache) (port : Nat) (now : Int) (s : Nat) : Bool :=
  decide ((c.packet s).user.port = port) && decide (10 * second ≤ now - (c.packet s).sent)

theorem checkSlot_off (port : Nat) (now : Int) (c : Cache) (s : Nat) :
    checkSlot port now (c, .off) s =
      (if c.dropped port now s then
        { c with free := c.free ||| slotBit s
                 stats := { c.stats with evicted := c.stats.evicted + 1 } } else c, .off) := by
  unfold checkSlot Cache.dropped
  by_cases h : (c.packet s).user.port = port
  · simp only [h, if_true, alarmSlot_off, decide_true, Bool.true_and]
    unfold evictSlot
    by_cases h2 : 10 * second ≤ now - (c.packet s).sent <;> simp [h2]
  · simp [h]

theorem countP_one {p q : Nat → Bool} {s : Nat} (l : List Nat) (hn : l.Nodup) (hs : s ∈ l)
    (hp : p s = true) (hq : q s = false) (h : ∀ i ∈ l, i ≠ s → p i = q i) :
    l.countP p = l.countP q + 1 := by
  induction l with
  | nil => simp at hs
  | cons a l ih =>
    have hn' := List.nodup_cons.1 hn
    by_cases ha : a = s
    · subst ha
      have : l.countP p = l.countP q :=
        List.countP_congr fun i hi => by
          rw [h i (by simp [hi]) (by rintro rfl; exact hn'.1 hi)]
      rw [List.countP_cons, List.countP_cons, hp, hq, this]; simp
    · have := ih hn'.2 (by simpa [Ne.symm ha] using hs) (fun i hi => h i (by simp [hi]))
      rw [List.countP_cons, List.countP_cons, this, h a (by simp) ha]; omega

/-- The number of requests in the cache. -/
def Cache.pending (c : Cache) : Nat := (List.range 32).countP c.busy

theorem pending_or {c c' : Cache} {s : Nat} (hb : c.busy s = true)
    (h : c'.free = c.free ||| slotBit s) : c.pending = c'.pending + 1 := by
  have hs := busy_lt hb
  apply countP_one (s := s) _ List.nodup_range (by simpa using hs) hb
  · rw [busy_or hs h]; simp
  · intro i _ hi; rw [busy_or hs h]; simp [hi]

theorem pending_clear {c c' : Cache} {s : Nat} (hs : s < 32) (hb : c.busy s = false)
    (h : c'.free = c.free &&& ~~~ slotBit s) : c'.pending = c.pending + 1 := by
  apply countP_one (s := s) _ List.nodup_range (by simpa using hs)
  · rw [busy_clear hs h]; simp
  · exact hb
  · intro i _ hi; rw [busy_clear hs h]; simp [hi]

/-- The check, over any of the slots. -/
theorem check_fold (port : Nat) (now : Int) (l : List Nat) (c : Cache) (hn : l.Nodup)
    (hb : ∀ s ∈ l, c.busy s = true) :
    ∃ c', l.foldl (checkSlot port now) (c, .off) = (c', .off) ∧ c'.packet = c.packet ∧
      c'.seq = c.seq ∧ c'.lastSat = c.lastSat ∧
      (∀ i, c'.busy i = (c.busy i && !(decide (i ∈ l) && c.dropped port now i))) ∧
      c'.stats.evicted + c'.pending = c.stats.evicted + c.pending ∧
      c'.stats.total = c.stats.total ∧ c'.stats.resolved = c.stats.resolved := by
  induction l generalizing c with
  | nil => exact ⟨c, rfl, rfl, rfl, rfl, by simp, rfl, rfl, rfl⟩
  | cons s l ih =>
    have hn' := List.nodup_cons.1 hn
    have hbs := hb s (by simp)
    rw [List.foldl_cons, checkSlot_off]
    by_cases hd : c.dropped port now s = true
    · rw [if_pos hd]
      obtain ⟨c', h1, h2, h3, h4, h5, h6, h7, h8⟩ := ih { c with
          free := c.free ||| slotBit s
          stats := { c.stats with evicted := c.stats.evicted + 1 } } hn'.2 (by
        intro i hi
        rw [busy_or (c := c) (busy_lt hbs) rfl, hb i (by simp [hi])]
        have : i ≠ s := by rintro rfl; exact hn'.1 hi
        simp [this])
      refine ⟨c', h1, h2, h3, h4, ?_, ?_, h7, h8⟩
      · intro i
        rw [h5, busy_or (c := c) (busy_lt hbs) rfl]
        by_cases his : i = s
        · subst his; simp [hd]
        · have : Cache.dropped { c with
              free := c.free ||| slotBit s
              stats := { c.stats with evicted := c.stats.evicted + 1 } } port now i
              = c.dropped port now i := rfl
          rw [this]; simp [his]
      · rw [h6, pending_or (c := c) hbs (c' := { c with
          free := c.free ||| slotBit s
          stats := { c.stats with evicted := c.stats.evicted + 1 } }) rfl]
        simp only; omega
    · rw [if_neg hd]
      obtain ⟨c', h1, h2, h3, h4, h5, h6⟩ := ih c hn'.2 (fun i hi => hb i (by simp [hi]))
      refine ⟨c', h1, h2, h3, h4, ?_, h6⟩
      intro i
      rw [h5]
      by_cases his : i = s
      · subst his; simp [hd]
      · simp [his]

theorem check_spec (c : Cache) (port : Nat) (now : Int) :
    ∃ c', c.check port now = (c', .off) ∧ c'.packet = c.packet ∧ c'.seq = c.seq ∧
      c'.lastSat = c.lastSat ∧
      (∀ i, c'.busy i = (c.busy i && !c.dropped port now i)) ∧
      c'.stats.evicted + c'.pending = c.stats.evicted + c.pending ∧
      c'.stats.total = c.stats.total ∧ c'.stats.resolved = c.stats.resolved := by
  obtain ⟨c', h1, h2, h3, h4, h5, h6⟩ := check_fold port now c.slots c (slots_nodup c)
    (fun s hs => mem_slots.1 hs)
  refine ⟨c', h1, h2, h3, h4, fun i => ?_, h6⟩
  rw [h5]
  cases hb : c.busy i with
  | false => simp
  | true => simp [mem_slots, hb]

/-! ## Requests -/

theorem oldest_fold (q : Nat) (l : List Nat) (a : Nat × Nat) (ha : a.2 = 0) (hq : a.1 ≤ q) :
    (l.foldl (fun (a : Nat × Nat) slot => if q < a.1 then (q, slot) else a) a).2 = 0 := by
  induction l generalizing a with
  | nil => exact ha
  | cons s l ih =>
    rw [List.foldl_cons, if_neg (by omega)]
    exact ih a ha hq

/-- The slot found is always the first. -/
theorem oldestSlot_zero (c : Cache) : oldestSlot c = 0 := by
  unfold oldestSlot
  have : List.range 32 = 0 :: (List.range 31).map (· + 1) := by decide
  rw [this, List.foldl_cons]
  by_cases h : (c.packet 0).seq < 18446744073709551615
  · rw [if_pos h]
    exact oldest_fold _ _ _ rfl (Nat.le_refl _)
  · rw [if_neg h]
    exact oldest_fold _ _ _ rfl (by omega)

theorem busy_of_zero {c : Cache} (h : c.free = 0) {s : Nat} (hs : s < 32) : c.busy s = true := by
  simp [Cache.busy, hs, eq_zero_iff.1 h s hs]

theorem room (c : Cache) : c.makeRoom.1.free ≠ 0 := by
  unfold Cache.makeRoom
  by_cases h : c.free = 0
  · rw [if_pos h]
    intro h0
    have := eq_zero_iff.1 h0 0 (by omega)
    rw [oldestSlot_zero] at this
    simp only at this
    rw [bit_or (by omega) (by omega)] at this
    simp at this
  · rw [if_neg h]; exact h

/-- A request with no eviction. -/
theorem expect_room {c : Cache} (h : c.free ≠ 0) (user : User) (pdu : List Nat) (tr : Nat)
    (now : Int) : c.expect user pdu tr now =
      ((c.store user pdu tr now).1, (c.store user pdu tr now).2, false) := by
  unfold Cache.expect Cache.makeRoom; rw [if_neg h]

/-- What a request does. -/
theorem expect_spec (c : Cache) (user : User) (pdu : List Nat) (tr : Nat) (now : Int) :
    ∃ s, s < 32 ∧ (c.expect user pdu tr now).2.1 = ⟨s, c.seq % 4294967296⟩ ∧
      (c.expect user pdu tr now).1.packet =
        put c.packet s ⟨pdu.take 54, tr, user, now, c.seq, false⟩ ∧
      (∀ i, (c.expect user pdu tr now).1.busy i = (c.busy i || decide (i = s))) ∧
      ((c.expect user pdu tr now).2.2 = true ↔ c.free = 0) ∧
      (c.free = 0 → s = 0) ∧ (c.free ≠ 0 → c.busy s = false) := by
  have hr := room c
  have hc := clz_free hr
  have hst : c.makeRoom.1.packet = c.packet ∧ c.makeRoom.1.seq = c.seq := by
    unfold Cache.makeRoom; split <;> exact ⟨rfl, rfl⟩
  by_cases h : c.free = 0
  · have hmf : c.makeRoom.1.free = c.free ||| slotBit 0 := by
      unfold Cache.makeRoom; rw [if_pos h, oldestSlot_zero]
    have hclz : clz c.makeRoom.1.free = 0 := by
      rw [hmf, h]; decide
    refine ⟨0, by omega, ?_, ?_, ?_, ?_, fun _ => rfl, fun h' => absurd h h'⟩
    · unfold Cache.expect Cache.store; simp only [hclz, hst.2]
    · unfold Cache.expect Cache.store; simp only [hclz, hst.1, hst.2]; rfl
    · intro i
      have : (c.expect user pdu tr now).1.free = c.makeRoom.1.free &&& ~~~ slotBit 0 := by
        unfold Cache.expect Cache.store; simp only [hclz]
      rw [busy_clear (c := c.makeRoom.1) (by omega) this, busy_or (c := c) (by omega) hmf]
      by_cases hi : i = 0
      · simp [hi]
      · simp [hi]
    · unfold Cache.expect Cache.makeRoom; simp [h]
  · have hm : c.makeRoom = (c, false) := by unfold Cache.makeRoom; rw [if_neg h]
    rw [hm] at hc
    refine ⟨clz c.free, hc.1, ?_, ?_, ?_, ?_, fun h' => absurd h' h, fun _ => ?_⟩
    · rw [expect_room h]; rfl
    · rw [expect_room h]; rfl
    · intro i
      rw [expect_room h]
      exact busy_clear (c := c) hc.1 rfl
    · rw [expect_room h]; exact ⟨fun h' => absurd h' (by simp), fun h' => absurd h' h⟩
    · simp [Cache.busy, hc.2]

theorem put_same (f : Nat → Pkt) (s : Nat) (p : Pkt) : put f s p s = p := by simp [put]
theorem put_ne (f : Nat → Pkt) {s i : Nat} (p : Pkt) (h : i ≠ s) : put f s p i = f i := by
  simp [put, h]

theorem put2_same {A : Type} (f : Nat → Kind → A) (p : Nat) (k : Kind) (a : A) :
    put2 f p k a p k = a := by simp [put2]
theorem put2_ne {A : Type} (f : Nat → Kind → A) {p p' : Nat} {k k' : Kind} (a : A)
    (h : ¬ (p' = p ∧ k' = k)) : put2 f p k a p' k' = f p' k' := by simp only [put2, if_neg h]

/-! ## Runs -/

theorem run_append (s : State) (a b : List Event) :
    run s (a ++ b) = ((run (run s a).1 b).1, (run s a).2 ++ (run (run s a).1 b).2) := by
  induction a generalizing s with
  | nil => simp [run]
  | cons e es ih => simp [run, ih]

theorem run_snoc (s : State) (a : List Event) (e : Event) :
    run s (a ++ [e]) = ((step (run s a).1 e).1, (run s a).2 ++ [(e, (step (run s a).1 e).2)]) := by
  rw [run_append]; rfl

theorem run_events (s : State) (es : List Event) : (run s es).2.map Prod.fst = es := by
  induction es generalizing s with
  | nil => rfl
  | cons e es ih => simp [run, ih]

/-- A run whose outcomes divide so divides so. -/
theorem run_split {s : State} {es : List Event} {a b : List (Event × Out)} {e : Event} {o : Out}
    (h : (run s es).2 = a ++ (e, o) :: b) :
    ∃ xs ys, es = xs ++ e :: ys ∧ (run s xs).2 = a ∧ o = (step (run s xs).1 e).2 ∧
      (run (step (run s xs).1 e).1 ys).2 = b := by
  induction es generalizing s a with
  | nil => simp [run] at h
  | cons x es ih =>
    simp only [run] at h
    cases a with
    | nil =>
      simp only [List.nil_append, List.cons.injEq, Prod.mk.injEq] at h
      obtain ⟨⟨rfl, rfl⟩, h2⟩ := h
      exact ⟨[], es, rfl, rfl, rfl, h2⟩
    | cons y a =>
      simp only [List.cons_append, List.cons.injEq] at h
      obtain ⟨rfl, h2⟩ := h
      obtain ⟨xs, ys, rfl, h3, h4, h5⟩ := ih h2
      exact ⟨x :: xs, ys, rfl, by simp [run, h3], h4, h5⟩

/-! ## Steps -/

theorem process_cases (s : State) (t : Ticket) (u : User) (ts : Int) :
    (s.ticket u.port u.kind = some t ∧ u.seqId = s.seqId u.port u.kind u.seqId ∧
      s.process t u ts = ({ s with alarm := put1 s.alarm u.port false
                                   ticket := put2 s.ticket u.port u.kind none },
        .stamp u.port u.kind u.seqId ts)) ∨
    s.process t u ts = (s, .discard) := by
  unfold State.process
  by_cases h : s.ticket u.port u.kind = some t ∧ u.seqId = s.seqId u.port u.kind u.seqId
  · left; exact ⟨h.1, h.2, by rw [if_pos h]⟩
  · right; rw [if_neg h]

theorem match_packet (c : Cache) (pkt : List Nat) (now : Int) :
    (c.match pkt now).1.packet = c.packet := by
  rcases match_cases c pkt now with ⟨h, _⟩ | ⟨s, _, _, h⟩ <;> rw [h]

theorem process_lastId (s : State) (t : Ticket) (u : User) (ts : Int) :
    (s.process t u ts).1.lastId = s.lastId := by
  rcases process_cases s t u ts with ⟨_, _, h⟩ | h <;> rw [h]

theorem process_cache (s : State) (t : Ticket) (u : User) (ts : Int) :
    (s.process t u ts).1.cache = s.cache := by
  rcases process_cases s t u ts with ⟨_, _, h⟩ | h <;> rw [h]

theorem step_packet (s : State) (e : Event) (h : e.isSend = false) :
    (step s e).1.cache.packet = s.cache.packet := by
  cases e with
  | send => simp [Event.isSend] at h
  | attempt p k => simp only [step, State.number]; split <;> rfl
  | tx pkt now ts =>
    simp only [step]
    rw [← match_packet s.cache pkt now]
    split
    · rfl
    · rfl
    · rw [process_cache]
  | loop pkt now v =>
    simp only [step]
    rw [← match_packet s.cache pkt now]
    split
    · rfl
    · rw [process_cache]
  | check p now =>
    obtain ⟨c', h1, h2, _⟩ := check_spec s.cache p now
    simp only [step, h1]; exact h2
  | reinit p => rfl
  | report => rfl

theorem number_lastId (s : State) (p p' : Nat) (k k' : Kind) :
    (s.number p k).lastId p' k' =
      if k'.counted && (decide (p = p') && decide (k = k')) then (s.lastId p' k' + 1) % 65536
      else s.lastId p' k' := by
  unfold State.number
  by_cases hc : k.counted = true
  · rw [if_pos hc]
    by_cases h : p' = p ∧ k' = k
    · obtain ⟨rfl, rfl⟩ := h
      simp [put2_same, hc]
    · have : ¬ (p = p' ∧ k = k') := fun h' => h ⟨h'.1.symm, h'.2.symm⟩
      simp only [put2_ne _ _ h]
      rw [if_neg]; simp; intro _ h1 h2; exact this ⟨h1, h2⟩
  · rw [if_neg hc, if_neg]
    simp; intro h1 _ h2; rw [← h2] at h1; exact hc h1

theorem step_ids (s : State) (e : Event) (p : Nat) (k : Kind) :
    (step s e).1.lastId p k =
      if k.counted && e.numbers p k then (s.lastId p k + 1) % 65536 else s.lastId p k := by
  cases e with
  | send p' k' r pdu tl now =>
    have : (step s (.send p' k' r pdu tl now)).1.lastId = (s.number p' k').lastId := rfl
    rw [this, number_lastId]; rfl
  | attempt p' k' =>
    have : (step s (.attempt p' k')).1.lastId = (s.number p' k').lastId := rfl
    rw [this, number_lastId]; rfl
  | tx pkt now ts =>
    simp only [step, Event.numbers, Bool.and_false, Bool.false_eq_true, if_false]
    split
    · rfl
    · rfl
    · rw [process_lastId]
  | loop pkt now v =>
    simp only [step, Event.numbers, Bool.and_false, Bool.false_eq_true, if_false]
    split
    · rfl
    · rw [process_lastId]
  | check p' now => simp [step, Event.numbers]
  | reinit p' => simp [step, Event.numbers]
  | report => simp [step, Event.numbers]

theorem process_ticket {s : State} {t : Ticket} {u : User} {ts : Int} {p : Nat} {k : Kind}
    {t' : Ticket} (h : (s.process t u ts).1.ticket p k = some t') :
    s.ticket p k = some t' ∧ (s.process t u ts).2.stamps p k = false := by
  rcases process_cases s t u ts with ⟨_, _, he⟩ | he
  · rw [he] at h ⊢
    simp only at h
    by_cases hp : p = u.port ∧ k = u.kind
    · obtain ⟨rfl, rfl⟩ := hp
      rw [put2_same] at h; simp at h
    · rw [put2_ne _ _ hp] at h
      refine ⟨h, ?_⟩
      simp only [Out.stamps, Bool.and_eq_false_iff, decide_eq_false_iff_not]
      by_cases h1 : u.port = p
      · right; intro h2; exact hp ⟨h1.symm, h2.symm⟩
      · left; exact h1
  · rw [he] at h ⊢; exact ⟨h, rfl⟩

theorem number_ticket (s : State) (p : Nat) (k : Kind) :
    (s.number p k).ticket = s.ticket ∧ (s.number p k).cache = s.cache ∧
      (s.number p k).alarm = s.alarm := by
  unfold State.number; split <;> exact ⟨rfl, rfl, rfl⟩

theorem step_ticket (s : State) (e : Event) (he : e.isSend = false) {p : Nat} {k : Kind}
    {t : Ticket} (h : (step s e).1.ticket p k = some t) :
    s.ticket p k = some t ∧ e ≠ .reinit p ∧ (step s e).2.stamps p k = false := by
  cases e with
  | send => simp [Event.isSend] at he
  | attempt p' k' =>
    simp only [step, (number_ticket s p' k').1] at h
    exact ⟨h, by simp, rfl⟩
  | tx pkt now ts =>
    simp only [step] at h ⊢
    split at h
    · exact ⟨h, by simp, by rfl⟩
    · exact ⟨h, by simp, by rfl⟩
    · have := process_ticket h
      exact ⟨this.1, by simp, this.2⟩
  | loop pkt now v =>
    simp only [step] at h ⊢
    split at h
    · exact ⟨h, by simp, by rfl⟩
    · have := process_ticket h
      exact ⟨this.1, by simp, this.2⟩
  | check p' now => exact ⟨h, by simp, rfl⟩
  | reinit p' =>
    simp only [step] at h
    by_cases hp : p = p'
    · rw [if_pos hp] at h; simp at h
    · rw [if_neg hp] at h
      exact ⟨h, by simpa using Ne.symm hp, rfl⟩
  | report => exact ⟨h, by simp, rfl⟩

theorem match_busy (c : Cache) (pkt : List Nat) (now : Int) (i : Nat)
    (h : (c.match pkt now).1.busy i = true) : c.busy i = true := by
  rcases match_cases c pkt now with ⟨h0, _⟩ | ⟨s, hs, _, h0⟩
  · rw [h0] at h; exact h
  · rw [h0] at h
    rw [busy_or (c := c) (busy_lt hs) rfl] at h
    simp at h; exact h.1

theorem step_busy (s : State) (e : Event) (he : e.isSend = false) (i : Nat)
    (h : (step s e).1.cache.busy i = true) : s.cache.busy i = true := by
  cases e with
  | send => simp [Event.isSend] at he
  | attempt p' k' =>
    simp only [step, (number_ticket s p' k').2.1] at h
    exact h
  | tx pkt now ts =>
    simp only [step] at h
    split at h
    · exact match_busy _ _ _ _ h
    · exact match_busy _ _ _ _ h
    · rw [process_cache] at h; exact match_busy _ _ _ _ h
  | loop pkt now v =>
    simp only [step] at h
    split at h
    · exact match_busy _ _ _ _ h
    · rw [process_cache] at h; exact match_busy _ _ _ _ h
  | check p' now =>
    obtain ⟨c', h1, _, _, _, h2, _⟩ := check_spec s.cache p' now
    simp only [step, h1] at h
    rw [h2] at h; simp at h; exact h.1
  | reinit p' => exact h
  | report => exact h

/-! ## The invariant -/

/-- A message sent, after `pre`, and what was stored of it. -/
def Stored (pk : Pkt) (pre : List (Event × Out)) (p : Nat) (k : Kind) (r : Nat) (pdu : List Nat)
    (tl : Nat) (now : Int) : Prop :=
  pk.data = pdu.take 54 ∧ pk.trailer = tl ∧ pk.user = ⟨p, k, idOf pre p k r⟩ ∧ pk.sent = now

/-- Nothing since has displaced the message. -/
def Latest (p : Nat) (k : Kind) (mid : List (Event × Out)) : Prop :=
  ∀ x ∈ mid, x.1.sends p k = false ∧ x.1 ≠ .reinit p ∧ x.2.stamps p k = false

/-- Between events, after the trace `tr`. -/
structure Inv (tr : List (Event × Out)) (s : State) : Prop where
  ids : ∀ p k, k.counted = true → s.lastId p k = numberOf tr p k
  tick : ∀ p k t, s.ticket p k = some t → ∃ pre mid r pdu tl now o,
    tr = pre ++ (.send p k r pdu tl now, o) :: mid ∧ Latest p k mid ∧
    ((s.cache.packet t.slot).user.port = p → (s.cache.packet t.slot).user.kind = k →
      Stored (s.cache.packet t.slot) pre p k r pdu tl now ∧
      (s.cache.busy t.slot = true → ∀ x ∈ mid, ∀ u, x.1 = .check p u → u - now < 10 * second))
  busy : ∀ i, s.cache.busy i = true → ∃ pre mid p k r pdu tl now o,
    tr = pre ++ (.send p k r pdu tl now, o) :: mid ∧
    Stored (s.cache.packet i) pre p k r pdu tl now

theorem busy_init (i : Nat) : Cache.init.busy i = false := by
  unfold Cache.busy bit Cache.init
  simp only [BitVec.getLsbD_allOnes]
  by_cases h : i < 32
  · have : 31 - i < 32 := by omega
    simp [this]
  · simp [h]

theorem inv_init : Inv [] .init :=
  ⟨by simp [State.init, numberOf], by simp [State.init], fun i h => by
    have := busy_init i
    simp only [State.init] at h
    rw [this] at h; simp at h⟩

theorem numberOf_snoc (tr : List (Event × Out)) (x : Event × Out) (p : Nat) (k : Kind) :
    numberOf (tr ++ [x]) p k =
      if x.1.numbers p k then (numberOf tr p k + 1) % 65536 else numberOf tr p k := by
  unfold numberOf
  rw [List.countP_append]
  by_cases h : x.1.numbers p k = true
  · simp [h]
  · simp [h]

theorem counted_of (k : Kind) (h1 : k ≠ .pdelayResp) (h2 : k ≠ .monitoringSync) :
    k.counted = true := by
  cases k <;> simp_all [Kind.counted]

theorem counted_idOf {k : Kind} (h : k.counted = true) (pre : List (Event × Out)) (p r : Nat) :
    idOf pre p k r = (numberOf pre p k + 1) % 65536 := by
  cases k <;> simp [Kind.counted] at h <;> simp [idOf, numberOf]

theorem uncounted_idOf {k : Kind} (h : k.counted = false) (pre : List (Event × Out)) (p r : Nat) :
    idOf pre p k r = r := by
  cases k <;> simp [Kind.counted] at h <;> simp [idOf]

/-- The number given to a message sent. -/
theorem send_id {tr : List (Event × Out)} {s : State} (hi : Inv tr s) (p : Nat) (k : Kind)
    (r : Nat) : (s.number p k).seqId p k r = idOf tr p k r := by
  unfold State.seqId
  by_cases h : k.counted = true
  · rw [if_pos h, counted_idOf h, number_lastId, hi.ids p k h]; simp [h]
  · rw [if_neg h, uncounted_idOf (by simpa using h)]

theorem inv_step {tr : List (Event × Out)} {s : State} (hi : Inv tr s) (e : Event) :
    Inv (tr ++ [(e, (step s e).2)]) (step s e).1 := by
  have hids : ∀ p k, k.counted = true →
      (step s e).1.lastId p k = numberOf (tr ++ [(e, (step s e).2)]) p k := by
    intro p k hk
    rw [step_ids, numberOf_snoc, hi.ids p k hk, hk]; rfl
  have ext : ∀ {pre : List (Event × Out)} {y : Event × Out} {mid}, tr = pre ++ y :: mid →
      tr ++ [(e, (step s e).2)] = pre ++ y :: (mid ++ [(e, (step s e).2)]) := by
    rintro pre y mid rfl; simp
  by_cases he : e.isSend = true
  · cases e with
    | send p k r pdu tl now =>
      obtain ⟨hnt, hnc, _⟩ := number_ticket s p k
      obtain ⟨sl, hsl, h1, h2, h3, h4, h5, h6⟩ := expect_spec s.cache
        ⟨p, k, (s.number p k).seqId p k r⟩ pdu tl now
      have hpk : (step s (.send p k r pdu tl now)).1.cache.packet =
          put s.cache.packet sl ⟨pdu.take 54, tl, ⟨p, k, idOf tr p k r⟩, now, s.cache.seq, false⟩ := by
        rw [← send_id hi p k r, ← h2]; simp only [step, State.send, hnc]
      have htk : (step s (.send p k r pdu tl now)).1.ticket =
          put2 s.ticket p k (some ⟨sl, s.cache.seq % 4294967296⟩) := by
        rw [← h1]; simp only [step, State.send, hnc, hnt]
      have hbs : ∀ i, (step s (.send p k r pdu tl now)).1.cache.busy i =
          (s.cache.busy i || decide (i = sl)) := by
        intro i; rw [← h3]; simp only [step, State.send, hnc]
      have hnew : Stored (put s.cache.packet sl
          ⟨pdu.take 54, tl, ⟨p, k, idOf tr p k r⟩, now, s.cache.seq, false⟩ sl) tr p k r pdu tl now := by
        rw [put_same]; exact ⟨rfl, rfl, rfl, rfl⟩
      refine ⟨hids, ?_, ?_⟩
      · intro p' k' t ht
        rw [htk] at ht
        by_cases hp : p' = p ∧ k' = k
        · obtain ⟨rfl, rfl⟩ := hp
          rw [put2_same] at ht
          have ht := Option.some.inj ht
          subst ht
          refine ⟨tr, [], r, pdu, tl, now, _, rfl, by intro x hx; simp at hx, fun _ _ => ?_⟩
          rw [hpk]; exact ⟨hnew, by simp⟩
        · rw [put2_ne _ _ hp] at ht
          obtain ⟨pre, mid, r', pdu', tl', now', o', e1, e2, e3⟩ := hi.tick p' k' t ht
          refine ⟨pre, _, r', pdu', tl', now', o', ext e1, ?_, ?_⟩
          · intro x hx
            rw [List.mem_append, List.mem_singleton] at hx
            rcases hx with hx | rfl
            · exact e2 x hx
            · refine ⟨?_, by simp, ?_⟩
              · simp only [Event.sends, Bool.and_eq_false_iff, decide_eq_false_iff_not]
                by_cases h1 : p = p'
                · right; intro h2; exact hp ⟨h1.symm, h2.symm⟩
                · left; exact h1
              · simp only [step, State.send]; split <;> rfl
          · rw [hpk]
            by_cases hts : t.slot = sl
            · rw [hts, put_same]
              intro q1 q2
              exact absurd ⟨q1.symm, q2.symm⟩ hp
            · rw [put_ne _ _ hts]
              intro q1 q2
              refine ⟨(e3 q1 q2).1, fun hb x hx u hu => ?_⟩
              rw [hbs] at hb
              have hb : s.cache.busy t.slot = true := by simpa [hts] using hb
              rw [List.mem_append, List.mem_singleton] at hx
              rcases hx with hx | rfl
              · exact (e3 q1 q2).2 hb x hx u hu
              · simp at hu
      · intro i hb
        rw [hbs] at hb
        rw [hpk]
        by_cases his : i = sl
        · rw [his]
          exact ⟨tr, [], p, k, r, pdu, tl, now, _, rfl, hnew⟩
        · rw [put_ne _ _ his]
          have hb : s.cache.busy i = true := by simpa [his] using hb
          obtain ⟨pre, mid, p', k', r', pdu', tl', now', o', e1, e2⟩ := hi.busy i hb
          exact ⟨pre, _, p', k', r', pdu', tl', now', o', ext e1, e2⟩
    | attempt => simp [Event.isSend] at he
    | tx => simp [Event.isSend] at he
    | loop => simp [Event.isSend] at he
    | check => simp [Event.isSend] at he
    | reinit => simp [Event.isSend] at he
    | report => simp [Event.isSend] at he
  · have he : e.isSend = false := by simpa using he
    have hns : ∀ p k, e.sends p k = false := by
      intro p k; cases e <;> simp_all [Event.isSend, Event.sends]
    refine ⟨hids, ?_, ?_⟩
    · intro p k t ht
      obtain ⟨h1, h2, h3⟩ := step_ticket s e he ht
      obtain ⟨pre, mid, r', pdu', tl', now', o', e1, e2, e3⟩ := hi.tick p k t h1
      refine ⟨pre, _, r', pdu', tl', now', o', ext e1, ?_, ?_⟩
      · intro x hx
        rw [List.mem_append, List.mem_singleton] at hx
        rcases hx with hx | rfl
        · exact e2 x hx
        · exact ⟨hns p k, h2, h3⟩
      · rw [step_packet s e he]
        intro q1 q2
        refine ⟨(e3 q1 q2).1, fun hb x hx u hu => ?_⟩
        rw [List.mem_append, List.mem_singleton] at hx
        rcases hx with hx | rfl
        · exact (e3 q1 q2).2 (step_busy s e he _ hb) x hx u hu
        · simp only at hu
          subst hu
          obtain ⟨c', h1, _, _, _, h2, _⟩ := check_spec s.cache p u
          simp only [step, h1] at hb
          rw [h2] at hb
          have hst := (e3 q1 q2).1
          simp only [Cache.dropped, q1, hst.2.2.2] at hb
          simp at hb
          omega
    · intro i hb
      rw [step_packet s e he]
      obtain ⟨pre, mid, p', k', r', pdu', tl', now', o', e1, e2⟩ := hi.busy i (step_busy s e he i hb)
      exact ⟨pre, _, p', k', r', pdu', tl', now', o', ext e1, e2⟩

theorem inv_run (es : List Event) : Inv (run .init es).2 (run .init es).1 := by
  induction es using List.reverseRecOn with
  | nil => exact inv_init
  | append_singleton es e ih => rw [run_snoc]; exact inv_step ih e

/-- What a timestamp used tells. -/
theorem process_stamp {s : State} {t : Ticket} {u : User} {ts v : Int} {p n : Nat} {k : Kind}
    (h : (s.process t u ts).2 = .stamp p k n v) :
    u = ⟨p, k, n⟩ ∧ ts = v ∧ s.ticket p k = some t ∧ n = s.seqId p k n := by
  rcases process_cases s t u ts with ⟨h1, h2, he⟩ | he
  · rw [he] at h
    simp only [Out.stamp.injEq] at h
    obtain ⟨rfl, rfl, rfl, rfl⟩ := h
    exact ⟨rfl, rfl, h1, h2⟩
  · rw [he] at h; simp at h

theorem step_stamp {s : State} {e : Event} {p n : Nat} {k : Kind} {v : Int}
    (h : (step s e).2 = .stamp p k n v) :
    ∃ pkt i, e.reads = some (pkt, some v) ∧ s.cache.busy i = true ∧
      matchPdu (s.cache.packet i) pkt = true ∧ (s.cache.packet i).user = ⟨p, k, n⟩ ∧
      (∃ q, s.ticket p k = some ⟨i, q⟩) ∧ n = s.seqId p k n := by
  cases e with
  | send p' k' r pdu tl now => simp only [step, State.send] at h; split at h <;> simp at h
  | attempt p' k' => simp [step] at h
  | tx pkt now ts =>
    simp only [step] at h
    rcases match_cases s.cache pkt now with ⟨h0, _⟩ | ⟨i, hb, hm, h0⟩
    · rw [h0] at h; simp at h
    · rw [h0] at h
      cases ts with
      | none => simp at h
      | some w =>
        simp only at h
        obtain ⟨e1, e2, e3, e4⟩ := process_stamp h
        exact ⟨pkt, i, by simp [Event.reads, e2], hb, hm, e1, ⟨_, e3⟩, e4⟩
  | loop pkt now w =>
    simp only [step] at h
    rcases match_cases s.cache pkt now with ⟨h0, _⟩ | ⟨i, hb, hm, h0⟩
    · rw [h0] at h; simp at h
    · rw [h0] at h
      simp only at h
      obtain ⟨e1, e2, e3, e4⟩ := process_stamp h
      exact ⟨pkt, i, by simp [Event.reads, e2], hb, hm, e1, ⟨_, e3⟩, e4⟩
  | check p' now => simp [step] at h
  | reinit p' => simp [step] at h
  | report => simp [step] at h

theorem alarm_step (s : State) (e : Event) (p : Nat) :
    (step s e).1.alarm p =
      (match (e, (step s e).2) with
      | (_, .unsuitable p') => if p' = p then true else s.alarm p
      | (_, .stamp p' _ _ _) => if p' = p then false else s.alarm p
      | (.check p' _, _) => if p' = p then false else s.alarm p
      | _ => s.alarm p) := by
  have hput : ∀ (q : Nat) (v : Bool), put1 s.alarm q v p = if q = p then v else s.alarm p := by
    intro q v
    unfold put1
    by_cases h : p = q
    · rw [if_pos h, if_pos h.symm]
    · rw [if_neg h, if_neg (Ne.symm h)]
  have hproc : ∀ (c : Cache) t u v,
      (State.process { s with cache := c } t u v).1.alarm p =
        (match (State.process { s with cache := c } t u v).2 with
        | .stamp p' _ _ _ => if p' = p then false else s.alarm p
        | _ => s.alarm p) ∧
      ((∃ a b d f, (State.process { s with cache := c } t u v).2 = .stamp a b d f) ∨
        (State.process { s with cache := c } t u v).2 = .discard) := by
    intro c t u v
    rcases process_cases { s with cache := c } t u v with ⟨_, _, h⟩ | h
    · rw [h]
      exact ⟨hput u.port false, .inl ⟨_, _, _, _, rfl⟩⟩
    · rw [h]
      exact ⟨rfl, .inr rfl⟩
  cases e with
  | send p' k' r pdu tl now =>
    have h1 : (step s (.send p' k' r pdu tl now)).1.alarm = s.alarm := (number_ticket s p' k').2.2
    rw [h1]
    simp only [step, State.send]
    by_cases hb : ((s.number p' k').cache.expect ⟨p', k', (s.number p' k').seqId p' k' r⟩ pdu tl
      now).2.2 = true
    · rw [if_pos hb]
    · rw [if_neg hb]
  | attempt p' k' =>
    have h1 : (step s (.attempt p' k')).1.alarm = s.alarm := (number_ticket s p' k').2.2
    rw [h1]; rfl
  | tx pkt now ts =>
    cases hm : (s.cache.match pkt now).2 with
    | none => simp only [step, hm]
    | some x =>
      cases ts with
      | none => simp only [step, hm]; exact hput _ _
      | some v =>
        simp only [step, hm]
        obtain ⟨h1, h2⟩ := hproc (s.cache.match pkt now).1 x.1 x.2 v
        rw [h1]
        rcases h2 with ⟨a, b, d, f, h2⟩ | h2 <;> simp only [h2]
  | loop pkt now v =>
    cases hm : (s.cache.match pkt now).2 with
    | none => simp only [step, hm]
    | some x =>
      simp only [step, hm]
      obtain ⟨h1, h2⟩ := hproc (s.cache.match pkt now).1 x.1 x.2 v
      rw [h1]
      rcases h2 with ⟨a, b, d, f, h2⟩ | h2 <;> simp only [h2]
  | check p' now =>
    obtain ⟨c', h1, _⟩ := check_spec s.cache p' now
    simp only [step, h1]
    exact hput _ _
  | reinit p' => rfl
  | report => rfl

/-! ## A message and its slot -/

/-- The message `pdu` of the port is the latest of its type and waits in slot `sl`; what waits
elsewhere comes from the events `es`. -/
structure Own (s : State) (p : Nat) (k : Kind) (n : Nat) (pdu : List Nat) (tl : Nat) (now : Int)
    (sl : Nat) (es : List Event) : Prop where
  busy : s.cache.busy sl = true
  data : (s.cache.packet sl).data = pdu.take 54
  trailer : (s.cache.packet sl).trailer = tl
  user : (s.cache.packet sl).user = ⟨p, k, n⟩
  sent : (s.cache.packet sl).sent = now
  tick : s.ticket p k = some ⟨sl, (s.cache.packet sl).seq % 4294967296⟩
  id : s.seqId p k n = n
  others : ∀ i, i ≠ sl → s.cache.busy i = true → ∃ p' k' r' pdu' tl' now',
    Event.send p' k' r' pdu' tl' now' ∈ es ∧ (s.cache.packet i).data = pdu'.take 54 ∧
    (s.cache.packet i).trailer = tl'

theorem own_send {tr : List (Event × Out)} {s : State} (hi : Inv tr s) (p : Nat) (k : Kind)
    (r : Nat) (pdu : List Nat) (tl : Nat) (now : Int) :
    ∃ sl, Own (step s (.send p k r pdu tl now)).1 p k (idOf tr p k r) pdu tl now sl
      (tr.map Prod.fst) := by
  obtain ⟨hnt, hnc, _⟩ := number_ticket s p k
  obtain ⟨sl, hsl, h1, h2, h3, h4, h5, h6⟩ := expect_spec s.cache
    ⟨p, k, (s.number p k).seqId p k r⟩ pdu tl now
  have hpk : (step s (.send p k r pdu tl now)).1.cache.packet =
      put s.cache.packet sl ⟨pdu.take 54, tl, ⟨p, k, idOf tr p k r⟩, now, s.cache.seq, false⟩ := by
    rw [← send_id hi p k r, ← h2]; simp only [step, State.send, hnc]
  have hbs : ∀ i, (step s (.send p k r pdu tl now)).1.cache.busy i =
      (s.cache.busy i || decide (i = sl)) := by
    intro i; rw [← h3]; simp only [step, State.send, hnc]
  refine ⟨sl, ?_, ?_, ?_, ?_, ?_, ?_, ?_, ?_⟩
  · rw [hbs]; simp
  · rw [hpk, put_same]
  · rw [hpk, put_same]
  · rw [hpk, put_same]
  · rw [hpk, put_same]
  · rw [hpk, put_same]
    simp only [step, State.send, hnc]
    rw [put2_same, h1]
  · have hc := send_id hi p k r
    unfold State.seqId at hc ⊢
    by_cases hk : k.counted = true
    · rw [if_pos hk] at hc ⊢; exact hc
    · rw [if_neg hk]
  · intro i hne hb
    rw [hbs] at hb
    have hb : s.cache.busy i = true := by simpa [hne] using hb
    obtain ⟨pre, mid, p', k', r', pdu', tl', now', o', e1, e2⟩ := hi.busy i hb
    rw [hpk, put_ne _ _ hne]
    refine ⟨p', k', r', pdu', tl', now', ?_, e2.1, e2.2.1⟩
    rw [e1]; simp

/-- What an event may do without harm to the message. -/
structure Harmless (p : Nat) (k : Kind) (pdu : List Nat) (tl : Nat) (now : Int) (e : Event) :
    Prop where
  num : e.numbers p k = false
  init : e ≠ .reinit p
  other : ∀ pkt ts, e.reads = some (pkt, ts) → ¬ Carries pkt pdu tl
  late : ∀ t, e = .check p t → t - now < 10 * second

theorem own_match {s : State} {p : Nat} {k : Kind} {n : Nat} {pdu : List Nat} {tl : Nat} {now : Int}
    {sl : Nat} {es : List Event} (ho : Own s p k n pdu tl now sl es) {pkt : List Nat} (t : Int)
    (h : ¬ Carries pkt pdu tl) :
    Own { s with cache := (s.cache.match pkt t).1 } p k n pdu tl now sl es ∧
      ∀ tk u, (s.cache.match pkt t).2 = some (tk, u) → tk.slot ≠ sl := by
  rcases match_cases s.cache pkt t with ⟨h0, _⟩ | ⟨i, hb, hm, h0⟩
  · rw [h0]
    exact ⟨ho, by simp⟩
  · have hne : sl ≠ i := by
      rintro rfl
      apply h
      obtain ⟨a, b, h1, h2⟩ := matchPdu_iff.1 hm
      rw [ho.data] at h1
      rw [ho.trailer] at h2
      exact ⟨a, b, h1, h2⟩
    rw [h0]
    refine ⟨⟨?_, ho.data, ho.trailer, ho.user, ho.sent, ho.tick, ho.id, ?_⟩, ?_⟩
    · rw [busy_or (c := s.cache) (busy_lt hb) rfl, ho.busy]; simp [hne]
    · intro j hj hbj
      rw [busy_or (c := s.cache) (busy_lt hb) rfl] at hbj
      simp at hbj
      exact ho.others j hj hbj.1
    · intro tk u htk
      simp only [Option.some.injEq, Prod.mk.injEq] at htk
      rw [← htk.1]; exact Ne.symm hne

theorem own_process {s : State} {p : Nat} {k : Kind} {n : Nat} {pdu : List Nat} {tl : Nat}
    {now : Int} {sl : Nat} {es : List Event} (ho : Own s p k n pdu tl now sl es) {t : Ticket}
    {u : User} {v : Int} (h : t.slot ≠ sl) : Own (s.process t u v).1 p k n pdu tl now sl es := by
  rcases process_cases s t u v with ⟨h1, _, he⟩ | he
  · rw [he]
    refine ⟨ho.busy, ho.data, ho.trailer, ho.user, ho.sent, ?_, ho.id, ho.others⟩
    have : ¬ (p = u.port ∧ k = u.kind) := by
      rintro ⟨rfl, rfl⟩
      rw [ho.tick] at h1
      apply h
      rw [← Option.some.inj h1]
    simp only
    rw [put2_ne _ _ this]
    exact ho.tick
  · rw [he]; exact ho

theorem own_more {s : State} {p : Nat} {k : Kind} {n : Nat} {pdu : List Nat} {tl : Nat}
    {now : Int} {sl : Nat} {es : List Event} (ho : Own s p k n pdu tl now sl es) (e : Event) :
    Own s p k n pdu tl now sl (es ++ [e]) := by
  refine ⟨ho.busy, ho.data, ho.trailer, ho.user, ho.sent, ho.tick, ho.id, fun i hi hb => ?_⟩
  obtain ⟨p', k', r', pdu', tl', now', h1, h2⟩ := ho.others i hi hb
  exact ⟨p', k', r', pdu', tl', now', by simp [h1], h2⟩

theorem own_step {s : State} {p : Nat} {k : Kind} {n : Nat} {pdu : List Nat} {tl : Nat} {now : Int}
    {sl : Nat} {es : List Event} (ho : Own s p k n pdu tl now sl es) {e : Event}
    (he : Harmless p k pdu tl now e) (hout : (step s e).2 ≠ .beyond) :
    Own (step s e).1 p k n pdu tl now sl (es ++ [e]) := by
  cases e with
  | send p' k' r' pdu' tl' now' =>
    obtain ⟨hnt, hnc, _⟩ := number_ticket s p' k'
    obtain ⟨i, hil, h1, h2, h3, h4, h5, h6⟩ := expect_spec s.cache
      ⟨p', k', (s.number p' k').seqId p' k' r'⟩ pdu' tl' now'
    have hpk : (step s (.send p' k' r' pdu' tl' now')).1.cache.packet = put s.cache.packet i
        ⟨pdu'.take 54, tl', ⟨p', k', (s.number p' k').seqId p' k' r'⟩, now', s.cache.seq, false⟩ := by
      rw [← h2]; simp only [step, State.send, hnc]
    have hbs : ∀ j, (step s (.send p' k' r' pdu' tl' now')).1.cache.busy j =
        (s.cache.busy j || decide (j = i)) := by
      intro j; rw [← h3]; simp only [step, State.send, hnc]
    have hfree : s.cache.free ≠ 0 := by
      intro h0
      apply hout
      simp only [step, State.send, hnc]
      rw [if_pos (h4.2 h0)]
    have hne : sl ≠ i := by
      rintro rfl
      have := h6 hfree
      rw [ho.busy] at this; simp at this
    have hpk' : ¬ (p = p' ∧ k = k') := by
      rintro ⟨rfl, rfl⟩
      have := he.num
      simp [Event.numbers] at this
    have hid := step_ids s (.send p' k' r' pdu' tl' now') p k
    rw [he.num] at hid
    simp only [Bool.and_false, Bool.false_eq_true, if_false] at hid
    refine ⟨?_, ?_, ?_, ?_, ?_, ?_, ?_, ?_⟩
    · rw [hbs, ho.busy]; rfl
    · rw [hpk, put_ne _ _ hne]; exact ho.data
    · rw [hpk, put_ne _ _ hne]; exact ho.trailer
    · rw [hpk, put_ne _ _ hne]; exact ho.user
    · rw [hpk, put_ne _ _ hne]; exact ho.sent
    · rw [hpk, put_ne _ _ hne]
      simp only [step, State.send, hnc, hnt]
      rw [put2_ne _ _ hpk']; exact ho.tick
    · have := ho.id
      unfold State.seqId at this ⊢
      rw [hid]; exact this
    · intro j hj hb
      rw [hbs] at hb
      rw [hpk]
      by_cases hji : j = i
      · rw [hji, put_same]
        exact ⟨p', k', r', pdu', tl', now', by simp, rfl, rfl⟩
      · rw [put_ne _ _ hji]
        exact (own_more ho _).others j hj (by simpa [hji] using hb)
  | attempt p' k' =>
    obtain ⟨hnt, hnc, _⟩ := number_ticket s p' k'
    have hid := step_ids s (.attempt p' k') p k
    rw [he.num] at hid
    simp only [Bool.and_false, Bool.false_eq_true, if_false] at hid
    have ho := own_more ho (.attempt p' k')
    have hc : (step s (.attempt p' k')).1.cache = s.cache := hnc
    have ht : (step s (.attempt p' k')).1.ticket = s.ticket := hnt
    refine ⟨?_, ?_, ?_, ?_, ?_, ?_, ?_, ?_⟩
    · rw [hc]; exact ho.busy
    · rw [hc]; exact ho.data
    · rw [hc]; exact ho.trailer
    · rw [hc]; exact ho.user
    · rw [hc]; exact ho.sent
    · rw [hc, ht]; exact ho.tick
    · have := ho.id
      unfold State.seqId at this ⊢
      rw [hid]; exact this
    · rw [hc]; exact ho.others
  | tx pkt t ts =>
    obtain ⟨hm, hs⟩ := own_match ho t (he.other pkt ts rfl)
    have hm := own_more hm (.tx pkt t ts)
    simp only [step]
    split
    · exact hm
    · exact ⟨hm.busy, hm.data, hm.trailer, hm.user, hm.sent, hm.tick, hm.id, hm.others⟩
    · rename_i h
      exact own_process hm (hs _ _ h)
  | loop pkt t v =>
    obtain ⟨hm, hs⟩ := own_match ho t (he.other pkt (some v) rfl)
    have hm := own_more hm (.loop pkt t v)
    simp only [step]
    split
    · exact hm
    · rename_i h
      exact own_process hm (hs _ _ h)
  | check p' t =>
    obtain ⟨c', h1, h2, _, _, h3, _⟩ := check_spec s.cache p' t
    have ho := own_more ho (.check p' t)
    have hc : (step s (.check p' t)).1.cache = c' := by simp only [step, h1]
    have ht : (step s (.check p' t)).1.ticket = s.ticket := rfl
    have hl : (step s (.check p' t)).1.lastId = s.lastId := rfl
    refine ⟨?_, ?_, ?_, ?_, ?_, ?_, ?_, ?_⟩
    · rw [hc, h3, ho.busy]
      unfold Cache.dropped
      rw [ho.user, ho.sent]
      by_cases hp : p = p'
      · have := he.late t (by rw [hp])
        have : ¬ (10 * second ≤ t - now) := by omega
        simp [this]
      · simp [hp]
    · rw [hc, h2]; exact ho.data
    · rw [hc, h2]; exact ho.trailer
    · rw [hc, h2]; exact ho.user
    · rw [hc, h2]; exact ho.sent
    · rw [hc, h2, ht]; exact ho.tick
    · have := ho.id
      unfold State.seqId at this ⊢
      rw [hl]; exact this
    · rw [hc, h2]
      intro i hi hb
      rw [h3] at hb
      simp at hb
      exact ho.others i hi hb.1
  | reinit p' =>
    have hp : p ≠ p' := fun h => he.init (by rw [h])
    have ho := own_more ho (.reinit p')
    refine ⟨ho.busy, ho.data, ho.trailer, ho.user, ho.sent, ?_, ho.id, ho.others⟩
    simp only [step]
    rw [if_neg hp]; exact ho.tick
  | report =>
    have ho := own_more ho .report
    exact ⟨ho.busy, ho.data, ho.trailer, ho.user, ho.sent, ho.tick, ho.id, ho.others⟩

theorem own_run {s : State} {p : Nat} {k : Kind} {n : Nat} {pdu : List Nat} {tl : Nat} {now : Int}
    {sl : Nat} {es : List Event} (ho : Own s p k n pdu tl now sl es) (mid : List Event)
    (he : ∀ e ∈ mid, Harmless p k pdu tl now e) (hout : ∀ x ∈ (run s mid).2, x.2 ≠ .beyond) :
    Own (run s mid).1 p k n pdu tl now sl (es ++ mid) := by
  induction mid generalizing s es with
  | nil => simpa [run] using ho
  | cons e mid ih =>
    simp only [run] at hout ⊢
    have := ih (own_step ho (he e (by simp)) (hout (e, (step s e).2) (by simp)))
      (fun e' h' => he e' (by simp [h'])) (fun x hx => hout x (by simp [hx]))
    simpa using this

theorem own_stamp {s : State} {p : Nat} {k : Kind} {n : Nat} {pdu : List Nat} {tl : Nat}
    {now : Int} {sl : Nat} {es : List Event} (ho : Own s p k n pdu tl now sl es) {e : Event}
    {pkt : List Nat} {v : Int} (he : e.reads = some (pkt, some v)) (hc : Carries pkt pdu tl)
    (hno : ∀ p' k' r' pdu' tl' now', Event.send p' k' r' pdu' tl' now' ∈ es →
      ¬ Carries pkt pdu' tl') : (step s e).2 = .stamp p k n v := by
  have hm : ∀ t, (s.cache.match pkt t).2 =
      some (⟨sl, (s.cache.packet sl).seq % 4294967296⟩, (s.cache.packet sl).user) := by
    intro t
    apply match_some ho.busy
    · rw [matchPdu_iff, ho.data, ho.trailer]; exact hc
    · intro i hi hb
      obtain ⟨p', k', r', pdu', tl', now', h1, h2, h3⟩ := ho.others i hi hb
      cases hmi : matchPdu (s.cache.packet i) pkt with
      | false => rfl
      | true =>
        rw [matchPdu_iff, h2, h3] at hmi
        exact absurd hmi (hno _ _ _ _ _ _ h1)
  have hp : ∀ t, (State.process { s with cache := (s.cache.match pkt t).1 }
      ⟨sl, (s.cache.packet sl).seq % 4294967296⟩ (s.cache.packet sl).user v).2 = .stamp p k n v := by
    intro t
    unfold State.process
    rw [ho.user]
    rw [if_pos ⟨ho.tick, ho.id.symm⟩]
  cases e with
  | tx pkt' t ts =>
    simp only [Event.reads, Option.some.injEq, Prod.mk.injEq] at he
    obtain ⟨rfl, rfl⟩ := he
    simp only [step, hm]
    exact hp t
  | loop pkt' t v' =>
    simp only [Event.reads, Option.some.injEq, Prod.mk.injEq] at he
    obtain ⟨rfl, rfl⟩ := he
    simp only [step, hm]
    exact hp t
  | send => simp [Event.reads] at he
  | attempt => simp [Event.reads] at he
  | check => simp [Event.reads] at he
  | reinit => simp [Event.reads] at he
  | report => simp [Event.reads] at he

/-! ## Accounts -/

/-- One or nothing. -/
def one (b : Bool) : Nat := if b then 1 else 0

theorem sum_set (l : List Nat) (q : Nat) (h : q < l.length) :
    (l.set q (l.getD q 0 + 1)).sum = l.sum + 1 := by
  induction l generalizing q with
  | nil => simp at h
  | cons a l ih =>
    cases q with
    | zero => simp; omega
    | succ q =>
      have := ih q (by simpa using h)
      simp only [List.set_cons_succ, List.sum_cons, List.getD_cons_succ]
      omega

theorem resolve_sum {st : Stats} {d : Int} (hl : st.resolved.length = 7)
    (hd : d < 9223372036854775808 * second) :
    (st.resolve d).resolved.sum = st.resolved.sum + 1 ∧ (st.resolve d).resolved.length = 7 ∧
      (st.resolve d).total = st.total ∧ (st.resolve d).evicted = st.evicted := by
  unfold Stats.resolve
  cases hq : quantile d with
  | none =>
    unfold quantile at hq
    rw [List.findIdx?_eq_none_iff] at hq
    have := hq (9223372036854775808 * second) (by simp [bounds])
    simp at this
    omega
  | some q =>
    unfold quantile at hq
    have hlt : q < bounds.length := (List.findIdx?_eq_some_iff_findIdx_eq.1 hq).1
    have h7 : bounds.length = 7 := rfl
    refine ⟨sum_set _ _ (by omega), by simp [hl], rfl, rfl⟩

theorem match_acct (c : Cache) (pkt : List Nat) (now : Int) :
    (c.match pkt now).1.pending + (c.match pkt now).1.stats.evicted +
      one (c.match pkt now).2.isSome = c.pending + c.stats.evicted ∧
    (c.match pkt now).1.stats.total = c.stats.total := by
  rcases match_cases c pkt now with ⟨h, _⟩ | ⟨s, hs, _, h⟩
  · rw [h]; simp [one]
  · have hp := pending_or (c := c) hs (c' := (c.match pkt now).1) (by rw [h])
    rw [hp, h]
    have : ∀ d, (c.stats.resolve d).evicted = c.stats.evicted ∧
        (c.stats.resolve d).total = c.stats.total := by
      intro d; unfold Stats.resolve; split <;> exact ⟨rfl, rfl⟩
    simp only [this]
    simp [one]; omega

theorem match_resolved (c : Cache) (pkt : List Nat) (now : Int) (hl : c.stats.resolved.length = 7)
    (hd : ∀ s, c.busy s = true → now - (c.packet s).sent < 9223372036854775808 * second) :
    (c.match pkt now).1.stats.resolved.sum = c.stats.resolved.sum + one (c.match pkt now).2.isSome ∧
      (c.match pkt now).1.stats.resolved.length = 7 := by
  rcases match_cases c pkt now with ⟨h, _⟩ | ⟨s, hs, _, h⟩
  · rw [h]; simp [one, hl]
  · have := resolve_sum hl (hd s hs)
    rw [h]
    exact ⟨by simp [one, this.1], this.2.1⟩

theorem expect_acct (c : Cache) (u : User) (pdu : List Nat) (tl : Nat) (now : Int) :
    (c.expect u pdu tl now).1.pending + (c.expect u pdu tl now).1.stats.evicted =
      c.pending + c.stats.evicted + 1 ∧
    (c.expect u pdu tl now).1.stats.total = c.stats.total + 1 ∧
    (c.expect u pdu tl now).1.stats.resolved = c.stats.resolved ∧
    ((c.expect u pdu tl now).2.2 = true → c.pending = 32) := by
  have hst : ∀ c : Cache, c.free ≠ 0 → (c.store u pdu tl now).1.pending = c.pending + 1 := by
    intro c h
    have hc := clz_free h
    exact pending_clear (c := c) hc.1 (by simp [Cache.busy, hc.2]) rfl
  by_cases h : c.free = 0
  · have hmf : c.makeRoom.1.free = c.free ||| slotBit 0 := by
      unfold Cache.makeRoom; rw [if_pos h, oldestSlot_zero]
    have hp := pending_or (c := c) (c' := c.makeRoom.1) (busy_of_zero h (by omega)) hmf
    have hev : c.makeRoom.1.stats = { c.stats with evicted := c.stats.evicted + 1 } := by
      unfold Cache.makeRoom; rw [if_pos h]
    have hp2 := hst c.makeRoom.1 (room c)
    have he : (c.expect u pdu tl now).1 = (c.makeRoom.1.store u pdu tl now).1 := rfl
    refine ⟨?_, ?_, ?_, fun _ => ?_⟩
    · rw [he, hp2]
      unfold Cache.store
      simp only [hev]
      omega
    · rw [he]; unfold Cache.store; simp only [hev]
    · rw [he]; unfold Cache.store; simp only [hev]
    · unfold Cache.pending
      rw [List.countP_eq_length.2]
      · simp
      · intro s hs
        exact busy_of_zero h (List.mem_range.1 hs)
  · rw [expect_room h]
    refine ⟨?_, rfl, rfl, by simp⟩
    rw [hst c h]
    simp only [Cache.store]
    omega

theorem process_found (s : State) (t : Ticket) (u : User) (v : Int) :
    (s.process t u v).2.found = true := by
  rcases process_cases s t u v with ⟨_, _, h⟩ | h <;> rw [h] <;> rfl

theorem step_acct (s : State) (e : Event) (he : e ≠ .report) :
    (step s e).1.cache.pending + (step s e).1.cache.stats.evicted + one (step s e).2.found =
      s.cache.pending + s.cache.stats.evicted + one e.isSend ∧
    (step s e).1.cache.stats.total = s.cache.stats.total + one e.isSend := by
  cases e with
  | send p k r pdu tl now =>
    obtain ⟨_, hnc, _⟩ := number_ticket s p k
    obtain ⟨h1, h2, _⟩ := expect_acct s.cache ⟨p, k, (s.number p k).seqId p k r⟩ pdu tl now
    simp only [step, State.send, hnc]
    rw [h1, h2]
    refine ⟨?_, rfl⟩
    have : ∀ b : Bool, (if b then Out.beyond else Out.quiet).found = false := by
      intro b; cases b <;> rfl
    rw [this]; simp [one, Event.isSend]
  | attempt p k =>
    obtain ⟨_, hnc, _⟩ := number_ticket s p k
    simp only [step, hnc]
    simp [one, Event.isSend, Out.found]
  | tx pkt now ts =>
    have := match_acct s.cache pkt now
    cases hm : (s.cache.match pkt now).2 with
    | none =>
      rw [hm] at this
      simp only [step, hm]
      simp only [one, Event.isSend, Out.found] at this ⊢
      simpa using this
    | some x =>
      rw [hm] at this
      cases ts with
      | none =>
        simp only [step, hm]
        simp only [one, Event.isSend, Out.found] at this ⊢
        simpa using this
      | some v =>
        simp only [step, hm]
        rw [process_cache, process_found]
        simp only [one, Event.isSend] at this ⊢
        simpa using this
  | loop pkt now v =>
    have := match_acct s.cache pkt now
    cases hm : (s.cache.match pkt now).2 with
    | none =>
      rw [hm] at this
      simp only [step, hm]
      simp only [one, Event.isSend, Out.found] at this ⊢
      simpa using this
    | some x =>
      rw [hm] at this
      simp only [step, hm]
      rw [process_cache, process_found]
      simp only [one, Event.isSend] at this ⊢
      simpa using this
  | check p now =>
    obtain ⟨c', h1, _, _, _, _, h2, h3, _⟩ := check_spec s.cache p now
    simp only [step, h1]
    simp [one, Event.isSend, Out.found]
    exact ⟨by omega, h3⟩
  | reinit p => exact ⟨rfl, rfl⟩
  | report => simp at he

theorem step_resolved (s : State) (e : Event) (he : e ≠ .report)
    (hl : s.cache.stats.resolved.length = 7)
    (hd : ∀ i t, s.cache.busy i = true → e.time = some t →
      t - (s.cache.packet i).sent < 9223372036854775808 * second) :
    (step s e).1.cache.stats.resolved.sum =
      s.cache.stats.resolved.sum + one (step s e).2.found ∧
    (step s e).1.cache.stats.resolved.length = 7 := by
  cases e with
  | send p k r pdu tl now =>
    obtain ⟨_, hnc, _⟩ := number_ticket s p k
    obtain ⟨_, _, h1, _⟩ := expect_acct s.cache ⟨p, k, (s.number p k).seqId p k r⟩ pdu tl now
    simp only [step, State.send, hnc]
    rw [h1]
    refine ⟨?_, hl⟩
    have : ∀ b : Bool, (if b then Out.beyond else Out.quiet).found = false := by
      intro b; cases b <;> rfl
    rw [this]; simp [one]
  | attempt p k =>
    obtain ⟨_, hnc, _⟩ := number_ticket s p k
    simp only [step, hnc]
    exact ⟨rfl, hl⟩
  | tx pkt now ts =>
    have := match_resolved s.cache pkt now hl (fun i hi => hd i now hi rfl)
    cases hm : (s.cache.match pkt now).2 with
    | none =>
      rw [hm] at this
      simp only [step, hm]; exact this
    | some x =>
      rw [hm] at this
      cases ts with
      | none => simp only [step, hm]; exact this
      | some v =>
        simp only [step, hm]
        rw [process_cache, process_found]
        exact this
  | loop pkt now v =>
    have := match_resolved s.cache pkt now hl (fun i hi => hd i now hi rfl)
    cases hm : (s.cache.match pkt now).2 with
    | none =>
      rw [hm] at this
      simp only [step, hm]; exact this
    | some x =>
      rw [hm] at this
      simp only [step, hm]
      rw [process_cache, process_found]
      exact this
  | check p now =>
    obtain ⟨c', h1, _, _, _, _, _, _, h2⟩ := check_spec s.cache p now
    simp only [step, h1, h2]
    exact ⟨rfl, hl⟩
  | reinit p => exact ⟨rfl, hl⟩
  | report => simp at he

theorem run_acct (s : State) (b : List Event) (hb : Event.report ∉ b) :
    (run s b).1.cache.pending + (run s b).1.cache.stats.evicted +
      (run s b).2.countP (fun x => x.2.found) =
      s.cache.pending + s.cache.stats.evicted + b.countP Event.isSend ∧
    (run s b).1.cache.stats.total = s.cache.stats.total + b.countP Event.isSend := by
  induction b generalizing s with
  | nil => simp [run]
  | cons e b ih =>
    have h1 := step_acct s e (fun h => hb (by simp [h]))
    have h2 := ih (step s e).1 (fun h => hb (by simp [h]))
    simp only [run, List.countP_cons]
    simp only [one] at h1
    omega

theorem inv_from {tr : List (Event × Out)} {s : State} (hi : Inv tr s) (b : List Event) :
    Inv (tr ++ (run s b).2) (run s b).1 := by
  induction b generalizing tr s with
  | nil => simpa [run] using hi
  | cons e b ih =>
    have := ih (inv_step hi e)
    simpa [run] using this

theorem run_resolved {tr : List (Event × Out)} {s : State} (hi : Inv tr s) (b : List Event)
    (hb : Event.report ∉ b) (hl : s.cache.stats.resolved.length = 7)
    (ht : ∀ e ∈ tr.map Prod.fst ++ b, ∀ t, e.time = some t →
      0 ≤ t ∧ t < 9223372036854775808 * second) :
    (run s b).1.cache.stats.resolved.sum =
      s.cache.stats.resolved.sum + (run s b).2.countP (fun x => x.2.found) := by
  induction b generalizing tr s with
  | nil => simp [run]
  | cons e b ih =>
    have hd : ∀ i t, s.cache.busy i = true → e.time = some t →
        t - (s.cache.packet i).sent < 9223372036854775808 * second := by
      intro i t hbi het
      obtain ⟨pre, mid, p', k', r', pdu', tl', now', o', e1, e2⟩ := hi.busy i hbi
      have h1 := ht (.send p' k' r' pdu' tl' now') (by rw [e1]; simp) now' rfl
      have h2 := ht e (by simp) t het
      rw [e2.2.2.2]; omega
    have h1 := step_resolved s e (fun h => hb (by simp [h])) hl hd
    have h2 := ih (inv_step hi e) (fun h => hb (by simp [h])) h1.2 (by
      intro e' he'
      apply ht e'
      simpa using he')
    simp only [run, List.countP_cons]
    have h1 := h1.1
    simp only [one] at h1
    omega

theorem beyond_step {s : State} {e : Event} (h : (step s e).2 = .beyond) :
    e.isSend = true ∧ s.cache.pending = 32 := by
  cases e with
  | send p k r pdu tl now =>
    obtain ⟨_, hnc, _⟩ := number_ticket s p k
    obtain ⟨_, _, _, h4⟩ := expect_acct s.cache ⟨p, k, (s.number p k).seqId p k r⟩ pdu tl now
    simp only [step, State.send, hnc] at h
    refine ⟨rfl, h4 ?_⟩
    by_cases hb : (s.cache.expect ⟨p, k, (s.number p k).seqId p k r⟩ pdu tl now).2.2 = true
    · exact hb
    · rw [if_neg hb] at h; simp at h
  | attempt p k => simp [step] at h
  | tx pkt now ts =>
    cases hm : (s.cache.match pkt now).2 with
    | none => simp [step, hm] at h
    | some x =>
      cases ts with
      | none => simp [step, hm] at h
      | some v =>
        simp only [step, hm] at h
        have := process_found { s with cache := (s.cache.match pkt now).1 } x.1 x.2 v
        rw [h] at this; simp [Out.found] at this
  | loop pkt now v =>
    cases hm : (s.cache.match pkt now).2 with
    | none => simp [step, hm] at h
    | some x =>
      simp only [step, hm] at h
      have := process_found { s with cache := (s.cache.match pkt now).1 } x.1 x.2 v
      rw [h] at this; simp [Out.found] at this
  | check p now => simp [step] at h
  | reinit p => simp [step] at h
  | report => simp [step] at h

/-- Over a run, reports or not, no more requests wait than were made and not found. -/
theorem pending_le (s : State) (b : List Event) :
    (run s b).1.cache.pending + (run s b).2.countP (fun x => x.2.found) ≤
      s.cache.pending + b.countP Event.isSend := by
  have hstep : ∀ (s : State) (e : Event), (step s e).1.cache.pending + one (step s e).2.found ≤
      s.cache.pending + one e.isSend := by
    intro s e
    cases e with
    | send p k r pdu tl now =>
      obtain ⟨_, hnc, _⟩ := number_ticket s p k
      have h := (step_acct s (.send p k r pdu tl now) (by simp)).1
      have hev : s.cache.stats.evicted ≤
          (step s (.send p k r pdu tl now)).1.cache.stats.evicted := by
        simp only [step, State.send, hnc, Cache.expect, Cache.store, Cache.makeRoom]
        split <;> simp
      omega
    | check p now =>
      obtain ⟨c', h1, _, _, _, h3, _⟩ := check_spec s.cache p now
      simp only [step, h1, Event.isSend, Out.found, one]
      simp only [Bool.false_eq_true, if_false, Nat.add_zero]
      apply List.countP_mono_left
      intro i _ hi
      rw [h3] at hi; simp at hi; exact hi.1
    | report => exact Nat.le_refl _
    | attempt p k =>
      have h := (step_acct s (.attempt p k) (by simp)).1
      have : (step s (.attempt p k)).1.cache = s.cache := (number_ticket s p k).2.1
      rw [this] at h ⊢; omega
    | tx pkt now ts =>
      have h := (step_acct s (.tx pkt now ts) (by simp)).1
      have hev : (step s (.tx pkt now ts)).1.cache.stats.evicted = s.cache.stats.evicted := by
        have hc : (step s (.tx pkt now ts)).1.cache = (s.cache.match pkt now).1 := by
          simp only [step]; split
          · rfl
          · rfl
          · rw [process_cache]
        rw [hc]
        rcases match_cases s.cache pkt now with ⟨h, _⟩ | ⟨i, _, _, h⟩
        · rw [h]
        · rw [h]; unfold Stats.resolve; simp only; split <;> rfl
      omega
    | loop pkt now v =>
      have h := (step_acct s (.loop pkt now v) (by simp)).1
      have hev : (step s (.loop pkt now v)).1.cache.stats.evicted = s.cache.stats.evicted := by
        have hc : (step s (.loop pkt now v)).1.cache = (s.cache.match pkt now).1 := by
          simp only [step]; split
          · rfl
          · rw [process_cache]
        rw [hc]
        rcases match_cases s.cache pkt now with ⟨h, _⟩ | ⟨i, _, _, h⟩
        · rw [h]
        · rw [h]; unfold Stats.resolve; simp only; split <;> rfl
      omega
    | reinit p => exact Nat.le_refl _
  induction b generalizing s with
  | nil => simp [run]
  | cons e b ih =>
    have h1 := hstep s e
    have h2 := ih (step s e).1
    simp only [run, List.countP_cons]
    simp only [one] at h1
    omega

theorem pending_init : State.init.cache.pending = 0 := by
  unfold Cache.pending
  rw [List.countP_eq_zero]
  intro i _
  rw [show State.init.cache.busy i = false from busy_init i]; simp

end Verif.TxCache
