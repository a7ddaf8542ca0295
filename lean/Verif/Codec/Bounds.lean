import Verif.Codec.Support

/-! # Lemmas about bounds and about TLVs -/

set_option linter.unusedSimpArgs false
set_option linter.unusedVariables false

namespace Verif.Codec
open Spec

/-! ## Bounds -/

/-- The type accesses `n` bytes only. -/
structure Within (t : Ty) (n : Nat) : Prop where
  read : ∀ m b l, n ≤ l → (t.unpack m b l).hi ≤ b + n
  dep : ∀ m m' b l, n ≤ l → (∀ i, b ≤ i → i < b + n → m i = m' i) → t.unpack m b l = t.unpack m' b l
  written : ∀ v m b l, n ≤ l → (t.pack v m b l).hi ≤ b + n
  out : ∀ v m b l, n ≤ l → ∀ i, i < b ∨ b + n ≤ i → (t.pack v m b l).mem i = m i

theorem within_uint (n : Nat) : Within (uint n) n where
  read m b l h := le_refl _
  dep m m' b l h e := by simp only [uint, load_congr e]
  written v m b l h := le_refl _
  out v m b l h i hi := store_out (by simpa using hi)

theorem within_checked (n : Nat) : Within (checked n) n where
  read m b l h := by simp [checked, h]
  dep m m' b l h e := by simp only [checked, load_congr e]
  written v m b l h := by simp [checked, h]
  out v m b l h i hi := by simp only [checked, if_pos h]; exact store_out (by simpa using hi)

theorem within_upper : Within upper 1 where
  read m b l h := le_refl _
  dep m m' b l h e := by simp only [upper, e b (le_refl _) (by omega)]
  written v m b l h := le_refl _
  out v m b l h i hi := store_out (by simpa using hi)

theorem within_lower : Within lower 1 where
  read m b l h := le_refl _
  dep m m' b l h e := by simp only [lower, e b (le_refl _) (by omega)]
  written v m b l h := le_refl _
  out v m b l h i hi := store_out (by simpa using hi)

/-- The sum of the sizes of the rows. -/
def total (fs : List Field) : Nat := (fs.map (·.size)).sum

theorem total_cons (f : Field) (fs : List Field) : total (f :: fs) = f.size + total fs := by simp [total]

/-- The offsets of the rows of size zero. -/
def zeroAt : List Field → Nat → List Nat
  | [], _ => []
  | f :: fs, off => if f.size = 0 then off :: zeroAt fs off else zeroAt fs (off + f.size)

theorem zeroAt_head {f : Field} {fs : List Field} {off L : Nat} (h : L ∉ zeroAt (f :: fs) off) : f.size = 0 → off ≠ L := by
  intro hz e; apply h; simp [zeroAt, hz, e]

theorem zeroAt_tail {f : Field} {fs : List Field} {off L : Nat} (h : L ∉ zeroAt (f :: fs) off) : L ∉ zeroAt fs (off + f.size) := by
  intro hm; apply h
  by_cases hz : f.size = 0
  · simp only [zeroAt, if_pos hz]; rw [hz] at hm; exact List.mem_cons_of_mem _ hm
  · simp only [zeroAt, if_neg hz]; exact hm

theorem unpack_short {fs : List Field} {m : Mem} {a len off k : Nat} (h : len < off + total fs) (ho : off ≤ len) :
    (unpackFields m a len fs off k).ok = false := by
  induction fs generalizing off k with
  | nil => simp [total] at h; omega
  | cons f fs ih =>
    simp only [unpackFields]
    by_cases hc : off + f.size > len
    · rw [if_pos hc]
    · rw [if_neg hc]
      rw [total_cons] at h
      exact ih (by omega) (by omega)

theorem pack_short {fs : List Field} {m : Mem} {v : List Nat} {a len off k : Nat} (h : len < off + total fs) (ho : off ≤ len) :
    (packFields a len fs v m off k).ok = false := by
  induction fs generalizing off k m v with
  | nil => simp [total] at h; omega
  | cons f fs ih =>
    simp only [packFields]
    by_cases hc : off + f.size > len
    · rw [if_pos hc]
    · rw [if_neg hc]
      rw [total_cons] at h
      exact ih (by omega) (by omega)

theorem unpack_within {fs : List Field} (hw : ∀ f ∈ fs, Within f.ty (max f.size 1)) {m m' : Mem} {a len off k L : Nat} (hl : L ≤ len)
    (hs : off + total fs ≤ L ∨ L = len) (ho : off ≤ L) (hz : L ∉ zeroAt fs off) (e : ∀ i, a + off ≤ i → i < a + L → m i = m' i) :
    unpackFields m a len fs off k = unpackFields m' a len fs off k ∧ (unpackFields m a len fs off k).hi ≤ a + L := by
  induction fs generalizing off k with
  | nil => exact ⟨rfl, by simp [unpackFields]⟩
  | cons f fs ih =>
    simp only [unpackFields]
    by_cases hc : off + f.size > len
    · rw [if_pos hc, if_pos hc]; exact ⟨rfl, by simp⟩
    · rw [if_neg hc, if_neg hc]
      rw [total_cons] at hs
      have h0 := zeroAt_head hz
      have hr : max f.size 1 ≤ len - off := by omega
      have hr' : off + max f.size 1 ≤ L := by omega
      obtain ⟨i1, i2⟩ := ih (fun g hg => hw g (List.mem_cons_of_mem _ hg)) (off := off + f.size) (k := k + f.size) (by omega) (by omega)
        (zeroAt_tail hz) (fun i h1 h2 => e i (by omega) h2)
      have hwf := hw f (List.mem_cons_self)
      have e1 := hwf.dep m m' (a + off) (len - off) hr (fun i h1 h2 => e i h1 (by omega))
      have e2 := hwf.read m (a + off) (len - off) hr
      rw [e1] at e2 ⊢
      refine ⟨by rw [i1], ?_⟩
      simp only
      omega

theorem pack_within {fs : List Field} (hw : ∀ f ∈ fs, Within f.ty (max f.size 1)) {v : List Nat} {m : Mem} {a len off k L : Nat} (hl : L ≤ len)
    (hs : off + total fs ≤ L ∨ L = len) (ho : off ≤ L) (hz : L ∉ zeroAt fs off) :
    (packFields a len fs v m off k).hi ≤ a + L ∧ ∀ i, i < a + off ∨ a + L ≤ i → (packFields a len fs v m off k).mem i = m i := by
  induction fs generalizing off k m v with
  | nil => exact ⟨by simp [packFields], fun _ _ => rfl⟩
  | cons f fs ih =>
    simp only [packFields]
    by_cases hc : off + f.size > len
    · rw [if_pos hc]; exact ⟨by simp, fun _ _ => rfl⟩
    · rw [if_neg hc]
      rw [total_cons] at hs
      have h0 := zeroAt_head hz
      have hr : max f.size 1 ≤ len - off := by omega
      have hr' : off + max f.size 1 ≤ L := by omega
      obtain ⟨i1, i2⟩ := ih (fun g hg => hw g (List.mem_cons_of_mem _ hg)) (off := off + f.size) (k := k + f.size) (v := v.drop f.ty.arity)
        (m := (f.ty.pack (v.take f.ty.arity) m (a + off) (len - off)).mem) (by omega) (by omega) (zeroAt_tail hz)
      have hwf := hw f (List.mem_cons_self)
      have e2 := hwf.written (v.take f.ty.arity) m (a + off) (len - off) hr
      refine ⟨by simp only; omega, fun i hi => ?_⟩
      rw [i2 i (by omega)]
      exact hwf.out _ m (a + off) (len - off) hr i (by omega)

theorem zeroAt_lt {fs : List Field} {off n : Nat} (h : ∀ z ∈ zeroAt fs 0, z < n) (hl : n ≤ off) : off ∉ zeroAt fs 0 :=
  fun hm => by have := h _ hm; omega

theorem within_table {fs : List Field} {n : Nat} (hw : ∀ f ∈ fs, Within f.ty (max f.size 1)) (ht : total fs = n)
    (hz : ∀ z ∈ zeroAt fs 0, z < n) : Within (table fs) n where
  read m b l h := (unpack_within hw (m' := m) (L := n) h (.inl (by omega)) (by omega) (zeroAt_lt hz (le_refl _)) (fun _ _ _ => rfl)).2
  dep m m' b l h e := (unpack_within hw (L := n) h (.inl (by omega)) (by omega) (zeroAt_lt hz (le_refl _)) (fun i h1 h2 => e i (by omega) h2)).1
  written v m b l h := (pack_within hw (L := n) h (.inl (by omega)) (by omega) (zeroAt_lt hz (le_refl _))).1
  out v m b l h i hi := (pack_within hw (L := n) h (.inl (by omega)) (by omega) (zeroAt_lt hz (le_refl _))).2 i (by omega)

theorem within_portIdentity : Within (table portIdentity) 10 :=
  within_table (by
    intro f hf
    simp only [portIdentity, List.mem_cons, List.not_mem_nil, or_false] at hf
    rcases hf with rfl | rfl
    · exact within_checked 8
    · exact within_uint 2) rfl (by decide)

theorem within_timestamp : Within (table timestamp) 10 :=
  within_table (by
    intro f hf
    simp only [timestamp, List.mem_cons, List.not_mem_nil, or_false] at hf
    rcases hf with rfl | rfl
    · exact within_checked 6
    · exact within_uint 4) rfl (by decide)

theorem within_clockQuality : Within (table clockQuality) 4 :=
  within_table (by
    intro f hf
    simp only [clockQuality, List.mem_cons, List.not_mem_nil, or_false] at hf
    rcases hf with rfl | rfl | rfl
    · exact within_uint 1
    · exact within_uint 1
    · exact within_uint 2) rfl (by decide)

/-- The rows that occur in the tables. -/
inductive Row : Field → Prop where
  | uint (n : Nat) : Row ⟨n + 1, uint (n + 1)⟩
  | checked (n : Nat) : Row ⟨n + 1, checked (n + 1)⟩
  | upper : Row ⟨0, upper⟩
  | lower : Row ⟨1, lower⟩
  | port : Row ⟨10, table portIdentity⟩
  | stamp : Row ⟨10, table timestamp⟩
  | quality : Row ⟨4, table clockQuality⟩

theorem Row.within {f : Field} (h : Row f) : Within f.ty (max f.size 1) := by
  cases h with
  | uint n => rw [show max n.succ 1 = n + 1 by omega]; exact within_uint _
  | checked n => rw [show max n.succ 1 = n + 1 by omega]; exact within_checked _
  | upper => exact within_upper
  | lower => exact within_lower
  | port => exact within_portIdentity
  | stamp => exact within_timestamp
  | quality => exact within_clockQuality

theorem rows_header : ∀ f ∈ header, Within f.ty (max f.size 1) := by
  intro f hf
  simp only [header, List.mem_cons, List.not_mem_nil, or_false] at hf
  apply Row.within
  rcases hf with rfl | rfl | rfl | rfl | rfl | rfl | rfl | rfl | rfl | rfl | rfl | rfl | rfl | rfl | rfl <;> constructor

theorem within_header : Within (table header) 34 := within_table rows_header rfl (by decide)

theorem rows_signaling : ∀ f ∈ signaling, Within f.ty (max f.size 1) := by
  intro f hf
  simp only [signaling, List.mem_cons, List.not_mem_nil, or_false] at hf
  rcases hf with rfl | rfl
  · exact within_header
  · exact within_portIdentity

theorem rows_management : ∀ f ∈ management, Within f.ty (max f.size 1) := by
  intro f hf
  simp only [management, List.mem_cons, List.not_mem_nil, or_false] at hf
  rcases hf with rfl | hf
  · exact within_header
  · apply Row.within
    rcases hf with rfl | rfl | rfl | rfl | rfl | rfl <;> constructor

/-- The tables that have neither nibbles nor a header. -/
theorem rows_plain {fs : List Field}
    (h : fs ∈ [managementTLV, defaultDataSet, rxTiming, rxTimingElement, rxComputed, rxComputedElement, txTimestampsElement, slaveStatus]) :
    (∀ f ∈ fs, Within f.ty (max f.size 1)) ∧ zeroAt fs 0 = [] := by
  simp only [List.mem_cons, List.not_mem_nil, or_false] at h
  rcases h with rfl | rfl | rfl | rfl | rfl | rfl | rfl | rfl <;> refine ⟨fun f hf => ?_, rfl⟩ <;>
    simp only [managementTLV, defaultDataSet, rxTiming, rxTimingElement, rxComputed, rxComputedElement, txTimestampsElement, slaveStatus,
      List.mem_cons, List.not_mem_nil, or_false] at hf <;> apply Row.within
  · rcases hf with rfl | rfl | rfl <;> constructor
  · rcases hf with rfl | rfl | rfl | rfl | rfl | rfl | rfl | rfl | rfl <;> constructor
  · rcases hf with rfl; constructor
  · rcases hf with rfl | rfl | rfl | rfl | rfl <;> constructor
  · rcases hf with rfl | rfl | rfl <;> constructor
  · rcases hf with rfl | rfl | rfl | rfl <;> constructor
  · rcases hf with rfl | rfl <;> constructor
  · rcases hf with rfl | rfl | rfl | rfl | rfl | rfl | rfl <;> constructor

theorem rows_tx : ∀ f ∈ txTimestamps, Within f.ty (max f.size 1) := by
  intro f hf
  simp only [txTimestamps, List.mem_cons, List.not_mem_nil, or_false] at hf
  apply Row.within
  rcases hf with rfl | rfl | rfl | rfl <;> constructor

theorem rows_capabilities : ∀ f ∈ capabilities, Within f.ty (max f.size 1) := by
  intro f hf
  simp only [capabilities, List.mem_cons, List.not_mem_nil, or_false] at hf
  apply Row.within
  rcases hf with rfl | rfl <;> constructor

/-! ## Round trips of rows -/

/-- Values encoded by the rows are decoded by them. -/
def RoundTrip (fs : List Field) (Valid : List Nat → Prop) (n : Nat) : Prop :=
  ∀ vs m a sp, n ≤ sp → Valid vs → ∃ m' h, packFields a sp fs vs m 0 0 = ⟨true, n, m', h⟩ ∧ (∀ i, i < a ∨ a + n ≤ i → m' i = m i) ∧
    ∀ m'' b len, n ≤ len → load m'' b n = load m' a n → ∃ h', unpackFields m'' b len fs 0 0 = ⟨true, n, vs.map some, h'⟩

/-- As `RoundTrip`, the decoded values being a function of the encoded ones. -/
def RoundTripTo (d : List Nat → List (Option Nat)) (fs : List Field) (Valid : List Nat → Prop) (n : Nat) : Prop :=
  ∀ vs m a sp, n ≤ sp → Valid vs → ∃ m' h, packFields a sp fs vs m 0 0 = ⟨true, n, m', h⟩ ∧ (∀ i, i < a ∨ a + n ≤ i → m' i = m i) ∧
    ∀ m'' b len, n ≤ len → load m'' b n = load m' a n → ∃ h', unpackFields m'' b len fs 0 0 = ⟨true, n, d vs, h'⟩

theorem Seg.roundTrip {fs : List Field} {ws : List Nat} {n : Nat} (h : Seg fs ws n) : RoundTrip fs (Fits ws) n := by
  intro vs m a sp hn hf
  obtain ⟨l, hi, e, hl, hh, hb⟩ := h.good.pack vs m a sp hn hf
  refine ⟨_, _, e, fun i hi => store_out (by omega), fun m'' b len hlen hld => ?_⟩
  obtain ⟨vs', h', e', hh', _⟩ := h.good.unpack m'' b len hlen
  rw [hld, ← hl, load_store_self] at hh'
  refine ⟨h', ?_⟩
  rw [hh.unique hh']; exact e'

theorem lower_bits (x : Byte) (t : Nat) (ht : t < 16) : (((x &&& 0xF0#8) ||| BitVec.ofNat 8 t) &&& 0x0F#8).toNat = t := by
  have h : ∀ t : Fin 16, (BitVec.ofNat 8 t.val &&& 0x0F#8).toNat = t.val := by decide
  have h3 : ∀ x : Byte, (x &&& 0xF0#8) &&& 0x0F#8 = 0#8 := by decide
  have hd : ∀ a b c : Byte, (a ||| b) &&& c = (a &&& c) ||| (b &&& c) := fun a b c => by
    ext i hi; simp [Bool.and_or_distrib_right]
  rw [hd, h3, BitVec.zero_or]
  exact h ⟨t, ht⟩

theorem upper_bits (r : Nat) (hr : r < 256) : (BitVec.ofNat 8 r >>> 4).toNat = r / 16 := by
  simp only [BitVec.toNat_ushiftRight, BitVec.toNat_ofNat, Nat.shiftRight_eq_div_pow]
  omega

/-- What of the preamble of the transmit timestamps is encoded. -/
def TxValid (vs : List Nat) : Prop := ∃ c p t r0 r, vs = [c, p, t, r0, r] ∧ c < 2 ^ 64 ∧ p < 2 ^ 16 ∧ t < 16 ∧ r < 256

theorem tx_pack (c p t r0 r : Nat) (hc : c < 2 ^ 64) (hp : p < 2 ^ 16) (ht : t < 16) (hr : r < 256) (m : Mem) (a sp : Nat) (hn : 12 ≤ sp) :
    ∃ m' h, packFields a sp txTimestamps [c, p, t, r0, r] m 0 0 = ⟨true, 12, m', h⟩ ∧ (∀ i, i < a ∨ a + 12 ≤ i → m' i = m i) ∧
      ∀ m'' b len, 12 ≤ len → load m'' b 12 = load m' a 12 →
        ∃ h', unpackFields m'' b len txTimestamps 0 0 = ⟨true, 12, [some c, some p, some t, some (r / 16), some r], h'⟩ := by
  obtain ⟨l, hi, e, hl, hh, hb⟩ := (seg_field seg_portIdentity.good).pack [⟨1, lower⟩, ⟨0, upper⟩, ⟨1, uint 1⟩] [c, p] [t, r0, r] m a sp 0 0
    (by omega) (.cons hc (.cons hp .nil))
  let m1 := store m (a + 0) l
  let m2 := store m1 (a + 10) [(m1 (a + 10) &&& 0xF0#8) ||| BitVec.ofNat 8 t]
  let m3 := store m2 (a + 11) [(m2 (a + 11) &&& 0x0F#8) ||| (BitVec.ofNat 8 r0 <<< 4)]
  let m4 := store m3 (a + 11) (toBE 1 r)
  have e4 : packFields a sp [⟨1, lower⟩, ⟨0, upper⟩, ⟨1, uint 1⟩] [t, r0, r] m1 (0 + 10) (0 + 10)
      = ⟨true, 12, m4, max (a + 10 + 1) (max (a + 11 + 1) (max (a + 11 + 1) a))⟩ := by
    simp only [packFields]
    rw [if_neg (by omega), if_neg (by omega), if_neg (by omega)]
    rfl
  refine ⟨m4, max hi (max (a + 10 + 1) (max (a + 11 + 1) (max (a + 11 + 1) a))), ?_, ?_, ?_⟩
  · rw [show txTimestamps = [⟨10, table portIdentity⟩] ++ [⟨1, lower⟩, ⟨0, upper⟩, ⟨1, uint 1⟩] from rfl,
      show [c, p, t, r0, r] = [c, p] ++ [t, r0, r] from rfl, e, e4]
  · intro i hi
    show m4 i = m i
    rw [show m4 i = m3 i from store_out (by simp; omega), show m3 i = m2 i from store_out (by simp; omega),
      show m2 i = m1 i from store_out (by simp; omega), show m1 i = m i from store_out (by omega)]
  · intro m'' b len hlen hld
    obtain ⟨vs', hi', e', hh', _⟩ := (seg_field seg_portIdentity.good).unpack [⟨1, lower⟩, ⟨0, upper⟩, ⟨1, uint 1⟩] m'' b len 0 0 (by omega)
    have hpre : load m'' (b + 0) 10 = l := by
      rw [load_shift hld (by omega : 0 + 10 ≤ 12), load_store_out (by simp), load_store_out (by simp), load_store_out (by simp), ← hl]
      exact load_store_self m (a + 0) l
    rw [hpre] at hh'
    rw [show txTimestamps = [⟨10, table portIdentity⟩] ++ [⟨1, lower⟩, ⟨0, upper⟩, ⟨1, uint 1⟩] from rfl, e', ← hh.unique hh']
    have b10 : m'' (b + 10) = m4 (a + 10) := eq_of_load hld (by omega)
    have b11 : m'' (b + 11) = m4 (a + 11) := eq_of_load hld (by omega)
    have c10 : m4 (a + 10) = (m1 (a + 10) &&& 0xF0#8) ||| BitVec.ofNat 8 t := by
      rw [show m4 (a + 10) = m3 (a + 10) from store_out (by simp), show m3 (a + 10) = m2 (a + 10) from store_out (by simp)]
      simp [m2, store]
    have c11 : m4 (a + 11) = BitVec.ofNat 8 r := by simp [m4, store, toBE]
    have hf : unpackFields m'' b len [⟨1, lower⟩, ⟨0, upper⟩, ⟨1, uint 1⟩] (0 + 10) (0 + 10)
        = ⟨true, 12, [some t, some (r / 16), some r], max (b + 10 + 1) (max (b + 11 + 1) (max (b + 11 + 1) b))⟩ := by
      simp only [unpackFields]
      rw [if_neg (by omega), if_neg (by omega), if_neg (by omega)]
      simp only [lower, upper, uint, Nat.zero_add, Nat.reduceAdd, b10, c10, lower_bits _ _ ht, Nat.add_zero, b11, c11, upper_bits r hr,
        load, List.range_one, List.map_cons, List.map_nil, ofBE, List.foldl_cons, List.foldl_nil, Nat.zero_mul, BitVec.toNat_ofNat,
        List.cons_append, List.nil_append]
      rw [Nat.mod_eq_of_lt (by omega)]
    rw [hf]
    exact ⟨_, rfl⟩

theorem roundTrip_tx : RoundTripTo (fun v => [v[0]?, v[1]?, v[2]?, v[4]?.map (· / 16), v[4]?]) txTimestamps TxValid 12 := by
  rintro vs m a sp hn ⟨c, p, t, r0, r, rfl, hc, hp, ht, hr⟩
  exact tx_pack c p t r0 r hc hp ht hr m a sp hn

/-! ## Elements -/

theorem packElements_ok {fs : List Field} {V : List Nat → Prop} {n : Nat} (rt : RoundTrip fs V n) {els : List (List Nat)}
    (hv : ∀ v ∈ els, V v) (space : Nat) (m : Mem) (off hi : Nat) (hs : off + els.length * n ≤ space) :
    ∃ m' hi', packElements fs space els m (off : Int) hi = (m', ((off + els.length * n : Nat) : Int), hi') ∧
      (∀ i, i < off ∨ off + els.length * n ≤ i → m' i = m i) ∧
      ∀ m'' a len o, o + els.length * n ≤ len → load m'' (a + o) (els.length * n) = load m' off (els.length * n) →
        ∃ h, unpackElements fs m'' a len els.length o = some (els.map (fun v => v.map some), h) := by
  induction els generalizing m off hi with
  | nil => exact ⟨m, hi, by simp [packElements], fun _ _ => rfl, fun m'' a len o _ _ => ⟨a, rfl⟩⟩
  | cons v vs ih =>
    simp only [List.length_cons, Nat.succ_mul] at hs ⊢
    obtain ⟨m1, h1, e1, o1, u1⟩ := rt v m off (space - off) (by omega) (hv v (List.mem_cons_self))
    obtain ⟨m2, h2, e2, o2, u2⟩ := ih (fun w hw => hv w (List.mem_cons_of_mem _ hw)) m1 (off + n) (max hi h1) (by omega)
    have et : off + n + vs.length * n = off + (vs.length * n + n) := by omega
    refine ⟨m2, h2, ?_, fun i hi => ?_, fun m'' a len o ho hld => ?_⟩
    · simp only [packElements, Int.toNat_natCast, e1, if_true]
      rw [show ((off : Int) + (n : Int)) = ((off + n : Nat) : Int) by push_cast; rfl, e2, et]
    · rw [o2 i (by omega), o1 i (by omega)]
    · have hfirst : load m'' (a + o) n = load m1 off n := by
        have := load_shift hld (o := 0) (k := n) (by omega)
        simp only [Nat.add_zero] at this
        rw [this]
        exact load_congr fun i h1 h2 => o2 i (by omega)
      obtain ⟨h', e'⟩ := u1 m'' (a + o) (len - o) (by omega) hfirst
      have hrest : load m'' (a + (o + n)) (vs.length * n) = load m2 (off + n) (vs.length * n) := by
        have := load_shift hld (o := n) (k := vs.length * n) (by omega)
        rwa [Nat.add_assoc] at this
      obtain ⟨h'', e''⟩ := u2 m'' a len (o + n) (by omega) hrest
      refine ⟨max h' h'', ?_⟩
      simp only [unpackElements, e', e'', Bool.true_eq_false, if_false, Option.map_some, List.map_cons]

theorem setHeaderLength_out {m : Mem} {a v i : Nat} (h : i < a + 2 ∨ a + 4 ≤ i) : setHeaderLength m a v i = m i :=
  store_out (by simp; omega)

theorem getHeaderLength_set {m : Mem} {a v : Nat} (h : v < 65536) : getHeaderLength (setHeaderLength m a v) a = v := by
  unfold getHeaderLength setHeaderLength
  have := load_store_self m (a + 2) (toBE 2 v)
  rw [toBE_length] at this
  rw [this, ofBE_toBE (by omega)]

/-- Appending a TLV and decoding its value. -/
theorem append_ok {pre el : List Field} {V W : List Nat → Prop} {n e : Nat} {d : List Nat → List (Option Nat)} (hp : RoundTripTo d pre V n) (he : RoundTrip el W e) (hn : n % 2 = 0)
    (he2 : e % 2 = 0) (he0 : 0 < e) (hes : (el.map (·.size)).sum = e) (type : Nat) (strict : Bool) (junk : Nat) (pv : List Nat)
    (els : List (List Nat)) (m : Mem) (space : Nat) (hV : V pv) (hW : ∀ v ∈ els, W v) (start : Nat) (hst : getHeaderLength m 0 = start)
    (h4 : 4 ≤ start) (hse : start % 2 = 0) (hsp : space % 2 = 0) (hfit : start + 4 + n + els.length * e ≤ space)
    (h16 : start + 4 + n + els.length * e < 65536) (ht : type < 65536) :
    ∃ m' hi, appendTLV type pre el strict junk pv els m space = some (m', some ((4 + n + els.length * e : Nat) : Int), hi) ∧
      (∀ i, (i < start ∧ i ≠ 2 ∧ i ≠ 3) ∨ start + 4 + n + els.length * e ≤ i → m' i = m i) ∧
      number (load m' 2 2) = start + 4 + n + els.length * e ∧ number (load m' start 2) = type ∧
      number (load m' (start + 2) 2) = n + els.length * e ∧
      ∃ h, unpackTLV pre el m' (start + 4) (n + els.length * e) = some (some (d pv, els.map (fun v => v.map some), h)) := by
  let m1 := store m start (toBE 2 type ++ toBE 2 junk)
  obtain ⟨m2, h2, e2, o2, u2⟩ := hp pv m1 (start + 4) (space - (start + 4)) (by omega) hV
  obtain ⟨m3, h3, e3, o3, u3⟩ := packElements_ok he hW space m2 (start + 4 + n) (max (start + 4) h2) (by omega)
  have heven : (els.length * e) % 2 = 0 := by rw [Nat.mul_mod, he2]; simp
  let m4 := setHeaderLength m3 start (n + els.length * e)
  let m5 := setHeaderLength m4 0 (start + 4 + n + els.length * e)
  have o1 : ∀ i, i < start ∨ start + 4 ≤ i → m1 i = m i := fun i hi => store_out (by simp; omega)
  have o4 : ∀ i, i < start + 2 ∨ start + 4 ≤ i → m4 i = m3 i := fun i hi => setHeaderLength_out hi
  have o5 : ∀ i, i < 2 ∨ 4 ≤ i → m5 i = m4 i := fun i hi => setHeaderLength_out (by omega)
  refine ⟨m5, max h3 4, ?_, ?_, ?_, ?_, ?_, ?_⟩
  · have hb : boundaryOk start space = true := by simp [boundaryOk]; omega
    unfold appendTLV
    simp only [hst, hb, Bool.true_eq_false, if_false]
    rw [if_neg (by omega)]
    rw [show store m start (toBE 2 type ++ toBE 2 junk) = m1 from rfl, e2]
    simp only [Bool.true_eq_false, if_false]
    rw [show ((start : Int) + 4 + (n : Int)) = ((start + 4 + n : Nat) : Int) by push_cast; rfl, e3]
    simp only [finishTLV]
    rw [if_neg (by omega)]
    have ea : ((↑(start + 4 + n + els.length * e) : Int) - ↑start - 4).toNat = n + els.length * e := by omega
    have eb : ((↑(start + 4 + n + els.length * e) : Int) - ↑start) = ((4 + n + els.length * e : Nat) : Int) := by omega
    rw [ea, eb, Int.toNat_natCast]
  · intro i hi
    rw [o5 i (by omega), o4 i (by omega), o3 i (by omega), o2 i (by omega), o1 i (by omega)]
  · rw [← ofBE_eq]; exact getHeaderLength_set (m := m4) (a := 0) h16
  · have : load m5 start 2 = load m1 start 2 := load_congr fun i h1 h2 => by
      rw [o5 i (by omega), o4 i (by omega), o3 i (by omega), o2 i (by omega)]
    have hs := load_shift (m := store m start (toBE 2 type ++ toBE 2 junk)) (m' := fun i => ((toBE 2 type ++ toBE 2 junk).getD i 0))
      (a := start) (a' := 0) (n := 4) (by
        have := load_store_self m start (toBE 2 type ++ toBE 2 junk)
        simp only [List.length_append, toBE_length] at this
        rw [this]; rfl) (o := 0) (k := 2) (by omega)
    rw [this]
    have e0 : load m1 start 2 = toBE 2 type := hs.trans rfl
    rw [e0, number_toBE, Nat.mod_eq_of_lt (by omega)]
  · have : load m5 (start + 2) 2 = load m4 (start + 2) 2 := load_congr fun i h1 h2 => o5 i (by omega)
    rw [this, ← ofBE_eq]
    exact getHeaderLength_set (m := m3) (a := start) (by omega)
  · have hpre : load m5 (start + 4) n = load m2 (start + 4) n := load_congr fun i h1 h2 => by
      rw [o5 i (by omega), o4 i (by omega), o3 i (by omega)]
    obtain ⟨h', e'⟩ := u2 m5 (start + 4) (n + els.length * e) (by omega) hpre
    have hel : load m5 (start + 4 + n) (els.length * e) = load m3 (start + 4 + n) (els.length * e) := load_congr fun i h1 h2 => by
      rw [o5 i (by omega), o4 i (by omega)]
    obtain ⟨h'', e''⟩ := u3 m5 (start + 4) (n + els.length * e) n (by omega) hel
    refine ⟨max h' h'', ?_⟩
    simp only [unpackTLV, e', hes, Bool.true_eq_false, if_false, Nat.add_sub_cancel_left, Nat.mul_div_cancel _ he0, e'', Option.map_some]

/-- The header of the slave status TLV. -/
def hd : List Byte := toBE 2 0x8000 ++ toBE 2 6 ++ toBE 3 0x000F53 ++ toBE 3 1

theorem status_ok (vs : List Nat) (hV : Fits [64, 48, 32, 16, 16, 16, 16, 8] vs) (m : Mem) (space start : Nat) (hst : getHeaderLength m 0 = start)
    (h4 : 4 ≤ start) (hse : start % 2 = 0) (hsp : space % 2 = 0) (hfit : start + 37 ≤ space) (h16 : start + 38 < 65536) :
    ∃ m' hi, appendStatusTLV vs m space = some (m', some 38, hi) ∧
      (∀ i, (i < start ∧ i ≠ 2 ∧ i ≠ 3) ∨ start + 38 ≤ i → m' i = m i) ∧
      number (load m' 2 2) = start + 38 ∧ number (load m' start 2) = 0x8000 ∧ number (load m' (start + 2) 2) = 34 ∧
      number (load m' (start + 4) 3) = 0x000F53 ∧ number (load m' (start + 7) 3) = 1 ∧
      ∀ len, 27 ≤ len → ∃ h, (table slaveStatus).unpack m' (start + 10) len = ⟨true, 27, vs.map some, h⟩ := by
  let m1 := store m start hd
  obtain ⟨m2, h2, e2, o2, u2⟩ := seg_status.roundTrip vs m1 (start + 10) (space - (start + 10)) (by omega) hV
  let m3 := store m2 (start + 37) (b 0)
  let m4 := setHeaderLength m3 start 34
  let m5 := setHeaderLength m4 0 (start + 38)
  have o1 : ∀ i, i < start ∨ start + 10 ≤ i → m1 i = m i := fun i hi => store_out (by simp [hd]; omega)
  have o3 : ∀ i, i ≠ start + 37 → m3 i = m2 i := fun i hi => store_out (by simp [b]; omega)
  have o4 : ∀ i, i < start + 2 ∨ start + 4 ≤ i → m4 i = m3 i := fun i hi => setHeaderLength_out hi
  have o5 : ∀ i, i < 2 ∨ 4 ≤ i → m5 i = m4 i := fun i hi => setHeaderLength_out (by omega)
  have hs : ∀ o k, o + k ≤ 10 → load m1 (start + o) k = load (fun i => hd.getD i 0) (0 + o) k := fun o k hk =>
    load_shift (n := 10) (by
      have := load_store_self m start hd
      rw [show hd.length = 10 from rfl] at this
      rw [this]; rfl) hk
  have hm : ∀ o k, (o + k ≤ 2 ∨ 4 ≤ o) → o + k ≤ 10 → load m5 (start + o) k = load (fun i => hd.getD i 0) (0 + o) k := fun o k h1 h2 => by
    rw [← hs o k h2]
    exact load_congr fun i h3 h4 => by rw [o5 i (by omega), o4 i (by omega), o3 i (by omega), o2 i (by omega)]
  refine ⟨m5, max (max (start + 10) h2) (start + 38), ?_, ?_, ?_, ?_, ?_, ?_, ?_, ?_⟩
  · have hb : boundaryOk start space = true := by simp [boundaryOk]; omega
    unfold appendStatusTLV
    simp only [hst, hb, Bool.true_eq_false, if_false]
    rw [if_neg (by omega)]
    rw [show store m start (toBE 2 0x8000 ++ toBE 2 6 ++ toBE 3 0x000F53 ++ toBE 3 1) = m1 from rfl, e2]
    simp only [Bool.true_eq_false, if_false, finishTLV]
    rw [if_pos (by omega), if_neg (by omega)]
    have ea : ((start : Int) + 10 + ((27 : Nat) : Int)).toNat = start + 37 := by omega
    have eb : ((start : Int) + 10 + ((27 : Nat) : Int) + 1 - ↑start - 4).toNat = 34 := by omega
    have ec : ((start : Int) + 10 + ((27 : Nat) : Int) + 1).toNat = start + 38 := by omega
    have ed : ((start : Int) + 10 + ((27 : Nat) : Int) + 1 - ↑start) = 38 := by omega
    rw [ea, eb, ec, ed]
  · intro i hi
    rw [o5 i (by omega), o4 i (by omega), o3 i (by omega), o2 i (by omega), o1 i (by omega)]
  · rw [← ofBE_eq]; exact getHeaderLength_set (m := m4) (a := 0) h16
  · have := hm 0 2 (by omega) (by omega); rw [Nat.add_zero] at this; rw [this]; decide +kernel
  · have : load m5 (start + 2) 2 = load m4 (start + 2) 2 := load_congr fun i h1 h2 => o5 i (by omega)
    rw [this, ← ofBE_eq]
    exact getHeaderLength_set (m := m3) (a := start) (by omega)
  · rw [hm 4 3 (by omega) (by omega)]; decide +kernel
  · rw [hm 7 3 (by omega) (by omega)]; decide +kernel
  · intro len hlen
    exact u2 m5 (start + 10) len hlen (load_congr fun i h1 h2 => by rw [o5 i (by omega), o4 i (by omega), o3 i (by omega)])

end Verif.Codec
