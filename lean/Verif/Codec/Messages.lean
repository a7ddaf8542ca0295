import Verif.Codec.Bounds

/-! # Lemmas about whole messages -/

set_option linter.unusedSimpArgs false
set_option linter.unusedVariables false

namespace Verif.Codec
open Spec

/-! ## The header -/

theorem header_vals (m : Mem) (a len : Nat) (h : 34 ≤ len) : ((table header).unpack m a len).vals =
    [(m a >>> 4).toNat, (m a &&& 0x0F#8).toNat, (m (a + 1) >>> 4).toNat, (m (a + 1) &&& 0x0F#8).toNat, ofBE (load m (a + 2) 2),
      ofBE (load m (a + 4) 1), ofBE (load m (a + 5) 1), ofBE (load m (a + 6) 1), ofBE (load m (a + 7) 1), ofBE (load m (a + 8) 8),
      ofBE (load m (a + 16) 4), ofBE (load m (a + 20) 8), ofBE (load m (a + 28) 2), ofBE (load m (a + 30) 2), ofBE (load m (a + 32) 1),
      ofBE (load m (a + 33) 1)].map some := by
  have hn : ∀ k, k ≤ 34 → ¬ k > len := fun k hk => by omega
  have h8 : ∀ k, k ≤ 10 → k ≤ len - 20 := fun k hk => by omega
  simp only [table, header, portIdentity, unpackFields, Nat.zero_add, Nat.add_zero, Nat.reduceAdd, hn _ (by decide : 0 ≤ 34),
    hn _ (by decide : 1 ≤ 34), hn _ (by decide : 2 ≤ 34), hn _ (by decide : 4 ≤ 34), hn _ (by decide : 5 ≤ 34), hn _ (by decide : 6 ≤ 34),
    hn _ (by decide : 7 ≤ 34), hn _ (by decide : 8 ≤ 34), hn _ (by decide : 16 ≤ 34), hn _ (by decide : 20 ≤ 34), hn _ (by decide : 30 ≤ 34),
    hn _ (by decide : 32 ≤ 34), hn _ (by decide : 33 ≤ 34), hn _ (by decide : 34 ≤ 34), if_false, upper, lower, uint, checked, Nat.sub_zero,
    h8 8 (by decide), if_true, List.map_cons, List.map_nil, List.cons_append, List.nil_append, Nat.not_lt, gt_iff_lt,
    Nat.not_lt.mpr (h8 8 (by decide)), Nat.not_lt.mpr (h8 10 (by decide)), Nat.add_assoc]

theorem msgUnpackHeader_ok (m : Mem) (len : Nat) (hl : 34 ≤ len) : ∃ h, msgUnpackHeader m len = (some h, 34) ∧
    Holds headerBits (h.fields (ofBE (load m 16 4))) (load m 0 34) ∧ h.typeSpecific = ofLE (load m 16 4) := by
  obtain ⟨vs, hi, e, hh, hb⟩ := seg_header.good.unpack m 0 len hl
  have hv := header_vals m 0 len hl
  rw [e] at hv
  have : vs = _ := List.map_injective_iff.mpr (Option.some_injective _) hv
  rw [this] at hh
  unfold msgUnpackHeader
  rw [if_neg (by omega)]
  exact ⟨_, rfl, by simpa only [Nat.zero_add, Header.fields] using hh, rfl⟩

theorem bits_version (v : Nat) (h : v < 16) : (((BitVec.ofNat 8 v <<< 4) ||| 2#8) >>> 4).toNat = v ∧
    (((BitVec.ofNat 8 v <<< 4) ||| 2#8) &&& 0x0F#8).toNat = 2 := by
  have : ∀ v : Fin 16, (((BitVec.ofNat 8 v.val <<< 4) ||| 2#8) >>> 4).toNat = v.val ∧
    (((BitVec.ofNat 8 v.val <<< 4) ||| 2#8) &&& 0x0F#8).toNat = 2 := by decide
  exact this ⟨v, h⟩

theorem bits_type (v : Nat) (h : v < 16) : (BitVec.ofNat 8 v >>> 4).toNat = 0 ∧ (BitVec.ofNat 8 v &&& 0x0F#8).toNat = v := by
  have : ∀ v : Fin 16, (BitVec.ofNat 8 v.val >>> 4).toNat = 0 ∧ (BitVec.ofNat 8 v.val &&& 0x0F#8).toNat = v.val := by decide
  exact this ⟨v, h⟩

theorem ofBE_b {v : Nat} (h : v < 256) : ofBE (b v) = v := by
  simp [ofBE, b, Nat.mod_eq_of_lt h]

/-- The header decoded from what was written. -/
theorem header_of {M : Mem} {len : Nat} (hl : 34 ≤ len) {t vm L dom f0 f1 corr id port seq ctl li : Nat} (h0 : M 0 = BitVec.ofNat 8 t)
    (h1 : M 1 = (BitVec.ofNat 8 vm <<< 4) ||| 2#8) (h2 : load M 2 2 = toBE 2 L) (h4 : load M 4 1 = b dom) (h5 : load M 5 1 = b 0)
    (h6 : load M 6 1 = b f0) (h7 : load M 7 1 = b f1) (h8 : load M 8 8 = toBE 8 corr) (h16 : load M 16 4 = zeros 4)
    (h20 : load M 20 8 = toBE 8 id) (h28 : load M 28 2 = toBE 2 port) (h30 : load M 30 2 = toBE 2 seq) (h32 : load M 32 1 = b ctl)
    (h33 : load M 33 1 = b li) (rt : t < 16) (rv : vm < 16) (rL : L < 65536) (rd : dom < 256) (r0 : f0 < 256) (r1 : f1 < 256)
    (rc : corr < 2 ^ 64) (ri : id < 2 ^ 64) (rp : port < 65536) (rs : seq < 65536) (rctl : ctl < 256) (rli : li < 256) :
    (msgUnpackHeader M len).1 = some ⟨0, t, vm, 2, L, dom, 0, f0, f1, corr, 0, id, port, seq, ctl, li⟩ := by
  unfold msgUnpackHeader
  rw [if_neg (by omega), h0, h1, h2, h4, h5, h6, h7, h8, h16, h20, h28, h30, h32, h33, (bits_type t rt).1, (bits_type t rt).2,
    (bits_version vm rv).1, (bits_version vm rv).2, ofBE_toBE (by omega), ofBE_b rd, ofBE_b (by omega), ofBE_b r0, ofBE_b r1,
    ofBE_toBE (by omega), ofBE_toBE (by omega), ofBE_toBE (by omega), ofBE_toBE (by omega), ofBE_b rctl, ofBE_b rli]
  rfl

theorem withHeader_ok {space t n : Nat} {c : Clock} {k : List (Nat × List Byte) → Packed} (h : 34 + n ≤ space) :
    withHeader space c t n k = k [(0, [BitVec.ofNat 8 t]), (1, [(BitVec.ofNat 8 c.versionMinor <<< 4) ||| 2#8]), (2, b 0), (3, b 0), (4, b c.domain),
      (5, b 0), (6, b (if (t = 0 ∨ t = 3) ∧ c.twoStep then 2 else 0)), (7, b 0), (8, zeros 12), (20, toBE 8 c.identity),
      (28, toBE 2 c.port), (30, b 0), (31, b 0), (32, b 0), (33, b 0x7F)] := by
  unfold withHeader msgPackHeader
  rw [if_neg (by omega)]
  simp only
  rw [if_neg (by omega)]

theorem withHeader_short {space t n : Nat} {c : Clock} {k : List (Nat × List Byte) → Packed} (h : space < 34 + n) :
    withHeader space c t n k = .assertion ∨ ∃ ws, withHeader space c t n k = .error ws ∧ writeEnd ws = 34 ∧ 34 ≤ space := by
  unfold withHeader msgPackHeader
  by_cases h34 : 0 + 34 > space
  · rw [if_pos h34]; exact .inl rfl
  · rw [if_neg h34]
    simp only
    rw [if_pos (by omega)]
    exact .inr ⟨_, rfl, by simp [writeEnd, b, zeros], by omega⟩

theorem write_out {m : Mem} {ws : List (Nat × List Byte)} {i : Nat} (h : writeEnd ws ≤ i) : write m ws i = m i := by
  induction ws generalizing m with
  | nil => rfl
  | cons w ws ih =>
    simp only [writeEnd] at h
    simp only [write]
    rw [ih (by omega), store_out (by omega)]

theorem write_append (m : Mem) (us ws : List (Nat × List Byte)) : write m (us ++ ws) = write (write m us) ws := by
  induction us generalizing m with
  | nil => rfl
  | cons u us ih => simp only [List.cons_append, write, ih]

theorem stamp_of {M : Mem} {len s n : Nat} (hl : 44 ≤ len) (h1 : load M 34 6 = toBE 6 s) (h2 : load M 40 4 = toBE 4 n) (r1 : s < 2 ^ 48)
    (r2 : n < 2 ^ 32) : (msgUnpackStamp M len).1 = some ⟨s, n⟩ := by
  unfold msgUnpackStamp
  rw [if_neg (by omega), h1, h2, ofBE_toBE (by omega), ofBE_toBE (by omega)]

theorem resp_of {M : Mem} {len s n id port : Nat} (hl : 54 ≤ len) (h1 : load M 34 6 = toBE 6 s) (h2 : load M 40 4 = toBE 4 n)
    (h3 : load M 44 8 = toBE 8 id) (h4 : load M 52 2 = toBE 2 port) (r1 : s < 2 ^ 48) (r2 : n < 2 ^ 32) (r3 : id < 2 ^ 64) (r4 : port < 65536) :
    (msgUnpackResp M len).1 = some ⟨⟨s, n⟩, id, port⟩ := by
  unfold msgUnpackResp
  rw [if_neg (by omega), h1, h2, h3, h4, ofBE_toBE (by omega), ofBE_toBE (by omega), ofBE_toBE (by omega), ofBE_toBE (by omega)]

theorem precise_ok {t : Time.Ts} (hs : 0 ≤ t.sec) (sub : Bool) (extra : Nat) (junk : Nat × Nat × Nat) :
    preciseTimestamp t sub extra junk = (true, [(34, toBE 6 t.sec.toNat), (40, toBE 4 t.nsec.toNat),
      (8, toBE 8 (((if sub then -(t.frac / 65536 : Int) else (t.frac / 65536 : Int)) + extra) % 18446744073709551616).toNat)]) := by
  unfold preciseTimestamp Time.fromInternalTime
  rw [if_neg (by omega)]

theorem signed64_sum {x : Int} {e : Nat} (he : e < 2 ^ 64) (h1 : -9223372036854775808 ≤ x + signed64 e) (h2 : x + signed64 e < 9223372036854775808) :
    signed64 ((x + e) % 18446744073709551616).toNat = x + signed64 e := by
  unfold signed64 at *
  split at h1 <;> split <;> omega

/-! ## Elements within bounds -/

theorem pack_size {fs : List Field} {m : Mem} {v : List Nat} {a len off k : Nat} (h : (packFields a len fs v m off k).ok = true) :
    (packFields a len fs v m off k).size = k + total fs := by
  induction fs generalizing off k m v with
  | nil => simp [packFields, total]
  | cons f fs ih =>
    simp only [packFields] at h ⊢
    by_cases hc : off + f.size > len
    · rw [if_pos hc] at h; simp at h
    · rw [if_neg hc] at h ⊢
      simp only [ih h, total_cons]; omega

theorem pack_fits {fs : List Field} {m : Mem} {v : List Nat} {a len off k : Nat} (ho : off ≤ len) (h : (packFields a len fs v m off k).ok = true) :
    off + total fs ≤ len := by
  by_contra hc
  rw [pack_short (by omega) ho] at h
  cases h

theorem packElements_within {fs : List Field} (hw : ∀ f ∈ fs, Within f.ty (max f.size 1)) (hz : zeroAt fs 0 = []) {space : Nat}
    {els : List (List Nat)} {m : Mem} {off : Int} {hi : Nat} (h0 : (els.length : Int) ≤ off) (hs : off ≤ space) (hh : hi ≤ space) :
    let r := packElements fs space els m off hi
    (∀ i, space ≤ i → r.1 i = m i) ∧ 0 ≤ r.2.1 ∧ r.2.1 ≤ space ∧ r.2.2 ≤ space := by
  induction els generalizing m off hi with
  | nil => exact ⟨fun _ _ => rfl, by simpa [packElements] using h0, hs, hh⟩
  | cons v vs ih =>
    simp only [List.length_cons] at h0
    have ho : off.toNat ≤ space := by omega
    obtain ⟨p1, p2⟩ := pack_within hw (v := v) (m := m) (a := off.toNat) (len := space - off.toNat) (off := 0) (k := 0)
      (L := space - off.toNat) (le_refl _) (.inr rfl) (by omega) (by rw [hz]; simp)
    simp only [packElements]
    by_cases hok : (packFields off.toNat (space - off.toNat) fs v m 0 0).ok = true
    · have hsz := pack_size hok
      have hfit := pack_fits (by omega) hok
      rw [if_pos hok]
      obtain ⟨i1, i2⟩ := ih (m := (packFields off.toNat (space - off.toNat) fs v m 0 0).mem)
        (off := off + ((packFields off.toNat (space - off.toNat) fs v m 0 0).size : Int))
        (hi := max hi (packFields off.toNat (space - off.toNat) fs v m 0 0).hi) (by omega) (by omega) (by omega)
      exact ⟨fun i hi => (i1 i hi).trans (p2 i (by omega)), i2⟩
    · rw [if_neg hok]
      obtain ⟨i1, i2⟩ := ih (m := (packFields off.toNat (space - off.toNat) fs v m 0 0).mem) (off := off + -1)
        (hi := max hi (packFields off.toNat (space - off.toNat) fs v m 0 0).hi) (by omega) (by omega) (by omega)
      exact ⟨fun i hi => (i1 i hi).trans (p2 i (by omega)), i2⟩

theorem finish_within {m : Mem} {start hi space : Nat} {off : Int} (h0 : 0 ≤ off) (hs : off ≤ space) (hh : hi ≤ space) (h4 : start + 4 ≤ space) :
    (∀ i, space ≤ i → (finishTLV m start off hi space).1 i = m i) ∧ (finishTLV m start off hi space).2.2 ≤ space := by
  unfold finishTLV
  by_cases h1 : off % 2 ≠ 0
  · rw [if_pos h1]
    by_cases h2 : off + 1 > space
    · rw [if_pos h2]
      exact ⟨fun i hi => by simp only; rw [setHeaderLength_out (by omega), setHeaderLength_out (by omega)], by simp only; omega⟩
    · rw [if_neg h2]
      exact ⟨fun i hi => by simp only; rw [setHeaderLength_out (by omega), setHeaderLength_out (by omega), store_out (by simp [b]; omega)],
        by simp only; omega⟩
  · rw [if_neg h1]
    exact ⟨fun i hi => by simp only; rw [setHeaderLength_out (by omega), setHeaderLength_out (by omega)], by simp only; omega⟩

theorem append_within {pre el : List Field} (hp : ∀ f ∈ pre, Within f.ty (max f.size 1)) (hpz : ∀ z ∈ zeroAt pre 0, z % 2 = 1)
    (he : ∀ f ∈ el, Within f.ty (max f.size 1)) (hez : zeroAt el 0 = []) {type : Nat} {strict : Bool} {junk : Nat} {pv : List Nat}
    {els : List (List Nat)} {m m' : Mem} {space hi : Nat} {r : Option Int} (hc : els.length ≤ getHeaderLength m 0 + 4)
    (h : appendTLV type pre el strict junk pv els m space = some (m', r, hi)) : (∀ i, space ≤ i → m' i = m i) ∧ hi ≤ space := by
  unfold appendTLV at h
  generalize getHeaderLength m 0 = start at h hc
  simp only at h
  by_cases hb : boundaryOk start space = false
  · rw [if_pos hb] at h; cases h
  rw [if_neg hb] at h
  have hb' : space > 4 ∧ start < space ∧ start % 2 = 0 ∧ space % 2 = 0 := by simpa [boundaryOk] using hb
  by_cases h4 : 4 > space - start
  · rw [if_pos h4] at h; cases h
  rw [if_neg h4] at h
  obtain ⟨p1, p2⟩ := pack_within hp (v := pv) (m := store m start (toBE 2 type ++ toBE 2 junk)) (a := start + 4) (len := space - (start + 4))
    (off := 0) (k := 0) (L := space - (start + 4)) (le_refl _) (.inr rfl) (by omega) (fun hm => by have := hpz _ hm; omega)
  have o1 : ∀ i, space ≤ i → store m start (toBE 2 type ++ toBE 2 junk) i = m i := fun i hi => store_out (by simp; omega)
  by_cases hok : (packFields (start + 4) (space - (start + 4)) pre pv (store m start (toBE 2 type ++ toBE 2 junk)) 0 0).ok = false
  · rw [if_pos hok] at h
    cases strict with
    | true => simp at h
    | false =>
      simp only [Bool.false_eq_true, if_false, Option.some.injEq, Prod.mk.injEq] at h
      obtain ⟨rfl, -, rfl⟩ := h
      exact ⟨fun i hi => (p2 i (by omega)).trans (o1 i hi), by omega⟩
  · rw [if_neg hok] at h
    have hok' : (packFields (start + 4) (space - (start + 4)) pre pv (store m start (toBE 2 type ++ toBE 2 junk)) 0 0).ok = true := by
      simpa using hok
    have hsz := pack_size hok'
    have hfit := pack_fits (by omega) hok'
    obtain ⟨q1, q2, q3, q4⟩ := packElements_within he hez (space := space) (els := els)
      (m := (packFields (start + 4) (space - (start + 4)) pre pv (store m start (toBE 2 type ++ toBE 2 junk)) 0 0).mem)
      (off := (start : Int) + 4 + ((packFields (start + 4) (space - (start + 4)) pre pv (store m start (toBE 2 type ++ toBE 2 junk)) 0 0).size : Int))
      (hi := max (start + 4) (packFields (start + 4) (space - (start + 4)) pre pv (store m start (toBE 2 type ++ toBE 2 junk)) 0 0).hi)
      (by omega) (by omega) (by omega)
    obtain ⟨f1, f2⟩ := finish_within (m := (packElements el space els _ _ _).1) (start := start) q2 q3 q4 (by omega)
    have h' := Option.some.inj h
    rw [h'] at f1 f2
    exact ⟨fun i hi => (f1 i hi).trans ((q1 i hi).trans ((p2 i (by omega)).trans (o1 i hi))), f2⟩

theorem status_within {vs : List Nat} {m m' : Mem} {space hi : Nat} {r : Option Int}
    (h : appendStatusTLV vs m space = some (m', r, hi)) : (∀ i, space ≤ i → m' i = m i) ∧ hi ≤ space := by
  unfold appendStatusTLV at h
  generalize getHeaderLength m 0 = start at h
  simp only at h
  by_cases hb : boundaryOk start space = false
  · rw [if_pos hb] at h; cases h
  rw [if_neg hb] at h
  by_cases h4 : 10 > space - start
  · rw [if_pos h4] at h; cases h
  rw [if_neg h4] at h
  rw [show toBE 2 0x8000 ++ toBE 2 6 ++ toBE 3 0x000F53 ++ toBE 3 1 = hd from rfl] at h
  obtain ⟨hw, hz⟩ := rows_plain (fs := slaveStatus) (by simp)
  obtain ⟨p1, p2⟩ := pack_within hw (v := vs) (m := store m start hd) (a := start + 10) (len := space - (start + 10))
    (off := 0) (k := 0) (L := space - (start + 10)) (le_refl _) (.inr rfl) (by omega) (by rw [hz]; simp)
  have o1 : ∀ i, space ≤ i → store m start hd i = m i := fun i hi => store_out (by simp [hd]; omega)
  by_cases hok : (packFields (start + 10) (space - (start + 10)) slaveStatus vs (store m start hd) 0 0).ok = false
  · rw [if_pos hok] at h; cases h
  · rw [if_neg hok] at h
    have hok' : (packFields (start + 10) (space - (start + 10)) slaveStatus vs (store m start hd) 0 0).ok = true := by simpa using hok
    have hsz := pack_size hok'
    have hfit := pack_fits (by omega) hok'
    obtain ⟨f1, f2⟩ := finish_within (m := (packFields (start + 10) (space - (start + 10)) slaveStatus vs (store m start hd) 0 0).mem)
      (start := start) (space := space)
      (off := (start : Int) + 10 + ((packFields (start + 10) (space - (start + 10)) slaveStatus vs (store m start hd) 0 0).size : Int))
      (hi := max (start + 10) (packFields (start + 10) (space - (start + 10)) slaveStatus vs (store m start hd) 0 0).hi)
      (by omega) (by omega) (by omega) (by omega)
    have h' := Option.some.inj h
    rw [h'] at f1 f2
    exact ⟨fun i hi => (f1 i hi).trans ((p2 i (by omega)).trans (o1 i hi)), f2⟩

/-! ## Decoding of elements within bounds -/

theorem unpack_size {fs : List Field} {m : Mem} {a len off k : Nat} (h : (unpackFields m a len fs off k).ok = true) :
    (unpackFields m a len fs off k).size = k + total fs := by
  induction fs generalizing off k with
  | nil => simp [unpackFields, total]
  | cons f fs ih =>
    simp only [unpackFields] at h ⊢
    by_cases hc : off + f.size > len
    · rw [if_pos hc] at h; simp at h
    · rw [if_neg hc] at h ⊢
      simp only [ih h, total_cons]; omega

theorem unpackElements_within {fs : List Field} (hw : ∀ f ∈ fs, Within f.ty (max f.size 1)) (hz : zeroAt fs 0 = []) {m m' : Mem} {a len n off : Nat}
    (ho : off ≤ len) (e : ∀ i, a ≤ i → i < a + len → m i = m' i) :
    unpackElements fs m a len n off = unpackElements fs m' a len n off ∧ ∀ r, unpackElements fs m a len n off = some r → r.2 ≤ a + len := by
  induction n generalizing off with
  | zero => exact ⟨rfl, fun r hr => by cases hr; simp⟩
  | succ n ih =>
    simp only [unpackElements]
    obtain ⟨u1, u2⟩ := unpack_within hw (m := m) (m' := m') (a := a + off) (len := len - off) (off := 0) (k := 0) (L := len - off) (le_refl _)
      (.inr rfl) (by omega) (by rw [hz]; simp) (fun i h1 h2 => e i (by omega) (by omega))
    rw [← u1]
    by_cases hok : (unpackFields m (a + off) (len - off) fs 0 0).ok = false
    · rw [if_pos hok, if_pos hok]; exact ⟨rfl, fun r hr => by cases hr⟩
    · rw [if_neg hok, if_neg hok]
      have hok' : (unpackFields m (a + off) (len - off) fs 0 0).ok = true := by simpa using hok
      have hsz := unpack_size hok'
      have hfit : 0 + total fs ≤ len - off := by
        by_contra hc
        rw [unpack_short (by omega) (by omega)] at hok'
        cases hok'
      obtain ⟨i1, i2⟩ := ih (off := off + (unpackFields m (a + off) (len - off) fs 0 0).size) (by omega)
      refine ⟨by rw [i1], fun r hr => ?_⟩
      obtain ⟨x, hx, rfl⟩ := Option.map_eq_some_iff.mp hr
      have := i2 x hx
      simp only
      omega

theorem unpackTLV_within {pre el : List Field} (hp : ∀ f ∈ pre, Within f.ty (max f.size 1)) (he : ∀ f ∈ el, Within f.ty (max f.size 1))
    (hez : zeroAt el 0 = []) {m m' : Mem} {a len : Nat} (hpz : len ∉ zeroAt pre 0) (e : ∀ i, a ≤ i → i < a + len → m i = m' i) :
    unpackTLV pre el m a len = unpackTLV pre el m' a len ∧ ∀ r, unpackTLV pre el m a len = some (some r) → r.2.2 ≤ a + len := by
  unfold unpackTLV
  obtain ⟨u1, u2⟩ := unpack_within hp (m := m) (m' := m') (a := a) (len := len) (off := 0) (k := 0) (L := len) (le_refl _)
    (.inr rfl) (by omega) hpz (fun i h1 h2 => e i (by omega) h2)
  simp only [← u1]
  by_cases hok : (unpackFields m a len pre 0 0).ok = false
  · rw [if_pos hok, if_pos hok]; exact ⟨rfl, fun r hr => by cases hr⟩
  · rw [if_neg hok, if_neg hok]
    have hok' : (unpackFields m a len pre 0 0).ok = true := by simpa using hok
    have hsz := unpack_size hok'
    have hfit : 0 + total pre ≤ len := by
      by_contra hc
      rw [unpack_short (by omega) (by omega)] at hok'
      cases hok'
    obtain ⟨i1, i2⟩ := unpackElements_within he hez (m := m) (m' := m') (a := a) (len := len)
      (n := (len - (unpackFields m a len pre 0 0).size) / (el.map (·.size)).sum) (off := (unpackFields m a len pre 0 0).size) (by omega) e
    refine ⟨by rw [i1], fun r hr => ?_⟩
    obtain ⟨x, hx, rfl⟩ := Option.map_eq_some_iff.mp (Option.some.inj hr)
    have := i2 x hx
    simp only
    omega

end Verif.Codec
