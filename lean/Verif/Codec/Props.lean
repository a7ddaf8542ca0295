import Verif.Codec.Messages

/-! # Properties of the message codecs: C41, C42, C43, C44, C57 -/

set_option linter.unusedSimpArgs false
set_option linter.unusedVariables false

namespace Verif.Codec
open Spec

/-- Memory holding the given bytes from address 0 on. -/
private def mem (l : List Nat) : Mem := fun i => BitVec.ofNat 8 (l.getD i 0)

/-! ## C41: the header -/

/-- `packMsgHeader` writes exactly the 34 bytes that hold the sixteen fields, and
`unpackMsgHeader` gives them back. -/
theorem C41_table (vs : List Nat) (hf : Fits headerBits vs) (m : Mem) (a sp : Nat) (hs : 34 ≤ sp) :
    ∃ m' h, (table header).pack vs m a sp = ⟨true, 34, m', h⟩ ∧ SameOutside m m' a 34 ∧ Holds headerBits vs (slice m' a 34) ∧
      ∀ len, 34 ≤ len → ∃ h', (table header).unpack m' a len = ⟨true, 34, vs.map some, h'⟩ := by
  obtain ⟨l, hi, e, hl, hh, hb⟩ := seg_header.good.pack vs m a sp hs hf
  refine ⟨_, _, e, fun i hi => store_out (by omega), ?_, fun len hlen => ?_⟩
  · rw [← load_eq_slice]; have := load_store_self m a l; rw [hl] at this; rwa [this]
  · obtain ⟨vs', h', e', hh', _⟩ := seg_header.good.unpack (store m a l) a len hlen
    have := load_store_self m a l
    rw [hl] at this
    rw [this] at hh'
    rw [hh.unique hh']
    exact ⟨h', e'⟩

example : Fits headerBits [0, 11, 1, 2, 64, 127, 0, 2, 60, 2 ^ 64 - 1, 0xDEADBEEF, 0x000F53FFFE112233, 1, 65535, 5, 255] := by
  simp [Fits, headerBits]

/-- Decoding any 34 bytes and encoding the result, anywhere, reproduces the bytes. -/
theorem C41_reencode (m : Mem) (a len : Nat) (hl : 34 ≤ len) :
    ∃ vs h, (table header).unpack m a len = ⟨true, 34, vs.map some, h⟩ ∧ Holds headerBits vs (slice m a 34) ∧
      ∀ (m0 : Mem) (a0 sp : Nat), 34 ≤ sp → ∃ m' h', (table header).pack vs m0 a0 sp = ⟨true, 34, m', h'⟩ ∧ slice m' a0 34 = slice m a 34 := by
  obtain ⟨vs, h, e, hh, hb⟩ := seg_header.good.unpack m a len hl
  refine ⟨vs, h, e, hh, fun m0 a0 sp hsp => ?_⟩
  obtain ⟨l, hi, e', hl', hh', _⟩ := seg_header.good.pack vs m0 a0 sp hsp hh.1
  refine ⟨_, _, e', ?_⟩
  have := load_store_self m0 a0 l
  rw [hl'] at this
  rw [← load_eq_slice, ← load_eq_slice, this]
  exact hh'.bytes hh

example : (34 : Nat) ≤ 44 := by decide

/-- The full claim: the header encoded by `packMsgHeader` is the one decoded by
`msgUnpackHeader`. -/
def C41_statement : Prop :=
  ∀ (vs : List Nat) (m : Mem) (sp len : Nat), Fits headerBits vs → 34 ≤ sp → 34 ≤ len →
    ∃ h, (msgUnpackHeader ((table header).pack vs m 0 sp).mem len).1 = some h ∧ h.fields h.typeSpecific = vs

/-- `msgUnpackHeader` does not swap the bytes of `messageTypeSpecific`. -/
theorem C41_violated : ¬ C41_statement := by
  intro hc
  obtain ⟨h, e, hv⟩ := hc [0, 0, 0, 2, 44, 0, 0, 0, 0, 0, 1, 0, 0, 0, 0, 0] (mem []) 34 34 (by simp [Fits, headerBits]) (by decide) (by decide)
  have e' : (msgUnpackHeader ((table header).pack [0, 0, 0, 2, 44, 0, 0, 0, 0, 0, 1, 0, 0, 0, 0, 0] (mem []) 0 34).mem 34).1
      = some ⟨0, 0, 0, 2, 44, 0, 0, 0, 0, 0, 16777216, 0, 0, 0, 0, 0⟩ := by decide +kernel
  rw [e'] at e
  cases e
  revert hv
  decide

/-- `msgUnpackHeader` finds in any 34 bytes or more the fields they hold, but for
`messageTypeSpecific`, which it takes in the opposite byte order. Missing from the
full claim: that field. -/
theorem C41_header_partial (m : Mem) (len : Nat) (hl : 34 ≤ len) :
    ∃ h, (msgUnpackHeader m len).1 = some h ∧ Holds headerBits (h.fields (number (slice m 16 4))) (slice m 0 34) ∧
      h.typeSpecific = number (slice m 16 4).reverse ∧
      ∀ (m0 : Mem) (sp : Nat), 34 ≤ sp →
        slice ((table header).pack (h.fields (number (slice m 16 4))) m0 0 sp).mem 0 34 = slice m 0 34 := by
  obtain ⟨h, e, hh, ht⟩ := msgUnpackHeader_ok m len hl
  rw [ofBE_eq] at hh
  refine ⟨h, by rw [e], hh, by rw [ht, ofLE, ofBE_eq]; rfl, fun m0 sp hsp => ?_⟩
  obtain ⟨l, hi, e', hl', hh', _⟩ := seg_header.good.pack _ m0 0 sp hsp hh.1
  have := load_store_self m0 0 l
  rw [hl'] at this
  rw [load_eq_slice, load_eq_slice] at hh
  rw [show slice m 16 4 = load m 16 4 from rfl, e', ← load_eq_slice, this]
  exact hh'.bytes hh

example : (msgUnpackHeader (mem [0xFB, 0x12, 0, 64, 5, 0, 2, 60, 0, 0, 0, 0, 0, 1, 0, 0, 1, 2, 3, 4, 1, 2, 3, 4, 5, 6, 7, 8, 0, 1, 0, 9, 5, 255]) 64).1
    = some ⟨15, 11, 1, 2, 64, 5, 0, 2, 60, 65536, 0x04030201, 0x0102030405060708, 1, 9, 5, 255⟩ := by decide +kernel

/-- Updating the sequence number or the flags of an encoded header changes that field
only. -/
theorem C41_update (m : Mem) (len : Nat) (hl : 34 ≤ len) (h : Header) (hd : (msgUnpackHeader m len).1 = some h) :
    (∀ v, v < 65536 → (msgUnpackHeader (updateSequenceId m v) len).1 = some { h with sequenceId := v }) ∧
    (∀ mask value : Byte, (msgUnpackHeader (updateFlags m mask value) len).1
      = some { h with flag0 := ((BitVec.ofNat 8 h.flag0 &&& mask) ||| value).toNat }) ∧
    (∀ v, SameOutside m (updateSequenceId m v) 30 2) ∧ ∀ mask value, SameOutside m (updateFlags m mask value) 6 1 := by
  unfold msgUnpackHeader at hd
  rw [if_neg (by omega)] at hd
  simp only [Option.some.injEq] at hd
  subst hd
  refine ⟨fun v hv => ?_, fun mask value => ?_, fun v i hi => store_out (by simpa using hi), fun mask value i hi => store_out (by simpa using hi)⟩
  · unfold msgUnpackHeader
    rw [if_neg (by omega)]
    have e : ofBE (load (updateSequenceId m v) 30 2) = v := by
      have := load_store_self m 30 (toBE 2 v)
      rw [toBE_length] at this
      rw [show updateSequenceId m v = store m 30 (toBE 2 v) from rfl, this, ofBE_toBE (by omega)]
    rw [e]
    rfl
  · unfold msgUnpackHeader
    rw [if_neg (by omega)]
    have e : ofBE (load (updateFlags m mask value) 6 1) = ((BitVec.ofNat 8 (ofBE (load m 6 1)) &&& mask) ||| value).toNat := by
      simp [load, updateFlags, store, ofBE]
    rw [e]
    rfl

example : (msgUnpackHeader (updateFlags (mem [0, 2, 0, 44, 0, 0, 6]) 0xFD#8 0x40#8) 44).1
    = some ⟨0, 0, 0, 2, 44, 0, 0, 0x44, 0, 0, 0, 0, 0, 0, 0, 0⟩ := by decide +kernel

/-! ## C42: message bodies -/

private def exClock : Clock :=
  { versionMinor := 1, domain := 9, twoStep := true, identity := 0x000F53FFFE112233, port := 1, syncSeq := 65535, announceSeq := 7,
    delayReqSeq := 300, pdelayReqSeq := 4, logSync := 0xFD, logAnnounce := 1, logMinDelayReq := 0xFF, utcOffset := 37, priority1 := 128,
    clockClass := 6, accuracy := 0x21, variance := 0x4E5D, priority2 := 127, grandmaster := 0x0102030405060708, steps := 2, timeSource := 0x20,
    leap59 := false, leap61 := true, utcValid := true, ptpTimescale := true, timeTraceable := false, freqTraceable := true }

private theorem exClock_ranged : exClock.Ranged := by constructor <;> decide

/-- A Sync message decodes to the clock's identity and sequence number, with the
two-step flag as configured and no timestamp. -/
theorem C42_sync (c : Clock) (hc : c.Ranged) (m : Mem) (space len : Nat) (hs : 44 ≤ space) (hl : 44 ≤ len) :
    ∃ ws, msgPackSync space c = .done ws ∧
      (msgUnpackHeader (write m ws) len).1 = some ⟨0, 0, c.versionMinor, 2, 44, c.domain, 0, if c.twoStep then 2 else 0, 0, 0, 0, c.identity, c.port,
        c.syncSeq, 0, c.logSync⟩ ∧ (msgUnpackStamp (write m ws) len).1 = some ⟨0, 0⟩ := by
  refine ⟨_, withHeader_ok hs, header_of (by omega) rfl rfl rfl rfl rfl ?_ rfl rfl rfl rfl rfl rfl rfl rfl (by decide) hc.versionMinor (by decide)
    hc.domain (by split <;> decide) (by decide) (by decide) hc.identity hc.port hc.syncSeq (by decide) hc.logSync,
    stamp_of (by omega) rfl rfl (by decide) (by decide)⟩
  cases c.twoStep <;> rfl

example : exClock.Ranged ∧ (44 : Nat) ≤ 500 := ⟨exClock_ranged, by decide⟩

/-- A Delay_Req message. -/
theorem C42_delayReq (c : Clock) (hc : c.Ranged) (m : Mem) (space len : Nat) (hs : 44 ≤ space) (hl : 44 ≤ len) :
    ∃ ws, msgPackDelayReq space c = .done ws ∧
      (msgUnpackHeader (write m ws) len).1 = some ⟨0, 1, c.versionMinor, 2, 44, c.domain, 0, 0, 0, 0, 0, c.identity, c.port, c.delayReqSeq, 1, 0x7F⟩ ∧
      (msgUnpackStamp (write m ws) len).1 = some ⟨0, 0⟩ :=
  ⟨_, withHeader_ok hs, header_of (by omega) rfl rfl rfl rfl rfl (by rfl) rfl rfl rfl rfl rfl rfl rfl rfl (by decide) hc.versionMinor (by decide)
    hc.domain (by decide) (by decide) (by decide) hc.identity hc.port hc.delayReqSeq (by decide) (by decide),
    stamp_of (by omega) rfl rfl (by decide) (by decide)⟩

example : exClock.Ranged ∧ (44 : Nat) ≤ 500 := ⟨exClock_ranged, by decide⟩

/-- A Pdelay_Req message, with its ten reserved octets zero. -/
theorem C42_pdelayReq (c : Clock) (hc : c.Ranged) (m : Mem) (space len : Nat) (hs : 54 ≤ space) (hl : 44 ≤ len) :
    ∃ ws, msgPackPDelayReq space c = .done ws ∧
      (msgUnpackHeader (write m ws) len).1 = some ⟨0, 2, c.versionMinor, 2, 54, c.domain, 0, 0, 0, 0, 0, c.identity, c.port, c.pdelayReqSeq, 5, 0x7F⟩ ∧
      (msgUnpackStamp (write m ws) len).1 = some ⟨0, 0⟩ ∧ number (slice (write m ws) 44 10) = 0 := by
  refine ⟨_, withHeader_ok (by omega), header_of (by omega) rfl rfl rfl rfl rfl (by rfl) rfl rfl rfl rfl rfl rfl rfl rfl (by decide) hc.versionMinor
    (by decide) hc.domain (by decide) (by decide) (by decide) hc.identity hc.port hc.pdelayReqSeq (by decide) (by decide),
    stamp_of (by omega) rfl rfl (by decide) (by decide), ?_⟩
  exact (congrArg number (rfl : _ = zeros 10)).trans (by decide)

example : exClock.Ranged ∧ (54 : Nat) ≤ 500 := ⟨exClock_ranged, by decide⟩

/-- An Announce message decodes to the grandmaster's attributes; the second flag octet
has the leap second, UTC and traceability flags at their bits. -/
theorem C42_announce (c : Clock) (hc : c.Ranged) (m : Mem) (space len : Nat) (hs : 64 ≤ space) (hl : 64 ≤ len) :
    ∃ ws f, msgPackAnnounce space c = .done ws ∧
      (msgUnpackHeader (write m ws) len).1 = some ⟨0, 11, c.versionMinor, 2, 64, c.domain, 0, 0, f, 0, 0, c.identity, c.port, c.announceSeq, 5,
        c.logAnnounce⟩ ∧
      (msgUnpackAnnounce (write m ws) len).1 = some ⟨⟨0, 0⟩, c.utcOffset, c.priority1, c.clockClass, c.accuracy, c.variance, c.priority2,
        c.grandmaster, c.steps, c.timeSource⟩ ∧
      f < 64 ∧ f.testBit 0 = c.leap61 ∧ f.testBit 1 = c.leap59 ∧ f.testBit 2 = c.utcValid ∧ f.testBit 3 = c.ptpTimescale ∧
      f.testBit 4 = c.timeTraceable ∧ f.testBit 5 = c.freqTraceable := by
  have hb : ∀ a b c d e f : Bool, (a.toNat + 2 * b.toNat + 4 * c.toNat + 8 * d.toNat + 16 * e.toNat + 32 * f.toNat < 64 ∧
      (a.toNat + 2 * b.toNat + 4 * c.toNat + 8 * d.toNat + 16 * e.toNat + 32 * f.toNat).testBit 0 = a ∧
      (a.toNat + 2 * b.toNat + 4 * c.toNat + 8 * d.toNat + 16 * e.toNat + 32 * f.toNat).testBit 1 = b ∧
      (a.toNat + 2 * b.toNat + 4 * c.toNat + 8 * d.toNat + 16 * e.toNat + 32 * f.toNat).testBit 2 = c ∧
      (a.toNat + 2 * b.toNat + 4 * c.toNat + 8 * d.toNat + 16 * e.toNat + 32 * f.toNat).testBit 3 = d ∧
      (a.toNat + 2 * b.toNat + 4 * c.toNat + 8 * d.toNat + 16 * e.toNat + 32 * f.toNat).testBit 4 = e ∧
      (a.toNat + 2 * b.toNat + 4 * c.toNat + 8 * d.toNat + 16 * e.toNat + 32 * f.toNat).testBit 5 = f) := by decide
  have hf := hb c.leap61 c.leap59 c.utcValid c.ptpTimescale c.timeTraceable c.freqTraceable
  refine ⟨_, announceFlags c, withHeader_ok hs, header_of (by omega) rfl rfl rfl rfl rfl (by rfl) rfl rfl rfl rfl rfl rfl rfl rfl (by decide)
    hc.versionMinor (by decide) hc.domain (by decide) (by have := hf.1; unfold announceFlags; omega) (by decide) hc.identity hc.port hc.announceSeq
    (by decide) hc.logAnnounce, ?_, hf⟩
  have step : ∀ {M : Mem}, load M 34 6 = zeros 6 → load M 40 4 = zeros 4 → load M 44 2 = toBE 2 c.utcOffset → load M 47 1 = b c.priority1 →
      load M 48 1 = b c.clockClass → load M 49 1 = b c.accuracy → load M 50 2 = toBE 2 c.variance → load M 52 1 = b c.priority2 →
      load M 53 8 = toBE 8 c.grandmaster → load M 61 2 = toBE 2 c.steps → load M 63 1 = b c.timeSource →
      (msgUnpackAnnounce M len).1 = some ⟨⟨0, 0⟩, c.utcOffset, c.priority1, c.clockClass, c.accuracy, c.variance, c.priority2,
        c.grandmaster, c.steps, c.timeSource⟩ := by
    intro M h1 h2 h3 h4 h5 h6 h7 h8 h9 h10 h11
    unfold msgUnpackAnnounce
    rw [if_neg (by omega), h1, h2, h3, h4, h5, h6, h7, h8, h9, h10, h11, ofBE_toBE (by have := hc.utcOffset; omega), ofBE_b hc.priority1,
      ofBE_b hc.clockClass, ofBE_b hc.accuracy, ofBE_toBE (by have := hc.variance; omega), ofBE_b hc.priority2,
      ofBE_toBE (by have := hc.grandmaster; omega), ofBE_toBE (by have := hc.steps; omega), ofBE_b hc.timeSource]
    rfl
  exact step rfl rfl rfl rfl rfl rfl rfl rfl rfl rfl rfl

example : exClock.Ranged ∧ (64 : Nat) ≤ 500 := ⟨exClock_ranged, by decide⟩

/-- A time that can be sent: not before the epoch, seconds of 48 bits. -/
def Sendable (t : Time.Ts) : Prop := 0 ≤ t.sec ∧ t.sec < 281474976710656 ∧ 0 ≤ t.nsec ∧ t.nsec < 1000000000 ∧ 0 ≤ t.frac ∧ t.frac < 4294967296

private theorem sec_lt {t : Time.Ts} (h : Sendable t) : t.sec.toNat < 2 ^ 48 := by obtain ⟨h1, h2, -⟩ := h; omega
private theorem nsec_lt {t : Time.Ts} (h : Sendable t) : t.nsec.toNat < 2 ^ 32 := by obtain ⟨-, -, h1, h2, -⟩ := h; omega
private theorem corr_lt (x : Int) : (x % 18446744073709551616).toNat < 2 ^ 64 := by omega

/-- A Follow_Up message carries the whole seconds and nanoseconds of the time in its
body and the fraction of a nanosecond, in units of 2^-16 ns, in the correction. -/
theorem C42_followUp (c : Clock) (hc : c.Ranged) (t : Time.Ts) (ht : Sendable t) (seq : Nat) (hq : seq < 65536) (junk : Nat × Nat × Nat) (m : Mem)
    (space len : Nat) (hs : 44 ≤ space) (hl : 44 ≤ len) :
    ∃ ws corr, msgPackFollowUp space c t seq junk = .done ws ∧
      (msgUnpackHeader (write m ws) len).1 = some ⟨0, 8, c.versionMinor, 2, 44, c.domain, 0, 0, 0, corr, 0, c.identity, c.port, seq, 2, c.logSync⟩ ∧
      (msgUnpackStamp (write m ws) len).1 = some ⟨t.sec.toNat, t.nsec.toNat⟩ ∧ signed64 corr = t.frac / 65536 := by
  refine ⟨_, _, (withHeader_ok hs).trans (by simp only [precise_ok ht.1, if_true]; rfl), header_of (by omega) rfl rfl rfl rfl rfl (by rfl) rfl rfl rfl rfl rfl rfl rfl rfl (by decide) hc.versionMinor
    (by decide) hc.domain (by decide) (by decide) (corr_lt _) hc.identity hc.port hq (by decide) hc.logSync,
    stamp_of (by omega) rfl rfl (sec_lt ht) (nsec_lt ht), ?_⟩
  obtain ⟨-, -, -, -, h1, h2⟩ := ht
  rw [signed64_sum (by decide) (by simp [signed64]; omega) (by simp [signed64]; omega)]
  simp [signed64]

example : Sendable ⟨1700000000, 123456789, 0x80000000⟩ := by unfold Sendable; decide

/-- A Delay_Resp message answers the request: its sequence number and port, the time
of receipt, and the correction of the request less the fraction of that time. -/
theorem C42_delayResp (c : Clock) (hc : c.Ranged) (h : Header) (hd : h.domain < 256) (hq : h.sequenceId < 65536) (hi : h.identity < 2 ^ 64)
    (hp : h.port < 65536) (hx : h.correction < 2 ^ 64) (t : Time.Ts) (ht : Sendable t) (junk : Nat × Nat × Nat) (m : Mem) (space len : Nat)
    (hs : 54 ≤ space) (hl : 54 ≤ len) :
    ∃ ws corr, msgPackDelayResp space c h t junk = .done ws ∧
      (msgUnpackHeader (write m ws) len).1 = some ⟨0, 9, c.versionMinor, 2, 54, h.domain, 0, 0, 0, corr, 0, c.identity, c.port, h.sequenceId, 3,
        c.logMinDelayReq⟩ ∧
      (msgUnpackResp (write m ws) len).1 = some ⟨⟨t.sec.toNat, t.nsec.toNat⟩, h.identity, h.port⟩ ∧
      (-9223372036854775808 ≤ signed64 h.correction - t.frac / 65536 → signed64 corr = signed64 h.correction - t.frac / 65536) := by
  refine ⟨_, _, (withHeader_ok hs).trans (by simp only [precise_ok ht.1, if_true]; rfl), header_of (by omega) rfl rfl rfl rfl rfl (by rfl) rfl rfl rfl rfl rfl rfl rfl rfl (by decide) hc.versionMinor
    (by decide) hd (by decide) (by decide) (corr_lt _) hc.identity hc.port hq (by decide) hc.logMinDelayReq,
    resp_of (by omega) rfl rfl rfl rfl (sec_lt ht) (nsec_lt ht) hi hp, fun hr => ?_⟩
  obtain ⟨-, -, -, -, h1, h2⟩ := ht
  have hu : signed64 h.correction < 9223372036854775808 := by unfold signed64; split <;> omega
  rw [signed64_sum hx (by omega) (by omega)]
  omega

example : (-9223372036854775808 : Int) ≤ signed64 (2 ^ 64 - 5) - (0x80000000 : Int) / 65536 ∧ signed64 (2 ^ 64 - 5) = -5 := by decide

/-- A Pdelay_Resp message. -/
theorem C42_pdelayResp (c : Clock) (hc : c.Ranged) (h : Header) (hd : h.domain < 256) (hq : h.sequenceId < 65536) (hi : h.identity < 2 ^ 64)
    (hp : h.port < 65536) (t : Time.Ts) (ht : Sendable t) (junk : Nat × Nat × Nat) (m : Mem) (space len : Nat) (hs : 54 ≤ space) (hl : 54 ≤ len) :
    ∃ ws corr, msgPackPDelayResp space c h t junk = .done ws ∧
      (msgUnpackHeader (write m ws) len).1 = some ⟨0, 3, c.versionMinor, 2, 54, h.domain, 0, if c.twoStep then 2 else 0, 0, corr, 0, c.identity, c.port,
        h.sequenceId, 5, 0x7F⟩ ∧
      (msgUnpackResp (write m ws) len).1 = some ⟨⟨t.sec.toNat, t.nsec.toNat⟩, h.identity, h.port⟩ ∧ signed64 corr = -(t.frac / 65536) := by
  refine ⟨_, _, (withHeader_ok hs).trans (by simp only [precise_ok ht.1, if_true]; rfl), header_of (by omega) rfl rfl rfl rfl rfl ?_ rfl rfl rfl rfl rfl rfl rfl rfl (by decide) hc.versionMinor
    (by decide) hd (by split <;> decide) (by decide) (corr_lt _) hc.identity hc.port hq (by decide) (by decide),
    resp_of (by omega) rfl rfl rfl rfl (sec_lt ht) (nsec_lt ht) hi hp, ?_⟩
  · cases c.twoStep <;> rfl
  · obtain ⟨-, -, -, -, h1, h2⟩ := ht
    rw [signed64_sum (by decide) (by simp [signed64]; omega) (by simp [signed64]; omega)]
    simp [signed64]

example : exClock.Ranged ∧ Sendable ⟨5, 999999999, 1⟩ := ⟨exClock_ranged, by unfold Sendable; decide⟩

/-- A Pdelay_Resp_Follow_Up message carries the correction of the request plus the
fraction of the time of the response. -/
theorem C42_pdelayRespFollowUp (c : Clock) (hc : c.Ranged) (h : Header) (hi : h.identity < 2 ^ 64) (hp : h.port < 65536)
    (hx : h.correction < 2 ^ 64) (t : Time.Ts) (ht : Sendable t) (seq : Nat) (hq : seq < 65536) (junk : Nat × Nat × Nat) (m : Mem)
    (space len : Nat) (hs : 54 ≤ space) (hl : 54 ≤ len) :
    ∃ ws corr, msgPackPDelayRespFollowUp space c h t seq junk = .done ws ∧
      (msgUnpackHeader (write m ws) len).1 = some ⟨0, 10, c.versionMinor, 2, 54, c.domain, 0, 0, 0, corr, 0, c.identity, c.port, seq, 5, 0x7F⟩ ∧
      (msgUnpackResp (write m ws) len).1 = some ⟨⟨t.sec.toNat, t.nsec.toNat⟩, h.identity, h.port⟩ ∧
      (signed64 h.correction + t.frac / 65536 < 9223372036854775808 → signed64 corr = signed64 h.correction + t.frac / 65536) := by
  refine ⟨_, _, (withHeader_ok hs).trans (by simp only [precise_ok ht.1, if_true]; rfl), header_of (by omega) rfl rfl rfl rfl rfl (by rfl) rfl rfl rfl rfl rfl rfl rfl rfl (by decide) hc.versionMinor
    (by decide) hc.domain (by decide) (by decide) (corr_lt _) hc.identity hc.port hq (by decide) (by decide),
    resp_of (by omega) rfl rfl rfl rfl (sec_lt ht) (nsec_lt ht) hi hp, fun hr => ?_⟩
  obtain ⟨-, -, -, -, h1, h2⟩ := ht
  have hu : -9223372036854775808 ≤ signed64 h.correction := by unfold signed64; split <;> omega
  simp only [Bool.false_eq_true, if_false]
  rw [signed64_sum hx (by omega) (by omega)]
  omega

example : signed64 7 + (65536 : Int) / 65536 < 9223372036854775808 := by decide

/-- A time before the epoch is not sent. -/
theorem C42_negative (c : Clock) (h : Header) (t : Time.Ts) (ht : t.sec < 0) (seq : Nat) (junk : Nat × Nat × Nat) (space : Nat) :
    (∀ ws, msgPackFollowUp space c t seq junk ≠ .done ws) ∧ (∀ ws, msgPackDelayResp space c h t junk ≠ .done ws) ∧
    (∀ ws, msgPackPDelayResp space c h t junk ≠ .done ws) ∧ (∀ ws, msgPackPDelayRespFollowUp space c h t seq junk ≠ .done ws) := by
  have hp : ∀ sub extra, (preciseTimestamp t sub extra junk).1 = false := fun sub extra => by
    unfold preciseTimestamp Time.fromInternalTime; rw [if_pos ht]
  refine ⟨fun ws => ?_, fun ws => ?_, fun ws => ?_, fun ws => ?_⟩ <;>
    simp only [msgPackFollowUp, msgPackDelayResp, msgPackPDelayResp, msgPackPDelayRespFollowUp, withHeader, hp, Bool.false_eq_true, if_false] <;>
    (cases msgPackHeader space c _ with
      | none => simp
      | some us => simp only; split <;> simp)

example : (⟨-1, 999999999, 0⟩ : Time.Ts).sec < 0 := by decide

/-! ## C43: truncated messages -/

/-- The full claim for management messages: what is decoded depends on the bytes
received only. -/
def C43_statement : Prop :=
  ∀ (m m' : Mem) (a len : Nat), (∀ i, a ≤ i → i < a + len → m i = m' i) →
    ((table management).unpack m a len).vals = ((table management).unpack m' a len).vals

/-- Given 46 bytes, the decoder of management messages reads the 47th. -/
theorem C43_violated : ¬ C43_statement := by
  intro h
  have := h (fun _ => 0#8) (fun i => if i = 46 then 0x50#8 else 0#8) 0 46 (fun i _ hi => by rw [if_neg (by omega)])
  revert this
  decide +kernel

/-- The full claim for the slave event TLVs: short ones are an error, not an abort. -/
def C43_abort_statement : Prop :=
  ∀ (m : Mem) (a len : Nat), unpackTLV rxTiming rxTimingElement m a len ≠ none ∧ unpackTLV rxComputed rxComputedElement m a len ≠ none ∧
    unpackTLV txTimestamps txTimestampsElement m a len ≠ none

/-- A slave event TLV shorter than its preamble fails an assertion. -/
theorem C43_abort_violated : ¬ C43_abort_statement := by
  intro h
  exact (h (fun _ => 0#8) 0 9).1 (by decide +kernel)

/-- The decoders with explicit offsets report an error exactly when the message is
shorter than its fixed part, read only what was received, and what they decode
depends on that only. -/
theorem C43_messages (m m' : Mem) (len : Nat) (he : ∀ i, i < len → m i = m' i) :
    (msgUnpackHeader m len = msgUnpackHeader m' len ∧ ((msgUnpackHeader m len).1 = none ↔ len < 34) ∧ (msgUnpackHeader m len).2 ≤ len) ∧
    (msgUnpackStamp m len = msgUnpackStamp m' len ∧ ((msgUnpackStamp m len).1 = none ↔ len < 44) ∧ (msgUnpackStamp m len).2 ≤ len) ∧
    (msgUnpackResp m len = msgUnpackResp m' len ∧ ((msgUnpackResp m len).1 = none ↔ len < 54) ∧ (msgUnpackResp m len).2 ≤ len) ∧
    (msgUnpackAnnounce m len = msgUnpackAnnounce m' len ∧ ((msgUnpackAnnounce m len).1 = none ↔ len < 64) ∧ (msgUnpackAnnounce m len).2 ≤ len) := by
  have hl : ∀ a n, a + n ≤ len → load m a n = load m' a n := fun a n h => load_congr fun i h1 h2 => he i (by omega)
  refine ⟨?_, ?_, ?_, ?_⟩
  · unfold msgUnpackHeader
    by_cases h : 0 + 34 > len
    · rw [if_pos h, if_pos h]; simp; omega
    · rw [if_neg h, if_neg h, he 0 (by omega), he 1 (by omega), hl 2 2 (by omega), hl 4 1 (by omega), hl 5 1 (by omega), hl 6 1 (by omega),
        hl 7 1 (by omega), hl 8 8 (by omega), hl 16 4 (by omega), hl 20 8 (by omega), hl 28 2 (by omega), hl 30 2 (by omega), hl 32 1 (by omega),
        hl 33 1 (by omega)]
      simp; omega
  · unfold msgUnpackStamp
    by_cases h : 34 + 10 > len
    · rw [if_pos h, if_pos h]; simp; omega
    · rw [if_neg h, if_neg h, hl 34 6 (by omega), hl 40 4 (by omega)]
      simp; omega
  · unfold msgUnpackResp
    by_cases h : 34 + 20 > len
    · rw [if_pos h, if_pos h]; simp; omega
    · rw [if_neg h, if_neg h, hl 34 6 (by omega), hl 40 4 (by omega), hl 44 8 (by omega), hl 52 2 (by omega)]
      simp; omega
  · unfold msgUnpackAnnounce
    by_cases h : 34 + 30 > len
    · rw [if_pos h, if_pos h]; simp; omega
    · rw [if_neg h, if_neg h, hl 34 6 (by omega), hl 40 4 (by omega), hl 44 2 (by omega), hl 47 1 (by omega), hl 48 1 (by omega), hl 49 1 (by omega),
        hl 50 2 (by omega), hl 52 1 (by omega), hl 53 8 (by omega), hl 61 2 (by omega), hl 63 1 (by omega)]
      simp; omega

example : ∀ i, i < 43 → (mem [8, 2]) i = (fun i => if i < 43 then mem [8, 2] i else 0xFF#8) i := by
  intro i hi; simp [hi]

/-- TLV headers and organisation headers likewise. -/
theorem C43_tlvHeaders (m m' : Mem) (a len : Nat) (he : ∀ i, a ≤ i → i < a + len → m i = m' i) :
    (msgUnpackTLVHeader m a len = msgUnpackTLVHeader m' a len ∧ ((msgUnpackTLVHeader m a len).2.2.1 = true ↔ 4 ≤ len) ∧
      (msgUnpackTLVHeader m a len).2.2.2 ≤ a + len) ∧
    (msgUnpackOrgTLVSubHeader m a len = msgUnpackOrgTLVSubHeader m' a len ∧ ((msgUnpackOrgTLVSubHeader m a len).1 = none ↔ len < 6) ∧
      (msgUnpackOrgTLVSubHeader m a len).2 ≤ a + len) := by
  have hl : ∀ o n, o + n ≤ len → load m (a + o) n = load m' (a + o) n := fun o n h => load_congr fun i h1 h2 => he i (by omega) (by omega)
  refine ⟨?_, ?_⟩
  · unfold msgUnpackTLVHeader
    by_cases h : 0 + 2 > len
    · rw [if_pos h, if_pos h]; simp; omega
    · rw [if_neg h, if_neg h, show load m a 2 = load m' a 2 from hl 0 2 (by omega)]
      simp only
      by_cases h4 : len < 4
      · by_cases ht : ofBE (load m' a 2) = 0
        · rw [if_pos ⟨ht, h4⟩]; simp; omega
        · simp only [ht, false_and, if_false, if_pos (show 2 + 2 > len by omega)]; simp; omega
      · rw [if_neg (by omega), if_neg (by omega), if_neg (by omega), if_neg (by omega), hl 2 2 (by omega)]; simp; omega
  · unfold msgUnpackOrgTLVSubHeader
    by_cases h : 0 + 6 > len
    · rw [if_pos h, if_pos h]; simp; omega
    · rw [if_neg h, if_neg h, show load m a 3 = load m' a 3 from hl 0 3 (by omega), hl 3 3 (by omega)]; simp; omega

example : msgUnpackTLVHeader (mem [0, 3, 0, 8]) 0 3 = (some 3, none, false, 2) := by decide +kernel

/-- The table-driven decoders: an error when the bytes are fewer than the table's, and
no dependence on or access to other bytes, unless the received bytes end just before
a row for an upper nibble: the first two octets of a header, the 47th of a
management message, the 12th of the transmit timestamps' preamble. Missing from
the full claim: these lengths, and the abort on short slave event TLVs. -/
theorem C43_tables_partial (m m' : Mem) (a len : Nat) (he : ∀ i, a ≤ i → i < a + len → m i = m' i) :
    (∀ fs ∈ [managementTLV, defaultDataSet, rxTiming, rxTimingElement, rxComputed, rxComputedElement, txTimestampsElement, slaveStatus, signaling,
        capabilities],
      (table fs).unpack m a len = (table fs).unpack m' a len ∧ ((table fs).unpack m a len).hi ≤ a + len) ∧
    (len ≠ 0 → len ≠ 1 → (table header).unpack m a len = (table header).unpack m' a len ∧ ((table header).unpack m a len).hi ≤ a + len) ∧
    (len ≠ 46 → (table management).unpack m a len = (table management).unpack m' a len ∧ ((table management).unpack m a len).hi ≤ a + len) ∧
    (len ≠ 11 → (table txTimestamps).unpack m a len = (table txTimestamps).unpack m' a len ∧
      ((table txTimestamps).unpack m a len).hi ≤ a + len) ∧
    (∀ p ∈ [(managementTLV, 6), (defaultDataSet, 20), (rxTiming, 10), (rxTimingElement, 34), (rxComputed, 12), (rxComputedElement, 22),
        (txTimestamps, 12), (txTimestampsElement, 12), (slaveStatus, 27), (signaling, 44), (header, 34), (management, 48), (capabilities, 2)],
      len < p.2 → ((table p.1).unpack m a len).ok = false) := by
  have key : ∀ fs : List Field, (∀ f ∈ fs, Within f.ty (max f.size 1)) → len ∉ zeroAt fs 0 →
      (table fs).unpack m a len = (table fs).unpack m' a len ∧ ((table fs).unpack m a len).hi ≤ a + len := fun fs h1 h2 =>
    unpack_within h1 (le_refl _) (.inr rfl) (by omega) h2 (fun i h3 h4 => he i (by omega) h4)
  refine ⟨fun fs hf => ?_, fun h0 h1 => ?_, fun h => ?_, fun h => ?_, fun p hp hlt => ?_⟩
  · by_cases hs : fs = signaling
    · rw [hs]; exact key _ rows_signaling (by rw [show zeroAt signaling 0 = [] from rfl]; simp)
    · by_cases hk : fs = capabilities
      · rw [hk]; exact key _ rows_capabilities (by rw [show zeroAt capabilities 0 = [] from rfl]; simp)
      · obtain ⟨h1, h2⟩ := rows_plain (fs := fs) (by
          simp only [List.mem_cons, List.not_mem_nil, or_false] at hf ⊢
          rcases hf with h | h | h | h | h | h | h | h | h | h <;> simp_all)
        exact key _ h1 (by rw [h2]; simp)
  · exact key _ rows_header (by rw [show zeroAt header 0 = [0, 1] from rfl]; simp [h0, h1])
  · exact key _ rows_management (by rw [show zeroAt management 0 = [46] from rfl]; simp [h])
  · exact key _ rows_tx (by rw [show zeroAt txTimestamps 0 = [11] from rfl]; simp [h])
  · apply unpack_short _ (by omega)
    simp only [List.mem_cons, List.not_mem_nil, or_false] at hp
    rcases hp with rfl | rfl | rfl | rfl | rfl | rfl | rfl | rfl | rfl | rfl | rfl | rfl | rfl <;>
      · simp only at hlt
        refine lt_of_lt_of_le hlt ?_
        decide

example : ((table management).unpack (mem []) 0 47).ok = false ∧ (47 : Nat) ≠ 46 := by decide +kernel

/-- The decoders of slave event TLVs, given at least the preamble, do not abort, and
what they decode depends on the value of the TLV only. -/
theorem C43_slaveTLVs (m m' : Mem) (a len : Nat) (he : ∀ i, a ≤ i → i < a + len → m i = m' i) :
    ∀ p ∈ [(rxTiming, rxTimingElement, 10), (rxComputed, rxComputedElement, 12), (txTimestamps, txTimestampsElement, 12)], p.2.2 ≤ len →
      unpackTLV p.1 p.2.1 m a len = unpackTLV p.1 p.2.1 m' a len ∧ unpackTLV p.1 p.2.1 m a len ≠ none ∧
      ∀ r, unpackTLV p.1 p.2.1 m a len = some (some r) → r.2.2 ≤ a + len := by
  have nn : ∀ (pre el : List Field), (unpackFields m a len pre 0 0).ok = true → unpackTLV pre el m a len ≠ none := fun pre el h => by
    unfold unpackTLV; simp [h]
  intro p hp hlen
  simp only [List.mem_cons, List.not_mem_nil, or_false] at hp
  rcases hp with rfl | rfl | rfl
  · obtain ⟨h1, h2⟩ := rows_plain (fs := rxTiming) (by simp)
    obtain ⟨h3, h4⟩ := rows_plain (fs := rxTimingElement) (by simp)
    obtain ⟨u1, u2⟩ := unpackTLV_within h1 h3 h4 (by rw [h2]; simp) he
    obtain ⟨vs, h, e, -⟩ := seg_rxTiming.good.unpack m a len hlen
    exact ⟨u1, nn _ _ (congrArg Got.ok e), u2⟩
  · obtain ⟨h1, h2⟩ := rows_plain (fs := rxComputed) (by simp)
    obtain ⟨h3, h4⟩ := rows_plain (fs := rxComputedElement) (by simp)
    obtain ⟨u1, u2⟩ := unpackTLV_within h1 h3 h4 (by rw [h2]; simp) he
    obtain ⟨vs, h, e, -⟩ := seg_rxComputed.good.unpack m a len hlen
    exact ⟨u1, nn _ _ (congrArg Got.ok e), u2⟩
  · obtain ⟨h3, h4⟩ := rows_plain (fs := txTimestampsElement) (by simp)
    simp only at hlen
    obtain ⟨u1, u2⟩ := unpackTLV_within rows_tx h3 h4 (len := len) (by rw [show zeroAt txTimestamps 0 = [11] from rfl]; simp; omega) he
    refine ⟨u1, nn _ _ ?_, u2⟩
    simp only [txTimestamps, unpackFields]
    rw [if_neg (by omega), if_neg (by omega), if_neg (by omega), if_neg (by omega)]

example : unpackTLV rxComputed rxComputedElement (mem []) 0 40 ≠ none := by decide +kernel

/-! ## C44: encoders and space -/

/-- The full claim for the messages with explicit offsets. -/
def C44_statement : Prop :=
  ∀ (c : Clock) (m : Mem) (space : Nat) (ws : List (Nat × List Byte)), msgPackPDelayReq space c = .done ws →
    ∀ i, space ≤ i → write m ws i = m i

/-- `msgPackPDelayReq` checks for 44 bytes but writes 54. -/
theorem C44_violated : ¬ C44_statement := by
  intro h
  have := h exClock (fun _ => 0xFF#8) 44 _ rfl 50 (by decide)
  revert this
  decide +kernel

/-- The full claim for `packMsgHeader`. -/
def C44_header_statement : Prop :=
  ∀ (vs : List Nat) (m : Mem) (a space i : Nat), Fits headerBits vs → a + space ≤ i → ((table header).pack vs m a space).mem i = m i

/-- With no space at all or space for one byte, the header's encoder writes a byte. -/
theorem C44_header_violated : ¬ C44_header_statement := by
  intro h
  have := h [0, 0, 0, 2, 44, 0, 0, 0, 0, 0, 1, 0, 0, 0, 0, 0] (fun _ => 0xFF#8) 0 0 0 (by simp [Fits, headerBits]) (by decide)
  revert this
  decide +kernel

/-- Every message encoder but that of Pdelay_Req, whether it succeeds or fails, leaves
the memory beyond the space as it was; that of Pdelay_Req does so given 54 bytes or
fewer than 44; none succeeds with too little space. Missing from the full claim: Pdelay_Req given
44 to 53 bytes. -/
theorem C44_messages_partial (c : Clock) (h : Header) (t : Time.Ts) (seq : Nat) (junk : Nat × Nat × Nat) (m : Mem) (space : Nat) :
    (∀ r ∈ [msgPackSync space c, msgPackDelayReq space c, msgPackAnnounce space c, msgPackFollowUp space c t seq junk,
        msgPackDelayResp space c h t junk, msgPackPDelayResp space c h t junk, msgPackPDelayRespFollowUp space c h t seq junk],
      ∀ ws, r = .done ws ∨ r = .error ws → ∀ i, space ≤ i → write m ws i = m i) ∧
    (space < 44 ∨ 54 ≤ space → ∀ ws, msgPackPDelayReq space c = .done ws ∨ msgPackPDelayReq space c = .error ws →
      ∀ i, space ≤ i → write m ws i = m i) ∧
    (∀ p ∈ [(msgPackSync space c, 44), (msgPackDelayReq space c, 44), (msgPackPDelayReq space c, 44), (msgPackAnnounce space c, 64),
        (msgPackFollowUp space c t seq junk, 44), (msgPackDelayResp space c h t junk, 54), (msgPackPDelayResp space c h t junk, 54),
        (msgPackPDelayRespFollowUp space c h t seq junk, 54)],
      space < p.2 → ∀ ws, p.1 ≠ .done ws) := by
  have short : ∀ (ty n : Nat) (k : List (Nat × List Byte) → Packed) (ws : List (Nat × List Byte)), space < 34 + n →
      (withHeader space c ty n k = .done ws ∨ withHeader space c ty n k = .error ws) → ∀ i, space ≤ i → write m ws i = m i := by
    intro ty n k ws hs hr i hi
    rcases withHeader_short (k := k) (c := c) (t := ty) hs with e | ⟨us, e, h1, h2⟩
    · rw [e] at hr; rcases hr with hr | hr <;> cases hr
    · rw [e] at hr
      rcases hr with hr | hr
      · cases hr
      · cases hr; exact write_out (by omega)
  have nd : ∀ (ty n : Nat) (k : List (Nat × List Byte) → Packed) (ws : List (Nat × List Byte)), space < 34 + n → withHeader space c ty n k ≠ .done ws := by
    intro ty n k ws hs
    rcases withHeader_short (k := k) (c := c) (t := ty) hs with e | ⟨us, e, -⟩ <;> rw [e] <;> simp
  have long : ∀ (ty n : Nat) (k : List (Nat × List Byte) → Packed) (ws : List (Nat × List Byte)) (e : Nat), 34 + n ≤ space → e ≤ space →
      (∀ us vs, writeEnd us = 34 → (k us = .done vs ∨ k us = .error vs) → writeEnd vs ≤ e) →
      (withHeader space c ty n k = .done ws ∨ withHeader space c ty n k = .error ws) → ∀ i, space ≤ i → write m ws i = m i := by
    intro ty n k ws e hs he hk hr i hi
    rw [withHeader_ok hs] at hr
    refine write_out (le_trans (hk _ ws ?_ hr) (by omega))
    simp [writeEnd, b, zeros]
  have wa : ∀ us vs : List (Nat × List Byte), writeEnd (us ++ vs) = max (writeEnd us) (writeEnd vs) := by
    intro us vs
    induction us with
    | nil => simp [writeEnd]
    | cons u us ih => simp only [List.cons_append, writeEnd, ih]; omega
  have wp : ∀ sub extra, writeEnd (preciseTimestamp t sub extra junk).2 = 44 := by
    intro sub extra
    unfold preciseTimestamp
    split <;> simp [writeEnd]
  have two : ∀ (p : Bool) (us vs : List (Nat × List Byte)),
      ((if p = true then Packed.done us else Packed.error us) = .done vs ∨ (if p = true then Packed.done us else Packed.error us) = .error vs) → us = vs := by
    intro p us vs h
    cases p <;> simpa using h
  refine ⟨fun r hr ws hw => ?_, fun hsp ws hw => ?_, fun p hp hs ws => ?_⟩
  · simp only [List.mem_cons, List.not_mem_nil, or_false] at hr
    rcases hr with rfl | rfl | rfl | rfl | rfl | rfl | rfl
    · by_cases hs : 34 + 10 ≤ space
      · refine long 0 10 _ ws 44 hs (by omega) (fun us vs hu hk => ?_) hw
        simp only [Packed.done.injEq, reduceCtorEq, or_false] at hk
        subst hk; rw [wa, hu]; simp [writeEnd, b, zeros]
      · exact short 0 10 _ ws (by omega) hw
    · by_cases hs : 34 + 10 ≤ space
      · refine long 1 10 _ ws 44 hs (by omega) (fun us vs hu hk => ?_) hw
        simp only [Packed.done.injEq, reduceCtorEq, or_false] at hk
        subst hk; rw [wa, hu]; simp [writeEnd, b, zeros]
      · exact short 1 10 _ ws (by omega) hw
    · by_cases hs : 34 + 30 ≤ space
      · refine long 11 30 _ ws 64 hs (by omega) (fun us vs hu hk => ?_) hw
        simp only [Packed.done.injEq, reduceCtorEq, or_false] at hk
        subst hk; rw [wa, hu]; simp [writeEnd, b, zeros]
      · exact short 11 30 _ ws (by omega) hw
    · by_cases hs : 34 + 10 ≤ space
      · refine long 8 10 _ ws 44 hs (by omega) (fun us vs hu hk => ?_) hw
        rw [← two _ _ _ hk, wa, wa, hu, wp]; simp [writeEnd, b, zeros]
      · exact short 8 10 _ ws (by omega) hw
    · by_cases hs : 34 + 20 ≤ space
      · refine long 9 20 _ ws 54 hs (by omega) (fun us vs hu hk => ?_) hw
        rw [← two _ _ _ hk, wa, wa, wa, hu, wp]; simp [writeEnd, b, zeros]
      · exact short 9 20 _ ws (by omega) hw
    · by_cases hs : 34 + 20 ≤ space
      · refine long 3 20 _ ws 54 hs (by omega) (fun us vs hu hk => ?_) hw
        rw [← two _ _ _ hk, wa, wa, wa, hu, wp]; simp [writeEnd, b, zeros]
      · exact short 3 20 _ ws (by omega) hw
    · by_cases hs : 34 + 20 ≤ space
      · refine long 10 20 _ ws 54 hs (by omega) (fun us vs hu hk => ?_) hw
        rw [← two _ _ _ hk, wa, wa, wa, hu, wp]; simp [writeEnd, b, zeros]
      · exact short 10 20 _ ws (by omega) hw
  · rcases hsp with hs | hs
    · exact short 2 10 _ ws (by omega) hw
    · refine long 2 10 _ ws 54 (by omega) hs (fun us vs hu hk => ?_) hw
      simp only [Packed.done.injEq, reduceCtorEq, or_false] at hk
      subst hk; rw [wa, hu]; simp [writeEnd, b, zeros]
  · simp only [List.mem_cons, List.not_mem_nil, or_false] at hp
    rcases hp with rfl | rfl | rfl | rfl | rfl | rfl | rfl | rfl <;> exact nd _ _ _ ws hs

example : ∃ ws, msgPackPDelayReq 40 exClock = .error ws ∧ (40 : Nat) < 44 := ⟨_, rfl, by decide⟩

/-- The table-driven encoders, for any values: nothing is changed outside the space
given, and too little space is an error, unless the space ends just before a row
for an upper nibble. Missing from the full claim: these sizes. -/
theorem C44_tables_partial (vs : List Nat) (m : Mem) (a space : Nat) :
    (∀ fs ∈ [managementTLV, defaultDataSet, rxTiming, rxTimingElement, rxComputed, rxComputedElement, txTimestampsElement, slaveStatus, signaling,
        capabilities], SameOutside m ((table fs).pack vs m a space).mem a space) ∧
    (space ≠ 0 → space ≠ 1 → SameOutside m ((table header).pack vs m a space).mem a space) ∧
    (space ≠ 46 → SameOutside m ((table management).pack vs m a space).mem a space) ∧
    (space ≠ 11 → SameOutside m ((table txTimestamps).pack vs m a space).mem a space) ∧
    (∀ p ∈ [(managementTLV, 6), (defaultDataSet, 20), (rxTiming, 10), (rxTimingElement, 34), (rxComputed, 12), (rxComputedElement, 22),
        (txTimestamps, 12), (txTimestampsElement, 12), (slaveStatus, 27), (signaling, 44), (header, 34), (management, 48), (capabilities, 2)],
      space < p.2 → ((table p.1).pack vs m a space).ok = false) := by
  have key : ∀ fs : List Field, (∀ f ∈ fs, Within f.ty (max f.size 1)) → space ∉ zeroAt fs 0 →
      SameOutside m ((table fs).pack vs m a space).mem a space := fun fs h1 h2 i hi =>
    (pack_within h1 (le_refl _) (.inr rfl) (by omega) h2).2 i (by omega)
  refine ⟨fun fs hf => ?_, fun h0 h1 => ?_, fun h => ?_, fun h => ?_, fun p hp hlt => ?_⟩
  · by_cases hs : fs = signaling
    · rw [hs]; exact key _ rows_signaling (by rw [show zeroAt signaling 0 = [] from rfl]; simp)
    · by_cases hk : fs = capabilities
      · rw [hk]; exact key _ rows_capabilities (by rw [show zeroAt capabilities 0 = [] from rfl]; simp)
      · obtain ⟨h1, h2⟩ := rows_plain (fs := fs) (by
          simp only [List.mem_cons, List.not_mem_nil, or_false] at hf ⊢
          rcases hf with h | h | h | h | h | h | h | h | h | h <;> simp_all)
        exact key _ h1 (by rw [h2]; simp)
  · exact key _ rows_header (by rw [show zeroAt header 0 = [0, 1] from rfl]; simp [h0, h1])
  · exact key _ rows_management (by rw [show zeroAt management 0 = [46] from rfl]; simp [h])
  · exact key _ rows_tx (by rw [show zeroAt txTimestamps 0 = [11] from rfl]; simp [h])
  · apply pack_short _ (by omega)
    simp only [List.mem_cons, List.not_mem_nil, or_false] at hp
    rcases hp with rfl | rfl | rfl | rfl | rfl | rfl | rfl | rfl | rfl | rfl | rfl | rfl | rfl <;>
      · simp only at hlt
        refine lt_of_lt_of_le hlt ?_
        decide

example : ((table slaveStatus).pack [1, 2, 3, 4, 5, 6, 7, 8] (mem []) 10 26).ok = false := by decide +kernel

/-- The append functions of the slave event TLVs never change memory beyond the space,
for any values and any number of elements not greater than the message's length, even
when the elements do not fit. -/
theorem C44_append (m m' : Mem) (space : Nat) (strict : Bool) (junk : Nat) (pv : List Nat) (els : List (List Nat)) (r : Option Int) (hi : Nat)
    (hc : els.length ≤ getHeaderLength m 0) :
    (∀ p ∈ [(rxTiming, rxTimingElement, 0x8004), (rxComputed, rxComputedElement, 0x8005), (txTimestamps, txTimestampsElement, 0x8006)],
      appendTLV p.2.2 p.1 p.2.1 strict junk pv els m space = some (m', r, hi) → ∀ i, space ≤ i → m' i = m i) ∧
    (appendStatusTLV pv m space = some (m', r, hi) → ∀ i, space ≤ i → m' i = m i) := by
  refine ⟨fun p hp h => ?_, fun h => (status_within h).1⟩
  simp only [List.mem_cons, List.not_mem_nil, or_false] at hp
  rcases hp with rfl | rfl | rfl
  · obtain ⟨h1, h2⟩ := rows_plain (fs := rxTiming) (by simp)
    obtain ⟨h3, h4⟩ := rows_plain (fs := rxTimingElement) (by simp)
    exact (append_within h1 (by rw [h2]; simp) h3 h4 (by omega) h).1
  · obtain ⟨h1, h2⟩ := rows_plain (fs := rxComputed) (by simp)
    obtain ⟨h3, h4⟩ := rows_plain (fs := rxComputedElement) (by simp)
    exact (append_within h1 (by rw [h2]; simp) h3 h4 (by omega) h).1
  · obtain ⟨h3, h4⟩ := rows_plain (fs := txTimestampsElement) (by simp)
    exact (append_within rows_tx (by rw [show zeroAt txTimestamps 0 = [11] from rfl]; simp) h3 h4 (by omega) h).1

example : (appendTLV 0x8006 txTimestamps txTimestampsElement false 0 [1, 2, 1, 0, 0] [[1, 2, 3], [4, 5, 6], [7, 8, 9]] (mem [0, 0, 0, 44]) 70).isSome = true ∧
    [[1, 2, 3], [4, 5, 6], [7, 8, 9]].length ≤ getHeaderLength (mem [0, 0, 0, 44]) 0 := by decide +kernel

/-! ## C57: slave event TLVs -/

/-- What appending a TLV of the given type and value to a message of `start` bytes is:
the length of the TLV is returned, the message's length is increased by it, the rest
of the message is unchanged, and the TLV has the type, and the length of the value. -/
def Appended (type size start : Nat) (m m' : Mem) : Prop :=
  (∀ i, (i < start ∧ i ≠ 2 ∧ i ≠ 3) ∨ start + 4 + size ≤ i → m' i = m i) ∧ number (slice m' 2 2) = start + 4 + size ∧
    number (slice m' start 2) = type ∧ number (slice m' (start + 2) 2) = size

/-- Receive timing data: any number of elements that fit. -/
theorem C57_rxTiming (pv : List Nat) (els : List (List Nat)) (hp : Fits [64, 16] pv) (he : ∀ v ∈ els, Fits [16, 48, 32, 64, 32, 48, 32] v)
    (junk : Nat) (m : Mem) (space start : Nat) (hst : number (slice m 2 2) = start) (h4 : 4 ≤ start) (hse : start % 2 = 0) (hsp : space % 2 = 0)
    (hfit : start + 14 + els.length * 34 ≤ space) (h16 : start + 14 + els.length * 34 < 65536) :
    ∃ m' hi, appendTLV 0x8004 rxTiming rxTimingElement true junk pv els m space = some (m', some ((14 + els.length * 34 : Nat) : Int), hi) ∧
      Appended 0x8004 (10 + els.length * 34) start m m' ∧
      ∃ h, unpackTLV rxTiming rxTimingElement m' (start + 4) (10 + els.length * 34) = some (some (pv.map some, els.map (fun v => v.map some), h)) := by
  obtain ⟨m', hi, e, h1, h2, h3, h5, h6⟩ := append_ok (d := fun v => v.map some) seg_rxTiming.roundTrip seg_rxTimingElement.roundTrip (by decide) (by decide) (by decide) rfl
    0x8004 true junk pv els m space hp he start (by rw [getHeaderLength, ofBE_eq]; exact hst) h4 hse hsp (by omega) (by omega) (by decide)
  refine ⟨m', hi, e, ⟨fun i h => h1 i (by omega), ?_, h3, h5⟩, h6⟩
  rw [← load_eq_slice, h2]; omega

example : Fits [64, 16] [0x0F53, 1] ∧ ∀ v ∈ [[1, 2, 3, 4, 5, 6, 7], [65535, 2 ^ 48 - 1, 999999999, 2 ^ 64 - 1, 0, 1, 2]],
    Fits [16, 48, 32, 64, 32, 48, 32] v := by simp [Fits]

/-- Computed data. -/
theorem C57_rxComputed (pv : List Nat) (els : List (List Nat)) (hp : Fits [64, 16, 8, 8] pv) (he : ∀ v ∈ els, Fits [16, 64, 64, 32] v)
    (junk : Nat) (m : Mem) (space start : Nat) (hst : number (slice m 2 2) = start) (h4 : 4 ≤ start) (hse : start % 2 = 0) (hsp : space % 2 = 0)
    (hfit : start + 16 + els.length * 22 ≤ space) (h16 : start + 16 + els.length * 22 < 65536) :
    ∃ m' hi, appendTLV 0x8005 rxComputed rxComputedElement false junk pv els m space = some (m', some ((16 + els.length * 22 : Nat) : Int), hi) ∧
      Appended 0x8005 (12 + els.length * 22) start m m' ∧
      ∃ h, unpackTLV rxComputed rxComputedElement m' (start + 4) (12 + els.length * 22)
        = some (some (pv.map some, els.map (fun v => v.map some), h)) := by
  obtain ⟨m', hi, e, h1, h2, h3, h5, h6⟩ := append_ok (d := fun v => v.map some) seg_rxComputed.roundTrip seg_rxComputedElement.roundTrip (by decide) (by decide) (by decide)
    rfl 0x8005 false junk pv els m space hp he start (by rw [getHeaderLength, ofBE_eq]; exact hst) h4 hse hsp (by omega) (by omega) (by decide)
  refine ⟨m', hi, e, ⟨fun i h => h1 i (by omega), ?_, h3, h5⟩, h6⟩
  rw [← load_eq_slice, h2]; omega

example : Fits [64, 16, 8, 8] [0x0F53, 1, 7, 0] ∧ ∀ v ∈ [[1, 2 ^ 64 - 3, 3, 4]], Fits [16, 64, 64, 32] v := by simp [Fits]

/-- Slave status, whose value has an odd length and is padded. -/
theorem C57_status (vs : List Nat) (hV : Fits [64, 48, 32, 16, 16, 16, 16, 8] vs) (m : Mem) (space start : Nat) (hst : number (slice m 2 2) = start)
    (h4 : 4 ≤ start) (hse : start % 2 = 0) (hsp : space % 2 = 0) (hfit : start + 37 ≤ space) (h16 : start + 38 < 65536) :
    ∃ m' hi, appendStatusTLV vs m space = some (m', some 38, hi) ∧ Appended 0x8000 34 start m m' ∧
      number (slice m' (start + 4) 3) = 0x000F53 ∧ number (slice m' (start + 7) 3) = 1 ∧
      ∀ len, 27 ≤ len → ∃ h, (table slaveStatus).unpack m' (start + 10) len = ⟨true, 27, vs.map some, h⟩ := by
  obtain ⟨m', hi, e, h1, h2, h3, h5, h6, h7, h8⟩ := status_ok vs hV m space start (by rw [getHeaderLength, ofBE_eq]; exact hst) h4 hse hsp hfit h16
  exact ⟨m', hi, e, ⟨h1, h2, h3, h5⟩, h6, h7, h8⟩

example : Fits [64, 48, 32, 16, 16, 16, 16, 8] [0x0F53, 1700000000, 5, 1, 2, 3, 4, 255] ∧ number (slice (mem [0, 0, 0, 44]) 2 2) = 44 := by
  refine ⟨by simp [Fits], by decide⟩

/-- The full claim for the transmit timestamps' preamble: clock, port, type of event
message, two reserved fields. -/
def C57_tx_statement : Prop :=
  ∀ (vs : List Nat) (m : Mem) (a sp len : Nat), Fits [64, 16, 4, 4, 8] vs → 12 ≤ sp → 12 ≤ len →
    ((table txTimestamps).unpack ((table txTimestamps).pack vs m a sp).mem a len).vals = vs.map some

/-- The first reserved field is written to the octet of the second, and lost. -/
theorem C57_tx_violated : ¬ C57_tx_statement := by
  intro h
  have := h [0, 0, 1, 5, 0] (fun _ => 0#8) 0 12 12 (by simp [Fits]) (by decide) (by decide)
  revert this
  decide +kernel

/-- Transmit timestamps: all but the first reserved field, which decodes as the upper
half of the second. Missing from the full claim: that field. -/
theorem C57_tx_partial (c p t r0 r : Nat) (els : List (List Nat)) (hp : Fits [64, 16, 4, 8] [c, p, t, r]) (he : ∀ v ∈ els, Fits [16, 48, 32] v)
    (junk : Nat) (m : Mem) (space start : Nat) (hst : number (slice m 2 2) = start) (h4 : 4 ≤ start) (hse : start % 2 = 0) (hsp : space % 2 = 0)
    (hfit : start + 16 + els.length * 12 ≤ space) (h16 : start + 16 + els.length * 12 < 65536) :
    ∃ m' hi, appendTLV 0x8006 txTimestamps txTimestampsElement false junk [c, p, t, r0, r] els m space
        = some (m', some ((16 + els.length * 12 : Nat) : Int), hi) ∧
      Appended 0x8006 (12 + els.length * 12) start m m' ∧
      ∃ h, unpackTLV txTimestamps txTimestampsElement m' (start + 4) (12 + els.length * 12)
        = some (some ([some c, some p, some t, some (r / 16), some r], els.map (fun v => v.map some), h)) := by
  obtain ⟨hc, hp, ht, hr⟩ : c < 2 ^ 64 ∧ p < 2 ^ 16 ∧ t < 16 ∧ r < 256 := by
    simp only [Fits, List.forall₂_cons, List.forall₂_nil_left_iff, and_true] at hp
    exact ⟨hp.1, hp.2.1, hp.2.2.1, hp.2.2.2⟩
  obtain ⟨m', hi, e, h1, h2, h3, h5, h6⟩ := append_ok (V := TxValid) roundTrip_tx seg_txElement.roundTrip (by decide) (by decide) (by decide)
    rfl 0x8006 false junk [c, p, t, r0, r] els m space ⟨c, p, t, r0, r, rfl, hc, hp, ht, hr⟩ he start
    (by rw [getHeaderLength, ofBE_eq]; exact hst) h4 hse hsp (by omega) (by omega) (by decide)
  refine ⟨m', hi, e, ⟨fun i h => h1 i (by omega), ?_, h3, h5⟩, h6⟩
  rw [← load_eq_slice, h2]; omega

example : Fits [64, 16, 4, 8] [0x0F53, 1, 1, 0xA5] ∧ ∀ v ∈ [[1, 2, 3], [65535, 2 ^ 48 - 1, 999999999]], Fits [16, 48, 32] v := by simp [Fits]

end Verif.Codec
