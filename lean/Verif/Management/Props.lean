import Verif.Management.Support

set_option linter.unusedSimpArgs false
set_option linter.unusedVariables false
set_option linter.unnecessarySeqFocus false

/-!
# Properties of management messages

C47 (memory), C54 (acceptance) and C67 (effect and answer).
-/

namespace Verif.Management
open Verif.Codec Verif.Codec.Spec
open Spec

/-! ## C47: no dangling TLV -/

/-- C47 as first put: after unpacking, the TLV pointer is null or live. It does not hold. -/
def C47_statement : Prop := ∀ (m : Mem) (length : Nat) (msg : Msg), msgUnpackManagement m length = some msg → msg.tlv ≠ .freed

/-- A memory of the given octets, zeros after them. -/
def octets (l : List Nat) : Mem := fun i => BitVec.ofNat 8 (l.getD i 0)

/-- A management message for all ports: its length, action, TLV type, identifier and data. -/
def request (length action type id : Nat) (data : List Nat) : Mem :=
  octets ([0x0D, 2, 0, length, 0, 0, 0, 0, 0, 0, 0, 0, 0, 0, 0, 0, 0, 0, 0, 0, 1, 2, 3, 4, 5, 6, 7, 8, 0, 9, 0, 77, 4, 0x7F] ++ List.replicate 10 255 ++
    [3, 1, action, 0, type / 256, type % 256, 0, 2 + data.length, id / 256, id % 256] ++ data)

/-- A datagram of 50 octets claiming 51. -/
theorem C47_violated : ¬ C47_statement := by
  intro h
  have e := h (request 51 0 1 0x2000 []) 50
  rw [unpack_msg, unpack_tlv] at e
  exact e _ rfl (by decide +kernel)

/-- The pointer dangles exactly when the message claims to have a TLV but is too short for
one. -/
theorem C47_dangling (m : Mem) (length : Nat) (msg : Msg) (h : msgUnpackManagement m length = some msg) :
    msg.tlv = .freed ↔ 48 < messageLength m ∧ length < 54 := by
  rw [unpack_msg, unpack_tlv] at h
  split at h
  · cases h
    have e : messageLength m = num m 2 2 := rfl
    rw [e]
    by_cases h1 : 48 < num m 2 2 <;> by_cases h2 : 54 ≤ length <;> simp [message, h1, h2] <;> omega
  · cases h

example : ∃ msg, msgUnpackManagement (request 60 1 1 0x2005 [5, 0]) 60 = some msg ∧ msg.tlv = .live ⟨1, 4, 0x2005, .null⟩ := by
  rw [unpack_msg, unpack_tlv]
  exact ⟨_, rfl, by decide +kernel⟩

/-- No message makes the program access or free memory it has freed, or that was never
set, and none is left allocated. -/
def C47_memory_statement : Prop :=
  ∀ (opts : Opts) (c : Clock) (query : Nat → Clock → List Nat) (m : Mem) (length junk : Nat) (x : Except Fault Result),
    receive opts c query m length junk = some x → ∃ r, x = .ok r ∧ r.left = .null

/-- A clock for the examples. -/
def clock : Clock :=
  ⟨0x0102030405060708, 1, false, 128, 128, 0, 1, 3, 0, 0xFE, 37, true, false, false, true, false, 1, 0, [], 6, false⟩

/-- Even if management messages are not enabled: the TLV of a short message is freed twice. -/
theorem C47_memory_violated : ¬ C47_memory_statement := by
  intro h
  obtain ⟨r, e, -⟩ := h ⟨false, false⟩ clock (fun _ _ => []) (request 51 0 1 0x2000 []) 50 0 (.error .freed) (by
    unfold receive; rw [unpack_msg, unpack_tlv]; decide +kernel)
  cases e

/-- A SET with its data cut short: the data field is freed twice. -/
theorem C47_data_violated : ∃ x, receive ⟨true, true⟩ clock (fun _ _ => []) (request 55 1 1 0x2005 [5]) 55 0 = some x ∧ x = .error .freed := by
  unfold receive; rw [unpack_msg, unpack_tlv]
  exact ⟨_, rfl, by decide +kernel⟩

/-- A user description whose text is cut short: copied from a null pointer. -/
theorem C47_text_violated : ∃ x, receive ⟨true, true⟩ clock (fun _ _ => []) (request 57 1 1 2 [9, 65, 66]) 57 0 = some x ∧ x = .error .noText := by
  unfold receive; rw [unpack_msg, unpack_tlv]
  exact ⟨_, rfl, by decide +kernel⟩

/-- An error status cut short: the TLV is not freed. -/
theorem C47_leak_violated : (receive ⟨true, true⟩ clock (fun _ _ => []) (request 56 2 2 3 [0x20, 5]) 56 0).map (·.map (·.left)) =
    some (.ok (.live ⟨2, 4, 3, .freed⟩)) := by
  unfold receive; rw [unpack_msg, unpack_tlv]
  decide +kernel

/-- An error status that is complete, with no text: whether it is accepted and released
or counted as malformed and leaked depends on what the memory held before. -/
theorem C47_status_violated :
    (receive ⟨true, true⟩ clock (fun _ _ => []) (request 61 2 2 3 [0x20, 5, 0, 0, 0, 0, 0]) 61 0).map (·.map (·.left)) = some (.ok .null) ∧
    (receive ⟨true, true⟩ clock (fun _ _ => []) (request 61 2 2 3 [0x20, 5, 0, 0, 0, 0, 0]) 61 1).map (·.map (·.left)) =
      some (.ok (.live ⟨2, 9, 3, .freed⟩)) := by
  unfold receive; rw [unpack_msg, unpack_tlv]
  constructor <;> decide +kernel

/-- C47, the part that holds: messages that are as long as they claim, and have all the
data of their TLV, are handled without faults and leave nothing allocated. Missing: shorter
ones. -/
theorem C47_partial (opts : Opts) (c : Clock) (query : Nat → Clock → List Nat) (m : Mem) (length junk : Nat) (x : Except Fault Result)
    (h : receive opts c query m length junk = some x) (h0 : 48 < messageLength m → 54 ≤ length)
    (h1 : tlvType m = 1 → action m ≠ 0 → Complete m length) (h2 : tlvType m = 2 → CompleteStatus m length junk) :
    ∃ r, x = .ok r ∧ r.left = .null := by
  by_cases hq : Request opts c m length
  · rw [receive_request query junk hq] at h
    cases h
    by_cases he : opts.setEnable = true ∨ action m ≠ 1 ∧ action m ≠ 3
    · obtain ⟨o, d, -, hd, -, e⟩ := answer_ok opts c query he (h1 hq.2.2.2.1)
      rw [e]
      exact finish_read hd _ _ _
    · rw [answer_refused opts c query (show opts.setEnable = false ∧ (action m = 1 ∨ action m = 3) by simp at he; exact ⟨he.1, by omega⟩)]
      exact finish_read (m := m) (length := length) (.inr rfl) _ _ _
  · exact receive_other h hq h0 h2

/-- The octets of a clock description with texts of 2, 0, 4, 1, 0 and 1 octets. -/
def description : List Nat := [0, 1, 2, 65, 66, 0, 0, 0, 1, 0, 4, 1, 2, 3, 4, 0, 1, 2, 0, 1, 67, 0, 1, 68, 1, 2, 3, 4, 5, 6]

example : Complete (request 84 1 1 1 description) 84 ∧ Complete (request 58 1 1 2 [3, 65, 66, 67]) 58 ∧ Complete (request 56 1 1 0x2005 [5, 0]) 56 := by
  have i1 : managementId (request 84 1 1 1 description) = 1 := by decide +kernel
  have i2 : managementId (request 58 1 1 2 [3, 65, 66, 67]) = 2 := by decide +kernel
  have i3 : managementId (request 56 1 1 0x2005 [5, 0]) = 0x2005 := by decide +kernel
  refine ⟨⟨?_, ?_, fun _ => ⟨2, 0, 4, 1, 0, 1, ?_⟩⟩, ⟨?_, ?_, ?_⟩, ⟨?_, ?_, ?_⟩⟩
  · rw [i1]; simp [sizes]
  · rw [i1]; simp
  · decide +kernel
  · rw [i2]; simp [sizes]
  · intro _; decide +kernel
  · rw [i2]; simp
  · rw [i3]; simp [sizes]
  · rw [i3]; simp
  · rw [i3]; simp

/-! ## C54: which messages are accepted -/

/-- C54: a message that changes something, or is answered, is a request to this port, from
its octets. -/
theorem C54_addressed (opts : Opts) (c : Clock) (query : Nat → Clock → List Nat) (m : Mem) (length junk : Nat) (r : Result)
    (h : receive opts c query m length junk = some (.ok r)) (he : r.clock ≠ c ∨ r.reply ≠ none) :
    opts.enabled = true ∧ Addressed c m ∧ tlvType m = 1 ∧ action m ≠ 2 ∧ action m ≠ 4 := by
  rcases receive_cases h with ⟨h1, h2⟩ | h
  · rcases he with he | he
    · exact absurd h1 he
    · exact absurd h2 he
  · exact ⟨h.1, h.2.2⟩

/-- C54: a message that changes something is a SET or a COMMAND, and these are enabled. -/
theorem C54_enabled (opts : Opts) (c : Clock) (query : Nat → Clock → List Nat) (m : Mem) (length junk : Nat) (r : Result)
    (h : receive opts c query m length junk = some (.ok r)) (he : r.clock ≠ c) :
    opts.setEnable = true ∧ (action m = 1 ∨ action m = 3) := by
  rcases receive_cases h with ⟨h1, h2⟩ | hq
  · exact absurd h1 he
  · rw [receive_request query junk hq] at h
    simp only [Option.some.injEq] at h
    rcases answer_frame h with h | ⟨h1, d, o, h2, h3⟩
    · exact absurd h he
    · have ha : action m = 1 ∨ action m = 3 := by
        by_contra hn
        rcases handle_frame (show action m ≠ 1 by omega) o h2 with h4 | h4
        · exact he (by rw [h3, h4])
        · have : action m = 3 := h4.1
          omega
      exact ⟨by by_contra hs; exact h1 ⟨by simpa using hs, ha⟩, ha⟩

/-- C54: with sets disabled a SET or COMMAND to this port is refused as not supported. -/
theorem C54_refused (opts : Opts) (c : Clock) (query : Nat → Clock → List Nat) (m : Mem) (length junk : Nat)
    (h : Request opts c m length) (hs : opts.setEnable = false) (ha : action m = 1 ∨ action m = 3) :
    ∃ r a, receive opts c query m length junk = some (.ok r) ∧ r.clock = c ∧ r.reply = some a ∧ Refusal m 6 a := by
  rw [receive_request query junk h, answer_refused opts c query ⟨hs, ha⟩]
  obtain ⟨r, e, -⟩ := finish_read (m := m) (length := length) (d := .null) (.inr rfl) (message m (.live (tlvOf m))) (tlvOf m) ⟨6, c, 0, []⟩
  obtain ⟨a, h1, h2, h3, h4⟩ := finish_reply (m := m) rfl e
  exact ⟨r, a, congrArg some e, (finish_ok e).1, h1, h4 (show 6 ≠ 0 by decide)⟩

/-- Messages one after another: the clock after them, if there was no fault. -/
def run (opts : Opts) (query : Nat → Clock → List Nat) : List (Mem × Nat × Nat) → Clock → Except Fault Clock
  | [], c => .ok c
  | (m, length, junk) :: l, c =>
    match receive opts c query m length junk with
    | none => run opts query l c
    | some (.error f) => .error f
    | some (.ok r) => run opts query l r.clock

/-- C54 for any number of messages: with management or sets disabled nothing ever changes. -/
theorem C54_history (opts : Opts) (query : Nat → Clock → List Nat) (l : List (Mem × Nat × Nat)) (c c' : Clock)
    (h : run opts query l c = .ok c') (hs : opts.enabled = false ∨ opts.setEnable = false) : c' = c := by
  induction l with
  | nil => cases h; rfl
  | cons x l ih =>
    obtain ⟨m, length, junk⟩ := x
    unfold run at h
    split at h
    · exact ih h
    · cases h
    · rename_i r e
      have : r.clock = c := by
        by_contra hn
        have h1 := C54_addressed opts c query m length junk r e (.inl hn)
        have h2 := C54_enabled opts c query m length junk r e hn
        rcases hs with hs | hs
        · rw [hs] at h1; exact absurd h1.1 (by decide)
        · rw [hs] at h2; exact absurd h2.1 (by decide)
      rw [this] at h
      exact ih h

/-- A SET of priority 1 for all clocks, and one for the clock of the examples. -/
example : Request ⟨true, true⟩ clock (request 56 1 1 0x2005 [5, 0]) 56 :=
  ⟨rfl, ⟨by decide +kernel, by decide⟩, ⟨.inr (by decide +kernel), .inr (by decide +kernel)⟩, by decide +kernel, by decide +kernel, by decide +kernel⟩

/-- The options matter: the message changes the clock with sets enabled, and not without. -/
example : (receive ⟨true, true⟩ clock (fun _ _ => []) (request 56 1 1 0x2005 [5, 0]) 56 0).map (·.map (·.clock)) = some (.ok { clock with priority1 := 5, update := true }) ∧
    (receive ⟨true, false⟩ clock (fun _ _ => []) (request 56 1 1 0x2005 [5, 0]) 56 0).map (·.map (·.clock)) = some (.ok clock) := by
  unfold receive; rw [unpack_msg, unpack_tlv]; decide +kernel

/-! ## C67: effect and answer -/

/-- C67: setting an attribute gives it exactly the value in the message, changes nothing
else, and is answered by the value. It does not hold for `slaveOnly`. -/
def C67_set_statement : Prop :=
  ∀ (opts : Opts) (c : Clock) (query : Nat → Clock → List Nat) (m : Mem) (length junk : Nat), Request opts c m length → opts.setEnable = true →
    action m = 1 → Complete m length → managementId m ∈ attributes → (managementId m ∈ ofMaster → ¬ Slave c) →
    ∃ r a, receive opts c query m length junk = some (.ok r) ∧ r.clock = Spec.set (managementId m) (slice m 54 (length - 54)) c ∧
      r.reply = some a ∧ Response m (Spec.get (managementId m) r.clock) a ∧ r.left = .null

/-- A message setting `slaveOnly` to 0, with an octet left in the buffer after it: it is set
to 1. -/
theorem C67_violated : ¬ C67_set_statement := by
  intro h
  have hi : managementId (request 56 1 1 0x2008 [0, 0, 7]) = 0x2008 := by decide +kernel
  obtain ⟨r, a, e, hc, -⟩ := h ⟨true, true⟩ clock (fun _ _ => []) (request 56 1 1 0x2008 [0, 0, 7]) 56 0
    ⟨rfl, ⟨by decide +kernel, by decide⟩, ⟨.inr (by decide +kernel), .inr (by decide +kernel)⟩, by decide +kernel, by decide +kernel, by decide +kernel⟩
    rfl (by decide +kernel)
    ⟨by rw [hi]; simp [sizes], by rw [hi]; simp, by rw [hi]; simp⟩ (by rw [hi]; decide) (by rw [hi]; simp [ofMaster])
  have e' : (receive ⟨true, true⟩ clock (fun _ _ => []) (request 56 1 1 0x2008 [0, 0, 7]) 56 0).map (·.map (·.clock.slaveOnly)) = some (.ok true) := by
    unfold receive; rw [unpack_msg, unpack_tlv]; decide +kernel
  rw [e] at e'
  have e2 : r.clock.slaveOnly = true := by simpa [Except.map] using e'
  rw [hc, hi] at e2
  revert e2
  decide +kernel

/-- C67, the part that holds: all attributes, `slaveOnly` if the three octets after its own
are zeros. -/
theorem C67_set_partial (opts : Opts) (c : Clock) (query : Nat → Clock → List Nat) (m : Mem) (length junk : Nat) (hq : Request opts c m length)
    (hs : opts.setEnable = true) (ha : action m = 1) (hc : Complete m length) (hi : managementId m ∈ attributes)
    (hm : managementId m ∈ ofMaster → ¬ Slave c) (hb : managementId m = 0x2008 → m 55 = 0 ∧ m 56 = 0 ∧ m 57 = 0) :
    ∃ r a, receive opts c query m length junk = some (.ok r) ∧ r.clock = Spec.set (managementId m) (slice m 54 (length - 54)) c ∧
      r.reply = some a ∧ Response m (Spec.get (managementId m) r.clock) a ∧ r.left = .null := by
  obtain ⟨o, d, h1, h2, h3, h4⟩ := answer_ok opts c query (.inl hs) fun _ => hc
  obtain ⟨-, hr⟩ := h3 (by omega)
  rw [ha, handle_set c query hr hi hm hb] at h1
  cases h1
  obtain ⟨r, e, hl⟩ := finish_read (.inl hr) (message m (.live (tlvOf m))) (tlvOf m) ⟨0, Spec.set (managementId m) (slice m 54 (length - 54)) c, 2,
      Spec.get (managementId m) (Spec.set (managementId m) (slice m 54 (length - 54)) c)⟩
  rw [receive_request query junk hq, h4]
  have hcl := (finish_ok e).1
  obtain ⟨a, e1, e2, e3, -⟩ := finish_reply (m := m) rfl e
  obtain ⟨t1, t2, t3, t4⟩ := e3 rfl
  refine ⟨r, a, congrArg some e, hcl, e1, ⟨t1, t2, t3, ?_, e2⟩, hl⟩
  rw [t4, hcl]

example : (receive ⟨true, true⟩ clock (fun _ _ => []) (request 58 1 1 0x2011 [0, 38, 5, 0]) 58 0) =
    some (.ok ⟨{ clock with utcOffset := 38, utcValid := true, leap61 := true, update := true }, 1, 0, 0,
      some ⟨1, 0x2011, [38, 5], 2, 77, (0x0102030405060708, 9), 2, false⟩, .null⟩) := by
  unfold receive; rw [unpack_msg, unpack_tlv]; decide +kernel

/-- C67: attributes of a grandmaster cannot be set in a slave. -/
theorem C67_slave (opts : Opts) (c : Clock) (query : Nat → Clock → List Nat) (m : Mem) (length junk : Nat) (hq : Request opts c m length)
    (hs : opts.setEnable = true) (ha : action m = 1) (hc : Complete m length) (hi : managementId m ∈ ofMaster) (hm : Slave c) :
    ∃ r a, receive opts c query m length junk = some (.ok r) ∧ r.clock = c ∧ r.reply = some a ∧ Refusal m 6 a := by
  obtain ⟨o, d, h1, h2, h3, h4⟩ := answer_ok opts c query (.inl hs) fun _ => hc
  rw [ha, handle_slave c query hi hm d] at h1
  cases h1
  obtain ⟨r, e, hl⟩ := finish_read h2 (message m (.live (tlvOf m))) (tlvOf m) _
  rw [receive_request query junk hq, h4]
  obtain ⟨a, e1, e2, -, e3⟩ := finish_reply (m := m) rfl e
  exact ⟨r, a, congrArg some e, (finish_ok e).1, e1, e3 (show 6 ≠ 0 by decide)⟩

/-- C67: reading an attribute gives its value and changes nothing. -/
theorem C67_get (opts : Opts) (c : Clock) (query : Nat → Clock → List Nat) (m : Mem) (length junk : Nat) (hq : Request opts c m length)
    (ha : action m = 0) (hi : managementId m ∈ attributes) :
    ∃ r a, receive opts c query m length junk = some (.ok r) ∧ r.clock = c ∧ r.reply = some a ∧ Response m (Spec.get (managementId m) c) a ∧
      r.left = .null := by
  obtain ⟨o, d, h1, h2, h3, h4⟩ := answer_ok opts c query (m := m) (length := length) (.inr ⟨by omega, by omega⟩) fun h => absurd ha h
  rw [ha, handle_read c query hi d] at h1
  cases h1
  obtain ⟨r, e, hl⟩ := finish_read h2 (message m (.live (tlvOf m))) (tlvOf m) ⟨0, c, 2, Spec.get (managementId m) c⟩
  rw [receive_request query junk hq, h4]
  obtain ⟨a, e1, e2, e3, -⟩ := finish_reply (m := m) rfl e
  obtain ⟨t1, t2, t3, t4⟩ := e3 rfl
  exact ⟨r, a, congrArg some e, (finish_ok e).1, e1, ⟨t1, t2, t3, t4, e2⟩, hl⟩

/-- C67: a command changes the state of the port as it says, and is acknowledged. -/
theorem C67_command (opts : Opts) (c : Clock) (query : Nat → Clock → List Nat) (m : Mem) (length junk : Nat) (hq : Request opts c m length)
    (hs : opts.setEnable = true) (ha : action m = 3) (hc : Complete m length) (hi : managementId m = 5 ∨ managementId m = 0x200D ∨ managementId m = 0x200E) :
    ∃ r a, receive opts c query m length junk = some (.ok r) ∧
      r.clock = { c with state := Spec.command (managementId m) (num m 54 2) c.state } ∧
      r.reply = some a ∧ a.type = 1 ∧ a.id = managementId m ∧ a.action = 4 ∧ Answers m a ∧ r.left = .null := by
  obtain ⟨o, d, h1, h2, h3, h4⟩ := answer_ok opts c query (.inl hs) fun _ => hc
  obtain ⟨-, hr⟩ := h3 (by omega)
  rw [ha] at h1
  have key : o.rc = 0 ∧ o.action = 4 ∧ o.clock = { c with state := Spec.command (managementId m) (num m 54 2) c.state } := by
    rcases hi with i | i | i
    · have hd : dataTable (managementId m) = some [⟨2, uint 2⟩] := by rw [i]; simp [dataTable]
      have v := hr.value hd 0
      have hl := hc.1 2 (by rw [i]; simp [sizes])
      rw [vals_uint _ _ _ _ _ _ _ _ (by omega)] at v
      have v' : value d 0 = .ok (num m 54 2) := v
      rw [i] at h1 ⊢
      simp only [handle, v'] at h1
      simp [Except.map] at h1
      subst h1
      refine ⟨rfl, rfl, ?_⟩
      by_cases k : num m 54 2 = 0 <;> simp [k, Spec.command]
    · rw [i] at h1 ⊢
      simp [handle] at h1
      subst h1
      refine ⟨rfl, rfl, ?_⟩
      by_cases k : c.state = disabled <;> simp [k, Spec.command]
    · rw [i] at h1 ⊢
      simp [handle] at h1
      subst h1
      exact ⟨rfl, rfl, by simp [Spec.command]⟩
  obtain ⟨r, e, hl⟩ := finish_read (.inl hr) (message m (.live (tlvOf m))) (tlvOf m) o
  rw [receive_request query junk hq, h4]
  obtain ⟨a, e1, e2, e3, -⟩ := finish_reply (m := m) rfl e
  obtain ⟨t1, t2, t3, t4⟩ := e3 key.1
  exact ⟨r, a, congrArg some e, by rw [(finish_ok e).1, key.2.2], e1, t1, t2, by rw [t3, key.2.1], e2, hl⟩

example : Complete (request 56 3 1 5 [0, 0]) 56 := by
  have i : managementId (request 56 3 1 5 [0, 0]) = 5 := by decide +kernel
  exact ⟨by rw [i]; simp [sizes], by rw [i]; simp, by rw [i]; simp⟩

/-- C67: the description is set to the text of the message if it has at most 128 octets,
and refused for its length otherwise. -/
theorem C67_user (opts : Opts) (c : Clock) (query : Nat → Clock → List Nat) (m : Mem) (length junk : Nat) (hq : Request opts c m length)
    (hs : opts.setEnable = true) (ha : action m = 1) (hc : Complete m length) (hi : managementId m = 2) :
    ∃ r a, receive opts c query m length junk = some (.ok r) ∧ r.reply = some a ∧ r.left = .null ∧
      (num m 54 1 ≤ 128 → r.clock = { c with user := slice m 55 (num m 54 1) } ∧
        Response m (((slice m 55 (num m 54 1)).takeWhile (· ≠ 0)).map (·.toNat)) a) ∧
      (128 < num m 54 1 → r.clock = c ∧ Refusal m 3 a) := by
  obtain ⟨o, d, h1, h2, h3, h4⟩ := answer_ok opts c query (.inl hs) fun _ => hc
  obtain ⟨-, hr⟩ := h3 (by omega)
  obtain ⟨r, e, hl⟩ := finish_read (.inl hr) (message m (.live (tlvOf m))) (tlvOf m) o
  rw [receive_request query junk hq, h4]
  obtain ⟨a, e1, e2, e3, e4⟩ := finish_reply (m := m) rfl e
  refine ⟨r, a, congrArg some e, e1, hl, ?_⟩
  rw [(finish_ok e).1]
  have hu : setUser c d = .ok (if num m 54 1 ≤ 128 then some { c with user := slice m 55 (num m 54 1) } else none) := by
    cases hr with
    | values h' => rw [hi] at h'; simp [dataTable] at h'
    | description h' => omega
    | text h' =>
      unfold setUser
      by_cases z : num m 54 1 = 0
      · simp [z, slice]
      · by_cases k : num m 54 1 ≤ 128 <;> simp [z, k, load_eq_slice]
    | none _ _ h' => exact absurd hi h'
  rw [ha, hi] at h1
  simp only [handle, hu] at h1
  by_cases k : num m 54 1 ≤ 128
  · simp [k, Except.map] at h1
    subst h1
    obtain ⟨t1, t2, t3, t4⟩ := e3 rfl
    exact ⟨fun _ => ⟨rfl, t1, t2, t3, by rw [t4]; simp, e2⟩, fun h => by omega⟩
  · simp [k, Except.map] at h1
    subst h1
    exact ⟨fun h => absurd h k, fun _ => ⟨rfl, e4 (show 3 ≠ 0 by decide)⟩⟩

example : (receive ⟨true, true⟩ clock (fun _ _ => []) (request 58 1 1 2 [3, 65, 66, 67]) 58 0).map (·.map (·.clock.user)) = some (.ok [65, 66, 67]) := by
  unfold receive; rw [unpack_msg, unpack_tlv]; decide +kernel

/-- C67: only a SET naming it changes the value of an attribute; this also for messages
that are incomplete. -/
theorem C67_frame (opts : Opts) (c : Clock) (query : Nat → Clock → List Nat) (m : Mem) (length junk : Nat) (r : Result) (id : Nat)
    (h : receive opts c query m length junk = some (.ok r)) (hi : id ∈ attributes) (hne : ¬ (action m = 1 ∧ managementId m = id)) :
    Spec.get id r.clock = Spec.get id c := by
  rcases receive_cases h with ⟨h1, h2⟩ | hq
  · rw [h1]
  · rw [receive_request query junk hq] at h
    simp only [Option.some.injEq] at h
    rcases answer_frame h with h | ⟨h1, d, o, h2, h3⟩
    · rw [h]
    · rw [h3]
      exact handle_other hi (fun e h => hne ⟨h, e⟩) o h2

/-- C67: what was set is read back, whatever other messages come between. -/
theorem C67_read_back (opts : Opts) (query : Nat → Clock → List Nat) (id : Nat) (hi : id ∈ attributes) (l : List (Mem × Nat × Nat)) (c c' : Clock)
    (h : run opts query l c = .ok c') (hl : ∀ x ∈ l, ¬ (action x.1 = 1 ∧ managementId x.1 = id)) : Spec.get id c' = Spec.get id c := by
  induction l generalizing c with
  | nil => cases h; rfl
  | cons x l ih =>
    obtain ⟨m, length, junk⟩ := x
    have hl' := fun y hy => hl y (List.mem_cons_of_mem _ hy)
    unfold run at h
    split at h
    · exact ih c h hl'
    · cases h
    · rename_i r e
      rw [ih r.clock h hl']
      exact C67_frame opts c query m length junk r id e hi (hl _ List.mem_cons_self)

/-- Between: a GET, a SET of another attribute, and a DISABLE_PORT. -/
example : run ⟨true, true⟩ (fun _ _ => []) [(request 54 0 1 0x2005 [], 54, 0), (request 56 1 1 0x2006 [9, 0], 56, 0), (request 54 3 1 0x200E [], 54, 0)] clock =
    .ok { clock with priority2 := 9, state := 3, update := true } := by
  unfold run receive; rw [unpack_msg, unpack_tlv]
  decide +kernel

end Verif.Management
