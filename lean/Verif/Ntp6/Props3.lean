import Verif.Ntp6.Props2

/-!
# Properties of the mode 6 client: requests, system information, clock control
-/

set_option linter.unusedVariables false
set_option linter.unusedSimpArgs false

namespace Verif.Ntp6

/-- ntpd answers query `seq` with the payloads `fs`, all of which arrive in time, in any order and
among anything that does not answer the query. -/
structure Delivers (seq op timeout : Nat) (fs : List (List Nat)) (n : Net) : Prop where
  sent : n.sent = 0
  octets : Octets n.events
  split : Split fs
  only : ∀ t e, (t, e) ∈ n.events → n.start ≤ t ∧ t ≤ n.start + timeout ∧ ∃ b, e = .packet b ∧ ((∃ j, PartMsg fs seq op j b) ∨ ¬ Answers seq op b)
  all : ∀ j, j < fs.length → ∃ t b, (t, Rx.packet b) ∈ n.events ∧ PartMsg fs seq op j b

theorem Delivers.reply {seq op timeout : Nat} {fs : List (List Nat)} {n : Net} {buf : List Nat} (h : Delivers seq op timeout fs n) (hb : buf.length = 4096) :
    (response seq op timeout n.start buf n.events).reply = .ok fs.flatten.length ∧
    (response seq op timeout n.start buf n.events).buf.take fs.flatten.length = fs.flatten ∧
    (response seq op timeout n.start buf n.events).buf.length = 4096 := by
  obtain ⟨h1, h2⟩ := C190_reply_complete seq op timeout n.start buf n.events fs hb h.octets h.split h.only h.all
  exact ⟨h1, h2, (loop_sound h.octets n.events _ [] (fun e he => he) (Inv.init hb)).1⟩

/-- One packet is enough for a short text. -/
theorem single_delivers {seq op timeout : Nat} {text : List Nat} (hs : seq < 65536) (ho : op < 32) (hl : text.length ≤ 504) (ht : ∀ x ∈ text, x < 256) :
    Delivers seq op timeout [text]
      { events := [(0, .packet (({ op := op, seq := seq } : Head).message text (List.replicate ((4 - text.length % 4) % 4) 0)))] } := by
  have hp : PartMsg [text] seq op 0 (({ op := op, seq := seq } : Head).message text (List.replicate ((4 - text.length % 4) % 4) 0)) :=
    ⟨_, text, by unfold Head.Fits; simp only; omega, rfl, rfl, rfl, rfl, rfl, rfl, rfl⟩
  refine ⟨rfl, ?_, ⟨by simp, by simp, by simpa using hl, by simpa using by omega, ?_⟩, ?_, ?_⟩
  · intro t b hm x hx
    simp only [List.mem_cons, Prod.mk.injEq, Rx.packet.injEq, List.not_mem_nil, or_false] at hm
    obtain ⟨-, rfl⟩ := hm
    simp only [Head.message, be16, List.cons_append, List.nil_append, List.mem_cons, List.mem_append, List.mem_replicate] at hx
    simp only [Bool.false_eq_true, if_false] at hx
    rcases hx with rfl | rfl | rfl | rfl | rfl | rfl | rfl | rfl | rfl | rfl | rfl | rfl | hx | ⟨-, rfl⟩ <;> first | exact ht x hx | omega
  · intro j f h hj
    simp only [List.length_singleton] at hj; omega
  · intro t e hm
    simp only [List.mem_cons, Prod.mk.injEq, List.not_mem_nil, or_false] at hm
    obtain ⟨rfl, rfl⟩ := hm
    exact ⟨Nat.le_refl _, Nat.zero_le _, _, rfl, .inl ⟨0, hp⟩⟩
  · intro j hj
    have : j = 0 := by simpa using hj
    subst this
    exact ⟨0, _, by simp, hp⟩

/-! ## C200 -/

/-- The ways in which ntpd writes an address. -/
inductive Writes (host : List Nat) : List Nat → Prop
  | v4 : 58 ∉ host → Writes host host
  | v4port {port : List Nat} : 58 ∉ host → host ≠ [] → 58 ∉ port → 0 ∉ port → Writes host (host ++ [58] ++ port)
  | v6 : 2 ≤ host.count 58 → Writes host host
  | v6port {port : List Nat} : 93 ∉ host → 0 ∉ port → Writes host ([91] ++ host ++ [93] ++ port)

theorem Writes.text {host v : List Nat} (h : Writes host v) (h0 : 0 ∉ host) (hb : host.head? ≠ some 91) (lib : Lib) : addrText (valueMem lib v) = .ok host := by
  cases h with
  | v4 h1 => exact (C199_addresses lib host [] h0 (by simp) hb).1 h1
  | v4port h1 h2 h3 h4 => exact (C199_addresses lib host _ h0 h4 hb).2.1 h1 h2 h3
  | v6 h1 => exact (C199_addresses lib host [] h0 (by simp) hb).2.2.1 h1
  | v6port h1 h2 => exact (C199_addresses lib host _ h0 h2 hb).2.2.2 h1

theorem request_plain {digest : List Nat → List Nat} {seq op assoc : Nat} {data : List Nat} (h : data.length ≤ 468) :
    request digest seq op assoc false data = .ok (padTo 4 (header seq op assoc data.length ++ data)) := by
  unfold request
  rw [if_neg (by omega)]
  rfl

theorem find_filter {α : Type} {p q : α → Bool} {l : List α} (h : ∀ x, p x = true → q x = true) : l.find? p = (l.filter q).find? p := by
  induction l with
  | nil => rfl
  | cons x l ih =>
    by_cases hp : p x = true
    · rw [List.filter_cons_of_pos (h x hp), List.find?_cons_of_pos hp, List.find?_cons_of_pos hp]
    · rw [List.find?_cons_of_neg hp, ih]
      by_cases hq : q x = true
      · rw [List.filter_cons_of_pos hq, List.find?_cons_of_neg hp]
      · rw [List.filter_cons_of_neg hq]

theorem replyVars_eq {c : Client} {size : Nat} {text : List Nat} (h : c.buf.take size = text) (hl : text.length = size) :
    replyVars c size = allVars (beyondOf c size) text := by
  unfold replyVars allVars; rw [h, hl]

/-- **C200**: the address of the peer that ntpd has selected is what ntpd says it is, however the
address is written and the answer is split. -/
theorem C200_peer_address (lib : Lib) (c : Client) (n : Net) (addr : Option Nat) (fs : List (List Nat)) (vs : List Var) (v : Var) (host : List Nat) (a : Nat)
    (hb : c.buf.length = 4096) (hd : Delivers ((c.seq + 1) % 65536) 2 c.timeout fs n) (hl : Listing vs fs.flatten)
    (hv : vs.find? (fun v => v.name = strPeeradr) = some v) (hw : Writes host v.val) (h0 : 0 ∉ host) (hh : host.head? ≠ some 91) (ha : lib.resolve host = .ok a) :
    ∃ c', getSys lib c n addr = .ok (0, some a, c') := by
  obtain ⟨r1, r2, r3⟩ := hd.reply hb
  have hq := query_sent (n := n) (c := c) (op := 2) (assoc := 0) (auth := false) (data := strPeeradr) (request_plain (by decide)) hd.sent
  unfold getSys
  rw [hq, r1]
  simp only
  have hrv := replyVars_eq (c := { c with seq := (c.seq + 1) % 65536, buf := (response ((c.seq + 1) % 65536) 2 c.timeout n.start c.buf n.events).buf }) r2 rfl
  have hf : findPeer (replyVars { c with seq := (c.seq + 1) % 65536, buf := (response ((c.seq + 1) % 65536) 2 c.timeout n.start c.buf n.events).buf } fs.flatten.length) = some (some v.val) := by
    rw [hrv]
    unfold findPeer
    rw [find_filter (q := fun v => decide (v.1 ≠ [])) (by
      intro x hx
      simp only [decide_eq_true_eq] at hx ⊢
      rw [hx]; decide)]
    rw [C196_variables _ vs _ hl, List.find?_map]
    have : (List.find? ((fun v : List Nat × Option (List Nat) => decide (v.1 = strPeeradr)) ∘ fun v : Var => (v.name, some v.val)) vs) = some v := hv
    rw [this]; rfl
  rw [hf]
  simp only [parseAddr, hw.text h0 hh lib, ha]
  exact ⟨_, rfl⟩

/-- C200, the results: 0, `ENOENT` or `ECONNREFUSED`; unless it is 0 and an address has been found in
a reply to this query, the address is left as it was or is none. -/
theorem C200_results (lib : Lib) (c : Client) (n : Net) (addr : Option Nat) (rc : Nat) (a : Option Nat) (c' : Client)
    (hn : ∀ t, (t, Rx.failed 0) ∉ n.events) (hl : ∀ t e, lib.resolve t = .error e → e ≠ 0)
    (h : getSys lib c n addr = .ok (rc, a, c')) :
    (rc = 0 ∨ rc = 2 ∨ rc = 111) ∧ (rc ≠ 0 → a = addr ∨ a = none) ∧
    (rc = 0 → ∃ size beyond v t x, (response ((c.seq + 1) % 65536) 2 c.timeout n.start c.buf n.events).reply = .ok size ∧
      (strPeeradr, some v) ∈ allVars beyond ((response ((c.seq + 1) % 65536) 2 c.timeout n.start c.buf n.events).buf.take size) ∧
      addrText (valueMem lib v) = .ok t ∧ lib.resolve t = .ok x ∧ a = some x) := by
  have code : ∀ e, sysCode e = 0 ∨ sysCode e = 2 ∨ sysCode e = 111 := by
    intro e
    unfold sysCode
    split
    · rename_i h'
      simp only [Bool.or_eq_true, decide_eq_true_eq] at h'
      omega
    · omega
  have code0 : ∀ e, sysCode e = 0 → e = 0 := by
    intro e h'
    unfold sysCode at h'
    split at h'
    · exact h'
    · omega
  unfold getSys at h
  rcases query_cases c n 2 0 false strPeeradr with ⟨p, e, hq, he⟩ | ⟨p, hs0, -, hq⟩
  · have hse : n.sent ≠ 0 := by
      intro h0
      have := query_sent (n := n) (c := c) (op := 2) (assoc := 0) (auth := false) (data := strPeeradr) (request_plain (by decide)) h0
      rw [hq] at this
      cases this
    rw [hq] at h
    simp only [Except.ok.injEq, Prod.mk.injEq] at h
    obtain ⟨rfl, rfl, rfl⟩ := h
    refine ⟨code e, fun _ => .inl rfl, ?_⟩
    intro h0
    exfalso
    have hp : p ≠ none := by
      intro hp
      unfold query at hq
      simp only [request_plain (digest := c.digest) (seq := (c.seq + 1) % 65536) (op := 2) (assoc := 0) (data := strPeeradr) (by decide)] at hq
      rw [if_pos hse] at hq
      rw [hp] at hq
      cases hq
    rcases he hse with he | he
    · exact hse (he ▸ code0 e h0)
    · exact hp he
  · rw [hq] at h
    cases hr : (response ((c.seq + 1) % 65536) 2 c.timeout n.start c.buf n.events).reply with
    | fault f => rw [hr] at h; cases h
    | refused =>
      rw [hr] at h
      cases h
      exact ⟨code 2, fun _ => .inl rfl, fun h0 => absurd (code0 2 h0) (by decide)⟩
    | rc e =>
      rw [hr] at h
      cases h
      refine ⟨code e, fun _ => .inl rfl, ?_⟩
      intro h0
      exfalso
      have e0 := code0 e h0
      subst e0
      revert hr
      unfold response
      generalize (⟨[], false, c.buf, n.start + c.timeout⟩ : Rs) = s
      have key : ∀ (l : List (Nat × Rx)) (s : Rs), (∀ t, (t, Rx.failed 0) ∉ l) → (loop ((c.seq + 1) % 65536) 2 c.timeout s l).reply ≠ .rc 0 := by
        intro l
        induction l with
        | nil => intro s _ h; cases h
        | cons x l ih =>
          intro s hx h
          obtain ⟨t, x⟩ := x
          have hx' : ∀ t, (t, Rx.failed 0) ∉ l := fun t ht => hx t (by simp [ht])
          unfold loop at h
          split at h
          · cases h
          · cases x with
            | failed k =>
              simp only [Reply.rc.injEq] at h
              subst h
              exact hx t (by simp)
            | packet b =>
              simp only at h
              split at h
              · exact ih _ hx' h
              · cases h
              · rename_i k hne hk
                simp only [Reply.rc.injEq] at h
                subst h
                exact hne rfl
              · cases h
              · exact ih _ hx' h
              · cases h
      intro hr
      exact key n.events s hn hr
    | ok size =>
      rw [hr] at h
      simp only at h
      cases hf : findPeer (replyVars { c with seq := (c.seq + 1) % 65536, buf := (response ((c.seq + 1) % 65536) 2 c.timeout n.start c.buf n.events).buf } size) with
      | none =>
        rw [hf] at h
        cases h
        exact ⟨code 2, fun _ => .inl rfl, fun h0 => absurd (code0 2 h0) (by decide)⟩
      | some v =>
        rw [hf] at h
        simp only at h
        have hm := findPeer_mem hf
        unfold replyVars at hm
        have hlen : (List.take size (response ((c.seq + 1) % 65536) 2 c.timeout n.start c.buf n.events).buf).length < size + 1 := by
          rw [List.length_take]; omega
        rw [vars_fuel (size + 1) _ _ hlen (Nat.lt_succ_self _)] at hm
        cases v with
        | none => simp only [parseAddr] at h; cases h
        | some v =>
          simp only [parseAddr] at h
          cases ht : addrText (valueMem lib v) with
          | error f => rw [ht] at h; cases h
          | ok t =>
            rw [ht] at h
            simp only at h
            cases hx : lib.resolve t with
            | error e =>
              rw [hx] at h
              cases h
              exact ⟨code e, fun _ => .inr rfl, fun h0 => absurd (code0 e h0) (hl t e hx)⟩
            | ok x =>
              rw [hx] at h
              cases h
              exact ⟨.inl rfl, fun h0 => absurd rfl h0, fun _ => ⟨size, _, v, t, x, rfl, hm, ht, hx, rfl⟩⟩

/-- The answer `peeradr=10.1:123`, an end of line. -/
example : ∃ c', getSys lib0 newClient
    { events := [(0, .packet (({ op := 2, seq := 7 } : Head).message (strPeeradr ++ [61, 49, 48, 46, 49, 58, 49, 50, 51, 13, 10]) (List.replicate 2 0)))] } none = .ok (0, some 1, c') := by
  have hv : Var.Ok ⟨strPeeradr, [49, 48, 46, 49, 58, 49, 50, 51], false⟩ := ⟨by simp [Plain, strPeeradr], by simp [strPeeradr], by decide, by decide, by simp [Plain], nofun, nofun⟩
  refine C200_peer_address lib0 newClient _ none [strPeeradr ++ [61, 49, 48, 46, 49, 58, 49, 50, 51, 13, 10]] [⟨strPeeradr, [49, 48, 46, 49, 58, 49, 50, 51], false⟩]
    ⟨strPeeradr, [49, 48, 46, 49, 58, 49, 50, 51], false⟩ [49, 48, 46, 49] 1 zeros_length
    (single_delivers (by decide) (by decide) (by decide) (by decide)) ?_ (by decide) (.v4port (port := [49, 50, 51]) (by decide) (by decide) (by decide) (by decide)) (by decide) (by decide) rfl
  exact Listing.next (s := [13, 10]) (d := []) hv ⟨by simp [Gap], 13, [10], rfl, .inr rfl⟩ (.done (by simp [Gap]))

/-! ## C203 -/

/-- **C203**: switching ntpd's control of the clock succeeds only if ntpd says so in its answer to
the command. -/
def C203_statement : Prop :=
  ∀ (c : Client) (n : Net) (on : Bool) (p : Option (List Nat)) (c' : Client) (fs : List (List Nat)), c.buf.length = 4096 →
    Delivers ((c.seq + 1) % 65536) 8 c.timeout fs n → clockControl c n on = .ok (p, 0, c') → strSucceeded <+: fs.flatten

/-- A client that has switched ntpd before. -/
def usedClient : Client := { newClient with buf := blit zeros 0 strSucceeded }

def codeIs (r : Except Fault (Option (List Nat) × Nat × Client)) (rc : Nat) : Bool :=
  match r with
  | .ok (_, e, _) => e = rc
  | .error _ => false

theorem codeIs_ok {r : Except Fault (Option (List Nat) × Nat × Client)} {rc : Nat} (h : codeIs r rc = true) : ∃ p c, r = .ok (p, rc, c) := by
  unfold codeIs at h
  split at h
  · rename_i p e c
    exact ⟨p, c, by rw [of_decide_eq_true h]⟩
  · cases h

/-- An answer without a text is taken for the one that is left in the buffer. -/
theorem C203_violated : ¬ C203_statement := by
  intro h
  obtain ⟨p, c', hc⟩ := codeIs_ok (r := clockControl usedClient
    { events := [(0, .packet (({ op := 8, seq := 7 } : Head).message [] (List.replicate ((4 - 0 % 4) % 4) 0)))] } true) (rc := 0) (by decide +kernel)
  have hd : Delivers 7 8 1000 [[]] { events := [(0, .packet (({ op := 8, seq := 7 } : Head).message [] (List.replicate ((4 - 0 % 4) % 4) 0)))] } :=
    single_delivers (text := []) (by decide) (by decide) (by decide) (by decide)
  have := h usedClient _ true p c' [[]] (by decide +kernel) hd hc
  revert this; decide

/-- C203 for answers of at least 18 bytes: success is reported exactly if the answer begins with
the words.  Without a key nothing is sent and the result is `EACCES`.  Missing: shorter answers,
which are completed by what is left in the buffer. -/
theorem C203_confirmed_partial (c : Client) (n : Net) (on : Bool) (hb : c.buf.length = 4096) :
    (c.key = false → clockControl c n on = .ok (none, 13, c)) ∧
    (∀ fs, c.key = true → (∀ l, (c.digest l).length = 20) → Delivers ((c.seq + 1) % 65536) 8 c.timeout fs n → 18 ≤ fs.flatten.length →
      ∃ p c' rc, clockControl c n on = .ok (some p, rc, c') ∧ (rc = 0 ↔ strSucceeded <+: fs.flatten) ∧ (rc = 0 ∨ rc = 13)) := by
  constructor
  · intro h
    unfold clockControl
    rw [if_pos (by simp [h])]
  · intro fs hk hdg hd h18
    obtain ⟨r1, r2, r3⟩ := hd.reply hb
    obtain ⟨p, hp⟩ : ∃ p, request c.digest ((c.seq + 1) % 65536) 8 0 true (if on then strEnable else strDisable) = .ok p := by
      unfold request
      rw [if_neg (by cases on <;> decide)]
      simp only [Bool.not_true, Bool.false_eq_true, if_false]
      rw [if_neg (by rw [hdg]; decide)]
      exact ⟨_, rfl⟩
    have hq := query_sent (n := n) (c := c) (op := 8) (assoc := 0) (auth := true) (data := if on then strEnable else strDisable) hp hd.sent
    unfold clockControl
    rw [if_neg (by simp [hk]), hq, r1]
    simp only
    refine ⟨p, _, _, rfl, ?_, ?_⟩
    · have e : (response ((c.seq + 1) % 65536) 8 c.timeout n.start c.buf n.events).buf.take 18 = fs.flatten.take 18 := by
        rw [← r2, List.take_take, Nat.min_eq_left h18]
      rw [e]
      have hl : strSucceeded.length = 18 := rfl
      constructor
      · intro h
        split at h
        · rename_i h'
          rw [← h']; exact List.take_prefix _ _
        · cases h
      · intro h
        rw [List.prefix_iff_eq_take, hl] at h
        rw [if_pos h.symm]
    · split
      · exact .inl rfl
      · exact .inr rfl

/-- ntpd agrees. -/
example : codeIs (clockControl newClient { events := [(0, .packet (({ op := 8, seq := 7 } : Head).message (strSucceeded ++ [0, 0]) []))] } true) 0 = true := by
  decide +kernel

/-! ## C204 -/

/-- **C204**: a request is a control message of version 4 with the operation, the number of the
query, the association and the text, padded with zeros to 32 bits; with authentication to 64 bits
and followed by the digest of all that; it fits the packet of 516 bytes.  A text that is too long is
refused, and nothing else is. -/
theorem C204_request (digest : List Nat → List Nat) (seq op assoc : Nat) (data : List Nat) (ho : op < 32) (hs : seq < 65536) (ha : assoc < 65536)
    (hdg : ∀ l, (digest l).length = 20) :
    (468 < data.length → ∀ auth, request digest seq op assoc auth data = .error 7) ∧
    (data.length ≤ 468 →
      (∃ k, k < 4 ∧ (12 + data.length + k) % 4 = 0 ∧ request digest seq op assoc false data =
        .ok ([4 * 8 + 6, op] ++ be16 seq ++ be16 0 ++ be16 assoc ++ be16 0 ++ be16 data.length ++ data ++ List.replicate k 0)) ∧
      (∃ k m, k < 8 ∧ (12 + data.length + k) % 8 = 0 ∧
        m = [4 * 8 + 6, op] ++ be16 seq ++ be16 0 ++ be16 assoc ++ be16 0 ++ be16 data.length ++ data ++ List.replicate k 0 ∧
        request digest seq op assoc true data = .ok (m ++ digest m) ∧ (m ++ digest m).length ≤ 516)) := by
  have hh : data.length ≤ 468 → header seq op assoc data.length ++ data = [4 * 8 + 6, op] ++ be16 seq ++ be16 0 ++ be16 assoc ++ be16 0 ++ be16 data.length ++ data := by
    intro hl
    unfold header be16
    simp only [List.cons_append, List.nil_append, List.cons.injEq, true_and, and_true]
    omega
  have hhl : (header seq op assoc data.length ++ data).length = 12 + data.length := by
    simp only [header, List.cons_append, List.nil_append, List.length_cons]; omega
  refine ⟨?_, ?_⟩
  · intro h auth
    unfold request
    rw [if_pos h]
  · intro h
    refine ⟨⟨(4 - (12 + data.length) % 4) % 4, by omega, by omega, ?_⟩, ?_⟩
    · rw [request_plain h]
      unfold padTo
      rw [hhl, hh h]
    · refine ⟨(4 - (12 + data.length) % 4) % 4 + (8 - (12 + data.length + (4 - (12 + data.length) % 4) % 4) % 8) % 8, _, by omega, by omega, rfl, ?_, ?_⟩
      · unfold request
        rw [if_neg (by omega)]
        simp only [Bool.not_true, Bool.false_eq_true, if_false]
        rw [if_neg (by rw [hdg]; decide)]
        have : padTo 8 (padTo 4 (header seq op assoc data.length ++ data)) = [4 * 8 + 6, op] ++ be16 seq ++ be16 0 ++ be16 assoc ++ be16 0 ++ be16 data.length ++ data ++
            List.replicate ((4 - (12 + data.length) % 4) % 4 + (8 - (12 + data.length + (4 - (12 + data.length) % 4) % 4) % 8) % 8) 0 := by
          unfold padTo
          rw [hhl, List.length_append, hhl, List.length_replicate, List.append_assoc, List.replicate_append_replicate, hh h]
        rw [this]
      · rw [List.length_append, hdg]
        simp only [be16, List.cons_append, List.nil_append, List.length_cons, List.length_append, List.length_replicate]
        omega

example : request (fun _ => List.replicate 20 1) 258 8 0 true [1, 2, 3] = .ok ([38, 8, 1, 2, 0, 0, 0, 0, 0, 0, 0, 3, 1, 2, 3, 0] ++ List.replicate 20 1) := by rfl

/-! ## C205 -/

theorem queryData_prefix {limit : Nat} : ∀ (vs : List (List Nat)) (out : List Nat), out.length ≤ limit →
    out <+: queryData limit vs out ∧ (queryData limit vs out).length ≤ limit ∧
    ∃ k, k ≤ vs.length ∧ queryData limit vs out = (vs.take k).foldl (fun o v => o ++ (if o = [] then [] else [44]) ++ v) out ∧
      (∀ v, vs[k]? = some v → limit < (queryData limit vs out).length + v.length + (if queryData limit vs out = [] then 0 else 1)) := by
  intro vs
  induction vs with
  | nil => intro out h; exact ⟨List.prefix_refl _, h, 0, Nat.le_refl _, rfl, nofun⟩
  | cons v vs ih =>
    intro out h
    unfold queryData
    by_cases hc : limit < out.length + v.length + (if out = [] then 0 else 1)
    · rw [if_pos hc]
      refine ⟨List.prefix_refl _, h, 0, Nat.zero_le _, rfl, ?_⟩
      intro w hw
      cases hw; exact hc
    · rw [if_neg hc]
      have hlen : (out ++ (if out = [] then [] else [44]) ++ v).length ≤ limit := by
        rw [List.length_append, List.length_append]
        split <;> rename_i ho <;> simp only [ho, if_true, if_false, List.length_nil, List.length_singleton] at hc ⊢ <;> omega
      obtain ⟨h1, h2, k, h3, h4, h5⟩ := ih _ hlen
      refine ⟨?_, h2, k + 1, by simp only [List.length_cons]; omega, ?_, ?_⟩
      · exact (List.prefix_append _ _).trans ((List.prefix_append _ _).trans h1)
      · rw [h4, List.take_succ_cons, List.foldl_cons]
      · intro w hw; exact h5 w hw

/-- Names with commas between them. -/
def joined : List (List Nat) → List Nat
  | [] => []
  | [v] => v
  | v :: w :: vs => v ++ [44] ++ joined (w :: vs)

theorem foldl_joined : ∀ (vs : List (List Nat)) (out : List Nat), out ≠ [] → (∀ v ∈ vs, v ≠ []) →
    vs.foldl (fun o v => o ++ (if o = [] then [] else [44]) ++ v) out = joined (out :: vs) := by
  intro vs
  induction vs with
  | nil => intro out _ _; rfl
  | cons v vs ih =>
    intro out ho hv
    rw [List.foldl_cons, if_neg ho, ih _ (by simp) (fun w hw => hv w (by simp [hw]))]
    cases vs with
    | nil => rfl
    | cons w ws => simp only [joined, List.append_assoc]

/-- The query for a peer's variables is stable: asked again with the room that it took before, it
is the same. -/
theorem queryData_again {limit : Nat} : ∀ (vs : List (List Nat)) (out : List Nat), out.length ≤ limit → (∀ v ∈ vs, v ≠ []) →
    queryData (queryData limit vs out).length vs out = queryData limit vs out := by
  intro vs
  induction vs with
  | nil => intro out _ _; rfl
  | cons v vs ih =>
    intro out h hv
    by_cases hc : limit < out.length + v.length + (if out = [] then 0 else 1)
    · have e : queryData limit (v :: vs) out = out := by conv_lhs => unfold queryData; rw [if_pos hc]
      rw [e]
      have : 0 < v.length := by
        cases hvv : v with
        | nil => exact absurd hvv (hv v (by simp))
        | cons _ _ => simp
      unfold queryData
      rw [if_pos (by omega)]
    · have hlen : (out ++ (if out = [] then [] else [44]) ++ v).length ≤ limit := by
        rw [List.length_append, List.length_append]
        split <;> rename_i ho <;> simp only [ho, if_true, if_false, List.length_nil, List.length_singleton] at hc ⊢ <;> omega
      have e : queryData limit (v :: vs) out = queryData limit vs (out ++ (if out = [] then [] else [44]) ++ v) := by
        conv_lhs => unfold queryData; rw [if_neg hc]
      have hp := (queryData_prefix vs _ hlen).1.length_le
      rw [e]
      conv_lhs => unfold queryData
      rw [if_neg]
      · exact ih _ hlen (fun w hw => hv w (by simp [hw]))
      · rw [List.length_append, List.length_append] at hp
        split <;> rename_i ho <;> simp only [ho, if_true, if_false, List.length_nil, List.length_singleton] at hp ⊢ <;> omega

/-- **C205**: a query for variables names as many of them as fit, in order, with commas between,
and the query for the next peer, for which there is only the room that the first one took, is the
same. -/
theorem C205_query_data (limit : Nat) (vs : List (List Nat)) (hv : ∀ v ∈ vs, v ≠ []) :
    ∃ k, k ≤ vs.length ∧ queryData limit vs [] = joined (vs.take k) ∧ (queryData limit vs []).length ≤ limit ∧
      (∀ v, vs[k]? = some v → limit < (joined (vs.take (k + 1))).length) ∧
      queryData (queryData limit vs []).length vs [] = queryData limit vs [] := by
  obtain ⟨-, h2, k, h3, h4, h5⟩ := queryData_prefix vs [] (Nat.zero_le limit)
  have fj : ∀ ws : List (List Nat), (∀ v ∈ ws, v ≠ []) → ws.foldl (fun o v => o ++ (if o = [] then [] else [44]) ++ v) [] = joined ws := by
    intro ws hws
    cases ws with
    | nil => rfl
    | cons w ws =>
      rw [List.foldl_cons]
      simp only [if_true, List.nil_append]
      exact foldl_joined ws w (hws w (by simp)) (fun v hv => hws v (by simp [hv]))
  have hj : queryData limit vs [] = joined (vs.take k) := by
    rw [h4]; exact fj _ (fun v hm => hv v (List.mem_of_mem_take hm))
  refine ⟨k, h3, hj, h2, ?_, queryData_again vs [] (Nat.zero_le _) hv⟩
  intro v hk
  have h6 := h5 v hk
  have : joined (vs.take (k + 1)) = queryData limit vs [] ++ (if queryData limit vs [] = [] then [] else [44]) ++ v := by
    rw [← fj _ (fun v hm => hv v (List.mem_of_mem_take hm)), List.take_add_one, hk]
    rw [List.foldl_append, ← h4]; rfl
  rw [this, List.length_append, List.length_append]
  split <;> rename_i ho <;> simp only [ho, if_true, if_false, List.length_nil, List.length_singleton] at h6 ⊢ <;> omega

/-- The nine variables of a peer all fit. -/
example : queryData 468 peerNames [] = joined peerNames ∧ queryData 20 peerNames [] = joined (peerNames.take 2) := by decide

end Verif.Ntp6
