import Verif.Ntp6.Whole

/-!
# Properties of the mode 6 client: replies
-/

set_option linter.unusedVariables false
set_option linter.unusedSimpArgs false

namespace Verif.Ntp6

/-- A buffer as it is at the start. -/
def zeros : List Nat := List.replicate 4096 0

theorem zeros_length : zeros.length = 4096 := List.length_replicate

/-! ## C189 -/

/-- **C189**: what a successful query returns is the payloads of packets that arrived, each with
the number and the operation of this query and without an error, put together without gap or
overlap from the start on; exactly one of them is marked as the final one. -/
theorem C189_reply_from_packets (seq op timeout start : Nat) (buf : List Nat) (es : List (Nat × Rx)) (n : Nat)
    (hb : buf.length = 4096) (ho : Octets es) (h : (response seq op timeout start buf es).reply = .ok n) :
    ∃ qs : List Part,
      (∀ p ∈ qs, p.1.Fits ∧ p.1.seq = seq ∧ p.1.op = op ∧ p.1.error = false ∧ ∃ t pad, (t, Rx.packet (p.1.message p.2 pad)) ∈ es) ∧
      Tiles 0 qs ∧ (response seq op timeout start buf es).buf.take n = (qs.map (·.2)).flatten ∧ n = (qs.map (·.2)).flatten.length ∧
      n ≤ 4096 ∧ (qs.filter (fun p => !p.1.more)).length = 1 :=
  (loop_sound ho es _ [] (fun e he => he) (Inv.init hb)).2 n h

/-- Two packets, the second one first. -/
def twoParts : List (Nat × Rx) :=
  [(10, .packet (({ op := 2, seq := 7, offset := 4 } : Head).message [5, 6] [0, 0])),
   (20, .packet (({ op := 2, seq := 7, more := true } : Head).message [1, 2, 3, 4] []))]

example : (response 7 2 1000 0 zeros twoParts).reply = .ok 6 ∧ (response 7 2 1000 0 zeros twoParts).buf.take 6 = [1, 2, 3, 4, 5, 6] := by
  decide +kernel

example : Octets twoParts := by
  intro t b hm x hx
  simp only [twoParts, List.mem_cons, Prod.mk.injEq, Rx.packet.injEq, List.not_mem_nil, or_false] at hm
  rcases hm with ⟨-, rfl⟩ | ⟨-, rfl⟩
  · revert x hx; decide
  · revert x hx; decide

/-! ## C190 -/

/-- **C190**: when ntpd splits its answer into at most 32 packets that fit and all of them arrive
within the timeout, in any order, repeated or not, among packets that do not answer the query, then
the query returns exactly the answer. -/
theorem C190_reply_complete (seq op timeout start : Nat) (buf : List Nat) (es : List (Nat × Rx)) (fs : List (List Nat))
    (hb : buf.length = 4096) (ho : Octets es) (hs : Split fs)
    (hev : ∀ t e, (t, e) ∈ es → start ≤ t ∧ t ≤ start + timeout ∧ ∃ b, e = .packet b ∧ ((∃ j, PartMsg fs seq op j b) ∨ ¬ Answers seq op b))
    (hall : ∀ j, j < fs.length → ∃ t b, (t, Rx.packet b) ∈ es ∧ PartMsg fs seq op j b) :
    (response seq op timeout start buf es).reply = .ok fs.flatten.length ∧
    (response seq op timeout start buf es).buf.take fs.flatten.length = fs.flatten := by
  have hk : 0 < fs.length := by
    cases fs with
    | nil => exact absurd rfl hs.some_
    | cons _ _ => simp
  obtain ⟨n, hn⟩ := loop_done hs (seq := seq) (op := op) (timeout := timeout) es ⟨[], false, buf, start + timeout⟩ (start + timeout) (Live.init hb) (Nat.le_refl _)
    (by
      intro t e he
      obtain ⟨h1, h2, b, rfl, h3⟩ := hev t e he
      refine ⟨h2, by omega, b, rfl, ?_⟩
      rcases h3 with h3 | h3
      · exact .inl h3
      · right
        by_contra hv
        exact h3 (validate_answers (ho t b he) (by simpa using hv)))
    (fun j hj => .inr (hall j hj))
  obtain ⟨qs, q1, q2, q3, q4, q5, q6⟩ := C189_reply_from_packets seq op timeout start buf es n hb ho hn
  have hw : (qs.map (·.2)).flatten = (fs.drop 0).flatten := by
    refine tiles_whole hs qs 0 hk (by simpa [startOf] using q2) ?_ q6
    intro q hq
    obtain ⟨a1, a2, a3, a4, t, pad, a5⟩ := q1 q hq
    obtain ⟨-, -, b, hbm, h3⟩ := hev t _ a5
    cases hbm
    have hlen : q.2.length < 65536 := by
      have : q.2.length ≤ (qs.map (·.2)).flatten.length := by
        exact (List.sublist_flatten_of_mem (List.mem_map_of_mem (f := fun x : Part => x.2) hq)).length_le
      omega
    have hv := (read_message (pad := pad) a1 hlen).1
    rw [a2, a3] at hv
    rcases h3 with ⟨j, hd, f, p1, p2, p3, p4, p5, p6, p7, p8⟩ | h3
    · have hf : f.length ≤ 504 := hs.small f (List.mem_of_getElem? p5)
      obtain ⟨e1, e2, -, e4⟩ := message_inj a1 p1 hlen (by omega) p8
      exact ⟨j, f, p5, by rw [e1, p6], e4, by rw [e2, p7]⟩
    · exact absurd (validate_answers (ho t _ a5) hv) h3
  rw [List.drop_zero] at hw
  rw [hw] at q3 q4
  subst q4
  exact ⟨hn, q3⟩

/-- The answer of `twoParts`, with a packet of another query and a repetition among them. -/
def noisy : List (Nat × Rx) :=
  (5, Rx.packet (({ op := 2, seq := 6 } : Head).message [9, 9, 9, 9] [])) ::
  (6, Rx.packet (({ op := 2, seq := 7, offset := 4 } : Head).message [5, 6] [0, 0])) :: (7, Rx.packet [0, 1]) :: twoParts

example : Split [[1, 2, 3, 4], [5, 6]] :=
  ⟨by decide, by decide, by decide, by decide, by
    intro j f h hj
    match j, h, hj with
    | 0, h, _ => cases h; simp
    | 1, h, hj => simp at hj⟩

example : PartMsg [[1, 2, 3, 4], [5, 6]] 7 2 1 (({ op := 2, seq := 7, offset := 4 } : Head).message [5, 6] [0, 0]) :=
  ⟨_, [5, 6], by unfold Head.Fits; decide, rfl, rfl, rfl, rfl, rfl, rfl, rfl⟩

example : PartMsg [[1, 2, 3, 4], [5, 6]] 7 2 0 (({ op := 2, seq := 7, more := true } : Head).message [1, 2, 3, 4] []) :=
  ⟨_, [1, 2, 3, 4], by unfold Head.Fits; decide, rfl, rfl, rfl, rfl, rfl, rfl, rfl⟩

example : ¬ Answers 7 2 [0, 1] := by
  rintro ⟨h, -, -, -, n, rest, -, h⟩
  have := congrArg List.length h
  simp [Head.message, be16] at this

example : (response 7 2 1000 0 zeros noisy).reply = .ok 6 ∧ (response 7 2 1000 0 zeros noisy).buf.take 6 = [1, 2, 3, 4, 5, 6] := by
  decide +kernel

/-! ## C191 -/

/-- **C191**: no reply makes the reassembly read or write outside its arrays. -/
def C191_statement : Prop :=
  ∀ (seq op timeout start : Nat) (buf : List Nat) (es : List (Nat × Rx)), buf.length = 4096 → Octets es →
    ∀ f, (response seq op timeout start buf es).reply ≠ .fault f

/-- An error answer with code 8. -/
def badCode : List (Nat × Rx) := [(10, .packet (({ op := 2, seq := 7, error := true, status := 2048 } : Head).message [] []))]

theorem badCode_octets : Octets badCode := by
  intro t b hm x hx
  simp only [badCode, List.mem_cons, Prod.mk.injEq, Rx.packet.injEq, List.not_mem_nil, or_false] at hm
  obtain ⟨-, rfl⟩ := hm
  revert x hx; decide

/-- The code in an error answer is used as an index without a check. -/
theorem C191_violated : ¬ C191_statement := by
  intro h
  exact h 7 2 1000 0 zeros badCode zeros_length badCode_octets .table (by decide +kernel)

theorem loop_faults {seq op timeout : Nat} {es : List (Nat × Rx)} (ho : Octets es) :
    ∀ (l : List (Nat × Rx)) (s : Rs) (ps : List Part), (∀ e ∈ l, e ∈ es) → Inv seq op es s ps →
      ∀ f, (loop seq op timeout s l).reply = .fault f → f = .table ∧
        ∃ t b, (t, Rx.packet b) ∈ l ∧ validate b seq op = true ∧ isError b = true ∧ 8 ≤ statusOf b / 256 := by
  intro l
  induction l with
  | nil => intro s ps _ hi f h; cases h
  | cons e l ih =>
    intro s ps hsub hi f hf
    obtain ⟨t, e⟩ := e
    have hsub' : ∀ e ∈ l, e ∈ es := fun e he => hsub e (by simp [he])
    have lift : (f = .table ∧ ∃ t b, (t, Rx.packet b) ∈ l ∧ validate b seq op = true ∧ isError b = true ∧ 8 ≤ statusOf b / 256) →
        f = .table ∧ ∃ t' b, (t', Rx.packet b) ∈ (t, e) :: l ∧ validate b seq op = true ∧ isError b = true ∧ 8 ≤ statusOf b / 256 := by
      rintro ⟨h1, t', b, h2, h3⟩
      exact ⟨h1, t', b, by simp [h2], h3⟩
    unfold loop at hf
    split at hf
    · cases hf
    cases e with
    | failed n => cases hf
    | packet b =>
      have hm : (t, Rx.packet b) ∈ es := hsub _ (by simp)
      simp only at hf
      rcases onPacket_cases (seq := seq) (op := op) (timeout := timeout) (now := t) (b := b) hi.buflen hi.sorted with
        h | ⟨rc, h, -⟩ | ⟨h, h2⟩ | ⟨s', h, hs⟩ | ⟨n, s', h, hs⟩
      · rw [h] at hf; exact lift (ih s ps hsub' hi f hf)
      · rw [h] at hf
        cases rc with
        | zero => cases hf
        | succ k => cases hf
      · rw [h] at hf
        cases hf
        exact ⟨rfl, t, b, by simp, h2⟩
      · rw [h] at hf
        obtain ⟨ps', hi', -⟩ := hi.next hs (ho t b hm) hm
        exact lift (ih s' ps' hsub' hi' f hf)
      · rw [h] at hf; cases hf

/-- C191 for all queries but those that are answered by an error with a code that the protocol
does not define: every fragment is stored inside the buffer and the arrays, and every byte copied
was received.  Missing: undefined error codes. -/
theorem C191_bounds_partial (seq op timeout start : Nat) (buf : List Nat) (es : List (Nat × Rx)) (hb : buf.length = 4096) (ho : Octets es)
    (hc : ∀ t b (h : Head), (t, Rx.packet b) ∈ es → Begins h b → h.Fits → h.error = true → h.status / 256 ≤ 7) :
    (∀ f, (response seq op timeout start buf es).reply ≠ .fault f) ∧ (response seq op timeout start buf es).buf.length = 4096 := by
  refine ⟨?_, (loop_sound ho es _ [] (fun e he => he) (Inv.init hb)).1⟩
  intro f hf
  obtain ⟨-, t, b, h1, h2, h3, h4⟩ := loop_faults ho es _ [] (fun e he => he) (Inv.init hb) f hf
  obtain ⟨g1, -, -, g2⟩ := validate_begins (ho t b h1) h2
  have := hc t b (headOf b) h1 g2 g1 h3
  have e : (headOf b).status = statusOf b := rfl
  rw [e] at this
  omega

/-- A code that the protocol defines: no such variable. -/
example : (response 7 2 1000 0 zeros [(10, .packet (({ op := 2, seq := 7, error := true, status := 1280 } : Head).message [] []))]).reply = .rc 22 := by
  decide +kernel

/-! ## C192 -/

theorem loop_time {seq op timeout start : Nat} {es : List (Nat × Rx)} (ho : Octets es) :
    ∀ (l : List (Nat × Rx)) (s : Rs) (ps : List Part), (∀ e ∈ l, e ∈ es) → Inv seq op es s ps → s.until_ ≤ start + (s.frags.length + 1) * timeout →
      (loop seq op timeout s l).time ≤ start + 33 * timeout := by
  intro l
  induction l with
  | nil =>
    intro s ps _ hi hu
    have h1 := hi.few
    have : (s.frags.length + 1) * timeout ≤ 33 * timeout := Nat.mul_le_mul_right _ (by omega)
    exact Nat.le_trans hu (by omega)
  | cons e l ih =>
    intro s ps hsub hi hu
    obtain ⟨t, e⟩ := e
    have hsub' : ∀ e ∈ l, e ∈ es := fun e he => hsub e (by simp [he])
    have h1 := hi.few
    have h2 : (s.frags.length + 1) * timeout ≤ 33 * timeout := Nat.mul_le_mul_right _ (by omega)
    unfold loop
    split
    · simp only; omega
    rename_i ht
    cases e with
    | failed n => simp only; omega
    | packet b =>
      have hm : (t, Rx.packet b) ∈ es := hsub _ (by simp)
      simp only
      rcases onPacket_cases (seq := seq) (op := op) (timeout := timeout) (now := t) (b := b) hi.buflen hi.sorted with
        h | ⟨rc, h, -⟩ | ⟨h, -⟩ | ⟨s', h, hs⟩ | ⟨n, s', h, hs⟩
      · rw [h]; exact ih s ps hsub' hi hu
      · rw [h]
        cases rc with
        | zero => simp only; omega
        | succ k => simp only; omega
      · rw [h]; simp only; omega
      · rw [h]
        obtain ⟨ps', hi', -⟩ := hi.next hs (ho t b hm) hm
        refine ih s' ps' hsub' hi' ?_
        rw [hs.until_, (place_sorted hi.sorted hs.fr).2.1]
        have : (s.frags.length + 1 + 1) * timeout = (s.frags.length + 1) * timeout + timeout := by rw [Nat.add_mul]; omega
        omega
      · rw [h]; simp only; omega

theorem loop_time_quiet {seq op timeout : Nat} (l : List (Nat × Rx)) (s : Rs)
    (h : ∀ t b, (t, Rx.packet b) ∈ l → validate b seq op = false) : (loop seq op timeout s l).time ≤ s.until_ := by
  induction l with
  | nil => exact Nat.le_refl _
  | cons e l ih =>
    obtain ⟨t, e⟩ := e
    unfold loop
    split
    · exact Nat.le_refl _
    cases e with
    | failed n => simp only; omega
    | packet b =>
      simp only
      have hv := h t b (by simp)
      have : onPacket seq op timeout t s b = .again := by unfold onPacket; rw [if_pos (by simp [hv])]
      rw [this]
      exact ih (fun t b hm => h t b (by simp [hm]))

/-- **C192**: a query ends within 33 timeouts whatever arrives and however often, and within one
timeout when nothing that arrives answers it. -/
theorem C192_query_ends (seq op timeout start : Nat) (buf : List Nat) (es : List (Nat × Rx)) (hb : buf.length = 4096) (ho : Octets es) :
    (response seq op timeout start buf es).time ≤ start + 33 * timeout ∧
    ((∀ t b, (t, Rx.packet b) ∈ es → ¬ Answers seq op b) → (response seq op timeout start buf es).time ≤ start + timeout) := by
  refine ⟨loop_time ho es _ [] (fun e he => he) (Inv.init hb) (by simp), ?_⟩
  intro h
  refine loop_time_quiet es _ ?_
  intro t b hm
  by_contra hv
  exact h t b hm (validate_answers (ho t b hm) (by simpa using hv))

/-- A query that is prolonged. -/
example : (response 7 2 1000 0 zeros [(900, .packet (({ op := 2, seq := 7, more := true } : Head).message [1, 2, 3, 4] [])), (1800, .packet [1])]).time = 1900 := by
  decide +kernel

/-! ## C193 -/

/-- **C193**: a query that ntpd answers with an error is not successful. -/
def C193_statement : Prop :=
  ∀ (seq op timeout start : Nat) (buf : List Nat) (t : Nat) (h : Head) (es : List (Nat × Rx)), buf.length = 4096 → h.Fits → h.seq = seq →
    h.op = op → h.error = true → t ≤ start + timeout →
    ∃ rc, rc ≠ 0 ∧ (response seq op timeout start buf ((t, .packet (h.message [] [])) :: es)).reply = .rc rc

/-- The refusal by an access restriction, code 7, has no entry of its own. -/
theorem C193_violated : ¬ C193_statement := by
  intro h
  obtain ⟨rc, h1, h2⟩ := h 7 2 1000 0 zeros 10 { op := 2, seq := 7, error := true, status := 1792 } [] zeros_length (by unfold Head.Fits; decide) rfl rfl rfl (by omega)
  have : (response 7 2 1000 0 zeros [(10, .packet (({ op := 2, seq := 7, error := true, status := 1792 } : Head).message [] []))]).reply = .refused := by
    decide +kernel
  rw [this] at h2
  cases h2

/-- The errno that stands for each code: unspecified, permission, format, operation, association,
variable, value (`ntp_control.h`). -/
def errnoOf : Nat → Option Nat
  | 0 => some 5
  | 1 => some 13
  | 2 => some 74
  | 3 => some 38
  | _ => none

/-- C193 for the codes 0 to 6: the query fails, and for the codes 0 to 3 it fails with the errno
for the code.  Missing: code 7, which is success, the codes above, for which the table is read
outside, and the meaning of the codes 4 to 6, which are shifted by one. -/
theorem C193_errors_partial (seq op timeout start : Nat) (buf : List Nat) (t : Nat) (h : Head) (data pad : List Nat) (es : List (Nat × Rx))
    (hd : data.length < 65536) (hf : h.Fits) (hs : h.seq = seq) (ho : h.op = op) (he : h.error = true) (ht : t ≤ start + timeout) (hc : h.status / 256 ≤ 6) :
    ∃ rc, rc ≠ 0 ∧ (response seq op timeout start buf ((t, .packet (h.message data pad)) :: es)).reply = .rc rc ∧
      (∀ e, errnoOf (h.status / 256) = some e → rc = e) := by
  obtain ⟨r1, r2, -, -, -, r6, -, -⟩ := read_message (pad := pad) hf hd
  rw [hs, ho] at r1
  have key : ∀ c, c ≤ 6 → ∃ k, errTable[c]? = some (k + 1) ∧ ∀ e, errnoOf c = some e → k + 1 = e := by
    intro c hc
    have : c = 0 ∨ c = 1 ∨ c = 2 ∨ c = 3 ∨ c = 4 ∨ c = 5 ∨ c = 6 := by omega
    rcases this with rfl | rfl | rfl | rfl | rfl | rfl | rfl
    · exact ⟨4, rfl, fun e h => Option.some.inj h⟩
    · exact ⟨12, rfl, fun e h => Option.some.inj h⟩
    · exact ⟨73, rfl, fun e h => Option.some.inj h⟩
    · exact ⟨37, rfl, fun e h => Option.some.inj h⟩
    · exact ⟨1, rfl, nofun⟩
    · exact ⟨21, rfl, nofun⟩
    · exact ⟨0, rfl, nofun⟩
  obtain ⟨k, k1, k2⟩ := key _ hc
  refine ⟨k + 1, by omega, ?_, k2⟩
  unfold response loop
  rw [if_neg (by simp only; omega)]
  have : onPacket seq op timeout t ⟨[], false, buf, start + timeout⟩ (h.message data pad) = .fail (k + 1) := by
    unfold onPacket errAnswer
    rw [if_neg (by simp [r1]), if_pos (by rw [r2, he]), r6, k1]
  simp only [this]

/-- A bad association is reported as a missing entry. -/
example : (response 7 2 1000 0 zeros [(10, .packet (({ op := 2, seq := 7, error := true, status := 1024 } : Head).message [] []))]).reply = .rc 2 := by
  decide +kernel

/-! ## C194 -/

/-- **C194**: a query about an association returns what ntpd says about that association. -/
def C194_statement : Prop :=
  ∀ (c : Client) (n : Net) (op assoc size : Nat) (c' : Client) (p : Option (List Nat)) (data : List Nat), c.buf.length = 4096 → Octets n.events →
    query c n op assoc false data = (p, .replied (.ok size), c') →
    ∃ qs : List Part, Tiles 0 qs ∧ (∀ q ∈ qs, q.1.assoc = assoc ∧ ∃ t pad, (t, Rx.packet (q.1.message q.2 pad)) ∈ n.events) ∧
      c'.buf.take size = (qs.map (·.2)).flatten

/-- A client that has done nothing. -/
def newClient : Client := { seq := 6, buf := zeros, cache := List.replicate 16384 0, timeout := 1000, key := true, digest := fun _ => List.replicate 20 1 }

/-- An answer about association 9. -/
def otherAssoc : List (Nat × Rx) := [(10, .packet (({ op := 2, seq := 7, assoc := 9 } : Head).message [1, 2, 3, 4] []))]

theorem otherAssoc_octets : Octets otherAssoc := by
  intro t b hm x hx
  simp only [otherAssoc, List.mem_cons, Prod.mk.injEq, Rx.packet.injEq, List.not_mem_nil, or_false] at hm
  obtain ⟨-, rfl⟩ := hm
  revert x hx; decide

/-- The association in the answer is compared but the difference is only logged. -/
theorem C194_violated : ¬ C194_statement := by
  intro h
  have hq : (query newClient { events := otherAssoc } 2 3 false []).2.1 = .replied (.ok 4) := by decide +kernel
  have hb : (query newClient { events := otherAssoc } 2 3 false []).2.2.buf.take 4 = [1, 2, 3, 4] := by decide +kernel
  obtain ⟨qs, h1, h2, h3⟩ := h newClient { events := otherAssoc } 2 3 4 (query newClient { events := otherAssoc } 2 3 false []).2.2
    (query newClient { events := otherAssoc } 2 3 false []).1 [] zeros_length otherAssoc_octets (by rw [← hq])
  rw [hb] at h3
  cases qs with
  | nil => cases h3
  | cons q qs =>
    obtain ⟨e1, t, pad, e2⟩ := h2 q (by simp)
    simp only [otherAssoc, List.mem_cons, Prod.mk.injEq, Rx.packet.injEq, List.not_mem_nil, or_false] at e2
    have := congrArg (fun l : List Nat => u16 l 6) e2.2
    simp only [Head.message, be16, List.cons_append, List.nil_append, u16, u8, List.getD_cons_zero, List.getD_cons_succ] at this
    omega

/-- C194 when every packet that answers the query is about the association.  Missing: packets
about others, which are taken all the same. -/
theorem C194_association_partial (c : Client) (n : Net) (op assoc size : Nat) (c' : Client) (p : Option (List Nat)) (data : List Nat)
    (hb : c.buf.length = 4096) (ho : Octets n.events)
    (ha : ∀ t b (h : Head), (t, Rx.packet b) ∈ n.events → h.Fits → Begins h b → h.seq = (c.seq + 1) % 65536 → h.op = op → h.assoc = assoc)
    (h : query c n op assoc false data = (p, .replied (.ok size), c')) :
    ∃ qs : List Part, Tiles 0 qs ∧
      (∀ q ∈ qs, q.1.assoc = assoc ∧ q.1.op = op ∧ q.1.error = false ∧ ∃ t pad, (t, Rx.packet (q.1.message q.2 pad)) ∈ n.events) ∧
      c'.buf.take size = (qs.map (·.2)).flatten := by
  unfold query at h
  simp only at h
  split at h
  · cases h
  split at h
  · cases h
  simp only [Prod.mk.injEq, Answer.replied.injEq] at h
  obtain ⟨-, h1, rfl⟩ := h
  obtain ⟨qs, q1, q2, q3, q4, q5, -⟩ := C189_reply_from_packets _ op c.timeout n.start c.buf n.events size hb ho h1
  refine ⟨qs, q2, ?_, q3⟩
  intro q hq
  obtain ⟨a1, a2, a3, a4, t, pad, a5⟩ := q1 q hq
  refine ⟨ha t _ q.1 a5 a1 ?_ a2 a3, a3, a4, t, pad, a5⟩
  have hlen : q.2.length < 65536 := by
    have : q.2.length ≤ (qs.map (·.2)).flatten.length :=
      (List.sublist_flatten_of_mem (List.mem_map_of_mem (f := fun x : Part => x.2) hq)).length_le
    omega
  exact ⟨q.2.length, q.2 ++ pad, hlen, by simp [Head.message, be16]⟩

example : (query newClient { events := otherAssoc } 2 9 false []).2.1 = .replied (.ok 4) := by decide +kernel

/-! ## C195 -/

/-- **C195**: a reply ends where the packet that is marked as the final one ends. -/
def C195_statement : Prop :=
  ∀ (seq op timeout start : Nat) (buf : List Nat) (es : List (Nat × Rx)) (n : Nat), buf.length = 4096 → Octets es →
    (response seq op timeout start buf es).reply = .ok n →
    ∃ (t : Nat) (h : Head) (data pad : List Nat), (t, Rx.packet (h.message data pad)) ∈ es ∧ h.Fits ∧ h.more = false ∧ data.length < 65536 ∧ n = h.offset + data.length

/-- The final packet ends at 8 but another one, read before, follows it. -/
def beyondLast : List (Nat × Rx) :=
  [(10, .packet (({ op := 2, seq := 7, more := true, offset := 8 } : Head).message [9, 9, 9, 9] [])),
   (11, .packet (({ op := 2, seq := 7, offset := 4 } : Head).message [5, 6, 7, 8] [])),
   (12, .packet (({ op := 2, seq := 7, more := true } : Head).message [1, 2, 3, 4] []))]

theorem beyondLast_octets : Octets beyondLast := by
  intro t b hm x hx
  simp only [beyondLast, List.mem_cons, Prod.mk.injEq, Rx.packet.injEq, List.not_mem_nil, or_false] at hm
  rcases hm with ⟨-, rfl⟩ | ⟨-, rfl⟩ | ⟨-, rfl⟩
  · revert x hx; decide
  · revert x hx; decide
  · revert x hx; decide

theorem C195_violated : ¬ C195_statement := by
  intro h
  obtain ⟨t, hd, data, pad, h1, h2, h3, h4, h5⟩ := h 7 2 1000 0 zeros beyondLast 12 zeros_length beyondLast_octets (by decide +kernel)
  obtain ⟨-, -, r3, r4, r5, -⟩ := read_message (pad := pad) h2 h4
  rw [h3] at r3
  simp only [beyondLast, List.mem_cons, Prod.mk.injEq, Rx.packet.injEq, List.not_mem_nil, or_false] at h1
  rcases h1 with ⟨-, e⟩ | ⟨-, e⟩ | ⟨-, e⟩
  · rw [e] at r3; revert r3; decide
  · rw [e] at r4 r5
    have e4 : hd.offset = 4 := by rw [← r4]; decide
    have e5 : data.length = 4 := by rw [← r5]; decide
    omega
  · rw [e] at r3; revert r3; decide

theorem tiles_filter_last {ps : List Part} {o : Nat} {q : Part} (ht : Tiles o ps) (hq : q ∈ ps) :
    q.1.offset + q.2.length ≤ o + (ps.map (·.2)).flatten.length := by
  induction ps generalizing o with
  | nil => cases hq
  | cons p ps ih =>
    rw [List.map_cons, List.flatten_cons, List.length_append]
    rcases List.mem_cons.1 hq with rfl | hq
    · rw [ht.1]; omega
    · have := ih ht.2 hq; omega

/-- C195 when no packet reaches beyond a final one.  Missing: replies in which one does. -/
theorem C195_end_partial (seq op timeout start : Nat) (buf : List Nat) (es : List (Nat × Rx)) (n : Nat) (hb : buf.length = 4096) (ho : Octets es)
    (hl : ∀ (t t' : Nat) (h h' : Head) (d d' pad pad' : List Nat), (t, Rx.packet (h.message d pad)) ∈ es → (t', Rx.packet (h'.message d' pad')) ∈ es →
      h.Fits → h'.Fits → d.length ≤ 4096 → d'.length ≤ 4096 → h.more = false → h'.offset + d'.length ≤ h.offset + d.length)
    (h : (response seq op timeout start buf es).reply = .ok n) :
    ∃ (t : Nat) (h : Head) (data pad : List Nat), (t, Rx.packet (h.message data pad)) ∈ es ∧ h.Fits ∧ h.more = false ∧ h.seq = seq ∧ h.op = op ∧ n = h.offset + data.length := by
  obtain ⟨qs, q1, q2, q3, q4, q5, q6⟩ := C189_reply_from_packets seq op timeout start buf es n hb ho h
  obtain ⟨q, hq⟩ : ∃ q, q ∈ qs.filter (fun p => !p.1.more) := by
    cases hf : qs.filter (fun p => !p.1.more) with
    | nil => rw [hf] at q6; cases q6
    | cons q _ => exact ⟨q, by simp⟩
  obtain ⟨hq1, hq2⟩ := List.mem_filter.1 hq
  have hq2 : q.1.more = false := by simpa using hq2
  obtain ⟨a1, a2, a3, a4, t, pad, a5⟩ := q1 q hq1
  refine ⟨t, q.1, q.2, pad, a5, a1, hq2, a2, a3, ?_⟩
  have u := tiles_filter_last q2 hq1
  cases hlast : qs.getLast? with
  | none =>
    rw [List.getLast?_eq_none_iff] at hlast
    subst hlast; cases hq1
  | some r =>
    have e := tiles_end q2 hlast
    obtain ⟨c1, -, -, -, t', pad', c5⟩ := q1 r (List.mem_of_getLast? hlast)
    have u' := tiles_filter_last q2 (List.mem_of_getLast? hlast)
    have := hl t t' q.1 r.1 q.2 r.2 pad pad' a5 c5 a1 c1 (by omega) (by omega) hq2
    omega

example : (response 7 2 1000 0 zeros twoParts).reply = .ok (4 + 2) := by decide +kernel

example (t t' : Nat) (h h' : Head) (d d' pad pad' : List Nat) (h1 : (t, Rx.packet (h.message d pad)) ∈ twoParts) (h2 : (t', Rx.packet (h'.message d' pad')) ∈ twoParts)
    (f : h.Fits) (f' : h'.Fits) (hd : d.length ≤ 4096) (hd' : d'.length ≤ 4096) (hm : h.more = false) : h'.offset + d'.length ≤ h.offset + d.length := by
  obtain ⟨-, -, r3, r4, r5, -⟩ := read_message (pad := pad) f (show d.length < 65536 by omega)
  obtain ⟨-, -, -, r4', r5', -⟩ := read_message (pad := pad') f' (show d'.length < 65536 by omega)
  rw [hm] at r3
  rw [← r4, ← r5, ← r4', ← r5']
  simp only [twoParts, List.mem_cons, Prod.mk.injEq, Rx.packet.injEq, List.not_mem_nil, or_false] at h1 h2
  rcases h1 with ⟨-, e⟩ | ⟨-, e⟩ <;> rcases h2 with ⟨-, e'⟩ | ⟨-, e'⟩ <;> rw [e] at r3 ⊢ <;> rw [e'] <;> revert r3 <;> decide

end Verif.Ntp6
