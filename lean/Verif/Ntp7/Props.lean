import Verif.Ntp7.Whole

/-!
# Properties of the mode 7 client: requests and replies
-/

set_option linter.unusedSimpArgs false
set_option linter.unusedVariables false

namespace Verif.Ntp7

/-! ## C206: the time in authenticated requests -/

/-- The value of bytes, most significant first. -/
def number (l : List Nat) : Nat := l.foldl (fun a x => a * 256 + x) 0

/-- `L_ADD` adds numbers of 64 bits. -/
theorem C206_addition {r a : Nat × Nat} (h1 : r.1 < 4294967296) (h2 : r.2 < 4294967296) (h3 : a.1 < 4294967296) (h4 : a.2 < 4294967296) :
    (lAdd r a).1 < 4294967296 ∧ (lAdd r a).2 < 4294967296 ∧
      (lAdd r a).1 * 4294967296 + (lAdd r a).2 =
        (r.1 * 4294967296 + r.2 + (a.1 * 4294967296 + a.2)) % 18446744073709551616 := by
  obtain ⟨r1, r2⟩ := r
  obtain ⟨a1, a2⟩ := a
  simp only at h1 h2 h3 h4
  simp only [lAdd]
  by_cases hlo : (r2 % 65536 + a2 % 65536) / 65536 % 2 = 1
  · simp only [hlo, if_true]
    by_cases hhi : (r2 / 65536 % 65536 + a2 / 65536 % 65536 + 1) / 65536 % 2 = 1
    · simp only [hhi, if_true]; omega
    · simp only [hhi, if_false]; omega
  · simp only [hlo, if_false]
    by_cases hhi : (r2 / 65536 % 65536 + a2 / 65536 % 65536) / 65536 % 2 = 1
    · simp only [hhi, if_true]; omega
    · simp only [hhi, if_false]; omega

example : lAdd (7, 4294967295) (0, 85899346) = (8, 85899345) := by decide

theorem number_be32 (a b : Nat) (ha : a < 4294967296) (hb : b < 4294967296) :
    number (be32 a ++ be32 b) = a * 4294967296 + b := by
  simp [number, be32, be16]
  omega

theorem be32_length (n : Nat) : (be32 n).length = 4 := rfl

theorem blank_length {auth : Bool} {code num size : Nat} {data : List Nat} (h : data.length ≤ 200) :
    (blank auth code num size data).length = 208 := by
  simp [blank, header, be16]; omega

/-- The bytes of an authenticated request: what precedes the time, the time, the digest. -/
theorem request_auth {digest : List Nat → List Nat} {now : Int × Nat} {len code num size : Nat} {data p : List Nat}
    (hl : len = 188 ∨ len = 160 ∨ len = 48) (hd : data.length ≤ 32)
    (h : request digest now len code true num size data = .packet p) :
    ∃ d, d = digest (p.take len) ∧ d.length = 20 ∧
      p = (blank true code num size data).take (len - 8) ++
        (be32 (lAdd (systime now.1 now.2) (0, 85899346)).1 ++ be32 (lAdd (systime now.1 now.2) (0, 85899346)).2) ++ d := by
  unfold request at h
  rw [if_neg (by omega)] at h
  simp only [Bool.not_true, Bool.false_eq_true, if_false] at h
  have hb := blank_length (auth := true) (code := code) (num := num) (size := size) (data := data) (by omega)
  set ts := lAdd (systime now.1 now.2) (0, 85899346)
  have hx : (blit (blank true code num size data) (len - 8) (be32 ts.1 ++ be32 ts.2)).take len =
      (blank true code num size data).take (len - 8) ++ (be32 ts.1 ++ be32 ts.2) := by
    have hl2 : ((blank true code num size data).take (len - 8) ++ (be32 ts.1 ++ be32 ts.2)).length = len := by
      simp [hb, be32_length]; omega
    unfold blit
    rw [List.take_append_of_le_length (by omega), List.take_of_length_le (by omega)]
  rw [hx] at h
  have hl2 : ((blank true code num size data).take (len - 8) ++ (be32 ts.1 ++ be32 ts.2)).length = len := by
    simp [hb, be32_length]; omega
  by_cases hlen : (digest ((blank true code num size data).take (len - 8) ++ (be32 ts.1 ++ be32 ts.2))).length = 20
  · rw [if_neg (by simpa using hlen)] at h
    simp only [Built.packet.injEq] at h
    subst h
    refine ⟨_, ?_, hlen, rfl⟩
    congr 1
    rw [List.take_append_of_le_length (Nat.le_of_eq hl2.symm), List.take_of_length_le (Nat.le_of_eq hl2)]
  · rw [if_pos (by simpa using hlen)] at h
    simp at h

/-- C206: an authenticated request ends with the digest of all that precedes it; the eight bytes
before the digest are the time of the clock, as seconds since 1900 in 32.32 bits, plus 20 ms to the
nearest unit. -/
theorem C206_request_time {digest : List Nat → List Nat} {sec : Int} {nsec len code num size : Nat} {data p : List Nat}
    (hn : nsec < 1000000000) (hl : len = 188 ∨ len = 160 ∨ len = 48) (hd : data.length ≤ 32)
    (h : request digest (sec, nsec) len code true num size data = .packet p) :
    p.length = len + 20 ∧ p.drop len = digest (p.take len) ∧
      (number ((p.drop (len - 8)).take 8) : Int) =
        ((sec + 2208988800) * 4294967296 + (nsec * 4294967296 / 1000000000 : Nat) + 85899346) % 18446744073709551616 ∧
      |(85899346 : Rat) / 4294967296 - 1 / 50| ≤ 1 / 4294967296 := by
  obtain ⟨d, h1, h2, h3⟩ := request_auth hl hd h
  have hb := blank_length (auth := true) (code := code) (num := num) (size := size) (data := data) (by omega)
  set ts := lAdd (systime sec nsec) (0, 85899346) with hts
  have ht : ((blank true code num size data).take (len - 8)).length = len - 8 := by simp [hb]; omega
  have hl2 : ((blank true code num size data).take (len - 8) ++ (be32 ts.1 ++ be32 ts.2)).length = len := by
    rw [List.length_append, ht]; simp [be32_length]; omega
  have hlen : p.length = len + 20 := by rw [h3, List.length_append, hl2, h2]
  refine ⟨hlen, ?_, ?_, by norm_num [abs_le]⟩
  · rw [← h1]
    conv_lhs => rw [h3]
    rw [List.drop_append, hl2, List.drop_eq_nil_of_le (by omega)]
    simp
  · have hx : (p.drop (len - 8)).take 8 = be32 ts.1 ++ be32 ts.2 := by
      conv_lhs => rw [h3]
      rw [List.append_assoc, List.drop_append, ht, List.drop_eq_nil_of_le (by omega)]
      simp [be32, be16]
    have hs1 : (systime sec nsec).1 < 4294967296 := by simp only [systime]; omega
    have hs2 : (systime sec nsec).2 < 4294967296 := by simp only [systime]; omega
    obtain ⟨a1, a2, a3⟩ := C206_addition (r := systime sec nsec) (a := (0, 85899346)) hs1 hs2 (by norm_num) (by norm_num)
    rw [hx, number_be32 _ _ a1 a2, a3]
    simp only [systime]
    omega

/-- A digest of 20 bytes for the examples. -/
def demoDigest (l : List Nat) : List Nat := List.replicate 19 170 ++ [l.sum % 256]

example : ∃ p, request demoDigest (1700000000, 500000000) 188 12 true 1 4 [0, 0, 0, 12] = .packet p ∧ p.length = 208 :=
  ⟨_, rfl, rfl⟩

/-! ## C207: the requests -/

/-- The beginning of a request as ntpd reads it: no response, no more, version 2, mode 7; the
authentication bit and number 0; implementation 3; the code; no error and `num` items; their
size. -/
def requestHead (auth : Bool) (code num size : Nat) : List Nat :=
  [2 * 8 + 7, if auth then 128 else 0, 3, code] ++ w16 num ++ w16 size

/-- C207: a request that is not authenticated is the header, the items and zeros up to the size in
use. -/
theorem C207_request {digest : List Nat → List Nat} {now : Int × Nat} {len code num size : Nat} {data p : List Nat}
    (hl : len = 188 ∨ len = 160 ∨ len = 48) (hd : data.length ≤ 32) (hc : code < 256) (hn : num < 4096) (hs : size < 65536)
    (h0 : data = [] → num = 0)
    (h : request digest now len code false num size data = .packet p) :
    p = requestHead false code num size ++ data ++ List.replicate (len - 8 - data.length) 0 ∧ p.length = len := by
  unfold request at h
  rw [if_neg (by omega)] at h
  simp only [Bool.not_false, if_true, Built.packet.injEq] at h
  have hh : header false code (if data = [] then 0 else num) size = requestHead false code num size := by
    have hnum : (if data = [] then 0 else num) = num := by
      by_cases hd0 : data = []
      · simp [hd0, h0 hd0]
      · simp [hd0]
    rw [hnum]
    simp only [header, requestHead, be16, w16, List.cons_append, List.nil_append, List.cons.injEq, and_true, Bool.false_eq_true, if_false, true_and]
    omega
  have hlen : (requestHead false code num size).length = 8 := rfl
  have hp : p = requestHead false code num size ++ data ++ List.replicate (len - 8 - data.length) 0 := by
    rw [← h]
    simp only [blank]
    rw [hh, List.take_append, List.take_of_length_le (by simp [hlen]; omega), List.take_replicate]
    congr 2
    simp [hlen]
    omega
  refine ⟨hp, ?_⟩
  rw [hp]
  simp [hlen]
  omega

example : request demoDigest (0, 0) 48 3 false 1 32 (listData (.v4 [10, 0, 0, 1])) =
    .packet ([23, 0, 3, 3, 0, 1, 0, 32, 10, 0, 0, 1, 0, 123, 0, 0] ++ List.replicate 32 0) := by decide

/-- C207: an authenticated request begins with the header and the items. -/
theorem C207_authenticated {digest : List Nat → List Nat} {now : Int × Nat} {len code num size : Nat} {data p : List Nat}
    (hl : len = 188 ∨ len = 160 ∨ len = 48) (hd : data.length ≤ 32) (hc : code < 256) (hn : num < 4096) (hs : size < 65536)
    (h0 : data ≠ []) (h : request digest now len code true num size data = .packet p) :
    (requestHead true code num size ++ data) <+: p := by
  obtain ⟨d, h1, h2, h3⟩ := request_auth hl hd h
  have hh : header true code num size = requestHead true code num size := by
    simp only [header, requestHead, be16, w16, List.cons_append, List.nil_append, List.cons.injEq, and_true, if_true, true_and]
    omega
  have hlen : (requestHead true code num size).length = 8 := rfl
  rw [h3]
  simp only [blank, if_neg h0]
  rw [hh, List.take_append, List.take_of_length_le (by simp [hlen]; omega)]
  exact ⟨_, by simp only [List.append_assoc]; rfl⟩

example : (match request demoDigest (0, 0) 188 12 true 1 4 (be32 12) with
    | .packet p => p.take 12 = [23, 128, 3, 12, 0, 1, 0, 4, 0, 0, 0, 12]
    | _ => false) = true := by decide +kernel

/-! ## C208: datagrams that are no answer, and refusals -/

theorem loop_noise {code req until_ t : Nat} {b : List Nat} (es2 : List (Nat × Rx)) (hb : ∀ x ∈ b, x < 256) (hn : ¬ About code b) (ht : t ≤ until_) :
    ∀ (es1 : List (Nat × Rx)) (s : Rs), loop code req until_ s (es1 ++ (t, .packet b) :: es2) = loop code req until_ s (es1 ++ es2)
  | [], s => by
    rw [List.nil_append, List.nil_append]
    conv_lhs => unfold loop
    have : onPacket code req s b = .again := by unfold onPacket; rw [foreign hb hn]; rfl
    rw [if_neg (by omega)]
    simp only [this]
  | (t', e) :: es1, s => by
    rw [List.cons_append, List.cons_append]
    unfold loop
    by_cases h : until_ < t'
    · simp [h]
    rw [if_neg h, if_neg h]
    cases e with
    | failed n => rfl
    | packet b' =>
      simp only
      cases hv : onPacket code req s b' with
      | again => exact loop_noise es2 hb hn ht es1 s
      | fail n => rfl
      | fault f => rfl
      | stored s' =>
        simp only
        by_cases hc : s'.count ≤ s'.last
        · rw [if_pos hc, if_pos hc]; exact loop_noise es2 hb hn ht es1 s'
        · rw [if_neg hc, if_neg hc]

/-- C208: a datagram that does not begin like an answer to this request makes no difference. -/
theorem C208_ignored {code req timeout start t : Nat} {buf b : List Nat} (es1 es2 : List (Nat × Rx)) (hb : ∀ x ∈ b, x < 256)
    (hn : ¬ About code b) (ht : t ≤ start + timeout) :
    response code req timeout start buf (es1 ++ (t, .packet b) :: es2) = response code req timeout start buf (es1 ++ es2) :=
  loop_noise es2 hb hn ht es1 _

/-- A datagram with another code is not about this request. -/
example : ¬ About 4 (Msg.bytes { code := 5 }) := by
  rintro ⟨m, n, rest, -, h1, -, h2⟩
  have := congrArg (fun l => l[3]?) h2
  simp [Msg.bytes, Msg.head, w16] at this
  omega

/-- What the protocol says about error codes, as system errors: incompatible implementation, unknown
request, format error, no data, authentication failure; others are I/O errors. -/
inductive Refusal : Nat → Nat → Prop
  | implementation : Refusal 1 90
  | request : Refusal 2 38
  | format : Refusal 3 74
  | noData : Refusal 4 61
  | other5 : Refusal 5 5
  | other6 : Refusal 6 5
  | authentication : Refusal 7 13

/-- C208: a refusal ends the wait at once, with its own error. -/
theorem C208_refused {code req timeout start t e rc n : Nat} {buf rest : List Nat} {m : Msg} (es : List (Nat × Rx))
    (hf : m.Fits) (hc : m.code = code) (he : m.err = e) (hn : n < 4096) (hr : Refusal e rc) (ht : t ≤ start + timeout) :
    response code req timeout start buf ((t, .packet (m.head n ++ rest)) :: es) = ⟨.rc rc, buf, t⟩ := by
  have hchk := check_head rest hf hn
  obtain ⟨f1, -⟩ := fields_head rest hf hn
  unfold response loop
  rw [if_neg (by omega)]
  have : onPacket code req ⟨0, 2147483647, 0, 0, buf⟩ (m.head n ++ rest) = .fail rc := by
    unfold onPacket
    rw [← hc, hchk, if_neg (by simp), f1, he]
    cases hr <;> simp [errAnswer, f1, he, errTable]
  simp only [this]

example : (response 4 80 300 1000 (List.replicate 4096 0) [(1001, .packet (Msg.bytes { code := 4, err := 4 }))]).reply = .rc 61 := by
  decide +kernel

/-! ## C209: putting the answer together -/

/-- The full claim: the parts of an answer may arrive in any order and more than once, and the result
is the items in their order. -/
def C209_statement : Prop :=
  ∀ (code req timeout start : Nat) (buf : List Nat) (ms : List Msg) (tms : List (Nat × Msg)) (es : List (Nat × Rx)),
    buf.length = 4096 → Split code ms → (∀ m ∈ ms, m.size = req) → (content req ms).length ≤ 4096 →
    (∀ m, m ∈ tms.map (·.2) ↔ m ∈ ms) → Arrives code (start + timeout) es tms →
    ∃ t, response code req timeout start buf es =
      ⟨.ok (ms.flatMap (·.items)).length, content req ms ++ buf.drop (content req ms).length, t⟩

/-- Two parts with one byte each. -/
def twoParts : List Msg :=
  [{ code := 1, more := true, seq := 0, size := 1, items := [[7]] }, { code := 1, more := false, seq := 1, size := 1, items := [[8]] }]

theorem twoParts_split : Split 1 twoParts where
  some_ := by decide
  few := by decide
  fits := by
    intro m hm
    simp only [twoParts, List.mem_cons, List.mem_singleton, List.not_mem_nil, or_false] at hm
    rcases hm with rfl | rfl <;> exact ⟨by unfold Msg.Fits; decide, by unfold Msg.Sized; decide, rfl, rfl⟩
  number := by
    intro j m hm
    match j, hm with
    | 0, hm => simp [twoParts] at hm; subst hm; decide
    | 1, hm => simp [twoParts] at hm; subst hm; decide
    | j + 2, hm => simp [twoParts] at hm

/-- The second part arrives first: the items come in the wrong order. -/
theorem C209_violated : ¬ C209_statement := by
  intro h
  have ha : Arrives 1 (0 + 300) [(1, .packet (twoParts[1]).bytes), (2, .packet (twoParts[0]).bytes)] [(1, twoParts[1]), (2, twoParts[0])] :=
    .msg (by decide) (.msg (by decide) (.done _))
  obtain ⟨t, ht⟩ := h 1 1 300 0 (List.replicate 4096 0) twoParts _ _ List.length_replicate twoParts_split (by decide) (by decide)
    (by intro m; simp [twoParts, or_comm]) ha
  have hb := congrArg (fun r => r.buf.take 2) ht
  have h1 : (response 1 1 300 0 (List.replicate 4096 0)
      [(1, .packet (twoParts[1]).bytes), (2, .packet (twoParts[0]).bytes)]).buf.take 2 = [8, 7] := by decide +kernel
  have h2 : (content 1 twoParts ++ List.drop (content 1 twoParts).length (List.replicate 4096 0)).take 2 = [7, 8] := by
    decide +kernel
  exact absurd (h1.symm.trans (hb.trans h2)) (by decide)

/-- The first part arrives twice: the answer is taken as complete without its second part. -/
theorem C209_violated_duplicate : ¬ C209_statement := by
  intro h
  have ha : Arrives 1 (0 + 300)
      [(1, .packet (twoParts[0]).bytes), (2, .packet (twoParts[0]).bytes), (3, .packet (twoParts[1]).bytes)]
      [(1, twoParts[0]), (2, twoParts[0]), (3, twoParts[1])] :=
    .msg (by decide) (.msg (by decide) (.msg (by decide) (.done _)))
  obtain ⟨t, ht⟩ := h 1 1 300 0 (List.replicate 4096 0) twoParts _ _ List.length_replicate twoParts_split (by decide) (by decide)
    (by intro m; simp [twoParts]) ha
  have hb := congrArg (fun r => r.buf.take 2) ht
  have h1 : (response 1 1 300 0 (List.replicate 4096 0)
      [(1, .packet (twoParts[0]).bytes), (2, .packet (twoParts[0]).bytes), (3, .packet (twoParts[1]).bytes)]).buf.take 2 = [7, 7] := by
    decide +kernel
  have h2 : (content 1 twoParts ++ List.drop (content 1 twoParts).length (List.replicate 4096 0)).take 2 = [7, 8] := by
    decide +kernel
  exact absurd (h1.symm.trans (hb.trans h2)) (by decide)

/-- C209, in part: when each part arrives once, all items are there, in the order of arrival, each
filled up with zeros to the size that is required; what was in the buffer beyond them stays. -/
theorem C209_partial {code req timeout start : Nat} {buf : List Nat} {ms : List Msg} {tms : List (Nat × Msg)} {es : List (Nat × Rx)}
    (hb : buf.length = 4096) (hs : Split code ms) (hp : (tms.map (·.2)).Perm ms) (hsize : ∀ m ∈ (tms.map (·.2)).tail, m.size ≤ req)
    (hroom : (content req (tms.map (·.2))).length ≤ 4096) (ha : Arrives code (start + timeout) es tms) :
    ∃ t, (tms.map (·.1)).getLast? = some t ∧ response code req timeout start buf es =
      ⟨.ok (ms.flatMap (·.items)).length,
        content req (tms.map (·.2)) ++ buf.drop (content req (tms.map (·.2))).length, t⟩ := by
  have hne : tms ≠ [] := by
    rintro rfl
    exact hs.some_ hp.symm.eq_nil
  have hr := ready_of_perm (buf := buf) hs hp hsize (by rw [hb]; exact hroom)
  obtain ⟨t, h4, h5⟩ := loop_ready _ hne ha hr
  refine ⟨t, h4, ?_⟩
  unfold response
  rw [h5]
  simp only [Nat.zero_add]
  rw [blit_take (by rw [hb]; exact hroom)]
  have : ((tms.map (·.2)).flatMap (·.items)).length = (ms.flatMap (·.items)).length := (hp.flatMap_right (·.items)).length_eq
  rw [this]

/-- C209, in part: in the order of their numbers, the result is exactly the answer, known when the
last part has arrived. -/
theorem C209_in_order_partial {code req timeout start : Nat} {buf : List Nat} {ms : List Msg} {tms : List (Nat × Msg)} {es : List (Nat × Rx)}
    (hb : buf.length = 4096) (hs : Split code ms) (hm : tms.map (·.2) = ms) (hsize : ∀ m ∈ ms.tail, m.size ≤ req)
    (hroom : (content req ms).length ≤ 4096) (ha : Arrives code (start + timeout) es tms) :
    ∃ t, (tms.map (·.1)).getLast? = some t ∧ response code req timeout start buf es =
      ⟨.ok (ms.flatMap (·.items)).length, content req ms ++ buf.drop (content req ms).length, t⟩ := by
  subst hm
  exact C209_partial hb hs (List.Perm.refl _) hsize hroom ha

example : (response 1 1 300 0 (List.replicate 4096 0)
    [(1, .packet (twoParts[0]).bytes), (2, .packet [1, 2, 3]), (3, .packet (twoParts[1]).bytes)]).reply = .ok 2 := by decide +kernel

example : Arrives 1 300 [(1, .packet (twoParts[0]).bytes), (3, .packet (twoParts[1]).bytes)] [(1, twoParts[0]), (3, twoParts[1])] :=
  .msg (by decide) (.msg (by decide) (.done _))

/-! ## C211: how long a query takes -/

/-- C211: whatever arrives, an attempt is over within the timeout, which other datagrams do not
prolong. -/
theorem C211_time (code req timeout start : Nat) (buf : List Nat) (es : List (Nat × Rx)) :
    (response code req timeout start buf es).time ≤ start + timeout :=
  (loop_safe es _ (by simp)).2.2

/-- C211: when nothing that begins like an answer comes, the attempt fails when the time is over. -/
theorem C211_silence {code req timeout start : Nat} {buf : List Nat} {es : List (Nat × Rx)}
    (h : ∀ t e, (t, e) ∈ es → ∃ b, e = .packet b ∧ (∀ x ∈ b, x < 256) ∧ ¬ About code b) :
    response code req timeout start buf es = ⟨.rc 110, buf, start + timeout⟩ := by
  unfold response
  generalize hs : (⟨0, 2147483647, 0, 0, buf⟩ : Rs) = s
  have hbuf : buf = s.buf := by rw [← hs]
  rw [hbuf]
  clear hs hbuf
  induction es with
  | nil => rfl
  | cons e es ih =>
    obtain ⟨t, e⟩ := e
    obtain ⟨b, rfl, hb, hn⟩ := h t e (by simp)
    unfold loop
    by_cases ht : start + timeout < t
    · rw [if_pos ht]
    · rw [if_neg ht]
      have : onPacket code req s b = .again := by unfold onPacket; rw [foreign hb hn]; rfl
      simp only [this]
      exact ih (fun t e he => h t e (by simp [he]))

example : response 4 80 300 1000 [1, 2] [(1001, .packet [9]), (1200, .packet [])] = ⟨.rc 110, [1, 2], 1300⟩ := by decide

/-! ## C212: older daemons -/

/-- The queries of a client one after another. -/
def run (c : Client) : List (List Net × Ask) → Client
  | [] => c
  | (ns, q) :: l => run (query c ns q).2 l

/-- C212: over any number of queries the size of requests only goes from 188 to 160 to 48, and there
are at most two datagrams more than queries. -/
theorem C212_retries {c : Client} (hs : Sound c) : ∀ (l : List (List Net × Ask)), (∀ x ∈ l, x.2.data.length ≤ 200) →
    Sound (run c l) ∧ c.legacy ≤ (run c l).legacy ∧ (run c l).size ≤ c.size ∧
      ((run c l).size = 188 ∨ (run c l).size = 160 ∨ (run c l).size = 48) ∧
      (run c l).out.length ≤ c.out.length + l.length + 2 := by
  have main : ∀ (l : List (List Net × Ask)) (c : Client), Sound c → (∀ x ∈ l, x.2.data.length ≤ 200) →
      Sound (run c l) ∧ c.legacy ≤ (run c l).legacy ∧
        (run c l).out.length ≤ c.out.length + l.length + ((run c l).legacy - c.legacy) := by
    intro l
    induction l with
    | nil => intro c hs _; exact ⟨hs, Nat.le_refl _, by simp [run]⟩
    | cons x l ih =>
      intro c hs hd
      obtain ⟨⟨k, st⟩, -⟩ := query_step (q := x.2) (ns := x.1) (hd x (by simp)) hs
      obtain ⟨i1, i2, i3⟩ := ih (query c x.1 x.2).2 st.sound (fun y hy => hd y (by simp [hy]))
      obtain ⟨new, o1, o2, -⟩ := st.out
      have hl := st.legacy
      have ho : (query c x.1 x.2).2.out.length = c.out.length + new.length := by rw [o1]; simp
      have hrun : run c (x :: l) = run (query c x.1 x.2).2 l := rfl
      rw [hrun]
      refine ⟨i1, by omega, ?_⟩
      simp only [List.length_cons]
      omega
  intro l hd
  obtain ⟨h1, h2, h3⟩ := main l c hs hd
  refine ⟨h1, h2, ?_, ?_, ?_⟩
  · rw [h1.size, hs.size]
    have h4 := h1.legacy
    have h6 : ∀ a b : Fin 3, a ≤ b → legacySize b ≤ legacySize a := by decide
    exact h6 ⟨c.legacy, by omega⟩ ⟨(run c l).legacy, by omega⟩ h2
  · rw [h1.size]; exact legacySize_cases _
  · have := h1.legacy
    omega

/-- C212: a daemon that does not know the implementation is asked again at once with the next
size. -/
theorem C212_smaller {c : Client} {n : Net} {ns : List Net} {q : Ask} {p rest : List Nat} {m : Msg} {t k : Nat} {es : List (Nat × Rx)}
    (hs : Sound c) (hlt : c.legacy < 2) (hp : request c.digest n.clock c.size q.code q.auth q.num q.size q.data = .packet p)
    (hsent : n.sent = 0) (hf : m.Fits) (hc : m.code = q.code) (he : m.err = 1) (hk : k < 4096) (ht : t ≤ n.start + c.timeout)
    (hev : n.arrivals = (t, .packet (m.head k ++ rest)) :: es) :
    query c (n :: ns) q =
      query { c with legacy := c.legacy + 1, size := if c.legacy = 0 then 160 else 48, out := c.out ++ [p] } ns q := by
  have ha : attempt c n q = (.rc 90, { c with out := c.out ++ [p] }) := by
    unfold attempt
    rw [hp]
    simp only [hsent, ne_eq, not_true_eq_false, if_false]
    rw [hev, C208_refused es hf hc he hk .implementation ht]
  have hsz : legacySize (c.legacy + 1) = if c.legacy = 0 then 160 else 48 := by
    have h6 : ∀ a : Fin 2, legacySize (a + 1) = if (a : Nat) = 0 then 160 else 48 := by decide
    exact h6 ⟨c.legacy, hlt⟩
  unfold query
  have hfuel : 2 - c.legacy = (2 - (c.legacy + 1)) + 1 := by omega
  rw [hfuel]
  conv_lhs => unfold retry
  simp only [List.headD_cons, hp, ha, hsent, hlt, decide_true, Bool.and_self, if_true, hsz, List.tail_cons]

/-- A client as it is created. -/
def fresh : Client := { key := 1, buf := List.replicate 4096 0, digest := demoDigest }

theorem fresh_sound : Sound fresh := ⟨by decide, rfl, List.length_replicate⟩

/-- An old daemon refuses requests with 188 bytes and answers those with 160 bytes. -/
example : (query fresh
    [{ events := [(1, .packet (Msg.bytes { code := 4, err := 1 }))] }, { events := [(2, .packet (Msg.bytes { code := 4, size := 2, items := [[5, 6]] }))] }]
    { code := 4, req := 80 }).1 = .ok 1 := by decide +kernel

end Verif.Ntp7
