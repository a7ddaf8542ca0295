import Verif.Ntp7.Support

/-!
# Runs of the loop that collects a reply
-/

set_option linter.unusedSimpArgs false
set_option linter.unusedVariables false

namespace Verif.Ntp7

/-- The bytes of the items of the messages. -/
theorem content_cons (req : Nat) (m : Msg) (ms : List Msg) :
    content req (m :: ms) = (m.items.map (fillUp req)).flatten ++ content req ms := by
  simp [content]

theorem filled_length {m : Msg} {req : Nat} (hs : m.Sized) :
    ((m.items.map (fillUp req)).flatten).length = m.items.length * (m.size + (req - m.size)) := by
  rw [flatten_sized (n := m.size + (req - m.size)), List.length_map]
  intro x hx
  obtain ⟨y, hy, rfl⟩ := List.mem_map.1 hx
  simp [fillUp, hs.2 y hy]

/-- Messages that may arrive in this order: `k` have been counted of `n`, and `last` is the number
of the last one if it is known. -/
structure Ready (code req n : Nat) (s : Rs) (ms : List Msg) : Prop where
  fits : ∀ m ∈ ms, m.Fits ∧ m.Sized ∧ m.code = code ∧ m.err = 0
  count : s.count + ms.length = n
  few : n ≤ 128
  size : ∀ m ∈ (if s.count = 0 then ms.tail else ms), m.size ≤ req
  last : (s.last = n - 1 ∧ ∀ m ∈ ms, m.more = true) ∨
    (s.last = 2147483647 ∧ (ms.filter (fun m => !m.more)).map (·.seq) = [n - 1])
  room : s.pos + (content req ms).length ≤ s.buf.length

theorem loop_ready {code req n until_ : Nat} : ∀ {es : List (Nat × Rx)} {tms : List (Nat × Msg)} (s : Rs), tms ≠ [] →
    Arrives code until_ es tms → Ready code req n s (tms.map (·.2)) →
    ∃ t, (tms.map (·.1)).getLast? = some t ∧
      loop code req until_ s es = ⟨.ok (s.items + ((tms.map (·.2)).flatMap (·.items)).length),
        blit s.buf s.pos (content req (tms.map (·.2))), t⟩ := by
  intro es tms s hne ha hr
  induction ha generalizing s with
  | done es => exact absurd rfl hne
  | @noise t b es ms ht hb hf ha ih =>
    obtain ⟨t', h1, h2⟩ := ih s hne hr
    refine ⟨t', h1, ?_⟩
    unfold loop
    rw [if_neg (by omega)]
    have : onPacket code req s b = .again := by unfold onPacket; rw [foreign hb hf]; rfl
    simp only [this]
    exact h2
  | @msg t m es ms ht ha ih =>
    simp only [List.map_cons] at hr ⊢
    obtain ⟨hf, hs, hc, he⟩ := hr.fits m (by simp)
    have hroom := hr.room
    rw [content_cons, List.length_append, filled_length hs] at hroom
    have hsz : s.count = 0 ∨ m.size ≤ req := by
      by_cases h : s.count = 0
      · exact Or.inl h
      · have := hr.size m
        rw [if_neg h] at this
        exact Or.inr (this (by simp))
    have hlast : m.more = true ∨ 127 < s.last := by
      rcases hr.last with ⟨_, h⟩ | ⟨h, _⟩
      · exact Or.inl (h m (by simp))
      · exact Or.inr (by omega)
    have hstep := on_msg (req := req) (s := s) hf hs hc he hsz hlast
    rw [take_msg hf hs (by omega)] at hstep
    unfold loop
    rw [if_neg (by omega)]
    simp only [hstep]
    have hn := hr.count
    simp only [List.length_cons] at hn
    have hfew := hr.few
    by_cases hms : ms = []
    · subst hms
      have hl : (if m.more then s.last else m.seq) = n - 1 := by
        rcases hr.last with ⟨h1, h2⟩ | ⟨h1, h2⟩
        · rw [if_pos (h2 m (by simp)), h1]
        · cases hm : m.more
          · simp [hm] at h2; simpa using h2
          · simp [hm] at h2
      rw [hl, if_neg (by simp at hn; omega)]
      refine ⟨t, by simp, ?_⟩
      simp [content]
    · have hpos : 0 < ms.length := List.length_pos_iff.2 hms
      have hl : (((if m.more then s.last else m.seq) = n - 1) ∧ ∀ x ∈ ms.map (·.2), x.more = true) ∨
          ((if m.more then s.last else m.seq) = 2147483647 ∧ ((ms.map (·.2)).filter (fun m => !m.more)).map (·.seq) = [n - 1]) := by
        rcases hr.last with ⟨h1, h2⟩ | ⟨h1, h2⟩
        · left
          rw [if_pos (h2 m (by simp))]
          exact ⟨h1, fun x hx => h2 x (by simp [hx])⟩
        · cases hm : m.more
          · rw [List.filter_cons_of_pos (by simp [hm]), List.map_cons, List.cons.injEq] at h2
            left
            refine ⟨by simpa using h2.1, ?_⟩
            intro x hx
            have h3 := List.map_eq_nil_iff.1 h2.2
            cases hx2 : x.more
            · have : x ∈ (ms.map (·.2)).filter (fun m => !m.more) := List.mem_filter.2 ⟨hx, by simp [hx2]⟩
              rw [h3] at this
              simp at this
            · rfl
          · rw [List.filter_cons_of_neg (by simp [hm])] at h2
            right
            exact ⟨by simpa using h1, h2⟩
      have hcont : s.count + 1 ≤ (if m.more then s.last else m.seq) := by
        simp only [List.length_map] at hn
        rcases hl with h | h
        · omega
        · omega
      rw [if_pos (by simpa using hcont)]
      have hfl := filled_length (req := req) hs
      obtain ⟨t', h1, h2⟩ := ih (s := { count := s.count + 1, last := if m.more then s.last else m.seq, pos := s.pos + m.items.length * (m.size + (req - m.size)), items := s.items + m.items.length, buf := blit s.buf s.pos ((m.items.map (fillUp req)).flatten) }) hms
        { fits := fun x hx => hr.fits x (by simp [hx])
          count := by simp only; omega
          few := hfew
          size := by
            rw [if_neg (by simp)]
            intro x hx
            have := hr.size x
            by_cases h : s.count = 0
            · rw [if_pos h] at this
              exact this (by simpa using hx)
            · rw [if_neg h] at this
              exact this (by simp [hx])
          last := hl
          room := by
            simp only
            rw [blit_length (by omega)]
            omega }
      refine ⟨t', ?_, ?_⟩
      · rw [List.getLast?_cons]
        rw [h1]; rfl
      · rw [h2]
        simp only [List.flatMap_cons, List.length_append, Ended.mk.injEq, Reply.ok.injEq, and_true]
        refine ⟨by omega, ?_⟩
        rw [← hfl, blit_blit (by omega), content_cons]

/-- An answer whose parts arrive in any order. -/
theorem ready_of_perm {code req : Nat} {ms ms' : List Msg} {buf : List Nat} (hs : Split code ms) (hp : ms'.Perm ms)
    (hsize : ∀ m ∈ ms'.tail, m.size ≤ req) (hroom : (content req ms').length ≤ buf.length) :
    Ready code req ms.length ⟨0, 2147483647, 0, 0, buf⟩ ms' where
  fits := fun m hm => hs.fits m (hp.mem_iff.1 hm)
  count := by simp [hp.length_eq]
  few := hs.few
  size := by simpa using hsize
  last := by
    right
    refine ⟨rfl, ?_⟩
    have h1 : ∀ (l : List Msg) (k n : Nat), k + l.length = n → l ≠ [] →
        (∀ (j : Nat) m, l[j]? = some m → m.seq = k + j ∧ m.more = decide (k + j + 1 < n)) →
        (l.filter (fun m => !m.more)).map (·.seq) = [n - 1] := by
      intro l
      induction l with
      | nil => intro k n _ h; exact absurd rfl h
      | cons m l ih =>
        intro k n hk _ hj
        have h0 := hj 0 m (by simp)
        by_cases hl : l = []
        · subst hl
          simp only [List.length_cons, List.length_nil] at hk
          have : m.more = false := by rw [h0.2]; simp; omega
          simp [this, h0.1]; omega
        · have hlp : 0 < l.length := List.length_pos_iff.2 hl
          simp only [List.length_cons] at hk
          have : m.more = true := by rw [h0.2]; simp; omega
          rw [List.filter_cons_of_neg (by simp [this])]
          refine ih (k + 1) n (by omega) hl ?_
          intro j x hx
          have := hj (j + 1) x (by simpa using hx)
          refine ⟨by omega, ?_⟩
          rw [this.2]
          congr 1
          simp [Nat.add_assoc, Nat.add_comm 1 j]
    have h2 := h1 ms 0 ms.length (by simp) hs.some_ (fun j m hm => by
      have := hs.number j m hm
      refine ⟨by omega, ?_⟩
      rw [this.2]; congr 1; simp)
    have h3 := ((hp.filter (fun m => !m.more)).map (·.seq))
    rw [h2] at h3
    exact List.perm_singleton.1 h3
  room := by simpa using hroom

/-! ## Any datagrams -/

/-- The buffer keeps its size and nothing is written outside. -/
theorem on_packet_safe {code req : Nat} {s : Rs} {b : List Nat} (hpos : s.pos ≤ s.buf.length) :
    (∀ f, onPacket code req s b = .fault f → f = .table ∧ 8 ≤ errOf b ∧ check b code = true) ∧
    (∀ s', onPacket code req s b = .stored s' → s'.buf.length = s.buf.length ∧ s'.pos ≤ s'.buf.length) := by
  by_cases hchk : check b code = true
  swap
  · unfold onPacket
    rw [if_pos (by simp [hchk])]
    exact ⟨fun f h => by simp at h, fun s' h => by simp at h⟩
  have hlen : 8 ≤ b.length := by
    unfold check at hchk
    simp only [Bool.and_eq_true, decide_eq_true_eq] at hchk
    exact hchk.1.1.1.1.1.1.1.1
  unfold onPacket
  rw [if_neg (by simp [hchk])]
  by_cases he : errOf b ≠ 0
  · rw [if_pos he]
    unfold errAnswer
    refine ⟨?_, ?_⟩
    · intro f h
      cases hx : errTable[errOf b]? with
      | none =>
        rw [hx] at h
        simp at h
        rw [List.getElem?_eq_none_iff] at hx
        exact ⟨h.symm, by simpa [errTable] using hx, hchk⟩
      | some rc => rw [hx] at h; simp at h
    · intro s' h
      cases hx : errTable[errOf b]? with
      | none => rw [hx] at h; simp at h
      | some rc => rw [hx] at h; simp at h
  rw [if_neg he]
  by_cases h1 : b.length - 8 < itemsOf b * sizeOf_ b
  · rw [if_pos h1]; exact ⟨fun f h => by simp at h, fun s' h => by simp at h⟩
  rw [if_neg h1]
  by_cases h2 : (decide (s.count ≠ 0) && decide (req < sizeOf_ b)) = true
  · rw [if_pos h2]; exact ⟨fun f h => by simp at h, fun s' h => by simp at h⟩
  rw [if_neg h2]
  by_cases h3 : (!isMore b && decide (s.last ≤ 127)) = true
  · rw [if_pos h3]; exact ⟨fun f h => by simp at h, fun s' h => by simp at h⟩
  rw [if_neg h3]
  unfold take
  simp only [pad_eq]
  by_cases h4 : s.buf.length < s.pos + itemsOf b * (sizeOf_ b + (req - sizeOf_ b))
  · rw [if_pos h4]; exact ⟨fun f h => by simp at h, fun s' h => by simp at h⟩
  rw [if_neg h4]
  obtain ⟨buf', h5, h6⟩ := copy_ok b (sizeOf_ b) (req - sizeOf_ b) (itemsOf b) 8 s.pos s.buf (by omega) (by omega)
  rw [h5]
  refine ⟨fun f h => by simp at h, ?_⟩
  intro s' h
  simp only [Verdict.stored.injEq] at h
  subst h
  exact ⟨h6, by simp only; omega⟩

/-- For any datagrams: the size of the buffer, the only fault, and the time. -/
theorem loop_safe {code req until_ : Nat} : ∀ (es : List (Nat × Rx)) (s : Rs), s.pos ≤ s.buf.length →
    (loop code req until_ s es).buf.length = s.buf.length ∧
    (∀ f, (loop code req until_ s es).reply = .fault f → f = .table ∧
      ∃ t b, (t, Rx.packet b) ∈ es ∧ 8 ≤ errOf b ∧ check b code = true) ∧
    (loop code req until_ s es).time ≤ until_
  | [], s, _ => by simp [loop]
  | (t, e) :: es, s, hp => by
    unfold loop
    by_cases ht : until_ < t
    · simp [ht]
    rw [if_neg ht]
    cases e with
    | failed n => simp; omega
    | packet b =>
      obtain ⟨g1, g2⟩ := on_packet_safe (code := code) (req := req) (b := b) hp
      simp only
      cases hv : onPacket code req s b with
      | again =>
        obtain ⟨i1, i2, i3⟩ := loop_safe (code := code) (req := req) (until_ := until_) es s hp
        refine ⟨i1, ?_, i3⟩
        intro f hf
        obtain ⟨j1, t', b', j2, j3⟩ := i2 f hf
        exact ⟨j1, t', b', by simp [j2], j3⟩
      | fail n => simp; omega
      | fault f =>
        obtain ⟨k1, k2, k3⟩ := g1 f hv
        refine ⟨rfl, ?_, by simp; omega⟩
        intro f' hf'
        simp only [Reply.fault.injEq] at hf'
        exact ⟨hf' ▸ k1, t, b, by simp, k2, k3⟩
      | stored s' =>
        obtain ⟨k1, k2⟩ := g2 s' hv
        simp only
        by_cases hc : s'.count ≤ s'.last
        · rw [if_pos hc]
          obtain ⟨i1, i2, i3⟩ := loop_safe (code := code) (req := req) (until_ := until_) es s' k2
          refine ⟨by rw [i1, k1], ?_, i3⟩
          intro f hf
          obtain ⟨j1, t', b', j2, j3⟩ := i2 f hf
          exact ⟨j1, t', b', by simp [j2], j3⟩
        · rw [if_neg hc]
          exact ⟨k1, fun f hf => by simp at hf, by simp; omega⟩

end Verif.Ntp7
