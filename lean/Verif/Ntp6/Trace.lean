import Verif.Ntp6.Support

/-!
# Invariants of the reassembly
-/

set_option linter.unusedVariables false
set_option linter.unusedSimpArgs false

namespace Verif.Ntp6

/-- What storing a fragment presupposes and does. -/
structure Stores (seq op timeout now : Nat) (s : Rs) (b : List Nat) (s' : Rs) (res : Option Nat) : Prop where
  valid : validate b seq op = true
  noError : isError b = false
  aligned : b.length % 4 = 0
  size : 12 + countOf b ≤ b.length
  zero : countOf b = 0 → isMore b = false
  fits : offsetOf b + countOf b ≤ 4096
  oneLast : s.last = true → isMore b = true
  few : s.frags.length ≤ 31
  fr : place s.frags (offsetOf b) (countOf b) = some s'.frags
  last : s'.last = (s.last || !isMore b)
  buf : s'.buf = blit s.buf (offsetOf b) ((b.drop 12).take (countOf b))
  until_ : s'.until_ = now + timeout
  res : complete s'.frags s'.last = res

theorem store_cases {s : Rs} {b : List Nat} {now timeout : Nat} (hb : s.buf.length = 4096) (hl : s.frags.length ≤ 31) (hs : Sorted s.frags)
    (hc : 12 + countOf b ≤ b.length) (ho : offsetOf b + countOf b ≤ 4096) :
    (store s b now timeout = .again ∧ place s.frags (offsetOf b) (countOf b) = none) ∨
    ∃ fr, place s.frags (offsetOf b) (countOf b) = some fr ∧
      store s b now timeout =
        match complete fr (s.last || !isMore b) with
        | some n => .done n ⟨fr, s.last || !isMore b, blit s.buf (offsetOf b) ((b.drop 12).take (countOf b)), now + timeout⟩
        | none => .stored ⟨fr, s.last || !isMore b, blit s.buf (offsetOf b) ((b.drop 12).take (countOf b)), now + timeout⟩ := by
  unfold store
  cases hp : place s.frags (offsetOf b) (countOf b) with
  | none => exact .inl ⟨rfl, rfl⟩
  | some fr =>
    refine .inr ⟨fr, rfl, ?_⟩
    have := (place_sorted hs hp).2.1
    simp only
    rw [if_neg (by omega), if_neg (by omega), if_neg (by omega)]
    cases complete fr (s.last || !isMore b) <;> rfl

/-- All that a packet can lead to. -/
theorem onPacket_cases {seq op timeout now : Nat} {s : Rs} {b : List Nat} (hb : s.buf.length = 4096) (hs : Sorted s.frags) :
    onPacket seq op timeout now s b = .again ∨
    (∃ rc, onPacket seq op timeout now s b = .fail rc ∧ validate b seq op = true ∧
      ((isError b = true ∧ errTable[statusOf b / 256]? = some rc) ∨ (isError b = false ∧ rc ∈ [71, 28, 27]))) ∨
    (onPacket seq op timeout now s b = .fault .table ∧ validate b seq op = true ∧ isError b = true ∧ 8 ≤ statusOf b / 256) ∨
    (∃ s', onPacket seq op timeout now s b = .stored s' ∧ Stores seq op timeout now s b s' none) ∨
    (∃ n s', onPacket seq op timeout now s b = .done n s' ∧ Stores seq op timeout now s b s' (some n)) := by
  unfold onPacket
  by_cases hv : validate b seq op = true
  swap
  · left; rw [if_pos (by simpa using hv)]
  rw [if_neg (by simp [hv])]
  by_cases he : isError b = true
  · rw [if_pos he]
    unfold errAnswer
    cases ht : errTable[statusOf b / 256]? with
    | none =>
      refine .inr (.inr (.inl ⟨rfl, hv, he, ?_⟩))
      exact List.getElem?_eq_none_iff.1 ht
    | some rc => exact .inr (.inl ⟨rc, rfl, hv, .inl ⟨he, rfl⟩⟩)
  rw [if_neg he]
  have he : isError b = false := by simpa using he
  by_cases h3 : b.length % 4 ≠ 0
  · left; rw [if_pos h3]
  rw [if_neg h3]
  by_cases h4 : b.length < padded (countOf b)
  · rw [if_pos h4]; exact .inr (.inl ⟨_, rfl, hv, .inr ⟨he, by simp⟩⟩)
  rw [if_neg h4]
  have hsz : 12 + countOf b ≤ b.length := by unfold padded at h4; omega
  rw [if_neg (show ¬ b.length < 12 + countOf b by omega)]
  by_cases h6 : (countOf b = 0 && isMore b) = true
  · left; rw [if_pos h6]
  rw [if_neg h6]
  by_cases h7 : 4096 < offsetOf b + countOf b
  · rw [if_pos h7]; exact .inr (.inl ⟨_, rfl, hv, .inr ⟨he, by simp⟩⟩)
  rw [if_neg h7]
  by_cases h8 : (s.last && !isMore b) = true
  · left; rw [if_pos h8]
  rw [if_neg h8]
  by_cases h9 : 31 < s.frags.length
  · rw [if_pos h9]; exact .inr (.inl ⟨_, rfl, hv, .inr ⟨he, by simp⟩⟩)
  rw [if_neg h9]
  rcases store_cases (now := now) (timeout := timeout) hb (by omega) hs hsz (by omega) with ⟨h, hp⟩ | ⟨fr, hp, h⟩
  · exact .inl h
  · rw [h]
    have st : ∀ r, complete fr (s.last || !isMore b) = r →
        Stores seq op timeout now s b ⟨fr, s.last || !isMore b, blit s.buf (offsetOf b) ((b.drop 12).take (countOf b)), now + timeout⟩ r := fun r hr =>
      { valid := hv, noError := he, aligned := by omega, size := hsz, zero := fun h => by simpa [h] using h6, fits := by omega,
        oneLast := fun h => by simpa [h] using h8, few := by omega, fr := hp, last := rfl, buf := rfl, until_ := rfl, res := hr }
    cases hc : complete fr (s.last || !isMore b) with
    | none => exact .inr (.inr (.inr (.inl ⟨_, rfl, st _ hc⟩)))
    | some n => exact .inr (.inr (.inr (.inr ⟨n, _, rfl, st _ hc⟩)))

/-! ## What has been stored -/

/-- The parts `ps` have been stored in `s`; all of them come from `es`. -/
structure Inv (seq op : Nat) (es : List (Nat × Rx)) (s : Rs) (ps : List Part) : Prop where
  sorted : Sorted s.frags
  frags : s.frags = ps.map (fun p => (p.1.offset, p.2.length))
  came : ∀ p ∈ ps, p.1.Fits ∧ p.1.seq = seq ∧ p.1.op = op ∧ p.1.error = false ∧ ∃ t pad, (t, Rx.packet (p.1.message p.2 pad)) ∈ es
  data : ∀ p ∈ ps, (s.buf.drop p.1.offset).take p.2.length = p.2
  inside : ∀ p ∈ ps, p.1.offset + p.2.length ≤ 4096
  last : (ps.filter (fun p => !p.1.more)).length = if s.last then 1 else 0
  few : s.frags.length ≤ 32
  buflen : s.buf.length = 4096

theorem Inv.init {seq op : Nat} {es : List (Nat × Rx)} {buf : List Nat} {u : Nat} (h : buf.length = 4096) :
    Inv seq op es ⟨[], false, buf, u⟩ [] := by
  refine ⟨List.Pairwise.nil, rfl, nofun, nofun, nofun, rfl, by simp, h⟩

theorem Inv.next {seq op timeout now : Nat} {es : List (Nat × Rx)} {s s' : Rs} {ps : List Part} {b : List Nat} {r : Option Nat} {t : Nat}
    (hi : Inv seq op es s ps) (h : Stores seq op timeout now s b s' r) (ho : ∀ x ∈ b, x < 256) (hm : (t, Rx.packet b) ∈ es) :
    ∃ ps', Inv seq op es s' ps' ∧ ∀ p ∈ ps, p ∈ ps' := by
  obtain ⟨m1, m2, m3, m4, m5⟩ := message_of ho h.valid h.size
  obtain ⟨pre, post, e1, e2, e3, e4⟩ := place_some hi.sorted h.fr
  obtain ⟨q1, q2, q3⟩ := place_sorted hi.sorted h.fr
  obtain ⟨pa, pb, rfl, ea, eb⟩ := List.map_eq_append_iff.1 (hi.frags.symm.trans e1)
  have hsep : ∀ p ∈ pa ++ pb, p.1.offset + p.2.length ≤ offsetOf b ∨ offsetOf b + countOf b ≤ p.1.offset := by
    intro p hp
    rcases List.mem_append.1 hp with hp | hp
    · left; exact (e3 _ (ea ▸ List.mem_map_of_mem hp)).2
    · right; exact (e4 _ (eb ▸ List.mem_map_of_mem hp)).2
  refine ⟨pa ++ (headOf b, (b.drop 12).take (countOf b)) :: pb, ?_, ?_⟩
  · have hpm : ∀ p, p ∈ pa ++ (headOf b, (b.drop 12).take (countOf b)) :: pb → p = (headOf b, (b.drop 12).take (countOf b)) ∨ p ∈ pa ++ pb := by
      intro p hp
      simp only [List.mem_append, List.mem_cons] at hp ⊢
      tauto
    refine ⟨q1, ?_, ?_, ?_, ?_, ?_, by rw [q2]; have := h.few; omega, ?_⟩
    · rw [e2, List.map_append, List.map_cons, ea, eb]
      simp only [m5]; rfl
    · intro p hp
      rcases hpm p hp with rfl | hp
      · exact ⟨m1, m2, m3, h.noError, t, _, m4 ▸ hm⟩
      · exact hi.came p hp
    · intro p hp
      have hfit : offsetOf b + ((b.drop 12).take (countOf b)).length ≤ s.buf.length := by rw [m5, hi.buflen]; exact h.fits
      rw [h.buf]
      rcases hpm p hp with rfl | hp
      · exact blit_at hfit
      · rw [blit_other hfit (by rw [m5]; exact hsep p hp)]; exact hi.data p hp
    · intro p hp
      rcases hpm p hp with rfl | hp
      · simp only [m5]; exact h.fits
      · exact hi.inside p hp
    · have hl := hi.last
      rw [List.filter_append, List.length_append] at hl ⊢
      rw [List.filter_cons, h.last]
      have hmore : (headOf b).more = isMore b := rfl
      simp only [hmore]
      have := h.oneLast
      cases hb : isMore b with
      | true =>
        simp only [Bool.not_true, Bool.or_false, Bool.false_eq_true, if_false]
        exact hl
      | false =>
        have hsl : s.last = false := by
          cases hs : s.last with
          | false => rfl
          | true => rw [this hs] at hb; cases hb
        rw [hsl] at hl ⊢
        simp only [Bool.not_false, if_true, List.length_cons, Bool.or_true, Bool.false_eq_true, if_false] at hl ⊢
        omega
    · rw [h.buf, blit_length (by rw [m5, hi.buflen]; exact h.fits), hi.buflen]
  · intro p hp
    simp only [List.mem_append, List.mem_cons] at hp ⊢
    tauto

/-! ## Completeness of a reply -/

theorem complete_some {fr : List (Nat × Nat)} {l : Bool} {n : Nat} (h : complete fr l = some n) :
    l = true ∧ (∃ f, fr.head? = some f ∧ f.1 = 0) ∧ contiguous fr = true ∧ ∃ f, fr.getLast? = some f ∧ n = f.1 + f.2 := by
  unfold complete at h
  split at h
  · rename_i hc
    simp only [Bool.and_eq_true, Option.any_eq_true, decide_eq_true_eq] at hc
    obtain ⟨⟨h1, f, h2, h3⟩, h4⟩ := hc
    refine ⟨h1, ⟨f, h2, h3⟩, h4, ?_⟩
    cases hg : fr.getLast? with
    | none => rw [hg] at h; cases h
    | some g => rw [hg] at h; exact ⟨g, rfl, (Option.some.inj h).symm⟩
  · cases h

theorem tiles_of {ps : List Part} {o : Nat} (h0 : ∀ p, ps.head? = some p → p.1.offset = o)
    (hc : contiguous (ps.map (fun p => (p.1.offset, p.2.length))) = true) : Tiles o ps := by
  induction ps generalizing o with
  | nil => trivial
  | cons p ps ih =>
    refine ⟨h0 p rfl, ih ?_ ?_⟩
    · intro q hq
      cases ps with
      | nil => cases hq
      | cons r l =>
        cases hq
        simp only [List.map_cons, contiguous, Bool.and_eq_true, decide_eq_true_eq] at hc
        rw [← h0 p rfl]; exact hc.1.symm
    · cases ps with
      | nil => rfl
      | cons r l => simp only [List.map_cons, contiguous, Bool.and_eq_true, decide_eq_true_eq] at hc ⊢; exact hc.2

theorem tiles_end {ps : List Part} {o : Nat} {p : Part} (h : Tiles o ps) (hl : ps.getLast? = some p) :
    p.1.offset + p.2.length = o + (ps.map (·.2)).flatten.length := by
  induction ps generalizing o with
  | nil => cases hl
  | cons q ps ih =>
    cases ps with
    | nil =>
      simp only [List.getLast?_singleton, Option.some.injEq] at hl
      subst hl
      simp only [List.map_cons, List.map_nil, List.flatten_cons, List.flatten_nil, List.append_nil]
      rw [h.1]
    | cons r l =>
      have := ih h.2 (by simpa using hl)
      rw [List.map_cons, List.flatten_cons, List.length_append]
      rw [this]; omega

theorem tiles_data {ps : List Part} {o : Nat} {buf : List Nat} (h : Tiles o ps)
    (hd : ∀ p ∈ ps, (buf.drop p.1.offset).take p.2.length = p.2) :
    (buf.drop o).take (ps.map (·.2)).flatten.length = (ps.map (·.2)).flatten := by
  induction ps generalizing o with
  | nil => simp
  | cons p ps ih =>
    rw [List.map_cons, List.flatten_cons, List.length_append, List.take_add]
    have h1 := hd p (by simp)
    rw [h.1] at h1
    rw [h1, List.drop_drop, ih h.2 (fun q hq => hd q (by simp [hq]))]

/-- A reply that is complete. -/
theorem Inv.reply {seq op : Nat} {es : List (Nat × Rx)} {s : Rs} {ps : List Part} {n : Nat} (hi : Inv seq op es s ps)
    (h : complete s.frags s.last = some n) :
    Tiles 0 ps ∧ s.buf.take n = (ps.map (·.2)).flatten ∧ n = (ps.map (·.2)).flatten.length ∧ n ≤ 4096 ∧
      (ps.filter (fun p => !p.1.more)).length = 1 := by
  obtain ⟨h1, ⟨f, h2, h3⟩, h4, g, h5, h6⟩ := complete_some h
  rw [hi.frags] at h2 h4 h5
  have ht : Tiles 0 ps := by
    refine tiles_of ?_ h4
    intro p hp
    rw [List.head?_map, hp] at h2
    cases h2; exact h3
  rw [List.getLast?_map] at h5
  cases hl : ps.getLast? with
  | none => rw [hl] at h5; cases h5
  | some q =>
    rw [hl] at h5
    cases h5
    have e := tiles_end ht hl
    simp only at h6
    have hn : n = (ps.map (·.2)).flatten.length := by rw [h6, e]; omega
    refine ⟨ht, ?_, hn, ?_, ?_⟩
    · have := tiles_data ht hi.data
      rw [List.drop_zero, ← hn] at this
      exact this
    · rw [h6]; exact hi.inside q (List.mem_of_getLast? hl)
    · rw [hi.last, h1]; rfl

/-- What `loop` returns. -/
theorem loop_sound {seq op timeout : Nat} {es : List (Nat × Rx)} (ho : Octets es) :
    ∀ (l : List (Nat × Rx)) (s : Rs) (ps : List Part), (∀ e ∈ l, e ∈ es) → Inv seq op es s ps →
      (loop seq op timeout s l).buf.length = 4096 ∧
      (∀ n, (loop seq op timeout s l).reply = .ok n →
        ∃ qs : List Part, (∀ p ∈ qs, p.1.Fits ∧ p.1.seq = seq ∧ p.1.op = op ∧ p.1.error = false ∧ ∃ t pad, (t, Rx.packet (p.1.message p.2 pad)) ∈ es) ∧
          Tiles 0 qs ∧ (loop seq op timeout s l).buf.take n = (qs.map (·.2)).flatten ∧ n = (qs.map (·.2)).flatten.length ∧ n ≤ 4096 ∧
          (qs.filter (fun p => !p.1.more)).length = 1) := by
  intro l
  induction l with
  | nil => intro s ps _ hi; exact ⟨hi.buflen, nofun⟩
  | cons e l ih =>
    intro s ps hsub hi
    obtain ⟨t, e⟩ := e
    have hsub' : ∀ e ∈ l, e ∈ es := fun e he => hsub e (by simp [he])
    unfold loop
    split
    · exact ⟨hi.buflen, nofun⟩
    cases e with
    | failed n => exact ⟨hi.buflen, nofun⟩
    | packet b =>
      have hm : (t, Rx.packet b) ∈ es := hsub _ (by simp)
      simp only
      rcases onPacket_cases (seq := seq) (op := op) (timeout := timeout) (now := t) (b := b) hi.buflen hi.sorted with
        h | ⟨rc, h, -⟩ | ⟨h, -⟩ | ⟨s', h, hs⟩ | ⟨n, s', h, hs⟩
      · rw [h]; exact ih s ps hsub' hi
      · rw [h]
        cases rc with
        | zero => exact ⟨hi.buflen, nofun⟩
        | succ k => exact ⟨hi.buflen, nofun⟩
      · rw [h]; exact ⟨hi.buflen, nofun⟩
      · rw [h]
        obtain ⟨ps', hi', -⟩ := hi.next hs (ho t b hm) hm
        exact ih s' ps' hsub' hi'
      · rw [h]
        obtain ⟨ps', hi', -⟩ := hi.next hs (ho t b hm) hm
        refine ⟨hi'.buflen, ?_⟩
        intro k hk
        cases hk
        exact ⟨ps', hi'.came, hi'.reply hs.res⟩

end Verif.Ntp6
