import Mathlib.Data.List.Perm.Subperm
import Mathlib.Data.List.Nodup
import Verif.Ntp6.Trace

/-!
# Lemmas: a reply of which every part arrives
-/

set_option linter.unusedVariables false
set_option linter.unusedSimpArgs false

namespace Verif.Ntp6

theorem validate_begins {b : List Nat} {seq op : Nat} (hb : ∀ x ∈ b, x < 256) (h : validate b seq op = true) :
    (headOf b).Fits ∧ (headOf b).seq = seq ∧ (headOf b).op = op ∧ Begins (headOf b) b := by
  obtain ⟨h1, h2, h3, h4, h5, h6, h7⟩ := validate_iff.1 h
  obtain ⟨b0, b1, b2, b3, b4, b5, b6, b7, b8, b9, b10, b11, d, rfl⟩ := shape12 h1
  simp only [List.mem_cons, forall_eq_or_imp] at hb
  obtain ⟨e0, e1, e2, e3, e4, e5, e6, e7, e8, e9, e10, e11, -⟩ := hb
  refine ⟨?_, h6, h7, b10 * 256 + b11, d, by omega, ?_⟩
  · simp only [headOf, Head.Fits, version, opcode, seqOf, statusOf, offsetOf, u16, u8, List.getD_cons_zero, List.getD_cons_succ] at *
    omega
  · have f := flags_eq e1 (by simpa [isResponse, u8] using h5)
    unfold Head.message
    simp only [headOf, version, mode, isError, isMore, opcode, seqOf, statusOf, offsetOf, countOf, u16, u8, List.getD_cons_zero, List.getD_cons_succ, be16] at *
    simp only [List.cons_append, List.nil_append, List.take_succ_cons, List.take_zero]
    rw [← f]
    have k0 : b0 / 64 * 64 + b0 / 8 % 8 * 8 + 6 = b0 := by omega
    have kd : ∀ x y : Nat, y < 256 → (x * 256 + y) / 256 = x := by intros; omega
    have km : ∀ x y : Nat, y < 256 → (x * 256 + y) % 256 = y := by intros; omega
    rw [k0, kd b2 b3 e3, kd b4 b5 e5, kd b6 b7 e7, kd b8 b9 e9, kd b10 b11 e11, km b2 b3 e3, km b4 b5 e5, km b6 b7 e7, km b8 b9 e9, km b10 b11 e11]

theorem validate_answers {b : List Nat} {seq op : Nat} (hb : ∀ x ∈ b, x < 256) (h : validate b seq op = true) : Answers seq op b :=
  ⟨headOf b, validate_begins hb h⟩

/-- Two ways to read the same message. -/
theorem message_inj {h h' : Head} {d d' pad pad' : List Nat} (hf : h.Fits) (hf' : h'.Fits) (hd : d.length < 65536) (hd' : d'.length < 65536)
    (he : h.message d pad = h'.message d' pad') : h.offset = h'.offset ∧ h.more = h'.more ∧ h.error = h'.error ∧ d = d' := by
  obtain ⟨-, a2, a3, a4, a5, -, -, a8⟩ := read_message (pad := pad) hf hd
  obtain ⟨-, c2, c3, c4, c5, -, -, c8⟩ := read_message (pad := pad') hf' hd'
  rw [he] at a2 a3 a4 a5 a8
  refine ⟨a4.symm.trans c4, a3.symm.trans c3, a2.symm.trans c2, ?_⟩
  have hl : d.length = d'.length := a5.symm.trans c5
  have := a8.symm.trans c8
  exact (List.append_inj this hl).1

/-! ## Positions -/

theorem startOf_succ {fs : List (List Nat)} {j : Nat} {f : List Nat} (h : fs[j]? = some f) : startOf fs (j + 1) = startOf fs j + f.length := by
  unfold startOf
  rw [List.take_add_one, h]
  simp

theorem startOf_mono {fs : List (List Nat)} {i j : Nat} (h : i ≤ j) : startOf fs i ≤ startOf fs j := by
  induction j with
  | zero => simp only [Nat.le_zero] at h; subst h; exact Nat.le_refl _
  | succ j ih =>
    rcases Nat.lt_or_ge j i with hi | hi
    · have : i = j + 1 := by omega
      subst this; exact Nat.le_refl _
    · cases hf : fs[j]? with
      | some f => rw [startOf_succ hf]; have := ih hi; omega
      | none =>
        have hlen := List.getElem?_eq_none_iff.1 hf
        have := ih hi
        unfold startOf at this ⊢
        rw [List.take_of_length_le (show fs.length ≤ j + 1 by omega)]
        rw [List.take_of_length_le (show fs.length ≤ j by omega)] at this
        exact this

theorem startOf_all {fs : List (List Nat)} : startOf fs fs.length = fs.flatten.length := by
  unfold startOf; rw [List.take_length, List.length_flatten]

theorem startOf_end {fs : List (List Nat)} {j : Nat} {f : List Nat} (h : fs[j]? = some f) : startOf fs j + f.length ≤ fs.flatten.length := by
  rw [← startOf_succ h, ← startOf_all]
  exact startOf_mono (by have := (List.getElem?_eq_some_iff.1 h).1; omega)

theorem startOf_lt {fs : List (List Nat)} (hs : Split fs) {i j : Nat} {f : List Nat} (hf : fs[i]? = some f) (hij : i < j) (hj : j < fs.length) :
    startOf fs i < startOf fs j ∧ startOf fs i + f.length ≤ startOf fs j := by
  have h1 := startOf_succ hf
  have h2 : startOf fs (i + 1) ≤ startOf fs j := startOf_mono hij
  have h3 := hs.full i f hf (by omega)
  have h4 : 0 < f.length := by cases f with | nil => exact absurd rfl h3 | cons _ _ => simp
  omega

/-- The place of part `j`. -/
def cell (fs : List (List Nat)) (j : Nat) : Nat × Nat := (startOf fs j, (fs.getD j []).length)

theorem cell_of {fs : List (List Nat)} {j : Nat} {f : List Nat} (h : fs[j]? = some f) : cell fs j = (startOf fs j, f.length) := by
  unfold cell; rw [List.getD_eq_getElem?_getD, h]; rfl

theorem cell_lt {fs : List (List Nat)} (hs : Split fs) {i j : Nat} (hij : i < j) (hj : j < fs.length) :
    (cell fs i).1 < (cell fs j).1 ∧ (cell fs i).1 + (cell fs i).2 ≤ (cell fs j).1 := by
  have hf : fs[i]? = some (fs[i]'(by omega)) := List.getElem?_eq_getElem _
  rw [cell_of hf]
  exact startOf_lt hs hf hij hj

theorem cell_inj {fs : List (List Nat)} (hs : Split fs) {i j : Nat} (hi : i < fs.length) (hj : j < fs.length) (h : startOf fs i = startOf fs j) : i = j := by
  rcases Nat.lt_trichotomy i j with hij | hij | hij
  · have := (cell_lt hs hij hj).1; unfold cell at this; simp only at this; omega
  · exact hij
  · have := (cell_lt hs hij hi).1; unfold cell at this; simp only at this; omega

theorem cells_sorted {fs : List (List Nat)} (hs : Split fs) : Sorted ((List.range fs.length).map (cell fs)) := by
  unfold Sorted
  rw [List.pairwise_map]
  have : ∀ n, n ≤ fs.length → (List.range n).Pairwise (fun a b => (cell fs a).1 < (cell fs b).1 ∧ (cell fs a).1 + (cell fs a).2 ≤ (cell fs b).1) := by
    intro n hn
    have h := List.pairwise_lt_range (n := n)
    refine List.Pairwise.imp_of_mem ?_ h
    intro a b ha hb hab
    exact cell_lt hs hab (by have := List.mem_range.1 hb; omega)
  exact this _ (Nat.le_refl _)

theorem sorted_nodup {fr : List (Nat × Nat)} (h : Sorted fr) : fr.Nodup := by
  unfold List.Nodup
  refine List.Pairwise.imp ?_ h
  rintro a b ⟨hab, -⟩ rfl
  omega

theorem sorted_ext {a b : List (Nat × Nat)} (ha : Sorted a) (hb : Sorted b) (h : ∀ x, x ∈ a ↔ x ∈ b) : a = b := by
  induction a generalizing b with
  | nil =>
    cases b with
    | nil => rfl
    | cons y l => exact absurd ((h y).2 (by simp)) (by simp)
  | cons x l ih =>
    cases b with
    | nil => exact absurd ((h x).1 (by simp)) (by simp)
    | cons y m =>
      obtain ⟨a1, a2⟩ := List.pairwise_cons.1 ha
      obtain ⟨b1, b2⟩ := List.pairwise_cons.1 hb
      have hxy : x = y := by
        by_contra hne
        have hx : x ∈ m := by
          rcases List.mem_cons.1 ((h x).1 (by simp)) with e | e
          · exact absurd e hne
          · exact e
        have hy : y ∈ l := by
          rcases List.mem_cons.1 ((h y).2 (by simp)) with e | e
          · exact absurd e.symm hne
          · exact e
        have := (a1 y hy).1
        have := (b1 x hx).1
        omega
      subst hxy
      congr 1
      refine ih a2 b2 ?_
      intro z
      constructor
      · intro hz
        rcases List.mem_cons.1 ((h z).1 (by simp [hz])) with e | e
        · subst e; exact absurd (a1 z hz).1 (by omega)
        · exact e
      · intro hz
        rcases List.mem_cons.1 ((h z).2 (by simp [hz])) with e | e
        · subst e; exact absurd (b1 z hz).1 (by omega)
        · exact e

theorem cells_contiguous {fs : List (List Nat)} : ∀ (m i : Nat), i + m ≤ fs.length → contiguous ((List.range' i m).map (cell fs)) = true := by
  intro m
  induction m with
  | zero => intro i h; rfl
  | succ m ih =>
    intro i h
    cases m with
    | zero => rfl
    | succ m =>
      have := ih (i + 1) (by omega)
      simp only [List.range'_succ, List.map_cons, contiguous, Bool.and_eq_true, decide_eq_true_eq] at this ⊢
      refine ⟨?_, this⟩
      have hf : fs[i]? = some (fs[i]'(by omega)) := List.getElem?_eq_getElem _
      rw [cell_of hf]
      unfold cell
      simp only
      rw [startOf_succ hf]

theorem cells_complete {fs : List (List Nat)} (hs : Split fs) : ∃ n, complete ((List.range fs.length).map (cell fs)) true = some n := by
  have hk : 0 < fs.length := by
    cases fs with
    | nil => exact absurd rfl hs.some_
    | cons _ _ => simp
  obtain ⟨m, hm⟩ : ∃ m, fs.length = m + 1 := ⟨fs.length - 1, by omega⟩
  have hc := cells_contiguous (fs := fs) fs.length 0 (by omega)
  rw [← List.range_eq_range'] at hc
  unfold complete
  rw [hc]
  have hh : ((List.range fs.length).map (cell fs)).head?.any (fun f => decide (f.1 = 0)) = true := by
    rw [hm, List.range_succ_eq_map]
    simp [cell, startOf]
  rw [hh]
  simp only [Bool.and_self, if_true]
  rw [List.getLast?_map, hm, List.range_succ]
  simp

/-! ## Progress -/

/-- The parts stored so far. -/
structure Live (fs : List (List Nat)) (s : Rs) : Prop where
  sorted : Sorted s.frags
  cells : ∀ f ∈ s.frags, ∃ j, j < fs.length ∧ f = cell fs j
  last : cell fs (fs.length - 1) ∈ s.frags ↔ s.last = true
  open_ : complete s.frags s.last = none
  buflen : s.buf.length = 4096

theorem Live.missing {fs : List (List Nat)} {s : Rs} (hs : Split fs) (h : Live fs s) : ∃ j, j < fs.length ∧ cell fs j ∉ s.frags := by
  by_contra hc
  have hall : ∀ j, j < fs.length → cell fs j ∈ s.frags := by
    intro j hj
    by_contra hn
    exact hc ⟨j, hj, hn⟩
  have hk : 0 < fs.length := by
    cases fs with
    | nil => exact absurd rfl hs.some_
    | cons _ _ => simp
  have he : s.frags = (List.range fs.length).map (cell fs) := by
    refine sorted_ext h.sorted (cells_sorted hs) ?_
    intro x
    rw [List.mem_map]
    constructor
    · intro hx
      obtain ⟨j, hj, rfl⟩ := h.cells x hx
      exact ⟨j, List.mem_range.2 hj, rfl⟩
    · rintro ⟨j, hj, rfl⟩
      exact hall j (List.mem_range.1 hj)
  have hl : s.last = true := h.last.1 (hall _ (by omega))
  obtain ⟨n, hn⟩ := cells_complete hs
  have ho := h.open_
  rw [hl, he, hn] at ho
  cases ho

theorem Live.few {fs : List (List Nat)} {s : Rs} (hs : Split fs) (h : Live fs s) : s.frags.length ≤ 31 := by
  have hn := sorted_nodup h.sorted
  have hsub : ∀ x ∈ s.frags, x ∈ (List.range fs.length).map (cell fs) := by
    intro x hx
    obtain ⟨j, hj, rfl⟩ := h.cells x hx
    exact List.mem_map.2 ⟨j, List.mem_range.2 hj, rfl⟩
  have hsp : List.Subperm s.frags ((List.range fs.length).map (cell fs)) := List.subperm_of_subset hn hsub
  by_contra hc
  obtain ⟨j, hj, hnot⟩ := h.missing hs
  have hlen : ((List.range fs.length).map (cell fs)).length ≤ s.frags.length := by
    rw [List.length_map, List.length_range]; have := hs.few; omega
  have hp := hsp.perm_of_length_le hlen
  exact hnot (hp.mem_iff.2 (List.mem_map.2 ⟨j, List.mem_range.2 hj, rfl⟩))

theorem Live.init {fs : List (List Nat)} {buf : List Nat} {u : Nat} (h : buf.length = 4096) : Live fs ⟨[], false, buf, u⟩ :=
  ⟨List.Pairwise.nil, nofun, by simp, rfl, h⟩

/-- A part that arrives is stored, now or before, or completes the reply. -/
theorem Live.part {fs : List (List Nat)} {s : Rs} (hs : Split fs) (h : Live fs s) {seq op timeout now j : Nat} {b : List Nat}
    (hb : PartMsg fs seq op j b) :
    (onPacket seq op timeout now s b = .again ∧ cell fs j ∈ s.frags) ∨
    (∃ s', onPacket seq op timeout now s b = .stored s' ∧ Live fs s' ∧ cell fs j ∈ s'.frags ∧ (∀ f ∈ s.frags, f ∈ s'.frags) ∧ s'.until_ = now + timeout) ∨
    (∃ n s', onPacket seq op timeout now s b = .done n s') := by
  obtain ⟨hd, f, p1, p2, p3, p4, p5, p6, p7, p8⟩ := hb
  have hj : j < fs.length := (List.getElem?_eq_some_iff.1 p5).1
  have hfl : f.length ≤ 504 := hs.small f (List.mem_of_getElem? p5)
  obtain ⟨r1, r2, r3, r4, r5, -, r7, r8⟩ := read_message (pad := List.replicate ((4 - f.length % 4) % 4) 0) p1 (show f.length < 65536 by omega)
  rw [← p8] at r1 r2 r3 r4 r5 r7 r8
  rw [p2, p3] at r1
  have hlen : b.length = 12 + f.length + (4 - f.length % 4) % 4 := by rw [r7, List.length_replicate]
  have hcell : cell fs j = (offsetOf b, countOf b) := by rw [cell_of p5, r4, r5, p6]
  have hfit : offsetOf b + countOf b ≤ 4096 := by
    rw [r4, r5, p6]; have := startOf_end p5; have := hs.fits; omega
  have hsz : 12 + countOf b ≤ b.length := by omega
  have hunf : onPacket seq op timeout now s b = if (s.last && !isMore b) = true then .again else if 31 < s.frags.length then .fail 27 else store s b now timeout := by
    unfold onPacket
    rw [if_neg (by simp [r1]), if_neg (by rw [r2, p4]; simp), if_neg (by omega), if_neg (by unfold padded; omega), if_neg (by omega),
      if_neg, if_neg (by omega)]
    rw [r5, r3, p7]
    intro hc
    simp only [Bool.and_eq_true, decide_eq_true_eq] at hc
    exact hs.full j f p5 hc.2 (List.length_eq_zero_iff.1 hc.1)
  have hmore : isMore b = false → j = fs.length - 1 := by
    intro hm
    rw [r3, p7] at hm
    have : ¬ j + 1 < fs.length := by simpa using hm
    omega
  by_cases hl : (s.last && !isMore b) = true
  · left
    rw [hunf, if_pos hl]
    simp only [Bool.and_eq_true, Bool.not_eq_true'] at hl
    refine ⟨rfl, ?_⟩
    rw [hmore hl.2]
    exact h.last.2 hl.1
  rw [if_neg hl, if_neg (by have := h.few hs; omega)] at hunf
  rcases store_cases (now := now) (timeout := timeout) h.buflen (h.few hs) h.sorted hsz hfit with ⟨h1, hp⟩ | ⟨fr, hp, h1⟩
  · left
    refine ⟨by rw [hunf, h1], ?_⟩
    by_contra hn
    obtain ⟨fr', hf⟩ : ∃ fr', place s.frags (offsetOf b) (countOf b) = some fr' := by
      refine place_fits h.sorted ?_
      intro x hx
      obtain ⟨i, hi, rfl⟩ := h.cells x hx
      have hne : i ≠ j := by rintro rfl; exact hn hx
      have e1 : (cell fs j).1 = offsetOf b := by rw [hcell]
      have e2 : (cell fs j).2 = countOf b := by rw [hcell]
      rw [← e1, ← e2]
      rcases Nat.lt_or_gt_of_ne hne with hij | hij
      · exact .inl (cell_lt hs hij hj)
      · exact .inr (cell_lt hs hij hi)
    rw [hf] at hp; cases hp
  · right
    obtain ⟨q1, q2, q3⟩ := place_sorted h.sorted hp
    cases hc : complete fr (s.last || !isMore b) with
    | some n =>
      rw [hc] at h1
      exact .inr ⟨n, _, by rw [hunf, h1]⟩
    | none =>
      rw [hc] at h1
      refine .inl ⟨_, by rw [hunf, h1], ⟨q1, ?_, ?_, hc, ?_⟩, ?_, ?_, rfl⟩
      · intro x hx
        rcases (q3 x).1 hx with rfl | hx
        · exact ⟨j, hj, hcell.symm⟩
        · exact h.cells x hx
      · rw [Bool.or_eq_true, ← h.last, q3]
        constructor
        · rintro (he | he)
          · right
            rw [← hcell] at he
            have := cell_inj hs (show fs.length - 1 < fs.length by omega) hj (congrArg Prod.fst he)
            rw [r3, p7]
            have : ¬ j + 1 < fs.length := by omega
            simp [this]
          · left; exact he
        · rintro (he | he)
          · right; exact he
          · left
            have := hmore (by simpa using he)
            rw [← this, hcell]
      · simp only
        rw [blit_length]
        · exact h.buflen
        · rw [List.length_take, List.length_drop, h.buflen]; omega
      · rw [q3, hcell]; exact .inl rfl
      · intro x hx; exact (q3 x).2 (.inr hx)

/-- The query succeeds once every part has arrived. -/
theorem loop_done {fs : List (List Nat)} (hs : Split fs) {seq op timeout : Nat} :
    ∀ (l : List (Nat × Rx)) (s : Rs) (lim : Nat), Live fs s → lim ≤ s.until_ →
      (∀ t e, (t, e) ∈ l → t ≤ lim ∧ lim ≤ t + timeout ∧ ∃ b, e = .packet b ∧ ((∃ j, PartMsg fs seq op j b) ∨ validate b seq op = false)) →
      (∀ j, j < fs.length → cell fs j ∈ s.frags ∨ ∃ t b, (t, Rx.packet b) ∈ l ∧ PartMsg fs seq op j b) →
      ∃ n, (loop seq op timeout s l).reply = .ok n := by
  intro l
  induction l with
  | nil =>
    intro s lim h hu _ hall
    obtain ⟨j, hj, hn⟩ := h.missing hs
    rcases hall j hj with h' | ⟨t, b, h', -⟩
    · exact absurd h' hn
    · cases h'
  | cons e l ih =>
    intro s lim h hu hev hall
    obtain ⟨t, e⟩ := e
    obtain ⟨ht, ht2, b, rfl, hb⟩ := hev t e (by simp)
    have hev' : ∀ t e, (t, e) ∈ l → t ≤ lim ∧ lim ≤ t + timeout ∧ ∃ b, e = .packet b ∧ ((∃ j, PartMsg fs seq op j b) ∨ validate b seq op = false) :=
      fun t e he => hev t e (by simp [he])
    unfold loop
    rw [if_neg (by omega)]
    simp only
    have skip : onPacket seq op timeout t s b = .again → (∀ i, PartMsg fs seq op i b → cell fs i ∈ s.frags) →
        ∃ n, (match onPacket seq op timeout t s b with
        | .again => loop seq op timeout s l
        | .fail 0 => ⟨.refused, s.buf, t⟩
        | .fail n => ⟨.rc n, s.buf, t⟩
        | .fault f => ⟨.fault f, s.buf, t⟩
        | .stored s' => loop seq op timeout s' l
        | .done n s' => ⟨.ok n, s'.buf, t⟩ : Ended).reply = .ok n := by
      intro h1 h2
      rw [h1]
      refine ih s lim h hu hev' ?_
      intro i hi
      rcases hall i hi with h' | ⟨t', b', h', hp⟩
      · exact .inl h'
      · rcases List.mem_cons.1 h' with e | e
        · cases e; exact .inl (h2 i hp)
        · exact .inr ⟨t', b', e, hp⟩
    have uniq : ∀ i j, PartMsg fs seq op i b → PartMsg fs seq op j b → i = j := by
      rintro i j ⟨h1, f1, a1, a2, a3, a4, a5, a6, a7, a8⟩ ⟨h2, f2, c1, c2, c3, c4, c5, c6, c7, c8⟩
      have hi : i < fs.length := (List.getElem?_eq_some_iff.1 a5).1
      have hj : j < fs.length := (List.getElem?_eq_some_iff.1 c5).1
      have l1 : f1.length ≤ 504 := hs.small f1 (List.mem_of_getElem? a5)
      have l2 : f2.length ≤ 504 := hs.small f2 (List.mem_of_getElem? c5)
      obtain ⟨e1, -⟩ := message_inj a1 c1 (by omega) (by omega) (a8.symm.trans c8)
      exact cell_inj hs hi hj (by rw [← a6, ← c6, e1])
    rcases hb with ⟨j, hb⟩ | hb
    · rcases h.part hs (timeout := timeout) (now := t) hb with ⟨h1, h2⟩ | ⟨s', h1, h2, h3, h4, h5⟩ | ⟨n, s', h1⟩
      · refine skip h1 ?_
        intro i hi
        rw [uniq i j hi hb]; exact h2
      · rw [h1]
        refine ih s' lim h2 (by rw [h5]; exact ht2) hev' ?_
        intro i hi
        rcases hall i hi with h' | ⟨t', b', h', hp⟩
        · exact .inl (h4 _ h')
        · rcases List.mem_cons.1 h' with e | e
          · cases e
            left; rw [uniq i j hp hb]; exact h3
          · exact .inr ⟨t', b', e, hp⟩
      · rw [h1]; exact ⟨n, rfl⟩
    · refine skip ?_ ?_
      · unfold onPacket; rw [if_pos (by simp [hb])]
      · rintro i ⟨h1, f1, a1, a2, a3, a4, a5, a6, a7, a8⟩
        have l1 : f1.length ≤ 504 := hs.small f1 (List.mem_of_getElem? a5)
        have := (read_message (pad := List.replicate ((4 - f1.length % 4) % 4) 0) a1 (show f1.length < 65536 by omega)).1
        rw [← a8, a2, a3, hb] at this
        cases this

/-- Parts that follow one another are the whole reply. -/
theorem tiles_whole {fs : List (List Nat)} (hs : Split fs) :
    ∀ (qs : List Part) (j0 : Nat), j0 < fs.length → Tiles (startOf fs j0) qs →
      (∀ q ∈ qs, ∃ j f, fs[j]? = some f ∧ q.1.offset = startOf fs j ∧ q.2 = f ∧ q.1.more = decide (j + 1 < fs.length)) →
      (qs.filter (fun p => !p.1.more)).length = 1 → (qs.map (·.2)).flatten = (fs.drop j0).flatten := by
  intro qs
  induction qs with
  | nil => intro j0 _ _ _ h; cases h
  | cons q qs ih =>
    intro j0 hj0 ht hq hc
    obtain ⟨j, f, h1, h2, h3, h4⟩ := hq q (by simp)
    have hj : j < fs.length := (List.getElem?_eq_some_iff.1 h1).1
    have he : j = j0 := cell_inj hs hj hj0 (by rw [← h2]; exact ht.1)
    subst he
    have ht2 : Tiles (startOf fs (j + 1)) qs := by
      have := ht.2
      rw [h3] at this
      rw [startOf_succ h1]; exact this
    have hdrop : fs.drop j = f :: fs.drop (j + 1) := by
      rw [List.drop_eq_getElem_cons hj]
      have := (List.getElem?_eq_some_iff.1 h1).2
      rw [this]
    rw [hdrop, List.map_cons, List.flatten_cons, List.flatten_cons, h3]
    congr 1
    by_cases hlast : j + 1 < fs.length
    · refine ih (j + 1) hlast ht2 (fun r hr => hq r (by simp [hr])) ?_
      rw [List.filter_cons, h4] at hc
      simpa [hlast] using hc
    · rw [List.filter_cons, h4] at hc
      simp only [hlast, decide_false, Bool.not_false, if_true, List.length_cons] at hc
      rw [List.drop_of_length_le (by omega)]
      cases qs with
      | nil => rfl
      | cons r rs =>
        exfalso
        obtain ⟨j', f', g1, g2, g3, g4⟩ := hq r (by simp)
        have hz : (List.filter (fun p : Part => !p.1.more) (r :: rs)) = [] := List.length_eq_zero_iff.1 (by omega)
        have hm : r.1.more = true := by
          have := List.filter_eq_nil_iff.1 hz r (by simp)
          simpa using this
        rw [hm] at g4
        have g5 : j' + 1 < fs.length := by simpa using g4.symm
        have g6 := (startOf_lt hs g1 (show j' < j by omega) hj).1
        have g7 := ht2.1
        rw [g2, startOf_succ h1] at g7
        omega

end Verif.Ntp6
