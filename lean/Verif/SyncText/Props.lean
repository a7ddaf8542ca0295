import Verif.SyncText.Spec
import Mathlib.Tactic.Linarith

set_option linter.unusedSimpArgs false
set_option linter.unusedVariables false

/-! # Texts of masks and changes of the grandmaster (C299-C302) -/

namespace Verif.SyncText

/-! ## Lemmas on the loop -/

/-- What the array holds after the text `w`. -/
structure Holds (size : Nat) (w : List Char) (s : List Char × Nat × Bool) : Prop where
  len : s.1.length = size
  cases : (w.length < size ∧ s.2.1 = w.length ∧ s.2.2 = false ∧ (w = [] ∨ s.1.take (w.length + 1) = w ++ ['\x00'])) ∨
    (size ≤ w.length ∧ s.2.1 = size ∧ s.2.2 = true ∧ s.1.take (size - 1) = w.take (size - 1))

theorem put_some {buf s : List Char} {pos : Nat} (h : pos + s.length ≤ buf.length) :
    put buf pos s = some (buf.take pos ++ s ++ buf.drop (pos + s.length)) := if_pos h

theorem put_length {buf s b : List Char} {pos : Nat} (h : put buf pos s = some b) : b.length = buf.length := by
  unfold put at h
  split at h
  · cases h
    simp only [List.length_append, List.length_take, List.length_drop]
    omega
  · cases h

theorem snprintf_holds {size : Nat} {w t : List Char} {buf : List Char} {len : Nat} {trunc : Bool} (ht : t ≠ [])
    (h : Holds size w (buf, len, trunc)) :
    ∃ b, snprintf buf len (size - len) t = some (b, t.length) ∧
      Holds size (w ++ t) (if len + t.length ≥ size then (b, size, true) else (b, len + t.length, trunc)) := by
  obtain ⟨hl, hc⟩ := h
  simp only at hl hc
  rcases hc with ⟨h1, rfl, rfl, h4⟩ | ⟨h1, rfl, rfl, h4⟩
  · have hav : size - w.length ≠ 0 := by omega
    have htake : buf.take w.length = w := by
      rcases h4 with rfl | h4
      · rfl
      · have := congrArg (List.take w.length) h4
        rw [List.take_take] at this
        simpa using this
    have hlen : w.length + (t.take (size - w.length - 1) ++ ['\x00']).length ≤ buf.length := by
      simp only [List.length_append, List.length_take, List.length_singleton]
      omega
    refine ⟨_, by rw [snprintf, if_neg hav, put_some hlen]; rfl, ?_⟩
    have hbl := put_length (put_some hlen)
    rw [htake]
    rw [htake] at hbl
    by_cases hge : w.length + t.length ≥ size
    · rw [if_pos hge]
      refine ⟨by rw [hbl, hl], .inr ⟨by simp; omega, rfl, rfl, ?_⟩⟩
      simp only
      have hlt : (t.take (size - w.length - 1)).length = size - w.length - 1 := by
        rw [List.length_take]; omega
      have e1 : w ++ (t.take (size - w.length - 1) ++ ['\x00']) ++
          buf.drop (w.length + (t.take (size - w.length - 1) ++ ['\x00']).length) =
          (w ++ t.take (size - w.length - 1)) ++ ('\x00' ::
          buf.drop (w.length + (t.take (size - w.length - 1) ++ ['\x00']).length)) := by simp
      rw [e1, List.take_append_of_le_length (by simp only [List.length_append, hlt]; omega),
        List.take_of_length_le (by simp only [List.length_append, hlt]; omega), List.take_append,
        List.take_of_length_le (l := w) (by omega)]
      congr 2
      omega
    · rw [if_neg hge]
      refine ⟨by rw [hbl, hl], .inl ⟨by simp; omega, by simp, rfl, .inr ?_⟩⟩
      simp only
      have hlt : t.take (size - w.length - 1) = t := List.take_of_length_le (by omega)
      rw [hlt]
      have e1 : w ++ (t ++ ['\x00']) ++ buf.drop (w.length + (t ++ ['\x00']).length) =
          (w ++ t ++ ['\x00']) ++ buf.drop (w.length + (t ++ ['\x00']).length) := by simp
      rw [e1, List.take_append_of_le_length (by simp; omega), List.take_of_length_le (by simp; omega)]
  · refine ⟨buf, by simp [snprintf], ?_⟩
    rw [if_pos (by omega)]
    refine ⟨hl, .inr ⟨by simp; omega, rfl, rfl, ?_⟩⟩
    simp only
    rw [h4, List.take_append_of_le_length (by omega)]

theorem loop_holds (mask : BitVec 32) (size : Nat) (ms : Map) : ∀ (w : List Char) (s : List Char × Nat × Bool),
    Holds size w s → ∃ s', loop mask size ms s = some s' ∧
      Holds size (w ++ (shown mask ms).flatMap (· ++ [' '])) s' := by
  induction ms with
  | nil => intro w s h; exact ⟨s, rfl, by simpa [shown] using h⟩
  | cons m ms ih =>
    intro w s h
    obtain ⟨bit, text⟩ := m
    obtain ⟨buf, len, trunc⟩ := s
    unfold loop
    by_cases hb : mask &&& bit ≠ 0
    · rw [if_pos hb]
      obtain ⟨b, hs, hh⟩ := snprintf_holds (t := text ++ [' ']) (by simp) h
      rw [hs]
      simp only
      obtain ⟨s', hs', hh'⟩ := ih _ _ hh
      refine ⟨s', ?_, ?_⟩
      · rw [← hs']
        split <;> rfl
      · have : shown mask ((bit, text) :: ms) = text :: shown mask ms := by
          unfold shown
          rw [List.filter_cons_of_pos (by simpa using hb)]
          rfl
        rw [this]
        simpa [List.append_assoc] using hh'
    · rw [if_neg hb]
      obtain ⟨s', hs', hh'⟩ := ih _ _ h
      refine ⟨s', hs', ?_⟩
      have : shown mask ((bit, text) :: ms) = shown mask ms := by
        unfold shown
        rw [List.filter_cons_of_neg (by simpa using hb)]
      rw [this]
      exact hh'

theorem cstr_append {w r : List Char} (hw : ∀ c ∈ w, c ≠ '\x00') : cstr (w ++ '\x00' :: r) = w := by
  induction w with
  | nil => simp [cstr]
  | cons c w ih =>
    have hc := hw c (by simp)
    have := ih (fun x hx => hw x (by simp [hx]))
    unfold cstr at this ⊢
    rw [List.cons_append, List.takeWhile_cons_of_pos (by simpa using hc), this]

/-- The end of the function: an ellipsis if the text did not fit. -/
theorem finish {size : Nat} {w : List Char} {s : List Char × Nat × Bool} (h4 : 4 ≤ size) (hw : w ≠ [])
    (hz : ∀ c ∈ w, c ≠ '\x00') (h : Holds size w s) :
    ∃ b, (if s.2.2 then (snprintf s.1 (size - 4) 4 "...".toList).map Prod.fst else some s.1) = some b ∧
      b.length = size ∧ cstr b = fitted size w := by
  obtain ⟨hl, hc⟩ := h
  rcases hc with ⟨h1, -, h3, h5⟩ | ⟨h1, -, h3, h5⟩
  · rw [h3]
    refine ⟨s.1, by simp, hl, ?_⟩
    rcases h5 with h5 | h5
    · exact absurd h5 hw
    · have e : s.1 = w ++ '\x00' :: s.1.drop (w.length + 1) := by
        conv_lhs => rw [← List.take_append_drop (w.length + 1) s.1, h5]
        simp
      rw [e, cstr_append hz, fitted, if_pos h1]
  · rw [h3]
    have hlen : size - 4 + (("...".toList).take 3 ++ ['\x00']).length ≤ s.1.length := by
      have : (("...".toList).take 3 ++ ['\x00']).length = 4 := by decide
      omega
    refine ⟨_, by
      rw [if_pos rfl, snprintf, if_neg (by decide), put_some (by exact hlen)]
      rfl, ?_, ?_⟩
    · have := put_length (put_some hlen)
      rw [hl] at this
      exact this
    · have e3 : ("...".toList).take (4 - 1) = "...".toList := by decide
      have etake : s.1.take (size - 4) = w.take (size - 4) := by
        have := congrArg (List.take (size - 4)) h5
        rw [List.take_take, List.take_take] at this
        have hm : min (size - 4) (size - 1) = size - 4 := by omega
        rwa [hm] at this
      rw [e3, etake]
      have e : w.take (size - 4) ++ ("...".toList ++ ['\x00']) ++
          s.1.drop (size - 4 + ("...".toList ++ ['\x00']).length) =
          (w.take (size - 4) ++ "...".toList) ++ '\x00' ::
          s.1.drop (size - 4 + ("...".toList ++ ['\x00']).length) := by simp
      rw [e, cstr_append, fitted, if_neg (by omega)]
      intro c hc
      rcases List.mem_append.1 hc with hc | hc
      · exact hz c (List.mem_of_mem_take hc)
      · have : ∀ c ∈ "...".toList, c ≠ '\x00' := by decide
        exact this c hc

/-! ## C299: texts fit into their buffers -/

/-- C299: the text of a mask never leaves its buffer, whatever its size from four up;
it names exactly the bits that are set if that fits, and otherwise ends in dots. -/
theorem C299_text_fits (mask : BitVec 32) (buf : List Char) (map : Map) (h4 : 4 ≤ buf.length)
    (hz : ∀ m ∈ map, ∀ c ∈ m.2, c ≠ '\x00') (hs : mask = 0 ∨ shown mask map ≠ []) :
    ∃ b, toText mask buf map = some b ∧ b.length = buf.length ∧
      cstr b = fitted buf.length (whole mask map) := by
  have hwz : ∀ c ∈ whole mask map, c ≠ '\x00' := by
    intro c hc
    unfold whole at hc
    split at hc
    · revert c; decide
    · simp only [shown, List.mem_flatMap, List.mem_map, List.mem_filter] at hc
      obtain ⟨t, ⟨m, ⟨hm, -⟩, rfl⟩, hc⟩ := hc
      rcases List.mem_append.1 hc with hc | hc
      · exact hz m hm c hc
      · simp only [List.mem_singleton] at hc
        subst hc
        decide
  have hstart : Holds buf.length [] (buf, 0, false) := ⟨rfl, .inl ⟨by simp; omega, rfl, rfl, .inl rfl⟩⟩
  by_cases h0 : mask = 0
  · obtain ⟨b, hb, hh⟩ := snprintf_holds (t := "none".toList) (by decide) hstart
    have hw : whole mask map = "none".toList := by simp [whole, h0]
    rw [hw] at hwz ⊢
    simp only [List.nil_append, Nat.zero_add, Nat.sub_zero] at hb hh
    obtain ⟨c, hc, hcl, hcc⟩ := finish h4 (by decide) hwz hh
    refine ⟨c, ?_, hcl, hcc⟩
    unfold toText
    rw [if_neg (by omega), if_pos h0]
    simp only [hb]
    by_cases hge : "none".toList.length ≥ buf.length
    · rw [if_pos hge] at hc ⊢
      exact hc
    · rw [if_neg hge] at hc ⊢
      exact hc
  · have hne := hs.resolve_left h0
    have hw : whole mask map = (shown mask map).flatMap (· ++ [' ']) := if_neg h0
    rw [hw] at hwz ⊢
    obtain ⟨s', hs', hh⟩ := loop_holds mask buf.length map [] _ hstart
    simp only [List.nil_append] at hh
    have hnn : (shown mask map).flatMap (· ++ [' ']) ≠ [] := by
      cases hsh : shown mask map with
      | nil => exact absurd hsh hne
      | cons t ts => simp
    obtain ⟨c, hc, hcl, hcc⟩ := finish h4 hnn hwz hh
    refine ⟨c, ?_, hcl, hcc⟩
    unfold toText
    rw [if_neg (by omega), if_neg h0]
    simp only [hs']
    exact hc

/-- A mask of which no bit is in the map leaves the buffer as it was. -/
theorem C299_unknown_bits (mask : BitVec 32) (buf : List Char) (map : Map) (h4 : 4 ≤ buf.length) (h0 : mask ≠ 0)
    (hs : shown mask map = []) : toText mask buf map = some buf := by
  have hl : ∀ ms s, shown mask ms = [] → loop mask buf.length ms s = some s := by
    intro ms
    induction ms with
    | nil => intro s _; rfl
    | cons m ms ih =>
      intro s h
      obtain ⟨bit, text⟩ := m
      obtain ⟨b, len, trunc⟩ := s
      unfold loop
      by_cases hb : mask &&& bit ≠ 0
      · unfold shown at h
        rw [List.filter_cons_of_pos (by simpa using hb)] at h
        cases h
      · rw [if_neg hb]
        apply ih
        unfold shown at h ⊢
        rwa [List.filter_cons_of_neg (by simpa using hb)] at h
  unfold toText
  rw [if_neg (by omega), if_neg h0]
  simp only [hl map _ hs]
  rfl

example : (toText 3 (List.replicate 16 'x') alarmTexts).map cstr = some "no-sync-pkts...".toList ∧
    (toText 3 (List.replicate 30 'x') alarmTexts).map cstr = some "no-sync-pkts no-follow-ups ".toList ∧
    (toText 0 (List.replicate 5 'x') alarmTexts).map cstr = some "none".toList := by decide +kernel

/-! ## C300: alarms can be read back from their text -/

theorem wordsFrom_append (s : List Char) : ∀ cur r, wordsFrom cur (s ++ ' ' :: r) = wordsFrom cur (s ++ [' ']) ++ wordsFrom [] r := by
  induction s with
  | nil =>
    intro cur r
    simp only [List.nil_append, wordsFrom, if_true]
    split <;> simp
  | cons c s ih =>
    intro cur r
    simp only [List.cons_append, wordsFrom]
    split
    · split
      · exact ih [] r
      · rw [ih [] r]; rfl
    · exact ih _ r

theorem words_flatMap (ts : List (List Char)) : words (ts.flatMap (· ++ [' '])) = ts.flatMap fun t => words (t ++ [' ']) := by
  induction ts with
  | nil => rfl
  | cons t ts ih =>
    simp only [List.flatMap_cons]
    rw [← ih]
    unfold words
    rw [List.append_assoc]
    exact wordsFrom_append t [] _

theorem and_bit (mask : BitVec 32) (b : Nat) (hb : b < 32) : mask &&& (1#32 <<< b) ≠ 0 ↔ mask.getLsbD b = true := by
  constructor
  · intro h
    by_contra hn
    apply h
    apply BitVec.eq_of_getLsbD_eq
    intro i hi
    simp only [BitVec.getLsbD_and, BitVec.getLsbD_shiftLeft, BitVec.getLsbD_one, BitVec.getLsbD_zero]
    by_cases hib : i = b
    · subst hib
      simp [Bool.eq_false_iff.2 hn]
    · have : ¬ (¬ i < b ∧ i - b = 0) := by omega
      by_cases h1 : i < b
      · simp [h1]
      · have h2 : i - b ≠ 0 := by omega
        simp [h2]
  · intro h he
    have : (mask &&& (1#32 <<< b)).getLsbD b = (0 : BitVec 32).getLsbD b := by rw [he]
    have hz : (0 : BitVec 32).getLsbD b = false := BitVec.getLsbD_zero
    rw [BitVec.getLsbD_and, h, BitVec.getLsbD_shiftLeft, hz] at this
    simp [hb] at this

/-- The words of the text of an alarm are its name. -/
theorem alarm_words (mask : BitVec 32) :
    (shown mask alarmTexts).flatMap (fun t => words (t ++ [' '])) = namesSet mask alarmNames := by
  have gen : ∀ (ms : Map) (ns : List (Nat × List Char)),
      List.Forall₂ (fun (m : BitVec 32 × List Char) (n : Nat × List Char) => m.1 = 1#32 <<< n.1 ∧ n.1 < 32 ∧
        words (m.2 ++ [' ']) = [n.2]) ms ns →
      (shown mask ms).flatMap (fun t => words (t ++ [' '])) = namesSet mask ns := by
    intro ms ns h
    induction h with
    | nil => rfl
    | @cons m n ms ns h _ ih =>
      obtain ⟨h1, h2, h3⟩ := h
      unfold shown namesSet at ih ⊢
      by_cases hb : mask.getLsbD n.1 = true
      · rw [List.filter_cons_of_pos (by rw [h1]; simpa using (and_bit mask n.1 h2).2 hb),
          List.filter_cons_of_pos (p := fun m : Nat × List Char => mask.getLsbD m.1) hb]
        simp only [List.map_cons, List.flatMap_cons, h3, ih]
        rfl
      · rw [List.filter_cons_of_neg (by rw [h1]; simpa using fun h => hb ((and_bit mask n.1 h2).1 h)),
          List.filter_cons_of_neg (p := fun m : Nat × List Char => mask.getLsbD m.1) hb]
        exact ih
  apply gen
  unfold alarmTexts alarmNames
  repeat' first
    | exact List.Forall₂.nil
    | refine List.Forall₂.cons (by decide) ?_

theorem shown_mono {mask mask' : BitVec 32} (h : mask &&& mask' = mask) (map : Map) :
    ((shown mask map).flatMap (· ++ [' '])).length ≤ ((shown mask' map).flatMap (· ++ [' '])).length := by
  induction map with
  | nil => simp [shown]
  | cons m ms ih =>
    have key : mask &&& m.1 ≠ 0 → mask' &&& m.1 ≠ 0 := by
      intro hm he
      apply hm
      rw [← h, BitVec.and_assoc, he]
      simp
    unfold shown at ih ⊢
    by_cases hb : mask &&& m.1 ≠ 0
    · rw [List.filter_cons_of_pos (by simpa using hb), List.filter_cons_of_pos (by simpa using key hb)]
      simp only [List.map_cons, List.flatMap_cons, List.length_append]
      omega
    · rw [List.filter_cons_of_neg (by simpa using hb)]
      by_cases hb' : mask' &&& m.1 ≠ 0
      · rw [List.filter_cons_of_pos (by simpa using hb')]
        simp only [List.map_cons, List.flatMap_cons, List.length_append]
        omega
      · rw [List.filter_cons_of_neg (by simpa using hb')]
        exact ih

theorem shown_ne {mask : BitVec 32} (h0 : mask ≠ 0) (hm : mask &&& 0x1ffff = mask) : shown mask alarmTexts ≠ [] := by
  intro he
  have hw := alarm_words mask
  rw [he] at hw
  have hnone : ∀ n ∈ alarmNames, mask.getLsbD n.1 = false := by
    intro n hn
    by_contra hb
    have : n.2 ∈ namesSet mask alarmNames :=
      List.mem_map_of_mem (List.mem_filter.2 ⟨hn, by simpa using hb⟩)
    rw [← hw] at this
    cases this
  apply h0
  rw [← hm]
  apply BitVec.eq_of_getLsbD_eq
  intro i hi
  rw [BitVec.getLsbD_and]
  by_cases h17 : i < 17
  · have hall : ∀ i : Fin 17, ∃ n ∈ alarmNames, n.1 = i.val := by decide
    obtain ⟨n, hn, hni⟩ := hall ⟨i, h17⟩
    have hf := hnone n hn
    rw [hni] at hf
    simp only at hf
    rw [hf]
    simp
  · have hall : ∀ i : Fin 32, ¬ i.val < 17 → (0x1ffff#32).getLsbD i.val = false := by decide
    have hf : (0x1ffff#32).getLsbD i = false := hall ⟨i, hi⟩ h17
    have : (0x1ffff : BitVec 32).getLsbD i = false := hf
    rw [this]
    simp

/-- C300: the words of the text of any set of alarms are their names, in a buffer of the
size the engine uses; and of alarms other than those of pulses per second also in the
buffers of 256 characters that sync modules use. -/
theorem C300_read_back (mask : BitVec 32) (buf : List Char) (h0 : mask ≠ 0) (hm : mask &&& 0x1ffff = mask)
    (hs : 300 ≤ buf.length ∨ (256 ≤ buf.length ∧ mask &&& 0x1f87f = mask)) :
    ∃ b, toText mask buf alarmTexts = some b ∧ words (cstr b) = namesSet mask alarmNames := by
  have hz : ∀ m ∈ alarmTexts, ∀ c ∈ m.2, c ≠ '\x00' := by decide
  obtain ⟨b, hb, -, hc⟩ := C299_text_fits mask buf alarmTexts (by omega) hz (.inr (shown_ne h0 hm))
  refine ⟨b, hb, ?_⟩
  have hw : whole mask alarmTexts = (shown mask alarmTexts).flatMap (· ++ [' ']) := if_neg h0
  have hlen : (whole mask alarmTexts).length < buf.length := by
    rw [hw]
    rcases hs with hs | ⟨hs, hp⟩
    · have := shown_mono hm alarmTexts
      have e : ((shown 0x1ffff alarmTexts).flatMap (· ++ [' '])).length = 284 := by decide +kernel
      omega
    · have := shown_mono hp alarmTexts
      have e : ((shown 0x1f87f alarmTexts).flatMap (· ++ [' '])).length = 222 := by decide +kernel
      omega
  rw [hc, fitted, if_pos hlen, hw, words_flatMap, alarm_words]

/-- So an alarm is named exactly if it is set. -/
theorem C300_named_iff (mask : BitVec 32) (buf : List Char) (h0 : mask ≠ 0) (hm : mask &&& 0x1ffff = mask)
    (hs : 300 ≤ buf.length) (bit : Nat) (name : List Char) (hn : (bit, name) ∈ alarmNames) :
    ∃ b, toText mask buf alarmTexts = some b ∧ (name ∈ words (cstr b) ↔ mask.getLsbD bit = true) := by
  obtain ⟨b, hb, hw⟩ := C300_read_back mask buf h0 hm (.inl hs)
  refine ⟨b, hb, ?_⟩
  rw [hw]
  have huniq : ∀ x ∈ alarmNames, ∀ y ∈ alarmNames, x.2 = y.2 → x.1 = y.1 := by decide
  constructor
  · intro h
    simp only [namesSet, List.mem_map, List.mem_filter] at h
    obtain ⟨m, ⟨hmem, hbit⟩, hname⟩ := h
    have := huniq m hmem (bit, name) hn hname
    simp only at this
    rw [← this]
    exact hbit
  · intro h
    exact List.mem_map.2 ⟨(bit, name), List.mem_filter.2 ⟨hn, h⟩, rfl⟩

example : (0x14001#32 : BitVec 32) ≠ 0 ∧ (0x14001#32 : BitVec 32) &&& 0x1ffff = 0x14001#32 ∧
    (toText 0x14001#32 (List.replicate 300 'x') alarmTexts).map (fun b => words (cstr b)) =
      some ["no-sync-pkts".toList, "caps-mismatch".toList, "sustained-sync-failure".toList] := by decide +kernel

/-! ## C301: alarms in JSON -/

theorem stream_go (sep : List Char) (mask : BitVec 32) (map : Map) : ∀ (out : List Char) (len : Nat) (s : List Char),
    (s = sep ∨ (out = [] ∧ s = [])) →
    let r := map.foldl (fun (s : List Char × Nat × List Char) m =>
      if mask &&& m.1 ≠ 0 then
        let t := s.2.2 ++ '"' :: (m.2 ++ ['"'])
        (s.1 ++ t, s.2.1 + t.length, sep)
      else s) (out, len, s)
    r.1 = out ++ (if (shown mask map) = [] then [] else s) ++ separated sep ((shown mask map).map quoted) ∧
    r.2.1 + out.length = len + r.1.length := by
  induction map with
  | nil => intro out len s _; simp [shown, separated]
  | cons m ms ih =>
    intro out len s hs
    simp only [List.foldl_cons]
    by_cases hb : mask &&& m.1 ≠ 0
    · rw [if_pos hb]
      obtain ⟨h1, h2⟩ := ih (out ++ (s ++ '"' :: (m.2 ++ ['"']))) (len + (s ++ '"' :: (m.2 ++ ['"'])).length) sep (.inl rfl)
      have hsh : shown mask (m :: ms) = m.2 :: shown mask ms := by
        unfold shown
        rw [List.filter_cons_of_pos (by simpa using hb)]
        rfl
      refine ⟨?_, ?_⟩
      · rw [h1, hsh]
        simp only [reduceCtorEq, if_false, List.map_cons]
        cases hms : shown mask ms with
        | nil => simp [separated, quoted]
        | cons t ts => simp [separated, quoted]
      · simp only [List.length_append] at h2 ⊢
        omega
    · rw [if_neg hb]
      have hsh : shown mask (m :: ms) = shown mask ms := by
        unfold shown
        rw [List.filter_cons_of_neg (by simpa using hb)]
      rw [hsh]
      exact ih out len s hs

/-- C301: the alarms in JSON are the names of those that are set, quoted and separated,
and the length returned is that of what is written. -/
def C301_statement : Prop := ∀ (mask : BitVec 32) (sep : List Char),
  (stream mask sep alarmTexts).1 = separated sep ((namesSet mask alarmNames).map quoted) ∧
  (stream mask sep alarmTexts).2 = (stream mask sep alarmTexts).1.length

/-- One of the names has a blank at its end. -/
theorem C301_violated : ¬ C301_statement := by
  intro h
  have := (h 0x4000#32 [',']).1
  revert this
  decide +kernel

/-- C301, for alarms other than the mismatch of capabilities. Missing: that one, whose
name is written with a blank at its end. -/
theorem C301_json_partial (mask : BitVec 32) (sep : List Char) (hc : mask.getLsbD 14 = false) :
    (stream mask sep alarmTexts).1 = separated sep ((namesSet mask alarmNames).map quoted) ∧
    (stream mask sep alarmTexts).2 = (stream mask sep alarmTexts).1.length := by
  obtain ⟨h1, h2⟩ := stream_go sep mask alarmTexts [] 0 [] (.inr ⟨rfl, rfl⟩)
  have hsh : shown mask alarmTexts = namesSet mask alarmNames := by
    have gen : ∀ (ms : Map) (ns : List (Nat × List Char)),
        List.Forall₂ (fun (m : BitVec 32 × List Char) (n : Nat × List Char) => m.1 = 1#32 <<< n.1 ∧ n.1 < 32 ∧
          (n.1 = 14 ∨ m.2 = n.2)) ms ns → shown mask ms = namesSet mask ns := by
      intro ms ns h
      induction h with
      | nil => rfl
      | @cons m n ms ns h _ ih =>
        obtain ⟨h1, h2, h3⟩ := h
        unfold shown namesSet at ih ⊢
        by_cases hb : mask.getLsbD n.1 = true
        · rw [List.filter_cons_of_pos (by rw [h1]; simpa using (and_bit mask n.1 h2).2 hb),
            List.filter_cons_of_pos (p := fun m : Nat × List Char => mask.getLsbD m.1) hb]
          have h14 : n.1 ≠ 14 := by intro h; rw [h, hc] at hb; cases hb
          simp only [List.map_cons, ih, h3.resolve_left h14]
        · rw [List.filter_cons_of_neg (by rw [h1]; simpa using fun h => hb ((and_bit mask n.1 h2).1 h)),
            List.filter_cons_of_neg (p := fun m : Nat × List Char => mask.getLsbD m.1) hb]
          exact ih
    apply gen
    unfold alarmTexts alarmNames
    repeat' first
      | exact List.Forall₂.nil
      | refine List.Forall₂.cons (by decide) ?_
  constructor
  · show (_ : List Char) = _
    unfold stream
    simp only
    rw [h1, hsh]
    simp
  · unfold stream
    simp only
    simpa using h2

example : (0x3#32).getLsbD 14 = false ∧
    stream 0x3#32 [','] alarmTexts = ("\"no-sync-pkts\",\"no-follow-ups\"".toList, 30) := by decide +kernel

/-! ## C302: changes of the grandmaster are passed on -/

/-- C302: whatever changes in what the selected instance says about its grandmaster is
passed on to the other instances. -/
def C302_statement : Prop := ∀ old new : Gm, old ≠ new → passedOn true old new = true

/-- A grandmaster. -/
def someGm : Gm :=
  { clockId := 7, remote := true, clkClass := 0, source := 0x20, accuracy := .val ((100 : ℚ) : WithTop ℚ),
    variance := .nan, steps := 1, timeTrace := true, freqTrace := true }

/-- That time is no longer traceable is not passed on. -/
theorem C302_violated : ¬ C302_statement := by
  intro h
  have := h someGm { someGm with timeTrace := false } (by decide +kernel)
  revert this
  decide +kernel

/-- C302, without traceability and being remote: a change of the identity, class, source,
accuracy, variance or steps is passed on; and if the accuracy is a number, nothing is
passed on when none of these changed. Missing: traceability. -/
theorem C302_changes_partial (old new : Gm) :
    (old.clockId ≠ new.clockId ∨ old.clkClass ≠ new.clkClass ∨ old.source ≠ new.source ∨
      old.accuracy ≠ new.accuracy ∨ old.variance ≠ new.variance ∨ old.steps ≠ new.steps →
      passedOn true old new = true) ∧
    (old.accuracy ≠ .nan → old.clockId = new.clockId → old.clkClass = new.clkClass → old.source = new.source →
      old.accuracy = new.accuracy → old.variance = new.variance → old.steps = new.steps →
      passedOn true old new = false) ∧
    passedOn false old new = false := by
  have hfl : ∀ a b : Fl, a.eq b = true → a = b := by
    intro a b h
    cases a <;> cases b <;> simp [Fl.eq] at h ⊢
    exact h
  refine ⟨fun h => ?_, fun hn h1 h2 h3 h4 h5 h6 => ?_, rfl⟩
  · unfold passedOn gmEqual
    rw [Bool.true_and, Bool.not_eq_true', Bool.eq_false_iff]
    intro he
    simp only [Bool.and_eq_true, beq_iff_eq, Bool.or_eq_true] at he
    obtain ⟨⟨⟨⟨⟨e1, e2⟩, e3⟩, e4⟩, e5⟩, e6⟩ := he
    have hv : old.variance = new.variance := by
      rcases e5 with e5 | ⟨e5, e5'⟩
      · exact hfl _ _ e5
      · cases ha : old.variance <;> cases hb : new.variance <;> simp [ha, hb, Fl.isNan] at e5 e5' ⊢
    rcases h with h | h | h | h | h | h
    · exact h e1
    · exact h e2
    · exact h e3
    · exact h (hfl _ _ e4)
    · exact h hv
    · exact h e6
  · unfold passedOn gmEqual
    rw [h1, h2, h3, h4, h5, h6]
    rw [h4] at hn
    have ha : new.accuracy.eq new.accuracy = true := by
      cases hx : new.accuracy with
      | nan => exact absurd hx hn
      | val x => simp [Fl.eq]
    have hv : (new.variance.eq new.variance || (new.variance.isNan && new.variance.isNan)) = true := by
      cases new.variance <;> simp [Fl.eq, Fl.isNan]
    rw [ha, hv]
    simp

example : passedOn true someGm { someGm with steps := 2 } = true ∧ passedOn true someGm someGm = false := by
  decide +kernel

end Verif.SyncText
