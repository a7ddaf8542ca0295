import Verif.Phc.Props
import Mathlib.Data.List.Infix

set_option linter.unusedSimpArgs false
set_option linter.unusedVariables false
set_option linter.dupNamespace false

/-!
# Lemmas about the choice of the method and the executions
-/

namespace Verif.Phc

open Verif.Time (Ts val)

/-! ## Words -/

theorem isSpace_iff (c : Char) : isSpace c = true ↔ blank c := by
  unfold isSpace blank
  simp only [Bool.or_eq_true, decide_eq_true_eq, List.mem_cons, List.not_mem_nil, or_false]
  tauto

theorem dropWhile_blank (lead rest : List Char) (h : ∀ c ∈ lead, blank c) (hr : ∀ c ∈ rest.head?, ¬ blank c) :
    (lead ++ rest).dropWhile isSpace = rest := by
  induction lead with
  | nil =>
    cases rest with
    | nil => rfl
    | cons c cs =>
      have : isSpace c = false := by
        have := hr c rfl
        rw [← isSpace_iff] at this
        simpa using this
      simp [List.dropWhile, this]
  | cons c cs ih =>
    have : isSpace c = true := (isSpace_iff c).mpr (h c (by simp))
    simp only [List.cons_append, List.dropWhile, this]
    exact ih (fun d hd => h d (by simp [hd]))

theorem takeWhile_word (word rest : List Char) (h : ∀ c ∈ word, ¬ blank c) (hr : ∀ c ∈ rest.head?, blank c) :
    (word ++ rest).takeWhile (fun c => !isSpace c) = word := by
  induction word with
  | nil =>
    cases rest with
    | nil => rfl
    | cons c cs =>
      have : isSpace c = true := (isSpace_iff c).mpr (hr c rfl)
      simp [List.takeWhile, this]
  | cons c cs ih =>
    have : isSpace c = false := by
      have := h c (by simp)
      rw [← isSpace_iff] at this
      simpa using this
    simp only [List.cons_append, List.takeWhile, this, Bool.not_false, List.cons.injEq, true_and]
    exact ih (fun d hd => h d (by simp [hd]))

theorem dropWhile_head (l : List Char) : ∀ c ∈ (l.dropWhile isSpace).head?, ¬ blank c := by
  intro c hc
  induction l with
  | nil => simp at hc
  | cons a t ih =>
    by_cases ha : isSpace a = true
    · simp only [List.dropWhile, ha] at hc; exact ih hc
    · simp only [List.dropWhile, ha, Bool.not_eq_true] at hc
      simp only [List.head?_cons, Option.mem_def, Option.some.injEq] at hc
      rw [← hc, ← isSpace_iff]; exact ha

theorem mem_takeWhile {q : Char → Bool} {l : List Char} {c : Char} (h : c ∈ l.takeWhile q) : q c = true := by
  induction l with
  | nil => simp at h
  | cons a t ih =>
    by_cases ha : q a = true
    · simp only [List.takeWhile, ha, List.mem_cons] at h
      rcases h with rfl | h
      · exact ha
      · exact ih h
    · simp [List.takeWhile, ha] at h

/-- The word the scan looks at. -/
def wordOf (text : List Char) : List Char := (text.dropWhile isSpace).takeWhile (fun c => !isSpace c)

theorem wordOf_iff (text word : List Char) (hne : word ≠ []) : wordOf text = word ↔ FirstWord text word := by
  constructor
  · intro h
    refine ⟨text.takeWhile isSpace, (text.dropWhile isSpace).dropWhile (fun c => !isSpace c), ?_, ?_, ?_, hne, ?_⟩
    · rw [← h, wordOf, List.append_assoc, List.takeWhile_append_dropWhile, List.takeWhile_append_dropWhile]
    · intro c hc
      rw [← isSpace_iff]
      exact mem_takeWhile hc
    · intro c hc
      rw [← h, wordOf] at hc
      have := mem_takeWhile hc
      rw [← isSpace_iff]
      simpa using this
    · intro c hc
      rw [← isSpace_iff]
      have : ∀ (l : List Char), ∀ c ∈ (l.dropWhile (fun c => !isSpace c)).head?, isSpace c = true := by
        intro l
        induction l with
        | nil => intro c hc; simp at hc
        | cons a t ih =>
          intro c hc
          by_cases ha : isSpace a = true
          · simp only [List.dropWhile, ha, Bool.not_true] at hc
            simp only [List.head?_cons, Option.mem_def, Option.some.injEq] at hc
            rw [← hc]; exact ha
          · simp only [List.dropWhile, ha, Bool.not_false, Bool.not_eq_true] at hc
            exact ih c (by simpa [ha] using hc)
      exact this _ c hc
  · rintro ⟨lead, rest, rfl, h1, h2, h3, h4⟩
    unfold wordOf
    rw [List.append_assoc, dropWhile_blank lead (word ++ rest) h1, takeWhile_word word rest h2 h4]
    intro c hc
    cases word with
    | nil => exact absurd rfl h3
    | cons a t =>
      simp only [List.cons_append, List.head?_cons, Option.mem_def, Option.some.injEq] at hc
      rw [← hc]
      exact h2 a (by simp)

theorem scanName_eq (text : List Char) :
    scanName text =
      if wordOf text = [] then .ok none
      else if 16 ≤ (wordOf text).length then .error .overflow
      else .ok (some (wordOf text)) := by
  unfold scanName
  simp only
  rw [show (text.dropWhile isSpace).takeWhile (fun c => !isSpace c) = wordOf text from rfl]
  by_cases h : wordOf text = []
  · simp [h]
  · have h' : (wordOf text).take 16 ≠ [] := by simp [h]
    rw [if_neg h', if_neg h]
    by_cases hl : 16 ≤ (wordOf text).length
    · rw [if_pos (by simp; omega), if_pos hl]
    · rw [if_neg (by simp; omega), if_neg hl, List.take_of_length_le (by omega)]

/-- With short names the scan gives the first word, if there is one. -/
theorem scanName_short (text : List Char) (h : ∀ word, FirstWord text word → word.length < 16) :
    (∃ word, scanName text = .ok (some word) ∧ FirstWord text word) ∨
    (scanName text = .ok none ∧ ∀ word, ¬ FirstWord text word) := by
  rw [scanName_eq]
  by_cases he : wordOf text = []
  · right
    rw [if_pos he]
    refine ⟨rfl, ?_⟩
    intro word hw
    have h2 := (wordOf_iff text word hw.choose_spec.choose_spec.2.2.2.1).mpr hw
    exact hw.choose_spec.choose_spec.2.2.2.1 (h2 ▸ he)
  · left
    have hw := (wordOf_iff text (wordOf text) he).mp rfl
    have hlen := h _ hw
    rw [if_neg he, if_neg (by omega)]
    exact ⟨_, rfl, hw⟩

theorem firstWord_unique {text a b : List Char} (ha : FirstWord text a) (hb : FirstWord text b) : a = b := by
  rw [← (wordOf_iff text a ha.choose_spec.choose_spec.2.2.2.1).mpr ha,
    (wordOf_iff text b hb.choose_spec.choose_spec.2.2.2.1).mpr hb]

/-! ## The search for the PPS device -/

theorem findPps_spec (name : List Char) (l : List (List Char × Option (List Char)))
    (hs : ∀ e text word, (e, some text) ∈ l → FirstWord text word → word.length < 16) :
    (∃ pre entry text post, findPps name l = .ok (some entry) ∧ l = pre ++ (entry, some text) :: post ∧
      FirstWord text name ∧ ∀ e x, (e, some x) ∈ pre → ¬ FirstWord x name) ∨
    (findPps name l = .ok none ∧ ∀ e x, (e, some x) ∈ l → ¬ FirstWord x name) := by
  induction l with
  | nil => right; exact ⟨rfl, by simp⟩
  | cons a rest ih =>
    obtain ⟨e, t⟩ := a
    have ih := ih (fun e t w hm => hs e t w (by simp [hm]))
    cases t with
    | none =>
      simp only [findPps]
      rcases ih with ⟨pre, entry, text, post, h1, h2, h3, h4⟩ | ⟨h1, h2⟩
      · left
        refine ⟨(e, none) :: pre, entry, text, post, h1, by rw [h2]; rfl, h3, ?_⟩
        intro e' x hm
        rcases List.mem_cons.mp hm with hm | hm
        · cases hm
        · exact h4 e' x hm
      · right
        refine ⟨h1, ?_⟩
        intro e' x hm
        rcases List.mem_cons.mp hm with hm | hm
        · cases hm
        · exact h2 e' x hm
    | some text =>
      simp only [findPps]
      have hshort := scanName_short text (fun w hw => hs e text w (by simp) hw)
      have key : (¬ FirstWord text name) → (findPps name rest = findPps name rest) →
          (∃ pre entry text' post, findPps name rest = .ok (some entry) ∧
            (e, some text) :: rest = pre ++ (entry, some text') :: post ∧
            FirstWord text' name ∧ ∀ e x, (e, some x) ∈ pre → ¬ FirstWord x name) ∨
          (findPps name rest = .ok none ∧ ∀ e' x, (e', some x) ∈ (e, some text) :: rest → ¬ FirstWord x name) := by
        intro hn _
        rcases ih with ⟨pre, entry, text', post, h1, h2, h3, h4⟩ | ⟨h1, h2⟩
        · left
          refine ⟨(e, some text) :: pre, entry, text', post, h1, by rw [h2]; rfl, h3, ?_⟩
          intro e' x hm
          rcases List.mem_cons.mp hm with hm | hm
          · simp only [Prod.mk.injEq, Option.some.injEq] at hm
            rw [hm.2]; exact hn
          · exact h4 e' x hm
        · right
          refine ⟨h1, ?_⟩
          intro e' x hm
          rcases List.mem_cons.mp hm with hm | hm
          · simp only [Prod.mk.injEq, Option.some.injEq] at hm
            rw [hm.2]; exact hn
          · exact h2 e' x hm
      rcases hshort with ⟨word, hw, hf⟩ | ⟨hw, hf⟩
      · rw [hw]
        simp only
        by_cases hwn : word = name
        · rw [if_pos hwn]
          subst hwn
          exact Or.inl ⟨[], e, text, rest, rfl, rfl, hf, by simp⟩
        · rw [if_neg hwn]
          exact key (fun hc => hwn (firstWord_unique hf hc)) rfl
      · rw [hw]
        exact key (hf name) rfl

/-- Long names are the only fault of the search. -/
theorem findPps_fault (name : List Char) (l : List (List Char × Option (List Char))) (f : Fault)
    (h : findPps name l = .error f) : f = .overflow := by
  induction l with
  | nil => cases h
  | cons a rest ih =>
    obtain ⟨e, t⟩ := a
    cases t with
    | none => exact ih h
    | some text =>
      simp only [findPps] at h
      rw [scanName_eq] at h
      split at h
      · rename_i f' hf
        simp only [Except.error.injEq] at h
        split at hf
        · cases hf
        · split at hf
          · simp only [Except.error.injEq] at hf; rw [← h, ← hf]
          · cases hf
      · exact ih h
      · split at h
        · cases h
        · exact ih h

/-! ## Parts of the device -/

/-- The device without what comparisons change. -/
def Phc.strip (p : Phc) : Phc :=
  { p with method := .max, index := 0, ppsFd := none, ppsPrev := (0, 0), prevMono := ⟨0, 0, 0⟩,
           diffPrev := ⟨0, 0, 0⟩, stepped := false, synth := .bad }

theorem strip_caps {p q : Phc} (h : Phc.strip p = Phc.strip q) : p.caps = q.caps := by
  have := congrArg Phc.caps h; exact this

theorem strip_efx {p q : Phc} (h : Phc.strip p = Phc.strip q) : p.efx = q.efx := by
  have := congrArg Phc.efx h; exact this

theorem strip_idx {p q : Phc} (h : Phc.strip p = Phc.strip q) : p.idx = q.idx := by
  have := congrArg Phc.idx h; exact this

theorem accepts_strip {env : Env} {p q : Phc} (h : Phc.strip p = Phc.strip q) (t : Nat) (m : Method) :
    Accepts env p t m ↔ Accepts env q t m := by
  unfold Accepts
  cases m <;> simp only [strip_caps h, strip_efx h, strip_idx h]

theorem tried_strip {env : Env} {p q : Phc} (h : Phc.strip p = Phc.strip q) {t t' : Nat} {l : List Method}
    (ht : Tried env p t l t') : Tried env q t l t' := by
  induction ht with
  | nil => exact .nil
  | cons h1 h2 _ ih => exact .cons (fun hc => h1 ((accepts_strip h _ _).mpr hc)) h2 ih

/-! ## Configuring the PPS device -/

theorem phcName_short (idx : Nat) (h : idx < 1000000000000) : phcName idx = clockName idx := by
  unfold phcName clockName
  apply List.take_of_length_le
  have : (Nat.toDigits 10 idx).length ≤ 12 := by
    rw [Nat.length_toDigits_le_iff] <;> omega
  simp only [List.length_append, List.length_cons, List.length_nil]
  omega

/-- Every descriptor opened has been closed or is held by the device, and
pulses are enabled exactly while the device holds a PPS device. -/
structure Bal (w : World) : Prop where
  fds : ∀ fd, times w.log (.opened fd) = times w.log (.closed fd) + (if w.phc.fd = fd then 1 else 0) +
    (if w.phc.devFd = some fd then 1 else 0) + (if w.phc.ppsFd = some fd then 1 else 0)
  on : ∀ fd, times w.log (.ppsOn fd) = if w.phc.fd = fd ∧ w.phc.ppsFd ≠ none then 1 else 0
  off : ∀ fd, times w.log (.ppsOff fd) = 0

/-- What configuring the PPS device does. -/
structure Config (env : Env) (w w' : World) (rc : Nat) : Prop where
  tick : w.tick ≤ w'.tick
  strip : Phc.strip w'.phc = Phc.strip w.phc
  methods : w'.methods = w.methods
  ppsMethods : w'.ppsMethods = w.ppsMethods
  diffPrev : w'.phc.diffPrev = w.phc.diffPrev
  stepped : w'.phc.stepped = w.phc.stepped
  usable : rc = 0 ↔ PpsUsable env (clockName w.phc.idx) w.tick
  good : rc = 0 → w'.phc.synth = .init ∧ w'.phc.ppsPrev = (0, 0) ∧ w'.phc.prevMono = ⟨0, 0, 0⟩ ∧ w'.phc.ppsFd ≠ none
  bad : rc ≠ 0 → w'.phc.synth = .bad ∧ (w.phc.ppsFd = none → w'.phc.ppsFd = none)
  bal : w.phc.ppsFd = none → Bal w → Bal w'

theorem configurePps_spec (env : Env) (w : World) (he : Errnos env) (hs : ShortNames env) (hl : Listed env)
    (hi : w.phc.idx < 2147483648) : ∃ w' rc, configurePps env w = .ok (w', rc) ∧ Config env w w' rc := by
  unfold configurePps
  have hname := phcName_short w.phc.idx (by omega)
  split
  · rename_i e hlist
    refine ⟨_, _, rfl, ?_⟩
    have h0 : e ≠ 0 := by
      intro hc; rw [hc] at hlist; exact hl _ hlist
    refine ⟨by simp [ppsFailed, World.set, World.next], rfl, rfl, rfl, rfl, rfl, ?_, fun h => absurd h h0, fun _ => ⟨rfl, id⟩, ?_⟩
    · constructor
      · intro h; exact absurd h h0
      · rintro ⟨pre, entry, text, post, fd, h1, _⟩
        rw [h1] at hlist; cases hlist
    · intro _ hb
      exact ⟨hb.fds, hb.on, hb.off⟩
  · rename_i l hlist
    rw [hname]
    rcases findPps_spec (clockName w.phc.idx) l (fun e text word hm hf => hs _ l hlist e text word hm hf) with
      ⟨pre, entry, text, post, h1, h2, h3, h4⟩ | ⟨h1, h2⟩
    · rw [h1]
      simp only
      have hsame : ∀ pre' entry' text' post', l = pre' ++ (entry', some text') :: post' →
          FirstWord text' (clockName w.phc.idx) → (∀ e x, (e, some x) ∈ pre' → ¬ FirstWord x (clockName w.phc.idx)) →
          entry' = entry := by
        intro pre' entry' text' post' g1 g2 g3
        rw [h2] at g1
        rcases List.append_eq_append_iff.mp g1 with ⟨as, a1, a2⟩ | ⟨as, a1, a2⟩
        · cases as with
          | nil => simp only [List.nil_append, List.cons.injEq, Prod.mk.injEq] at a2; exact a2.1.1.symm
          | cons b bs =>
            simp only [List.cons_append, List.cons.injEq] at a2
            exact absurd h3 (g3 entry text (by rw [a1, ← a2.1]; simp))
        · cases as with
          | nil => simp only [List.nil_append, List.cons.injEq, Prod.mk.injEq] at a2; exact a2.1.1
          | cons b bs =>
            simp only [List.cons_append, List.cons.injEq] at a2
            exact absurd g2 (h4 entry' text' (by rw [a1, ← a2.1]; simp))
      split
      · rename_i e ho
        have h0 : e ≠ 0 := he.openDev _ _ _ ho
        refine ⟨_, _, rfl, ?_⟩
        refine ⟨by simp [ppsFailed, World.set, World.next]; omega, rfl, rfl, rfl, rfl, rfl, ?_, fun h => absurd h h0,
          fun _ => ⟨rfl, fun _ => rfl⟩, ?_⟩
        · constructor
          · intro h; exact absurd h h0
          · rintro ⟨pre', entry', text', post', fd, g1, g2, g3, g4, g5⟩
            rw [hlist] at g1
            have := hsame pre' entry' text' post' (Listing.entries.inj g1) g2 g3
            rw [this, ho] at g4; cases g4
        · intro hn hb
          refine ⟨?_, ?_, hb.off⟩
          · intro fd
            have := hb.fds fd
            rw [hn] at this
            exact this
          · intro fd
            have := hb.on fd
            rw [hn] at this
            exact this
      · rename_i fd ho
        split
        · rename_i e hen
          have h0 : e ≠ 0 := he.enable _ _ hen
          refine ⟨_, _, rfl, ?_⟩
          refine ⟨by simp [ppsFailed, World.set, World.next, World.note]; omega, rfl, rfl, rfl, rfl, rfl, ?_,
            fun h => absurd h h0, fun _ => ⟨rfl, fun _ => rfl⟩, ?_⟩
          · constructor
            · intro h; exact absurd h h0
            · rintro ⟨pre', entry', text', post', fd', g1, g2, g3, g4, g5⟩
              rw [hen] at g5; cases g5
          · intro hn hb
            refine ⟨?_, ?_, ?_⟩
            · intro fd'
              have := hb.fds fd'
              rw [hn] at this
              simp only [times, ppsFailed, World.set, World.next, World.note, List.append_assoc, List.count_append,
                List.count_cons, List.count_nil, beq_iff_eq, Ev.opened.injEq, Ev.closed.injEq, reduceCtorEq, if_false,
                List.cons_append, List.nil_append] at this ⊢
              split <;> omega
            · intro fd'
              have := hb.on fd'
              rw [hn] at this
              simp only [times, ppsFailed, World.set, World.next, World.note, List.append_assoc, List.count_append,
                List.count_cons, List.count_nil, beq_iff_eq, reduceCtorEq, if_false] at this ⊢
              exact this
            · intro fd'
              have := hb.off fd'
              simp only [times, ppsFailed, World.set, World.next, World.note, List.append_assoc, List.count_append,
                List.count_cons, List.count_nil, beq_iff_eq, reduceCtorEq, if_false] at this ⊢
              omega
        · rename_i hen
          refine ⟨_, _, rfl, ?_⟩
          refine ⟨by simp [ppsReady, World.set, World.next, World.note]; omega, rfl, rfl, rfl, rfl, rfl, ?_,
            fun _ => ⟨rfl, rfl, rfl, by simp [ppsReady, World.set]⟩, fun h => absurd rfl h, ?_⟩
          · constructor
            · intro _
              exact ⟨pre, entry, text, post, fd, by rw [hlist, h2], h3, h4, ho, hen⟩
            · intro _; rfl
          · intro hn hb
            refine ⟨?_, ?_, ?_⟩
            · intro fd'
              have := hb.fds fd'
              rw [hn] at this
              simp only [times, ppsReady, World.set, World.next, World.note, List.append_assoc, List.count_append,
                List.count_cons, List.count_nil, beq_iff_eq, Ev.opened.injEq, Ev.closed.injEq, reduceCtorEq, if_false,
                List.cons_append, List.nil_append, Option.some.injEq] at this ⊢
              omega
            · intro fd'
              have := hb.on fd'
              rw [hn] at this
              simp only [times, ppsReady, World.set, World.next, World.note, List.append_assoc, List.count_append,
                List.count_cons, List.count_nil, beq_iff_eq, reduceCtorEq, if_false, Ev.ppsOn.injEq, ne_eq,
                not_true_eq_false, and_false, not_false_eq_true, and_true] at this ⊢
              omega
            · intro fd'
              have := hb.off fd'
              simp only [times, ppsReady, World.set, World.next, World.note, List.append_assoc, List.count_append,
                List.count_cons, List.count_nil, beq_iff_eq, reduceCtorEq, if_false] at this ⊢
              omega
    · rw [h1]
      simp only
      refine ⟨_, _, rfl, ?_⟩
      refine ⟨by simp [ppsFailed, World.set, World.next], rfl, rfl, rfl, rfl, rfl, ?_, by simp [ENOENT],
        fun _ => ⟨rfl, id⟩, fun _ hb => ⟨hb.fds, hb.on, hb.off⟩⟩
      constructor
      · intro h; simp [ENOENT] at h
      · rintro ⟨pre', entry', text', post', fd, g1, g2, g3, g4, g5⟩
        rw [hlist] at g1
        have := Listing.entries.inj g1
        exact absurd g2 (h2 entry' text' (by rw [this]; simp))

/-! ## The choice -/

theorem compareEfx_cases (env : Env) (w : World) (d : Ts) :
    (w.phc.efx = false ∧ compareEfx env w d = (w, 95, d)) ∨
    (∃ e, w.phc.efx = true ∧ env.efx w.tick = .error e ∧ compareEfx env w d = (w.next, e, d)) ∨
    (∃ x, w.phc.efx = true ∧ env.efx w.tick = .ok x ∧ compareEfx env w d = (w.next, 0, x)) := by
  unfold compareEfx
  cases hc : w.phc.efx with
  | false => left; simp [EOPNOTSUPP]
  | true =>
    right
    cases hx : env.efx w.tick with
    | error e => left; exact ⟨e, rfl, rfl, by simp⟩
    | ok x => right; exact ⟨x, rfl, rfl, by simp⟩

/-- What a run of the choice over the entries `l` from index `i` on does. -/
structure Fall (env : Env) (l : List Method) (i : Nat) (w w' : World) (rc : Nat) : Prop where
  ex : ∃ pre m rest t, l = pre ++ m :: rest ∧ .max ∉ pre ∧ .readTime ∉ pre ∧ Tried env w.phc w.tick pre t ∧
    w'.phc.method = m ∧ w'.phc.index = ((i + pre.length : Nat) : Int) ∧
    ((m = .max ∧ rc = 95) ∨ (m ≠ .max ∧ rc = 0 ∧ Accepts env w.phc t m))
  strip : Phc.strip w'.phc = Phc.strip w.phc
  methods : w'.methods = w.methods
  ppsMethods : w'.ppsMethods = w.ppsMethods
  diffPrev : w'.phc.diffPrev = w.phc.diffPrev
  stepped : w'.phc.stepped = w.phc.stepped
  synth : (w'.phc.method = .pps ∧ w'.phc.synth = .init ∧ w'.phc.ppsPrev = (0, 0) ∧ w'.phc.prevMono = ⟨0, 0, 0⟩ ∧
      w'.phc.ppsFd ≠ none) ∨
    (w'.phc.method ≠ .pps ∧ (w'.phc.synth = w.phc.synth ∨ w'.phc.synth = .bad) ∧
      (w.phc.ppsFd = none → w'.phc.ppsFd = none))
  bal : w.phc.ppsFd = none → Bal w → Bal w'

theorem Fall.cons {env : Env} {m0 : Method} {l : List Method} {i : Nat} {w w1 w' : World} {rc : Nat}
    (h : Fall env l (i + 1) w1 w' rc) (hm : m0 ≠ .max) (hm' : m0 ≠ .readTime)
    (ha : ¬ Accepts env w.phc w.tick m0) (ht : w.tick ≤ w1.tick) (h1 : Phc.strip w1.phc = Phc.strip w.phc)
    (h2 : w1.methods = w.methods) (h3 : w1.ppsMethods = w.ppsMethods) (h4 : w1.phc.diffPrev = w.phc.diffPrev)
    (h5 : w1.phc.stepped = w.phc.stepped) (h6 : w1.phc.synth = w.phc.synth ∨ w1.phc.synth = .bad)
    (h7 : w.phc.ppsFd = none → w1.phc.ppsFd = none) (h8 : w.phc.ppsFd = none → Bal w → Bal w1) :
    Fall env (m0 :: l) i w w' rc where
  ex := by
    obtain ⟨pre, m, rest, t, e1, e2, e3, e4, e5, e6, e7⟩ := h.ex
    refine ⟨m0 :: pre, m, rest, t, by rw [e1]; rfl, ?_, ?_, .cons ha ht (tried_strip h1 e4), e5, ?_, ?_⟩
    · simp only [List.mem_cons, not_or]; exact ⟨hm.symm, e2⟩
    · simp only [List.mem_cons, not_or]; exact ⟨hm'.symm, e3⟩
    · rw [e6]; simp only [List.length_cons]; push_cast; omega
    · rcases e7 with e7 | ⟨a, b, c⟩
      · exact Or.inl e7
      · exact Or.inr ⟨a, b, (accepts_strip h1 _ _).mp c⟩
  strip := h.strip.trans h1
  methods := h.methods.trans h2
  ppsMethods := h.ppsMethods.trans h3
  diffPrev := h.diffPrev.trans h4
  stepped := h.stepped.trans h5
  synth := by
    rcases h.synth with h' | ⟨a, b, c⟩
    · exact Or.inl h'
    · refine Or.inr ⟨a, ?_, fun hn => c (h7 hn)⟩
      rcases b with b | b
      · rcases h6 with h6 | h6
        · exact Or.inl (b.trans h6)
        · exact Or.inr (b.trans h6)
      · exact Or.inr b
  bal := fun hn hb => h.bal (h7 hn) (h8 hn hb)

/-- The method is chosen at the first entry. -/
theorem Fall.here {env : Env} {m : Method} {l : List Method} {i : Nat} {w w1 : World}
    (hm : m ≠ .max) (hp : m ≠ .pps) (ha : Accepts env w.phc w.tick m) (h1 : w1.phc = w.phc)
    (h2 : w1.methods = w.methods) (h3 : w1.ppsMethods = w.ppsMethods) (hl : w1.log = w.log) :
    Fall env (m :: l) i w (select w1 m i).1 (select w1 m i).2 where
  ex := ⟨[], m, l, w.tick, rfl, by simp, by simp, .nil, rfl, by simp [select, World.set],
    Or.inr ⟨hm, by simp [select, hm], ha⟩⟩
  strip := by simp only [select, World.set, Phc.strip, h1]
  methods := by simp only [select, World.set, h2]
  ppsMethods := by simp only [select, World.set, h3]
  diffPrev := by simp only [select, World.set, h1]
  stepped := by simp only [select, World.set, h1]
  synth := Or.inr ⟨by simpa [select, World.set] using hp, Or.inl (by simp only [select, World.set, h1]),
    fun hn => by simpa [select, World.set, h1] using hn⟩
  bal := fun hn hb => by
    refine ⟨?_, ?_, ?_⟩ <;> simp only [select, World.set, h1, hl]
    · exact hb.fds
    · exact hb.on
    · exact hb.off

theorem fallbackLoop_fall (env : Env) (he : Errnos env) (hs : ShortNames env) (hl : Listed env) (l : List Method) :
    ∀ (seen : Bool) (i : Nat) (w : World), w.phc.idx < 2147483648 → (∃ m ∈ l, m = .readTime ∨ m = .max) →
      ∃ w' rc, fallbackLoop env l seen i w = .ok (w', rc) ∧ Fall env l i w w' rc := by
  induction l with
  | nil => rintro seen i w _ ⟨m, hm, _⟩; cases hm
  | cons m0 rest ih =>
    intro seen i w hi hex
    have hrest : m0 ≠ .readTime → m0 ≠ .max → ∃ m ∈ rest, m = .readTime ∨ m = .max := by
      intro h1 h2
      obtain ⟨m, hm, hmm⟩ := hex
      rcases List.mem_cons.mp hm with rfl | hm
      · rcases hmm with rfl | rfl
        · exact absurd rfl h1
        · exact absurd rfl h2
      · exact ⟨m, hm, hmm⟩
    cases m0 with
    | precise =>
      simp only [fallbackLoop]
      by_cases hc : w.phc.caps.cross = true
      · rw [if_pos hc]
        exact ⟨_, _, rfl, Fall.here (by decide) (by decide) hc rfl rfl rfl rfl⟩
      · rw [if_neg hc]
        obtain ⟨w', rc, h1, h2⟩ := ih true (i + 1) w hi (hrest (by decide) (by decide))
        exact ⟨w', rc, h1, h2.cons (by decide) (by decide) hc (Nat.le_refl _) rfl rfl rfl rfl rfl (Or.inl rfl) id
          (fun _ => id)⟩
    | efx =>
      simp only [fallbackLoop]
      rcases compareEfx_cases env w ⟨0, 0, 0⟩ with ⟨hc, h⟩ | ⟨e, hc, hx, h⟩ | ⟨d, hc, hx, h⟩
      · rw [h, if_neg (by simp)]
        obtain ⟨w', rc, h1, h2⟩ := ih true (i + 1) w hi (hrest (by decide) (by decide))
        exact ⟨w', rc, h1, h2.cons (by decide) (by decide) (by simp [Accepts, hc]) (Nat.le_refl _) rfl rfl rfl rfl rfl
          (Or.inl rfl) id (fun _ => id)⟩
      · rw [h, if_neg (he.efx _ _ hx)]
        obtain ⟨w', rc, h1, h2⟩ := ih true (i + 1) w.next hi (hrest (by decide) (by decide))
        exact ⟨w', rc, h1, h2.cons (by decide) (by decide) (by simp [Accepts, hc, hx]) (Nat.le_succ _) rfl rfl rfl rfl
          rfl (Or.inl rfl) id (fun _ hb => ⟨hb.fds, hb.on, hb.off⟩)⟩
      · rw [h, if_pos rfl]
        exact ⟨_, _, rfl, Fall.here (by decide) (by decide) ⟨hc, d, hx⟩ rfl rfl rfl rfl⟩
    | pps =>
      simp only [fallbackLoop]
      by_cases hc : w.phc.caps.pps = true
      · rw [if_pos hc]
        obtain ⟨w1, rc1, h1, h2⟩ := configurePps_spec env w he hs hl hi
        rw [h1]
        simp only
        by_cases h0 : rc1 = 0
        · rw [if_pos h0]
          refine ⟨_, _, rfl, ⟨⟨[], .pps, rest, w.tick, rfl, by simp, by simp, .nil, rfl, by simp [select, World.set],
            Or.inr ⟨by decide, rfl, hc, h2.usable.mp h0⟩⟩, h2.strip, h2.methods, h2.ppsMethods, h2.diffPrev,
            h2.stepped, Or.inl ⟨rfl, h2.good h0⟩, ?_⟩⟩
          intro hn hb
          have := h2.bal hn hb
          exact ⟨this.fds, this.on, this.off⟩
        · rw [if_neg h0]
          obtain ⟨w', rc, h3, h4⟩ := ih true (i + 1) w1 (by rw [strip_idx h2.strip]; exact hi)
            (hrest (by decide) (by decide))
          exact ⟨w', rc, h3, h4.cons (by decide) (by decide)
            (fun ha => h0 (h2.usable.mpr ha.2)) h2.tick h2.strip h2.methods h2.ppsMethods h2.diffPrev
            h2.stepped (Or.inr (h2.bad h0).1) (h2.bad h0).2 h2.bal⟩
      · rw [if_neg hc]
        obtain ⟨w', rc, h1, h2⟩ := ih true (i + 1) w hi (hrest (by decide) (by decide))
        exact ⟨w', rc, h1, h2.cons (by decide) (by decide) (fun ha => hc ha.1) (Nat.le_refl _) rfl rfl rfl rfl rfl
          (Or.inl rfl) id (fun _ => id)⟩
    | extended =>
      simp only [fallbackLoop]
      split
      · rename_i e hx
        obtain ⟨w', rc, h1, h2⟩ := ih true (i + 1) w.next hi (hrest (by decide) (by decide))
        exact ⟨w', rc, h1, h2.cons (by decide) (by decide) (by simp [Accepts, hx]) (Nat.le_succ _) rfl rfl rfl rfl
          rfl (Or.inl rfl) id (fun _ hb => ⟨hb.fds, hb.on, hb.off⟩)⟩
      · rename_i l hx
        exact ⟨_, _, rfl, Fall.here (by decide) (by decide) ⟨l, hx⟩ rfl rfl rfl rfl⟩
    | sysOffset =>
      simp only [fallbackLoop]
      by_cases hc : env.sysProbe w.tick = EFAULT
      · rw [if_pos hc]
        exact ⟨_, _, rfl, Fall.here (by decide) (by decide) hc rfl rfl rfl rfl⟩
      · rw [if_neg hc]
        obtain ⟨w', rc, h1, h2⟩ := ih true (i + 1) w.next hi (hrest (by decide) (by decide))
        exact ⟨w', rc, h1, h2.cons (by decide) (by decide) hc (Nat.le_succ _) rfl rfl rfl rfl
          rfl (Or.inl rfl) id (fun _ hb => ⟨hb.fds, hb.on, hb.off⟩)⟩
    | readTime =>
      simp only [fallbackLoop]
      exact ⟨_, _, rfl, Fall.here (by decide) (by decide) trivial rfl rfl rfl rfl⟩
    | max =>
      simp only [fallbackLoop]
      refine ⟨_, _, rfl, ⟨⟨[], .max, rest, w.tick, rfl, by simp, by simp, .nil, rfl, by simp [select, World.set],
        Or.inl ⟨rfl, rfl⟩⟩, rfl, rfl, rfl, rfl, rfl, Or.inr ⟨by simp [select, World.set], Or.inl rfl, id⟩, ?_⟩⟩
      intro _ hb
      exact ⟨hb.fds, hb.on, hb.off⟩

/-- Entries at which the choice ends without trying PPS. -/
def Stops (l : List Method) : Prop :=
  ∃ pre m rest, l = pre ++ m :: rest ∧ (m = .readTime ∨ m = .max) ∧ .pps ∉ pre

/-- Without PPS the choice changes nothing but the method, whatever the kernel says. -/
theorem fallbackLoop_stops (env : Env) (l : List Method) : ∀ (seen : Bool) (i : Nat) (w : World), Stops l →
    ∃ m j t, m ∈ l ∧ m ≠ .pps ∧ w.tick ≤ t ∧ fallbackLoop env l seen i w =
      .ok ({ w with tick := t, phc := { w.phc with method := m, index := j } }, if m = .max then 95 else 0) := by
  induction l with
  | nil => rintro seen i w ⟨pre, m, rest, h, _⟩; cases pre <;> cases h
  | cons m0 rest ih =>
    rintro seen i w ⟨pre, m, rest', h, hm, hp⟩
    have hrest : m0 ≠ .readTime → m0 ≠ .max → m0 ≠ .pps ∧ Stops rest := by
      intro h1 h2
      cases pre with
      | nil =>
        simp only [List.nil_append, List.cons.injEq] at h
        rcases hm with rfl | rfl
        · exact absurd h.1 h1
        · exact absurd h.1 h2
      | cons a b =>
        simp only [List.cons_append, List.cons.injEq] at h
        simp only [List.mem_cons, not_or] at hp
        exact ⟨fun hc => hp.1 (by rw [← h.1, hc]), b, m, rest', h.2, hm, hp.2⟩
    have step : ∀ w1 : World, (∃ t, w.tick ≤ t ∧ w1 = { w with tick := t }) → Stops rest →
        ∃ m j t, m ∈ m0 :: rest ∧ m ≠ .pps ∧ w.tick ≤ t ∧ fallbackLoop env rest true (i + 1) w1 =
          .ok ({ w with tick := t, phc := { w.phc with method := m, index := j } }, if m = .max then 95 else 0) := by
      rintro w1 ⟨t, ht, rfl⟩ hs
      obtain ⟨m, j, t', h1, h2, h3, h4⟩ := ih true (i + 1) { w with tick := t } hs
      exact ⟨m, j, t', by simp [h1], h2, Nat.le_trans ht h3, h4⟩
    cases m0 with
    | precise =>
      simp only [fallbackLoop]
      by_cases hc : w.phc.caps.cross = true
      · rw [if_pos hc]
        exact ⟨.precise, i, w.tick, by simp, by decide, Nat.le_refl _, rfl⟩
      · rw [if_neg hc]
        exact step w ⟨w.tick, Nat.le_refl _, rfl⟩ (hrest (by decide) (by decide)).2
    | efx =>
      simp only [fallbackLoop]
      rcases compareEfx_cases env w ⟨0, 0, 0⟩ with ⟨hc, h⟩ | ⟨e, hc, hx, h⟩ | ⟨d, hc, hx, h⟩
      · rw [h, if_neg (by simp)]
        exact step w ⟨w.tick, Nat.le_refl _, rfl⟩ (hrest (by decide) (by decide)).2
      · rw [h]
        simp only
        split
        · exact ⟨.efx, i, w.tick + 1, by simp, by decide, Nat.le_succ _, rfl⟩
        · exact step w.next ⟨w.tick + 1, Nat.le_succ _, rfl⟩ (hrest (by decide) (by decide)).2
      · rw [h, if_pos rfl]
        exact ⟨.efx, i, w.tick + 1, by simp, by decide, Nat.le_succ _, rfl⟩
    | pps => exact absurd rfl (hrest (by decide) (by decide)).1
    | extended =>
      simp only [fallbackLoop]
      split
      · exact step w.next ⟨w.tick + 1, Nat.le_succ _, rfl⟩ (hrest (by decide) (by decide)).2
      · exact ⟨.extended, i, w.tick + 1, by simp, by decide, Nat.le_succ _, rfl⟩
    | sysOffset =>
      simp only [fallbackLoop]
      split
      · exact ⟨.sysOffset, i, w.tick + 1, by simp, by decide, Nat.le_succ _, rfl⟩
      · exact step w.next ⟨w.tick + 1, Nat.le_succ _, rfl⟩ (hrest (by decide) (by decide)).2
    | readTime => exact ⟨.readTime, i, w.tick, by simp, by decide, Nat.le_refl _, rfl⟩
    | max => exact ⟨.max, i, w.tick, by simp, by decide, Nat.le_refl _, rfl⟩

/-! ## Tables -/

theorem first_of {l : List Method} (h : ∃ m ∈ l, m = .readTime ∨ m = .max) :
    ∃ pre m rest, l = pre ++ m :: rest ∧ (m = .readTime ∨ m = .max) ∧ .readTime ∉ pre ∧ .max ∉ pre := by
  induction l with
  | nil => obtain ⟨m, hm, _⟩ := h; cases hm
  | cons a t ih =>
    by_cases ha : a = .readTime ∨ a = .max
    · exact ⟨[], a, t, rfl, ha, by simp, by simp⟩
    · obtain ⟨m, hm, hmm⟩ := h
      have : ∃ m ∈ t, m = .readTime ∨ m = .max := by
        rcases List.mem_cons.mp hm with rfl | hm
        · exact absurd hmm ha
        · exact ⟨m, hm, hmm⟩
      obtain ⟨pre, m', rest, h1, h2, h3, h4⟩ := ih this
      refine ⟨a :: pre, m', rest, by rw [h1]; rfl, h2, ?_, ?_⟩
      · simp only [List.mem_cons, not_or]; exact ⟨fun hc => ha (Or.inl hc.symm), h3⟩
      · simp only [List.mem_cons, not_or]; exact ⟨fun hc => ha (Or.inr hc.symm), h4⟩

theorem inEffect_prefix (a b : List Method) (h : .max ∉ a) : a <+: inEffect .max (a ++ b) := by
  unfold inEffect
  induction a with
  | nil => exact List.nil_prefix
  | cons x t ih =>
    simp only [List.mem_cons, not_or] at h
    simp only [List.cons_append, List.takeWhile, ne_eq, Ne.symm h.1, not_false_eq_true, decide_true]
    exact (List.prefix_cons_inj x).mpr (ih h.2)

theorem GoodTable.stop {ms : List Method} (h : GoodTable ms) : ∃ m ∈ ms.take 6, m = .readTime ∨ m = .max := by
  have hsplit : inEffect .max ms ++ ms.dropWhile (· ≠ .max) = ms := List.takeWhile_append_dropWhile
  have hlen := h.length
  rcases h.ends with he | he
  · have hd : ms.dropWhile (· ≠ .max) ≠ [] := by
      intro hc
      rw [hc, List.append_nil] at hsplit
      rw [hsplit] at he; omega
    obtain ⟨c, cs, hcs⟩ := List.exists_cons_of_ne_nil hd
    have hc : c = .max := by
      have := List.head_dropWhile_not (p := fun x : Method => decide (x ≠ .max)) (l := ms) hd
      simp only [hcs, List.head_cons] at this
      simpa using this
    refine ⟨.max, ?_, Or.inr rfl⟩
    rw [← hsplit, hcs, hc, List.take_append]
    apply List.mem_append_right
    have : 6 - (inEffect .max ms).length = (6 - (inEffect .max ms).length - 1) + 1 := by omega
    rw [this]
    simp
  · refine ⟨.readTime, ?_, Or.inl rfl⟩
    have h6 : (inEffect .max ms).length ≤ 6 := by
      have hsub : inEffect .max ms ⊆ [.precise, .efx, .pps, .extended, .sysOffset, .readTime] := by
        intro m hm
        have : m ≠ .max := by
          have := List.all_takeWhile (p := fun x : Method => decide (x ≠ .max)) (l := ms)
          rw [List.all_eq_true] at this
          simpa using this m hm
        cases m <;> simp_all
      exact (List.subperm_of_subset h.nodup hsub).length_le
    rw [← hsplit, List.take_append]
    apply List.mem_append_left
    rw [List.take_of_length_le h6]
    exact he

/-- What is left of the table after PPS was chosen. -/
theorem GoodTable.tail {ms pre rest : List Method} (h : GoodTable ms) (he : ms.take 6 = pre ++ .pps :: rest)
    (h1 : .max ∉ pre) (h2 : .readTime ∉ pre) :
    Stops rest ∧ (ms.take 6).findIdx? (· = .pps) = some pre.length := by
  have hms : ms = pre ++ .pps :: rest ++ ms.drop 6 := by rw [← he]; simp
  have hpre : .pps ∉ pre := by
    have := inEffect_prefix (pre ++ [.pps]) (rest ++ ms.drop 6) (by simp [h1])
    have heq : pre ++ [.pps] ++ (rest ++ ms.drop 6) = ms := by
      conv => rhs; rw [hms]
      simp
    rw [heq] at this
    have hnd := h.nodup.sublist this.sublist
    rw [List.nodup_append] at hnd
    intro hc
    exact hnd.2.2 _ hc .pps (by simp) rfl
  constructor
  · have hst : ∃ m ∈ rest, m = .readTime ∨ m = .max := by
      obtain ⟨m, hm, hmm⟩ := h.stop
      rw [he] at hm
      rcases List.mem_append.mp hm with hm | hm
      · rcases hmm with rfl | rfl
        · exact absurd hm h2
        · exact absurd hm h1
      · rcases List.mem_cons.mp hm with rfl | hm
        · rcases hmm with hmm | hmm <;> cases hmm
        · exact ⟨m, hm, hmm⟩
    obtain ⟨pre2, m, rest2, g1, g2, g3, g4⟩ := first_of hst
    refine ⟨pre2, m, rest2, g1, g2, ?_⟩
    have := inEffect_prefix (pre ++ .pps :: pre2) (m :: rest2 ++ ms.drop 6) (by simp [h1, g4])
    have heq : pre ++ .pps :: pre2 ++ (m :: rest2 ++ ms.drop 6) = ms := by
      conv => rhs; rw [hms, g1]
      simp
    rw [heq] at this
    have hnd := h.nodup.sublist this.sublist
    rw [List.nodup_append] at hnd
    have := hnd.2.1
    rw [List.nodup_cons] at this
    exact this.1
  · rw [he, List.findIdx?_append]
    have : List.findIdx? (fun x => decide (x = Method.pps)) pre = none := by
      rw [List.findIdx?_eq_none_iff]
      intro x hx
      simp only [decide_eq_false_iff_not]
      intro hc; rw [hc] at hx; exact hpre hx
    rw [this]
    simp [List.findIdx?_cons]

end Verif.Phc
