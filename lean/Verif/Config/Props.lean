import Verif.Config.Support

set_option linter.unusedSimpArgs false
set_option linter.unusedVariables false

/-!
# Properties C27, C28 and C61: configuration files
-/

namespace Verif.Config

/-! ## C27: tokenizer -/

/-- Space and tab. -/
def Blank (c : Nat) : Prop := c = 32 ∨ c = 9

/-- The end of what is read of a line: nothing, or a newline or `#` and anything. -/
inductive LineEnd : List Nat → Prop
  | nil : LineEnd []
  | newline (s) : LineEnd (10 :: s)
  | comment (s) : LineEnd (35 :: s)

/-- Writing the characters of a word, each either as it is, where allowed, or
after a backslash. -/
inductive Written (plain : Nat → Prop) : List Nat → List Nat → Prop
  | nil : Written plain [] []
  | raw (c w s) : plain c → Written plain w s → Written plain (c :: w) (c :: s)
  | escaped (c w s) : Written plain w s → Written plain (c :: w) (92 :: c :: s)

/-- Lines in which a user may have written a list of words: quoted, where all
but the quote and backslash may stand as they are, or unquoted, where blanks,
newline, `#` and backslash must be escaped, and in the first place also quotes;
an unquoted word does not begin with a blank. -/
inductive Line : List (List Nat) → List Nat → Prop
  | nil (gap e) : (∀ c ∈ gap, Blank c) → LineEnd e → Line [] (gap ++ e)
  | quoted (gap q w body ws s) : (∀ c ∈ gap, Blank c) → (q = 34 ∨ q = 39) → Written (fun c => c ≠ q ∧ c ≠ 92) w body →
      Line ws s → Line (w :: ws) (gap ++ q :: body ++ q :: s)
  | plain (gap c w first body ws s) : (∀ c ∈ gap, Blank c) → ¬ Blank c →
      (first = [92, c] ∨ first = [c] ∧ c ∉ [10, 35, 34, 39, 92]) →
      Written (fun c => ¬ Blank c ∧ c ∉ [10, 35, 92]) w body →
      Line ws s → (LineEnd s ∨ ∃ b s', Blank b ∧ s = b :: s') → Line ((c :: w) :: ws) (gap ++ first ++ body ++ s)

theorem run_gap {max : Nat} {d : List (List Nat)} {gap s : List Nat} (h : ∀ c ∈ gap, Blank c) :
    absRun max (gap ++ s) ⟨d, none, false, false, false⟩ = absRun max s ⟨d, none, false, false, false⟩ := by
  induction gap with
  | nil => rfl
  | cons c gap ih =>
    have hc : Blank c := h c (List.mem_cons_self ..)
    have : absStep max ⟨d, none, false, false, false⟩ c = (⟨d, none, false, false, false⟩, false) := by
      rcases hc with rfl | rfl <;> rfl
    rw [List.cons_append, absRun, this]
    simp only [Bool.false_eq_true, if_false]
    exact ih (fun c hc => h c (List.mem_cons_of_mem _ hc))

theorem run_body {max : Nat} {d : List (List Nat)} {sq dq : Bool} {plain : Nat → Prop}
    (hp : ∀ c w, plain c → absStep max ⟨d, some w, false, sq, dq⟩ c = (⟨d, some (w ++ [c]), false, sq, dq⟩, false))
    {w body s : List Nat} (h : Written plain w body) : ∀ v,
    absRun max (body ++ s) ⟨d, some v, false, sq, dq⟩ = absRun max s ⟨d, some (v ++ w), false, sq, dq⟩ := by
  induction h with
  | nil => intro v; simp
  | raw c w b hc _ ih =>
    intro v
    rw [List.cons_append, absRun, hp c v hc]
    simp only [Bool.false_eq_true, if_false, ih, List.append_assoc, List.singleton_append]
  | escaped c w b _ ih =>
    intro v
    have h1 : absStep max ⟨d, some v, false, sq, dq⟩ 92 = (⟨d, some v, true, sq, dq⟩, false) := by simp [absStep]
    have h2 : absStep max ⟨d, some v, true, sq, dq⟩ c = (⟨d, some (v ++ [c]), false, sq, dq⟩, false) := by simp [absStep]
    rw [List.cons_append, List.cons_append, absRun, h1]
    simp only [Bool.false_eq_true, if_false]
    rw [absRun, h2]
    simp only [Bool.false_eq_true, if_false, ih, List.append_assoc, List.singleton_append]

theorem take_fit {d ws : List (List Nat)} {v : List Nat} {max : Nat} (h : d.length + 1 = max) :
    (d ++ v :: ws).take max = d ++ [v] := by
  have : (d ++ v :: ws) = (d ++ [v]) ++ ws := by simp
  rw [this, List.take_append_of_le_length (by simp; omega), List.take_of_length_le (by simp; omega)]

/-- The end of a word in a quoted or unquoted state, with more to come or not. -/
theorem run_line {max : Nat} {ws : List (List Nat)} {s : List Nat} (h : Line ws s) : ∀ d : List (List Nat), d.length < max →
    absRun max s ⟨d, none, false, false, false⟩ = (d ++ ws).take max := by
  induction h with
  | nil gap e hg he =>
    intro d hd
    rw [run_gap hg, List.append_nil, List.take_of_length_le (by omega)]
    cases he <;> simp [absRun, absStep, absEnd]
  | quoted gap q w body ws s hg hq hw _ ih =>
    intro d hd
    rw [List.append_assoc, run_gap hg, List.cons_append]
    -- state after the opening quote
    obtain ⟨sq, dq, hf⟩ : ∃ sq dq, (sq = decide (q = 39)) ∧ (dq = decide (q = 34)) := ⟨_, _, rfl, rfl⟩
    obtain ⟨h1, h2⟩ := hf
    have hopen : absStep max ⟨d, none, false, false, false⟩ q = (⟨d, none, false, sq, dq⟩, false) := by
      rcases hq with rfl | rfl <;> simp [absStep, h1, h2]
    have hplain : ∀ c v, c ≠ q ∧ c ≠ 92 → absStep max ⟨d, some v, false, sq, dq⟩ c = (⟨d, some (v ++ [c]), false, sq, dq⟩, false) := by
      rintro c v ⟨c1, c2⟩
      rcases hq with rfl | rfl <;> simp [absStep, h1, h2, c1, c2]
    have hfirst : ∀ c, c ≠ q ∧ c ≠ 92 → absStep max ⟨d, none, false, sq, dq⟩ c = (⟨d, some [c], false, sq, dq⟩, false) := by
      rintro c ⟨c1, c2⟩
      rcases hq with rfl | rfl <;> simp [absStep, h1, h2, c1, c2]
    have hesc : absStep max ⟨d, none, false, sq, dq⟩ 92 = (⟨d, none, true, sq, dq⟩, false) := by
      rcases hq with rfl | rfl <;> simp [absStep, h1, h2]
    have hesc2 : ∀ c, absStep max ⟨d, none, true, sq, dq⟩ c = (⟨d, some [c], false, sq, dq⟩, false) := by
      intro c
      rcases hq with rfl | rfl <;> simp [absStep, h1, h2]
    have hclose : ∀ v, absStep max ⟨d, some v, false, sq, dq⟩ q = (⟨d ++ [v], none, false, false, false⟩, decide (d.length + 1 = max)) := by
      intro v
      rcases hq with rfl | rfl <;> simp [absStep, h1, h2]
    have hclose0 : absStep max ⟨d, none, false, sq, dq⟩ q = (⟨d ++ [[]], none, false, false, false⟩, decide (d.length + 1 = max)) := by
      rcases hq with rfl | rfl <;> simp [absStep, h1, h2]
    have hafter : ∀ a : Abs, ∀ v, absStep max a q = (⟨d ++ [v], none, false, false, false⟩, decide (d.length + 1 = max)) →
        absRun max (q :: s) a = (d ++ v :: ws).take max := by
      intro a v ha
      rw [absRun, ha]
      by_cases hm : d.length + 1 = max
      · simp only [hm, decide_true, if_true, absEnd]
        rw [take_fit hm]
      · simp only [hm, decide_false, Bool.false_eq_true, if_false]
        rw [ih _ (by simp; omega)]
        simp
    rw [absRun, hopen]
    simp only [Bool.false_eq_true, if_false]
    cases hw with
    | nil => exact hafter _ _ hclose0
    | raw c w b hc hw =>
      rw [List.cons_append, absRun, hfirst c hc]
      simp only [Bool.false_eq_true, if_false]
      rw [run_body hplain hw]
      exact hafter _ _ (hclose _)
    | escaped c w b hw =>
      rw [List.cons_append, List.cons_append, absRun, hesc]
      simp only [Bool.false_eq_true, if_false]
      rw [absRun, hesc2]
      simp only [Bool.false_eq_true, if_false]
      rw [run_body hplain hw]
      exact hafter _ _ (hclose _)
  | plain gap c w first body ws s hg hc hf hw hl he ih =>
    intro d hd
    rw [List.append_assoc, List.append_assoc, run_gap hg]
    have hb : c ≠ 32 ∧ c ≠ 9 := by
      constructor <;> (intro h; apply hc; simp [Blank, h])
    have hstart : absRun max (first ++ (body ++ s)) ⟨d, none, false, false, false⟩ = absRun max (body ++ s) ⟨d, some [c], false, false, false⟩ := by
      rcases hf with rfl | ⟨rfl, hn⟩
      · simp [absRun, absStep, hb]
      · simp only [List.mem_cons, List.not_mem_nil, or_false, not_or] at hn
        simp [absRun, absStep, hb, hn]
    have hplain : ∀ c v, (¬ Blank c ∧ c ∉ [10, 35, 92]) → absStep max ⟨d, some v, false, false, false⟩ c = (⟨d, some (v ++ [c]), false, false, false⟩, false) := by
      rintro c v ⟨c1, c2⟩
      simp only [Blank, List.mem_cons, List.not_mem_nil, or_false, not_or] at c1 c2
      simp [absStep, c1, c2]
    rw [hstart, run_body hplain hw]
    generalize hv : ([c] ++ w) = v
    have hv' : c :: w = v := by rw [← hv]; rfl
    rw [hv']
    have hfit : ∀ rest : List (List Nat), (d ++ [v]).take max = d ++ [v] := fun _ => List.take_of_length_le (by simp; omega)
    have hws : ∀ x s', s = x :: s' → (x = 10 ∨ x = 35) → ws = [] := by
      intro x s' hs hx
      subst hs
      generalize hgen : x :: s' = s0 at hl
      cases hl with
      | nil => rfl
      | quoted gap q w body ws s hg hq _ _ =>
        cases gap with
        | nil => simp at hgen; rcases hq with rfl | rfl <;> omega
        | cons g gap => simp at hgen; have := hg g (List.mem_cons_self ..); simp [Blank] at this; omega
      | plain gap c w first body ws s hg hc hf _ _ _ =>
        cases gap with
        | nil =>
          rcases hf with rfl | ⟨rfl, hn⟩
          · simp at hgen; omega
          · simp at hgen hn; omega
        | cons g gap => simp at hgen; have := hg g (List.mem_cons_self ..); simp [Blank] at this; omega
    rcases he with he | ⟨b, s', hbl, hs⟩
    · cases he with
      | nil =>
        have hws0 : ws = [] := by
          generalize hgen : ([] : List Nat) = s0 at hl
          cases hl with
          | nil => rfl
          | quoted => simp at hgen
          | plain gap c w first body ws s hg hc hf _ _ _ => rcases hf with rfl | ⟨rfl, hn⟩ <;> simp at hgen
        rw [hws0, hfit []]; rfl
      | newline s' =>
        rw [hws 10 s' rfl (Or.inl rfl), hfit []]
        simp [absRun, absStep, absEnd]
      | comment s' =>
        rw [hws 35 s' rfl (Or.inr rfl), hfit []]
        simp [absRun, absStep, absEnd]
    · have hend : absStep max ⟨d, some v, false, false, false⟩ b = (⟨d ++ [v], none, false, false, false⟩, decide (d.length + 1 = max)) := by
        rcases hbl with rfl | rfl <;> simp [absStep]
      have hblank : absStep max ⟨d ++ [v], none, false, false, false⟩ b = (⟨d ++ [v], none, false, false, false⟩, false) := by
        rcases hbl with rfl | rfl <;> simp [absStep]
      rw [hs, absRun, hend]
      by_cases hm : d.length + 1 = max
      · simp only [hm, decide_true, if_true, absEnd]
        rw [take_fit hm]
      · simp only [hm, decide_false, Bool.false_eq_true, if_false]
        have := ih (d ++ [v]) (by simp; omega)
        rw [hs, absRun, hblank] at this
        simp only [Bool.false_eq_true, if_false] at this
        rw [this]
        simp

/-- C27: a line in which words have been written, quoted or escaped, gives
exactly these words, up to the maximum number. -/
theorem C27_round_trip (ws : List (List Nat)) (line tail : List Nat) (max : Nat) (h : Line ws line) (hz : 0 ∉ line) (hm : 0 < max) :
    ∃ buf toks, tokenize (line ++ 0 :: tail) max = some (buf, toks) ∧ toks.map (str buf) = ws.take max := by
  obtain ⟨buf, toks, h1, _, h2, _⟩ := tokenize_eq line tail max hm hz
  exact ⟨buf, toks, h1, by rw [h2, run_line h [] (by simpa using hm)]; rfl⟩

/-- C27: for every line, no access is out of bounds, no more tokens than the
maximum are written, and each is the position of a string within the buffer. -/
theorem C27_within_bounds (line tail : List Nat) (max : Nat) (hz : 0 ∉ line) (hm : 0 < max) :
    ∃ buf toks, tokenize (line ++ 0 :: tail) max = some (buf, toks) ∧ buf.length = (line ++ 0 :: tail).length ∧
      toks.length ≤ max ∧ ∀ p ∈ toks, p < buf.length := by
  obtain ⟨buf, toks, h1, h2, _, h3, h4⟩ := tokenize_eq line tail max hm hz
  exact ⟨buf, toks, h1, h2, h3, h4⟩

/-- Any word can be written: in double quotes, with every character escaped. -/
theorem written_escaped (plain : Nat → Prop) (w : List Nat) : Written plain w (w.flatMap (fun c => [92, c])) := by
  induction w with
  | nil => exact .nil
  | cons c w ih => exact .escaped c w _ ih

/-- C27: any list of words can be written in a line, so that it is read back. -/
theorem C27_any_words (ws : List (List Nat)) (tail : List Nat) (max : Nat) (hz : ∀ w ∈ ws, 0 ∉ w) (hm : 0 < max) (hn : ws.length ≤ max) :
    ∃ buf toks, tokenize (ws.flatMap (fun w => 34 :: w.flatMap (fun c => [92, c]) ++ [34, 32]) ++ 0 :: tail) max = some (buf, toks) ∧
      toks.map (str buf) = ws := by
  have hl : Line ws (ws.flatMap (fun w => 34 :: w.flatMap (fun c => [92, c]) ++ [34, 32])) ∧
      Line ws (32 :: ws.flatMap (fun w => 34 :: w.flatMap (fun c => [92, c]) ++ [34, 32])) := by
    clear hz hn
    induction ws with
    | nil => exact ⟨.nil [] [] (by simp) .nil, .nil [32] [] (by simp [Blank]) .nil⟩
    | cons w ws ih =>
      constructor
      · have := Line.quoted [] 34 w _ ws _ (by simp) (Or.inl rfl) (written_escaped _ w) ih.2
        simpa using this
      · have := Line.quoted [32] 34 w _ ws _ (by simp [Blank]) (Or.inl rfl) (written_escaped _ w) ih.2
        simpa using this
  obtain ⟨buf, toks, h1, h2⟩ := C27_round_trip ws _ tail max hl.1 (by
    simp only [List.mem_flatMap, not_exists, not_and]
    intro w hw
    have := hz w hw
    simp only [List.cons_append, List.mem_cons, List.mem_append, List.mem_flatMap, List.not_mem_nil, or_false, not_or]
    refine ⟨by omega, ?_, by omega, by omega⟩
    rintro ⟨c, hc, h0⟩
    rcases h0 with h0 | h0
    · omega
    · exact this (h0 ▸ hc)) hm
  exact ⟨buf, toks, h1, by rw [h2, List.take_of_length_le hn]⟩

/-- The line `a\ b "c d"'' # e` has words `a b`, `c d` and the empty one. -/
example : Line [[97, 32, 98], [99, 32, 100], []] [97, 92, 32, 98, 32, 34, 99, 32, 100, 34, 39, 39, 32, 35, 101] := by
  refine Line.plain [] 97 [32, 98] [97] [92, 32, 98] _ [32, 34, 99, 32, 100, 34, 39, 39, 32, 35, 101] (by simp) (by simp [Blank]) (Or.inr ⟨rfl, by simp⟩)
    (.escaped _ _ _ (.raw _ _ _ (by simp [Blank]) .nil)) ?_ (Or.inr ⟨32, _, Or.inl rfl, rfl⟩)
  refine Line.quoted [32] 34 [99, 32, 100] [99, 32, 100] _ [39, 39, 32, 35, 101] (by simp [Blank]) (Or.inl rfl)
    (.raw _ _ _ (by simp) (.raw _ _ _ (by simp) (.raw _ _ _ (by simp) .nil))) ?_
  refine Line.quoted [] 39 [] [] _ [32, 35, 101] (by simp) (Or.inr rfl) .nil ?_
  exact Line.nil [32] [35, 101] (by simp [Blank]) (.comment _)
example : (tokenize [97, 92, 32, 98, 32, 34, 99, 32, 100, 34, 39, 39, 32, 35, 101, 0, 7] 64).map (fun x => x.2.map (str x.1)) =
    some [[97, 32, 98], [99, 32, 100], []] := by decide
/-- More words than the maximum. -/
example : (tokenize [97, 32, 98, 32, 99, 0] 2).map (fun x => x.2.map (str x.1)) = some [[97], [98]] := by decide

/-- C27: an escaped blank does not begin a word: it is dropped. -/
theorem C27_leading_blank (w tail : List Nat) (c : Nat) (max : Nat) (hc : ¬ Blank c) (hp : c ∉ [10, 35, 34, 39, 92])
    (hw : ∀ x ∈ c :: w, x ≠ 0 ∧ ¬ Blank x ∧ x ∉ [10, 35, 92]) (hm : 0 < max) :
    ∃ buf toks, tokenize (92 :: 32 :: c :: w ++ 0 :: tail) max = some (buf, toks) ∧ toks.map (str buf) = [c :: w] := by
  obtain ⟨buf, toks, h1, _, h2, _⟩ := tokenize_eq (92 :: 32 :: c :: w) tail max hm (by
    simp only [List.mem_cons, not_or]
    refine ⟨by omega, by omega, ?_, ?_⟩
    · exact fun h => (hw c (List.mem_cons_self ..)).1 h.symm
    · exact fun h => (hw 0 (List.mem_cons_of_mem _ h)).1 rfl)
  refine ⟨buf, toks, h1, ?_⟩
  rw [h2]
  have hb : Written (fun c => ¬ Blank c ∧ c ∉ [10, 35, 92]) w w := by
    have : ∀ v : List Nat, (∀ x ∈ v, ¬ Blank x ∧ x ∉ [10, 35, 92]) → Written (fun c => ¬ Blank c ∧ c ∉ [10, 35, 92]) v v := by
      intro v
      induction v with
      | nil => intro _; exact .nil
      | cons x v ih => intro h; exact .raw _ _ _ (h x (List.mem_cons_self ..)) (ih (fun y hy => h y (List.mem_cons_of_mem _ hy)))
    exact this w (fun x hx => (hw x (List.mem_cons_of_mem _ hx)).2)
  have hl : Line [c :: w] (c :: w) := by
    have := Line.plain [] c w [c] w [] [] (by simp) hc (Or.inr ⟨rfl, hp⟩) hb (.nil [] [] (by simp) .nil) (Or.inl .nil)
    simpa using this
  have := run_line hl (max := max) [] (by simpa using hm)
  have h3 : absRun max (92 :: 32 :: c :: w) ⟨[], none, false, false, false⟩ = absRun max (c :: w) ⟨[], none, false, false, false⟩ := by
    simp [absRun, absStep]
  rw [h3, this, List.nil_append, List.take_of_length_le (by simp; omega)]

/-! ## C28: arity -/

/-- A declared number of parameters: `n ≥ 0` exactly, `-(k+1)` at least `k`. -/
def ArityOk (declared : Int) (given : Nat) : Prop :=
  (0 ≤ declared ∧ declared = given) ∨ ∃ k : Nat, declared = -(k + 1) ∧ k ≤ given

theorem applyInstances_log {σ : Type} {opt : Opt σ} {params} : ∀ {secs : List Sec} {c : σ} {log c' log'},
    applyInstances opt params secs c log = some (c', log') → log' = log ++ secs.map (fun s => ⟨opt.name, s, params⟩) := by
  intro secs
  induction secs with
  | nil => intro c log c' log' h; simp [applyInstances] at h; simp [h.2]
  | cons s ss ih =>
    intro c log c' log' h
    simp only [applyInstances] at h
    split at h
    · rw [ih h]; simp
    · cases h

theorem arity_iff (n : Int) (k : Nat) : ArityOk n k ↔
    ¬ ((decide (n ≥ 0) = true ∧ (k : Int) ≠ (if decide (n ≥ 0) = true then n else -n - 1)) ∨
      ((!decide (n ≥ 0)) = true ∧ (k : Int) < (if decide (n ≥ 0) = true then n else -n - 1))) := by
  unfold ArityOk
  by_cases h : 0 ≤ n
  · simp only [ge_iff_le, h, decide_true, if_true, true_and, Bool.not_true, Bool.false_eq_true, false_and, or_false, ne_eq,
      Decidable.not_not]
    constructor
    · rintro (h1 | ⟨j, h1, _⟩)
      · exact h1.symm
      · omega
    · intro h1; exact Or.inl h1.symm
  · simp only [ge_iff_le, h, decide_false, Bool.false_eq_true, if_false, false_and, false_or, Bool.not_false, true_and, Int.not_lt]
    constructor
    · rintro ⟨j, h1, h2⟩; omega
    · intro h1; exact ⟨(-n - 1).toNat, by omega, by omega⟩

/-- C28: a handler is called only for the first option of that name in the
section's table, with the parameters of the line, for a number of parameters
the option declares, not for a global option in an instance section, and for
the section itself and the instances of a global section only.  An option with
another number of parameters is rejected with `EINVAL`, an unknown one with
`ENOENT`, no handler being called and nothing changed. -/
theorem C28_arity_enforced {σ : Type} (env : Env σ) (c c' : σ) (sec : Sec) (name : List Nat) (params : List (List Nat))
    (rc : Int) (log : List Called) (h : parseOption env c sec (name :: params) = some (rc, c', log)) :
    match (env.sets sec.category).bind (fun set => set.options.find? (fun o => decide (name = o.name))) with
    | none => rc = -2 ∧ log = [] ∧ c' = c
    | some opt =>
      (ArityOk opt.numParams params.length ∧ (opt.isGlobal = true → sec.isGlobal = true) →
        (∃ rest, log = ⟨name, sec, params⟩ :: rest ∧
          (sec.isGlobal = false ∨ (opt.parse c sec params).1 ≠ 0 → rest = []) ∧
          (sec.isGlobal = true ∧ (opt.parse c sec params).1 = 0 →
            rest = (env.instances (opt.parse c sec params).2 sec.category).map (fun s => ⟨name, s, params⟩))) ∧
        ((opt.parse c sec params).1 ≠ 0 → rc = -(opt.parse c sec params).1) ∧
        ((opt.parse c sec params).1 = 0 → 0 ≤ rc)) ∧
      (¬ (ArityOk opt.numParams params.length ∧ (opt.isGlobal = true → sec.isGlobal = true)) → rc = -22 ∧ log = [] ∧ c' = c) := by
  unfold parseOption at h
  simp only at h
  cases hs : env.sets sec.category with
  | none =>
    rw [hs] at h
    simp only [Option.some.injEq, Prod.mk.injEq] at h
    simp [← h.1, ← h.2.1, ← h.2.2, ENOENT]
  | some set =>
    rw [hs] at h
    simp only [Option.bind_some]
    simp only at h
    generalize set.options = opts at h
    induction opts with
    | nil =>
      simp only [searchOption, Option.some.injEq, Prod.mk.injEq] at h
      simp [← h.1, ← h.2.1, ← h.2.2, ENOENT]
    | cons o opts ih =>
      rw [List.find?_cons]
      simp only [searchOption] at h
      by_cases hn : name = o.name
      · rw [if_pos hn] at h
        simp only [hn, decide_true]
        unfold applyOption at h
        simp only at h
        by_cases hg : o.isGlobal = true ∧ (!sec.isGlobal) = true
        · rw [if_pos hg] at h
          refine ⟨fun hx => absurd (hx.2 hg.1) (by simpa using hg.2), fun _ => ?_⟩
          simp only [Option.some.injEq, Prod.mk.injEq] at h
          exact ⟨h.1.symm, h.2.2.symm, h.2.1.symm⟩
        rw [if_neg hg] at h
        have hg' : o.isGlobal = true → sec.isGlobal = true := by
          intro ho
          cases hsg : sec.isGlobal with
          | true => rfl
          | false => exact absurd ⟨ho, by simp [hsg]⟩ hg
        by_cases ha : ArityOk o.numParams params.length
        · rw [if_neg ((arity_iff _ _).1 ha)] at h
          refine ⟨fun _ => ?_, fun hx => absurd ⟨ha, hg'⟩ hx⟩
          generalize o.parse c sec params = r at h ⊢
          by_cases hr : r.1 = 0
          · rw [if_neg (by simpa using hr)] at h
            cases hsg : sec.isGlobal with
            | false =>
              simp only [hsg, Bool.false_eq_true, if_false, Option.some.injEq, Prod.mk.injEq] at h
              refine ⟨⟨[], h.2.2.symm, fun _ => rfl, by simp [hsg]⟩, by simp [hr], ?_⟩
              intro _; rw [← h.1]; split <;> decide
            | true =>
              simp only [hsg, if_true] at h
              split at h
              · cases h
              · rename_i c2 log2 hap
                simp only [Option.some.injEq, Prod.mk.injEq] at h
                have := applyInstances_log hap
                refine ⟨⟨_, by rw [← h.2.2, this]; rfl, ?_, fun _ => rfl⟩, by simp [hr], ?_⟩
                · rintro (h1 | h1)
                  · cases h1
                  · exact absurd hr h1
                · intro _; rw [← h.1]; split <;> decide
          · rw [if_pos (by simpa using hr)] at h
            simp only [Option.some.injEq, Prod.mk.injEq] at h
            exact ⟨⟨[], h.2.2.symm, fun _ => rfl, fun hx => absurd hx.2 hr⟩, fun _ => h.1.symm, fun h0 => absurd h0 hr⟩
        · rw [if_pos (by by_contra hc; exact ha ((arity_iff _ _).2 hc))] at h
          refine ⟨fun hx => absurd hx.1 ha, fun _ => ?_⟩
          simp only [Option.some.injEq, Prod.mk.injEq] at h
          exact ⟨h.1.symm, h.2.2.symm, h.2.1.symm⟩
      · rw [if_neg hn] at h
        simp only [hn, decide_false]
        exact ih h

/-- A table with an option of exactly one parameter. -/
def sample : Env Nat where
  sets _ := some ⟨[⟨[1], 1, false, false, fun n _ ps => (0, n + ps.length)⟩, ⟨[2], -2, true, false, fun n _ ps => (0, n + 10 * ps.length)⟩], some (fun n _ => if n < 100 then 0 else 22)⟩
  find _ name := if name = [7] then some ⟨[7], 0, true⟩ else if name = [8] then some ⟨[8], 0, false⟩ else none
  instances _ _ := [⟨[8], 0, false⟩]

example : (parseOption sample 5 ⟨[7], 0, true⟩ [[1], [9]]).map (·.2.1) = some 7 := by decide
example : (parseOption sample 5 ⟨[7], 0, true⟩ [[1], [9], [9]]).map (·.1) = some (-22) := by decide
example : (parseOption sample 5 ⟨[8], 0, false⟩ [[2], [9]]).map (·.1) = some (-22) := by decide
example : ArityOk (-2) 3 ∧ ¬ ArityOk (-2) 0 ∧ ¬ ArityOk 1 2 := by
  refine ⟨Or.inr ⟨1, by omega, by omega⟩, ?_, ?_⟩
  · rintro (h | ⟨k, h1, h2⟩) <;> omega
  · rintro (h | ⟨k, h1, h2⟩) <;> omega

/-! ## C61: files -/

/-- The first word of a line with dashes for underscores. -/
def key (t : List Nat) : List Nat := t.map (fun x => if x = 45 then 95 else x)

/-- The validator of the section's category, if any, is content. -/
def Valid {σ : Type} (env : Env σ) (c : σ) (s : Sec) : Prop :=
  ∃ set, env.sets s.category = some set ∧ ∀ v, set.validator = some v → v c s = 0

/-- What a file must be to be accepted: a sequence of section headers, each of
an existing section, the section left being valid, and of options successfully
applied to the section of the last header; the last section is valid. -/
inductive Accepted {σ : Type} (env : Env σ) : Option Sec → σ → List (List (List Nat)) → σ → List Called → Prop
  | done (sec c) : Valid env c sec → Accepted env (some sec) c [] c []
  | blank (cur c ls c' log) : Accepted env cur c ls c' log → Accepted env cur c ([] :: ls) c' log
  | header (cur c t name rest sec ls c' log) :
      key t = 91 :: name ++ [93] → 91 ∉ name → 93 ∉ name → (∀ s, cur = some s → Valid env c s) →
      env.find c name = some sec → Accepted env (some sec) c ls c' log → Accepted env cur c ((t :: rest) :: ls) c' log
  | option (sec c t rest rc c1 log1 ls c' log) :
      (∀ name, key t ≠ 91 :: name ++ [93]) → 91 ∉ (key t).tail → 93 ∉ (key t).dropLast →
      parseOption env c sec (key t :: rest) = some (rc, c1, log1) → 0 ≤ rc →
      Accepted env (some sec) c1 ls c' log → Accepted env (some sec) c ((t :: rest) :: ls) c' (log1 ++ log)

theorem syntaxOk_iff (t : List Nat) : syntaxOk t = true ↔ 91 ∉ t.tail ∧ 93 ∉ t.dropLast := by
  unfold syntaxOk
  rw [List.dropLast_eq_take, ← List.drop_one]
  simp

theorem newSection_iff {t name : List Nat} : newSection t = some name ↔ t = 91 :: name ++ [93] := by
  unfold newSection
  constructor
  · intro h
    split at h
    · rename_i hc
      cases t with
      | nil => simp at hc
      | cons x t =>
        simp only [List.head?_cons, Option.some.injEq] at hc
        obtain ⟨rfl, hl⟩ := hc
        rcases List.eq_nil_or_concat t with rfl | ⟨m, y, rfl⟩
        · simp at hl
        · rw [List.concat_eq_append, ← List.cons_append, List.getLast?_append] at hl
          simp at hl
          subst hl
          simp at h
          rw [← h]; simp
    · cases h
  · rintro rfl
    rw [List.getLast?_append]
    simp

theorem validate_zero {σ : Type} {env : Env σ} {c : σ} {s : Sec} : validate env c s = some 0 ↔ Valid env c s := by
  unfold validate Valid
  cases env.sets s.category with
  | none => simp
  | some set =>
    cases hv : set.validator with
    | none => simp [hv]
    | some v => simp [hv]

theorem accepted_of_loop {σ : Type} {env : Env σ} : ∀ {ls : List (List (List Nat))} {c : σ} {cur log0 st},
    fileLoop env ls ⟨c, cur, log0⟩ = some (0, st) → ∃ log, st.log = log0 ++ log ∧ Accepted env cur c ls st.conf log := by
  intro ls
  induction ls with
  | nil =>
    intro c cur log0 st h
    simp only [fileLoop] at h
    cases cur with
    | none => cases h
    | some s =>
      simp only [Option.map_eq_some_iff, Prod.mk.injEq] at h
      obtain ⟨rc, h1, h2, rfl⟩ := h
      subst h2
      exact ⟨[], by simp, .done s c (validate_zero.1 h1)⟩
  | cons l ls ih =>
    intro c cur log0 st h
    simp only [fileLoop] at h
    cases l with
    | nil =>
      simp only [lineStep, ne_eq, not_true_eq_false, if_false] at h
      obtain ⟨log, h1, h2⟩ := ih h
      exact ⟨log, h1, .blank _ _ _ _ _ h2⟩
    | cons t rest =>
      simp only [lineStep] at h
      change (match (if (!syntaxOk (key t)) = true then _ else _ : Option (Int × FileState σ)) with
        | none => none | some (rc, st) => if rc ≠ 0 then some (rc, st) else fileLoop env ls st) = _ at h
      by_cases hs : syntaxOk (key t) = true
      · simp only [hs, Bool.not_true, Bool.false_eq_true, if_false] at h
        have hs' := (syntaxOk_iff _).1 hs
        change (match (match newSection (key t) with | some _ => _ | none => _ : Option (Int × FileState σ)) with
          | none => none | some (rc, st) => if rc ≠ 0 then some (rc, st) else fileLoop env ls st) = _ at h
        cases hn : newSection (key t) with
        | some name =>
          rw [hn] at h
          simp only at h
          have hk := newSection_iff.1 hn
          rw [hk] at hs'
          have hb : 91 ∉ name ∧ 93 ∉ name := by
            constructor
            · have := hs'.1; simp at this; exact this
            · have := hs'.2
              rw [List.dropLast_concat] at this
              simp at this; exact this
          have main : ∀ v : Option Int, (v = some 0 → ∀ s, cur = some s → Valid env c s) →
              (match (match v with
                | none => none
                | some rc =>
                  if rc ≠ 0 then some (rc, (⟨c, cur, log0⟩ : FileState σ))
                  else match env.find c name with
                    | none => some (ENOENT, ⟨c, none, log0⟩)
                    | some s => some (0, ⟨c, some s, log0⟩)) with
              | none => none
              | some (rc, st) => if rc ≠ 0 then some (rc, st) else fileLoop env ls st) = some (0, st) →
              ∃ log, st.log = log0 ++ log ∧ Accepted env cur c ((t :: rest) :: ls) st.conf log := by
            intro v hv h
            cases v with
            | none => cases h
            | some rc =>
              by_cases hrc : rc = 0
              · subst hrc
                simp only [ne_eq, not_true_eq_false, if_false] at h
                cases hf : env.find c name with
                | none => rw [hf] at h; simp [ENOENT] at h
                | some s =>
                  rw [hf] at h
                  simp only [ne_eq, not_true_eq_false, if_false] at h
                  obtain ⟨log, h1, h2⟩ := ih h
                  exact ⟨log, h1, .header _ _ _ name _ s _ _ _ hk hb.1 hb.2 (hv rfl) hf h2⟩
              · simp only [ne_eq, hrc, not_false_eq_true, if_true, Option.some.injEq, Prod.mk.injEq] at h
                exact absurd h.1 (by first | exact hrc | simp)
          cases cur with
          | none => exact main (some 0) (by simp) h
          | some s => exact main (validate env c s) (by rintro h0 s' hs; cases hs; exact validate_zero.1 h0) h
        | none =>
          rw [hn] at h
          simp only at h
          have hk : ∀ name, key t ≠ 91 :: name ++ [93] := by
            intro name hx
            rw [newSection_iff.2 hx] at hn; cases hn
          cases cur with
          | none => simp [EINVAL] at h
          | some s =>
            simp only at h
            rw [show dashes t = key t from rfl] at h
            cases hp : parseOption env c s (key t :: rest) with
            | none => rw [hp] at h; cases h
            | some r =>
              obtain ⟨rc, c1, log1⟩ := r
              rw [hp] at h
              simp only at h
              by_cases hrc : rc < 0
              · rw [if_pos hrc] at h
                simp only at h
                rw [if_pos (by omega)] at h
                simp only [Option.some.injEq, Prod.mk.injEq] at h
                omega
              · rw [if_neg hrc] at h
                simp only [ne_eq, not_true_eq_false, if_false] at h
                obtain ⟨log, h1, h2⟩ := ih h
                exact ⟨log1 ++ log, by rw [h1]; simp, .option _ _ _ _ rc _ _ _ _ _ hk hs'.1 hs'.2 hp (by omega) h2⟩
      · simp only [hs, Bool.not_false, if_true, EINVAL] at h
        simp at h

theorem loop_of_accepted {σ : Type} {env : Env σ} {cur c ls c' log} (h : Accepted env cur c ls c' log) :
    ∀ log0, ∃ sec, fileLoop env ls ⟨c, cur, log0⟩ = some (0, ⟨c', sec, log0 ++ log⟩) := by
  induction h with
  | done sec c hv =>
    intro log0
    exact ⟨some sec, by simp [fileLoop, validate_zero.2 hv]⟩
  | blank cur c ls c' log _ ih =>
    intro log0
    obtain ⟨sec, h⟩ := ih log0
    exact ⟨sec, by simpa [fileLoop, lineStep] using h⟩
  | header cur c t name rest sec ls c' log hk h1 h2 hv hf _ ih =>
    intro log0
    obtain ⟨sec', h⟩ := ih log0
    refine ⟨sec', ?_⟩
    have hs : syntaxOk (dashes t) = true := by
      rw [syntaxOk_iff, show dashes t = key t from rfl, hk]
      rw [List.dropLast_concat]
      constructor <;> simp [h1, h2]
    have hn : newSection (dashes t) = some name := newSection_iff.2 hk
    simp only [fileLoop, lineStep, hs, hn, Bool.not_true, Bool.false_eq_true, if_false]
    cases cur with
    | none => simp only [ne_eq, not_true_eq_false, if_false, hf]; exact h
    | some s => simp only [validate_zero.2 (hv s rfl), ne_eq, not_true_eq_false, if_false, hf]; exact h
  | option sec c t rest rc c1 log1 ls c' log hk h1 h2 hp hrc _ ih =>
    intro log0
    obtain ⟨sec', h⟩ := ih (log0 ++ log1)
    refine ⟨sec', ?_⟩
    have hs : syntaxOk (dashes t) = true := (syntaxOk_iff _).2 ⟨h1, h2⟩
    have hn : newSection (dashes t) = none := by
      cases hx : newSection (dashes t) with
      | none => rfl
      | some name => exact absurd (newSection_iff.1 hx) (hk name)
    have hp' : parseOption env c sec (dashes t :: rest) = some (rc, c1, log1) := hp
    simp only [fileLoop, lineStep, hs, hn, hp', Bool.not_true, Bool.false_eq_true, if_false, if_neg (show ¬ rc < 0 by omega), ne_eq,
      not_true_eq_false]
    rw [h]; simp

/-- C61: parsing succeeds exactly for acceptable files, and has then called
exactly the handlers of their options, in order. -/
theorem C61_accepted_iff {σ : Type} (env : Env σ) (c : σ) (ls : List (List (List Nat))) (c' : σ) (log : List Called) :
    (∃ sec, parseFile env c ls = some (0, ⟨c', sec, log⟩)) ↔ Accepted env none c ls c' log := by
  constructor
  · rintro ⟨sec, h⟩
    obtain ⟨l, h1, h2⟩ := accepted_of_loop h
    simp only [List.nil_append] at h1
    subst h1
    exact h2
  · intro h
    exact loop_of_accepted h []

example : Accepted sample none 5 [[], [[91, 7, 93]], [[1], [9]], [[2], [9]]] 27
    [⟨[1], ⟨[7], 0, true⟩, [[9]]⟩, ⟨[1], ⟨[8], 0, false⟩, [[9]]⟩, ⟨[2], ⟨[7], 0, true⟩, [[9]]⟩, ⟨[2], ⟨[8], 0, false⟩, [[9]]⟩] := by
  refine .blank _ _ _ _ _ (.header _ _ _ [7] _ ⟨[7], 0, true⟩ _ _ _ (by decide) (by decide) (by decide) (by simp) (by decide) ?_)
  refine .option _ _ _ _ 0 7 [_, _] _ _ [_, _] (by intro n h; simp [key] at h) (by decide) (by decide) (by rfl) (by decide) ?_
  refine .option _ _ _ _ 0 27 [_, _] _ _ [] (by intro n h; simp [key] at h) (by decide) (by decide) (by rfl) (by decide) ?_
  exact .done _ _ ⟨_, rfl, by rintro v hv; cases hv; decide⟩

/-- C61: every file is answered with success or an error. -/
def C61_answered_statement : Prop :=
  ∀ (σ : Type) (env : Env σ), (∀ n, (env.sets n).isSome) → (∀ c s ps n set, env.sets n = some set → ∀ o ∈ set.options, (o.parse c s ps).1 = 0) →
    ∀ c ls, parseFile env c ls ≠ none

/-- False of the code: a file with no section header leaves no section to be
validated at the end (line 891). -/
theorem C61_answered_violated : ¬ C61_answered_statement := by
  intro h
  refine h Nat sample (fun _ => rfl) ?_ 0 [[]] (by decide)
  intro c s ps n set hs o ho
  simp only [sample, Option.some.injEq] at hs
  subst hs
  simp at ho
  rcases ho with rfl | rfl <;> rfl

theorem applyInstances_total {σ : Type} {o : Opt σ} {ps} (h : ∀ c s, (o.parse c s ps).1 = 0) : ∀ (ss : List Sec) (c : σ) log,
    applyInstances o ps ss c log ≠ none := by
  intro ss
  induction ss with
  | nil => intro c log; simp [applyInstances]
  | cons s ss ih => intro c log; simp only [applyInstances, h, if_true]; exact ih _ _

/-- C61, partial: a file with at least one line that is not blank is answered,
provided every category has options registered, and a handler succeeding for a
global section succeeds for the instances. Missing: files without such a line. -/
theorem C61_answered_partial {σ : Type} (env : Env σ) (hs : ∀ n, (env.sets n).isSome)
    (hi : ∀ n set, env.sets n = some set → ∀ o ∈ set.options, ∀ c s ps, (o.parse c s ps).1 = 0 → ∀ c s, (o.parse c s ps).1 = 0)
    (c : σ) (ls : List (List (List Nat))) (hl : ∃ l ∈ ls, l ≠ []) : parseFile env c ls ≠ none := by
  have hval : ∀ c s, validate env c s ≠ none := by
    intro c s
    unfold validate
    cases h : env.sets s.category with
    | none => have := hs s.category; rw [h] at this; cases this
    | some set => cases hv : set.validator <;> simp [hv]
  have hopt : ∀ c s t ts, parseOption env c s (t :: ts) ≠ none := by
    intro c s t ts
    unfold parseOption
    simp only
    cases h : env.sets s.category with
    | none => simp
    | some set =>
      simp only
      have hi := hi _ _ h
      generalize set.options = opts at hi
      induction opts with
      | nil => simp [searchOption]
      | cons o opts ih =>
        simp only [searchOption]
        split
        · unfold applyOption
          by_cases h1 : o.isGlobal = true ∧ (!s.isGlobal) = true
          · rw [if_pos h1]; simp
          rw [if_neg h1]
          simp only
          by_cases h2 : ArityOk o.numParams ts.length
          case neg => rw [if_pos (by by_contra hc; exact h2 ((arity_iff _ _).2 hc))]; simp
          rw [if_neg ((arity_iff _ _).1 h2)]
          by_cases h3 : (o.parse c s ts).1 = 0
          · rw [if_neg (by simpa using h3)]
            have := applyInstances_total (hi o (List.mem_cons_self ..) _ _ _ h3) (env.instances (o.parse c s ts).2 s.category) (o.parse c s ts).2
              [⟨o.name, s, ts⟩]
            cases s.isGlobal with
            | false => simp
            | true =>
              simp only [if_true]
              split
              · rename_i hx; exact absurd hx this
              · simp
          · rw [if_pos h3]; simp
        · exact ih (fun o ho => hi o (List.mem_cons_of_mem _ ho))
  have hstep : ∀ st l, lineStep env st l ≠ none := by
    intro st l
    cases l with
    | nil => simp [lineStep]
    | cons t ts =>
      simp only [lineStep]
      split
      · simp
      · split
        · split
          · rename_i hx
            cases hsec : st.section_ with
            | none => rw [hsec] at hx; cases hx
            | some s => rw [hsec] at hx; exact absurd hx (hval _ _)
          · split
            · simp
            · split <;> simp
        · split
          · simp
          · rename_i s _
            cases hp : parseOption env st.conf s (dashes t :: ts) with
            | none => exact absurd hp (hopt _ _ _ _)
            | some r => obtain ⟨rc, c, log⟩ := r; simp only; split <;> simp
  have hsec : ∀ (ls : List (List (List Nat))) st, (st.section_ ≠ none ∨ ∃ l ∈ ls, l ≠ []) → fileLoop env ls st ≠ none := by
    intro ls
    induction ls with
    | nil =>
      intro st h
      rcases h with h | ⟨l, hl, _⟩
      · simp only [fileLoop]
        cases hx : st.section_ with
        | none => exact absurd hx h
        | some s => simp only [ne_eq, Option.map_eq_none_iff]; exact hval _ _
      · cases hl
    | cons l ls ih =>
      intro st h
      simp only [fileLoop]
      cases hx : lineStep env st l with
      | none => exact absurd hx (hstep _ _)
      | some r =>
        obtain ⟨rc, st'⟩ := r
        simp only
        split
        · simp
        · rename_i hrc
          simp only [ne_eq, Decidable.not_not] at hrc
          subst hrc
          apply ih
          cases l with
          | nil =>
            simp only [lineStep, Option.some.injEq, Prod.mk.injEq] at hx
            rw [← hx.2]
            rcases h with h | ⟨l, hl, hne⟩
            · exact Or.inl h
            · rcases List.mem_cons.1 hl with rfl | hl
              · exact absurd rfl hne
              · exact Or.inr ⟨l, hl, hne⟩
          | cons t ts =>
            left
            simp only [lineStep] at hx
            split at hx
            · simp [EINVAL] at hx
            · split at hx
              · split at hx
                · cases hx
                · split at hx
                  · rename_i hne
                    simp only [Option.some.injEq, Prod.mk.injEq] at hx
                    exact absurd hx.1 hne
                  · split at hx
                    · simp [ENOENT] at hx
                    · simp only [Option.some.injEq, Prod.mk.injEq] at hx
                      rw [← hx.2]; simp
              · cases hsx : st.section_ with
                | none => rw [hsx] at hx; simp [EINVAL] at hx
                | some s =>
                  rw [hsx] at hx
                  simp only at hx
                  split at hx
                  · cases hx
                  · split at hx
                    · simp only [Option.some.injEq, Prod.mk.injEq] at hx; omega
                    · simp only [Option.some.injEq, Prod.mk.injEq] at hx
                      rw [← hx.2]; simp [hsx]
  exact hsec ls _ (Or.inr hl)

example : parseFile sample 0 [[], [[1], [2]]] ≠ none := by decide

end Verif.Config
