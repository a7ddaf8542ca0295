import Verif.Priv.Spec

/-! # Lemmas on editing the environment files -/

set_option linter.unusedSimpArgs false
set_option linter.unusedVariables false

namespace Verif.Priv

theorem unlines_append (a b : List Text) : unlines (a ++ b) = unlines a ++ unlines b := by
  induction a with
  | nil => rfl
  | cons l a ih => simp [unlines, ih]

theorem unlines_isEmpty (ls : List Text) : (unlines ls).isEmpty = ls.isEmpty := by
  cases ls with
  | nil => rfl
  | cons l ls => cases l <;> rfl

theorem unlines_last {ls : List Text} (h : ls ≠ []) : (unlines ls).getLast? = some '\n' := by
  induction ls with
  | nil => exact absurd rfl h
  | cons l ls ih =>
    cases ls with
    | nil => simp [unlines]
    | cons l' ls =>
      have := ih (by simp)
      rw [unlines, List.getLast?_append, List.getLast?_cons, this]
      rfl

theorem nul_not_unlines {ls : List Text} (h : ∀ l ∈ ls, IsLine l) : nul ∉ unlines ls := by
  induction ls with
  | nil => exact List.not_mem_nil
  | cons l ls ih =>
    intro hm
    rw [unlines, List.mem_append, List.mem_cons] at hm
    rcases hm with hm | hm | hm
    · exact (h l List.mem_cons_self).2 hm
    · revert hm; decide
    · exact ih (fun x hx => h x (List.mem_cons_of_mem _ hx)) hm

theorem mem_takeWhile_imp {p : Char → Bool} {l : Text} {c : Char} (h : c ∈ l.takeWhile p) :
    p c = true := by
  induction l with
  | nil => cases h
  | cons d l ih =>
    rw [List.takeWhile_cons] at h
    split at h
    · rename_i hd
      rcases List.mem_cons.mp h with rfl | h
      · exact hd
      · exact ih h
    · cases h

theorem begins_iff {p l : Text} : p.isPrefixOf l = true ↔ Begins p l := by
  rw [List.isPrefixOf_iff_prefix]
  constructor
  · rintro ⟨r, rfl⟩; exact ⟨r, rfl⟩
  · rintro ⟨r, rfl⟩; exact ⟨r, rfl⟩

theorem scan_line (key : Text) (e : Ed) (r : Text) : ∀ (l cur : Text), IsLine l →
    e.scan key cur (l ++ '\n' :: r) = (e.line key (cur ++ l) ['\n'] r.isEmpty).scan key [] r := by
  intro l
  induction l with
  | nil =>
    intro cur _
    rw [List.nil_append, List.append_nil]
    conv => lhs; unfold Ed.scan
    rw [if_neg (by decide), if_pos rfl]
  | cons c l ih =>
    intro cur h
    have hc : c ≠ nul := fun e => h.2 (by rw [e]; exact List.mem_cons_self)
    have hn : c ≠ '\n' := fun e => h.1 (by rw [e]; exact List.mem_cons_self)
    rw [List.cons_append]
    conv => lhs; unfold Ed.scan
    rw [if_neg hc, if_neg hn, ih (cur ++ [c]) ⟨fun hm => h.1 (List.mem_cons_of_mem _ hm),
      fun hm => h.2 (List.mem_cons_of_mem _ hm)⟩]
    simp

/-- The loop over lines. -/
def Ed.lines (key : Text) : Ed → List Text → Ed
  | e, [] => e
  | e, l :: ls => (e.line key l ['\n'] ls.isEmpty).lines key ls

theorem scan_unlines (key : Text) : ∀ (ls : List Text) (e : Ed), (∀ l ∈ ls, IsLine l) →
    e.scan key [] (unlines ls) = some (e.lines key ls) := by
  intro ls
  induction ls with
  | nil =>
    intro e _
    simp [unlines, Ed.scan, Ed.lines]
  | cons l ls ih =>
    intro e h
    rw [unlines, scan_line key e _ l [] (h l List.mem_cons_self), unlines_isEmpty,
      ih _ fun x hx => h x (List.mem_cons_of_mem _ hx)]
    rfl

theorem read_unlines (key : Text) (ls : List Text) (h : ∀ l ∈ ls, IsLine l) :
    readEnv key (unlines ls) =
      some ((Ed.lines key {} ls).body, (Ed.lines key {} ls).value) := by
  by_cases hn : ls = []
  · subst hn
    rfl
  · unfold readEnv
    rw [unlines_last hn]
    dsimp only
    rw [if_neg (by simp), scan_unlines key ls _ h]
    rfl

/-- The value found in the lines of the user. -/
def lastValue (key : Text) : Option Text → List Text → Option Text
  | v, [] => v
  | v, l :: ls => lastValue key (match optValue key l with | some w => some w | none => v) ls

theorem lines_middle (key : Text) (k : Text) (v : Option Text) (c : Text) (ls : List Text)
    (hc : Closes c) : ∀ (m : List Text) (p : Text), (∀ x ∈ m, ¬ Closes x) →
    Ed.lines key { kept := k, ours := some p, value := v } (m ++ c :: ls) =
      Ed.lines key { kept := k, ours := none, value := v } ls := by
  intro m
  induction m with
  | nil =>
    intro p _
    rw [List.nil_append, Ed.lines]
    have : endBlock.isPrefixOf c = true := begins_iff.mpr hc
    simp [Ed.line, this]
  | cons x m ih =>
    intro p h
    rw [List.cons_append, Ed.lines]
    have hx : endBlock.isPrefixOf x = false := by
      rw [Bool.eq_false_iff]
      intro hp
      exact h x List.mem_cons_self (begins_iff.mp hp)
    have hl : (m ++ c :: ls).isEmpty = false := by cases m <;> rfl
    rw [hl]
    simp only [Ed.line, hx, Bool.or_self, Bool.false_eq_true, if_false]
    exact ih _ fun y hy => h y (List.mem_cons_of_mem _ hy)

theorem mixed_lines (key : Text) {ls us : List Text} (h : Mixed ls us) :
    ∀ (k : Text) (v : Option Text), Ed.lines key { kept := k, ours := none, value := v } ls =
      { kept := k ++ unlines us, ours := none, value := lastValue key v us } := by
  induction h with
  | nil => intro k v; simp [Ed.lines, unlines, lastValue]
  | @user l ls us hl ho _ ih =>
    intro k v
    have hs : startBlock.isPrefixOf l = false := by
      rw [Bool.eq_false_iff]
      intro hp
      exact ho (begins_iff.mp hp)
    rw [Ed.lines]
    simp only [Ed.line, hs, Bool.false_eq_true, if_false]
    rw [ih]
    simp only [unlines, lastValue, List.append_assoc, List.cons_append, List.nil_append]
    cases optValue key l <;> rfl
  | @ours o m c ls us hol ho hm hcl hc _ ih =>
    intro k v
    have hs : startBlock.isPrefixOf o = true := begins_iff.mpr ho
    rw [List.cons_append, Ed.lines]
    simp only [Ed.line, hs, if_true]
    rw [lines_middle key k v c ls hc m _ fun x hx => (hm x hx).2]
    exact ih k v

theorem mixed_isLine {ls us : List Text} (h : Mixed ls us) :
    (∀ l ∈ ls, IsLine l) ∧ ∀ l ∈ us, IsLine l ∧ ¬ Opens l := by
  induction h with
  | nil => exact ⟨fun _ h => absurd h List.not_mem_nil, fun _ h => absurd h List.not_mem_nil⟩
  | user hl ho _ ih =>
    constructor
    · intro x hx
      rcases List.mem_cons.mp hx with rfl | hx
      · exact hl
      · exact ih.1 x hx
    · intro x hx
      rcases List.mem_cons.mp hx with rfl | hx
      · exact ⟨hl, ho⟩
      · exact ih.2 x hx
  | ours hol ho hm hcl hc _ ih =>
    refine ⟨?_, ih.2⟩
    intro x hx
    rcases List.mem_append.mp hx with hx | hx
    · rcases List.mem_cons.mp hx with rfl | hx
      · exact hol
      · exact (hm x hx).1
    · rcases List.mem_cons.mp hx with rfl | hx
      · exact hcl
      · exact ih.1 x hx

theorem mixed_self {us : List Text} (h : ∀ l ∈ us, IsLine l ∧ ¬ Opens l) : Mixed us us := by
  induction us with
  | nil => exact .nil
  | cons l us ih =>
    exact .user (h l List.mem_cons_self).1 (h l List.mem_cons_self).2
      (ih fun x hx => h x (List.mem_cons_of_mem _ hx))

theorem mixed_append {a b c d : List Text} (h : Mixed a b) (h' : Mixed c d) :
    Mixed (a ++ c) (b ++ d) := by
  induction h with
  | nil => exact h'
  | user hl ho _ ih => exact .user hl ho ih
  | ours hol ho hm hcl hc _ ih =>
    have := Mixed.ours hol ho hm hcl hc ih
    simpa using this

theorem read_mixed (key : Text) {ls us : List Text} (h : Mixed ls us) :
    readEnv key (unlines ls) = some (unlines us, lastValue key none us) := by
  rw [read_unlines key ls (mixed_isLine h).1]
  have := mixed_lines key h [] none
  have e : Ed.lines key {} ls =
      { kept := [] ++ unlines us, ours := none, value := lastValue key none us } := this
  rw [e]
  simp [Ed.body]

/-! ### The value -/

theorem longest_mem {run tail v : Text} : ∀ {k : Nat}, longest run tail k = some v →
    ∀ c ∈ v, c ∈ run := by
  intro k
  induction k with
  | zero =>
    intro h c hc
    simp only [longest] at h
    split at h
    · cases h; cases hc
    · cases h
  | succ k ih =>
    intro h c hc
    simp only [longest] at h
    split at h
    · cases h
      exact List.mem_of_mem_take hc
    · exact ih h c hc

theorem valueOf_mem {l v : Text} (h : valueOf l = some v) : ∀ c ∈ v, c ∈ l ∧ c ≠ '"' := by
  intro c hc
  have := longest_mem h c hc
  refine ⟨(List.takeWhile_sublist _).subset this, ?_⟩
  have h2 := mem_takeWhile_imp this
  simpa using h2

theorem optValue_spec {key l v : Text} (h : optValue key l = some v) :
    (∀ c ∈ v, c ∈ l ∧ c ≠ '"') ∧
    ∃ a b r : Text, l = a ++ key ++ b ++ '=' :: r ∧ (∀ c ∈ a, isSpace c = true) ∧
      ∀ c ∈ b, isSpace c = true := by
  unfold optValue at h
  dsimp only at h
  split at h
  · rename_i hp
    rw [List.isPrefixOf_iff_prefix] at hp
    obtain ⟨r1, hr1⟩ := hp
    have hl : l = l.takeWhile isSpace ++ (key ++ r1) := by
      rw [hr1, List.takeWhile_append_dropWhile]
    rw [← hr1, List.drop_left] at h
    split at h
    · rename_i r2 hr2
      have h1 : r1 = r1.takeWhile isSpace ++ '=' :: r2 := by
        rw [← hr2, List.takeWhile_append_dropWhile]
      have hl2 : l = l.takeWhile isSpace ++ key ++ r1.takeWhile isSpace ++ '=' :: r2 := by
        conv => lhs; rw [hl, h1]
        simp
      have hsub : ∀ c ∈ r2, c ∈ l := by
        intro c hc
        rw [hl2]
        exact List.mem_append_right _ (List.mem_cons_of_mem _ hc)
      refine ⟨?_, _, _, _, hl2, fun c hc => mem_takeWhile_imp hc,
        fun c hc => mem_takeWhile_imp hc⟩
      intro c hc
      split at h
      · rename_i r3 hr3
        have := valueOf_mem h c hc
        refine ⟨hsub c ((List.dropWhile_sublist isSpace).subset ?_), this.2⟩
        rw [hr3]
        exact List.mem_cons_of_mem _ this.1
      · have := valueOf_mem h c hc
        exact ⟨hsub c ((List.dropWhile_sublist isSpace).subset this.1), this.2⟩
    · cases h
  · cases h

theorem isSpace_blank {c : Char} (h : isSpace c = true) : Blank c := by
  simp only [isSpace, Bool.or_eq_true, decide_eq_true_eq, Bool.and_eq_true] at h
  have hv : ∀ d : Char, c.toNat = d.toNat → c = d := fun d e => Char.toNat_inj.mp e
  unfold Blank
  rcases h with h | ⟨h1, h2⟩
  · exact .inl (hv ' ' h)
  · have : c.toNat = 9 ∨ c.toNat = 10 ∨ c.toNat = 11 ∨ c.toNat = 12 ∨ c.toNat = 13 := by omega
    rcases this with h | h | h | h | h
    · exact .inr (.inl (hv '\t' h))
    · exact .inr (.inr (.inl (hv '\n' h)))
    · exact .inr (.inr (.inr (.inl h)))
    · exact .inr (.inr (.inr (.inr (.inl h))))
    · exact .inr (.inr (.inr (.inr (.inr (hv '\r' h)))))

theorem optValue_assigns {key l v : Text} (h : optValue key l = some v) : Assigns key l := by
  obtain ⟨-, a, b, r, e, ha, hb⟩ := optValue_spec h
  exact ⟨a, b, r, e, fun c hc => isSpace_blank (ha c hc), fun c hc => isSpace_blank (hb c hc)⟩

theorem lastValue_mem {key : Text} {us : List Text} : ∀ {v0 v : Option Text} {w : Text},
    lastValue key v0 us = some w → v0 = some w ∨ ∃ l ∈ us, optValue key l = some w := by
  induction us with
  | nil => intro v0 _ w h; exact .inl h
  | cons l us ih =>
    intro v0 _ w h
    rw [lastValue] at h
    rcases ih (v := none) h with h1 | ⟨x, hx, h1⟩
    · split at h1
      · rename_i z hz
        cases h1
        exact .inr ⟨l, List.mem_cons_self, hz⟩
      · exact .inl h1
    · exact .inr ⟨x, List.mem_cons_of_mem _ hx, h1⟩

theorem lastValue_none {key : Text} : ∀ {us : List Text} {v0 : Option Text},
    (∀ x ∈ us, ¬ Assigns key x) → lastValue key v0 us = v0 := by
  intro us
  induction us with
  | nil => intro v0 _; rfl
  | cons l us ih =>
    intro v0 h
    have : optValue key l = none := by
      cases he : optValue key l with
      | none => rfl
      | some v => exact absurd (optValue_assigns he) (h l List.mem_cons_self)
    rw [lastValue, this]
    exact ih fun x hx => h x (List.mem_cons_of_mem _ hx)

theorem lastValue_append {key : Text} : ∀ {a b : List Text} {v0 : Option Text},
    lastValue key v0 (a ++ b) = lastValue key (lastValue key v0 a) b := by
  intro a
  induction a with
  | nil => intro b v0; rfl
  | cons l a ih => intro b v0; exact ih

theorem key_head {key : Text} (hk : Key key) : ∃ c r, key = c :: r ∧ isSpace c = false ∧ c ≠ '#' := by
  rcases hk with rfl | rfl
  · exact ⟨'O', "PTIONS".toList, rfl, by decide, by decide⟩
  · exact ⟨'D', "AEMON_OPTS".toList, rfl, by decide, by decide⟩

theorem optValue_quoted {key v : Text} (hk : Key key) (hv : '"' ∉ v) :
    optValue key (quoted key v) = some v := by
  obtain ⟨c, r, hkey, hs, -⟩ := key_head hk
  have h1 : (quoted key v).dropWhile isSpace = quoted key v := by
    rw [quoted, hkey]
    simp [List.dropWhile_cons, hs]
  unfold optValue
  dsimp only
  rw [h1]
  have h2 : key.isPrefixOf (quoted key v) = true :=
    begins_iff.mpr ⟨'=' :: '"' :: v ++ ['"'], by simp [quoted]⟩
  rw [if_pos h2]
  have h3 : ((quoted key v).drop key.length).dropWhile isSpace = '=' :: '"' :: (v ++ ['"']) := by
    have : quoted key v = key ++ ('=' :: '"' :: (v ++ ['"'])) := by simp [quoted]
    rw [this, List.drop_left, List.dropWhile_cons]
    simp [show isSpace '=' = false by decide]
  rw [h3]
  have h4 : ('"' :: (v ++ ['"'])).dropWhile isSpace = '"' :: (v ++ ['"']) := by
    rw [List.dropWhile_cons]
    simp [show isSpace '"' = false by decide]
  simp only [h4]
  unfold valueOf
  have hall : ∀ x ∈ v, (decide (x ≠ '"')) = true := by
    intro x hx
    simp only [ne_eq, decide_eq_true_eq]
    intro e
    exact hv (e ▸ hx)
  have h5 : (v ++ ['"']).takeWhile (fun x => decide (x ≠ '"')) = v := by
    rw [List.takeWhile_append_of_pos hall]
    simp [List.takeWhile_cons]
  have h6 : (v ++ ['"']).dropWhile (fun x => decide (x ≠ '"')) = ['"'] := by
    rw [List.dropWhile_append_of_pos hall]
    simp [List.dropWhile_cons]
  have h7 : longest v ['"'] v.length = some v := by
    cases hlen : v.length with
    | zero =>
      have : v = [] := List.length_eq_zero_iff.mp hlen
      subst this
      rfl
    | succ k =>
      unfold longest
      rw [← hlen, List.drop_length, List.take_length]
      rfl
  simp only [h5, h6, h7]

theorem lastValue_of_last {key v : Text} {us : List Text} (hk : Key key) (hv : '"' ∉ v)
    (h : LastAssigns key us (quoted key v)) : lastValue key none us = some v := by
  obtain ⟨pre, post, rfl, -, hp⟩ := h
  rw [lastValue_append, lastValue, optValue_quoted hk hv]
  exact lastValue_none hp

/-! ### The section -/

/-- The line of the section that sets the options. -/
def optLine (key : Text) (v : Option Text) : Text :=
  quoted key ((match v with | some v => v ++ [' '] | none => []) ++ "-x".toList)

theorem section_lines (key : Text) (v : Option Text) :
    section_ key v = unlines [startBlock, optLine key v, endBlock] := by
  cases v <;> simp [section_, optLine, quoted, unlines]

theorem assigns_quoted (key v : Text) : Assigns key (quoted key v) :=
  ⟨[], [], '"' :: v ++ ['"'], by simp [quoted], fun _ h => absurd h List.not_mem_nil,
    fun _ h => absurd h List.not_mem_nil⟩

theorem key_isLine {key : Text} (hk : Key key) : IsLine key := by
  rcases hk with rfl | rfl
  · exact ⟨by decide, by decide⟩
  · exact ⟨by decide, by decide⟩

theorem optLine_ok {key : Text} (hk : Key key) {v : Option Text}
    (hv : ∀ w, v = some w → IsLine w) : IsLine (optLine key v) ∧ ¬ Closes (optLine key v) := by
  have hkl := key_isLine hk
  constructor
  · cases v with
    | none =>
      constructor
      · intro h
        simp [optLine, quoted] at h
        exact hkl.1 h
      · intro h
        simp [optLine, quoted] at h
        exact hkl.2 h
    | some w =>
      have hw := hv w rfl
      constructor
      · intro h
        simp [optLine, quoted] at h
        rcases h with h | h
        · exact hkl.1 h
        · exact hw.1 h
      · intro h
        simp [optLine, quoted] at h
        rcases h with h | h
        · exact hkl.2 h
        · exact hw.2 h
  · rintro ⟨r, hr⟩
    obtain ⟨c, k, hkey, -, hc⟩ := key_head hk
    unfold optLine quoted at hr
    rw [hkey] at hr
    have := congrArg List.head? hr
    simp at this
    exact hc this

theorem lastValue_isLine {key : Text} {us : List Text} (h : ∀ l ∈ us, IsLine l ∧ ¬ Opens l)
    (w : Text) (hw : lastValue key none us = some w) : IsLine w := by
  rcases lastValue_mem (v := none) hw with h1 | ⟨l, hl, h1⟩
  · cases h1
  · have := (optValue_spec h1).1
    exact ⟨fun hm => (h l hl).1.1 (this _ hm).1, fun hm => (h l hl).1.2 (this _ hm).1⟩

theorem isLine_start : IsLine startBlock := ⟨by decide, by decide⟩
theorem isLine_end : IsLine endBlock := ⟨by decide, by decide⟩
theorem opens_start : Opens startBlock := ⟨[], (List.append_nil _).symm⟩
theorem closes_end : Closes endBlock := ⟨[], (List.append_nil _).symm⟩

/-- Appending the section keeps the file well-formed with the same lines of the user. -/
theorem mixed_section {key : Text} (hk : Key key) {us : List Text}
    (h : ∀ l ∈ us, IsLine l ∧ ¬ Opens l) :
    Mixed (us ++ [startBlock, optLine key (lastValue key none us), endBlock]) us := by
  have ho := optLine_ok hk (v := lastValue key none us) fun w hw => lastValue_isLine h w hw
  have hs : Mixed [startBlock, optLine key (lastValue key none us), endBlock] [] := by
    refine Mixed.ours (o := startBlock) (m := [optLine key (lastValue key none us)])
      (c := endBlock) isLine_start opens_start ?_ isLine_end closes_end .nil
    intro x hx
    rw [List.mem_singleton] at hx
    subst hx
    exact ho
  simpa using mixed_append (mixed_self h) hs

theorem edit_mixed (key : Text) {ls us : List Text} (h : Mixed ls us) (op : Op) :
    editFile key op (unlines ls) = some (unlines (us ++ if op = .disable then
      [startBlock, optLine key (lastValue key none us), endBlock] else [])) := by
  unfold editFile
  rw [read_mixed key h]
  simp only [Option.map_some]
  split
  · rw [section_lines, unlines_append]
  · simp

/-! ### Accesses -/

theorem scan_some (key : Text) : ∀ (r cur : Text) (e : Ed), nul ∉ r →
    ∃ e', e.scan key cur r = some e' := by
  intro r
  induction r with
  | nil => intro cur e _; exact ⟨_, rfl⟩
  | cons c r ih =>
    intro cur e h
    have hc : c ≠ nul := fun e => h (by rw [e]; exact List.mem_cons_self)
    have hr : nul ∉ r := fun hm => h (List.mem_cons_of_mem _ hm)
    unfold Ed.scan
    rw [if_neg hc]
    split
    · exact ih _ _ hr
    · exact ih _ _ hr

end Verif.Priv
