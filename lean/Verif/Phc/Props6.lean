import Verif.Phc.Props5

set_option linter.unusedSimpArgs false
set_option linter.unusedVariables false

/-!
# Properties of hardware clock devices: external PPS input and file descriptors
-/

namespace Verif.Phc

open Verif.Time (Ts val)

/-! ## C171: the external PPS device -/

/-- The names of the second device of drivers that provide one. -/
def Companion (text : List Char) : Prop := FirstWord text ['s', 'f', 'c'] ∨ FirstWord text ['x', 'l', 'n', 'x']

/-- The name of the external PPS input of a hardware clock. -/
def externalName (idx : Nat) : List Char := clockName idx ++ ['.', 'e', 'x', 't']

/-- C171. The external PPS device of a clock is one named after the clock, or a
companion device listed directly after the internal PPS device of the clock. -/
def C171_statement : Prop :=
  ∀ (env : Env) (w w' : World), ShortNames env → w.phc.idx < 100000000 → discoverDev env w = .ok w' →
    w'.phc.devPath ≠ [] → ∃ l pre text post, env.listing w.tick = .entries l ∧
      l = pre ++ (w'.phc.devPath, some text) :: post ∧
      (FirstWord text (externalName w.phc.idx) ∨
        (Companion text ∧ ∃ pre' e x, pre = pre' ++ [(e, some x)] ∧ FirstWord x (clockName w.phc.idx)))

theorem extName_short (idx : Nat) (h : idx < 100000000) : extName idx = externalName idx := by
  unfold extName externalName clockName
  apply List.take_of_length_le
  have : (Nat.toDigits 10 idx).length ≤ 8 := by
    rw [Nat.length_toDigits_le_iff] <;> omega
  simp only [List.length_append, List.length_cons, List.length_nil]
  omega

theorem searchStep_ext {name ext word : List Char} {s : Search} (hs : s = .searching ∨ s = .foundInt) :
    (searchStep name ext s word = .foundExt ↔
      word = ext ∨ (s = .foundInt ∧ (word = ['s', 'f', 'c'] ∨ word = ['x', 'l', 'n', 'x']))) ∧
    (searchStep name ext s word ≠ .foundExt → (searchStep name ext s word = .searching ∨
      searchStep name ext s word = .foundInt) ∧ (searchStep name ext s word = .foundInt ↔ s = .foundInt ∨ word = name)) := by
  unfold searchStep
  by_cases h : word = ext
  · simp [h]
  · rcases hs with rfl | rfl
    · simp only [h, if_false, false_or, reduceCtorEq, false_and, or_false]
      by_cases h2 : word = name <;> simp [h2]
    · simp only [h, if_false, false_or, true_and]
      by_cases h2 : word = ['s', 'f', 'c'] ∨ word = ['x', 'l', 'n', 'x'] <;> simp [h2]

/-- The search, from either of its states. -/
theorem findExt_spec (name ext : List Char) (l : List (List Char × Option (List Char)))
    (hs : ∀ e text word, (e, some text) ∈ l → FirstWord text word → word.length < 16) :
    ∀ s, s = .searching ∨ s = .foundInt →
    (∀ e, findExt name ext s l = .ok (some e) → ∃ pre text post, l = pre ++ (e, some text) :: post ∧
      (∀ e' x, (e', some x) ∈ pre → ¬ FirstWord x ext) ∧
      (FirstWord text ext ∨
        (Companion text ∧ (s = .foundInt ∨ ∃ e' x, (e', some x) ∈ pre ∧ FirstWord x name)))) ∧
    (findExt name ext s l = .ok none → (∀ a ∈ l, ∃ text word, a.2 = some text ∧ FirstWord text word) →
      (∀ e x, (e, some x) ∈ l → ¬ FirstWord x ext) ∧
      (s = .foundInt → ∀ e x, (e, some x) ∈ l → ¬ Companion x) ∧
      (∀ pre e x post, l = pre ++ (e, some x) :: post → FirstWord x name → ∀ e' x', (e', some x') ∈ post → ¬ Companion x')) := by
  induction l with
  | nil =>
    intro s _
    refine ⟨?_, fun _ _ => ⟨by simp, by simp, ?_⟩⟩
    · intro e h; cases h
    intro pre e x post h
    cases pre <;> cases h
  | cons a rest ih =>
    intro s hst
    have ih := ih (fun e text word h => hs e text word (List.mem_cons_of_mem _ h))
    obtain ⟨e0, t⟩ := a
    cases t with
    | none =>
      constructor
      · intro e h
        simp only [findExt] at h
        split at h
        · cases h
        · obtain ⟨pre, text, post, h1, h2, h3⟩ := (ih s hst).1 e h
          refine ⟨(e0, none) :: pre, text, post, by rw [h1]; rfl, ?_, ?_⟩
          · intro e' x hx
            simp at hx
            exact h2 e' x hx
          · rcases h3 with h3 | ⟨h3, h4⟩
            · exact Or.inl h3
            · right
              refine ⟨h3, ?_⟩
              rcases h4 with h4 | ⟨e', x, h4, h5⟩
              · exact Or.inl h4
              · exact Or.inr ⟨e', x, by simp [h4], h5⟩
      · intro _ hall
        obtain ⟨text, word, hc, _⟩ := hall (e0, none) (by simp)
        cases hc
    | some text0 =>
      rcases scanName_short text0 (fun w hw => hs e0 text0 w (by simp) hw) with ⟨word, hsc, hfw⟩ | ⟨hsc, hno⟩
      · have hstep := searchStep_ext (name := name) (ext := ext) (word := word) hst
        have huniq : ∀ w', FirstWord text0 w' → word = w' := fun w' hw' => firstWord_unique hfw hw'
        by_cases hext : searchStep name ext s word = .foundExt
        · constructor
          · intro e h
            simp only [findExt, hsc] at h
            rw [if_pos hext] at h
            cases h
            refine ⟨[], text0, rest, rfl, by simp, ?_⟩
            rcases hstep.1.mp hext with hw | ⟨hw, hw'⟩
            · left; rw [← hw]; exact hfw
            · right
              refine ⟨?_, Or.inl hw⟩
              rcases hw' with hw' | hw'
              · left; rw [← hw']; exact hfw
              · right; rw [← hw']; exact hfw
          · intro h
            simp only [findExt, hsc] at h
            rw [if_pos hext] at h
            cases h
        · obtain ⟨hnx, hint⟩ := hstep.2 hext
          have hnotext : word ≠ ext := fun hc => hext (hstep.1.mpr (Or.inl hc))
          have ih' := ih _ hnx
          constructor
          · intro e h
            simp only [findExt, hsc] at h
            rw [if_neg hext] at h
            obtain ⟨pre, text, post, h1, h2, h3⟩ := ih'.1 e h
            refine ⟨(e0, some text0) :: pre, text, post, by rw [h1]; rfl, ?_, ?_⟩
            · intro e' x hx hxf
              rcases List.mem_cons.mp hx with hx | hx
              · cases hx
                exact hnotext (huniq ext hxf)
              · exact h2 e' x hx hxf
            · rcases h3 with h3 | ⟨h3, h4⟩
              · exact Or.inl h3
              · right
                refine ⟨h3, ?_⟩
                rcases h4 with h4 | ⟨e', x, h4, h5⟩
                · rcases hint.mp h4 with h6 | h6
                  · exact Or.inl h6
                  · exact Or.inr ⟨e0, text0, by simp, by rw [← h6]; exact hfw⟩
                · exact Or.inr ⟨e', x, by simp [h4], h5⟩
          · intro h hall
            simp only [findExt, hsc] at h
            rw [if_neg hext] at h
            obtain ⟨g1, g2, g3⟩ := ih'.2 h (fun a ha => hall a (List.mem_cons_of_mem _ ha))
            refine ⟨?_, ?_, ?_⟩
            · intro e x hx hxf
              rcases List.mem_cons.mp hx with hx | hx
              · cases hx
                exact hnotext (huniq ext hxf)
              · exact g1 e x hx hxf
            · intro hsi e x hx hxc
              rcases List.mem_cons.mp hx with hx | hx
              · cases hx
                apply hext
                apply hstep.1.mpr
                right
                refine ⟨hsi, ?_⟩
                rcases hxc with hxc | hxc
                · exact Or.inl (huniq _ hxc)
                · exact Or.inr (huniq _ hxc)
              · exact g2 (hint.mpr (Or.inl hsi)) e x hx hxc
            · intro pre e x post hl hx
              cases pre with
              | nil =>
                simp only [List.nil_append, List.cons.injEq, Prod.mk.injEq, Option.some.injEq] at hl
                obtain ⟨⟨_, rfl⟩, rfl⟩ := hl
                intro e' x' hx'
                exact g2 (hint.mpr (Or.inr (huniq name hx))) e' x' hx'
              | cons b pre' =>
                simp only [List.cons_append, List.cons.injEq] at hl
                exact g3 pre' e x post hl.2 hx
      · constructor
        · intro e h
          simp only [findExt, hsc] at h
          have hst' : (if s = .foundInt then Search.searching else s) = .searching ∨
              (if s = .foundInt then Search.searching else s) = .foundInt := by
            rcases hst with rfl | rfl <;> simp
          obtain ⟨pre, text, post, h1, h2, h3⟩ := (ih _ hst').1 e h
          refine ⟨(e0, some text0) :: pre, text, post, by rw [h1]; rfl, ?_, ?_⟩
          · intro e' x hx hxf
            rcases List.mem_cons.mp hx with hx | hx
            · cases hx
              exact hno ext hxf
            · exact h2 e' x hx hxf
          · rcases h3 with h3 | ⟨h3, h4⟩
            · exact Or.inl h3
            · right
              refine ⟨h3, ?_⟩
              rcases h4 with h4 | ⟨e', x, h4, h5⟩
              · rcases hst with rfl | rfl <;> simp at h4
              · exact Or.inr ⟨e', x, by simp [h4], h5⟩
        · intro _ hall
          obtain ⟨text, word, hc, hw⟩ := hall (e0, some text0) (by simp)
          cases hc
          exact absurd hw (hno word)

/-- Two clocks, the driver of the second of which provides a companion device. -/
def companions : Env :=
  { bare with listing := fun _ => .entries [(['p', '0'], some ['p', 't', 'p', '0', '\n']),
      (['p', '1'], some ['p', 't', 'p', '1', '\n']), (['p', '2'], some ['s', 'f', 'c', '\n'])] }

theorem companions_short : ShortNames companions := by
  intro t l h e text word hm hw
  simp only [companions, Listing.entries.injEq] at h
  subst h
  have := word_le hw
  simp only [List.mem_cons, Prod.mk.injEq, Option.some.injEq, List.not_mem_nil, or_false] at hm
  rcases hm with ⟨_, rfl⟩ | ⟨_, rfl⟩ | ⟨_, rfl⟩ <;> simp at this <;> omega

/-- C171 fails: the companion of the second clock is taken for that of the
first, because other devices in between do not end the search. -/
theorem C171_violated : ¬ C171_statement := by
  intro h
  obtain ⟨w', hw', hp⟩ : ∃ w', discoverDev companions bare0 = .ok w' ∧ w'.phc.devPath = ['p', '2'] :=
    ⟨_, by rfl, by decide +kernel⟩
  obtain ⟨l, pre, text, post, h1, h2, h3⟩ := h companions bare0 w' companions_short (by decide) hw' (by rw [hp]; decide)
  rw [hp] at h2
  simp only [companions, Listing.entries.injEq] at h1
  rw [← h1] at h2
  have hidx : bare0.phc.idx = 0 := by decide +kernel
  -- the only split is after the first two
  have hpre : pre = [(['p', '0'], some ['p', 't', 'p', '0', '\n']), (['p', '1'], some ['p', 't', 'p', '1', '\n'])] ∧
      text = ['s', 'f', 'c', '\n'] := by
    rcases pre with _ | ⟨a, _ | ⟨b, _ | ⟨c, rest⟩⟩⟩
    · simp at h2
    · simp at h2
    · simp at h2; simp [h2]
    · simp at h2
  obtain ⟨hpre, htext⟩ := hpre
  subst htext
  have hsfc : FirstWord ['s', 'f', 'c', '\n'] ['s', 'f', 'c'] := ⟨[], ['\n'], by decide, by simp, by simp [blank], by simp, by simp [blank]⟩
  have hptp1 : FirstWord ['p', 't', 'p', '1', '\n'] ['p', 't', 'p', '1'] :=
    ⟨[], ['\n'], by decide, by simp, by simp [blank], by simp, by simp [blank]⟩
  rcases h3 with h3 | ⟨_, pre', e, x, h4, h5⟩
  · have := firstWord_unique hsfc h3
    rw [hidx] at this
    revert this
    decide
  · rw [hpre] at h4
    have h4' := congrArg List.getLast? h4
    simp at h4'
    obtain ⟨_, rfl⟩ := h4'
    have := firstWord_unique hptp1 h5
    rw [hidx] at this
    revert this
    decide

/-- What holds of C171: the device is named after the clock, or it is a
companion device listed somewhere after the internal device of the clock; and
where all names can be read and some such device is listed, one is found. -/
theorem C171_external_partial (env : Env) (w w' : World) (hs : ShortNames env) (hi : w.phc.idx < 100000000)
    (h : discoverDev env w = .ok w') :
    (w'.phc.devPath ≠ [] → ∃ l pre text post, env.listing w.tick = .entries l ∧
      l = pre ++ (w'.phc.devPath, some text) :: post ∧
      (∀ e x, (e, some x) ∈ pre → ¬ FirstWord x (externalName w.phc.idx)) ∧
      (FirstWord text (externalName w.phc.idx) ∨
        (Companion text ∧ ∃ e x, (e, some x) ∈ pre ∧ FirstWord x (clockName w.phc.idx)))) ∧
    (∀ l, env.listing w.tick = .entries l → w'.phc.devPath = [] →
      (∀ a ∈ l, a.1 ≠ [] ∧ ∃ text word, a.2 = some text ∧ FirstWord text word) →
      (∀ e x, (e, some x) ∈ l → ¬ FirstWord x (externalName w.phc.idx)) ∧
      ∀ pre e x post, l = pre ++ (e, some x) :: post → FirstWord x (clockName w.phc.idx) →
        ∀ e' x', (e', some x') ∈ post → ¬ Companion x') := by
  unfold discoverDev at h
  rw [phcName_short w.phc.idx (by omega), extName_short w.phc.idx hi] at h
  split at h
  · rename_i e hl
    cases h
    exact ⟨fun hc => absurd rfl hc, fun l hl' => by rw [hl] at hl'; cases hl'⟩
  · rename_i l hl
    have hspec := findExt_spec (clockName w.phc.idx) (externalName w.phc.idx) l
      (fun e text word h => hs _ l hl e text word h) .searching (Or.inl rfl)
    split at h
    · cases h
    · rename_i hf
      cases h
      refine ⟨fun hc => absurd rfl hc, ?_⟩
      intro l' hl' _ hall
      rw [hl] at hl'
      cases hl'
      have := hspec.2 hf (fun a ha => (hall a ha).2)
      exact ⟨this.1, this.2.2⟩
    · rename_i entry hf
      cases h
      obtain ⟨pre, text, post, h1, h2, h3⟩ := hspec.1 entry hf
      constructor
      · intro _
        refine ⟨l, pre, text, post, hl, h1, h2, ?_⟩
        rcases h3 with h3 | ⟨h3, h4⟩
        · exact Or.inl h3
        · right
          refine ⟨h3, ?_⟩
          rcases h4 with h4 | h4
          · cases h4
          · exact h4
      · intro l' hl' hne hall
        rw [hl] at hl'
        cases hl'
        exact absurd hne (hall (entry, some text) (by rw [h1]; simp)).1

example : ∃ w', discoverDev companions bare0 = .ok w' ∧ w'.phc.devPath = ['p', '2'] := ⟨_, by rfl, by decide +kernel⟩

end Verif.Phc
