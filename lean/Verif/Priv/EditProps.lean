import Verif.Priv.EditSupport

/-! # Properties of editing chronyd's environment files: C325-C328 -/

set_option linter.unusedSimpArgs false
set_option linter.unusedVariables false

namespace Verif.Priv

/-- A succession of operations on a file. -/
def edits (key : Text) : List Op → Text → Option Text
  | [], f => some f
  | op :: ops, f => (editFile key op f).bind (edits key ops)

/-! ## C325: turning clock control off and back on leaves the file as it was -/

/-- **C325.** In a file of whole lines and whole sections, after any succession of operations the
lines of the user stand as they did, in their order; behind them is one section if the last
operation turned clock control off, and none otherwise. -/
theorem C325 (key : Text) (hk : Key key) (ls us : List Text) (h : Mixed ls us) (ops : List Op)
    (op : Op) :
    (op ≠ .disable → edits key (ops ++ [op]) (unlines ls) = some (unlines us)) ∧
    (op = .disable → ∃ x, Assigns key x ∧ edits key (ops ++ [op]) (unlines ls) =
      some (unlines (us ++ ["### BEGIN sfptpd ###".toList, x, "### END sfptpd ###".toList]))) := by
  have hus := (mixed_isLine h).2
  have key1 : ∀ (ops : List Op) (ls : List Text), Mixed ls us →
      edits key (ops ++ [op]) (unlines ls) = some (unlines (us ++ if op = .disable then
        [startBlock, optLine key (lastValue key none us), endBlock] else [])) := by
    intro ops
    induction ops with
    | nil =>
      intro ls h
      rw [List.nil_append, edits, edit_mixed key h]
      rfl
    | cons o ops ih =>
      intro ls h
      rw [List.cons_append, edits, edit_mixed key h, Option.bind_some]
      apply ih
      split
      · exact mixed_section hk hus
      · rw [List.append_nil]
        exact mixed_self hus
  constructor
  · intro hne
    rw [key1 ops ls h, if_neg hne, List.append_nil]
  · intro he
    refine ⟨optLine key (lastValue key none us), assigns_quoted _ _, ?_⟩
    rw [key1 ops ls h, if_pos he]
    rfl

theorem ne_true {l : Text} (h : Opens l) : ¬ startBlock.isPrefixOf l = false := by
  have h' : startBlock.isPrefixOf l = true := begins_iff.mpr h
  rw [h']
  simp

/-- A file as Red Hat installs it. -/
def rhel : List Text := ["# Command-line options for chronyd".toList, "OPTIONS=\"-F 2\"".toList]

theorem rhel_mixed : Mixed rhel rhel := by
  refine mixed_self fun l hl => ?_
  have : ∀ l ∈ rhel, '\n' ∉ l ∧ Char.ofNat 0 ∉ l ∧ startBlock.isPrefixOf l = false := by decide
  obtain ⟨h1, h2, h3⟩ := this l hl
  exact ⟨⟨h1, h2⟩, fun h => absurd h3 (ne_true h)⟩

example : editFile "OPTIONS".toList .disable (unlines rhel) = some
    "# Command-line options for chronyd\nOPTIONS=\"-F 2\"\n### BEGIN sfptpd ###\nOPTIONS=\"-F 2 -x\"\n### END sfptpd ###\n".toList := by
  decide +kernel

example : edits "OPTIONS".toList [.disable, .disable, .restore] (unlines rhel) =
    some (unlines rhel) :=
  (C325 _ (.inl rfl) _ _ rhel_mixed [.disable, .disable] .restore).1 (by decide)

/-! ## C326: no line of the user is lost -/

/-- **C326.** Lines that do not stand between the first and the last line of a section are kept;
in particular those after a section whose last line is missing. -/
def C326_statement : Prop :=
  ∀ (key : Text) (op : Op) (pre post : List Text) (o : Text), Key key →
    (∀ l ∈ pre, IsLine l ∧ ¬ Opens l) → IsLine o → Opens o →
    (∀ l ∈ post, IsLine l ∧ ¬ Opens l ∧ ¬ Closes l) →
    ∃ f, editFile key op (unlines (pre ++ o :: post)) = some f ∧
      ∀ l ∈ post, ∃ a b, f = a ++ l ++ b

/-- A section without its last line is taken to go to the end of the file, and the lines of the
user after it are deleted. -/
theorem C326_violated : ¬ C326_statement := by
  intro h
  obtain ⟨f, hf, hl⟩ := h "OPTIONS".toList .restore [] ["F".toList] startBlock
    (.inl rfl) (fun _ h => absurd h List.not_mem_nil) isLine_start opens_start (by
      intro l hl
      rw [List.mem_singleton] at hl
      subst hl
      refine ⟨⟨by decide, by decide⟩, ?_, ?_⟩
      · intro h
        have := begins_iff.mpr h
        revert this
        decide
      · intro h
        have := begins_iff.mpr h
        revert this
        decide)
  have he : editFile "OPTIONS".toList .restore (unlines ([] ++ startBlock :: ["F".toList])) =
      some [] := by decide +kernel
  rw [he] at hf
  cases hf
  obtain ⟨a, b, hab⟩ := hl _ List.mem_cons_self
  have := congrArg List.length hab
  simp at this

/-- What holds: in a file of whole lines and whole sections exactly the lines of the user are
kept, in their order.  Missing: sections without a last line, and files without a newline at the
end. -/
theorem C326_partial (key : Text) (hk : Key key) (op : Op) (ls us : List Text) (h : Mixed ls us) :
    ∃ rest, editFile key op (unlines ls) = some (unlines us ++ rest) ∧
      (op ≠ .disable → rest = []) := by
  refine ⟨unlines (if op = .disable then
      [startBlock, optLine key (lastValue key none us), endBlock] else []), ?_, ?_⟩
  · rw [edit_mixed key h, unlines_append]
  · intro hne
    rw [if_neg hne]
    rfl

-- lines of the user before, between and after two sections
example : editFile "OPTIONS".toList .enable
    "A\n### BEGIN sfptpd ###\nx\n### END sfptpd ###\nB\n### BEGIN sfptpd ###\n### END sfptpd ###\nC\n".toList
    = some "A\nB\nC\n".toList := by decide +kernel

/-! ## C327: the options of the user stay in force -/

/-- A file of lines, the last of which may lack its newline. -/
def fileOf (ls : List Text) (last : Option Text) : Text := unlines ls ++ last.getD []

/-- **C327.** If the last line giving chronyd its options sets them to `v`, then after clock
control is turned off the last line but one of the file sets them to `v -x`. -/
def C327_statement : Prop :=
  ∀ (key : Text) (ls : List Text) (last : Option Text) (v f : Text), Key key →
    (∀ l ∈ ls ++ last.toList, IsLine l ∧ ¬ Opens l) → (∀ l, last = some l → l ≠ []) → '"' ∉ v →
    LastAssigns key (ls ++ last.toList) (quoted key v) →
    editFile key .disable (fileOf ls last) = some f →
    ∃ pre, f = unlines (pre ++ [quoted key (v ++ " -x".toList), "### END sfptpd ###".toList])

/-- In a file without a newline at its end all lines are taken as one; the options of the user,
in the second line, are not seen, and the new section sets the options to `-x` alone. -/
theorem C327_violated : ¬ C327_statement := by
  intro h
  obtain ⟨pre, hp⟩ := h "OPTIONS".toList ["#".toList] (some "OPTIONS=\"-4\"".toList) "-4".toList
    "#\nOPTIONS=\"-4\"\n### BEGIN sfptpd ###\nOPTIONS=\"-x\"\n### END sfptpd ###\n".toList
    (.inl rfl)
    (by
      intro l hl
      have : ∀ l ∈ ["#".toList, "OPTIONS=\"-4\"".toList],
          '\n' ∉ l ∧ Char.ofNat 0 ∉ l ∧ startBlock.isPrefixOf l = false := by decide
      obtain ⟨h1, h2, h3⟩ := this l hl
      exact ⟨⟨h1, h2⟩, fun h => absurd h3 (ne_true h)⟩)
    (by intro l hl; cases hl; decide)
    (by decide)
    ⟨["#".toList], [], rfl, assigns_quoted _ _, fun _ h => absurd h List.not_mem_nil⟩
    (by decide +kernel)
  rw [unlines_append] at hp
  have hd := congrArg (fun t : Text => t.reverse.take 35) hp
  simp only [List.reverse_append] at hd
  rw [List.take_append_of_le_length (by decide +kernel)] at hd
  revert hd
  decide +kernel

/-- What holds: it is so in every file of whole lines and whole sections; and where no line gives
options, they are set to `-x`.  Missing: files without a newline at the end. -/
theorem C327_partial (key : Text) (hk : Key key) (ls us : List Text) (h : Mixed ls us) :
    (∀ v, '"' ∉ v → LastAssigns key us (quoted key v) →
      editFile key .disable (unlines ls) = some (unlines (us ++ ["### BEGIN sfptpd ###".toList,
        quoted key (v ++ " -x".toList), "### END sfptpd ###".toList]))) ∧
    ((∀ l ∈ us, ¬ Assigns key l) →
      editFile key .disable (unlines ls) = some (unlines (us ++ ["### BEGIN sfptpd ###".toList,
        quoted key "-x".toList, "### END sfptpd ###".toList]))) := by
  constructor
  · intro v hv hl
    rw [edit_mixed key h, if_pos rfl, lastValue_of_last hk hv hl]
    have : optLine key (some v) = quoted key (v ++ " -x".toList) := by
      unfold optLine
      rw [List.append_assoc]
      rfl
    rw [this]
    rfl
  · intro hn
    rw [edit_mixed key h, if_pos rfl, lastValue_none hn]
    rfl

example : LastAssigns "OPTIONS".toList rhel (quoted "OPTIONS".toList "-F 2".toList) :=
  ⟨["# Command-line options for chronyd".toList], [], rfl, assigns_quoted _ _,
    fun _ h => absurd h List.not_mem_nil⟩

/-- A comment behind a value without quotation marks becomes part of the options. -/
theorem C327_comment : editFile "OPTIONS".toList .disable "OPTIONS=-4 # IPv4 only\n".toList = some
    "OPTIONS=-4 # IPv4 only\n### BEGIN sfptpd ###\nOPTIONS=\"-4 # IPv4 only -x\"\n### END sfptpd ###\n".toList := by
  decide +kernel

/-! ## C328: reading stays within the file -/

/-- **C328.** Editing a file of text never reads or writes outside the mapping of the file. -/
def C328_statement : Prop :=
  ∀ (key : Text) (op : Op) (file : Text), Char.ofNat 0 ∉ file → ∃ f, editFile key op file = some f

/-- A file without a newline at its end that fills whole pages has no terminator in memory. -/
theorem C328_violated : ¬ C328_statement := by
  intro h
  obtain ⟨f, hf⟩ := h "OPTIONS".toList .disable (List.replicate 4096 'a') (by
    intro hm
    have := List.eq_of_mem_replicate hm
    revert this
    decide)
  have hr : readEnv "OPTIONS".toList (List.replicate 4096 'a') = none := by
    unfold readEnv
    rw [List.getLast?_replicate]
    rw [if_neg (by decide)]
    dsimp only
    rw [if_pos (by decide)]
    split
    · rfl
    · rw [List.length_replicate]
      rfl
  unfold editFile at hf
  rw [hr] at hf
  cases hf

/-- What holds: it is so for every file that ends in a newline and for every file that does not
fill its last page. -/
theorem C328_partial (key : Text) (op : Op) (file : Text) (hn : Char.ofNat 0 ∉ file)
    (h : file = [] ∨ (∃ t, file = t ++ ['\n']) ∨ file.length % 4096 ≠ 0) :
    ∃ f, editFile key op file = some f := by
  have hr : ∃ r, readEnv key file = some r := by
    unfold readEnv
    cases hl : file.getLast? with
    | none => exact ⟨_, rfl⟩
    | some c =>
      dsimp only
      split
      · rename_i hc
        rw [if_neg (show ¬ nul ∈ file from hn)]
        rw [if_neg]
        · exact ⟨_, rfl⟩
        · intro hm
          rcases h with rfl | ⟨t, rfl⟩ | h
          · simp at hl
          · simp at hl
            exact hc hl.symm
          · exact h hm
      · obtain ⟨e, he⟩ := scan_some key file [] {} hn
        rw [he]
        exact ⟨_, rfl⟩
  obtain ⟨r, hr⟩ := hr
  unfold editFile
  rw [hr]
  exact ⟨_, rfl⟩

example : ∃ f, editFile "DAEMON_OPTS".toList .disable "DAEMON_OPTS=\"-F 1\"".toList = some f :=
  C328_partial _ _ _ (by decide) (.inr (.inr (by decide)))

end Verif.Priv
