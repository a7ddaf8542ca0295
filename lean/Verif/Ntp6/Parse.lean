import Mathlib.Tactic.Linarith
import Mathlib.Data.List.TakeWhile
import Verif.Ntp6.Spec

/-!
# Texts: specification and lemmas
-/

set_option linter.unusedVariables false
set_option linter.unusedSimpArgs false

namespace Verif.Ntp6

/-! ## Specification -/

/-- A variable as ntpd writes it. -/
structure Var where
  name : List Nat
  val : List Nat
  quoted : Bool := false
  deriving DecidableEq, Repr

/-- `name=value` or `name="value"`. -/
def Var.text (v : Var) : List Nat := v.name ++ [61] ++ (if v.quoted then [34] ++ v.val ++ [34] else v.val)

/-- A printing character other than blank, comma, equals sign and quote. -/
def Plain (c : Nat) : Prop := 32 < c ∧ c < 127 ∧ c ≠ 44 ∧ c ≠ 61 ∧ c ≠ 34

/-- Names are words; values that are not quoted are words too, which may contain equals signs;
quoted ones may contain anything that prints but quotes, and end with no blank. -/
structure Var.Ok (v : Var) : Prop where
  name : ∀ c ∈ v.name, Plain c
  named : v.name ≠ []
  nameLen : v.name.length < 256
  valLen : v.val.length < 2048
  plain : v.quoted = false → v.val ≠ [] ∧ ∀ c ∈ v.val, Plain c ∨ c = 61
  inside : v.quoted = true → ∀ c ∈ v.val, 32 ≤ c ∧ c < 127 ∧ c ≠ 34
  trimmed : v.quoted = true → v.val.getLast? ≠ some 32

/-- What stands between variables: commas, blanks and ends of lines. -/
def Gap (s : List Nat) : Prop := ∀ c ∈ s, c = 44 ∨ c = 32 ∨ c = 9 ∨ c = 13 ∨ c = 10

/-- A gap that ends a value. -/
def Stop (s : List Nat) : Prop := Gap s ∧ ∃ c r, s = c :: r ∧ (c = 44 ∨ c = 13)

/-- A text with the variables in order, each followed by what separates it from the next one. -/
inductive Listing : List Var → List Nat → Prop
  | done {s : List Nat} : Gap s → Listing [] s
  | last {v : Var} : v.Ok → Listing [v] v.text
  | next {v : Var} {vs : List Var} {s d : List Nat} : v.Ok → Stop s → Listing vs d → Listing (v :: vs) (v.text ++ s ++ d)

/-! ## Scanning -/

theorem scan {p : Nat → Bool} {l r : List Nat} {c : Nat} (hl : ∀ x ∈ l, p x = true) (hc : p c = false) :
    (l ++ c :: r).takeWhile p = l ∧ (l ++ c :: r).dropWhile p = c :: r := by
  induction l with
  | nil => simp [hc]
  | cons x l ih =>
    have hx := hl x (by simp)
    obtain ⟨h1, h2⟩ := ih (fun y hy => hl y (by simp [hy]))
    simp only [List.cons_append, List.takeWhile_cons, List.dropWhile_cons, hx, if_true]
    exact ⟨by rw [h1], h2⟩

theorem scan_all {p : Nat → Bool} {l : List Nat} (hl : ∀ x ∈ l, p x = true) : l.takeWhile p = l ∧ l.dropWhile p = [] := by
  induction l with
  | nil => simp
  | cons x l ih =>
    have hx := hl x (by simp)
    obtain ⟨h1, h2⟩ := ih (fun y hy => hl y (by simp [hy]))
    simp only [List.takeWhile_cons, List.dropWhile_cons, hx, if_true]
    exact ⟨by rw [h1], h2⟩

theorem trimEnd_id {l : List Nat} (h : ∀ c, l.getLast? = some c → isSpace c = false) : trimEnd l = l := by
  unfold trimEnd
  cases hr : l.reverse with
  | nil => rw [List.reverse_eq_nil_iff.1 hr]; rfl
  | cons c r =>
    have hl : l = r.reverse ++ [c] := by rw [← List.reverse_reverse l, hr, List.reverse_cons]
    have hc : isSpace c = false := h c (by rw [hl]; simp)
    rw [List.dropWhile_cons_of_neg (by simp [hc]), List.reverse_cons, hl]

theorem trimEnd_prefix (l : List Nat) : ∃ s, l = trimEnd l ++ s := by
  unfold trimEnd
  refine ⟨(l.reverse.takeWhile isSpace).reverse, ?_⟩
  rw [← List.reverse_append, List.takeWhile_append_dropWhile, List.reverse_reverse]

theorem trimEnd_length (l : List Nat) : (trimEnd l).length ≤ l.length := by
  obtain ⟨s, hs⟩ := trimEnd_prefix l
  have := congrArg List.length hs
  rw [List.length_append] at this
  omega

/-! ## Each call makes progress -/

/-- What a successful call yields. -/
structure Got (d n : List Nat) (v : Option (List Nat)) (r : List Nat) : Prop where
  shorter : r.length < d.length
  rest : r <:+ d
  name : n <:+: d
  nameLen : n.length < 256
  val : ∀ x, v = some x → x <:+: d ∧ x.length < 2048

theorem takeValue_got {d name body rest n : List Nat} {v : Option (List Nat)} {r : List Nat} (h : takeValue name body rest = some (n, v, r))
    (hn : name <:+: d) (hl : name.length < 256) (hb : body <:+: d) (hr : rest <:+ d) (hs : rest.length < d.length) : Got d n v r := by
  have tb : trimEnd body <:+: d := by
    obtain ⟨s, hs⟩ := trimEnd_prefix body
    exact List.IsInfix.trans (List.IsPrefix.isInfix ⟨s, hs.symm⟩) hb
  unfold takeValue at h
  split at h
  · cases h
  rename_i hlen
  have tl : (trimEnd body).length < 2048 := by have := trimEnd_length body; omega
  cases rest with
  | nil =>
    simp only [Option.some.injEq, Prod.mk.injEq] at h
    obtain ⟨rfl, rfl, rfl⟩ := h
    exact ⟨hs, hr, hn, hl, fun x hx => by cases hx; exact ⟨tb, tl⟩⟩
  | cons c rest =>
    simp only at h
    split at h
    · simp only [Option.some.injEq, Prod.mk.injEq] at h
      obtain ⟨rfl, rfl, rfl⟩ := h
      exact ⟨by simp only [List.length_cons] at hs; omega, (List.suffix_cons c rest).trans hr, hn, hl, fun x hx => by cases hx; exact ⟨tb, tl⟩⟩
    · split at h
      · simp only [Option.some.injEq, Prod.mk.injEq] at h
        obtain ⟨rfl, rfl, rfl⟩ := h
        exact ⟨hs, hr, hn, hl, fun x hx => by cases hx; exact ⟨tb, tl⟩⟩
      · cases h

theorem suffix_infix {a b c : List Nat} (h : a <:+: b) (h2 : b <:+ c) : a <:+: c := h.trans h2.isInfix

theorem takeWhile_infix (p : Nat → Bool) (l : List Nat) : l.takeWhile p <:+: l := (List.takeWhile_prefix p).isInfix

theorem value_got {beyond : Nat} {d name e n : List Nat} {v : Option (List Nat)} {r : List Nat} (h : value beyond name e = some (n, v, r))
    (hn : name <:+: d) (hl : name.length < 256) (he : e <:+ d) (hs : e.length < d.length) : Got d n v r := by
  unfold value at h
  have h1 : e.dropWhile isSpace <:+ d := (List.dropWhile_suffix _).trans he
  have h2 : (e.dropWhile isSpace).length ≤ e.length := (List.dropWhile_suffix isSpace).length_le
  cases hw : e.dropWhile isSpace with
  | nil =>
    rw [hw] at h
    simp only at h
    split at h
    · cases h
    · exact takeValue_got h hn hl (List.nil_infix) (List.nil_suffix) (by simp only [List.length_nil]; omega)
  | cons c l =>
    rw [hw] at h h1 h2
    simp only at h
    have hl' : l <:+ d := (List.suffix_cons c l).trans h1
    simp only [List.length_cons] at h2
    split at h
    · refine takeValue_got h hn hl (suffix_infix (takeWhile_infix _ _) hl') ((List.drop_suffix _ _).trans ((List.dropWhile_suffix _).trans hl')) ?_
      have := (List.dropWhile_suffix (p := fun x => decide (x ≠ 34)) (l := l)).length_le
      rw [List.length_drop]
      omega
    · refine takeValue_got h hn hl (suffix_infix (takeWhile_infix _ _) h1) ((List.dropWhile_suffix _).trans h1) ?_
      have := (List.dropWhile_suffix (p := fun x => decide (x ≠ 44) && decide (x ≠ 13)) (l := c :: l)).length_le
      simp only [List.length_cons] at this
      omega

theorem nextVar_got {beyond : Nat} {d n : List Nat} {v : Option (List Nat)} {r : List Nat} (h : nextVar beyond d = some (n, v, r)) : Got d n v r := by
  unfold nextVar at h
  simp only at h
  have h1 : d.dropWhile (fun c => decide (c = 44) || isSpace c) <:+ d := List.dropWhile_suffix _
  generalize d.dropWhile (fun c => decide (c = 44) || isSpace c) = e at h h1
  split at h
  · cases h
  rename_i hne
  split at h
  · cases h
  rename_i hlen
  have hn : trimEnd (e.takeWhile (fun c => decide (c ≠ 44) && decide (c ≠ 61) && decide (c ≠ 13) && decide (c ≠ 10) && decide (c ≠ 0))) <:+: d := by
    obtain ⟨s, hs⟩ := trimEnd_prefix (e.takeWhile (fun c => decide (c ≠ 44) && decide (c ≠ 61) && decide (c ≠ 13) && decide (c ≠ 10) && decide (c ≠ 0)))
    exact suffix_infix (List.IsInfix.trans (List.IsPrefix.isInfix ⟨s, hs.symm⟩) (takeWhile_infix _ _)) h1
  have h2 : e.dropWhile (fun c => decide (c ≠ 44) && decide (c ≠ 61) && decide (c ≠ 13) && decide (c ≠ 10) && decide (c ≠ 0)) <:+ d := (List.dropWhile_suffix _).trans h1
  have h3 := h2.length_le
  cases hw : e.dropWhile (fun c => decide (c ≠ 44) && decide (c ≠ 61) && decide (c ≠ 13) && decide (c ≠ 10) && decide (c ≠ 0)) with
  | nil =>
    rw [hw] at h
    simp only [Option.some.injEq, Prod.mk.injEq] at h
    obtain ⟨rfl, rfl, rfl⟩ := h
    refine ⟨?_, List.nil_suffix, hn, by omega, nofun⟩
    have : 0 < e.length := by
      cases e with
      | nil => exact absurd rfl hne
      | cons _ _ => simp
    have := h1.length_le
    simp only [List.length_nil]; omega
  | cons c l =>
    rw [hw] at h h2 h3
    simp only [List.length_cons] at h3
    simp only at h
    have hl' : l <:+ d := (List.suffix_cons c l).trans h2
    split at h
    · simp only [Option.some.injEq, Prod.mk.injEq] at h
      obtain ⟨rfl, rfl, rfl⟩ := h
      exact ⟨by omega, hl', hn, by omega, nofun⟩
    · exact value_got h hn (by omega) hl' (by omega)

/-! ## All variables -/

theorem vars_fuel {beyond : Nat} : ∀ (f g : Nat) (d : List Nat), d.length < f → d.length < g → vars beyond f d = vars beyond g d := by
  intro f
  induction f with
  | zero => intro g d h; omega
  | succ f ih =>
    intro g d hf hg
    cases g with
    | zero => omega
    | succ g =>
      unfold vars
      cases h : nextVar beyond d with
      | none => rfl
      | some x =>
        obtain ⟨n, v, r⟩ := x
        have := (nextVar_got h).shorter
        simp only
        rw [ih g r (by omega) (by omega)]

/-- Enough calls for the text. -/
def allVars (beyond : Nat) (d : List Nat) : List (List Nat × Option (List Nat)) := vars beyond (d.length + 1) d

theorem allVars_none {beyond : Nat} {d : List Nat} (h : nextVar beyond d = none) : allVars beyond d = [] := by
  unfold allVars vars; rw [h]

theorem allVars_some {beyond : Nat} {d n r : List Nat} {v : Option (List Nat)} (h : nextVar beyond d = some (n, v, r)) :
    allVars beyond d = (n, v) :: allVars beyond r := by
  have := (nextVar_got h).shorter
  unfold allVars
  conv_lhs => unfold vars
  rw [h]
  simp only
  rw [vars_fuel _ (r.length + 1) r (by omega) (by omega)]

/-- Those with a name. -/
def named (beyond : Nat) (d : List Nat) : List (List Nat × Option (List Nat)) := (allVars beyond d).filter (fun v => v.1 ≠ [])

theorem allVars_congr {beyond : Nat} {d e : List Nat} (h : nextVar beyond d = nextVar beyond e) : allVars beyond d = allVars beyond e := by
  cases hd : nextVar beyond d with
  | none => rw [allVars_none hd, allVars_none (h.symm.trans hd)]
  | some x =>
    obtain ⟨n, v, r⟩ := x
    rw [allVars_some hd, allVars_some (h.symm.trans hd)]

theorem named_gap {beyond c : Nat} {d : List Nat} (hc : c = 44 ∨ c = 32 ∨ c = 9 ∨ c = 13 ∨ c = 10) : named beyond (c :: d) = named beyond d := by
  have skip : (decide (c = 44) || isSpace c) = true → named beyond (c :: d) = named beyond d := by
    intro h
    unfold named
    rw [allVars_congr (show nextVar beyond (c :: d) = nextVar beyond d by unfold nextVar; simp only [List.dropWhile_cons, h, if_true])]
  have eol : c = 13 ∨ c = 10 → named beyond (c :: d) = named beyond d := by
    intro h
    have : nextVar beyond (c :: d) = some ([], none, d) := by
      unfold nextVar
      rcases h with rfl | rfl <;> simp [isSpace, trimEnd]
    unfold named
    rw [allVars_some this]
    rfl
  rcases hc with rfl | rfl | rfl | rfl | rfl
  · exact skip (by decide)
  · exact skip (by decide)
  · exact skip (by decide)
  · exact eol (.inl rfl)
  · exact eol (.inr rfl)

theorem named_gaps {beyond : Nat} {s d : List Nat} (hs : Gap s) : named beyond (s ++ d) = named beyond d := by
  induction s with
  | nil => rfl
  | cons c s ih =>
    rw [List.cons_append, named_gap (hs c (by simp)), ih (fun x hx => hs x (by simp [hx]))]

theorem isSpace_plain {c : Nat} (h : Plain c ∨ c = 61) : isSpace c = false := by
  unfold isSpace Plain at *
  simp only [Bool.or_eq_false_iff, decide_eq_false_iff_not]
  omega

/-- The value of a variable is found. -/
theorem value_text {beyond : Nat} {name : List Nat} {v : Var} (hv : v.Ok) {t : List Nat} (ht : t = [] ∨ ∃ c r, t = c :: r ∧ (c = 44 ∨ c = 13)) :
    ∃ r, value beyond name ((if v.quoted then [34] ++ v.val ++ [34] else v.val) ++ t) = some (name, some v.val, r) ∧ (r = t ∨ t = 44 :: r) := by
  have fin : ∀ b, trimEnd b = v.val → b.length < 2048 → ∃ r, takeValue name b t = some (name, some v.val, r) ∧ (r = t ∨ t = 44 :: r) := by
    intro b hb hl
    unfold takeValue
    rw [if_neg (by omega)]
    rcases ht with rfl | ⟨c, r, rfl, rfl | rfl⟩
    · exact ⟨[], by rw [hb], .inl rfl⟩
    · exact ⟨r, by simp [hb], .inr rfl⟩
    · exact ⟨13 :: r, by simp [hb], .inl rfl⟩
  cases hq : v.quoted with
  | false =>
    obtain ⟨hne, hpl⟩ := hv.plain hq
    simp only [Bool.false_eq_true, if_false]
    have htrim : trimEnd v.val = v.val := trimEnd_id fun c hc => isSpace_plain (hpl c (List.mem_of_getLast? hc))
    cases hval : v.val with
    | nil => exact absurd hval hne
    | cons c l =>
      have hc := hpl c (by rw [hval]; simp)
      unfold value
      rw [List.cons_append, List.dropWhile_cons_of_neg (by simp [isSpace_plain hc])]
      simp only
      rw [if_neg (by rcases hc with h | h <;> simp_all [Plain])]
      have hall : ∀ x ∈ c :: l, (decide (x ≠ 44) && decide (x ≠ 13)) = true := by
        intro x hx
        have := hpl x (by rw [hval]; exact hx)
        simp only [Bool.and_eq_true, decide_eq_true_eq]
        unfold Plain at this
        omega
      have hscan : (c :: (l ++ t)).takeWhile (fun x => decide (x ≠ 44) && decide (x ≠ 13)) = c :: l ∧
          (c :: (l ++ t)).dropWhile (fun x => decide (x ≠ 44) && decide (x ≠ 13)) = t := by
        rw [← List.cons_append]
        rcases ht with rfl | ⟨a, r, rfl, ha⟩
        · rw [List.append_nil]; exact scan_all hall
        · exact scan hall (by rcases ha with rfl | rfl <;> decide)
      rw [hscan.1, hscan.2, ← hval]
      exact fin v.val htrim hv.valLen
  | true =>
    simp only [if_true]
    have hin := hv.inside hq
    unfold value
    rw [List.append_assoc, List.append_assoc, List.singleton_append, List.dropWhile_cons_of_neg (by decide)]
    simp only [if_true]
    have hscan := scan (p := fun x => decide (x ≠ 34)) (l := v.val) (r := t) (c := 34)
      (fun x hx => by have := hin x hx; simp only [decide_eq_true_eq]; omega) (by decide)
    rw [List.singleton_append, hscan.1, hscan.2, List.drop_succ_cons, List.drop_zero]
    refine fin v.val (trimEnd_id ?_) hv.valLen
    intro c hc
    have h1 := hin c (List.mem_of_getLast? hc)
    have h2 := hv.trimmed hq
    unfold isSpace
    simp only [Bool.or_eq_false_iff, decide_eq_false_iff_not]
    refine ⟨?_, by omega⟩
    rintro rfl
    exact h2 hc

theorem nextVar_text {beyond : Nat} {v : Var} (hv : v.Ok) {t : List Nat} (ht : t = [] ∨ ∃ c r, t = c :: r ∧ (c = 44 ∨ c = 13)) :
    ∃ r, nextVar beyond (v.text ++ t) = some (v.name, some v.val, r) ∧ (r = t ∨ t = 44 :: r) := by
  obtain ⟨r, h1, h2⟩ := value_text (beyond := beyond) (name := v.name) hv ht
  refine ⟨r, ?_, h2⟩
  have htext : v.text ++ t = v.name ++ 61 :: ((if v.quoted then [34] ++ v.val ++ [34] else v.val) ++ t) := by
    unfold Var.text; simp only [List.append_assoc, List.singleton_append, List.cons_append, List.nil_append]
  have hd : (v.text ++ t).dropWhile (fun c => decide (c = 44) || isSpace c) = v.text ++ t := by
    rw [htext]
    cases hn : v.name with
    | nil => exact absurd hn hv.named
    | cons c l =>
      have := hv.name c (by rw [hn]; simp)
      rw [List.cons_append, List.dropWhile_cons_of_neg]
      rw [isSpace_plain (.inl this)]
      unfold Plain at this
      simp only [Bool.or_false, decide_eq_true_eq]; omega
  have hscan := scan (p := fun c => decide (c ≠ 44) && decide (c ≠ 61) && decide (c ≠ 13) && decide (c ≠ 10) && decide (c ≠ 0)) (l := v.name)
    (r := (if v.quoted then [34] ++ v.val ++ [34] else v.val) ++ t) (c := 61)
    (fun x hx => by
      have := hv.name x hx
      unfold Plain at this
      simp only [Bool.and_eq_true, decide_eq_true_eq]; omega) (by decide)
  have htrim : trimEnd v.name = v.name := trimEnd_id fun c hc => isSpace_plain (.inl (hv.name c (List.mem_of_getLast? hc)))
  unfold nextVar
  simp only [hd]
  rw [if_neg (by rw [htext]; simp)]
  rw [htext, hscan.1, hscan.2, htrim, if_neg (by have := hv.nameLen; omega)]
  simp only
  rw [if_neg (by decide)]
  exact h1

theorem named_listing {beyond : Nat} {vs : List Var} {d : List Nat} (h : Listing vs d) : named beyond d = vs.map (fun v => (v.name, some v.val)) := by
  induction h with
  | done hs =>
    rename_i s
    have h1 := named_gaps (beyond := beyond) (d := []) hs
    rw [List.append_nil] at h1
    rw [h1]; rfl
  | last hv =>
    rename_i v
    obtain ⟨r, h1, h2⟩ := nextVar_text (beyond := beyond) hv (.inl (rfl : ([] : List Nat) = []))
    rw [List.append_nil] at h1
    have hr : r = [] := by
      rcases h2 with h2 | h2
      · exact h2
      · cases h2
    subst hr
    unfold named
    rw [allVars_some h1, List.filter_cons_of_pos (by simpa using hv.named)]
    rfl
  | next hv hs hl ih =>
    rename_i v vs s d
    obtain ⟨hg, c, r0, hc1, hc2⟩ := hs
    obtain ⟨r, h1, h2⟩ := nextVar_text (beyond := beyond) hv (t := s ++ d) (.inr ⟨c, r0 ++ d, by rw [hc1]; rfl, hc2⟩)
    rw [← List.append_assoc] at h1
    unfold named
    rw [allVars_some h1, List.filter_cons_of_pos (by simpa using hv.named), List.map_cons]
    congr 1
    change named beyond r = _
    rw [← ih]
    have hsd : named beyond (s ++ d) = named beyond d := named_gaps hg
    rw [← hsd]
    rcases h2 with h2 | h2
    · rw [h2]
    · rw [h2]; exact (named_gap (.inl rfl)).symm

end Verif.Ntp6
