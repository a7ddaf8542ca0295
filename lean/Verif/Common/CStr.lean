/-!
# C string functions used by the modelled code

Strings are lists of characters without the terminating NUL.
-/

namespace Verif.CStr

/-- `strtok_r` (C library): skips delimiters, returns the token and the rest of
the string behind the delimiter that ended it. -/
def strtok (d : Char → Bool) (s : List Char) : Option (List Char × List Char) :=
  let s' := s.dropWhile d
  if s' = [] then none
  else some (s'.takeWhile (fun c => !d c), (s'.dropWhile (fun c => !d c)).drop 1)

theorem strtok_length {d s t r} (h : strtok d s = some (t, r)) : r.length < s.length := by
  unfold strtok at h
  have h1 : (s.dropWhile d).length ≤ s.length := (List.dropWhile_sublist d).length_le
  generalize s.dropWhile d = s' at h h1
  simp only [] at h
  split at h
  · cases h
  · rename_i hne
    cases h
    cases s' with
    | nil => exact absurd rfl hne
    | cons c cs =>
      have h2 : ((c :: cs).dropWhile (fun c => !d c)).length ≤ (c :: cs).length :=
        (List.dropWhile_sublist _).length_le
      simp only [List.length_drop, List.length_cons] at *
      omega

/-- Repeated `strtok_r` calls; the fuel bounds the number of calls. -/
def tokensAux (d : Char → Bool) : Nat → List Char → List (List Char)
  | 0, _ => []
  | fuel + 1, s =>
    match strtok d s with
    | none => []
    | some (t, r) => t :: tokensAux d fuel r

/-- All tokens found by calling `strtok_r` until it returns NULL (every call
consumes at least one character, `strtok_length`). -/
def tokens (d : Char → Bool) (s : List Char) : List (List Char) :=
  tokensAux d (s.length + 1) s

theorem tokensAux_fuel (d : Char → Bool) : ∀ (n m : Nat) (s : List Char),
    s.length < n → s.length < m → tokensAux d n s = tokensAux d m s := by
  intro n
  induction n with
  | zero => intro m s h; omega
  | succ n ih =>
    intro m s hn hm
    cases m with
    | zero => omega
    | succ m =>
      simp only [tokensAux]
      cases h : strtok d s with
      | none => rfl
      | some tr =>
        obtain ⟨t, r⟩ := tr
        have := strtok_length h
        simp only
        rw [ih m r (by omega) (by omega)]

theorem tokens_eq (d : Char → Bool) (s : List Char) :
    tokens d s = match strtok d s with
      | none => []
      | some (t, r) => t :: tokens d r := by
  rw [tokens, tokensAux]
  cases h : strtok d s with
  | none => rfl
  | some tr =>
    obtain ⟨t, r⟩ := tr
    have := strtok_length h
    simp only [tokens]
    rw [tokensAux_fuel d s.length (r.length + 1) r (by omega) (by omega)]

/-- `isspace` in the C locale. -/
def isSpace (c : Char) : Bool :=
  c == ' ' || c == '\t' || c == '\n' || c == '\x0b' || c == '\x0c' || c == '\r'

/-- `strtol(s, &endptr, 10)`; `none` stands for `errno = ERANGE`.  A string
without leading digits gives 0, characters behind the number are ignored. -/
def strtol (s : List Char) : Option Int :=
  let s := s.dropWhile isSpace
  let neg := s.head? == some '-'
  let s := if s.head? == some '-' || s.head? == some '+' then s.drop 1 else s
  let v : Nat := (s.takeWhile Char.isDigit).foldl (fun n c => 10 * n + (c.toNat - 48)) 0
  let i : Int := if neg then -(v : Int) else v
  if i > 9223372036854775807 ∨ i < -9223372036854775808 then none else some i

/-- Delimiters in front are skipped. -/
theorem tokens_skip {d : Char → Bool} {p : List Char} (hp : ∀ c ∈ p, d c = true) (s : List Char) :
    tokens d (p ++ s) = tokens d s := by
  have h : strtok d (p ++ s) = strtok d s := by
    have : (p ++ s).dropWhile d = s.dropWhile d := by
      induction p with
      | nil => rfl
      | cons c cs ih =>
        rw [List.cons_append, List.dropWhile_cons_of_pos (hp c (by simp))]
        exact ih (fun x hx => hp x (by simp [hx]))
    unfold strtok
    rw [this]
  rw [tokens_eq, h, ← tokens_eq]

theorem tokens_nil (d : Char → Bool) : tokens d [] = [] := rfl

theorem tokens_all {d : Char → Bool} {p : List Char} (hp : ∀ c ∈ p, d c = true) :
    tokens d p = [] := by
  have := tokens_skip hp []
  rwa [List.append_nil, tokens_nil] at this

/-- A token followed by the end of the string or a delimiter. -/
theorem tokens_tok {d : Char → Bool} {t r : List Char} (hne : t ≠ [])
    (ht : ∀ c ∈ t, d c = false) (hr : r = [] ∨ ∃ c r', r = c :: r' ∧ d c = true) :
    tokens d (t ++ r) = t :: tokens d r := by
  have hdrop : (t ++ r).dropWhile d = t ++ r := by
    cases t with
    | nil => exact absurd rfl hne
    | cons c cs =>
      rw [List.cons_append, List.dropWhile_cons_of_neg]
      simp [ht c (by simp)]
  have ht1 : ∀ x : List Char, (∀ c ∈ x, d c = false) →
      (x ++ r).takeWhile (fun c => !d c) = x ∧ (x ++ r).dropWhile (fun c => !d c) = r := by
    intro x
    induction x with
    | nil =>
      intro _
      rcases hr with hr | ⟨c, r', hr, hc⟩
      · subst hr; simp
      · subst hr; simp [hc]
    | cons c cs ih =>
      intro hx
      have := ih (fun y hy => hx y (by simp [hy]))
      simp [hx c (by simp), this]
  have hs : strtok d (t ++ r) = some (t, r.drop 1) := by
    unfold strtok
    simp only [hdrop, (ht1 t ht).1, (ht1 t ht).2]
    rw [if_neg]
    simp [hne]
  rw [tokens_eq, hs]
  simp only
  rcases hr with hr | ⟨c, r', hr, hc⟩
  · subst hr; rfl
  · subst hr
    rw [show (c :: r') = [c] ++ r' from rfl, tokens_skip (by simpa using hc)]
    rfl

end Verif.CStr
