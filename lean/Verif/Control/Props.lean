import Verif.Control.Spec

set_option linter.unusedSimpArgs false
set_option linter.unusedVariables false

/-!
# C100-C103: control commands
-/

namespace Verif.Control

open Spec CInt

variable {ν : Type}

/-! ## Splitting -/

theorem takeWhile_no {d : Char} {t r : List Char} (h : d ∉ t) :
    (t ++ d :: r).takeWhile (fun c => c != d) = t := by
  induction t with
  | nil => simp
  | cons c t ih =>
    have hc : c ≠ d := fun he => h (by simp [he])
    simp only [List.cons_append]
    rw [List.takeWhile_cons_of_pos (by simpa using hc), ih (fun hh => h (by simp [hh]))]

theorem takeWhile_all {d : Char} {t : List Char} (h : d ∉ t) :
    t.takeWhile (fun c => c != d) = t := by
  induction t with
  | nil => rfl
  | cons c t ih =>
    have hc : c ≠ d := fun he => h (by simp [he])
    rw [List.takeWhile_cons_of_pos (by simpa using hc), ih (fun hh => h (by simp [hh]))]

theorem dropWhile_no {d : Char} {t r : List Char} (h : d ∉ t) :
    (t ++ d :: r).dropWhile (fun c => c != d) = d :: r := by
  induction t with
  | nil => simp
  | cons c t ih =>
    have hc : c ≠ d := fun he => h (by simp [he])
    simp only [List.cons_append]
    rw [List.dropWhile_cons_of_pos (by simpa using hc), ih (fun hh => h (by simp [hh]))]

theorem strsep_mid {d : Char} {t r : List Char} (h : d ∉ t) :
    strsep d (some (t ++ d :: r)) = (some t, some r) := by
  simp only [strsep]
  rw [takeWhile_no h, dropWhile_no h, if_pos (by simp)]
  rfl

theorem strsep_end {d : Char} {t : List Char} (h : d ∉ t) :
    strsep d (some t) = (some t, none) := by
  simp only [strsep]
  rw [takeWhile_all h, if_neg h]

/-- The rest of a line after a field, as `strsep` sees it. -/
def tailOf : List (List Char) → Option (List Char)
  | [] => none
  | t :: r => some (t ++ fields r)

theorem strsep_fields {t : List Char} (r : List (List Char)) (h : ',' ∉ t) :
    strsep ',' (some (t ++ fields r)) = (some t, tailOf r) := by
  cases r with
  | nil => simpa [fields, tailOf] using strsep_end h
  | cons u r =>
    show strsep ',' (some (t ++ fields (u :: r))) = _
    have : fields (u :: r) = ',' :: (u ++ fields r) := by simp [fields]
    rw [this, strsep_mid h]
    rfl

/-! ## Numbers -/

theorem numeral_digit (d : Nat) (h : d < 10) :
    digit 10 (numeral d) = some d ∧ CStr.isSpace (numeral d) = false ∧ numeral d ≠ '-' ∧
      numeral d ≠ '+' ∧ numeral d ≠ ',' ∧ (numeral d = '0' ↔ d = 0) := by
  have hd : d = 0 ∨ d = 1 ∨ d = 2 ∨ d = 3 ∨ d = 4 ∨ d = 5 ∨ d = 6 ∨ d = 7 ∨ d = 8 ∨ d = 9 := by
    omega
  rcases hd with rfl | rfl | rfl | rfl | rfl | rfl | rfl | rfl | rfl | rfl <;> decide

theorem digits_value (ds : List Nat) : ∀ acc, (∀ d ∈ ds, d < 10) →
    digits 10 acc (ds.map numeral) = acc * 10 ^ ds.length + value ds := by
  induction ds with
  | nil => intro acc _; simp [digits, value]
  | cons d r ih =>
    intro acc h
    simp only [List.map_cons, digits, (numeral_digit d (h d (by simp))).1]
    rw [ih _ (fun x hx => h x (by simp [hx]))]
    simp only [value, List.length_cons, Nat.pow_succ]
    rw [Nat.add_mul, Nat.mul_comm 10 acc, Nat.mul_assoc, Nat.mul_comm 10, Nat.add_assoc]

theorem strtol0_unsigned (ds : List Nat) (h : Decimal ds) :
    ∃ c r, ds.map numeral = c :: r ∧ CStr.isSpace c = false ∧ c ≠ '-' ∧ c ≠ '+' ∧
      magnitude (ds.map numeral) = value ds := by
  obtain ⟨hlt, h | ⟨d, r, hd, hne⟩⟩ := h
  · subst h
    exact ⟨'0', [], rfl, by decide, by decide, by decide, by decide⟩
  · subst hd
    obtain ⟨_, h2, h3, h4, _, h6⟩ := numeral_digit d (hlt d (by simp))
    refine ⟨numeral d, r.map numeral, rfl, h2, h3, h4, ?_⟩
    have hv := digits_value (d :: r) 0 hlt
    rw [Nat.zero_mul, Nat.zero_add] at hv
    have h0 : numeral d ≠ '0' := fun he => hne (h6.1 he)
    rw [← hv]
    simp only [List.map_cons, magnitude]
    split
    · rename_i he; injection he with he _; exact absurd he h0
    · rename_i he; injection he with he _; exact absurd he h0
    · rfl

theorem strtol0_int {t : List Char} {v : Int} (h : IsInt t v) :
    strtol0 t = some v ∧ s32 v = v ∧ ',' ∉ t := by
  cases h with
  | pos ds h hr =>
    obtain ⟨c, r, hc, h1, h2, h3, hv⟩ := strtol0_unsigned ds h
    refine ⟨?_, by unfold s32; omega, ?_⟩
    · unfold strtol0
      have hd : (ds.map numeral).dropWhile CStr.isSpace = ds.map numeral := by
        rw [hc, List.dropWhile_cons_of_neg (by simp [h1])]
      have hh : (ds.map numeral).head? = some c := by rw [hc]; rfl
      have n1 : ((some c : Option Char) == some '-') = false := by simpa using h2
      have n2 : ((some c : Option Char) == some '+') = false := by simpa using h3
      simp only [hd, hh, n1, n2, Bool.or_self, Bool.false_eq_true, if_false]
      rw [hv, if_neg (by omega)]
    · intro hm
      obtain ⟨d, hd, he⟩ := List.mem_map.1 hm
      exact (numeral_digit d (h.1 d hd)).2.2.2.2.1 he
  | neg ds h hr =>
    obtain ⟨c, r, hc, h1, h2, h3, hv⟩ := strtol0_unsigned ds h
    refine ⟨?_, by unfold s32; omega, ?_⟩
    · unfold strtol0
      have hd : ('-' :: ds.map numeral).dropWhile CStr.isSpace = '-' :: ds.map numeral := rfl
      have n1 : ((some '-' : Option Char) == some '-') = true := rfl
      simp only [hd, List.head?_cons, n1, Bool.true_or, if_true, List.drop_one, List.tail_cons]
      rw [hv, if_neg (by omega)]
    · intro hm
      rcases List.mem_cons.1 hm with hm | hm
      · exact absurd hm (by decide)
      · obtain ⟨d, hd, he⟩ := List.mem_map.1 hm
        exact (numeral_digit d (h.1 d hd)).2.2.2.2.1 he

theorem testParams_spec (ps : List (List Char × Int)) : ∀ n, ps.length ≤ n →
    (∀ p ∈ ps, IsInt p.1 p.2) →
    testParams n (tailOf (ps.map (·.1))) = some (ps.map (·.2) ++ List.replicate (n - ps.length) 0) := by
  induction ps with
  | nil =>
    intro n _ _
    cases n with
    | zero => rfl
    | succ n => simp [testParams, tailOf, strsep]
  | cons p ps ih =>
    intro n hn h
    cases n with
    | zero => simp at hn
    | succ n =>
      obtain ⟨h1, h2, h3⟩ := strtol0_int (h p (by simp))
      simp only [List.map_cons, tailOf, testParams]
      rw [strsep_fields _ h3]
      simp only [h1]
      rw [ih n (by simpa using hn) (fun q hq => h q (by simp [hq]))]
      simp [h2]

/-! ## Keywords -/

theorem keywords_spec (ks : List (List Char)) : ∀ fuel b1 b2 b3 r, ks.length < fuel →
    (∀ k ∈ ks, k ∈ keyword) →
    keywords fuel (tailOf ks) (Bool.toNat b1 + 2 * Bool.toNat b2 + 4 * Bool.toNat b3) r =
      some (Bool.toNat (b1 || decide (str "local" ∈ ks)) +
        2 * Bool.toNat (b2 || decide (str "ptp" ∈ ks)) +
        4 * Bool.toNat (b3 || decide (str "pps" ∈ ks)), r || decide (str "reset" ∈ ks)) := by
  induction ks with
  | nil =>
    intro fuel b1 b2 b3 r hf _
    cases fuel with
    | zero => omega
    | succ fuel => simp [keywords, tailOf, strsep]
  | cons k ks ih =>
    intro fuel b1 b2 b3 r hf h
    cases fuel with
    | zero => simp at hf
    | succ fuel =>
      have ih' := fun b1 b2 b3 r => ih fuel b1 b2 b3 r (by simpa using hf)
        (fun q hq => h q (by simp [hq]))
      have hk := h k (by simp)
      simp only [keyword, List.mem_cons, List.not_mem_nil, or_false] at hk
      rcases hk with rfl | rfl | rfl | rfl
      · have hs : strsep ',' (tailOf ("local".toList :: ks)) = (some "local".toList, tailOf ks) :=
          strsep_fields ks (by decide)
        simp only [keywords, hs]
        rw [if_pos (by decide)]
        have : (Bool.toNat b1 + 2 * Bool.toNat b2 + 4 * Bool.toNat b3) ||| typeFlag "local".toList
            = Bool.toNat true + 2 * Bool.toNat b2 + 4 * Bool.toNat b3 := by
          cases b1 <;> cases b2 <;> cases b3 <;> decide
        rw [this, ih']
        simp [str]
      · have hs : strsep ',' (tailOf ("ptp".toList :: ks)) = (some "ptp".toList, tailOf ks) :=
          strsep_fields ks (by decide)
        simp only [keywords, hs]
        rw [if_pos (by decide)]
        have : (Bool.toNat b1 + 2 * Bool.toNat b2 + 4 * Bool.toNat b3) ||| typeFlag "ptp".toList
            = Bool.toNat b1 + 2 * Bool.toNat true + 4 * Bool.toNat b3 := by
          cases b1 <;> cases b2 <;> cases b3 <;> decide
        rw [this, ih']
        simp [str]
      · have hs : strsep ',' (tailOf ("pps".toList :: ks)) = (some "pps".toList, tailOf ks) :=
          strsep_fields ks (by decide)
        simp only [keywords, hs]
        rw [if_pos (by decide)]
        have : (Bool.toNat b1 + 2 * Bool.toNat b2 + 4 * Bool.toNat b3) ||| typeFlag "pps".toList
            = Bool.toNat b1 + 2 * Bool.toNat b2 + 4 * Bool.toNat true := by
          cases b1 <;> cases b2 <;> cases b3 <;> decide
        rw [this, ih']
        simp [str]
      · have hs : strsep ',' (tailOf ("reset".toList :: ks)) = (some "reset".toList, tailOf ks) :=
          strsep_fields ks (by decide)
        simp only [keywords, hs]
        rw [if_neg (by decide), if_pos trivial, ih']
        simp [str]

/-! ## C100: commands mean what they say -/

theorem received_id {t : List Char} (hl : t.length ≤ 127) (h0 : '\x00' ∉ t) : received t = t := by
  unfold received
  rw [List.take_of_length_le hl, takeWhile_all h0]

theorem getAction_word (strtod : List Char → Option ν) (t w : List Char) (o : Option (List Char))
    (hl : t.length ≤ 127) (h0 : '\x00' ∉ t) (hs : strsep '=' (some t) = (some w, o)) :
    getAction strtod (some t) =
      if w = str "exit" then .exit
      else if w = str "logrotate" then .logrotate
      else if w = str "stepclocks" then .stepclocks
      else if w = str "dumptables" then .dumptables
      else if w = str "selectinstance" then
        match strsep '=' o with
        | (none, _) => .error
        | (some opt, _) => .select (opt.take 63)
      else if w = str "testmode" then testMode o
      else if w = str "pid_adjust" then pidAdjust strtod o
      else .nop := by
  simp only [getAction, received_id hl h0, hs]
  rfl

theorem fields_length (l : List (List Char)) : l.length ≤ (fields l).length := by
  induction l with
  | nil => simp
  | cons t r ih => simp [fields] at *; omega

theorem modes_find (id : Nat) (n : String) (h : modes[id]? = some n) :
    testModes.find? (fun m => n.toList = str m.1) = some (n, id) ∧ ',' ∉ n.toList := by
  have hlt : id < 17 := by
    rcases Nat.lt_or_ge id 17 with h' | h'
    · exact h'
    · rw [List.getElem?_eq_none (by simpa [modes] using h')] at h; cases h
  have hall : ∀ i < 17, ∀ n, modes[i]? = some n →
      testModes.find? (fun m => n.toList = str m.1) = some (n, i) ∧ ',' ∉ n.toList := by
    intro i hi n hn
    have hd : i = 0 ∨ i = 1 ∨ i = 2 ∨ i = 3 ∨ i = 4 ∨ i = 5 ∨ i = 6 ∨ i = 7 ∨ i = 8 ∨ i = 9 ∨
        i = 10 ∨ i = 11 ∨ i = 12 ∨ i = 13 ∨ i = 14 ∨ i = 15 ∨ i = 16 := by omega
    rcases hd with rfl | rfl | rfl | rfl | rfl | rfl | rfl | rfl | rfl | rfl | rfl | rfl | rfl |
      rfl | rfl | rfl | rfl <;> (cases hn; decide)
  exact hall id hlt n h

/-- C100: every well-formed command of at most 127 bytes is carried out as
written. -/
theorem C100_understood (isNum : List Char → ν → Prop) (zero : ν)
    (strtod : List Char → Option ν) (hr : Reads isNum zero strtod) (t : List Char) (a : Action ν)
    (h : Says isNum t a) (hl : t.length ≤ 127) (h0 : '\x00' ∉ t) :
    getAction strtod (some t) = a := by
  cases h with
  | exit => rfl
  | logrotate => rfl
  | stepclocks => rfl
  | dumptables => rfl
  | select n hn hln =>
    have hs : strsep '=' (some ("selectinstance=".toList ++ n))
        = (some (str "selectinstance"), some n) :=
      strsep_mid (d := '=') (t := str "selectinstance") (r := n) (by decide)
    rw [getAction_word strtod _ _ _ hl h0 hs, if_neg (by decide), if_neg (by decide),
      if_neg (by decide), if_neg (by decide), if_pos rfl, strsep_end hn]
    simp only [List.take_of_length_le hln]
  | test id n ps hn hp hv =>
    have hs : strsep '=' (some ("testmode=".toList ++ n.toList ++ fields (ps.map (·.1))))
        = (some (str "testmode"), some (n.toList ++ fields (ps.map (·.1)))) := by
      rw [List.append_assoc]
      exact strsep_mid (d := '=') (t := str "testmode") (by decide)
    rw [getAction_word strtod _ _ _ hl h0 hs, if_neg (by decide), if_neg (by decide),
      if_neg (by decide), if_neg (by decide), if_neg (by decide), if_pos rfl]
    obtain ⟨hf, hc⟩ := modes_find id n hn
    simp only [testMode]
    rw [strsep_fields _ hc]
    simp only [hf]
    rw [testParams_spec ps 3 hp hv]
    match ps, hp with
    | [], _ => rfl
    | [p], _ => rfl
    | [p, q], _ => rfl
    | [p, q, r], _ => rfl
    | _ :: _ :: _ :: _ :: _, hp => simp at hp
  | pid x y z p q r ks hx hy hz hk =>
    have hs : strsep '=' (some ("pid_adjust=".toList ++ x ++ fields (y :: z :: ks)))
        = (some (str "pid_adjust"), some (x ++ fields (y :: z :: ks))) := by
      rw [List.append_assoc]
      exact strsep_mid (d := '=') (t := str "pid_adjust") (by decide)
    rw [getAction_word strtod _ _ _ hl h0 hs, if_neg (by decide), if_neg (by decide),
      if_neg (by decide), if_neg (by decide), if_neg (by decide), if_neg (by decide), if_pos rfl]
    have nc : ∀ {u : List Char} {v : Option ν}, Coefficient isNum u v → ',' ∉ u := by
      rintro u v (⟨rfl, _⟩ | ⟨_, h, _⟩)
      · simp
      · exact h
    have co : ∀ {u : List Char} {v : Option ν}, Coefficient isNum u v →
        coefficient strtod (some u) = v := by
      rintro u v (⟨rfl, rfl⟩ | ⟨hne, _, w, hw, rfl⟩)
      · rfl
      · cases u with
        | nil => exact absurd rfl hne
        | cons c u => exact hr.num _ _ hw
    have e1 : strsep ',' (some (x ++ fields (y :: z :: ks))) = (some x, some (y ++ fields (z :: ks))) :=
      strsep_fields _ (nc hx)
    have e2 : strsep ',' (some (y ++ fields (z :: ks))) = (some y, some (z ++ fields ks)) :=
      strsep_fields _ (nc hy)
    have e3 : strsep ',' (some (z ++ fields ks)) = (some z, tailOf ks) := strsep_fields _ (nc hz)
    have hlen : ks.length < 130 := by
      have := fields_length ks
      simp [fields] at hl
      simp [fields] at this
      omega
    have hkw := keywords_spec ks 130 false false false false hlen hk
    simp only [Bool.toNat_false, Nat.mul_zero, Nat.add_zero, Bool.false_or] at hkw
    simp only [pidAdjust, e1, e2, e3, hkw, co hx, co hy, co hz]
    congr 1
    unfold servos
    by_cases h1 : ['l', 'o', 'c', 'a', 'l'] ∈ ks <;> by_cases h2 : ['p', 't', 'p'] ∈ ks <;>
      by_cases h3 : ['p', 'p', 's'] ∈ ks <;> simp [str, h1, h2, h3]

-- decimal numbers, and a command with two keywords
example : IsInt "-250".toList (-250) := .neg [2, 5, 0] (by
  refine ⟨by decide, Or.inr ⟨2, [5, 0], rfl, by decide⟩⟩) (by decide)

example (isNum : List Char → Nat → Prop) (h : isNum "2".toList 2) :
    Says isNum "pid_adjust=,2,,ptp,reset".toList (.pid none (some 2) none 2 true) :=
  .pid [] ['2'] [] none (some 2) none ["ptp".toList, "reset".toList] (Or.inl ⟨rfl, rfl⟩)
    (Or.inr ⟨by decide, by decide, 2, h, rfl⟩) (Or.inl ⟨rfl, rfl⟩) (by decide)

example (isNum : List Char → Nat → Prop) :
    Says isNum "testmode=utc_offset,37".toList (.test 6 37 0 0) :=
  .test 6 "utc_offset" [("37".toList, 37)] rfl (by decide) (by
    intro p hp
    rw [List.mem_singleton] at hp
    subst hp
    exact .pos [3, 7] ⟨by decide, Or.inr ⟨3, [7], rfl, by decide⟩⟩ (by decide))

/-! ## C101: nothing else is carried out -/

/-- C101, full statement: what is not a well-formed command is not carried
out. -/
def C101_statement : Prop :=
  ∀ (isNum : List Char → Nat → Prop) (strtod : List Char → Option Nat), Reads isNum 0 strtod →
    ∀ (b : List Char) (a : Action Nat), getAction strtod (some b) = a →
    a = .nop ∨ a = .error ∨ Says isNum b a

theorem word_split (l : List Char) :
    let w := (l.takeWhile (fun c => c != '\x00')).takeWhile (fun c => c != '=')
    '=' ∉ w ∧ '\x00' ∉ w ∧ (l = w ∨ ∃ r, l = w ++ '=' :: r ∨ l = w ++ '\x00' :: r) := by
  induction l with
  | nil => exact ⟨by simp, by simp, Or.inl rfl⟩
  | cons c l ih =>
    by_cases h0 : c = '\x00'
    · subst h0
      exact ⟨by simp, by simp, Or.inr ⟨l, Or.inr rfl⟩⟩
    · rw [List.takeWhile_cons_of_pos (by simpa using h0)]
      by_cases he : c = '='
      · subst he
        exact ⟨by simp, by simp, Or.inr ⟨l, Or.inl rfl⟩⟩
      · rw [List.takeWhile_cons_of_pos (by simpa using he)]
        obtain ⟨h1, h2, h3⟩ := ih
        refine ⟨?_, ?_, ?_⟩
        · simp only [List.mem_cons, not_or]; exact ⟨fun h => he h.symm, h1⟩
        · simp only [List.mem_cons, not_or]; exact ⟨fun h => h0 h.symm, h2⟩
        · rcases h3 with h3 | ⟨r, h3 | h3⟩
          · exact Or.inl (congrArg (c :: ·) h3)
          · exact Or.inr ⟨r, Or.inl (congrArg (c :: ·) h3)⟩
          · exact Or.inr ⟨r, Or.inr (congrArg (c :: ·) h3)⟩

/-- The commands' names. -/
def names : List (List Char) :=
  ["exit".toList, "logrotate".toList, "stepclocks".toList, "dumptables".toList,
   "selectinstance".toList, "testmode".toList, "pid_adjust".toList]

/-- What the word of a datagram must be for an action. -/
def Meant (w : List Char) : Action ν → Prop
  | .nop => w ∉ names
  | .error => w = "selectinstance".toList ∨ w = "testmode".toList ∨ w = "pid_adjust".toList
  | .exit => w = "exit".toList
  | .logrotate => w = "logrotate".toList
  | .stepclocks => w = "stepclocks".toList
  | .dumptables => w = "dumptables".toList
  | .select n => w = "selectinstance".toList ∧ n.length ≤ 63
  | .test id p0 p1 p2 => w = "testmode".toList ∧ id < 17 ∧
      ∀ p ∈ [p0, p1, p2], -2147483648 ≤ p ∧ p ≤ 2147483647
  | .pid _ _ _ mask _ => w = "pid_adjust".toList ∧ 0 < mask ∧ mask ≤ 7

theorem testParams_range : ∀ (n : Nat) (o : Option (List Char)) (l : List Int),
    testParams n o = some l → ∀ p ∈ l, -2147483648 ≤ p ∧ p ≤ 2147483647 := by
  intro n
  induction n with
  | zero => intro o l h; cases h; simp
  | succ n ih =>
    intro o l h
    unfold testParams at h
    split at h
    · cases h
      intro p hp
      rw [List.eq_of_mem_replicate hp]
      omega
    · split at h
      · cases h
      · split at h
        · cases h
        · rename_i l' hl
          cases h
          intro p hp
          rcases List.mem_cons.1 hp with rfl | hp
          · unfold s32; omega
          · exact ih _ _ hl p hp

theorem keywords_mask : ∀ (fuel : Nat) (o : Option (List Char)) (mask : Nat) (r : Bool) (m : Nat)
    (r' : Bool), mask ≤ 7 → keywords fuel o mask r = some (m, r') → m ≤ 7 := by
  intro fuel
  induction fuel with
  | zero => intro o mask r m r' _ h; cases h
  | succ fuel ih =>
    intro o mask r m r' hm h
    unfold keywords at h
    split at h
    · cases h; exact hm
    · split at h
      · refine ih _ _ _ _ _ ?_ h
        have hf : ∀ t, typeFlag t ≤ 4 := by
          intro t; unfold typeFlag; split <;> (try split) <;> (try split) <;> decide
        have h8 : ∀ a < 8, ∀ b < 8, a ||| b < 8 := by decide
        exact Nat.le_of_lt_succ
          (h8 mask (by omega) _ (Nat.lt_of_le_of_lt (hf _) (by decide)))
      · split at h
        · exact ih _ _ _ _ _ hm h
        · cases h

/-- C101: the action is always that of the first word of the datagram, and its
parameters are within bounds.  Missing from the full statement: what follows
the word is not checked completely, see `C101_violated`. -/
theorem C101_words_partial (strtod : List Char → Option ν) (b : List Char) :
    ∃ w, Word b w ∧ Meant w (getAction strtod (some b)) := by
  have hw := word_split (b.take 127)
  refine ⟨_, hw, ?_⟩
  have hs : strsep '=' (some (received b))
      = (some ((received b).takeWhile (fun c => c != '=')), (strsep '=' (some (received b))).2) := rfl
  simp only [getAction]
  rw [hs]
  show Meant ((received b).takeWhile (fun c => c != '=')) _
  generalize (received b).takeWhile (fun c => c != '=') = w
  generalize (strsep '=' (some (received b))).2 = o
  simp only
  by_cases h1 : w = str "exit"
  · rw [if_pos h1]; exact h1
  rw [if_neg h1]
  by_cases h2 : w = str "logrotate"
  · rw [if_pos h2]; exact h2
  rw [if_neg h2]
  by_cases h3 : w = str "stepclocks"
  · rw [if_pos h3]; exact h3
  rw [if_neg h3]
  by_cases h4 : w = str "dumptables"
  · rw [if_pos h4]; exact h4
  rw [if_neg h4]
  by_cases h5 : w = str "selectinstance"
  · rw [if_pos h5]
    split
    · exact Or.inl h5
    · refine ⟨h5, ?_⟩
      rw [List.length_take]; omega
  rw [if_neg h5]
  by_cases h6 : w = str "testmode"
  · rw [if_pos h6]
    unfold testMode
    split
    · exact Or.inr (Or.inl h6)
    · split
      · exact Or.inr (Or.inl h6)
      · rename_i m hm
        split
        · rename_i x y z hp
          refine ⟨h6, ?_, ?_⟩
          · have hmem := List.mem_of_find?_eq_some hm
            have hall : ∀ m ∈ testModes, m.2 < 17 := by decide
            exact hall m hmem
          · exact testParams_range _ _ _ hp
        · exact Or.inr (Or.inl h6)
  rw [if_neg h6]
  by_cases h7 : w = str "pid_adjust"
  · rw [if_pos h7]
    unfold pidAdjust
    simp only
    split
    · exact Or.inr (Or.inr h7)
    · rename_i mask reset hk
      have := keywords_mask _ _ _ _ _ _ (by decide) hk
      refine ⟨h7, ?_, ?_⟩
      · by_cases hz : mask = 0
        · rw [if_pos hz]; decide
        · rw [if_neg hz]; omega
      · by_cases hz : mask = 0
        · rw [if_pos hz]; decide
        · rw [if_neg hz]; exact this
  rw [if_neg h7]
  show w ∉ names
  simp only [names, List.mem_cons, List.not_mem_nil, or_false, not_or]
  exact ⟨h1, h2, h3, h4, h5, h6, h7⟩

example : getAction (fun _ => some 0) (some "selectinstance=ptp1".toList)
    = (.select "ptp1".toList : Action Nat) := rfl

/-- C101: nothing is done unless a datagram was read whose first word asks for
it. -/
theorem C101_asked (strtod : List Char → Option ν) (d : Option (List Char))
    (h : getAction strtod d ≠ .error) :
    ∃ b w, d = some b ∧ Word b w ∧ Meant w (getAction strtod d) := by
  cases d with
  | none => exact absurd rfl h
  | some b =>
    obtain ⟨w, hw, hm⟩ := C101_words_partial strtod b
    exact ⟨b, w, rfl, hw, hm⟩

example : getAction (fun _ => some 0) (some "exit".toList) ≠ (.error : Action Nat) := by decide

/-- C101 does not hold: an operator who forgets the coefficients sets the
proportional one of all servos to zero. -/
theorem C101_violated : ¬ C101_statement := by
  intro h
  have := h (fun _ _ => False) (fun _ => some 0) ⟨fun t q hq => hq.elim, rfl⟩
    "pid_adjust=ptp".toList (.pid (some 0) none none 7 false) (by decide)
  rcases this with h | h | h
  · cases h
  · cases h
  · generalize ht : "pid_adjust=ptp".toList = t at h
    generalize ha : (Action.pid (some 0) none none 7 false : Action Nat) = x at h
    cases h with
    | pid a b c p q r ks =>
      have : ',' ∈ "pid_adjust=ptp".toList := by
        rw [ht]; simp [fields]
      exact absurd this (by decide)
    | _ => cases ha

/-- C101: only the first 127 bytes count, whatever follows. -/
theorem C101_truncated (strtod : List Char → Option ν) (b c : List Char) (h : b.length = 127) :
    getAction strtod (some (b ++ c)) = getAction strtod (some b) := by
  simp only [getAction, received]
  rw [List.take_append_of_le_length (by omega)]

/-- C101: a parameter of a test mode that does not fit is reduced, not
refused. -/
theorem C101_wrapped : getAction (fun _ => none) (some "testmode=utc_offset,4294967333".toList)
    = (.test 6 37 0 0 : Action Nat) := by decide

/-! ## C102: selecting an instance by name -/

/-- C102, full statement: for every name that an instance may have, the
command makes the engine look for just that name. -/
def C102_statement : Prop :=
  ∀ (n : List Char) (stale : Char), n.length < 64 → '\x00' ∉ n → (∀ c ∈ n, CStr.isSpace c = false) →
    ∃ m, getAction (fun _ => (none : Option Nat)) (some ("selectinstance=".toList ++ n)) = .select m ∧
      selectMsg stale m = some n

/-- C102: the name is looked for exactly if it has at most 62 characters and
no `=`. -/
theorem C102_name_partial (strtod : List Char → Option ν) (n : List Char) (stale : Char)
    (hl : n.length ≤ 62) (h0 : '\x00' ∉ n) (he : '=' ∉ n) :
    ∃ m, getAction strtod (some ("selectinstance=".toList ++ n)) = .select m ∧
      selectMsg stale m = some n := by
  refine ⟨n, ?_, ?_⟩
  · have hs : strsep '=' (some ("selectinstance=".toList ++ n))
        = (some (str "selectinstance"), some n) :=
      strsep_mid (d := '=') (t := str "selectinstance") (r := n) (by decide)
    have hlen : ("selectinstance=".toList ++ n).length ≤ 127 := by
      rw [List.length_append]
      have : "selectinstance=".toList.length = 15 := by decide
      omega
    have hz : '\x00' ∉ "selectinstance=".toList ++ n := by
      rw [List.mem_append]
      rintro (h | h)
      · exact absurd h (by decide)
      · exact h0 h
    rw [getAction_word strtod _ _ _ hlen hz hs, if_neg (by decide), if_neg (by decide),
      if_neg (by decide), if_neg (by decide), if_pos rfl, strsep_end he]
    simp only [List.take_of_length_le (show n.length ≤ 63 by omega)]
  · unfold selectMsg
    rw [if_pos (by omega)]

example : ∃ n : List Char, n.length ≤ 62 ∧ '\x00' ∉ n ∧ '=' ∉ n ∧ n ≠ [] :=
  ⟨"ptp1".toList, by decide⟩

/-- C102 does not hold: the copy of a name of 63 characters is not
terminated. -/
theorem C102_violated : ¬ C102_statement := by
  intro h
  obtain ⟨m, h1, h2⟩ := h (List.replicate 63 'a') 'x' (by decide) (by decide) (by decide)
  have : m = List.replicate 63 'a' := by
    have hc : getAction (fun _ => (none : Option Nat))
      (some ("selectinstance=".toList ++ List.replicate 63 'a')) = .select (List.replicate 63 'a') := by
      decide
    rw [hc] at h1
    cases h1
    rfl
  subst this
  exact absurd h2 (by decide)

/-- C102: nor does it hold for names with `=`. -/
theorem C102_equals : getAction (fun _ => (none : Option Nat)) (some "selectinstance=a=b".toList)
    = .select "a".toList := by decide

/-! ## C103: the coefficients of the controllers -/

/-- What the operator has given. -/
def given : List (PortEv ν) → List (Coef ν)
  | [] => []
  | .adjust m :: r => m :: given r
  | .init :: r => given r

/-- C103, full statement: the coefficients of a port are the last ones given
by the operator, or the configured ones. -/
def C103_statement : Prop :=
  ∀ (c : Coef Nat) (evs : List (PortEv Nat)),
    (portRun c evs).pid.kp = latest c.kp ((given evs).map (·.kp)) ∧
    (portRun c evs).pid.ki = latest c.ki ((given evs).map (·.ki)) ∧
    (portRun c evs).pid.kd = latest c.kd ((given evs).map (·.kd))

theorem adjust_latest (v w : Option ν) (r : List (Option ν)) :
    latest (if w.isSome then w else v) r = latest v (w :: r) := by
  cases w <;> rfl

/-- C103: the servos of the engine and of PPS instances use the last
coefficients given. -/
theorem C103_servo (c : Coef ν) (msgs : List (Coef ν)) :
    (servoRun c msgs).kp = latest c.kp (msgs.map (·.kp)) ∧
    (servoRun c msgs).ki = latest c.ki (msgs.map (·.ki)) ∧
    (servoRun c msgs).kd = latest c.kd (msgs.map (·.kd)) := by
  induction msgs generalizing c with
  | nil => exact ⟨rfl, rfl, rfl⟩
  | cons m msgs ih =>
    obtain ⟨h1, h2, h3⟩ := ih (adjust c m)
    refine ⟨?_, ?_, ?_⟩
    · exact h1.trans (adjust_latest c.kp m.kp _)
    · exact h2.trans (adjust_latest c.ki m.ki _)
    · exact h3.trans (adjust_latest c.kd m.kd _)

/-- All three coefficients are given. -/
def Complete (m : Coef ν) : Prop := m.kp.isSome ∧ m.ki.isSome ∧ m.kd.isSome

theorem run_complete (evs : List (PortEv ν)) : ∀ p : Port ν, p.pid = p.opts →
    (∀ m ∈ given evs, Complete m) →
    (evs.foldl portStep p).pid = servoRun p.pid (given evs) := by
  induction evs with
  | nil => intro p _ _; rfl
  | cons e evs ih =>
    intro p hp h
    cases e with
    | adjust m =>
      obtain ⟨a, b, c⟩ := h m (by simp [given])
      have he : adjust p.pid m = m := by
        unfold adjust
        rw [if_pos a, if_pos b, if_pos c]
      have := ih (portStep p (.adjust m)) (by simp [portStep, he])
        (fun q hq => h q (by simp [given, hq]))
      exact this
    | init =>
      have := ih (portStep p .init) rfl (fun q hq => h q hq)
      simp only [List.foldl_cons]
      rw [this]
      simp [portStep, ← hp, given]

theorem run_noInit (evs : List (PortEv ν)) : ∀ p : Port ν, .init ∉ evs →
    (evs.foldl portStep p).pid = servoRun p.pid (given evs) := by
  induction evs with
  | nil => intro p _; rfl
  | cons e evs ih =>
    intro p h
    cases e with
    | adjust m => exact ih (portStep p (.adjust m)) (fun hh => h (by simp [hh]))
    | init => exact absurd (by simp) h

/-- C103: the port uses the last coefficients given if every command gave all
three or the port has not been initialised again.  Missing: a port initialised
again after a command that left one out. -/
theorem C103_port_partial (c : Coef ν) (evs : List (PortEv ν))
    (h : (∀ m ∈ given evs, Complete m) ∨ .init ∉ evs) :
    (portRun c evs).pid.kp = latest c.kp ((given evs).map (·.kp)) ∧
    (portRun c evs).pid.ki = latest c.ki ((given evs).map (·.ki)) ∧
    (portRun c evs).pid.kd = latest c.kd ((given evs).map (·.kd)) := by
  have : (portRun c evs).pid = servoRun c (given evs) := by
    rcases h with h | h
    · exact run_complete evs ⟨c, c⟩ rfl h
    · exact run_noInit evs ⟨c, c⟩ h
  rw [this]
  exact C103_servo c _

example : (portRun (⟨some 1, some 2, some 3⟩ : Coef Nat)
    [.init, .adjust ⟨some 5, some 6, some 7⟩, .init]).pid = ⟨some 5, some 6, some 7⟩ := by decide
example : (portRun (⟨some 1, some 2, some 3⟩ : Coef Nat)
    [.adjust ⟨none, some 6, none⟩]).pid = ⟨some 1, some 6, some 3⟩ := by decide

/-- C103: a coefficient left out is `NaN` from the next initialisation of the
port on, until it is given. -/
theorem C103_nan (c : Coef ν) (evs evs' : List (PortEv ν)) (m : Coef ν) (hm : m.kp = none)
    (h : ∀ q ∈ given evs', q.kp = none) :
    (portRun c (evs ++ .adjust m :: .init :: evs')).pid.kp = none := by
  have key : ∀ (l : List (PortEv ν)) (p : Port ν), p.pid.kp = none → p.opts.kp = none →
      (∀ q ∈ given l, q.kp = none) → (l.foldl portStep p).pid.kp = none := by
    intro l
    induction l with
    | nil => intro p h _ _; exact h
    | cons e l ih =>
      intro p h1 h2 h3
      cases e with
      | adjust q =>
        have hq := h3 q (by simp [given])
        refine ih (portStep p (.adjust q)) ?_ hq (fun x hx => h3 x (by simp [given, hx]))
        simp [portStep, adjust, hq, h1]
      | init => exact ih (portStep p .init) h2 h2 (fun x hx => h3 x hx)
  unfold portRun
  rw [List.foldl_append]
  exact key evs' _ hm hm h

/-- C103 does not hold. -/
theorem C103_violated : ¬ C103_statement := by
  intro h
  have := (h ⟨some 1, some 2, some 3⟩ [.adjust ⟨none, some 6, none⟩, .init]).1
  exact absurd this (by decide)

end Verif.Control
