import Verif.Acl.Lemmas

set_option linter.unusedSimpArgs false
set_option linter.unusedVariables false

/-!
# Properties of the access control lists (C51, C52, C53)
-/

namespace Verif.Acl
open Verif.CStr

/-! ## C52: entries denote the written network -/

/-- Specification: the ways to write the network with the first `n` bits of
the address `net`.  One to four octets, absent ones are zero; no length, a
length `/n`, or a dotted mask of two to four octets consisting of `n ≤ dmax` ones. -/
inductive EntryText (dmax : Nat) : List Char → Nat → Nat → Prop
  | host {ts vs} : Numerals 255 ts vs → 1 ≤ ts.length → ts.length ≤ 4 →
      EntryText dmax (dotted ts) (addrValue vs) 32
  | cidr {ts vs p n} : Numerals 255 ts vs → 1 ≤ ts.length → ts.length ≤ 4 → IsNumeral p n → n ≤ 32 →
      EntryText dmax (dotted ts ++ '/' :: p) (addrValue vs) n
  | mask {ts vs ms ws n} : Numerals 255 ts vs → 1 ≤ ts.length → ts.length ≤ 4 →
      Numerals 255 ms ws → 2 ≤ ms.length → ms.length ≤ 4 → n ≤ dmax →
      addrValue ws = 2 ^ 32 - 2 ^ (32 - n) →
      EntryText dmax (dotted ts ++ '/' :: dotted ms) (addrValue vs) n

/-- Specification: `addr` is in the network given by the first `n` bits of `net`. -/
def InNet (net n addr : Nat) : Prop := addr / 2 ^ (32 - n) = net / 2 ^ (32 - n)

instance (net n addr : Nat) : Decidable (InNet net n addr) := inferInstanceAs (Decidable (_ = _))

/-- Specification: the entry is for the network `net/n`. -/
def Denotes (e : Entry) (net n : Nat) : Prop :=
  e.netmask = n ∧ e.hitCount = 0 ∧ ∀ addr < 2 ^ 32, (e.bitmask &&& addr = e.network ↔ InNet net n addr)

/-- C52, full statement: every way of writing a network is understood. -/
def C52_entry_statement : Prop :=
  ∀ text net n, EntryText 32 text net n → ∃ e, parseAclEntry text = .ok e ∧ Denotes e net n

/-- A numeral for tests. -/
theorem num1 (c : Char) (h : '0' ≤ c ∧ c ≤ '9') : IsNumeral [c] (c.toNat - '0'.toNat) :=
  ⟨by simp, by simpa using h, by simp [numeral]⟩

theorem num255 : IsNumeral "255".toList 255 := ⟨by decide, by decide, by decide⟩
theorem num10 : IsNumeral "10".toList 10 := ⟨by decide, by decide, by decide⟩
theorem num0 : IsNumeral "0".toList 0 := ⟨by decide, by decide, by decide⟩

/-- C52 fails: the host mask written in dotted form makes the counting loop
(`ipv4_acl.c:181`) shift by 32; on x86 it never ends. -/
theorem C52_entry_violated : ¬ C52_entry_statement := by
  intro h
  have h10 : Numerals 255 ["10".toList, "0".toList, "0".toList, "1".toList] [10, 0, 0, 1] :=
    .cons num10 (by omega) (.cons num0 (by omega) (.cons num0 (by omega)
      (.cons (num1 '1' (by decide)) (by decide) .nil)))
  have hm : Numerals 255 ["255".toList, "255".toList, "255".toList, "255".toList] [255, 255, 255, 255] :=
    .cons num255 (by omega) (.cons num255 (by omega) (.cons num255 (by omega) (.cons num255 (by omega) .nil)))
  obtain ⟨e, he, _⟩ := h _ _ 32 (.mask h10 (by decide) (by decide) hm (by decide) (by decide) (by decide) (by decide))
  revert he
  have : parseAclEntry (dotted ["10".toList, "0".toList, "0".toList, "1".toList] ++
      '/' :: dotted ["255".toList, "255".toList, "255".toList, "255".toList]) = .ub := by decide
  rw [this]
  simp

theorem nodot_slash {m ts vs} (h : Numerals m ts vs) : ∀ c ∈ dotted ts, isSlash c = false := by
  intro c hc
  rcases h.chars c hc with h | h
  · exact (digit_props h).2.2.2.2.2.1
  · subst h; rfl

theorem parse_split {ts vs p} (h : Numerals 255 ts vs) (h1 : 1 ≤ ts.length) (h4 : ts.length ≤ 4)
    (hne : p ≠ []) (hp : ∀ c ∈ p, isSlash c = false) :
    tokens isSlash (dotted ts ++ '/' :: p) = [dotted ts, p] := by
  rw [tokens_tok (dotted_ne h (by omega)) (nodot_slash h) (.inr ⟨'/', p, rfl, rfl⟩)]
  rw [show '/' :: p = ['/'] ++ p from rfl, tokens_skip (by simp [isSlash])]
  have := tokens_tok (d := isSlash) (t := p) (r := []) hne hp (.inl rfl)
  rw [List.append_nil, tokens_nil] at this
  rw [this]

theorem parse_gen {ts vs text rest m n} (h : Numerals 255 ts vs) (h1 : 1 ≤ ts.length) (h4 : ts.length ≤ 4)
    (ht : tokens isSlash text = dotted ts :: rest) (hm : parseMask rest = .ok (m, n)) :
    parseAclEntry text = .ok ⟨addrValue vs &&& m, m, n, 0⟩ := by
  unfold parseAclEntry
  rw [ht]
  simp only [tokens_dotted ts h.nodot, ipToArray]
  rw [if_neg (by omega), ipLoop_net h [] (by simpa using h4), hm]
  simp only [List.nil_append, pack_eq h.bound]

theorem shiftLoop_count {n : Nat} (h : n ≤ 31) : shiftLoop (2 ^ 32 - 2 ^ (32 - n)) 33 0 = .ok n := by
  have : n = 0 ∨ n = 1 ∨ n = 2 ∨ n = 3 ∨ n = 4 ∨ n = 5 ∨ n = 6 ∨ n = 7 ∨ n = 8 ∨ n = 9 ∨ n = 10 ∨ n = 11 ∨ n = 12 ∨
      n = 13 ∨ n = 14 ∨ n = 15 ∨ n = 16 ∨ n = 17 ∨ n = 18 ∨ n = 19 ∨ n = 20 ∨ n = 21 ∨ n = 22 ∨ n = 23 ∨
      n = 24 ∨ n = 25 ∨ n = 26 ∨ n = 27 ∨ n = 28 ∨ n = 29 ∨ n = 30 ∨ n = 31 := by omega
  rcases this with h|h|h|h|h|h|h|h|h|h|h|h|h|h|h|h|h|h|h|h|h|h|h|h|h|h|h|h|h|h|h|h <;> subst h <;> decide

theorem denotes_mk {vs n} (h : ∀ v ∈ vs, v ≤ 255) (hn : n ≤ 32) :
    Denotes ⟨addrValue vs &&& (2 ^ 32 - 2 ^ (32 - n)), 2 ^ 32 - 2 ^ (32 - n), n, 0⟩ (addrValue vs) n :=
  ⟨rfl, rfl, fun addr ha => match_iff hn (addrValue_lt h) ha⟩

/-- C52 in all other cases: hosts, all prefix lengths 0 to 32 and all dotted
masks with less than 32 ones.  Missing: the dotted mask 255.255.255.255, for
which the statement is false. -/
theorem C52_entry_partial : ∀ text net n, EntryText 31 text net n →
    ∃ e, parseAclEntry text = .ok e ∧ Denotes e net n := by
  intro text net n h
  cases h with
  | @host ts vs h h1 h4 =>
    refine ⟨_, parse_gen (m := 2 ^ 32 - 2 ^ (32 - 32)) (n := 32) h h1 h4 (rest := []) ?_ rfl,
      denotes_mk h.bound (by omega)⟩
    have := tokens_tok (d := isSlash) (t := dotted ts) (r := []) (dotted_ne h (by omega)) (nodot_slash h) (.inl rfl)
    rwa [List.append_nil, tokens_nil] at this
  | @cidr ts vs p n h h1 h4 hp hn =>
    have hp1 : tokens isDot p = [p] := tokens_dotted [p] (by
      simpa using ⟨hp.1, fun c hc => (digit_props (hp.2.1 c hc)).2.2.2.2.1⟩)
    refine ⟨_, parse_gen (m := 2 ^ 32 - 2 ^ (32 - n)) (n := n) h h1 h4 (parse_split h h1 h4 hp.1
      (fun c hc => (digit_props (hp.2.1 c hc)).2.2.2.2.2.1)) ?_, denotes_mk h.bound hn⟩
    unfold parseMask
    simp only [hp1, List.length_cons, List.length_nil, if_true, strtol_numeral hp (show n ≤ 9223372036854775807 by omega)]
    rw [if_neg (by omega)]
    by_cases h0 : n = 0
    · subst h0; rfl
    · rw [if_neg (by omega), Int.toNat_natCast, shl_mask hn (by omega)]
  | @mask ts vs ms ws n h h1 h4 hm hm1 hm4 hn hw =>
    refine ⟨_, parse_gen (m := 2 ^ 32 - 2 ^ (32 - n)) (n := n) h h1 h4 (parse_split h h1 h4
      (dotted_ne hm (by omega)) (nodot_slash hm)) ?_, denotes_mk h.bound (by omega)⟩
    unfold parseMask
    simp only [tokens_dotted ms hm.nodot, ipToArray, ipLoop_mask hm [] (by simpa using hm4)]
    rw [if_neg (by omega), if_neg (by omega)]
    have hl := hm.length
    have : pack (keepMask ws) = 2 ^ 32 - 2 ^ (32 - n) := by
      rw [pack_eq (keepMask_le hm.bound), keepMask_value hm.bound (by omega) (by omega) hw, hw]
    simp only [List.nil_append, this, shiftLoop_count hn]

theorem sample_net : EntryText 31 "10.0.0.1/8".toList 167772161 8 := by
  have h10 : Numerals 255 ["10".toList, "0".toList, "0".toList, "1".toList] [10, 0, 0, 1] :=
    .cons num10 (by omega) (.cons num0 (by omega) (.cons num0 (by omega)
      (.cons (num1 '1' (by decide)) (by decide) .nil)))
  exact .cidr h10 (by decide) (by decide) (num1 '8' (by decide)) (by decide)

example : ∃ e, parseAclEntry "10.0.0.1/8".toList = .ok e ∧ Denotes e 167772161 8 :=
  C52_entry_partial _ _ _ sample_net
example : InNet 167772161 8 (10 * 2 ^ 24 + 77) ∧ ¬ InNet 167772161 8 (11 * 2 ^ 24) := by decide

theorem ipLoop_noub (m : Bool) : ∀ (ts : List (List Char)) (acc : List Nat), acc.length + ts.length ≤ 4 →
    ipLoop m ts acc ≠ .ub := by
  intro ts
  induction ts with
  | nil => intro acc h; unfold ipLoop; split <;> simp
  | cons t ts ih =>
    intro acc h
    simp only [List.length_cons] at h
    unfold ipLoop
    rw [if_neg (by omega)]
    simp only
    cases strtol t with
    | none => simp
    | some v =>
      simp only
      split
      · simp
      · rw [if_neg (by omega)]
        split
        · simp
        · exact ih _ (by simp; omega)

/-- How the mask parser reads octets. -/
inductive MaskRead : List (List Char) → List Nat → Prop
  | stop : MaskRead [] []
  | last {t ts} {v : Int} : strtol t = some v → 0 ≤ v → v < 255 → MaskRead (t :: ts) [v.toNat]
  | more {t ts vs} : strtol t = some 255 → MaskRead ts vs → MaskRead (t :: ts) (255 :: vs)

theorem ipLoop_read : ∀ (ts : List (List Char)) (acc o : List Nat), ipLoop true ts acc = .ok o →
    ∃ vs, o = acc ++ vs ∧ MaskRead ts vs := by
  intro ts
  induction ts with
  | nil =>
    intro acc o h
    unfold ipLoop at h
    split at h
    · cases h
    · cases h; exact ⟨[], by simp, .stop⟩
  | cons t ts ih =>
    intro acc o h
    unfold ipLoop at h
    split at h
    · cases h
    · simp only at h
      cases hv : strtol t with
      | none => rw [hv] at h; cases h
      | some v =>
        rw [hv] at h
        simp only at h
        split at h
        · cases h
        · split at h
          · cases h
          · split at h
            · rename_i h1 h2 h3
              cases h
              exact ⟨_, rfl, .last hv (by omega) (by simpa using h3)⟩
            · rename_i h1 h2 h3
              have hv' : v = 255 := by simp at h3; omega
              subst hv'
              obtain ⟨vs, ho, hr⟩ := ih _ _ h
              exact ⟨255 :: vs, by simpa using ho, .more hv hr⟩

theorem MaskRead.bound {ts vs} (h : MaskRead ts vs) : ∀ v ∈ vs, v ≤ 255 := by
  induction h with
  | stop => simp
  | last _ _ _ => simp; omega
  | more _ _ ih => simpa using ih

theorem MaskRead.four {ts vs} (h : MaskRead ts vs) (hl : ts.length ≤ 4) (ho : addrValue vs % 2 = 1) :
    ∃ a b c d x, ts = [a, b, c, d] ∧ strtol a = some 255 ∧ strtol b = some 255 ∧ strtol c = some 255 ∧
      strtol d = some x ∧ x % 2 = 1 ∧ 0 ≤ x ∧ x ≤ 255 := by
  have hd : (vs.getD 3 0) % 2 = 1 := by unfold addrValue at ho; omega
  cases h with
  | stop => simp at hd
  | last _ _ _ => simp at hd
  | @more a ts vs ha h =>
    cases h with
    | stop => simp at hd
    | last _ _ _ => simp at hd
    | @more b ts vs hb h =>
      cases h with
      | stop => simp at hd
      | last _ _ _ => simp at hd
      | @more c ts vs hc h =>
        cases h with
        | stop => simp at hd
        | @last d ts v hdv h0 h1 =>
          have : ts = [] := by cases ts with
            | nil => rfl
            | cons _ _ => simp at hl
          subst this
          exact ⟨a, b, c, d, v, rfl, ha, hb, hc, hdv, by simp at hd; omega, h0, by omega⟩
        | @more d ts vs hdv h =>
          have : ts = [] := by cases ts with
            | nil => rfl
            | cons _ _ => simp at hl
          subst this
          exact ⟨a, b, c, d, 255, rfl, ha, hb, hc, hdv, by omega, by omega, by omega⟩

/-- C52, termination for arbitrary text: parsing can only fail to end when the
text has four dotted mask octets of which the first three are 255 and the last
is odd.  (The full claim, that it always ends, is refuted above.) -/
theorem C52_terminates_partial (line : List Char) (h : parseAclEntry line = .ub) :
    ∃ net mask rest a b c d x, tokens isSlash line = net :: mask :: rest ∧
      tokens isDot mask = [a, b, c, d] ∧ strtol a = some 255 ∧ strtol b = some 255 ∧ strtol c = some 255 ∧
      strtol d = some x ∧ x % 2 = 1 ∧ 0 ≤ x ∧ x ≤ 255 := by
  unfold parseAclEntry at h
  cases hl : tokens isSlash line with
  | nil => rw [hl] at h; cases h
  | cons net rest =>
    rw [hl] at h
    simp only at h
    split at h
    · cases h
    · rename_i hc
      cases hn : ipToArray net false with
      | ub => exact absurd hn (ipLoop_noub _ _ _ (by simp; omega))
      | err => rw [hn] at h; cases h
      | ok o =>
        rw [hn] at h
        simp only at h
        cases hm : parseMask rest with
        | err => rw [hm] at h; cases h
        | ok mn => rw [hm] at h; cases h
        | ub =>
          clear h
          unfold parseMask at hm
          cases rest with
          | nil => cases hm
          | cons mask rest =>
            simp only at hm
            split at hm
            · cases hs : strtol mask with
              | none => rw [hs] at hm; cases hm
              | some v =>
                rw [hs] at hm
                simp only at hm
                split at hm
                · cases hm
                · split at hm <;> cases hm
            · split at hm
              · cases hm
              · rename_i hc2 hc4
                cases hi : ipToArray mask true with
                | ub => exact absurd hi (ipLoop_noub _ _ _ (by simp; omega))
                | err => rw [hi] at hm; cases hm
                | ok o' =>
                  rw [hi] at hm
                  simp only at hm
                  obtain ⟨vs, ho, hr⟩ := ipLoop_read _ _ _ hi
                  rw [List.nil_append] at ho
                  subst ho
                  have hodd : pack o' % 2 = 1 := by
                    rcases Nat.mod_two_eq_zero_or_one (pack o') with h0 | h1
                    · obtain ⟨n, hn⟩ := shiftLoop_ok h0 33 0 (by omega) (by omega)
                      rw [hn] at hm; cases hm
                    · exact h1
                  rw [pack_eq hr.bound] at hodd
                  obtain ⟨a, b, c, d, x, h1, h2⟩ := hr.four (by omega) hodd
                  exact ⟨net, mask, rest, a, b, c, d, x, rfl, h1, h2⟩

example : parseAclEntry "1.2.3.4/255.255.255.1".toList = .ub := by decide

/-! ## C51: the lists permit exactly the configured addresses -/

/-- Specification: a list text: entries separated by commas, semicolons, blanks or tabs. -/
inductive ListText : List Char → List (Nat × Nat) → Prop
  | nil {s} : (∀ c ∈ s, c = ',' ∨ c = ' ' ∨ c = ';' ∨ c = '\t') → ListText s []
  | cons {s e rest net n ns} : (∀ c ∈ s, c = ',' ∨ c = ' ' ∨ c = ';' ∨ c = '\t') →
      EntryText 31 e net n → ListText rest ns →
      (rest = [] ∨ ∃ c r, rest = c :: r ∧ (c = ',' ∨ c = ' ' ∨ c = ';' ∨ c = '\t')) →
      ListText (s ++ (e ++ rest)) ((net, n) :: ns)

/-- Specification: the address is in one of the networks. -/
def InSome (ns : List (Nat × Nat)) (addr : Nat) : Prop := ∃ p ∈ ns, InNet p.1 p.2 addr

instance (ns : List (Nat × Nat)) (addr : Nat) : Decidable (InSome ns addr) :=
  inferInstanceAs (Decidable (∃ p ∈ ns, _))

/-- Specification: the decision for an address. -/
def Accept (allow deny : List (Nat × Nat)) (o : Order) (addr : Nat) : Prop :=
  match o with
  | .allowDeny => InSome allow addr ∧ ¬ InSome deny addr
  | .denyAllow => ¬ (InSome deny addr ∧ ¬ InSome allow addr)

/-- Specification: the texts accepted by the configuration: nothing at all or at least one entry. -/
def GoodText (t : List Char) (ns : List (Nat × Nat)) : Prop := ListText t ns ∧ (ns = [] → t = [])

/-- The list after processing messages from the given addresses, and the decisions taken. -/
def decisions : Acl → List Nat → Option (List Bool × Acl)
  | acl, [] => some ([], acl)
  | acl, a :: as => do
    let (r, acl) ← matchAcl (some acl) a
    let (rs, acl) ← decisions acl as
    pure (r :: rs, acl)

theorem sep_iff (c : Char) : (c = ',' ∨ c = ' ' ∨ c = ';' ∨ c = '\t') ↔ isSep c = true := by
  simp [isSep, or_assoc]

theorem EntryText.nosep {dm t net n} (h : EntryText dm t net n) : t ≠ [] ∧ ∀ c ∈ t, isSep c = false := by
  have hd : ∀ {m ts vs}, Numerals m ts vs → ∀ c ∈ dotted ts, isSep c = false := by
    intro m ts vs h c hc
    rcases h.chars c hc with h | h
    · exact (digit_props h).2.2.2.2.2.2
    · subst h; rfl
  cases h with
  | host h h1 h4 => exact ⟨dotted_ne h (by omega), hd h⟩
  | cidr h h1 h4 hp hn =>
    refine ⟨by simp, fun c hc => ?_⟩
    rw [List.mem_append, List.mem_cons] at hc
    rcases hc with hc | rfl | hc
    · exact hd h c hc
    · rfl
    · exact (digit_props (hp.2.1 c hc)).2.2.2.2.2.2
  | mask h h1 h4 hm hm1 hm4 hn hw =>
    refine ⟨by simp, fun c hc => ?_⟩
    rw [List.mem_append, List.mem_cons] at hc
    rcases hc with hc | rfl | hc
    · exact hd h c hc
    · rfl
    · exact hd hm c hc

/-- Entries for networks, one by one. -/
inductive DenoteAll : List Entry → List (Nat × Nat) → Prop
  | nil : DenoteAll [] []
  | cons {e es net n ns} : Denotes e net n → DenoteAll es ns → DenoteAll (e :: es) ((net, n) :: ns)

theorem ListText.parse {t ns} (h : ListText t ns) :
    ∃ es, parseAll (tokens isSep t) = .ok es ∧ DenoteAll es ns := by
  induction h with
  | nil hs =>
    rw [tokens_all (fun c hc => (sep_iff c).1 (hs c hc))]
    exact ⟨[], rfl, .nil⟩
  | @cons s e rest net n ns hs he hl hr ih =>
    obtain ⟨es, h1, h2⟩ := ih
    obtain ⟨en, h3, h4⟩ := C52_entry_partial _ _ _ he
    rw [tokens_skip (fun c hc => (sep_iff c).1 (hs c hc)),
      tokens_tok he.nosep.1 he.nosep.2 (by
        rcases hr with hr | ⟨c, r, hr, hc⟩
        · exact .inl hr
        · exact .inr ⟨c, r, hr, (sep_iff c).1 hc⟩)]
    refine ⟨en :: es, ?_, .cons h4 h2⟩
    simp only [parseAll, h3, h1]

/-- What the list accepts, in terms of its entries. -/
def matchAny (es : List Entry) (addr : Nat) : Prop := ∃ e ∈ es, e.bitmask &&& addr = e.network

theorem matchAddress_spec (addr : Nat) : ∀ es : List Entry,
    ((matchAddress addr es).1 = true ↔ matchAny es addr) ∧
    (∀ x, matchAny (matchAddress addr es).2 x ↔ matchAny es x) := by
  intro es
  induction es with
  | nil => simp [matchAddress, matchAny]
  | cons e es ih =>
    unfold matchAddress
    split
    · rename_i h
      simp [matchAny, h]
    · rename_i h
      simp only [matchAny] at ih
      simp [matchAny, ih, h]

theorem DenoteAll.matches {es ns} (h : DenoteAll es ns) {addr : Nat} (ha : addr < 2 ^ 32) :
    matchAny es addr ↔ InSome ns addr := by
  induction h with
  | nil => simp [matchAny, InSome]
  | cons h1 h2 ih =>
    simp only [matchAny, InSome] at ih
    simp only [matchAny, InSome, List.mem_cons, exists_eq_or_imp, h1.2.2 addr ha, ih]

theorem createMaskTable_spec {sort : List Entry → List Entry} (hs : ∀ l, (sort l).Perm l) {t ns}
    (h : GoodText t ns) : ∃ es, createMaskTable sort t = .ok es ∧
      ∀ addr < 2 ^ 32, (matchAny es addr ↔ InSome ns addr) := by
  unfold createMaskTable
  by_cases ht : t = []
  · subst ht
    refine ⟨[], by simp, fun addr ha => ?_⟩
    obtain ⟨es, h1, h2⟩ := h.1.parse
    rw [tokens_nil] at h1
    cases h1
    exact h2.matches ha
  · rw [if_neg ht]
    obtain ⟨es, h1, h2⟩ := h.1.parse
    rw [h1]
    cases es with
    | nil => cases h2; exact absurd (h.2 rfl) ht
    | cons e es =>
      refine ⟨sort (e :: es), rfl, fun addr ha => ?_⟩
      rw [← h2.matches ha]
      simp only [matchAny, (hs (e :: es)).mem_iff]

theorem matchAcl_spec (acl : Acl) (addr : Nat) : ∃ r acl', matchAcl (some acl) addr = some (r, acl') ∧
    (r = true ↔ match acl.order with
      | .allowDeny => matchAny acl.allow addr ∧ ¬ matchAny acl.deny addr
      | .denyAllow => ¬ (matchAny acl.deny addr ∧ ¬ matchAny acl.allow addr)) ∧
    acl'.order = acl.order ∧
    (∀ x, matchAny acl'.allow x ↔ matchAny acl.allow x) ∧ (∀ x, matchAny acl'.deny x ↔ matchAny acl.deny x) := by
  obtain ⟨a1, a2⟩ := matchAddress_spec addr acl.allow
  obtain ⟨d1, d2⟩ := matchAddress_spec addr acl.deny
  refine ⟨_, _, rfl, ?_, rfl, a2, d2⟩
  cases acl.order <;> simp only [← a1, ← d1] <;>
    cases (matchAddress addr acl.allow).1 <;> cases (matchAddress addr acl.deny).1 <;> simp

/-- C51: for every pair of well-formed lists the access list is created, and
every message of every sequence of messages is decided as configured, whatever
order the entries are sorted into. -/
theorem C51_access_decision (sort : List Entry → List Entry) (hs : ∀ l, (sort l).Perm l)
    (ta td : List Char) (na nd : List (Nat × Nat)) (ha : GoodText ta na) (hd : GoodText td nd) (o : Order) :
    ∃ acl, createAcl sort ta td o = .ok acl ∧ ∀ addrs : List Nat, (∀ a ∈ addrs, a < 2 ^ 32) →
      ∃ rs acl', decisions acl addrs = some (rs, acl') ∧ rs.length = addrs.length ∧
        ∀ i, ∀ h : i < addrs.length, rs[i]? = some true ↔ Accept na nd o (addrs[i]) := by
  obtain ⟨ea, h1, h2⟩ := createMaskTable_spec hs ha
  obtain ⟨ed, h3, h4⟩ := createMaskTable_spec hs hd
  refine ⟨⟨ea, ed, o, 0, 0⟩, by simp [createAcl, h1, h3], ?_⟩
  suffices H : ∀ (addrs : List Nat) (acl : Acl), acl.order = o →
      (∀ a < 2 ^ 32, matchAny acl.allow a ↔ InSome na a) → (∀ a < 2 ^ 32, matchAny acl.deny a ↔ InSome nd a) →
      (∀ a ∈ addrs, a < 2 ^ 32) →
      ∃ rs acl', decisions acl addrs = some (rs, acl') ∧ rs.length = addrs.length ∧
        ∀ i, ∀ h : i < addrs.length, rs[i]? = some true ↔ Accept na nd o (addrs[i]) by
    intro addrs hb
    exact H addrs _ rfl h2 h4 hb
  intro addrs
  induction addrs with
  | nil => intro acl _ _ _ _; exact ⟨[], acl, rfl, rfl, fun i h => by simp at h⟩
  | cons a as ih =>
    intro acl ho hA hD hb
    obtain ⟨r, acl', e1, e2, e3, e4, e5⟩ := matchAcl_spec acl a
    obtain ⟨rs, acl'', f1, f2, f3⟩ := ih acl' (by rw [e3, ho]) (fun x hx => by rw [e4, hA x hx])
      (fun x hx => by rw [e5, hD x hx]) (fun x hx => hb x (by simp [hx]))
    refine ⟨r :: rs, acl'', ?_, by simp [f2], ?_⟩
    · simp [decisions, e1, f1]
    · intro i hi
      have hab := hb a (by simp)
      cases i with
      | zero =>
        simp only [List.getElem?_cons_zero, List.getElem_cons_zero, Option.some.injEq, e2]
        rw [ho]
        cases o <;> simp only [Accept, hA a hab, hD a hab]
      | succ i =>
        simp only [List.getElem?_cons_succ, List.getElem_cons_succ]
        exact f3 i (by simpa using hi)

theorem sample_list : GoodText " 10.0.0.1/8;".toList [(167772161, 8)] := by
  refine ⟨?_, by simp⟩
  exact .cons (s := [' ']) (e := "10.0.0.1/8".toList) (rest := [';']) (by simp) sample_net
    (.nil (by simp)) (.inr ⟨';', [], rfl, by simp⟩)

example : ∃ acl, createAcl id " 10.0.0.1/8;".toList [] .allowDeny = .ok acl ∧ ∀ addrs : List Nat, (∀ a ∈ addrs, a < 2 ^ 32) →
      ∃ rs acl', decisions acl addrs = some (rs, acl') ∧ rs.length = addrs.length ∧
        ∀ i, ∀ h : i < addrs.length, rs[i]? = some true ↔ Accept [(167772161, 8)] [] .allowDeny (addrs[i]) :=
  C51_access_decision id (fun _ => .refl _) _ _ _ _ sample_list ⟨.nil (by simp), fun _ => rfl⟩ .allowDeny
example : Accept [(167772161, 8)] [] .allowDeny (10 * 2 ^ 24 + 5) ∧
    ¬ Accept [(167772161, 8)] [] .allowDeny (11 * 2 ^ 24 + 5) := by
  constructor <;> simp only [Accept] <;> decide

/-! ## C53: cached results and masks -/

/-- Specification: what list kind `i` decides for the address. -/
def Verdict (cfg : Cfg) (i addr : Nat) : Prop :=
  i < 3 ∧ (cfg.enabled i = true → ∃ acl, cfg.acls i = some acl ∧
    match acl.order with
      | .allowDeny => matchAny acl.allow addr ∧ ¬ matchAny acl.deny addr
      | .denyAllow => ¬ (matchAny acl.deny addr ∧ ¬ matchAny acl.allow addr))

/-- The message state as the code keeps it: cached answers are right, and no
list has been evaluated more than once for this message. -/
structure Inv (cfg : Cfg) (addr : Nat) (s : St) : Prop where
  enabled : s.cfg.enabled = cfg.enabled
  cached : ∀ i, s.checked.testBit i = true → (s.passed.testBit i = true ↔ Verdict cfg i addr)
  sub : ∀ i, s.checked.testBit i = false → s.passed.testBit i = false
  fresh : ∀ i, s.checked.testBit i = false → s.cfg.acls i = cfg.acls i
  once : ∀ i, s.cfg.acls i = cfg.acls i ∨
    ∃ acl r, cfg.acls i = some acl ∧ (matchAcl (some acl) addr) = some (r, (s.cfg.acls i).getD acl)

theorem testBit_set (x i j : Nat) : (x ||| 2 ^ i).testBit j = (x.testBit j || decide (i = j)) := by
  rw [Nat.testBit_or, Nat.testBit_two_pow]

theorem checkACL_spec {cfg addr s} (h : Inv cfg addr s) (i : Nat) :
    ∃ r s', checkACL i addr s = some (r, s') ∧ (r = true ↔ Verdict cfg i addr) ∧ Inv cfg addr s' := by
  unfold checkACL
  by_cases hc : s.checked.testBit i = true
  · rw [if_pos hc]
    exact ⟨_, _, rfl, h.cached i hc, h⟩
  · rw [if_neg hc]
    have hc' : s.checked.testBit i = false := by simpa using hc
    by_cases h3 : (decide (i < 3) && !s.cfg.enabled i) = true
    · rw [if_pos h3]
      have hi : i < 3 := by simp at h3; exact h3.1
      have hv : Verdict cfg i addr := ⟨hi, fun he => by rw [h.enabled] at h3; simp [he] at h3⟩
      refine ⟨_, _, rfl, by simpa using hv, ?_⟩
      constructor
      · exact h.enabled
      · intro j hj
        simp only [testBit_set, Bool.or_eq_true, decide_eq_true_eq] at hj ⊢
        by_cases e : i = j
        · subst e; simpa using hv
        · have := h.cached j (by simpa [e] using hj); simpa [e] using this
      · intro j hj
        simp only [testBit_set, Bool.or_eq_false_iff, decide_eq_false_iff_not] at hj ⊢
        exact ⟨h.sub j hj.1, hj.2⟩
      · intro j hj
        simp only [testBit_set, Bool.or_eq_false_iff] at hj
        exact h.fresh j hj.1
      · exact h.once
    · rw [if_neg h3]
      by_cases hi : i < 3
      · rw [if_pos hi, h.fresh i hc']
        have hen : cfg.enabled i = true := by rw [← h.enabled]; simpa [hi] using h3
        cases ha : cfg.acls i with
        | none =>
          refine ⟨_, _, rfl, ?_, h⟩
          simp [Verdict, hen, ha]
        | some acl =>
          obtain ⟨r, acl', e1, e2, e3, e4, e5⟩ := matchAcl_spec acl addr
          simp only [e1]
          have hv : r = true ↔ Verdict cfg i addr := by
            rw [e2]
            constructor
            · intro hm; exact ⟨hi, fun _ => ⟨acl, ha, hm⟩⟩
            · intro hm
              obtain ⟨acl2, h5, h6⟩ := hm.2 hen
              rw [ha] at h5; cases h5; exact h6
          refine ⟨r, _, rfl, hv, ?_⟩
          constructor
          · exact h.enabled
          · intro j hj
            simp only [testBit_set, Bool.or_eq_true, decide_eq_true_eq] at hj ⊢
            by_cases e : i = j
            · subst e
              rw [← hv]
              cases r with
              | true => simp [testBit_set]
              | false => simp [h.sub i hc']
            · have := h.cached j (by simpa [e] using hj)
              cases r with
              | true => simpa [testBit_set, e] using this
              | false => simpa using this
          · intro j hj
            simp only [testBit_set, Bool.or_eq_false_iff, decide_eq_false_iff_not] at hj
            cases r with
            | true => simp [testBit_set, hj.2, h.sub j hj.1]
            | false => simp [h.sub j hj.1]
          · intro j hj
            simp only [testBit_set, Bool.or_eq_false_iff, decide_eq_false_iff_not] at hj ⊢
            rw [if_neg (fun e => hj.2 e.symm)]
            exact h.fresh j hj.1
          · intro j
            simp only
            by_cases e : j = i
            · subst e
              rw [if_pos rfl]
              exact .inr ⟨acl, r, ha, by simpa using e1⟩
            · rw [if_neg e]
              exact h.once j
      · rw [if_neg hi]
        refine ⟨_, _, rfl, ?_, h⟩
        simp [Verdict, hi]

/-- The state at the start of a message (`protocol.c:972-973`). -/
theorem Inv.start (cfg : Cfg) (addr : Nat) : Inv cfg addr ⟨cfg, 0, 0⟩ :=
  ⟨rfl, by simp, by simp, by simp, fun _ => .inl rfl⟩

/-- Any sequence of single checks for one message. -/
def checks (addr : Nat) : List Nat → St → Option (List Bool × St)
  | [], s => some ([], s)
  | i :: is, s => do
    let (r, s) ← checkACL i addr s
    let (rs, s) ← checks addr is s
    pure (r :: rs, s)

/-- C53: for one message, whatever checks are made in whatever order, each
answer is the decision of the list concerned as it was when the message
arrived, and no list is evaluated (hit and pass counters touched) twice. -/
theorem C53_checks_consistent (cfg : Cfg) (addr : Nat) (is : List Nat) :
    ∃ rs s', checks addr is ⟨cfg, 0, 0⟩ = some (rs, s') ∧ rs.length = is.length ∧
      (∀ k (h : k < is.length), rs[k]? = some true ↔ Verdict cfg is[k] addr) ∧
      (∀ i, s'.cfg.acls i = cfg.acls i ∨
        ∃ acl r, cfg.acls i = some acl ∧ matchAcl (some acl) addr = some (r, (s'.cfg.acls i).getD acl)) := by
  suffices H : ∀ (is : List Nat) (s : St), Inv cfg addr s →
      ∃ rs s', checks addr is s = some (rs, s') ∧ rs.length = is.length ∧
        (∀ k (h : k < is.length), rs[k]? = some true ↔ Verdict cfg is[k] addr) ∧ Inv cfg addr s' by
    obtain ⟨rs, s', h1, h2, h3, h4⟩ := H is _ (Inv.start cfg addr)
    exact ⟨rs, s', h1, h2, h3, h4.once⟩
  intro is
  induction is with
  | nil => intro s h; exact ⟨[], s, rfl, rfl, fun k h => by simp at h, h⟩
  | cons i is ih =>
    intro s h
    obtain ⟨r, s', e1, e2, e3⟩ := checkACL_spec h i
    obtain ⟨rs, s'', f1, f2, f3, f4⟩ := ih s' e3
    refine ⟨r :: rs, s'', by simp [checks, e1, f1], by simp [f2], ?_, f4⟩
    intro k hk
    cases k with
    | zero => simpa using e2
    | succ k => simpa using f3 k (by simpa using hk)

theorem checkMaskLoop_spec {cfg addr} : ∀ (fuel i mask : Nat) (s : St), Inv cfg addr s → i + fuel = 33 → i ≤ 32 →
    mask < 2 ^ 32 → (∀ j, mask.testBit j = true → i ≤ j) →
    ∃ r s', checkMaskLoop addr fuel i mask s = some (r, s') ∧
      (r = true ↔ ∀ j, mask.testBit j = true → Verdict cfg j addr) ∧ Inv cfg addr s' := by
  intro fuel
  induction fuel with
  | zero => intro i mask s h h1 h2; omega
  | succ fuel ih =>
    intro i mask s h h1 h2 hm hj
    unfold checkMaskLoop
    by_cases h0 : mask = 0
    · rw [if_pos h0]
      exact ⟨true, s, rfl, by simp [h0], h⟩
    · rw [if_neg h0]
      have hi : i < 32 := by
        obtain ⟨j, hjb⟩ := Nat.exists_testBit_of_ne_zero h0
        have := hj j hjb
        have : j < 32 := by
          rcases Nat.lt_or_ge j 32 with h | h
          · exact h
          · rw [Nat.testBit_lt_two_pow (Nat.lt_of_lt_of_le hm (Nat.pow_le_pow_right (by omega) h))] at hjb
            cases hjb
        omega
      rw [if_neg (by omega)]
      by_cases hb : mask.testBit i = true
      · rw [if_pos hb]
        obtain ⟨r, s', e1, e2, e3⟩ := checkACL_spec h i
        rw [e1]
        cases r with
        | false =>
          refine ⟨false, s', rfl, ?_, e3⟩
          simp only [Bool.false_eq_true, false_iff] at e2 ⊢
          exact fun H => e2 (H i hb)
        | true =>
          simp only
          have hsub : ∀ j, (mask - 2 ^ i).testBit j = (mask.testBit j && !decide (i = j)) := by
            intro j
            have hx : mask = (mask - 2 ^ i) ||| 2 ^ i ∧ (mask - 2 ^ i).testBit i = false := by
              have hle : 2 ^ i ≤ mask := Nat.ge_two_pow_of_testBit hb
              have hq : mask / 2 ^ i % 2 = 1 := by
                rw [Nat.testBit_eq_decide_div_mod_eq] at hb; simpa using hb
              have hf : (mask - 2 ^ i).testBit i = false := by
                rw [Nat.testBit_eq_decide_div_mod_eq]
                have : (mask - 2 ^ i) / 2 ^ i = mask / 2 ^ i - 1 := by
                  have := Nat.sub_mul_div mask (2 ^ i) 1
                  simpa using this
                rw [this]
                simp only [decide_eq_false_iff_not]
                generalize mask / 2 ^ i = X at hq
                omega
              refine ⟨?_, hf⟩
              apply Nat.eq_of_testBit_eq
              intro k
              rw [testBit_set]
              have hadd : mask = 2 ^ i + (mask - 2 ^ i) := by omega
              by_cases hk : i = k
              · subst hk; simp [hb]
              · simp only [hk, decide_false, Bool.or_false]
                rcases Nat.lt_or_gt_of_ne hk with hlt | hgt
                · conv => lhs; rw [hadd]
                  obtain ⟨q, hq'⟩ : ∃ q, mask / 2 ^ i = 2 * q + 1 := by
                    generalize mask / 2 ^ i = X at hq
                    exact ⟨X / 2, by omega⟩
                  have hdm := Nat.div_add_mod mask (2 ^ i)
                  rw [hq'] at hdm
                  have e1 : mask - 2 ^ i = 2 ^ i * (2 * q) + mask % 2 ^ i := by
                    have : 2 ^ i * (2 * q + 1) = 2 ^ i * (2 * q) + 2 ^ i := by rw [Nat.mul_add, Nat.mul_one]
                    omega
                  have e2 : 2 ^ i + (mask - 2 ^ i) = 2 ^ i * (2 * q + 1) + mask % 2 ^ i := by omega
                  have hlt' : mask % 2 ^ i < 2 ^ i := Nat.mod_lt _ (Nat.two_pow_pos i)
                  rw [e2, e1, Nat.testBit_two_pow_mul_add _ hlt', Nat.testBit_two_pow_mul_add _ hlt']
                  rw [if_neg (by omega), if_neg (by omega)]
                  obtain ⟨m, hm⟩ : ∃ m, k - i = m + 1 := ⟨k - i - 1, by omega⟩
                  rw [hm, Nat.testBit_succ, Nat.testBit_succ]
                  congr 1
                  omega
                · conv => lhs; rw [hadd]
                  rw [Nat.testBit_two_pow_add_gt hgt]
            conv => rhs; rw [hx.1]
            rw [testBit_set]
            by_cases e : i = j
            · subst e; simp [hx.2]
            · simp [e]
          obtain ⟨r2, s2, f1, f2, f3⟩ := ih (i + 1) (mask - 2 ^ i) s' e3 (by omega) (by omega)
            (Nat.lt_of_le_of_lt (Nat.sub_le _ _) hm) (by
            intro j hjb
            rw [hsub] at hjb
            simp only [Bool.and_eq_true, Bool.not_eq_true', decide_eq_false_iff_not] at hjb
            have := hj j hjb.1
            omega)
          refine ⟨r2, s2, f1, ?_, f3⟩
          rw [f2]
          constructor
          · intro H j hjb
            by_cases e : i = j
            · subst e; exact e2.1 rfl
            · exact H j (by rw [hsub]; simp [hjb, e])
          · intro H j hjb
            rw [hsub] at hjb
            simp only [Bool.and_eq_true] at hjb
            exact H j hjb.1
      · rw [if_neg hb]
        refine ih (i + 1) mask s h (by omega) (by omega) hm ?_
        intro j hjb
        have := hj j hjb
        rcases Nat.eq_or_lt_of_le this with e | e
        · subst e; exact absurd hjb hb
        · exact e

/-- C53: after the check made on arrival, a TLV that needs several lists is
handled exactly when all of them accept, whatever has been cached before; the
mask loop ends. -/
theorem C53_mask_all (cfg : Cfg) (addr : Nat) (is : List Nat) (mask : Nat) (hm : mask < 2 ^ 16) :
    ∃ rs s, checks addr is ⟨cfg, 0, 0⟩ = some (rs, s) ∧ ∃ r s', checkACLmask mask addr s = some (r, s') ∧
      (r = true ↔ ∀ i, mask.testBit i = true → Verdict cfg i addr) := by
  suffices H : ∀ (is : List Nat) (s : St), Inv cfg addr s →
      ∃ rs s', checks addr is s = some (rs, s') ∧ Inv cfg addr s' by
    obtain ⟨rs, s, h1, h2⟩ := H is _ (Inv.start cfg addr)
    obtain ⟨r, s', e1, e2, _⟩ := checkMaskLoop_spec 33 0 mask s h2 (by omega) (by omega) (by omega) (by omega)
    exact ⟨rs, s, h1, r, s', e1, e2⟩
  intro is
  induction is with
  | nil => intro s h; exact ⟨[], s, rfl, h⟩
  | cons i is ih =>
    intro s h
    obtain ⟨r, s', e1, e2, e3⟩ := checkACL_spec h i
    obtain ⟨rs, s'', f1, f4⟩ := ih s' e3
    exact ⟨r :: rs, s'', by simp [checks, e1, f1], f4⟩

/-- C53: a message from another host is let through to the port exactly when
the list for its kind accepts the source. -/
theorem C53_gate (foreign mgmt : Bool) (addr : Nat) (cfg : Cfg) :
    ∃ r s, gate foreign mgmt addr cfg = some (r, s) ∧
      (r = true ↔ (foreign = true → Verdict cfg (if mgmt then 0 else 1) addr)) := by
  unfold gate
  cases foreign with
  | false => exact ⟨_, _, rfl, by simp⟩
  | true =>
    cases mgmt with
    | true =>
      obtain ⟨r, s, h1, h2, _⟩ := checkACL_spec (Inv.start cfg addr) 0
      exact ⟨r, s, h1, by simpa using h2⟩
    | false =>
      by_cases he : cfg.enabled 1 = true
      · obtain ⟨r, s, h1, h2, _⟩ := checkACL_spec (Inv.start cfg addr) 1
        exact ⟨r, s, by simpa [he] using h1, by simpa using h2⟩
      · refine ⟨true, ⟨cfg, 0, 0⟩, by simp [he], ?_⟩
        simp [Verdict, he]

/-- A configuration with two lists in force: timing from anywhere, monitoring only from 10/8. -/
def sampleCfg : Cfg where
  enabled := fun i => i == 1 || i == 2
  acls := fun i => if i = 1 then some ⟨[], [], .denyAllow, 0, 0⟩
    else if i = 2 then some ⟨[⟨167772160, 4278190080, 8, 0⟩], [], .allowDeny, 0, 0⟩ else none

example : ((checks 167772161 [1, 2, 1] ⟨sampleCfg, 0, 0⟩).map (·.1)) = some [true, true, true] ∧
    ((checks 5 [1, 2, 2] ⟨sampleCfg, 0, 0⟩).map (·.1)) = some [true, false, false] := by decide
example : ((checkACLmask 6 167772161 ⟨sampleCfg, 0, 0⟩).map (·.1)) = some true ∧
    ((checkACLmask 6 5 ⟨sampleCfg, 0, 0⟩).map (·.1)) = some false := by decide
example : ((gate true false 5 sampleCfg).map (·.1)) = some true := by decide

end Verif.Acl
