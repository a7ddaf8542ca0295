import Verif.GenConf.Spec
import Verif.PtpConf.Names

/-
# Properties of the general options: lists, unique bits and sync instances
-/

set_option linter.unusedSimpArgs false
set_option linter.unusedVariables false

namespace Verif.GenConf

open Spec
open Verif.PtpConf (Text isSpace digit readDigits scanNat sign)

/-! ## C359: names are kept as written -/

/-- C359: an accepted list of clocks, of read-only clocks or of interfaces holds the names written. -/
def C359_statement : Prop :=
  ∀ (s s' : Lists) (ps : List Text),
    (parseClockList s ps = .ok s' → s'.clocks = ps) ∧
    (parseClockReadonly s ps = .ok s' → s'.readonly = ps) ∧
    (parseTsInterfaces s ps = .ok s' → s'.interfaces = ps)

/-- A name of 24 characters loses its last character. -/
theorem C359_violated : ¬ C359_statement := by
  intro h
  have := (h {} { clocks := ["abcdefghijklmnopqrstuvw".toList], disciplineAll := false }
    ["abcdefghijklmnopqrstuvwx".toList]).1 (by decide)
  exact absurd this (by decide)

theorem map_copy24 {ps : List Text} (h : ∀ p ∈ ps, p.length ≤ 23) : ps.map copy24 = ps := by
  induction ps with
  | nil => rfl
  | cons p r ih =>
    simp only [List.map_cons, copy24, List.take_of_length_le (h p List.mem_cons_self)]
    rw [ih (fun q hq => h q (List.mem_cons_of_mem _ hq))]

/-- C359 for names of at most 23 characters. Also: each of the options leaves the other
lists alone, and up to 64 names are accepted. -/
theorem C359_names_partial (s : Lists) (ps : List Text) (hn : ∀ p ∈ ps, p.length ≤ 23) :
    (ps.length ≤ 64 → parseClockList s ps = .ok { s with clocks := ps, disciplineAll := false }) ∧
    (1 ≤ ps.length → ps.length ≤ 64 → parseClockReadonly s ps = .ok { s with readonly := ps }) ∧
    (1 ≤ ps.length → ps.length ≤ 64 → ∃ s', parseTsInterfaces s ps = .ok s' ∧ s'.interfaces = ps ∧
      s'.clocks = s.clocks ∧ s'.disciplineAll = s.disciplineAll ∧ s'.readonly = s.readonly) ∧
    (64 < ps.length → parseClockList s ps = .err 28 ∧ parseClockReadonly s ps = .err 28 ∧
      parseTsInterfaces s ps = .err 28) := by
  have hm := map_copy24 hn
  refine ⟨?_, ?_, ?_, ?_⟩
  · intro h
    simp only [parseClockList, hm, show ¬ ps.length > 64 by omega, if_false]
  · intro h1 h
    have : ps ≠ [] := by rintro rfl; simp at h1
    simp only [parseClockReadonly, hm, this, show ¬ ps.length > 64 by omega, if_false]
  · intro h1 h
    have : ps ≠ [] := by rintro rfl; simp at h1
    simp only [parseTsInterfaces, hm, this, show ¬ ps.length > 64 by omega, if_false]
    exact ⟨_, rfl, rfl, rfl, rfl, rfl⟩
  · intro h
    have : ps ≠ [] := by rintro rfl; simp at h
    simp only [parseClockList, parseClockReadonly, parseTsInterfaces, this, h, if_true, if_false, eNOSPC]
    exact ⟨trivial, trivial, trivial⟩

example : parseClockReadonly {} ["phc0".toList, "system".toList] =
    .ok { readonly := ["phc0".toList, "system".toList] } := by decide

/-! ## C360: the last list of interfaces is in force -/

/-- C360: after two lists of interfaces for time stamping the second is in force: what is
time stamped does not depend on the first. -/
def C360_statement : Prop :=
  ∀ (s s₁ s₂ : Lists) (a b : List Text), parseTsInterfaces s a = .ok s₁ → parseTsInterfaces s₁ b = .ok s₂ →
    s₂.interfaces = b.map (·.take 23) ∧ (s₂.all = true ↔ "*".toList ∈ b)

/-- `*` and then one interface: all interfaces are still time stamped. -/
theorem C360_violated : ¬ C360_statement := by
  intro h
  have := (h {} { interfaces := ["*".toList], all := true } { interfaces := ["eth0".toList], all := true }
    ["*".toList] ["eth0".toList] (by decide) (by decide)).2
  exact absurd (this.1 rfl) (by decide)

/-- C360 if the first list, and those before it, had no `*`. In general the flag is set
if any of the lists had it. -/
theorem C360_last_list_partial (s s₁ s₂ : Lists) (a b : List Text) (h1 : parseTsInterfaces s a = .ok s₁)
    (h2 : parseTsInterfaces s₁ b = .ok s₂) :
    s₂.interfaces = b.map (·.take 23) ∧
    (s₂.all = true ↔ s.all = true ∨ "*".toList ∈ a ∨ "*".toList ∈ b) ∧
    (s.all = false → "*".toList ∉ a → (s₂.all = true ↔ "*".toList ∈ b)) := by
  simp only [parseTsInterfaces] at h1 h2
  split at h1
  · cases h1
  split at h1
  · cases h1
  split at h2
  · cases h2
  split at h2
  · cases h2
  cases h1
  cases h2
  refine ⟨rfl, ?_, ?_⟩
  · simp only [Bool.or_eq_true, List.contains_iff_mem, or_assoc]
  · intro h h'
    simp only [h, Bool.false_or, Bool.or_eq_true, List.contains_iff_mem]
    exact ⟨fun x => x.resolve_left h', .inr⟩

example : parseTsInterfaces {} ["eth0".toList] = .ok { interfaces := ["eth0".toList] } ∧
    parseTsInterfaces { interfaces := ["eth0".toList] } ["*".toList] = .ok { interfaces := ["*".toList], all := true } := by
  decide

/-! ## C361: the unique bits are those written -/

/-- C361: a text accepted for the unique bits other than the three words consists of
hexadecimal digits and colons, and a text of up to eight octets sets the last octets to those written. -/
def C361_statement : Prop :=
  (∀ (h : Host) (bits bits' : List Nat) (t : Text), t ∉ ["pid".toList, "hostid".toList, "rand".toList] →
    parseUniqueBits h bits t = .ok bits' → ∀ c ∈ t, c = ':' ∨ c.toLower ∈ hexDigits) ∧
  (∀ (h : Host) (bits : List Nat) (t : Text) (os : List Nat), bits.length = 8 → Octets t os → os.length ≤ 8 →
    parseUniqueBits h bits t = .ok (bits.take (8 - os.length) ++ os))

/-- `1:2:zz` is taken as two octets. -/
theorem C361_violated : ¬ C361_statement := by
  intro h
  have := h.1 ⟨[], [], []⟩ [0, 0, 0, 0, 0, 0, 0, 0] [0, 0, 0, 0, 0, 0, 1, 2] "1:2:zz".toList (by decide) (by decide)
    'z' (by decide)
  exact absurd this (by decide)

theorem hex_digit {a : Nat} {x : Char} (h : hexDigits[a]? = some x) :
    digit 16 x = some a ∧ a < 16 ∧ x ≠ '-' ∧ x ≠ '+' ∧ x ≠ 'x' ∧ x ≠ 'X' ∧ isSpace x = false ∧ x ≠ 'p' ∧ x ≠ 'h' ∧ x ≠ 'r' := by
  have ha : a < 16 := by
    rcases Nat.lt_or_ge a 16 with h' | h'
    · exact h'
    · have : hexDigits[a]? = none := List.getElem?_eq_none h'
      rw [this] at h; cases h
  have key : ∀ a : Fin 16, ∀ x, hexDigits[a.val]? = some x → digit 16 x = some a.val ∧ x ≠ '-' ∧ x ≠ '+' ∧ x ≠ 'x' ∧ x ≠ 'X' ∧
      isSpace x = false ∧ x ≠ 'p' ∧ x ≠ 'h' ∧ x ≠ 'r' := by
    intro a
    have : ∃ y, hexDigits[a.val]? = some y ∧ digit 16 y = some a.val ∧ y ≠ '-' ∧ y ≠ '+' ∧ y ≠ 'x' ∧ y ≠ 'X' ∧
        isSpace y = false ∧ y ≠ 'p' ∧ y ≠ 'h' ∧ y ≠ 'r' := by
      refine ⟨hexDigits[a.val]'(by simp [hexDigits]), List.getElem?_eq_getElem _, ?_⟩
      revert a; decide
    obtain ⟨y, hy, hp⟩ := this
    intro x hx
    rw [hy] at hx
    cases hx
    exact hp
  have := key ⟨a, ha⟩ x h
  exact ⟨this.1, ha, this.2⟩

theorem scanOctet_two {a b : Nat} {x y : Char} (hx : hexDigits[a]? = some x) (hy : hexDigits[b]? = some y) (rest : Text)
    (hr : ∀ c, rest.head? = some c → digit 16 c = none) : scanOctet (x :: y :: rest) = some (16 * a + b, rest) := by
  obtain ⟨dx, la, x1, x2, x3, x4, x5, _⟩ := hex_digit hx
  obtain ⟨dy, lb, y1, y2, y3, y4, y5, _⟩ := hex_digit hy
  have hsp : (x :: y :: rest).dropWhile isSpace = x :: y :: rest := by
    simp only [List.dropWhile_cons, x5]; rfl
  have hsg : sign (x :: y :: rest) = (false, x :: y :: rest) := by
    unfold sign
    split
    · rename_i h; cases h; exact absurd rfl x1
    · rename_i h; cases h; exact absurd rfl x2
    · rfl
  have hpf : hexPrefix (x :: y :: rest) = some (x :: y :: rest) := by
    unfold hexPrefix
    split
    · rename_i h
      cases h
      rw [if_neg]
      rintro (h | h)
      · exact y3 h
      · exact y4 h
    · rfl
  have hspan : hexSpan (x :: y :: rest) = ([x, y], rest) := by
    have e : rest.takeWhile (fun c => (digit 16 c).isSome) = [] ∧ rest.dropWhile (fun c => (digit 16 c).isSome) = rest := by
      cases rest with
      | nil => exact ⟨rfl, rfl⟩
      | cons c r =>
        have := hr c rfl
        simp [List.takeWhile_cons, List.dropWhile_cons, this]
    simp [hexSpan, List.takeWhile_cons, List.dropWhile_cons, dx, dy, e.1, e.2]
  have hv : hexVal [x, y] = 16 * a + b := by
    simp [hexVal, readDigits, dx, dy]; omega
  simp only [scanOctet, hsp, hsg, hpf, hspan, hv]
  rw [if_neg (by simp)]
  have n1 : ¬ (16 * a + b ≥ 18446744073709551616) := by omega
  simp only [n1, if_false, Bool.false_eq_true]
  rw [Nat.mod_eq_of_lt (by omega)]

theorem scanOctets_text {t : Text} {os : List Nat} (h : Octets t os) : ∀ n, os.length ≤ n → scanOctets n t = os := by
  induction h with
  | one a b x y hx hy =>
    intro n hn
    cases n with
    | zero => simp at hn
    | succ n =>
      simp only [scanOctets, scanOctet_two hx hy [] (by simp)]
  | more a b x y t os hx hy ht ih =>
    intro n hn
    cases n with
    | zero => simp at hn
    | succ n =>
      have : scanOctet (x :: y :: ':' :: t) = some (16 * a + b, ':' :: t) :=
        scanOctet_two hx hy (':' :: t) (by intro c hc; cases hc; decide)
      simp only [scanOctets, this]
      rw [ih n (by simpa using hn)]

theorem octets_head {t : Text} {os : List Nat} (h : Octets t os) :
    t ≠ "pid".toList ∧ t ≠ "hostid".toList ∧ t ≠ "rand".toList ∧ t.dropWhile isSpace ≠ [] ∧ os ≠ [] := by
  have key : ∀ (x : Char) (r : Text) (a : Nat), hexDigits[a]? = some x →
      x :: r ≠ "pid".toList ∧ x :: r ≠ "hostid".toList ∧ x :: r ≠ "rand".toList ∧ (x :: r).dropWhile isSpace ≠ [] := by
    intro x r a hx
    obtain ⟨_, _, _, _, _, _, s, p, q, w⟩ := hex_digit hx
    refine ⟨?_, ?_, ?_, ?_⟩
    · intro h; exact p (List.cons.inj h).1
    · intro h; exact q (List.cons.inj h).1
    · intro h; exact w (List.cons.inj h).1
    · simp [List.dropWhile_cons, s]
  cases h with
  | one a b x y hx hy => exact ⟨(key x _ a hx).1, (key x _ a hx).2.1, (key x _ a hx).2.2.1, (key x _ a hx).2.2.2, by simp⟩
  | more a b x y t os hx hy ht => exact ⟨(key x _ a hx).1, (key x _ a hx).2.1, (key x _ a hx).2.2.1, (key x _ a hx).2.2.2, by simp⟩

/-- C361 but for the refusal of other texts. -/
theorem C361_bits_partial (h : Host) (bits : List Nat) (t : Text) (os : List Nat) (hb : bits.length = 8) (ht : Octets t os)
    (hl : os.length ≤ 8) :
    parseUniqueBits h bits t = .ok (bits.take (8 - os.length) ++ os) ∧
    (bits.take (8 - os.length) ++ os).length = 8 := by
  obtain ⟨h1, h2, h3, h4, h5⟩ := octets_head ht
  refine ⟨?_, by simp; omega⟩
  simp only [parseUniqueBits, h1, h2, h3, h4, if_false, scanOctets_text ht 8 hl, h5, overlay]

example : Octets "0a:ff".toList [10, 255] ∧
    parseUniqueBits ⟨[], [], []⟩ [0, 0, 0, 0, 0, 0, 0, 0] "0a:ff".toList = .ok [0, 0, 0, 0, 0, 0, 10, 255] :=
  ⟨.more 0 10 '0' 'a' ['f', 'f'] [255] rfl rfl (.one 15 15 'f' 'f' rfl rfl), by decide⟩

/-! ## C362: the last unique bits are in force -/

/-- C362: after two options for the unique bits the second is in force alone. -/
def C362_statement : Prop :=
  ∀ (h : Host) (b₀ b₁ b₂ : List Nat) (t t' : Text), b₀.length = 8 → parseUniqueBits h b₀ t = .ok b₁ →
    parseUniqueBits h b₁ t' = .ok b₂ → parseUniqueBits h b₀ t' = .ok b₂

/-- `01:02` and then `03`: the octet 01 remains. -/
theorem C362_violated : ¬ C362_statement := by
  intro h
  have := h ⟨[], [], []⟩ [0, 0, 0, 0, 0, 0, 0, 0] [0, 0, 0, 0, 0, 0, 1, 2] [0, 0, 0, 0, 0, 0, 1, 3] "01:02".toList "03".toList
    rfl (by decide) (by decide)
  exact absurd this (by decide)

/-- C362 if the second option has at least as many octets as the first. -/
theorem C362_last_bits_partial (h : Host) (b₀ b₁ b₂ : List Nat) (t t' : Text) (os os' : List Nat) (hb : b₀.length = 8)
    (ht : Octets t os) (ht' : Octets t' os') (hl : os.length ≤ os'.length) (hl' : os'.length ≤ 8)
    (h1 : parseUniqueBits h b₀ t = .ok b₁) (h2 : parseUniqueBits h b₁ t' = .ok b₂) :
    parseUniqueBits h b₀ t' = .ok b₂ := by
  have e1 := (C361_bits_partial h b₀ t os hb ht (by omega))
  rw [e1.1] at h1
  cases h1
  have e2 := C361_bits_partial h _ t' os' e1.2 ht' hl'
  rw [e2.1] at h2
  cases h2
  rw [(C361_bits_partial h b₀ t' os' hb ht' hl').1]
  congr 2
  rw [List.take_append_of_le_length (by simp; omega), List.take_take]
  congr 1
  omega

example : Octets "01".toList [1] ∧ Octets "02:03".toList [2, 3] ∧
    parseUniqueBits ⟨[], [], []⟩ [0, 0, 0, 0, 0, 0, 0, 0] "01".toList = .ok [0, 0, 0, 0, 0, 0, 0, 1] ∧
    parseUniqueBits ⟨[], [], []⟩ [0, 0, 0, 0, 0, 0, 0, 1] "02:03".toList = .ok [0, 0, 0, 0, 0, 0, 2, 3] :=
  ⟨.one 0 1 '0' '1' rfl rfl, .more 0 2 '0' '2' ['0', '3'] [3] rfl rfl (.one 0 3 '0' '3' rfl rfl), by decide, by decide⟩

/-! ## Sync instances -/

/-- The configuration is the initial sections followed by instances. -/
structure Grown (c : Conf) (inst : List Sec) : Prop where
  secs : c.secs = initConf.secs ++ inst
  inst : ∀ s ∈ inst, s.isInst = true
  nodup : (c.secs.map Sec.name).Nodup
  short : ∀ s ∈ c.secs, s.name.length < 64

theorem find_some {c : Conf} {n : Text} {s : Sec} (h : find c n = some s) : s ∈ c.secs ∧ s.name = n := by
  have a := List.mem_of_find?_eq_some h
  have b := List.find?_some h
  exact ⟨a, by simpa using b⟩

theorem find_none {c : Conf} {n : Text} (h : ¬ (find c n).isSome) : n ∉ c.secs.map Sec.name := by
  simp only [find, Option.not_isSome_iff_eq_none, List.find?_eq_none, decide_eq_true_eq] at h
  intro hm
  obtain ⟨s, hs, hn⟩ := List.mem_map.1 hm
  exact h s hs hn

theorem grown_add {c : Conf} {inst : List Sec} {s : Sec} (g : Grown c inst) (hs : s.isInst = true)
    (hl : s.name.length < 64) (hf : ¬ (find c s.name).isSome) :
    addSec c s = .ok { c with secs := c.secs ++ [s] } ∧ Grown { c with secs := c.secs ++ [s] } (inst ++ [s]) := by
  refine ⟨by simp only [addSec, hf, Bool.false_eq_true, if_false], ?_, ?_, ?_, ?_⟩
  · simp only [g.secs, List.append_assoc]
  · intro x hx
    rcases List.mem_append.1 hx with h | h
    · exact g.inst x h
    · simp only [List.mem_singleton] at h; exact h ▸ hs
  · simp only [List.map_append, List.map_cons, List.map_nil]
    refine List.nodup_append.2 ⟨g.nodup, by simp, ?_⟩
    intro a ha b hb
    simp only [List.mem_singleton] at hb
    rintro rfl
    exact find_none hf (hb ▸ ha)
  · intro x hx
    rcases List.mem_append.1 hx with h | h
    · exact g.short x h
    · simp only [List.mem_singleton] at h; exact h ▸ hl

theorem addInstances_run {k : Nat} : ∀ (ns : List Text) {c : Conf} {inst : List Sec}, Grown c inst →
    (∃ n, addInstances k ns c = .err n) ∨
    (∃ c', addInstances k ns c = .ok c' ∧ c'.declared = c.declared ∧ Grown c' (inst ++ ns.map fun n => ⟨n, k, true, false⟩)) := by
  intro ns
  induction ns with
  | nil => intro c inst g; exact .inr ⟨c, rfl, rfl, by simpa using g⟩
  | cons n r ih =>
    intro c inst g
    simp only [addInstances]
    split
    · exact .inl ⟨_, rfl⟩
    split
    · exact .inl ⟨_, rfl⟩
    rename_i hl hf
    obtain ⟨e, g'⟩ := grown_add (s := ⟨n, k, true, false⟩) g rfl (by simpa using hl) hf
    simp only [e]
    rcases ih g' with ⟨m, hm⟩ | ⟨c', h1, h2, h3⟩
    · exact .inl ⟨m, hm⟩
    · exact .inr ⟨c', h1, h2, by simpa using h3⟩

theorem grown_module {c : Conf} {inst : List Sec} {m : Text} {p : Sec} (g : Grown c inst) (h : find c m = some p)
    (hi : p.isInst = false) (ha : p.allows = true) : (m, p.category) ∈ modules := by
  obtain ⟨h1, h2⟩ := find_some h
  rw [g.secs] at h1
  rcases List.mem_append.1 h1 with h3 | h3
  · have key : ∀ s ∈ initConf.secs, s.allows = true → (s.name, s.category) ∈ modules := by decide
    rw [← h2]
    exact key p h3 ha
  · rw [g.inst p h3] at hi; cases hi

theorem parseSyncModule_run {c : Conf} {inst : List Sec} (g : Grown c inst) {ps : List Text} (hp : ps ≠ []) :
    (∃ n, parseSyncModule c ps = .err n) ∨
    (∃ c' m k ns, parseSyncModule c ps = .ok c' ∧ ps = m :: ns ∧ (m, k) ∈ modules ∧ c'.declared = k :: c.declared ∧
      Grown c' (inst ++ ns.map fun n => ⟨n, k, true, false⟩)) := by
  match ps, hp with
  | m :: ns, _ =>
    simp only [parseSyncModule]
    cases hf : find c m with
    | none => exact .inl ⟨_, rfl⟩
    | some p =>
      simp only
      split
      · exact .inl ⟨_, rfl⟩
      split
      · exact .inl ⟨_, rfl⟩
      rename_i hi ha
      have hm := grown_module g hf (by simpa using hi) (by simpa using ha)
      have g' : Grown { c with declared := p.category :: c.declared } inst := ⟨g.secs, g.inst, g.nodup, g.short⟩
      rcases addInstances_run (k := p.category) ns g' with ⟨n, hn⟩ | ⟨c', h1, h2, h3⟩
      · exact .inl ⟨n, hn⟩
      · exact .inr ⟨c', m, p.category, ns, h1, rfl, hm, h2, h3⟩

theorem module_five {m : Text} {k : Nat} (h : (m, k) ∈ modules) : k = 5 ↔ m = "crny".toList := by
  have key : ∀ p ∈ modules, p.2 = 5 ↔ p.1 = "crny".toList := by decide
  exact key (m, k) h

theorem syncLines_run : ∀ (file : List (List Text)) {c : Conf} {inst : List Sec}, Grown c inst → (∀ ps ∈ file, ps ≠ []) →
    (∃ n, syncLines file c = .err n) ∨
    (∃ c' new a, syncLines file c = .ok c' ∧ Grown c' (inst ++ new) ∧ AskedAll file a ∧
      new.map (fun s => (s.name, s.category)) = a ∧ (∀ s ∈ new, ∃ ps ∈ file, s.name ∈ ps.tail) ∧
      (5 ∈ c'.declared ↔ 5 ∈ c.declared ∨ ∃ ps ∈ file, ps.head? = some "crny".toList)) := by
  intro file
  induction file with
  | nil => intro c inst g _; exact .inr ⟨c, [], [], rfl, by simpa using g, .nil, rfl, by simp, by simp⟩
  | cons ps r ih =>
    intro c inst g hp
    simp only [syncLines]
    rcases parseSyncModule_run g (hp ps List.mem_cons_self) with ⟨n, hn⟩ | ⟨c1, m, k, ns, h1, h2, h3, h4, h5⟩
    · exact .inl ⟨n, by simp only [hn]⟩
    · simp only [h1]
      rcases ih h5 (fun q hq => hp q (List.mem_cons_of_mem _ hq)) with ⟨n, hn⟩ | ⟨c', new, a, e1, e2, e3, e4, e5, e6⟩
      · exact .inl ⟨n, hn⟩
      · subst h2
        refine .inr ⟨c', (ns.map fun n => ⟨n, k, true, false⟩) ++ new, (ns.map fun n => (n, k)) ++ a, e1,
          by simpa using e2, .cons _ _ _ _ (.mk m k ns h3) e3, ?_, ?_, ?_⟩
        · simp [e4, List.map_map, Function.comp_def]
        · intro s hs
          rcases List.mem_append.1 hs with h | h
          · obtain ⟨n, hn, rfl⟩ := List.mem_map.1 h
            exact ⟨m :: ns, List.mem_cons_self, hn⟩
          · obtain ⟨q, hq, hs'⟩ := e5 s h
            exact ⟨q, List.mem_cons_of_mem _ hq, hs'⟩
        · rw [e6, h4]
          have := module_five h3
          simp only [List.mem_cons, exists_eq_or_imp, List.head?_cons, Option.some.injEq]
          rw [← this]
          constructor
          · rintro ((h | h) | h)
            · exact .inr (.inl h.symm)
            · exact .inl h
            · exact .inr (.inr h)
          · rintro (h | h | h)
            · exact .inl (.inr h)
            · exact .inl (.inl h.symm)
            · exact .inr h

theorem grown_init : Grown initConf [] := ⟨by simp, by simp, by decide, by decide⟩

theorem grown_crny {c : Conf} {inst : List Sec} (g : Grown c inst) : ∃ p, find c "crny".toList = some p ∧ p.isInst = false := by
  refine ⟨⟨"crny".toList, 5, false, true⟩, ?_, rfl⟩
  simp only [find, g.secs, List.find?_append]
  rfl

theorem grown_crny0 {c : Conf} {inst : List Sec} (g : Grown c inst) :
    (find c "crny0".toList).isSome ↔ ∃ s ∈ inst, s.name = "crny0".toList := by
  have : initConf.secs.find? (fun s => s.name = "crny0".toList) = none := by decide
  simp only [find, g.secs, List.find?_append, this, Option.none_or, List.find?_isSome, decide_eq_true_eq]

/-! ## C363: the declaration of instances is answered -/

/-- C363: a configuration with any `sync_module` lines is accepted or refused. -/
def C363_statement : Prop :=
  ∀ file : List (List Text), (∀ ps ∈ file, ps ≠ []) → Answered (configure file)

/-- An instance of another module named `crny0` fails an assertion at the end of the configuration. -/
theorem C363_violated : ¬ C363_statement := by
  intro h
  have e : configure [["freerun".toList, "crny0".toList]] = .abort := by decide
  rcases h [["freerun".toList, "crny0".toList]] (by decide) with ⟨a, ha⟩ | ⟨n, hn⟩
  · rw [e] at ha; cases ha
  · rw [e] at hn; cases hn

/-- C363 if no instance is named `crny0`, or the module crny is declared. -/
theorem C363_answered_partial (file : List (List Text)) (hp : ∀ ps ∈ file, ps ≠ [])
    (hc : (∀ ps ∈ file, "crny0".toList ∉ ps.tail) ∨ ∃ ps ∈ file, ps.head? = some "crny".toList) :
    Answered (configure file) := by
  simp only [configure]
  rcases syncLines_run file grown_init hp with ⟨n, hn⟩ | ⟨c', new, a, e1, e2, e3, e4, e5, e6⟩
  · simp only [hn]; exact .inr ⟨_, rfl⟩
  · simp only [e1]
    obtain ⟨p, hp1, hp2⟩ := grown_crny e2
    simp only [validate, hp1, hp2, Bool.false_eq_true, if_false]
    split
    · exact .inl ⟨_, rfl⟩
    · rename_i hd
      rcases hc with hc | hc
      · have hf : ¬ (find c' "crny0".toList).isSome := by
          rw [grown_crny0 e2]
          rintro ⟨s, hs, hn⟩
          obtain ⟨ps, h1, h2⟩ := e5 s (by simpa using hs)
          exact hc ps h1 (hn ▸ h2)
        simp only [addSec, hf, Bool.false_eq_true, if_false]
        exact .inl ⟨_, rfl⟩
      · exfalso
        apply hd
        simp only [List.contains_iff_mem, catCrny]
        exact e6.2 (.inr hc)

example : (∀ ps ∈ [["ptp".toList, "ptp1".toList]], "crny0".toList ∉ ps.tail) ∧
    configure [["ptp".toList, "ptp1".toList]] =
      .ok { secs := initConf.secs ++ [⟨"ptp1".toList, 2, true, false⟩, ⟨"crny0".toList, 5, true, false⟩], declared := [2] } := by
  decide

/-! ## C364: the instances of an accepted configuration -/

/-- C364: an accepted configuration has exactly the instances its `sync_module` lines ask
for, in their order, followed by an instance `crny0` of chrony if no line names the module crny. The names of all
sections are different and shorter than 64 characters. -/
theorem C364_instances (file : List (List Text)) (c : Conf) (hp : ∀ ps ∈ file, ps ≠ []) (h : configure file = .ok c) :
    (∃ a, AskedAll file a ∧
      ((∃ ps ∈ file, ps.head? = some "crny".toList) → instances c = a) ∧
      ((∀ ps ∈ file, ps.head? ≠ some "crny".toList) → instances c = a ++ [("crny0".toList, 5)])) ∧
    (c.secs.map Sec.name).Nodup ∧ (∀ s ∈ c.secs, s.name.length < 64) := by
  have hinst : ∀ {c : Conf} {inst : List Sec}, Grown c inst → instances c = inst.map fun s => (s.name, s.category) := by
    intro c inst g
    have h0 : initConf.secs.filter (fun s => s.isInst) = [] := by decide
    have h1 : inst.filter (fun s => s.isInst) = inst := List.filter_eq_self.2 g.inst
    simp only [instances, g.secs, List.filter_append, h0, h1, List.nil_append]
  simp only [configure] at h
  rcases syncLines_run file grown_init hp with ⟨n, hn⟩ | ⟨c', new, a, e1, e2, e3, e4, e5, e6⟩
  · simp only [hn] at h; cases h
  · simp only [e1] at h
    obtain ⟨p, hp1, hp2⟩ := grown_crny e2
    simp only [validate, hp1, hp2, Bool.false_eq_true, if_false] at h
    simp only [List.nil_append] at e2
    split at h
    · rename_i hd
      simp only [List.contains_iff_mem, catCrny] at hd
      cases h
      have hex := (e6.1 hd).resolve_left (by simp [initConf])
      refine ⟨⟨a, e3, fun _ => by rw [hinst e2, e4], ?_⟩, e2.nodup, e2.short⟩
      intro hno
      obtain ⟨ps, h1, h2⟩ := hex
      exact absurd h2 (hno ps h1)
    · rename_i hd
      simp only [List.contains_iff_mem, catCrny] at hd
      by_cases hf : (find c' "crny0".toList).isSome
      · simp only [addSec, hf, if_true] at h; cases h
      · obtain ⟨x, g'⟩ := grown_add (s := ⟨"crny0".toList, 5, true, false⟩) e2 rfl (by decide) hf
        simp only [catCrny] at h
        rw [x] at h
        cases h
        refine ⟨⟨a, e3, ?_, fun _ => by rw [hinst g', List.map_append, e4]; rfl⟩, g'.nodup, g'.short⟩
        intro hex
        exact absurd (e6.2 (.inr hex)) hd

example : configure [["ptp".toList, "a".toList, "b".toList], ["crny".toList, "c".toList]] =
    .ok { secs := initConf.secs ++ [⟨"a".toList, 2, true, false⟩, ⟨"b".toList, 2, true, false⟩, ⟨"c".toList, 5, true, false⟩],
          declared := [5, 2] } ∧
    AskedAll [["ptp".toList, "a".toList, "b".toList], ["crny".toList, "c".toList]]
      [("a".toList, 2), ("b".toList, 2), ("c".toList, 5)] :=
  ⟨by decide, .cons _ _ [("a".toList, 2), ("b".toList, 2)] _ (.mk "ptp".toList 2 ["a".toList, "b".toList] (by decide))
    (.cons _ _ [("c".toList, 5)] [] (.mk "crny".toList 5 ["c".toList] (by decide)) .nil)⟩

end Verif.GenConf
