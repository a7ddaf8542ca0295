import Verif.Ntp6.Props3

/-!
# Properties of the mode 6 client: the table of peers
-/

set_option linter.unusedVariables false
set_option linter.unusedSimpArgs false

namespace Verif.Ntp6

/-! ## Specification -/

def ascii (s : String) : List Nat := s.toList.map (·.toNat)

/-- An association of ntpd: its number, its status word, the datagrams in which ntpd describes it
and the variables in them. -/
structure Assoc where
  id : Nat
  status : Nat
  fs : List (List Nat) := []
  vs : List Var := []

/-- Configured or reachable (bits 7 and 4 of the upper byte of the status). -/
def Assoc.up (a : Assoc) : Bool := a.status / 256 / 128 % 2 = 1 || a.status / 256 / 16 % 2 = 1

/-- Four bytes for each association. -/
def assocBytes (l : List Assoc) : List Nat := l.flatMap (fun a => be16 a.id ++ be16 a.status)

/-- Variables of which none occurs twice and the ones of interest are well formed. -/
structure Sane (lib : Lib) (vs : List Var) : Prop where
  once : (vs.map (·.name)).Nodup
  address : ∀ v ∈ vs, v.name = ascii "srcadr" ∨ v.name = ascii "dstadr" → v.val.head? = some 91 → 93 ∈ v.val
  integer : ∀ v ∈ vs, v.name = ascii "stratum" ∨ v.name = ascii "hmode" ∨ v.name = ascii "sent" ∨ v.name = ascii "received" → ∃ n, lib.integer v.val = some n
  number : ∀ v ∈ vs, v.name = ascii "offset" ∨ v.name = ascii "rootdisp" → ∃ x, lib.number v.val = some x

/-- Each association is described in answer to a query of its own, in the order of the list. -/
inductive Told (lib : Lib) (timeout : Nat) : Nat → List Assoc → List Net → Prop
  | nil {s : Nat} {ns : List Net} : Told lib timeout s [] ns
  | cons {s : Nat} {a : Assoc} {l : List Assoc} {n : Net} {ns : List Net} : Delivers ((s + 1) % 65536) 2 timeout a.fs n → Listing a.vs a.fs.flatten → Sane lib a.vs →
      Told lib timeout ((s + 1) % 65536) l ns → Told lib timeout s (a :: l) (n :: ns)

/-- The address that a value stands for. -/
def Address (lib : Lib) (v : List Nat) (a : Nat) : Prop :=
  ∃ host, Writes host v ∧ 0 ∉ host ∧ host.head? ≠ some 91 ∧ lib.resolve host = .ok a

/-- The entry says what ntpd says. -/
structure Described (lib : Lib) (a : Assoc) (p : Peer) : Prop where
  remote : ∀ v ∈ a.vs, v.name = ascii "srcadr" → ∀ x, Address lib v.val x → p.remote = some x
  local_ : ∀ v ∈ a.vs, v.name = ascii "dstadr" → ∀ x, Address lib v.val x → p.local_ = some x
  stratum : ∀ v ∈ a.vs, v.name = ascii "stratum" → ∀ n, lib.integer v.val = some n → p.stratum = n
  candidate : ∀ v ∈ a.vs, v.name = ascii "hmode" → ∀ n, lib.integer v.val = some n → p.candidate = decide (n = 3)
  offset : ∀ v ∈ a.vs, v.name = ascii "offset" → ∀ x, lib.number v.val = some x → p.offset = -x
  disp : ∀ v ∈ a.vs, v.name = ascii "rootdisp" → ∀ x, lib.number v.val = some x → p.disp = x
  sent : ∀ v ∈ a.vs, v.name = ascii "sent" → ∀ n, lib.integer v.val = some n → p.sent = n
  received : ∀ v ∈ a.vs, v.name = ascii "received" → ∀ n, lib.integer v.val = some n → p.received = n
  selected : p.selected = decide (a.status / 256 % 8 = 6)
  shortlist : p.shortlist = decide (a.status / 256 % 8 = 5)

/-! ## The variables of one peer -/

theorem setVars_nameless (lib : Lib) : ∀ (l : List (List Nat × Option (List Nat))) (p : Peer), setVars lib p l = setVars lib p (l.filter (fun v => v.1 ≠ [])) := by
  intro l
  induction l with
  | nil => intro p; rfl
  | cons v l ih =>
    intro p
    by_cases h : v.1 = []
    · rw [List.filter_cons_of_neg (by simp [h])]
      have : setVar lib p v = .ok p := by
        unfold setVar
        simp only [h]
        rfl
      rw [← ih p]
      conv_lhs => unfold setVars
      rw [this]
    · rw [List.filter_cons_of_pos (by simp [h])]
      unfold setVars
      cases setVar lib p v with
      | error f => rfl
      | ok q => exact ih q

/-- What one variable does. -/
inductive SetBy (lib : Lib) (p : Peer) (n v : List Nat) : Peer → Prop
  | remote {r : Nat × Option Nat} : n = ascii "srcadr" → parseAddr lib (some v) = .ok r → SetBy lib p n v { p with remote := r.2 }
  | local_ {r : Nat × Option Nat} : n = ascii "dstadr" → parseAddr lib (some v) = .ok r → SetBy lib p n v { p with local_ := r.2 }
  | stratum {x : Nat} : n = ascii "stratum" → lib.integer (cstr v) = some x → SetBy lib p n v { p with stratum := x }
  | candidate {x : Nat} : n = ascii "hmode" → lib.integer (cstr v) = some x → SetBy lib p n v { p with candidate := decide (x = 3) }
  | offset {x : Int} : n = ascii "offset" → lib.number (cstr v) = some x → SetBy lib p n v { p with offset := -x }
  | disp {x : Int} : n = ascii "rootdisp" → lib.number (cstr v) = some x → SetBy lib p n v { p with disp := x }
  | sent {x : Nat} : n = ascii "sent" → lib.integer (cstr v) = some x → SetBy lib p n v { p with sent := x }
  | received {x : Nat} : n = ascii "received" → lib.integer (cstr v) = some x → SetBy lib p n v { p with received := x }
  | refid : n = ascii "refid" → SetBy lib p n v { p with self := false }
  | other : n ∉ ["srcadr", "dstadr", "stratum", "hmode", "offset", "rootdisp", "sent", "received", "refid"].map ascii → SetBy lib p n v p

theorem map_ok {α β : Type} {x : Except Fault α} {f : α → β} {y : β} (h : x.map f = .ok y) : ∃ a, x = .ok a ∧ f a = y := by
  cases x with
  | error e => cases h
  | ok a => cases h; exact ⟨a, rfl, rfl⟩

theorem parseInt_ok {lib : Lib} {v : List Nat} {n : Nat} (h : parseInt lib (some v) = .ok n) : lib.integer (cstr v) = some n := by
  unfold parseInt at h
  cases hi : lib.integer (cstr v) <;> simp only [hi] at h <;> cases h
  rfl

theorem parseNum_ok {lib : Lib} {v : List Nat} {n : Int} (h : parseNum lib (some v) = .ok n) : lib.number (cstr v) = some n := by
  unfold parseNum at h
  cases hi : lib.number (cstr v) <;> simp only [hi] at h <;> cases h
  rfl

theorem setVar_by {lib : Lib} {p q : Peer} {n v : List Nat} (h : setVar lib p (n, some v) = .ok q) : SetBy lib p n v q := by
  unfold setVar at h
  simp only at h
  by_cases h1 : n = strSrcadr
  · rw [if_pos h1] at h; obtain ⟨r, hr, rfl⟩ := map_ok h; exact .remote h1 hr
  rw [if_neg h1] at h
  by_cases h2 : n = strDstadr
  · rw [if_pos h2] at h; obtain ⟨r, hr, rfl⟩ := map_ok h; exact .local_ h2 hr
  rw [if_neg h2] at h
  by_cases h3 : n = strStratum
  · rw [if_pos h3] at h; obtain ⟨r, hr, rfl⟩ := map_ok h; exact .stratum h3 (parseInt_ok hr)
  rw [if_neg h3] at h
  by_cases h4 : n = strHmode
  · rw [if_pos h4] at h; obtain ⟨r, hr, rfl⟩ := map_ok h; exact .candidate h4 (parseInt_ok hr)
  rw [if_neg h4] at h
  by_cases h5 : n = strOffset
  · rw [if_pos h5] at h; obtain ⟨r, hr, rfl⟩ := map_ok h; exact .offset h5 (parseNum_ok hr)
  rw [if_neg h5] at h
  by_cases h6 : n = strRootdisp
  · rw [if_pos h6] at h; obtain ⟨r, hr, rfl⟩ := map_ok h; exact .disp h6 (parseNum_ok hr)
  rw [if_neg h6] at h
  by_cases h7 : n = strSent
  · rw [if_pos h7] at h; obtain ⟨r, hr, rfl⟩ := map_ok h; exact .sent h7 (parseInt_ok hr)
  rw [if_neg h7] at h
  by_cases h8 : n = strReceived
  · rw [if_pos h8] at h; obtain ⟨r, hr, rfl⟩ := map_ok h; exact .received h8 (parseInt_ok hr)
  rw [if_neg h8] at h
  by_cases h9 : n = strRefid
  · rw [if_pos h9] at h; cases h; exact .refid h9
  rw [if_neg h9] at h
  cases h
  refine .other ?_
  intro hm
  simp only [List.map_cons, List.map_nil, List.mem_cons, List.not_mem_nil, or_false] at hm
  rcases hm with e | e | e | e | e | e | e | e | e
  exacts [h1 e, h2 e, h3 e, h4 e, h5 e, h6 e, h7 e, h8 e, h9 e]

theorem cstr_id {v : List Nat} (h : 0 ∉ v) : cstr v = v :=
  (scan_all (p := fun c => decide (c ≠ 0)) (l := v) (fun x hx => by simp only [decide_eq_true_eq]; rintro rfl; exact h hx)).1

theorem Var.Ok.zero {v : Var} (h : v.Ok) : 0 ∉ v.val := by
  intro h0
  cases hq : v.quoted with
  | true =>
    have := h.inside hq 0 h0
    omega
  | false =>
    have := (h.plain hq).2 0 h0
    unfold Plain at this
    omega

theorem Listing.ok {vs : List Var} {d : List Nat} (h : Listing vs d) : ∀ v ∈ vs, v.Ok := by
  induction h with
  | done _ => intro v hv; cases hv
  | last h => intro v hv; simp only [List.mem_singleton] at hv; exact hv ▸ h
  | next h _ _ ih =>
    intro v hv
    rcases List.mem_cons.1 hv with rfl | hv
    · exact h
    · exact ih v hv

/-- The variables in the form in which they are read. -/
def read (vs : List Var) : List (List Nat × Option (List Nat)) := vs.map (fun v => (v.name, some v.val))

/-- A field that only the variable `name` sets, to what `g` makes of its value. -/
def Field (lib : Lib) {β : Type} (name : List Nat) (f : Peer → β) (g : List Nat → β → Prop) : Prop :=
  ∀ (p q : Peer) (n v : List Nat), 0 ∉ v → SetBy lib p n v q → (n = name → ∀ b, g v b → f q = b) ∧ (n ≠ name → f q = f p)

theorem setVars_field {lib : Lib} {β : Type} {name : List Nat} {f : Peer → β} {g : List Nat → β → Prop} (hf : Field lib name f g) :
    ∀ (vs : List Var) (p q : Peer), (∀ v ∈ vs, v.Ok) → (vs.map (·.name)).Nodup → setVars lib p (read vs) = .ok q →
      (∀ v ∈ vs, v.name = name → ∀ b, g v.val b → f q = b) ∧ ((∀ v ∈ vs, v.name ≠ name) → f q = f p) := by
  intro vs
  induction vs with
  | nil => intro p q _ _ h; cases h; exact ⟨nofun, fun _ => rfl⟩
  | cons v vs ih =>
    intro p q hok hnd h
    simp only [read, List.map_cons] at h
    unfold setVars at h
    cases hs : setVar lib p (v.name, some v.val) with
    | error e => rw [hs] at h; cases h
    | ok p' =>
      rw [hs] at h
      have hfv := hf p p' v.name v.val (hok v (by simp)).zero (setVar_by hs)
      rw [List.map_cons, List.nodup_cons] at hnd
      obtain ⟨i1, i2⟩ := ih p' q (fun w hw => hok w (by simp [hw])) hnd.2 h
      constructor
      · intro w hw hn b hb
        rcases List.mem_cons.1 hw with rfl | hw
        · rw [i2 (by intro u hu hun; exact hnd.1 (List.mem_map.2 ⟨u, hu, hun.trans hn.symm⟩))]
          exact hfv.1 hn b hb
        · exact i1 w hw hn b hb
      · intro hno
        rw [i2 (fun w hw => hno w (by simp [hw])), hfv.2 (hno v (by simp))]

theorem setVars_safe {lib : Lib} : ∀ (vs : List Var) (p : Peer), (∀ v ∈ vs, v.Ok) → Sane lib vs → ∃ q, setVars lib p (read vs) = .ok q := by
  intro vs
  induction vs with
  | nil => intro p _ _; exact ⟨p, rfl⟩
  | cons v vs ih =>
    intro p hok hs
    have hs' : Sane lib vs := ⟨(List.nodup_cons.1 hs.once).2, fun w hw => hs.address w (by simp [hw]), fun w hw => hs.integer w (by simp [hw]), fun w hw => hs.number w (by simp [hw])⟩
    have hz := cstr_id (hok v (by simp)).zero
    have ha : v.name = ascii "srcadr" ∨ v.name = ascii "dstadr" → ∃ r, parseAddr lib (some v.val) = .ok r := by
      intro hn
      have h1 := hs.address v (by simp) hn
      obtain ⟨t, ht⟩ : ∃ t, addrText (valueMem lib v.val) = .ok t := by
        unfold valueMem
        unfold addrText
        split
        · rename_i r hr
          cases hv : v.val with
          | nil => rw [hv] at hr; cases hr
          | cons c d =>
            rw [hv] at hr h1
            simp only [List.cons_append, List.cons.injEq] at hr
            obtain ⟨rfl, rfl⟩ := hr
            have := h1 rfl
            simp only [List.mem_cons] at this
            rw [if_pos (List.mem_append_left _ (this.resolve_left (by decide)))]
            exact ⟨_, rfl⟩
        · split <;> exact ⟨_, rfl⟩
      unfold parseAddr
      simp only [ht]
      split <;> exact ⟨_, rfl⟩
    have hi : v.name = ascii "stratum" ∨ v.name = ascii "hmode" ∨ v.name = ascii "sent" ∨ v.name = ascii "received" → ∃ r, parseInt lib (some v.val) = .ok r := by
      intro hn
      obtain ⟨x, hx⟩ := hs.integer v (by simp) hn
      exact ⟨x, by unfold parseInt; simp only [hz, hx]⟩
    have hn : v.name = ascii "offset" ∨ v.name = ascii "rootdisp" → ∃ r, parseNum lib (some v.val) = .ok r := by
      intro hn
      obtain ⟨x, hx⟩ := hs.number v (by simp) hn
      exact ⟨x, by unfold parseNum; simp only [hz, hx]⟩
    have hv : ∃ q, setVar lib p (v.name, some v.val) = .ok q := by
      unfold setVar
      simp only
      by_cases h1 : v.name = strSrcadr
      · obtain ⟨r, hr⟩ := ha (.inl h1); rw [if_pos h1, hr]; exact ⟨_, rfl⟩
      rw [if_neg h1]
      by_cases h2 : v.name = strDstadr
      · obtain ⟨r, hr⟩ := ha (.inr h2); rw [if_pos h2, hr]; exact ⟨_, rfl⟩
      rw [if_neg h2]
      by_cases h3 : v.name = strStratum
      · obtain ⟨r, hr⟩ := hi (.inl h3); rw [if_pos h3, hr]; exact ⟨_, rfl⟩
      rw [if_neg h3]
      by_cases h4 : v.name = strHmode
      · obtain ⟨r, hr⟩ := hi (.inr (.inl h4)); rw [if_pos h4, hr]; exact ⟨_, rfl⟩
      rw [if_neg h4]
      by_cases h5 : v.name = strOffset
      · obtain ⟨r, hr⟩ := hn (.inl h5); rw [if_pos h5, hr]; exact ⟨_, rfl⟩
      rw [if_neg h5]
      by_cases h6 : v.name = strRootdisp
      · obtain ⟨r, hr⟩ := hn (.inr h6); rw [if_pos h6, hr]; exact ⟨_, rfl⟩
      rw [if_neg h6]
      by_cases h7 : v.name = strSent
      · obtain ⟨r, hr⟩ := hi (.inr (.inr (.inl h7))); rw [if_pos h7, hr]; exact ⟨_, rfl⟩
      rw [if_neg h7]
      by_cases h8 : v.name = strReceived
      · obtain ⟨r, hr⟩ := hi (.inr (.inr (.inr h8))); rw [if_pos h8, hr]; exact ⟨_, rfl⟩
      rw [if_neg h8]
      by_cases h9 : v.name = strRefid
      · rw [if_pos h9]; exact ⟨_, rfl⟩
      rw [if_neg h9]; exact ⟨_, rfl⟩
    obtain ⟨q, hq⟩ := hv
    obtain ⟨r, hr⟩ := ih q (fun w hw => hok w (by simp [hw])) hs'
    refine ⟨r, ?_⟩
    simp only [read, List.map_cons]
    unfold setVars
    rw [hq]
    exact hr

theorem parseAddr_address {lib : Lib} {v : List Nat} {r : Nat × Option Nat} {a : Nat} (h : parseAddr lib (some v) = .ok r) (ha : Address lib v a) : r.2 = some a := by
  obtain ⟨host, hw, h0, hb, hr⟩ := ha
  unfold parseAddr at h
  simp only [hw.text h0 hb lib, hr] at h
  cases h; rfl

theorem field_remote (lib : Lib) : Field lib (ascii "srcadr") (·.remote) (fun v b => ∃ a, Address lib v a ∧ b = some a) := by
  intro p q n v h0 h
  cases h with
  | remote hn hr => exact ⟨fun _ b hb => by obtain ⟨a, ha, rfl⟩ := hb; exact parseAddr_address hr ha, fun hne => absurd hn hne⟩
  | other hn => exact ⟨fun he => absurd (by rw [he]; simp) hn, fun _ => rfl⟩
  | _ hn => subst hn; exact ⟨fun he => absurd he (by decide), fun _ => rfl⟩

theorem field_local (lib : Lib) : Field lib (ascii "dstadr") (·.local_) (fun v b => ∃ a, Address lib v a ∧ b = some a) := by
  intro p q n v h0 h
  cases h with
  | local_ hn hr => exact ⟨fun _ b hb => by obtain ⟨a, ha, rfl⟩ := hb; exact parseAddr_address hr ha, fun hne => absurd hn hne⟩
  | other hn => exact ⟨fun he => absurd (by rw [he]; simp) hn, fun _ => rfl⟩
  | _ hn => subst hn; exact ⟨fun he => absurd he (by decide), fun _ => rfl⟩

theorem field_stratum (lib : Lib) : Field lib (ascii "stratum") (·.stratum) (fun v b => lib.integer v = some b) := by
  intro p q n v h0 h
  cases h with
  | stratum hn hr => exact ⟨fun _ b hb => by rw [cstr_id h0, hb] at hr; exact (Option.some.inj hr).symm, fun hne => absurd hn hne⟩
  | other hn => exact ⟨fun he => absurd (by rw [he]; simp) hn, fun _ => rfl⟩
  | _ hn => subst hn; exact ⟨fun he => absurd he (by decide), fun _ => rfl⟩

theorem field_candidate (lib : Lib) : Field lib (ascii "hmode") (·.candidate) (fun v b => ∃ n, lib.integer v = some n ∧ b = decide (n = 3)) := by
  intro p q n v h0 h
  cases h with
  | candidate hn hr => exact ⟨fun _ b hb => by obtain ⟨m, hm, rfl⟩ := hb; rw [cstr_id h0, hm] at hr; rw [Option.some.inj hr], fun hne => absurd hn hne⟩
  | other hn => exact ⟨fun he => absurd (by rw [he]; simp) hn, fun _ => rfl⟩
  | _ hn => subst hn; exact ⟨fun he => absurd he (by decide), fun _ => rfl⟩

theorem field_offset (lib : Lib) : Field lib (ascii "offset") (·.offset) (fun v b => ∃ x, lib.number v = some x ∧ b = -x) := by
  intro p q n v h0 h
  cases h with
  | offset hn hr => exact ⟨fun _ b hb => by obtain ⟨m, hm, rfl⟩ := hb; rw [cstr_id h0, hm] at hr; rw [Option.some.inj hr], fun hne => absurd hn hne⟩
  | other hn => exact ⟨fun he => absurd (by rw [he]; simp) hn, fun _ => rfl⟩
  | _ hn => subst hn; exact ⟨fun he => absurd he (by decide), fun _ => rfl⟩

theorem field_disp (lib : Lib) : Field lib (ascii "rootdisp") (·.disp) (fun v b => lib.number v = some b) := by
  intro p q n v h0 h
  cases h with
  | disp hn hr => exact ⟨fun _ b hb => by rw [cstr_id h0, hb] at hr; exact (Option.some.inj hr).symm, fun hne => absurd hn hne⟩
  | other hn => exact ⟨fun he => absurd (by rw [he]; simp) hn, fun _ => rfl⟩
  | _ hn => subst hn; exact ⟨fun he => absurd he (by decide), fun _ => rfl⟩

theorem field_sent (lib : Lib) : Field lib (ascii "sent") (·.sent) (fun v b => lib.integer v = some b) := by
  intro p q n v h0 h
  cases h with
  | sent hn hr => exact ⟨fun _ b hb => by rw [cstr_id h0, hb] at hr; exact (Option.some.inj hr).symm, fun hne => absurd hn hne⟩
  | other hn => exact ⟨fun he => absurd (by rw [he]; simp) hn, fun _ => rfl⟩
  | _ hn => subst hn; exact ⟨fun he => absurd he (by decide), fun _ => rfl⟩

theorem field_received (lib : Lib) : Field lib (ascii "received") (·.received) (fun v b => lib.integer v = some b) := by
  intro p q n v h0 h
  cases h with
  | received hn hr => exact ⟨fun _ b hb => by rw [cstr_id h0, hb] at hr; exact (Option.some.inj hr).symm, fun hne => absurd hn hne⟩
  | other hn => exact ⟨fun he => absurd (by rw [he]; simp) hn, fun _ => rfl⟩
  | _ hn => subst hn; exact ⟨fun he => absurd he (by decide), fun _ => rfl⟩

theorem setVars_described {lib : Lib} {a : Assoc} {p q : Peer} (hok : ∀ v ∈ a.vs, v.Ok) (hs : Sane lib a.vs) (hst : a.status < 65536) (h : setVars lib p (read a.vs) = .ok q) :
    Described lib a (setStatus q a.status) where
  remote := fun v hv hn x hx => (setVars_field (field_remote lib) a.vs p q hok hs.once h).1 v hv hn _ ⟨x, hx, rfl⟩
  local_ := fun v hv hn x hx => (setVars_field (field_local lib) a.vs p q hok hs.once h).1 v hv hn _ ⟨x, hx, rfl⟩
  stratum := fun v hv hn x hx => (setVars_field (field_stratum lib) a.vs p q hok hs.once h).1 v hv hn x hx
  candidate := fun v hv hn x hx => (setVars_field (field_candidate lib) a.vs p q hok hs.once h).1 v hv hn _ ⟨x, hx, rfl⟩
  offset := fun v hv hn x hx => (setVars_field (field_offset lib) a.vs p q hok hs.once h).1 v hv hn _ ⟨x, hx, rfl⟩
  disp := fun v hv hn x hx => (setVars_field (field_disp lib) a.vs p q hok hs.once h).1 v hv hn x hx
  sent := fun v hv hn x hx => (setVars_field (field_sent lib) a.vs p q hok hs.once h).1 v hv hn x hx
  received := fun v hv hn x hx => (setVars_field (field_received lib) a.vs p q hok hs.once h).1 v hv hn x hx
  selected := by
    show decide (a.status / 256 % 256 % 8 = 6) = decide (a.status / 256 % 8 = 6)
    rw [Nat.mod_eq_of_lt (by omega : a.status / 256 < 256)]
  shortlist := by
    show decide (a.status / 256 % 256 % 8 = 5) = decide (a.status / 256 % 8 = 5)
    rw [Nat.mod_eq_of_lt (by omega : a.status / 256 < 256)]

/-! ## The loop -/

theorem associations_bytes : ∀ (l : List Assoc), (∀ a ∈ l, a.id < 65536 ∧ a.status < 65536) → associations (assocBytes l) = l.map (fun a => (a.id, a.status)) := by
  intro l
  induction l with
  | nil => intro _; rfl
  | cons a l ih =>
    intro h
    have ha := h a (by simp)
    have e : assocBytes (a :: l) = a.id / 256 :: a.id % 256 :: a.status / 256 :: a.status % 256 :: assocBytes l := by
      simp only [assocBytes, List.flatMap_cons, be16, List.cons_append, List.nil_append]
    rw [e]
    conv_lhs => unfold associations
    rw [ih (fun b hb => h b (by simp [hb])), List.map_cons]
    have e1 : a.id / 256 * 256 + a.id % 256 = a.id := Nat.div_add_mod' _ _
    have e2 : a.status / 256 * 256 + a.status % 256 = a.status := Nat.div_add_mod' _ _
    rw [e1, e2]

theorem kept_up {a : Assoc} (h : a.status < 65536) : kept a.status = a.up := by
  unfold kept Assoc.up
  rw [Nat.mod_eq_of_lt (by omega : a.status / 256 < 256)]

theorem peerLoop_told {lib : Lib} {timeout : Nat} : ∀ (l : List Assoc) (ns : List Net) (t : Table) (rc i : Nat) (first : Bool),
    t.client.buf.length = 4096 → t.client.timeout = timeout → Told lib timeout t.client.seq l ns → (∀ a ∈ l, a.status < 65536 ∧ a.up = true) →
    i + l.length ≤ t.peers.length →
    ∃ t', peerLoop lib t rc i first (l.map (fun a => (a.id, a.status))) ns = .ok (if l = [] then rc else 0, t') ∧ t'.num = t.num + l.length ∧
      (∀ k a, l[k]? = some a → ∃ p, t'.peers[i + k]? = some p ∧ Described lib a p) ∧ (∀ j, j < i → t'.peers[j]? = t.peers[j]?) := by
  intro l
  induction l with
  | nil => intro ns t rc i first _ _ _ _ _; exact ⟨t, rfl, rfl, nofun, fun _ _ => rfl⟩
  | cons a l ih =>
    intro ns t rc i first hb ht htold hup hlen
    cases htold with
    | @cons _ _ _ n ns hd hl hs htold =>
    simp only [List.length_cons] at hlen
    obtain ⟨ha1, ha2⟩ := hup a (by simp)
    rw [← ht] at hd
    obtain ⟨r1, r2, r3⟩ := hd.reply hb
    have hq := query_sent (n := n) (c := t.client) (op := 2) (assoc := a.id) (auth := false) (data := queryData 468 peerNames []) (request_plain (by decide)) hd.sent
    have hi : i < t.peers.length := by omega
    obtain ⟨q, hq2⟩ := setVars_safe a.vs (t.peers[i]) hl.ok hs
    have hdesc := setVars_described hl.ok hs ha1 hq2
    have hrv := replyVars_eq (c := { t.client with seq := (t.client.seq + 1) % 65536, buf := (response ((t.client.seq + 1) % 65536) 2 t.client.timeout n.start t.client.buf n.events).buf }) r2 rfl
    have hset : setVars lib t.peers[i] (replyVars { t.client with seq := (t.client.seq + 1) % 65536, buf := (response ((t.client.seq + 1) % 65536) 2 t.client.timeout n.start t.client.buf n.events).buf } a.fs.flatten.length) = .ok q := by
      rw [hrv, setVars_nameless, C196_variables _ a.vs _ hl]
      exact hq2
    obtain ⟨t', h1, h2, h3, h4⟩ := ih ns
      { peers := t.peers.set i (setStatus q a.status), num := t.num + 1,
        client := { t.client with seq := (t.client.seq + 1) % 65536, buf := (response ((t.client.seq + 1) % 65536) 2 t.client.timeout n.start t.client.buf n.events).buf } }
      0 (i + 1) false r3 ht htold (fun b hb' => hup b (by simp [hb'])) (by simp only [List.length_set]; omega)
    refine ⟨t', ?_, ?_, ?_, ?_⟩
    · rw [List.map_cons]
      unfold peerLoop
      rw [if_neg (by rw [kept_up ha1, ha2]; decide)]
      simp only [List.headD_cons, hq, peerAnswer, r1, List.getElem?_eq_getElem hi, hset, List.tail_cons]
      rw [h1]
      simp
    · rw [h2]; simp only [List.length_cons]; omega
    · intro k b hk
      cases k with
      | zero =>
        simp only [List.getElem?_cons_zero, Option.some.injEq] at hk
        subst hk
        refine ⟨_, ?_, hdesc⟩
        rw [Nat.add_zero, h4 i (by omega)]
        simp [hi]
      | succ k =>
        obtain ⟨p, hp, hpd⟩ := h3 k b hk
        exact ⟨p, by rw [← hp]; congr 1; omega, hpd⟩
    · intro j hj
      rw [h4 j (by omega)]
      simp only
      rw [List.getElem?_set_ne (by omega)]

/-! ## C201 -/

/-- **C201**: the table of peers has one entry for each association that is configured or
reachable, in the order of ntpd's list, and each says what ntpd says of it. -/
def C201_statement : Prop :=
  ∀ (lib : Lib) (t : Table) (n : Net) (ns : List Net) (fs : List (List Nat)) (l : List Assoc), t.client.buf.length = 4096 → t.peers.length = 32 →
    (∀ a ∈ l, a.id < 65536 ∧ a.status < 65536) → l.length ≤ 32 → l ≠ [] → Delivers ((t.client.seq + 1) % 65536) 1 t.client.timeout fs n → fs.flatten = assocBytes l →
    Told lib t.client.timeout ((t.client.seq + 1) % 65536) (l.filter (·.up)) ns →
    ∃ t', getPeers lib t n ns = .ok (0, t') ∧ t'.num = (l.filter (·.up)).length ∧
      ∀ (k : Nat) a, (l.filter (·.up))[k]? = some a → ∃ p, t'.peers[k]? = some p ∧ Described lib a p

theorem assocBytes_length (l : List Assoc) : (assocBytes l).length = 4 * l.length := by
  induction l with
  | nil => rfl
  | cons a l ih =>
    have : assocBytes (a :: l) = be16 a.id ++ be16 a.status ++ assocBytes l := by simp [assocBytes]
    rw [this, List.length_append, ih]
    simp only [be16, List.length_append, List.length_cons, List.length_nil]
    omega

/-- C201 where every association in ntpd's list is configured or reachable.  Missing: lists with
others in between, which leave gaps in the table that the count does not allow for. -/
theorem C201_peers_partial (lib : Lib) (t : Table) (n : Net) (ns : List Net) (fs : List (List Nat)) (l : List Assoc) (hb : t.client.buf.length = 4096)
    (hp : t.peers.length = 32) (hl : ∀ a ∈ l, a.id < 65536 ∧ a.status < 65536 ∧ a.up = true) (hn : l.length ≤ 32) (hne : l ≠ [])
    (hd : Delivers ((t.client.seq + 1) % 65536) 1 t.client.timeout fs n) (hf : fs.flatten = assocBytes l)
    (htold : Told lib t.client.timeout ((t.client.seq + 1) % 65536) l ns) :
    ∃ t', getPeers lib t n ns = .ok (0, t') ∧ t'.num = l.length ∧ ∀ (k : Nat) a, l[k]? = some a → ∃ p, t'.peers[k]? = some p ∧ Described lib a p := by
  obtain ⟨r1, r2, r3⟩ := hd.reply hb
  have hq := query_sent (n := n) (c := t.client) (op := 1) (assoc := 0) (auth := false) (data := []) (request_plain (by decide)) hd.sent
  have h0 : 0 < l.length := List.length_pos_of_ne_nil hne
  have hlen := assocBytes_length l
  unfold getPeers
  rw [hq, r1]
  simp only
  rw [if_neg (by rw [hf, hlen]; simp only [Bool.or_eq_true, decide_eq_true_eq]; omega), if_neg (by rw [hf, hlen]; omega)]
  rw [r2, hf, associations_bytes l (fun a ha => ⟨(hl a ha).1, (hl a ha).2.1⟩)]
  obtain ⟨t', h1, h2, h3, -⟩ := peerLoop_told (lib := lib) l ns
    { t with num := 0, client := { t.client with seq := (t.client.seq + 1) % 65536, buf := (response ((t.client.seq + 1) % 65536) 1 t.client.timeout n.start t.client.buf n.events).buf, cache := blit t.client.cache 0 (assocBytes l) } }
    0 0 true r3 rfl htold (fun a ha => (hl a ha).2) (by simp only; omega)
  refine ⟨t', ?_, by rw [h2]; simp, ?_⟩
  · rw [h1, if_neg hne]
  · intro k a hk
    obtain ⟨p, hp, hpd⟩ := h3 k a hk
    exact ⟨p, by rw [← hp, Nat.zero_add], hpd⟩

/-- A table of default entries. -/
def newTable : Table := ⟨List.replicate 32 {}, 0, newClient⟩

/-- `stratum=2` as the whole description. -/
def stratum2 : List Nat := ascii "stratum" ++ [61, 50]

def stratumVar : Var := ⟨ascii "stratum", [50], false⟩

theorem stratumVar_ok : stratumVar.Ok :=
  ⟨by intro c hc; revert c; unfold Plain; decide, by decide, by decide, by decide, fun _ => ⟨by decide, by intro c hc; revert c; unfold Plain; decide⟩, nofun, nofun⟩

/-- The answer to query `seq`. -/
def answer (seq op : Nat) (text : List Nat) : Net :=
  { events := [(0, .packet (({ op := op, seq := seq } : Head).message text (List.replicate ((4 - text.length % 4) % 4) 0)))] }

theorem told2 : Told lib0 1000 7 [⟨2, 38400, [stratum2], [stratumVar]⟩] [answer 8 2 stratum2] := by
  refine .cons (single_delivers (by decide) (by decide) (by decide) (by decide)) ?_ ?_ .nil
  · exact Listing.last stratumVar_ok
  · exact ⟨by decide, by intro v hv; simp only [List.mem_singleton] at hv; subst hv; decide, by
      intro v hv _
      simp only [List.mem_singleton] at hv; subst hv
      exact ⟨_, rfl⟩, by
      intro v hv h
      simp only [List.mem_singleton] at hv; subst hv
      exact absurd h (by decide)⟩

/-- The system peer comes after an association that is neither configured nor reachable: it is not
among the entries that are counted. -/
theorem C201_violated : ¬ C201_statement := by
  intro h
  obtain ⟨t', h1, h2, h3⟩ := h lib0 newTable (answer 7 1 (assocBytes [⟨1, 0, [], []⟩, ⟨2, 38400, [stratum2], [stratumVar]⟩])) [answer 8 2 stratum2]
    [assocBytes [⟨1, 0, [], []⟩, ⟨2, 38400, [stratum2], [stratumVar]⟩]] [⟨1, 0, [], []⟩, ⟨2, 38400, [stratum2], [stratumVar]⟩]
    zeros_length (by decide) (by decide) (by decide) (by decide) (single_delivers (by decide) (by decide) (by decide) (by decide)) (by simp) told2
  obtain ⟨p, hp, hd⟩ := h3 0 _ rfl
  have hs := hd.selected
  have hfalse : (match getPeers lib0 newTable (answer 7 1 (assocBytes [⟨1, 0, [], []⟩, ⟨2, 38400, [stratum2], [stratumVar]⟩])) [answer 8 2 stratum2] with
    | .ok (_, t) => (t.peers[0]?).map (·.selected)
    | .error _ => none) = some false := by decide +kernel
  rw [h1] at hfalse
  simp only [hp, Option.map_some, Option.some.injEq] at hfalse
  rw [hfalse] at hs
  revert hs; decide

/-- The 33rd association is written behind the end of the table. -/
theorem C201_overrun : ∃ (t : Table) (n : Net) (ns : List Net), t.client.buf.length = 4096 ∧ t.peers.length = 32 ∧ getPeers lib0 t n ns = .error .outside := by
  refine ⟨newTable, answer 7 1 (assocBytes (List.replicate 33 ⟨1, 4096, [], []⟩)), [], zeros_length, by decide, ?_⟩
  have : (match getPeers lib0 newTable (answer 7 1 (assocBytes (List.replicate 33 ⟨1, 4096, [], []⟩))) [] with
    | .ok _ => false
    | .error f => decide (f = .outside)) = true := by decide +kernel
  split at this
  · cases this
  · rename_i f hf
    rw [hf, of_decide_eq_true this]

/-- One association, the system peer. -/
example : ∃ t', getPeers lib0 newTable (answer 7 1 (assocBytes [⟨2, 38400, [stratum2], [stratumVar]⟩])) [answer 8 2 stratum2] = .ok (0, t') ∧ t'.num = 1 := by
  obtain ⟨t', h1, h2, -⟩ := C201_peers_partial lib0 newTable (answer 7 1 (assocBytes [⟨2, 38400, [stratum2], [stratumVar]⟩])) [answer 8 2 stratum2]
    [assocBytes [⟨2, 38400, [stratum2], [stratumVar]⟩]] [⟨2, 38400, [stratum2], [stratumVar]⟩] zeros_length (by decide)
    (by decide) (by decide) (by decide) (single_delivers (by decide) (by decide) (by decide) (by decide)) (by simp) told2
  exact ⟨t', h1, h2⟩

/-! ## C202 -/

/-- **C202**: a result of 0 means that ntpd's list of peers and the description of each were got. -/
def C202_statement : Prop :=
  ∀ (lib : Lib) (t t' : Table) (n : Net) (ns : List Net), t.client.buf.length = 4096 → t.peers.length = 32 → getPeers lib t n ns = .ok (0, t') →
    ∃ size, n.sent = 0 ∧ (response ((t.client.seq + 1) % 65536) 1 t.client.timeout n.start t.client.buf n.events).reply = .ok size

/-- When the request cannot be sent, the result is 0. -/
theorem C202_violated : ¬ C202_statement := by
  intro h
  obtain ⟨size, hs, -⟩ := h lib0 newTable { newTable with client := { newClient with seq := 7 } } { sent := 101 } [] zeros_length (by decide) rfl
  cases hs

/-- The description of a peer does not come and the result is 0, as the next one does. -/
theorem C202_peer_violated : ∃ t', getPeers lib0 newTable (answer 7 1 (assocBytes [⟨1, 38400, [], []⟩, ⟨2, 38144, [], []⟩])) [{}, answer 9 2 stratum2] = .ok (0, t') ∧
    t'.num = 2 ∧ (t'.peers[0]?).map (·.stratum) = some 0 ∧ (t'.peers[0]?).map (·.selected) = some true := by
  have : (match getPeers lib0 newTable (answer 7 1 (assocBytes [⟨1, 38400, [], []⟩, ⟨2, 38144, [], []⟩])) [{}, answer 9 2 stratum2] with
    | .ok (rc, t) => decide (rc = 0 ∧ t.num = 2 ∧ (t.peers[0]?).map (·.stratum) = some 0 ∧ (t.peers[0]?).map (·.selected) = some true)
    | .error _ => false) = true := by decide +kernel
  split at this
  · rename_i rc t ht
    obtain ⟨h1, h2, h3, h4⟩ := of_decide_eq_true this
    exact ⟨t, by rw [ht, h1], h2, h3, h4⟩
  · cases this

/-- C202: without the list the table stays as it was, which is all that is left of the property.
Missing: the result does not tell. -/
theorem C202_kept_partial (lib : Lib) (t : Table) (n : Net) (ns : List Net) (rc : Nat) (t' : Table) (h : getPeers lib t n ns = .ok (rc, t'))
    (hf : ∀ size, n.sent = 0 → (response ((t.client.seq + 1) % 65536) 1 t.client.timeout n.start t.client.buf n.events).reply ≠ .ok size) :
    rc = 0 ∧ t'.peers = t.peers ∧ t'.num = t.num := by
  unfold getPeers at h
  rcases query_cases t.client n 1 0 false [] with ⟨p, e, hq, -⟩ | ⟨p, hs, -, hq⟩
  · rw [hq] at h
    cases h
    exact ⟨rfl, rfl, rfl⟩
  · rw [hq] at h
    cases hr : (response ((t.client.seq + 1) % 65536) 1 t.client.timeout n.start t.client.buf n.events).reply with
    | ok size => exact absurd hr (hf size hs)
    | refused => rw [hr] at h; cases h; exact ⟨rfl, rfl, rfl⟩
    | rc e => rw [hr] at h; cases h; exact ⟨rfl, rfl, rfl⟩
    | fault f => rw [hr] at h; cases h

example : ∀ size, ({ sent := 101 } : Net).sent = 0 → (response 7 1 1000 0 zeros []).reply ≠ .ok size := by
  intro size h; cases h

end Verif.Ntp6
