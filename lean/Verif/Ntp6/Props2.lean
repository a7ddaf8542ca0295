import Verif.Ntp6.Parse
import Verif.Ntp6.Props

/-!
# Properties of the mode 6 client: variables, addresses and requests
-/

set_option linter.unusedVariables false
set_option linter.unusedSimpArgs false

namespace Verif.Ntp6

/-! ## C196 -/

/-- **C196**: the variables that ntpd lists are found, all of them, in order and with their
values, however they are separated. -/
theorem C196_variables (beyond : Nat) (vs : List Var) (d : List Nat) (h : Listing vs d) :
    (allVars beyond d).filter (fun v => v.1 ≠ []) = vs.map (fun v => (v.name, some v.val)) :=
  named_listing h

/-- `a=1, b="x,y"` and an end of line. -/
example : allVars 0 [97, 61, 49, 44, 32, 98, 61, 34, 120, 44, 121, 34, 13, 10] =
    [([97], some [49]), ([98], some [120, 44, 121]), ([], none), ([], none)] := by decide

example : Listing [⟨[97], [49], false⟩, ⟨[98], [120, 44, 121], true⟩] [97, 61, 49, 44, 32, 98, 61, 34, 120, 44, 121, 34, 13, 10] := by
  have h1 : Var.Ok ⟨[97], [49], false⟩ := ⟨by simp [Plain], by simp, by decide, by decide, by simp [Plain], nofun, nofun⟩
  have h2 : Var.Ok ⟨[98], [120, 44, 121], true⟩ := ⟨by simp [Plain], by simp, by decide, by decide, nofun, by simp, by simp⟩
  exact Listing.next (s := [44, 32]) (d := [98, 61, 34, 120, 44, 121, 34, 13, 10]) h1 ⟨by simp [Gap], 44, [32], rfl, .inl rfl⟩
    (Listing.next (s := [13, 10]) (d := []) h2 ⟨by simp [Gap], 13, [10], rfl, .inr rfl⟩ (.done (by simp [Gap])))

/-! ## C197 -/

/-- **C197**: every call for the next variable that finds one consumes some of the text, so that
the search ends; names and values are parts of the text that fit their arrays. -/
theorem C197_progress (beyond : Nat) (d n : List Nat) (v : Option (List Nat)) (r : List Nat) (h : nextVar beyond d = some (n, v, r)) :
    r.length < d.length ∧ r <:+ d ∧ n <:+: d ∧ n.length < 256 ∧ (∀ x, v = some x → x <:+: d ∧ x.length < 2048) ∧
    ∀ fuel, d.length < fuel → vars beyond fuel d = (n, v) :: allVars beyond r := by
  have g := nextVar_got h
  refine ⟨g.shorter, g.rest, g.name, g.nameLen, g.val, ?_⟩
  intro fuel hf
  rw [vars_fuel fuel (d.length + 1) d hf (by omega)]
  exact allVars_some h

/-- A byte zero counts as an equals sign. -/
example : nextVar 0 [97, 0, 98, 44, 99] = some ([97], some [98], [99]) := by decide

/-! ## C198 -/

/-- Every text that is looked up denotes the address 1. -/
def lib0 : Lib := { resolve := fun _ => .ok 1, integer := fun _ => some 0, number := fun _ => some 0, stale := fun _ => [] }

/-- **C198**: no answer of ntpd makes the client fail. -/
def C198_statement : Prop :=
  ∀ (lib : Lib) (c : Client) (n : Net) (addr : Option Nat), c.buf.length = 4096 → Octets n.events → ∃ r, getSys lib c n addr = .ok r

/-- The answer `peeradr`, without a value. -/
def bare : List (Nat × Rx) := [(10, .packet (({ op := 2, seq := 7 } : Head).message strPeeradr [0]))]

theorem bare_octets : Octets bare := by
  intro t b hm x hx
  simp only [bare, List.mem_cons, Prod.mk.injEq, Rx.packet.injEq, List.not_mem_nil, or_false] at hm
  obtain ⟨-, rfl⟩ := hm
  revert x hx; decide

def failsWith (r : Except Fault (Nat × Option Nat × Client)) (f : Fault) : Bool :=
  match r with
  | .error g => g = f
  | .ok _ => false

theorem failsWith_not {r : Except Fault (Nat × Option Nat × Client)} {f : Fault} (h : failsWith r f = true) : ¬ ∃ x, r = .ok x := by
  rintro ⟨x, rfl⟩; cases h

/-- A name without a value leads to a null pointer. -/
theorem C198_violated : ¬ C198_statement := by
  intro h
  exact failsWith_not (r := getSys lib0 newClient { events := bare } none) (f := .null) (by decide +kernel) (h lib0 newClient _ none zeros_length bare_octets)

/-- The answer `peeradr=[`. -/
def bracket : List (Nat × Rx) := [(10, .packet (({ op := 2, seq := 7 } : Head).message (strPeeradr ++ [61, 91]) [0, 0, 0]))]

theorem bracket_octets : Octets bracket := by
  intro t b hm x hx
  simp only [bracket, List.mem_cons, Prod.mk.injEq, Rx.packet.injEq, List.not_mem_nil, or_false] at hm
  obtain ⟨-, rfl⟩ := hm
  revert x hx; decide

/-- The search for a closing bracket leaves the array. -/
theorem C198_bracket_violated : ¬ C198_statement := by
  intro h
  exact failsWith_not (r := getSys lib0 newClient { events := bracket } none) (f := .outside) (by decide +kernel)
    (h lib0 newClient _ none zeros_length bracket_octets)

theorem findPeer_mem {l : List (List Nat × Option (List Nat))} {v : Option (List Nat)} (h : findPeer l = some v) : (strPeeradr, v) ∈ l := by
  unfold findPeer at h
  cases hf : l.find? (fun v => decide (v.1 = strPeeradr)) with
  | none => rw [hf] at h; cases h
  | some x =>
    rw [hf] at h
    have h1 := List.mem_of_find?_eq_some hf
    have h2 := List.find?_some hf
    simp only [Option.map_some, Option.some.injEq] at h
    simp only [decide_eq_true_eq] at h2
    rw [← h, ← h2]; exact h1

/-- What a query that is sent does. -/
theorem query_sent {c : Client} {n : Net} {op assoc : Nat} {auth : Bool} {data p : List Nat}
    (hr : request c.digest ((c.seq + 1) % 65536) op assoc auth data = .ok p) (hs : n.sent = 0) :
    query c n op assoc auth data = (some p, .replied (response ((c.seq + 1) % 65536) op c.timeout n.start c.buf n.events).reply,
      { c with seq := (c.seq + 1) % 65536, buf := (response ((c.seq + 1) % 65536) op c.timeout n.start c.buf n.events).buf }) := by
  unfold query
  simp only [hr]
  rw [if_neg (by simp [hs])]

theorem query_cases (c : Client) (n : Net) (op assoc : Nat) (auth : Bool) (data : List Nat) :
    (∃ p e, query c n op assoc auth data = (p, .unsent e, { c with seq := (c.seq + 1) % 65536 }) ∧ (n.sent ≠ 0 → e = n.sent ∨ p = none)) ∨
    (∃ p, n.sent = 0 ∧ request c.digest ((c.seq + 1) % 65536) op assoc auth data = .ok p ∧
      query c n op assoc auth data = (some p, .replied (response ((c.seq + 1) % 65536) op c.timeout n.start c.buf n.events).reply,
        { c with seq := (c.seq + 1) % 65536, buf := (response ((c.seq + 1) % 65536) op c.timeout n.start c.buf n.events).buf })) := by
  cases hr : request c.digest ((c.seq + 1) % 65536) op assoc auth data with
  | error e => left; exact ⟨none, e, by unfold query; simp only [hr], fun _ => .inr rfl⟩
  | ok p =>
    by_cases hs : n.sent = 0
    · right; exact ⟨p, hs, rfl, query_sent hr hs⟩
    · left
      refine ⟨some p, n.sent, ?_, fun _ => .inl rfl⟩
      unfold query; simp only [hr]; rw [if_pos hs]

/-- C198 for the address of the peer, when no error answer has an undefined code and every
`peeradr` in the reply has a value that begins with a bracket only if it contains the closing one.
Missing: the others. -/
theorem C198_safe_partial (lib : Lib) (c : Client) (n : Net) (addr : Option Nat) (hb : c.buf.length = 4096) (ho : Octets n.events)
    (hc : ∀ t b (h : Head), (t, Rx.packet b) ∈ n.events → Begins h b → h.Fits → h.error = true → h.status / 256 ≤ 7)
    (hv : ∀ size beyond v, (response ((c.seq + 1) % 65536) 2 c.timeout n.start c.buf n.events).reply = .ok size →
      (strPeeradr, v) ∈ allVars beyond ((response ((c.seq + 1) % 65536) 2 c.timeout n.start c.buf n.events).buf.take size) →
      ∃ x, v = some x ∧ (x.head? = some 91 → 93 ∈ x)) :
    ∃ r, getSys lib c n addr = .ok r := by
  unfold getSys
  rcases query_cases c n 2 0 false strPeeradr with ⟨p, e, h, -⟩ | ⟨p, -, -, h⟩
  · rw [h]; exact ⟨_, rfl⟩
  · rw [h]
    cases hr : (response ((c.seq + 1) % 65536) 2 c.timeout n.start c.buf n.events).reply with
    | rc e => exact ⟨_, rfl⟩
    | refused => exact ⟨_, rfl⟩
    | fault f => exact absurd hr ((C191_bounds_partial _ 2 c.timeout n.start c.buf n.events hb ho hc).1 f)
    | ok size =>
      simp only
      split
      · exact ⟨_, rfl⟩
      · rename_i v hf
        have hm := findPeer_mem hf
        unfold replyVars at hm
        have hlen : (List.take size (response ((c.seq + 1) % 65536) 2 c.timeout n.start c.buf n.events).buf).length < size + 1 := by
          rw [List.length_take]; omega
        rw [vars_fuel (size + 1) _ _ hlen (Nat.lt_succ_self _)] at hm
        obtain ⟨x, rfl, hx⟩ := hv size _ v hr hm
        have : ∃ t, addrText (valueMem lib x) = .ok t := by
          unfold addrText valueMem
          cases x with
          | nil => exact ⟨_, rfl⟩
          | cons a l =>
            by_cases ha : a = 91
            · subst ha
              have h93 : 93 ∈ l := by simpa using hx rfl
              refine ⟨_, if_pos ?_⟩
              simp [h93]
            · split
              · rename_i heq
                simp only [List.cons_append, List.cons.injEq] at heq
                exact absurd heq.1 ha
              · split
                · exact ⟨_, rfl⟩
                · exact ⟨_, rfl⟩
        obtain ⟨t, ht⟩ := this
        unfold parseAddr
        simp only [ht]
        cases lib.resolve t <;> exact ⟨_, rfl⟩

/-- `peeradr=1` is fine. -/
example : (match getSys lib0 newClient { events := [(10, .packet (({ op := 2, seq := 7 } : Head).message (strPeeradr ++ [61, 49]) [0, 0, 0]))] } none with
    | .ok (rc, a, _) => rc = 0 && a = some 1
    | .error _ => false) = true := by decide +kernel

/-! ## C199 -/

theorem cstr_of {l r : List Nat} (h : 0 ∉ l) : cstr (l ++ 0 :: r) = l :=
  (scan (p := fun c => decide (c ≠ 0)) (l := l) (r := r) (c := 0) (fun x hx => by
    simp only [decide_eq_true_eq]; rintro rfl; exact h hx) (by decide)).1

theorem addrText_plain {mem : List Nat} (h : mem.head? ≠ some 91) :
    addrText mem = if (cstr mem).count 58 = 1 then .ok ((cstr mem).takeWhile (fun c => c ≠ 58)) else .ok (cstr mem) := by
  unfold addrText
  split
  · exact absurd rfl h
  · rfl

/-- **C199**: the address is taken out of what ntpd writes: alone or followed by a port, IPv4 or
IPv6, the latter in brackets when a port follows. -/
theorem C199_addresses (lib : Lib) (host port : List Nat) (h0 : 0 ∉ host) (p0 : 0 ∉ port) (hb : host.head? ≠ some 91) :
    (58 ∉ host → addrText (valueMem lib host) = .ok host) ∧
    (58 ∉ host → host ≠ [] → 58 ∉ port → addrText (valueMem lib (host ++ [58] ++ port)) = .ok host) ∧
    (2 ≤ host.count 58 → addrText (valueMem lib host) = .ok host) ∧
    (93 ∉ host → addrText (valueMem lib ([91] ++ host ++ [93] ++ port)) = .ok host) := by
  unfold valueMem
  have hd : ∀ r : List Nat, (host ++ 0 :: r).head? ≠ some 91 := by
    intro r
    cases host with
    | nil => simp
    | cons a l => simpa using hb
  refine ⟨?_, ?_, ?_, ?_⟩
  · intro h
    rw [addrText_plain (hd _), cstr_of h0, if_neg]
    rw [List.count_eq_zero.2 h]; omega
  · intro h hne hp
    have hh : (host ++ [58] ++ port ++ 0 :: (lib.stale (host ++ [58] ++ port)).take (2047 - (host ++ [58] ++ port).length)).head? ≠ some 91 := by
      cases host with
      | nil => exact absurd rfl hne
      | cons a l => simpa using hb
    rw [addrText_plain hh, cstr_of (by simp [h0, p0]), if_pos]
    · rw [List.append_assoc, List.singleton_append, (scan (p := fun c => decide (c ≠ 58)) (fun x hx => by
        simp only [decide_eq_true_eq]; rintro rfl; exact h hx) (by decide)).1]
    · rw [List.count_append, List.count_append, List.count_eq_zero.2 h, List.count_eq_zero.2 hp]; rfl
  · intro h
    rw [addrText_plain (hd _), cstr_of h0, if_neg (by omega)]
  · intro h
    rw [List.append_assoc, List.append_assoc, List.singleton_append, List.cons_append]
    unfold addrText
    simp only
    rw [if_pos (by simp)]
    congr 1
    rw [List.append_assoc, List.singleton_append, (scan (p := fun c => decide (c ≠ 93)) (l := host) (c := 93) (fun x hx => by
      simp only [decide_eq_true_eq]; rintro rfl; exact h hx) (by decide)).1]
    exact (scan_all (p := fun c => decide (c ≠ 0)) fun x hx => by
      simp only [decide_eq_true_eq]; rintro rfl; exact h0 hx).1

/-- `1.2:9` and `[::1]:9`. -/
example : addrText (valueMem lib0 [49, 46, 50, 58, 57]) = .ok [49, 46, 50] ∧ addrText (valueMem lib0 [91, 58, 58, 49, 93, 58, 57]) = .ok [58, 58, 49] := by
  constructor <;> rfl

end Verif.Ntp6
