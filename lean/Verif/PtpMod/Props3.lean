/-
Properties of the PTP sync module: sockets, discriminator and start-up
(C258-C261).
-/
import Verif.PtpMod.Props2

set_option linter.unusedSimpArgs false
set_option linter.unusedVariables false

namespace Verif.PtpMod

/-! ### C258: the sockets are polled -/

/-- Only the current socket can be in the epoll set. -/
def Only (s : Socks) : Prop := ∀ p ∈ s.polled, s.cur = some p

theorem reopen_nil {s : Socks} (h : Only s) (n : Option Nat) : (s.reopen n).polled = [] := by
  have hp : (match s.cur with
      | some c => s.polled.filter (fun p => !decide (p.2 = c.2))
      | none => s.polled) = [] := by
    cases hc : s.cur with
    | none =>
      simp only
      cases hl : s.polled with
      | nil => rfl
      | cons p l =>
        have := h p (by rw [hl]; simp)
        rw [hc] at this
        simp at this
    | some c =>
      simp only
      rw [List.filter_eq_nil_iff]
      intro p hp
      have := h p hp
      rw [hc] at this
      simp only [Option.some.injEq] at this
      simp [this]
  unfold Socks.reopen
  cases n with
  | none => exact hp
  | some n => exact hp

theorem reopen_only {s : Socks} (h : Only s) (n : Option Nat) : Only (s.reopen n) := by
  intro p hp
  rw [reopen_nil h] at hp
  simp at hp

theorem reopen_num (s : Socks) (n : Option Nat) : (s.reopen n).cur.map (·.1) = n := by
  unfold Socks.reopen
  cases n <;> rfl

theorem del_cur (s : Socks) (n : Nat) : (s.del n).cur = s.cur := by
  unfold Socks.del
  split
  · split <;> rfl
  · rfl

theorem add_cur (s : Socks) (n : Nat) : (s.add n).cur = s.cur := by
  unfold Socks.add
  split
  · split <;> rfl
  · rfl

theorem del_only {s : Socks} (h : Only s) (n : Nat) : Only (s.del n) := by
  intro p hp
  rw [del_cur]
  unfold Socks.del at hp
  split at hp
  · split at hp
    · exact h p (List.mem_filter.1 hp).1
    · exact h p hp
  · exact h p hp

theorem add_only {s : Socks} (h : Only s) (n : Nat) : Only (s.add n) := by
  intro p hp
  rw [add_cur]
  unfold Socks.add at hp
  split at hp
  · rename_i m d hc
    split at hp
    · rcases List.mem_cons.1 hp with rfl | hp
      · exact hc
      · exact h p hp
    · exact h p hp
  · exact h p hp

theorem update_cur (s : Socks) (o n : Option Nat) : (s.update o n).cur = s.cur := by
  unfold Socks.update
  cases o <;> cases n <;> simp [del_cur, add_cur]

theorem update_only {s : Socks} (h : Only s) (o n : Option Nat) : Only (s.update o n) := by
  unfold Socks.update
  cases o <;> cases n
  · exact h
  · exact add_only h _
  · exact del_only h _
  · exact add_only (del_only h _) _

theorem add_in {s : Socks} {m d : Nat} (hc : s.cur = some (m, d)) : (m, d) ∈ (s.add m).polled := by
  unfold Socks.add
  rw [hc]
  simp only
  by_cases h : (m, d) ∈ s.polled
  · simp [h]
  · simp [h]

theorem update_polled {s : Socks} (h : Only s) (o : Option Nat) :
    Polled (s.update o (s.cur.map (·.1))) := by
  refine ⟨?_, update_only h _ _⟩
  intro c hc
  rw [update_cur] at hc
  rw [hc]
  unfold Socks.update
  obtain ⟨m, d⟩ := c
  cases o with
  | none => exact add_in hc
  | some o => exact add_in (by rw [del_cur]; exact hc)

theorem updateIf_only {s : Socks} (h : Only s) (c : Bool) (i : Option (Option Nat)) :
    Only (s.updateIf c i) := by
  have key : ∀ (s1 : Socks) (q : Prop) [Decidable q] (o f : Option Nat), Only s1 →
      Only { (if q then s1.update o f else s1) with recorded := f, bond := false } := by
    intro s1 q _ o f h1 p hp
    by_cases hq : q
    · simp only [hq, if_true] at hp ⊢
      exact update_only h1 _ _ p hp
    · simp only [hq, if_false] at hp ⊢
      exact h1 p hp
  unfold Socks.updateIf
  cases c <;> cases i
  · exact key s _ _ _ h
  · exact key s _ _ _ h
  · exact key s _ _ _ h
  · exact key _ _ _ _ (reopen_only h _)

theorem step_only {s : Socks} (h : Only s) (e : SockEv) : Only (s.step e) := by
  cases e with
  | table n =>
    cases n with
    | none => exact h
    | some n => exact reopen_only h n
  | tick r c i =>
    cases r with
    | none => exact updateIf_only h c i
    | some n => exact updateIf_only (reopen_only h n) true i

theorem run_only {s : Socks} (h : Only s) (es : List SockEv) : Only (s.run es) := by
  induction es generalizing s with
  | nil => exact h
  | cons e es ih => exact ih (step_only h e)

theorem start_polled (c : Option (Nat × Nat)) (f : Nat) : Polled (Socks.start c f) := by
  cases c <;> simp [Polled, Socks.start]

/-- Tick without a change of number. -/
theorem updateIf_polled {s : Socks} (h : Only s) (c : Bool)
    (hp : c = true ∨ s.bond = true ∨ Polled s) (i : Option (Option Nat)) (hn : c = true → ∀ n, i = some n → n = s.cur.map (·.1)) :
    Polled (s.updateIf c i) := by
  unfold Socks.updateIf
  cases c with
  | false =>
    simp only [Bool.false_eq_true, or_false]
    by_cases hb : s.bond = true
    · simp only [hb, if_true]
      exact update_polled h _
    · simp only [hb, if_false]
      rcases hp with hp | hp | hp
      · simp at hp
      · exact absurd hp hb
      · exact hp
  | true =>
    cases i with
    | none =>
      simp only [or_true, if_true]
      exact update_polled h _
    | some n =>
      simp only [or_true, if_true]
      have he := hn rfl n rfl
      have hu := update_polled (reopen_only h n) (s.reopen n).recorded
      rw [reopen_num, he] at hu
      rw [he]
      exact hu

/-- C258: after every run of the timer the open PTP socket is in the epoll set
of the thread, and no other. -/
def C258_statement : Prop :=
  ∀ (c : Option (Nat × Nat)) (f : Nat) (es : List SockEv) (r : Option (Option Nat)) (ch : Bool)
    (i : Option (Option Nat)), Polled ((Socks.start c f).run (es ++ [.tick r ch i]))

/-- A socket reopened while the instances are updated is not polled if its
number differs, since the numbers were fetched before; later ticks do not
notice. -/
theorem C258_violated : ¬ C258_statement := by
  intro h
  have := (h (some (5, 0)) 1 [.tick none true (some (some 7))] none false none).1 (7, 1)
    (by decide)
  exact absurd this (by decide)

theorem polled_run {s : Socks} (h : Only s) (hp : s.bond = true ∨ Polled s) (es : List SockEv)
    (hn : SameNumbers s es) : (s.run es).bond = true ∨ Polled (s.run es) := by
  induction es generalizing s with
  | nil => exact hp
  | cons e es ih =>
    refine ih (step_only h e) ?_ hn.2
    cases e with
    | table n => cases n <;> exact Or.inl rfl
    | tick r c i =>
      right
      cases r with
      | none => exact updateIf_polled h c (Or.inr hp) i hn.1
      | some n =>
        refine updateIf_polled (reopen_only h n) true (Or.inl rfl) i ?_
        intro _ m hm
        rw [reopen_num]
        exact hn.1 m hm

theorem run_sock_snoc (s : Socks) (es : List SockEv) (e : SockEv) :
    s.run (es ++ [e]) = (s.run es).step e := by
  simp [Socks.run]

/-- It is polled if sockets reopened during an update get the numbers of those
they replace. -/
theorem C258_partial (c : Option (Nat × Nat)) (f : Nat) (es : List SockEv) (r : Option (Option Nat))
    (ch : Bool) (i : Option (Option Nat))
    (hn : SameNumbers (Socks.start c f) (es ++ [.tick r ch i])) :
    Polled ((Socks.start c f).run (es ++ [.tick r ch i])) := by
  have hs := start_polled c f
  rcases polled_run hs.2 (Or.inr hs) _ hn with h | h
  · rw [run_sock_snoc] at h
    cases r <;> simp [Socks.step, Socks.updateIf] at h
  · exact h

/-- And whatever happened before, it is polled again after the next change of
state or of the interface. -/
theorem C258_recovery_partial (c : Option (Nat × Nat)) (f : Nat) (es : List SockEv) :
    Polled ((Socks.start c f).run (es ++ [.tick none true none])) ∧
    (∀ n, Polled ((Socks.start c f).run (es ++ [.table n, .tick none false none]))) := by
  have ho := run_only (start_polled c f).2 es
  constructor
  · rw [run_sock_snoc]
    exact updateIf_polled ho true (Or.inl rfl) none (by simp)
  · intro n
    rw [show es ++ [.table n, .tick none false none] = (es ++ [.table n]) ++ [.tick none false none] by
      simp, run_sock_snoc, run_sock_snoc]
    refine updateIf_polled (step_only ho _) false (Or.inr (Or.inl ?_)) none (by simp)
    cases n <;> rfl

example : SameNumbers (Socks.start (some (5, 0)) 1)
      [.table (some (some 9)), .tick none true (some (some 9)), .tick (some (some 6)) false none] ∧
    ((Socks.start (some (5, 0)) 1).run [.table (some (some 9)), .tick none true (some (some 9)),
      .tick (some (some 6)) false none]).polled = [(6, 3)] := by
  refine ⟨⟨trivial, ?_, ?_, trivial⟩, by decide⟩
  · intro _ n hn
    simp only [Option.some.injEq] at hn
    subst hn
    decide
  · intro n hn
    simp at hn

/-! ### C259: the BMC discriminator -/

/-- C259: a measurement of the discriminator is taken as valid exactly if the
discriminator could be read and compared with the clock of the instance; the
value is its offset from that clock. -/
def C259_statement : Prop :=
  ∀ (d : Disc) (x : Int), measure d = .valid x ↔
    match d with
    | .none => False
    | .sync st cmp => ∃ off diff, st = some off ∧ off ≠ 0 ∧ cmp = some diff ∧ x = diff - off
    | .clock cmp => cmp = some x

/-- If the clock of the discriminating instance cannot be compared, the offset
of that instance is taken for the measurement. -/
theorem C259_violated : ¬ C259_statement := by
  intro h
  have := (h (.sync (some 5) none) (-5)).1 (by decide)
  obtain ⟨_, _, _, _, h, _⟩ := this
  simp at h

theorem C259_partial (d : Disc) (x : Int) (h : ∀ st, d ≠ .sync st none) :
    measure d = .valid x ↔
    match d with
    | .none => False
    | .sync st cmp => ∃ off diff, st = some off ∧ off ≠ 0 ∧ cmp = some diff ∧ x = diff - off
    | .clock cmp => cmp = some x := by
  cases d with
  | none => simp [measure]
  | sync st cmp =>
    cases cmp with
    | none => exact absurd rfl (h st)
    | some diff =>
      cases st with
      | none => simp [measure]
      | some off =>
        simp only [measure]
        by_cases ho : off = 0
        · simp [ho]
        · simp only [ho, if_false, Option.getD_some, Meas.valid.injEq]
          constructor
          · rintro rfl; exact ⟨off, diff, rfl, ho, rfl, rfl⟩
          · rintro ⟨a, b, h1, _, h2, h3⟩
            simp only [Option.some.injEq] at h1 h2
            omega
  | clock cmp => cases cmp <;> simp [measure]

example : measure (.sync (some 5) (some 30)) = .valid 25 ∧ measure (.clock (some 7)) = .valid 7 ∧
    measure (.sync (some 0) (some 30)) = .invalid := by decide

/-! ### C260: convergence thresholds -/

/-- C260: after start-up the convergence threshold of an instance is the
configured one if there is one, and otherwise 1 us with hardware and 100 us with
software timestamping. -/
def C260_statement : Prop :=
  ∀ (rep : Nat) (t : Ts) (l : List (Nat × Rat)),
    startThresholds rep t .hw l = l.map (fun p =>
      (p.1, if p.2 ≠ 0 then p.2 else if t = .hw then 1000 else 100000))

/-- It is set before the kind of timestamping is known, for hardware. -/
theorem C260_violated : ¬ C260_statement := by
  intro h
  exact absurd (h 1 .sw [(1, 0)]) (by decide +kernel)

theorem C260_partial (rep : Nat) (t : Ts) (l : List (Nat × Rat))
    (h : t = .hw ∨ ∀ p ∈ l, p.2 ≠ 0) :
    startThresholds rep t .hw l = l.map (fun p =>
      (p.1, if p.2 ≠ 0 then p.2 else if t = .hw then 1000 else 100000)) := by
  have key : ∀ (t0 : Ts), (t = .hw → t0 = .hw) → startThresholds rep t t0 l = l.map (fun p =>
      (p.1, if p.2 ≠ 0 then p.2 else if t = .hw then 1000 else 100000)) := by
    induction l with
    | nil => intro t0 _; rfl
    | cons p l ih =>
      intro t0 ht
      obtain ⟨i, u⟩ := p
      simp only [startThresholds, List.map_cons]
      rw [ih (by rcases h with h | h
                 · exact Or.inl h
                 · exact Or.inr (fun p hp => h p (List.mem_cons_of_mem _ hp)))]
      · congr 1
        unfold thresholdOf
        by_cases hu : u = 0
        · rcases h with h | h
          · simp [hu, h, ht h]
          · exact absurd hu (h (i, u) (by simp))
        · simp [hu]
      · intro hh
        split
        · exact hh
        · exact ht hh
  exact key .hw (fun _ => rfl)

example : startThresholds 1 .sw .hw [(2, 500), (1, 40)] = [(2, 500), (1, 40)] := by decide +kernel

/-! ### C261: multicast -/

/-- C261: an interface joins the PTP multicast groups exactly if some instance
configured on it uses multicast. -/
def C261_statement : Prop :=
  ∀ cs : List Conf, (create cs).2.1 = true → ∀ i ∈ (create cs).1,
    (multicastUsed i = true ↔
      ∃ c ∈ cs, c.iface = i.name ∧ c.af = i.rep.af ∧ c.mcast = true)

/-- With two domains on an interface it does not: the requirement is recorded
in the configuration of one and read from that of the other. -/
theorem C261_violated : ¬ C261_statement := by
  intro h
  have := (h [exA, exB] (by decide) ⟨10, defaults exA, [defaults exB, defaults exA]⟩ (by decide)).2
    ⟨exA, by simp, rfl, rfl, rfl⟩
  exact absurd this (by decide)

/-- With a single instance on the interface it does. -/
theorem C261_partial (cs : List Conf) (h : (create cs).2.1 = true) (i : If) (hi : i ∈ (create cs).1)
    (c : Conf) (hc : cs.filter (fun c => decide (c.iface = i.name ∧ c.af = i.rep.af)) = [c]) :
    multicastUsed i = true ↔
      ∃ c ∈ cs, c.iface = i.name ∧ c.af = i.rep.af ∧ c.mcast = true := by
  have hv := create_inv h
  have h1 := hv.insts i hi
  have h2 := hv.rep i hi
  rw [hc] at h1
  simp only [List.map_cons, List.map_nil, List.reverse_cons, List.reverse_nil, List.nil_append] at h1
  rw [h1] at h2
  simp only [List.getLast?_singleton, Option.some.injEq] at h2
  have hm : multicastUsed i = c.mcast := by
    unfold multicastUsed
    rw [h1, ← h2]
    simp [(defaults_spec c).mcast]
  rw [hm]
  constructor
  · intro hh
    have : c ∈ cs.filter (fun c => decide (c.iface = i.name ∧ c.af = i.rep.af)) := by rw [hc]; simp
    have := List.mem_filter.1 this
    simp only [decide_eq_true_eq] at this
    exact ⟨c, this.1, this.2.1, this.2.2, hh⟩
  · rintro ⟨d, hd, h3, h4, h5⟩
    have : d ∈ cs.filter (fun c => decide (c.iface = i.name ∧ c.af = i.rep.af)) :=
      List.mem_filter.2 ⟨hd, by simp [h3, h4]⟩
    rw [hc] at this
    rw [List.mem_singleton.1 this] at h5
    exact h5

example : (create [exA, exC]).1.map multicastUsed = [true, true] := by decide

end Verif.PtpMod
