import Verif.Priv.Spec

/-! # Lemmas on the helper, its client and the lock -/

set_option linter.unusedSimpArgs false
set_option linter.unusedVariables false

namespace Verif.Priv

theorem digits_spec : ∀ {s : Text}, digitsToEnd s = true →
    s ≠ [] ∧ ∀ c ∈ s, '0' ≤ c ∧ c ≤ '9' := by
  have hd : ∀ c : Char, isDigit c = true → '0' ≤ c ∧ c ≤ '9' := by
    intro c hc
    simp only [isDigit, Bool.and_eq_true, decide_eq_true_eq] at hc
    rw [Char.le_def, Char.le_def, UInt32.le_iff_toNat_le, UInt32.le_iff_toNat_le]
    exact ⟨hc.1, hc.2⟩
  intro s
  induction s with
  | nil => intro h; simp [digitsToEnd] at h
  | cons c r ih =>
    intro h
    refine ⟨by simp, ?_⟩
    cases r with
    | nil =>
      simp only [digitsToEnd] at h
      intro x hx
      rw [List.mem_singleton] at hx
      subst hx
      exact hd _ h
    | cons d r =>
      simp only [digitsToEnd, Bool.and_eq_true] at h
      intro x hx
      rcases List.mem_cons.mp hx with rfl | hx
      · exact hd _ h.1
      · exact (ih h.2).2 x hx

theorem prefix_drop {p s : Text} (h : p.isPrefixOf s = true) : s = p ++ s.drop p.length := by
  rw [List.isPrefixOf_iff_prefix] at h
  obtain ⟨r, rfl⟩ := h
  simp

theorem permitted_spec {s : Text} (h : permitted s = true) : DeviceName s := by
  simp only [permitted, Bool.and_eq_true, Bool.or_eq_true] at h
  obtain ⟨h5, h3⟩ := h
  have e5 := prefix_drop h5
  rcases h3 with ⟨hp, hd⟩ | ⟨hp, hd⟩
  · have e3 := prefix_drop hp
    refine ⟨_, (digits_spec hd).1, (digits_spec hd).2, .inl ?_⟩
    have e3' : s.drop 5 = "pps".toList ++ (s.drop 5).drop 3 := e3
    have e5' : s = "/dev/".toList ++ s.drop 5 := e5
    calc s = "/dev/".toList ++ s.drop 5 := e5'
      _ = "/dev/".toList ++ ("pps".toList ++ (s.drop 5).drop 3) := by rw [← e3']
      _ = _ := rfl
  · have e3 := prefix_drop hp
    refine ⟨_, (digits_spec hd).1, (digits_spec hd).2, .inr ?_⟩
    have e3' : s.drop 5 = "ptp".toList ++ (s.drop 5).drop 3 := e3
    have e5' : s = "/dev/".toList ++ s.drop 5 := e5
    calc s = "/dev/".toList ++ s.drop 5 := e5'
      _ = "/dev/".toList ++ ("ptp".toList ++ (s.drop 5).drop 3) := by rw [← e3']
      _ = _ := rfl

theorem cstr_spec {p : Text} (h : nul ∈ p) : ∃ r, p = cstr p ++ nul :: r ∧ nul ∉ cstr p := by
  induction p with
  | nil => cases h
  | cons c r ih =>
    by_cases hc : c = nul
    · exact ⟨r, by simp [cstr, hc], by simp [cstr, hc]⟩
    · have hr : nul ∈ r := by
        rcases List.mem_cons.mp h with h | h
        · exact absurd h.symm hc
        · exact h
      obtain ⟨r', e, hn⟩ := ih hr
      have hcs : cstr (c :: r) = c :: cstr r := by simp [cstr, hc]
      refine ⟨r', ?_, ?_⟩
      · rw [hcs, List.cons_append, ← e]
      · rw [hcs]
        intro hm
        rcases List.mem_cons.mp hm with h | h
        · exact hc h.symm
        · exact hn h

/-- What the request is taken to be. -/
def Turn.taken (t : Turn) : Req :=
  match t.recv with
  | .request r => r
  | _ => t.junk

theorem turn_deed {ig : Bool} {t : Turn} {x : Act} (h : x ∈ (serverTurn ig t).1) (hd : Deed x) :
    x ∈ (serve t t.taken).2.2 := by
  have key : ∀ (b : Bool) (o : Resp × Option Nat × List Act) (n : After),
      x ∈ (reply ig b o n).1 → x ∈ o.2.2 := by
    intro b o n h
    unfold reply at h
    split at h
    · exact h
    · simp only [List.mem_append] at h
      rcases h with (h | h) | h
      · exact h
      · split at h
        · cases h
        · rw [List.mem_singleton] at h
          subst h
          exact absurd hd id
      · split at h
        · rw [List.mem_singleton] at h
          subst h
          exact absurd hd id
        · cases h
  unfold serverTurn at h
  unfold Turn.taken
  cases hr : t.recv with
  | failed e =>
    rw [hr] at h
    dsimp only at h ⊢
    split at h
    · cases h
    · exact key _ _ _ h
  | closed =>
    rw [hr] at h
    exact key _ _ _ h
  | request r =>
    rw [hr] at h
    exact key _ _ _ h

theorem mem_server {ig : Bool} {ts : List Turn} {t : Turn} {a : List Act}
    (h : (t, a) ∈ (server ig ts).1) : t ∈ ts ∧ a = (serverTurn ig t).1 := by
  induction ts with
  | nil => simp [server] at h
  | cons t0 ts ih =>
    unfold server at h
    split at h
    · rename_i a0 he
      rcases List.mem_cons.mp h with h | h
      · cases h
        exact ⟨List.mem_cons_self, by rw [he]⟩
      · exact ⟨List.mem_cons_of_mem _ (ih h).1, (ih h).2⟩
    · rename_i a0 e hne he
      rw [List.mem_singleton] at h
      cases h
      exact ⟨List.mem_cons_self, by rw [he]⟩

/-- Deeds of connecting. -/
theorem connect_acts {c : Calls} {x : Act} (h : x ∈ (helperConnect c).acts) :
    x = .socket c.fd ∨ x = .unlink ∨ x = .bound ∨ x = .close c.fd := by
  unfold helperConnect Conn.fail at h
  repeat' split at h
  all_goals simp at h
  all_goals grind

theorem serve_deed {t : Turn} {r : Req} {x : Act} (h : x ∈ (serve t r).2.2) (hd : Deed x) :
    AskedFor r x := by
  cases r with
  | close => exact absurd h List.not_mem_nil
  | sync => exact absurd h List.not_mem_nil
  | unknown => exact absurd h List.not_mem_nil
  | openChrony =>
    rcases connect_acts h with rfl | rfl | rfl | rfl
    · trivial
    · trivial
    · trivial
    · exact absurd hd id
  | openDev p =>
    simp only [serve, opOpenDev] at h
    split at h
    · cases h
    · rename_i hn
      obtain ⟨r, e, hc⟩ := cstr_spec (Decidable.not_not.mp hn)
      split at h
      · cases h
      · split at h
        · rw [List.mem_singleton] at h
          subst h
          exact ⟨r, e, hc⟩
        · rw [List.mem_singleton] at h
          subst h
          exact ⟨r, e, hc⟩
  | control op =>
    simp only [serve, List.mem_singleton] at h
    subst h
    rfl

theorem serve_opened {t : Turn} {r : Req} {p : Text} {fd : Option Nat}
    (h : Act.opened p fd ∈ (serve t r).2.2) : permitted p = true := by
  cases r with
  | close => exact absurd h List.not_mem_nil
  | sync => exact absurd h List.not_mem_nil
  | unknown => exact absurd h List.not_mem_nil
  | openChrony =>
    rcases connect_acts h with h | h | h | h <;> cases h
  | openDev q =>
    simp only [serve, opOpenDev] at h
    split at h
    · cases h
    · split at h
      · cases h
      · rename_i hp
        simp only [Bool.not_eq_true', Bool.not_eq_false] at hp
        split at h
        · rw [List.mem_singleton] at h
          cases h
          exact hp
        · rw [List.mem_singleton] at h
          cases h
          exact hp
  | control op =>
    simp [serve] at h

/-! ### Descriptors -/

theorem made_append (a b : List Act) : made (a ++ b) = made a ++ made b := by
  induction a with
  | nil => rfl
  | cons x a ih =>
    cases x with
    | opened p fd => cases fd <;> simp [made, ih]
    | _ => simp [made, ih]

theorem closed_append (a b : List Act) : closed (a ++ b) = closed a ++ closed b := by
  induction a with
  | nil => rfl
  | cons x a ih =>
    cases x with
    | _ => simp [closed, ih]

/-- What serving a request leaves open is what it hands over. -/
theorem serve_balance {t : Turn} (hc : t.calls.connect ≠ some eINPROGRESS)
    (he : t.calls.Errnos) (r : Req) :
    made (serve t r).2.2 = closed (serve t r).2.2 ++ (serve t r).2.1.toList := by
  cases r with
  | close => rfl
  | sync => rfl
  | unknown => rfl
  | control op => rfl
  | openDev p =>
    simp only [serve, opOpenDev]
    repeat' split
    all_goals rfl
  | openChrony =>
    have hpos : ∀ n e, (n, some e) ∈ t.calls.steps → e ≠ 0 := fun n e h => Nat.pos_iff_ne_zero.mp (he n e h)
    simp only [Calls.steps, List.mem_cons, Prod.mk.injEq, List.not_mem_nil, or_false] at hpos
    simp only [serve, opOpenChrony]
    unfold helperConnect Conn.fail
    repeat' split
    all_goals simp_all [made, closed, eNOMEM, eINPROGRESS]
    all_goals grind

theorem reply_balance {ig b : Bool} {o : Resp × Option Nat × List Act} {n : After}
    (hb : made o.2.2 = closed o.2.2 ++ o.2.1.toList) (hk : (reply ig b o n).2 ≠ .killed) :
    made (reply ig b o n).1 = closed (reply ig b o n).1 := by
  unfold reply at hk ⊢
  split
  · rename_i h
    rw [if_pos h] at hk
    exact absurd rfl hk
  · simp only [made_append, closed_append, hb]
    cases o.2.1 <;> cases b <;> simp [made, closed]

theorem server_killed {ig : Bool} {ts : List Turn} {t : Turn} {a : List Act}
    (h : (t, a) ∈ (server ig ts).1) (hk : (server ig ts).2 ≠ .killed) :
    (serverTurn ig t).2 ≠ .killed := by
  induction ts with
  | nil => simp [server] at h
  | cons t0 ts ih =>
    unfold server at h hk
    split at h
    · rename_i a0 he
      rw [he] at hk
      rcases List.mem_cons.mp h with h | h
      · cases h
        rw [he]
        simp
      · exact ih h hk
    · rename_i a0 e hne he
      rw [List.mem_singleton] at h
      cases h
      rw [he] at hk ⊢
      cases e with
      | go => simp
      | stop n => simp
      | killed => exact absurd rfl hk

/-! ### Locks -/

/-- While no sending fails, the lock is held exactly by the thread in the exchange. -/
def Locks.Good (s : Locks) : Prop :=
  ∀ i, (s.pc i = .sending ∨ s.pc i = .receiving) ↔ s.lock = some i

theorem good_init : Locks.init.Good := by
  intro j
  constructor
  · intro h
    rcases h with h | h <;> cases h
  · intro h
    cases h

theorem good_step {s s' : Locks} {e : Ev} (h : s.Good) (hs : s.step e = some s')
    (hf : ∀ i, e ≠ .sendFails i) : s'.Good := by
  cases e with
  | sendFails i => exact absurd rfl (hf i)
  | call i =>
    simp only [Locks.step] at hs
    split at hs
    · rename_i hp
      split at hs
      · cases hs
        intro j
        have := h j
        simp only [Locks.at]
        split
        · subst j
          simp_all
        · exact this
      · cases hs
        exact h
    · cases hs
  | lock i =>
    simp only [Locks.step] at hs
    split at hs
    · rename_i hp
      cases hs
      intro j
      have := h j
      simp only [Locks.at]
      split
      · subst j
        simp
      · rename_i hne
        rw [this, hp.2]
        simp [Ne.symm hne]
    · cases hs
  | sent i =>
    simp only [Locks.step] at hs
    split at hs
    · rename_i hp
      cases hs
      intro j
      have := h j
      simp only [Locks.at]
      split
      · subst j
        simp_all
      · exact this
    · cases hs
  | received i =>
    simp only [Locks.step] at hs
    split at hs
    · rename_i hp
      cases hs
      have hi := (h i).mp (.inr hp)
      intro j
      have := h j
      simp only [Locks.at]
      split
      · simp
      · rename_i hne
        rw [this, hi]
        simp [Ne.symm hne]
    · cases hs
  | recvFails i =>
    simp only [Locks.step] at hs
    split at hs
    · rename_i hp
      cases hs
      have hi := (h i).mp (.inr hp)
      intro j
      have := h j
      simp only [Locks.at]
      split
      · simp
      · rename_i hne
        rw [this, hi]
        simp [Ne.symm hne]
    · cases hs

theorem good_run {es : List Ev} : ∀ {s s' : Locks}, s.Good → s.run es = some s' →
    (∀ i, Ev.sendFails i ∉ es) → s'.Good := by
  induction es with
  | nil =>
    intro s s' h hs _
    simp only [Locks.run] at hs
    cases hs
    exact h
  | cons e es ih =>
    intro s s' h hs hf
    simp only [Locks.run] at hs
    cases h1 : s.step e with
    | none => rw [h1] at hs; cases hs
    | some s1 =>
      rw [h1] at hs
      refine ih (good_step h h1 fun i he => hf i ?_) hs fun i hi => hf i (List.mem_cons_of_mem _ hi)
      rw [he]
      exact List.mem_cons_self

theorem get_lock {s : Locks} {i : Nat} (hw : s.pc i = .waiting) (hl : s.lock = none) :
    ∃ s', s.run [.lock i] = some s' ∧ s'.pc i = .sending := by
  refine ⟨{ s with lock := some i, pc := s.at i .sending }, ?_, ?_⟩
  · simp only [Locks.run, Locks.step, hw, hl, and_self, if_true, Option.bind_some]
  · simp [Locks.at]

theorem finish_sending {s : Locks} {i k : Nat} (hik : i ≠ k) (hw : s.pc i = .waiting)
    (hk : s.pc k = .sending) :
    ∃ s', s.step (.sent k) = some s' ∧ s'.pc i = .waiting ∧ s'.pc k = .receiving := by
  refine ⟨{ s with pc := s.at k .receiving }, ?_, ?_, ?_⟩
  · simp only [Locks.step, hk, if_true]
  · simp only [Locks.at, if_neg hik, hw]
  · simp [Locks.at]

theorem finish_receiving {s : Locks} {i k : Nat} (hik : i ≠ k) (hw : s.pc i = .waiting)
    (hk : s.pc k = .receiving) :
    ∃ s', s.step (.received k) = some s' ∧ s'.pc i = .waiting ∧ s'.lock = none := by
  refine ⟨{ s with lock := none, pc := s.at k .outside }, ?_, ?_, rfl⟩
  · simp only [Locks.step, hk, if_true]
  · simp only [Locks.at, if_neg hik, hw]

/-- The lock is held by a thread that is not in the exchange, so nobody gives it back. -/
def Locks.Lost (k i : Nat) (s : Locks) : Prop :=
  s.lock = some k ∧ (∀ j, s.pc j = .outside ∨ s.pc j = .waiting) ∧ s.pc i = .waiting

theorem lost_step {k i : Nat} {s s' : Locks} {e : Ev} (h : s.Lost k i)
    (hs : s.step e = some s') : s'.Lost k i := by
  obtain ⟨hl, hp, hw⟩ := h
  cases e with
  | call j =>
    simp only [Locks.step] at hs
    split at hs
    · rename_i hj
      split at hs
      · cases hs
        have hij : i ≠ j := fun e => by subst e; rw [hw] at hj; cases hj
        refine ⟨hl, fun x => ?_, ?_⟩
        · simp only [Locks.at]
          split
          · exact .inr rfl
          · exact hp x
        · simp only [Locks.at, if_neg hij]
          exact hw
      · cases hs
        exact ⟨hl, hp, hw⟩
    · cases hs
  | lock j =>
    simp only [Locks.step] at hs
    split at hs
    · rename_i hj
      rw [hl] at hj
      cases hj.2
    · cases hs
  | sent j =>
    simp only [Locks.step] at hs
    split at hs
    · rename_i hj
      rcases hp j with h | h <;> rw [h] at hj <;> cases hj
    · cases hs
  | sendFails j =>
    simp only [Locks.step] at hs
    split at hs
    · rename_i hj
      rcases hp j with h | h <;> rw [h] at hj <;> cases hj
    · cases hs
  | received j =>
    simp only [Locks.step] at hs
    split at hs
    · rename_i hj
      rcases hp j with h | h <;> rw [h] at hj <;> cases hj
    · cases hs
  | recvFails j =>
    simp only [Locks.step] at hs
    split at hs
    · rename_i hj
      rcases hp j with h | h <;> rw [h] at hj <;> cases hj
    · cases hs

theorem lost_run {k i : Nat} {es : List Ev} : ∀ {s s' : Locks}, s.Lost k i →
    s.run es = some s' → s'.Lost k i := by
  induction es with
  | nil =>
    intro s s' h hs
    simp only [Locks.run] at hs
    cases hs
    exact h
  | cons e es ih =>
    intro s s' h hs
    simp only [Locks.run] at hs
    cases h1 : s.step e with
    | none => rw [h1] at hs; cases hs
    | some s1 =>
      rw [h1] at hs
      exact ih (lost_step h h1) hs

theorem run_append {es fs : List Ev} : ∀ {s : Locks},
    s.run (es ++ fs) = (s.run es).bind fun s' => s'.run fs := by
  induction es with
  | nil => intro s; rfl
  | cons e es ih =>
    intro s
    simp only [List.cons_append, Locks.run]
    cases s.step e with
    | none => rfl
    | some s1 => exact ih

end Verif.Priv
