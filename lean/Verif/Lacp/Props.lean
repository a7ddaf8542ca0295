import Verif.Lacp.Support
import Mathlib.Data.List.Induction

set_option linter.unusedSimpArgs false
set_option linter.unusedVariables false

/-!
# Properties of bond sockets (C39, C40, C63)
-/

namespace Verif.Lacp

/-! ## C39: the map from sockets to interfaces -/

theorem after_snoc (evs : List Ev) (e : Ev) : after (evs ++ [e]) = step (after evs) e := by
  simp [after, List.foldl_append]

theorem findFd_some {m : List (Int × Int)} {fd : Int} {e : Int × Int} (h : findFd m fd = some e) : e ∈ m ∧ e.1 = fd := by
  refine ⟨List.mem_of_find?_eq_some h, ?_⟩
  have := List.find?_some h
  simpa using this

theorem findFd_none {m : List (Int × Int)} {fd : Int} (h : findFd m fd = none) : ∀ e ∈ m, e.1 ≠ fd := by
  intro e he
  have := List.find?_eq_none.1 h e he
  simpa using this

/-- What an observation does to the map: the map from which it starts, and whether
an entry is added. -/
theorem onTx_cases (m : List (Int × Int)) (fd i : Int) :
    ∃ m0, (m0 = m ∨ m0 = []) ∧ (m0 = m → ∀ e ∈ m, e.1 = fd → ∃ e' ∈ m, e'.2 = i ∧ e' = (findFd m fd).getD e') ∧
      (onTx m fd i = m0 ∧ ((∃ e ∈ m0, e.2 = i) ∨ 16 ≤ m0.length) ∨
       onTx m fd i = m0 ++ [(fd, i)] ∧ (∀ e ∈ m0, e.2 ≠ i) ∧ m0.length < 16) := by
  have key : ∀ m0 : List (Int × Int),
      ((if m0.findIdx (fun e => decide (e.2 = i)) < m0.length ∨ m0.findIdx (fun e => decide (e.2 = i)) ≥ maxIfs then m0 else m0 ++ [(fd, i)]) = m0 ∧
          ((∃ e ∈ m0, e.2 = i) ∨ 16 ≤ m0.length)) ∨
      ((if m0.findIdx (fun e => decide (e.2 = i)) < m0.length ∨ m0.findIdx (fun e => decide (e.2 = i)) ≥ maxIfs then m0 else m0 ++ [(fd, i)]) = m0 ++ [(fd, i)] ∧
          (∀ e ∈ m0, e.2 ≠ i) ∧ m0.length < 16) := by
    intro m0
    by_cases h1 : m0.findIdx (fun e => decide (e.2 = i)) < m0.length
    · left
      rw [if_pos (Or.inl h1)]
      refine ⟨rfl, Or.inl ?_⟩
      rw [List.findIdx_lt_length] at h1
      simpa using h1
    · have he : m0.findIdx (fun e => decide (e.2 = i)) = m0.length := by
        have := List.findIdx_le_length (p := fun e : Int × Int => decide (e.2 = i)) (xs := m0); omega
      rw [he]
      by_cases h2 : m0.length ≥ maxIfs
      · left; rw [if_pos (Or.inr h2)]; exact ⟨rfl, Or.inr h2⟩
      · right
        rw [if_neg (by rintro (h | h) <;> omega)]
        refine ⟨rfl, ?_, by unfold maxIfs at h2; omega⟩
        intro e hm hei
        exact h1 (List.findIdx_lt_length.2 ⟨e, hm, by simpa using hei⟩)
  unfold onTx
  cases hf : findFd m fd with
  | none =>
    refine ⟨m, Or.inl rfl, ?_, key m⟩
    intro _ e he hfd
    exact absurd hfd (findFd_none hf e he)
  | some e =>
    simp only
    obtain ⟨hm, hfd⟩ := findFd_some hf
    by_cases hi : e.2 ≠ i
    · rw [if_pos hi]
      refine ⟨[], Or.inr rfl, ?_, key []⟩
      intro h0
      rw [← h0] at hm
      simp at hm
    · rw [if_neg hi]
      refine ⟨m, Or.inl rfl, ?_, key m⟩
      intro _ _ _ _
      exact ⟨e, hm, by simpa using hi, rfl⟩

/-- After any history the map fits its array and no two entries share a socket or an
interface. -/
theorem C39_invariant (evs : List Ev) :
    (after evs).length ≤ 16 ∧ ((after evs).map Prod.fst).Nodup ∧ ((after evs).map Prod.snd).Nodup := by
  induction evs using List.reverseRecOn with
  | nil => simp [after]
  | append_singleton evs e ih =>
    rw [after_snoc]
    cases e with
    | clear => simp [step]
    | tx fd i =>
      simp only [step]
      generalize after evs = m at ih
      obtain ⟨m0, h0, h1, h2⟩ := onTx_cases m fd i
      have hg : m0.length ≤ 16 ∧ (m0.map Prod.fst).Nodup ∧ (m0.map Prod.snd).Nodup := by
        rcases h0 with rfl | rfl
        · exact ih
        · simp
      rcases h2 with ⟨e, -⟩ | ⟨e, h3, h4⟩
      · rw [e]; exact hg
      · rw [e]
        refine ⟨by simp; omega, ?_, ?_⟩
        · rw [List.map_append, List.nodup_append]
          refine ⟨hg.2.1, by simp, ?_⟩
          intro a ha b hb
          simp only [List.map_cons, List.map_nil, List.mem_singleton] at hb
          subst hb
          rintro rfl
          obtain ⟨e', he', rfl⟩ := List.mem_map.1 ha
          rcases h0 with rfl | rfl
          · obtain ⟨e2, h5, h6, -⟩ := h1 rfl e' he' rfl
            exact h3 e2 h5 h6
          · simp at he'
        · rw [List.map_append, List.nodup_append]
          refine ⟨hg.2.2, by simp, ?_⟩
          intro a ha b hb
          simp only [List.map_cons, List.map_nil, List.mem_singleton] at hb
          subst hb
          rintro rfl
          obtain ⟨e', he', h⟩ := List.mem_map.1 ha
          exact h3 e' he' h

/-- The interface on which a socket was last seen to transmit. -/
def LastSeen (evs : List Ev) (fd i : Int) : Prop :=
  ∃ before later, evs = before ++ Ev.tx fd i :: later ∧ ∀ j, Ev.tx fd j ∉ later

theorem lastSeen_snoc_same (evs : List Ev) (fd i : Int) : LastSeen (evs ++ [.tx fd i]) fd i := ⟨evs, [], rfl, by simp⟩

theorem lastSeen_snoc_other {evs : List Ev} {fd i : Int} {e : Ev} (h : LastSeen evs fd i) (he : ∀ j, e ≠ .tx fd j) :
    LastSeen (evs ++ [e]) fd i := by
  obtain ⟨b, l, rfl, hl⟩ := h
  refine ⟨b, l ++ [e], by simp, ?_⟩
  intro j hj
  rcases List.mem_append.1 hj with h | h
  · exact hl j h
  · exact he j (List.mem_singleton.1 h).symm

/-- Every entry of the map is the interface on which the socket was last seen. -/
theorem C39_entries_current (evs : List Ev) (fd i : Int) (h : (fd, i) ∈ after evs) : LastSeen evs fd i := by
  induction evs using List.reverseRecOn generalizing fd i with
  | nil => simp [after] at h
  | append_singleton evs e ih =>
    rw [after_snoc] at h
    cases e with
    | clear => simp [step] at h
    | tx fd' i' =>
      have hn := (C39_invariant evs).2.1
      simp only [step] at h
      obtain ⟨m0, h0, h1, h2⟩ := onTx_cases (after evs) fd' i'
      have old : (fd, i) ∈ m0 → LastSeen (evs ++ [.tx fd' i']) fd i := by
        intro hm
        rcases h0 with rfl | rfl
        · by_cases hfd : fd = fd'
          · subst hfd
            obtain ⟨e2, h5, h6, h7⟩ := h1 rfl (fd, i) hm rfl
            have hf : findFd (after evs) fd = some (fd, i) := by
              cases hf : findFd (after evs) fd with
              | none => exact absurd rfl (findFd_none hf _ hm)
              | some e3 =>
                obtain ⟨hm3, hfd3⟩ := findFd_some hf
                rw [List.inj_on_of_nodup_map hn hm3 hm hfd3]
            rw [hf] at h7
            simp only [Option.getD_some] at h7
            have : i = i' := by rw [← h6, h7]
            subst this
            exact lastSeen_snoc_same _ _ _
          · exact lastSeen_snoc_other (ih fd i hm) (by intro j hj; simp only [Ev.tx.injEq] at hj; exact hfd hj.1.symm)
        · simp at hm
      rcases h2 with ⟨e, -⟩ | ⟨e, -, -⟩
      · rw [e] at h; exact old h
      · rw [e] at h
        rcases List.mem_append.1 h with h | h
        · exact old h
        · simp only [List.mem_singleton, Prod.mk.injEq] at h
          obtain ⟨rfl, rfl⟩ := h
          exact lastSeen_snoc_same _ _ _

/-- An observed interface is in the map afterwards, unless the map is full of
others. -/
theorem C39_learns (evs : List Ev) (fd i : Int) (hi : (∃ e ∈ after evs, e.2 = i) ∨ (after evs).length < 16) :
    ∃ e ∈ after (evs ++ [.tx fd i]), e.2 = i := by
  rw [after_snoc]
  simp only [step]
  obtain ⟨m0, h0, -, h2⟩ := onTx_cases (after evs) fd i
  rcases h2 with ⟨e, h | h⟩ | ⟨e, -, -⟩
  · rw [e]; exact h
  · rw [e]
    rcases h0 with rfl | rfl
    · rcases hi with hi | hi
      · exact hi
      · omega
    · simp at h
  · rw [e]; exact ⟨(fd, i), by simp, rfl⟩

theorem foldl_choose (m : List (Int × Int)) (i : Int) : ∀ fd0, 
    let r := m.foldl (fun fd e => if e.2 = i then e.1 else fd) fd0
    ((∀ e ∈ m, e.2 ≠ i) → r = fd0) ∧ ((∃ e ∈ m, e.2 = i) → (r, i) ∈ m) := by
  induction m with
  | nil => intro fd0; simp
  | cons e m ih =>
    intro fd0
    simp only [List.foldl_cons]
    obtain ⟨h1, h2⟩ := ih (if e.2 = i then e.1 else fd0)
    constructor
    · intro h
      rw [h1 (fun e' he' => h e' (by simp [he'])), if_neg (h e (by simp))]
    · rintro ⟨e', he', hi⟩
      by_cases hm : ∃ e ∈ m, e.2 = i
      · exact List.mem_cons_of_mem _ (h2 hm)
      · have hm' : ∀ e ∈ m, e.2 ≠ i := by intro x hx hxi; exact hm ⟨x, hx, hxi⟩
        rcases List.mem_cons.1 he' with rfl | he'
        · rw [h1 hm', if_pos hi, ← hi]; simp
        · exact absurd hi (hm' e' he')

/-- A message to be sent on an interface goes over the socket last seen to transmit
there; if none is known, over the event socket. -/
theorem C39_choice (evs : List Ev) (eventSock i : Int) (hi : 0 < i) (hfd : ∀ fd j, Ev.tx fd j ∈ evs → 0 < fd) :
    ((∃ e ∈ after evs, e.2 = i) → LastSeen evs (chooseSock (after evs) eventSock i true) i) ∧
    ((∀ e ∈ after evs, e.2 ≠ i) → chooseSock (after evs) eventSock i true = eventSock) ∧
    chooseSock (after evs) eventSock i false = eventSock := by
  obtain ⟨h1, h2⟩ := foldl_choose (after evs) i 0
  refine ⟨?_, ?_, ?_⟩
  · intro h
    have hm := h2 h
    have hl := C39_entries_current evs _ _ hm
    obtain ⟨b, l, e, -⟩ := hl
    have hpos := hfd _ _ (by rw [e]; exact List.mem_append_right _ (List.mem_cons_self))
    simp only [chooseSock]
    rw [if_pos (show i > 0 ∧ True from ⟨hi, trivial⟩), if_neg (by omega)]
    exact C39_entries_current evs _ _ hm
  · intro h
    simp only [chooseSock]
    rw [if_pos (show i > 0 ∧ True from ⟨hi, trivial⟩), h1 h]
    simp
  · simp [chooseSock]

example : after [.tx 5 2, .tx 6 2, .tx 7 3, .tx 5 2] = [(5, 2), (7, 3)] := by decide
example : after [.tx 5 2, .tx 7 3, .tx 5 3] = [(5, 3)] := by decide
example : chooseSock (after [.tx 5 2, .tx 7 3]) 1 3 true = 7 := by decide

/-! ## C40: iterating over a mask -/

/-- C40, full statement: the indices visited are those of the set bits, in
increasing order. -/
def C40_statement : Prop :=
  ∀ m : BitVec 64, visit m = some ((List.range 64).filter (fun i => m.getLsbD i))

/-- Exactly what is visited: all set bits if none is above 31; the set bits up to 31
if bit 31 is set; without bit 31 and with a higher bit, the shift is undefined
(missing: masks with bits above 31). -/
theorem C40_partial (m : BitVec 64) :
    ((∀ j, 32 ≤ j → m.getLsbD j = false) → visit m = some ((List.range 64).filter (fun i => m.getLsbD i))) ∧
    (m.getLsbD 31 = true → visit m = some (((List.range 64).filter (fun i => m.getLsbD i)).filter (· < 32))) ∧
    (m.getLsbD 31 = false → (∃ j, 32 ≤ j ∧ m.getLsbD j = true) → visit m = none) :=
  visitN_spec 64 m (bits_length m)

/-- With all sockets of a bond of eight interfaces, the ninth's are never visited. -/
theorem C40_violated : ¬ C40_statement := by
  intro h
  have h1 := h 0x180000000#64
  rw [(C40_partial 0x180000000#64).2.1 (by decide)] at h1
  revert h1
  decide

/-- More turns make no difference. -/
theorem C40_ends (m : BitVec 64) (n : Nat) (hn : 64 ≤ n) : visitN n m = visit m := by
  have h1 := visitN_spec n m (Nat.le_trans (bits_length m) hn)
  have h2 := visitN_spec 64 m (bits_length m)
  simp only [visit]
  cases h31 : m.getLsbD 31 with
  | true => rw [h1.2.1 h31, h2.2.1 h31]
  | false =>
    by_cases hx : ∃ j, 32 ≤ j ∧ m.getLsbD j = true
    · rw [h1.2.2 h31 hx, h2.2.2 h31 hx]
    · have : ∀ j, 32 ≤ j → m.getLsbD j = false := by
        intro j hj
        cases hb : m.getLsbD j
        · rfl
        · exact absurd ⟨j, hj, hb⟩ hx
      rw [h1.1 this, h2.1 this]

example : visit 0x50#64 = some [4, 6] := by decide

/-! ## C63: the pool of sockets -/

/-- C63, full statement: for every bond, the pool made holds exactly the sockets
that could be created. -/
def C63_statement : Prop :=
  ∀ outcomes : List (Option Int), outcomes.length ≤ 64 → ∃ p, create outcomes = some p ∧
    ∀ j fd, (p.mask.getLsbD j = true ∧ p.socks[j]? = some fd) ↔ outcomes[j]? = some (some fd)

/-- With up to 31 sockets the pool holds exactly those created, and a socket is found
in it exactly if it was created (missing: bonds of eight interfaces or more). -/
theorem C63_partial (outcomes : List (Option Int)) (h : outcomes.length ≤ 31) : ∃ p, create outcomes = some p ∧
    (∀ j fd, (p.mask.getLsbD j = true ∧ p.socks[j]? = some fd) ↔ outcomes[j]? = some (some fd)) ∧
    (∀ fd, ∃ r, indexOf p fd = some r ∧ (r = none ↔ some fd ∉ outcomes) ∧ ∀ j, r = some j → outcomes[j]? = some (some fd)) := by
  obtain ⟨p, h1, h2, h3, h4, h5⟩ := createFrom_spec outcomes ⟨List.replicate maxSocks 0, 0, []⟩ 0 (by omega) (by simp [maxSocks]) (by simp)
  simp only [Nat.not_lt_zero, if_false, Nat.sub_zero, Nat.zero_le, if_true] at h4 h5
  have hpool : ∀ j fd, (p.mask.getLsbD j = true ∧ p.socks[j]? = some fd) ↔ outcomes[j]? = some (some fd) := by
    intro j fd
    rw [h4 j]
    cases ho : outcomes[j]? with
    | none => simp
    | some o =>
      have hj : j < 64 := by have := (List.getElem?_eq_some_iff.1 ho).1; omega
      rw [h5 j hj, ho]
      cases o with
      | none => simp
      | some f => simp
  have hhigh : ∀ j, 32 ≤ j → p.mask.getLsbD j = false := by
    intro j hj
    rw [h4 j, List.getElem?_eq_none (by omega)]; rfl
  refine ⟨p, ?_, hpool, ?_⟩
  · simp only [create]; rw [if_neg (by unfold maxSocks; omega)]; exact h1
  · intro fd
    refine ⟨_, by simp only [indexOf, (C40_partial p.mask).1 hhigh, Option.map_some]; rfl, ?_, ?_⟩
    · rw [List.find?_eq_none]
      constructor
      · intro hn hm
        obtain ⟨j, hj, hjf⟩ := List.mem_iff_getElem.1 hm
        have ho : outcomes[j]? = some (some fd) := by rw [List.getElem?_eq_some_iff]; exact ⟨hj, hjf⟩
        obtain ⟨hb, hs⟩ := (hpool j fd).2 ho
        exact hn j (mem_bits.2 hb) (by simpa using hs)
      · intro hn j hj hs
        simp only [decide_eq_true_eq] at hs
        have := (hpool j fd).1 ⟨mem_bits.1 hj, hs⟩
        exact hn (List.mem_of_getElem? this)
    · intro j hj
      have hs := List.find?_some hj
      simp only [decide_eq_true_eq] at hs
      exact (hpool j fd).1 ⟨mem_bits.1 (List.mem_of_find?_eq_some hj), hs⟩

/-- Invalidating one of the first 31 sockets leaves the others. -/
theorem C63_invalidate (p : Pool) (i : Nat) (hi : i < 31) : ∃ p', invalidate p i = some p' ∧
    (∀ j, p'.mask.getLsbD j = true ↔ p.mask.getLsbD j = true ∧ j ≠ i) ∧ ∀ j, j ≠ i → p'.socks[j]? = p.socks[j]? := by
  obtain ⟨m', hm'⟩ := clear_some (m := p.mask) (show i < 32 by omega)
  refine ⟨_, by simp only [invalidate, hm', Option.map_some]; rfl, ?_, ?_⟩
  · intro j
    simp only
    rw [(clear_bit hm' j).2]
    by_cases hj : j < 32
    · rw [if_pos hj]; simp
    · rw [if_neg hj]
      have h1 : i ≠ 31 := by omega
      have h2 : j ≠ i := by omega
      simp [h1, h2]
  · intro j hj
    simp only
    rw [List.getElem?_set_ne (Ne.symm hj)]

/-- A bond of eight interfaces: the 32nd socket marks all 64 as valid. -/
theorem C63_violated : ¬ C63_statement := by
  intro h
  obtain ⟨p, h1, h2⟩ := h (List.replicate 32 (some 5)) (by decide)
  have h3 : ((create (List.replicate 32 (some 5))).map fun p => p.mask.getLsbD 40 && decide (p.socks[40]? = some 0)) = some true := by
    decide +kernel
  rw [h1] at h3
  simp only [Option.map_some, Option.some.injEq, Bool.and_eq_true, decide_eq_true_eq] at h3
  have := (h2 40 0).1 h3
  revert this
  decide

/-- With nine interfaces creation is undefined as soon as the 33rd socket exists. -/
theorem C63_undefined : create (List.replicate 36 (some 5)) = none := by decide +kernel

example : ((create [some 5, none, some 7]).map fun p => p.mask) = some 0b101#64 := by decide +kernel

end Verif.Lacp
