import Verif.Evtmon.Spec
import Mathlib.Tactic.SplitIfs
import Mathlib.Tactic.ByContra

set_option linter.unusedSimpArgs false
set_option linter.unusedVariables false

/-! # Lemmas about the monitors -/

namespace Verif.Evtmon

variable {R : Type}

/-- The samples not yet sent, as they are in memory. -/
def patched (st : Option R) (pend : List R) : List R :=
  match st with
  | none => pend
  | some r => r :: pend.tail

/-- One sample added to those kept: those kept now, and the messages due. -/
def idealStep (n src : Nat) (pend : List R) (p : Nat) (r : R) : List R × List (Msg R) :=
  if p ≠ src ∧ pend ≠ [] then ([r], [⟨src, pend⟩])
  else if pend.length + 1 = n then ([], [⟨p, pend ++ [r]⟩])
  else (pend ++ [r], [])

/-- The record that stands in place of the first, after one sample. -/
def staleStep (n src : Nat) (st : Option R) (pend : List R) (p : Nat) : Option R :=
  if p ≠ src ∧ pend ≠ [] then (patched st pend).head?
  else if pend.length + 1 = n then none
  else st

/-- All messages due, and what is kept. -/
def ideal (n : Nat) : Nat → List R → List (Nat × R) → List (Msg R) × Nat × List R
  | src, pend, [] => ([], src, pend)
  | src, pend, (p, r) :: xs =>
    let (pend', out) := idealStep n src pend p r
    let (ms, rest) := ideal n p pend' xs
    (out ++ ms, rest)

theorem idealStep_lt {n src p : Nat} {pend : List R} {r : R} (h : pend.length < n) :
    (idealStep n src pend p r).1.length < n := by
  unfold idealStep
  split_ifs with h1 h2
  · have : pend.length ≠ 0 := fun e => h1.2 (List.length_eq_zero_iff.mp e)
    simp; omega
  · simp; omega
  · simp; omega

theorem ideal_reports (n : Nat) (xs : List (Nat × R)) : ∀ (src : Nat) (pend : List R), pend.length < n →
    Reports n (pend.map (fun r => (src, r)) ++ xs) (ideal n src pend xs).1
      ((ideal n src pend xs).2.2.map fun r => ((ideal n src pend xs).2.1, r)) := by
  induction xs with
  | nil =>
    intro src pend h
    simp only [ideal, List.append_nil]
    exact .rest _ (by simpa using h) src (by simp)
  | cons x xs ih =>
    obtain ⟨p, r⟩ := x
    intro src pend h
    have hi := ih p _ (idealStep_lt (src := src) (p := p) (r := r) h)
    have hlt := idealStep_lt (src := src) (p := p) (r := r) h
    simp only [ideal]
    revert hi hlt
    unfold idealStep
    split_ifs with h1 h2
    · intro hi hlt
      simp only [List.map_cons, List.map_nil, List.cons_append, List.nil_append] at hi ⊢
      exact .change ⟨src, pend⟩ (p, r) xs _ _ h1.2 h h1.1 hi
    · intro hi hlt
      simp only [List.map_nil, List.nil_append, List.cons_append] at hi ⊢
      have hs : pend.map (fun r => (src, r)) = pend.map fun r => (p, r) := by
        by_cases hp : pend = []
        · simp [hp]
        · have : p = src := by by_contra hc; exact h1 ⟨hc, hp⟩
          rw [this]
      have := Reports.full (n := n) ⟨p, pend ++ [r]⟩ xs _ _ (by simp; omega) hi
      simpa [Msg.samples, hs] using this
    · intro hi hlt
      have hs : pend.map (fun r => (src, r)) = pend.map fun r => (p, r) := by
        by_cases hp : pend = []
        · simp [hp]
        · have : p = src := by by_contra hc; exact h1 ⟨hc, hp⟩
          rw [this]
      simpa [hs] using hi

/-- The state and the memory of a monitor hold the samples kept. -/
structure Holds (n base : Nat) (m : Mem R) (s : State) (src : Nat) (st : Option R) (pend : List R) : Prop where
  source : s.source = src
  num : s.num = pend.length
  small : pend.length < n
  none : pend = [] → st = .none
  mem : ∀ i, i < pend.length → some (m (base + i)) = (patched st pend)[i]?

theorem patched_length {st : Option R} {pend : List R} (h : pend = [] → st = none) :
    (patched st pend).length = pend.length := by
  unfold patched
  cases st with
  | none => rfl
  | some r => cases pend with
    | nil => cases h rfl
    | cons a l => simp

theorem range_map_eq {m : Mem R} {base : Nat} {l : List R} (h : ∀ i, i < l.length → some (m (base + i)) = l[i]?) :
    (List.range l.length).map (fun i => m (base + i)) = l := by
  apply List.ext_getElem?
  intro i
  by_cases hi : i < l.length
  · rw [← h i hi]; simp [hi]
  · simp [List.getElem?_eq_none (Nat.le_of_not_lt hi), Nat.le_of_not_lt hi]

theorem stale_step {n src p : Nat} {st : Option R} {pend : List R} {r : R} (h : pend.length < n)
    (hn : pend = [] → st = none) (ms : List (Msg R)) :
    stale n st ((idealStep n src pend p r).2 ++ ms) =
      (if p ≠ src ∧ pend ≠ [] then [⟨src, patched st pend⟩]
        else if pend.length + 1 = n then [⟨p, patched st (pend ++ [r])⟩] else []) ++ stale n (staleStep n src st pend p) ms := by
  unfold idealStep staleStep
  split_ifs with h1 h2
  · cases st with
    | none =>
      simp only [List.cons_append, List.nil_append, stale, patched]
      rw [if_neg (Nat.ne_of_lt h)]
    | some q =>
      simp only [List.cons_append, List.nil_append, stale, patched]
      rw [if_neg (Nat.ne_of_lt h)]; rfl
  · cases st with
    | none => simp [stale, patched, h2]
    | some q => simp [stale, patched, h2]
  · simp

theorem patched_snoc {st : Option R} {pend : List R} {r : R} (hn : pend = [] → st = none) :
    patched st (pend ++ [r]) = patched st pend ++ [r] := by
  cases st with
  | none => rfl
  | some q => cases pend with
    | nil => cases hn rfl
    | cons a l => simp [patched]

/-- One sample. -/
theorem monitor_sample {c : Config} (hl : c.logging = true) (ht : c.tlv = true) {n base size : Nat} (hn : c.perTlv = n)
    (hb : base + n ≤ size) (label : Nat → Nat) {m : Mem R} {s : State} {src : Nat} {st : Option R} {pend : List R}
    (H : Holds n base m s src st pend) (h0 : s.skipCount = 0) (p : Nat) (fill : R → Option R) (r : R)
    (hf : fill (m (base + s.num)) = some r) (hk : 0 ≤ c.skip) :
    ∃ m' s', monitor c base size label p fill m s =
        some (m', s', (if p ≠ src ∧ pend ≠ [] then [⟨label src, patched st pend⟩]
          else if pend.length + 1 = n then [⟨label p, patched st (pend ++ [r])⟩] else [])) ∧
      Holds n base m' s' p (staleStep n src st pend p) (idealStep n src pend p r).1 ∧
      s'.skipCount = (if c.skip = 0 then 0 else 1) ∧ ∀ j, (j < base ∨ base + n ≤ j) → m' j = m j := by
  obtain ⟨hsrc, hnum, hsmall, hnone, hmem⟩ := H
  have hi : base + s.num < size := by omega
  have hfl : (List.range pend.length).map (fun i => m (base + i)) = patched st pend := by
    have := range_map_eq (m := m) (base := base) (l := patched st pend) (by rw [patched_length hnone]; exact hmem)
    rwa [patched_length hnone] at this
  have hsnoc : ∀ i, i < pend.length + 1 →
      some (put m (base + s.num) r (base + i)) = (patched st pend ++ [r])[i]? := by
    intro i hi
    unfold put
    by_cases hin : i = pend.length
    · rw [if_pos (by omega), hin, List.getElem?_append_right (by rw [patched_length hnone]; exact Nat.le_refl _)]
      simp [patched_length hnone]
    · rw [if_neg (by omega), hmem i (by omega), List.getElem?_append_left (by rw [patched_length hnone]; omega)]
  have hout : ∀ j, (j < base ∨ base + n ≤ j) → put m (base + s.num) r j = m j := by
    intro j hj
    unfold put
    rw [if_neg (by omega)]
  have hadv : ∀ k q, advance c ⟨0, k, q⟩ = some ⟨if c.skip = 0 then 0 else 1, k, q⟩ := by
    intro k q
    unfold advance
    by_cases hs0 : c.skip = 0
    · simp [hs0]
    · rw [if_neg (Ne.symm hs0), if_neg hs0]; simp
  obtain ⟨sk, k, q⟩ := s
  simp only at hsrc hnum h0 hf hi hsnoc hout
  subst hsrc hnum h0
  unfold staleStep idealStep
  by_cases h1 : p ≠ q ∧ pend ≠ []
  · have hp0 : pend.length ≠ 0 := fun e => h1.2 (List.length_eq_zero_iff.mp e)
    have hd : ∃ q, (patched st pend).head? = some q ∧ (patched st pend)[0]? = some q := by
      have : (patched st pend).length ≠ 0 := by rw [patched_length hnone]; exact hp0
      cases hpp : patched st pend with
      | nil => rw [hpp] at this; simp at this
      | cons q l => exact ⟨q, by simp, by simp⟩
    obtain ⟨a, ha, ha0⟩ := hd
    refine ⟨put m (base + pend.length) r, ⟨if c.skip = 0 then 0 else 1, 1, p⟩, ?_, ?_, rfl, hout⟩
    · have e1 : changeSource c base label p m ⟨0, pend.length, q⟩ = some (⟨0, 0, p⟩, [⟨label q, patched st pend⟩]) := by
        unfold changeSource
        rw [if_pos h1.1, if_pos hp0]
        unfold flush
        rw [if_pos ht, if_pos (by simp; omega), hfl]
      unfold monitor
      rw [if_pos hl, if_pos rfl]
      unfold sample
      rw [e1]
      dsimp only
      rw [if_pos hi, hf]
      dsimp only
      rw [if_neg (by push_cast; omega)]
      dsimp only
      rw [hadv, if_pos h1]
    · rw [if_pos h1, if_pos h1]
      refine ⟨rfl, rfl, by simp; omega, by simp, ?_⟩
      intro i hi'
      have : i = 0 := by simp at hi'; exact hi'
      subst this
      rw [ha]
      simp only [patched, List.tail_cons, List.getElem?_cons_zero]
      unfold put
      rw [if_neg (by omega), hmem 0 (by omega), ha0]
  · have hps : pend ≠ [] → p = q := fun hp => by by_contra hc; exact h1 ⟨hc, hp⟩
    have e1 : changeSource c base label p m ⟨0, pend.length, q⟩ = some (⟨0, pend.length, p⟩, []) := by
      unfold changeSource
      by_cases hp : p = q
      · rw [if_neg (by simpa using hp), hp]
      · have : pend = [] := by by_contra hc; exact hp (hps hc)
        rw [if_pos hp, if_neg (by rw [this]; simp)]
    have hm : monitor c base size label p fill m ⟨0, pend.length, q⟩ =
        (match (if ((pend.length + 1 : Nat) : Int) = c.perTlv then
            match flush c base (label p) (put m (base + pend.length) r) ⟨0, pend.length + 1, p⟩ with
            | some (s, out₂) => some (put m (base + pend.length) r, { s with num := 0 }, [] ++ out₂)
            | none => none
          else some (put m (base + pend.length) r, ⟨0, pend.length + 1, p⟩, [])) with
          | none => none
          | some (m, s, out) => match advance c s with
            | none => none
            | some s => some (m, s, out)) := by
      unfold monitor
      rw [if_pos hl, if_pos rfl]
      unfold sample
      rw [e1]
      dsimp only
      rw [if_pos hi, hf]
      rfl
    rw [hm, if_neg h1, if_neg h1, if_neg h1]
    by_cases h2 : pend.length + 1 = n
    · refine ⟨put m (base + pend.length) r, ⟨if c.skip = 0 then 0 else 1, 0, p⟩, ?_, ?_, rfl, hout⟩
      · have e2 : flush c base (label p) (put m (base + pend.length) r) ⟨0, pend.length + 1, p⟩ =
            some (⟨0, 0, p⟩, [⟨label p, patched st (pend ++ [r])⟩]) := by
          unfold flush
          rw [if_pos ht, if_pos (by simp; omega)]
          have := range_map_eq (m := put m (base + pend.length) r) (base := base) (l := patched st pend ++ [r])
            (by simpa [patched_length hnone] using hsnoc)
          simp only [List.length_append, patched_length hnone, List.length_singleton] at this
          dsimp only
          rw [this, patched_snoc hnone]
        rw [if_pos (by push_cast; omega), e2]
        dsimp only
        rw [hadv, if_pos h2]
        rfl
      · rw [if_pos h2, if_pos h2]
        exact ⟨rfl, rfl, by simp; omega, by simp, by simp⟩
    · refine ⟨put m (base + pend.length) r, ⟨if c.skip = 0 then 0 else 1, pend.length + 1, p⟩, ?_, ?_, rfl, hout⟩
      · rw [if_neg (by push_cast; omega)]
        dsimp only
        rw [hadv, if_neg h2]
      · rw [if_neg h2, if_neg h2]
        refine ⟨rfl, by simp, by simp; omega, by simp, ?_⟩
        intro i hi'
        rw [patched_snoc hnone]
        exact hsnoc i (by simpa using hi')

/-- An event that is skipped. -/
theorem monitor_skip {c : Config} (hl : c.logging = true) {base size : Nat} (label : Nat → Nat) (m : Mem R) (s : State)
    (h0 : s.skipCount ≠ 0) (hk : s.skipCount ≤ c.skip) (hc : c.skip < 32768) (p : Nat) (fill : R → Option R) :
    monitor c base size label p fill m s =
      some (m, { s with skipCount := if s.skipCount = c.skip then 0 else s.skipCount + 1 }, []) := by
  unfold monitor advance
  rw [if_pos hl, if_neg h0]
  dsimp only
  by_cases h : s.skipCount = c.skip
  · rw [if_pos h, if_pos h]
  · rw [if_neg h, if_neg h, if_pos (by omega)]

theorem sampled_cons {A B : Type} (k i : Nat) (e : A) (l : List A) (f : A → B) :
    (((e :: l).zipIdx i).filter fun x => x.2 % (k + 1) = 0).map (fun x => f x.1) =
      (if i % (k + 1) = 0 then [f e] else []) ++ ((l.zipIdx (i + 1)).filter fun x => x.2 % (k + 1) = 0).map fun x => f x.1 := by
  rw [List.zipIdx_cons, List.filter_cons]
  by_cases h : i % (k + 1) = 0
  · simp [h]
  · simp [h]

theorem next_phase {k i : Nat} : (i + 1) % (k + 1) = if i % (k + 1) = k then 0 else i % (k + 1) + 1 := by
  have h := Nat.mod_lt i (show 0 < k + 1 by omega)
  have e := Nat.mod_add_div i (k + 1)
  split_ifs with h1
  · have : i + 1 = (k + 1) * (i / (k + 1) + 1) := by rw [Nat.mul_add]; omega
    rw [this, Nat.mul_mod_right]
  · have : i + 1 = (i % (k + 1) + 1) + (k + 1) * (i / (k + 1)) := by omega
    rw [this, Nat.add_mul_mod_self_left, Nat.mod_eq_of_lt (by omega)]

/-- The message with another identity. -/
def Msg.relabel (label : Nat → Nat) (m : Msg R) : Msg R := ⟨label m.source, m.records⟩

theorem step_out {n src p : Nat} {st : Option R} {pend : List R} {r : R} (h : pend.length < n)
    (hn : pend = [] → st = none) (label : Nat → Nat) (ms : List (Msg R)) :
    (stale n st ((idealStep n src pend p r).2 ++ ms)).map (Msg.relabel label) =
      (if p ≠ src ∧ pend ≠ [] then [⟨label src, patched st pend⟩]
        else if pend.length + 1 = n then [⟨label p, patched st (pend ++ [r])⟩] else []) ++
      (stale n (staleStep n src st pend p) ms).map (Msg.relabel label) := by
  rw [stale_step h hn, List.map_append]
  congr 1
  split_ifs <;> simp [Msg.relabel]

/-- A history of calls. -/
theorem run_eq {E : Type} {c : Config} (hl : c.logging = true) (ht : c.tlv = true) {n k base size : Nat} (hn : c.perTlv = n)
    (hk : c.skip = k) (hk' : k < 32768) (hb : base + n ≤ size) (label : Nat → Nat) (par : E → Nat) (fill : E → R → Option R)
    (val : E → R) (evs : List E) (hg : ∀ e ∈ evs, ∀ old, fill e old = some (val e)) :
    ∀ (i : Nat) (m : Mem R) (s : State) (src : Nat) (st : Option R) (pend : List R), Holds n base m s src st pend →
      s.skipCount = (i % (k + 1) : Nat) →
      ∃ fin, runMonitor (fun e => paired (monitor c base size label (par e) (fill e))) evs (m, s) =
        some (fin, (stale n st (ideal n src pend
          (((evs.zipIdx i).filter fun x => x.2 % (k + 1) = 0).map fun x => (par x.1, val x.1))).1).map (Msg.relabel label)) := by
  induction evs with
  | nil =>
    intro i m s src st pend H hs
    exact ⟨(m, s), by cases st <;> simp [runMonitor, ideal, stale]⟩
  | cons e es ih =>
    intro i m s src st pend H hs
    have ih' := ih (fun x hx => hg x (List.mem_cons_of_mem _ hx)) (i + 1)
    have hmod := Nat.mod_lt i (show 0 < k + 1 by omega)
    rw [sampled_cons k i e es (fun e => (par e, val e))]
    by_cases h0 : i % (k + 1) = 0
    · obtain ⟨m', s', hm, H', hs', -⟩ := monitor_sample hl ht hn hb label H (by rw [hs, h0]; rfl) (par e) (fill e) (val e)
        (hg e (by simp) _) (by omega)
      obtain ⟨fin, hfin⟩ := ih' m' s' _ _ _ H' (by
        rw [hs', next_phase, h0, hk]
        by_cases hz : k = 0
        · simp [hz]
        · rw [if_neg (by omega), if_neg (by omega)]; rfl)
      refine ⟨fin, ?_⟩
      simp only [runMonitor, paired] at hfin ⊢
      rw [hm]
      dsimp only
      rw [hfin]
      dsimp only
      rw [if_pos h0]
      simp only [List.cons_append, List.nil_append, ideal]
      rw [step_out H.small H.none]
    · have hm := monitor_skip (c := c) hl (base := base) (size := size) label m s (by rw [hs]; omega) (by rw [hs, hk]; omega)
        (by omega) (par e) (fill e)
      obtain ⟨fin, hfin⟩ := ih' m { s with skipCount := if s.skipCount = c.skip then 0 else s.skipCount + 1 } src st pend
        ⟨H.source, H.num, H.small, H.none, H.mem⟩ (by
          simp only [hs, hk, next_phase]
          by_cases hz : i % (k + 1) = k
          · rw [if_pos (by omega), if_pos hz]; rfl
          · rw [if_neg (by omega), if_neg hz]; rfl)
      refine ⟨fin, ?_⟩
      simp only [runMonitor, paired] at hfin ⊢
      rw [hm]
      dsimp only
      rw [hfin]
      dsimp only
      rw [if_neg h0]
      simp

theorem holds_init {n base : Nat} (h0 : 0 < n) (m : Mem R) : Holds n base m State.init 0 none [] :=
  ⟨rfl, rfl, by simpa using h0, fun _ => rfl, by simp⟩

/-- What memory holds, taken as what is kept. -/
theorem holds_self {n base : Nat} {s : State} (h : s.num < n) (m : Mem R) :
    Holds n base m s s.source none ((List.range s.num).map fun i => m (base + i)) := by
  refine ⟨rfl, by simp, by simpa using h, fun _ => rfl, ?_⟩
  intro i hi
  simp only [List.length_map, List.length_range] at hi
  simp [patched, hi]

/-- A message that is not full is followed by another. -/
theorem stale_full {n : Nat} {ms : List (Msg R)} : (∀ m ∈ stale n none ms, m.records.length = n) → 0 < n → stale n none ms = ms := by
  induction ms with
  | nil => intro _ _; rfl
  | cons m ms ih =>
    intro h h0
    simp only [stale] at h ⊢
    have hm := h m (by simp)
    rw [if_pos hm] at h ⊢
    rw [ih (fun x hx => h x (by simp [hx])) h0]

/-- With one parent all messages are full. -/
theorem reports_one {n p : Nat} {xs rest : List (Nat × R)} {ms : List (Msg R)} (h : Reports n xs ms rest)
    (hp : ∀ x ∈ xs, x.1 = p) (h0 : 0 < n) : ∀ m ∈ ms, m.records.length = n := by
  induction h with
  | rest => simp
  | full m xs ms xs' hm hr ih =>
    intro m' hm'
    rcases List.mem_cons.mp hm' with rfl | hm'
    · exact hm
    · exact ih (fun x hx => hp x (by simp [hx])) m' hm'
  | change m x xs ms xs' h0 h hx hr ih =>
    exfalso
    obtain ⟨r, l, hrl⟩ := List.exists_cons_of_ne_nil h0
    have h1 := hp (m.source, r) (by simp [Msg.samples, hrl])
    have h2 := hp x (by simp)
    exact hx (h2.trans h1.symm)

theorem stale_of_full {n : Nat} {ms : List (Msg R)} (h : ∀ m ∈ ms, m.records.length = n) : stale n none ms = ms := by
  induction ms with
  | nil => rfl
  | cons m ms ih =>
    simp only [stale]
    rw [if_pos (h m (by simp)), ih (fun x hx => h x (by simp [hx]))]

/-- The messages of one type. -/
def ofType (t : TxType) (out : List (TxType × Msg TxStamp)) : List (Msg TxStamp) :=
  (out.filter fun x => x.1 = t).map Prod.snd

theorem ofType_append (t : TxType) (a b : List (TxType × Msg TxStamp)) : ofType t (a ++ b) = ofType t a ++ ofType t b := by
  simp [ofType]

theorem ofType_map (t u : TxType) (out : List (Msg TxStamp)) :
    ofType t (out.map fun x => (u, x)) = if u = t then out else [] := by
  induction out with
  | nil => simp [ofType]
  | cons a l ih =>
    simp only [List.map_cons, ofType, List.filter_cons] at ih ⊢
    by_cases h : u = t
    · simp only [h, decide_true, if_true, List.map_cons] at ih ⊢; rw [ih]
    · simp only [h, decide_false, if_false] at ih ⊢; simpa using ih

/-- A record of a transmission after the epoch. -/
def txVal (e : Sent) : TxStamp := ⟨e.seq, ⟨e.time.sec, e.time.nsec⟩⟩

theorem stamp_eq {t : Time.Ts} (h : 0 ≤ t.sec) (old : Time.Wire) : stamp t old = ⟨t.sec, t.nsec⟩ := by
  unfold stamp Time.fromInternalTime
  rw [if_neg (by omega)]

theorem monitor_ok {c : Config} (hl : c.logging = true) (ht : c.tlv = true) {n k base size : Nat} (hn : c.perTlv = n)
    (hk : c.skip = k) (hk' : k < 32768) (hb : base + n ≤ size) (label : Nat → Nat) (m : Mem R) (s : State) (hs : s.num < n)
    (h1 : 0 ≤ s.skipCount) (h2 : s.skipCount ≤ k) (p : Nat) (fill : R → Option R) (hf : ∀ old, (fill old).isSome) :
    ∃ m' s' out, monitor c base size label p fill m s = some (m', s', out) ∧ s'.num < n ∧ 0 ≤ s'.skipCount ∧
      s'.skipCount ≤ k ∧ ∀ j, (j < base ∨ base + n ≤ j) → m' j = m j := by
  by_cases h0 : s.skipCount = 0
  · obtain ⟨r, hr⟩ := Option.isSome_iff_exists.mp (hf (m (base + s.num)))
    obtain ⟨m', s', hm, H, hc, ho⟩ := monitor_sample hl ht hn hb label (holds_self (base := base) hs m) h0 p fill r hr (by omega)
    refine ⟨m', s', _, hm, ?_, ?_, ?_, ho⟩
    · rw [H.num]; exact H.small
    · rw [hc]; split_ifs <;> omega
    · rw [hc]; split_ifs <;> omega
  · refine ⟨m, _, _, monitor_skip hl label m s h0 (by omega) (by omega) p fill, hs, ?_, ?_, fun _ _ => rfl⟩
    · dsimp only; split_ifs <;> omega
    · dsimp only; split_ifs <;> omega

theorem egresses_cons {c : Config} {own : Nat} {e : Nat × Sent} {es : List (Nat × Sent)} {x : TxState} {u : TxType} (hu : e.2.type = u)
    {m : Mem TxStamp} {s : State} {o : List (Msg TxStamp)} {fin : TxState} {out : List (TxType × Msg TxStamp)}
    (h1 : monitor c (3 * u.toNat) 30 (fun _ => own) e.1 (fun old => some ⟨e.2.seq, stamp e.2.time old.egress⟩) x.mem (x.st u) = some (m, s, o))
    (h2 : egresses c own es ⟨m, put x.st u s⟩ = some (fin, out)) :
    egresses c own (e :: es) x = some (fin, (o.map fun y => (u, y)) ++ out) := by
  subst hu
  unfold egresses at h2 ⊢
  simp only [runMonitor, egress]
  rw [h1]
  dsimp only
  rw [h2]

/-- A history of transmissions, as seen by one type of message. -/
theorem tx_run {c : Config} (hl : c.logging = true) (ht : c.tlv = true) {n k : Nat} (hn : c.perTlv = n)
    (hk : c.skip = k) (hk' : k < 32768) (hb : n ≤ 10) (own : Nat) (t : TxType) (evs : List (Nat × Sent))
    (hg : ∀ e ∈ evs, e.2.type = t ∧ 0 ≤ e.2.time.sec ∨
      e.2.type ≠ t ∧ (3 * e.2.type.toNat + n ≤ 3 * t.toNat ∨ 3 * t.toNat + n ≤ 3 * e.2.type.toNat)) :
    ∀ (i : Nat) (x : TxState) (src : Nat) (st : Option TxStamp) (pend : List TxStamp),
      Holds n (3 * t.toNat) x.mem (x.st t) src st pend → (x.st t).skipCount = (i % (k + 1) : Nat) →
      (∀ u, (x.st u).num < n ∧ 0 ≤ (x.st u).skipCount ∧ (x.st u).skipCount ≤ k) →
      ∃ fin out, egresses c own evs x = some (fin, out) ∧ ofType t out = (stale n st (ideal n src pend
          ((((evs.filter fun e => e.2.type = t).zipIdx i).filter fun x => x.2 % (k + 1) = 0).map
            fun x => (x.1.1, txVal x.1.2))).1).map (Msg.relabel fun _ => own) := by
  induction evs with
  | nil =>
    intro i x src st pend H hs hu
    exact ⟨x, [], rfl, by cases st <;> simp [ofType, ideal, stale]⟩
  | cons e es ih =>
    intro i x src st pend H hs hu
    have hsz : ∀ u : TxType, 3 * u.toNat + n ≤ 30 := by intro u; cases u <;> simp [TxType.toNat] <;> omega
    have ih' := ih (fun x hx => hg x (List.mem_cons_of_mem _ hx))
    have hmod := Nat.mod_lt i (show 0 < k + 1 by omega)
    rcases hg e (by simp) with ⟨htype, htime⟩ | ⟨htype, hfar⟩
    · rw [List.filter_cons, if_pos (by simpa using htype), sampled_cons k i e _ (fun e => (e.1, txVal e.2))]
      by_cases h0 : i % (k + 1) = 0
      · obtain ⟨m', s', hm, H', hs', -⟩ := monitor_sample (size := 30) hl ht hn (hsz t) (fun _ => own) H (by rw [hs, h0]; rfl) e.1
          (fun old => some ⟨e.2.seq, stamp e.2.time old.egress⟩) (txVal e.2) (by rw [stamp_eq htime]; rfl) (by omega)
        obtain ⟨fin, out, hfin, hout⟩ := ih' (i + 1) ⟨m', put x.st t s'⟩ _ _ _
          (by simpa [put] using H') (by
            simp only [put, if_true]
            rw [hs', next_phase, h0, hk]
            by_cases hz : k = 0
            · simp [hz]
            · rw [if_neg (by omega), if_neg (by omega)]; rfl)
          (by
            intro u
            by_cases hut : u = t
            · simp only [put, hut, if_true]
              refine ⟨by rw [H'.num]; exact H'.small, ?_, ?_⟩ <;> rw [hs'] <;> split_ifs <;> omega
            · simp only [put, hut, if_false]; exact hu u)
        refine ⟨fin, _, egresses_cons htype hm hfin, ?_⟩
        · rw [ofType_append, ofType_map, if_pos rfl, hout, if_pos h0]
          simp only [List.cons_append, List.nil_append, ideal]
          rw [step_out H.small H.none]
      · have hm := monitor_skip (c := c) hl (base := 3 * t.toNat) (size := 30) (fun _ => own) x.mem (x.st t) (by rw [hs]; omega)
          (by rw [hs, hk]; omega) (by omega) e.1 (fun old : TxStamp => some ⟨e.2.seq, stamp e.2.time old.egress⟩)
        obtain ⟨fin, out, hfin, hout⟩ := ih' (i + 1) ⟨x.mem, put x.st t { x.st t with skipCount := if (x.st t).skipCount = c.skip then 0 else (x.st t).skipCount + 1 }⟩ src st pend
          (by
            simp only [put, if_true]
            exact ⟨H.source, H.num, H.small, H.none, H.mem⟩) (by
            simp only [put, if_true, hs, hk, next_phase]
            by_cases hz : i % (k + 1) = k
            · rw [if_pos (by omega), if_pos hz]; rfl
            · rw [if_neg (by omega), if_neg hz]; rfl)
          (by
            intro u
            have := hu t
            by_cases hut : u = t
            · simp only [put, hut, if_true]
              refine ⟨this.1, ?_, ?_⟩ <;> split_ifs <;> omega
            · simp only [put, hut, if_false]; exact hu u)
        refine ⟨fin, _, egresses_cons htype hm hfin, ?_⟩
        · rw [ofType_append, ofType_map, if_pos rfl, hout, if_neg h0]
          simp
    · rw [List.filter_cons, if_neg (by simpa using htype)]
      obtain ⟨m', s', out, hm, hnum, hs1, hs2, ho⟩ := monitor_ok hl ht hn hk hk' (hsz e.2.type) (fun _ => own) x.mem (x.st e.2.type)
        (hu _).1 (hu _).2.1 (hu _).2.2 e.1 (fun old : TxStamp => some ⟨e.2.seq, stamp e.2.time old.egress⟩) (by simp)
      obtain ⟨fin, out', hfin, hout⟩ := ih' i ⟨m', put x.st e.2.type s'⟩ src st pend
        (by
          have : (put x.st e.2.type s') t = x.st t := by simp [put, Ne.symm htype]
          simp only [this]
          refine ⟨H.source, H.num, H.small, H.none, ?_⟩
          intro j hj
          rw [ho _ (by have := H.small; omega)]
          exact H.mem j hj)
        (by simp only [put, Ne.symm htype, if_false]; exact hs)
        (by
          intro u
          by_cases hut : u = e.2.type
          · simp only [put, hut, if_true]; exact ⟨hnum, hs1, hs2⟩
          · simp only [put, hut, if_false]; exact hu u)
      refine ⟨fin, _, egresses_cons rfl hm hfin, ?_⟩
      · rw [ofType_append, ofType_map, if_neg htype, hout]
        simp

end Verif.Evtmon
