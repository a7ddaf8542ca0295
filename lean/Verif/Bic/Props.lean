import Verif.Bic.Model

/-!
# Best instance election (C06, C07)
-/

set_option linter.unusedSimpArgs false

namespace Verif.Bic

/-! ## Specification -/

/-- Ranking of states: synchronised, then waiting, then serving time, then not
usable. -/
def stateRank : SyncState → Nat
  | .slave => 10
  | .listening | .selection => 20
  | .master | .passive => 30
  | .disabled | .faulty => 40

/-- Order of floating point numbers; `NaN` is unordered. -/
inductive FLt : F → F → Prop
  | fin (a b : Rat) (h : a < b) : FLt (.fin a) (.fin b)
  | inf (a : Rat) : FLt (.fin a) .inf

/-- External constraints: a forced instance is preferred to one that is not,
and among those not forced one that is not barred to a barred one. -/
def ExtBetter (x y : Inst) : Prop :=
  (x.mustBe = true ∧ y.mustBe = false) ∨
  (x.mustBe = false ∧ x.cannotBe = false ∧ y.mustBe = false ∧ y.cannotBe = true)

/-- `x` is strictly better than `y` on one criterion, written from the
documentation of the rules. -/
def Better (r : Rule) (x y : Inst) : Prop :=
  match r with
  | .manual => x.selected = true ∧ y.selected = false
  | .extConstraints => ExtBetter x y
  | .state => stateRank x.state < stateRank y.state
  | .noAlarms => x.alarms = 0 ∧ y.alarms ≠ 0
  | .userPriority => x.userPriority < y.userPriority
  | .clustering => y.clusteringScore < x.clusteringScore
  | .clockClass => x.clockClass < y.clockClass
  | .totalAccuracy =>
    FLt (x.masterAccuracy.add x.localAccuracy) (y.masterAccuracy.add y.localAccuracy)
  | .allanVariance => FLt x.allanVariance y.allanVariance
  | .stepsRemoved => x.stepsRemoved < y.stepsRemoved
  | .tieBreak => x.addr < y.addr

/-- `x` beats `y` under a policy: some rule prefers `x` and no earlier rule
prefers either. -/
def Beats (rules : List Rule) (x y : Inst) : Prop :=
  ∃ pre r post, rules = pre ++ r :: post ∧
    (∀ q ∈ pre, ¬ Better q x y ∧ ¬ Better q y x) ∧ Better r x y

/-- At most one instance manually selected. -/
def OneSelected (l : List Inst) : Prop :=
  ∀ x ∈ l, ∀ y ∈ l, x.selected = true → y.selected = true → x.addr = y.addr

/-- Records are told apart by their address. -/
def Distinct (l : List Inst) : Prop := ∀ x ∈ l, ∀ y ∈ l, x.addr = y.addr → x = y

def total (x : Inst) : F := x.masterAccuracy.add x.localAccuracy

/-- No mixture of numbers and `NaN` in a criterion that the policy uses. -/
def NoMixedNaN (rules : List Rule) (l : List Inst) : Prop :=
  (.allanVariance ∈ rules → ∀ x ∈ l, ∀ y ∈ l, x.allanVariance = .nan → y.allanVariance = .nan) ∧
  (.totalAccuracy ∈ rules → ∀ x ∈ l, ∀ y ∈ l, total x = .nan → total y = .nan)

/-! ## One rule -/

theorem F.lt_iff (a b : F) : a.lt b = true ↔ FLt a b := by
  constructor
  · intro h
    cases a <;> cases b <;> simp [F.lt] at h
    · exact .fin _ _ h
    · exact .inf _
  · intro h
    cases h with
    | fin a b h => simpa [F.lt] using h
    | inf a => rfl

theorem extBetter_iff (x y : Inst) :
    ExtBetter x y ↔ extConstraintPriority x < extConstraintPriority y := by
  unfold ExtBetter extConstraintPriority
  cases x.mustBe <;> cases y.mustBe <;> cases x.cannotBe <;> cases y.cannotBe <;> simp

theorem stateRank_iff (a b : SyncState) :
    stateRank a < stateRank b ↔ statePriority a < statePriority b := by
  cases a <;> cases b <;> decide

theorem F.lt_asymm (a b : F) (h : a.lt b = true) : b.lt a = false := by
  cases a <;> cases b <;> simp_all [F.lt] <;> grind

/-- Negative transitivity, when not mixing numbers with `NaN`. -/
theorem F.lt_neg_trans (a b c : F) (hn : (a = .nan ↔ b = .nan) ∧ (b = .nan ↔ c = .nan))
    (h : a.lt c = true) : a.lt b = true ∨ b.lt c = true := by
  cases a <;> cases b <;> cases c <;> simp_all [F.lt] <;> grind

theorem Better_asymm (r : Rule) (x y : Inst) (h : Better r x y) : ¬ Better r y x := by
  cases r <;> simp only [Better, ← F.lt_iff, extBetter_iff, stateRank_iff] at *
  case totalAccuracy => simp [F.lt_asymm _ _ h]
  case allanVariance => simp [F.lt_asymm _ _ h]
  case manual => simp [h]
  all_goals omega

theorem applyRule_spec (r : Rule) (x y : Inst) (hne : x.addr ≠ y.addr)
    (hsel : ¬ (x.selected = true ∧ y.selected = true)) :
    (applyRule r x y = .a ↔ Better r x y) ∧ (applyRule r x y = .b ↔ Better r y x) := by
  cases r
  case manual =>
    simp only [applyRule, Better, ← F.lt_iff, extBetter_iff, stateRank_iff]
    cases hx : x.selected <;> cases hy : y.selected <;> simp_all
  case totalAccuracy =>
    simp only [applyRule, Better, ← F.lt_iff, extBetter_iff, stateRank_iff]
    cases h1 : (x.masterAccuracy.add x.localAccuracy).lt (y.masterAccuracy.add y.localAccuracy)
    · cases h2 : (y.masterAccuracy.add y.localAccuracy).lt (x.masterAccuracy.add x.localAccuracy) <;> simp
    · simp [F.lt_asymm _ _ h1]
  case allanVariance =>
    simp only [applyRule, Better, ← F.lt_iff, extBetter_iff, stateRank_iff]
    cases h1 : x.allanVariance.lt y.allanVariance
    · cases h2 : y.allanVariance.lt x.allanVariance <;> simp
    · simp [F.lt_asymm _ _ h1]
  all_goals
    simp only [applyRule, Better, ← F.lt_iff, extBetter_iff, stateRank_iff]
    repeat' split
    all_goals simp
    all_goals omega

/-- One rule is a strict weak order on a list without mixed `NaN`. -/
theorem Better_neg_trans (rules : List Rule) (l : List Inst) (hn : NoMixedNaN rules l)
    (r : Rule) (hr : r ∈ rules) (x y z : Inst) (hx : x ∈ l) (hy : y ∈ l) (hz : z ∈ l)
    (h : Better r x z) : Better r x y ∨ Better r y z := by
  cases r
  case totalAccuracy =>
    have hn := hn.2 hr
    simp only [Better, ← F.lt_iff] at *
    exact F.lt_neg_trans _ _ _ ⟨⟨hn x hx y hy, hn y hy x hx⟩, ⟨hn y hy z hz, hn z hz y hy⟩⟩ h
  case allanVariance =>
    have hn := hn.1 hr
    simp only [Better, ← F.lt_iff] at *
    exact F.lt_neg_trans _ _ _ ⟨⟨hn x hx y hy, hn y hy x hx⟩, ⟨hn y hy z hz, hn z hz y hy⟩⟩ h
  case manual =>
    simp only [Better] at *
    cases y.selected <;> simp_all
  all_goals
    simp only [Better, extBetter_iff] at *
    omega

/-! ## Lexicographic combination -/

theorem Beats_cons (r : Rule) (rs : List Rule) (x y : Inst) :
    Beats (r :: rs) x y ↔ Better r x y ∨ (¬ Better r x y ∧ ¬ Better r y x ∧ Beats rs x y) := by
  constructor
  · rintro ⟨pre, q, post, he, hp, hb⟩
    cases pre with
    | nil => simp at he; obtain ⟨rfl, rfl⟩ := he; exact Or.inl hb
    | cons p pre =>
      simp at he; obtain ⟨rfl, rfl⟩ := he
      exact Or.inr ⟨(hp r (by simp)).1, (hp r (by simp)).2,
        pre, q, post, rfl, fun s hs => hp s (by simp [hs]), hb⟩
  · rintro (h | ⟨h1, h2, pre, q, post, he, hp, hb⟩)
    · exact ⟨[], r, rs, rfl, by simp, h⟩
    · refine ⟨r :: pre, q, post, by simp [he], ?_, hb⟩
      intro s hs
      rcases List.mem_cons.1 hs with rfl | hs
      · exact ⟨h1, h2⟩
      · exact hp s hs

theorem Beats_nil (x y : Inst) : ¬ Beats [] x y := by
  rintro ⟨pre, r, post, h, _⟩; simp at h

theorem Beats_asymm (rules : List Rule) (x y : Inst) : Beats rules x y → ¬ Beats rules y x := by
  induction rules with
  | nil => intro h; exact absurd h (Beats_nil x y)
  | cons r rs ih =>
    rw [Beats_cons, Beats_cons]
    have := Better_asymm r x y
    have := Better_asymm r y x
    grind

theorem Beats_total (rules : List Rule) (ht : .tieBreak ∈ rules) (x y : Inst)
    (hne : x.addr ≠ y.addr) : Beats rules x y ∨ Beats rules y x := by
  induction rules with
  | nil => simp at ht
  | cons r rs ih =>
    rw [Beats_cons, Beats_cons]
    rcases List.mem_cons.1 ht with h | h
    · subst h; simp only [Better]; omega
    · have := ih h
      grind

theorem Beats_trans (l : List Inst) (rules : List Rule) (hn : NoMixedNaN rules l)
    (x y z : Inst) (hx : x ∈ l) (hy : y ∈ l) (hz : z ∈ l) :
    Beats rules x y → Beats rules y z → Beats rules x z := by
  induction rules with
  | nil => intro h; exact absurd h (Beats_nil x y)
  | cons r rs ih =>
    have ih := ih ⟨fun h => hn.1 (by simp [h]), fun h => hn.2 (by simp [h])⟩
    simp only [Beats_cons]
    have N := fun a b c ha hb hc => Better_neg_trans (r :: rs) l hn r (by simp) a b c ha hb hc
    have A := Better_asymm r
    have n1 := N x y z hx hy hz
    have n2 := N x z y hx hz hy
    have n3 := N y x z hy hx hz
    have n4 := N y z x hy hz hx
    have n5 := N z x y hz hx hy
    have n6 := N z y x hz hy hx
    have a1 := A x y
    have a2 := A y x
    have a3 := A x z
    have a4 := A z x
    have a5 := A y z
    have a6 := A z y
    grind

theorem select_spec (x y : Inst) (hne : x.addr ≠ y.addr)
    (hsel : ¬ (x.selected = true ∧ y.selected = true)) (rules : List Rule) :
    ∀ n, ((∃ i, select x y rules n = some (x, i)) ↔ Beats rules x y) ∧
         ((∃ i, select x y rules n = some (y, i)) ↔ Beats rules y x) ∧
         (∀ c i, select x y rules n = some (c, i) → c = x ∨ c = y) := by
  have hxy : x ≠ y := fun h => hne (by rw [h])
  have hyx : y ≠ x := fun h => hne (by rw [h])
  induction rules with
  | nil => intro n; simp [select, Beats_nil]
  | cons r rs ih =>
    intro n
    obtain ⟨s1, s2⟩ := applyRule_spec r x y hne hsel
    have A1 := Better_asymm r x y
    have A2 := Better_asymm r y x
    obtain ⟨i1, i2, i3⟩ := ih (n + 1)
    rw [Beats_cons, Beats_cons]
    unfold select
    split
    · rename_i h
      have hb := s1.1 h
      simp [hb, A1 hb, hxy]
    · rename_i h
      have hb := s2.1 h
      simp [hb, A2 hb, hyx]
    · rename_i h
      have h1 : ¬ Better r x y := fun hb => by rw [s1.2 hb] at h; cases h
      have h2 : ¬ Better r y x := fun hb => by rw [s2.2 hb] at h; cases h
      simp only [h1, h2, not_false_eq_true, true_and, false_or]
      exact ⟨i1, i2, i3⟩

/-! ## C07 -/

/-- C07: for every policy containing the tie-break, the code's pairwise choice
between two distinct records, at most one of them manually selected, is
always defined and is the record that beats the other. -/
theorem C07_select_iff_beats (rules : List Rule) (ht : .tieBreak ∈ rules) (x y : Inst)
    (hne : x.addr ≠ y.addr) (hsel : ¬ (x.selected = true ∧ y.selected = true)) :
    (∃ i, select x y rules 0 = some (x, i)) ∧ Beats rules x y ∨
    (∃ i, select x y rules 0 = some (y, i)) ∧ Beats rules y x := by
  obtain ⟨h1, h2, _⟩ := select_spec x y hne hsel rules 0
  rcases Beats_total rules ht x y hne with h | h
  · exact Or.inl ⟨h1.2 h, h⟩
  · exact Or.inr ⟨h2.2 h, h⟩

/-- C07: the choice does not depend on the order of the arguments. -/
theorem C07_select_symmetric (rules : List Rule) (ht : .tieBreak ∈ rules) (x y : Inst)
    (hne : x.addr ≠ y.addr) (hsel : ¬ (x.selected = true ∧ y.selected = true)) :
    (select x y rules 0).map (·.1) = (select y x rules 0).map (·.1) := by
  have hsel' : ¬ (y.selected = true ∧ x.selected = true) := fun h => hsel ⟨h.2, h.1⟩
  obtain ⟨h1, h2, _⟩ := select_spec x y hne hsel rules 0
  obtain ⟨k1, k2, _⟩ := select_spec y x (Ne.symm hne) hsel' rules 0
  rcases Beats_total rules ht x y hne with h | h
  · obtain ⟨i, hi⟩ := h1.2 h
    obtain ⟨j, hj⟩ := k2.2 h
    simp [hi, hj]
  · obtain ⟨i, hi⟩ := h2.2 h
    obtain ⟨j, hj⟩ := k1.2 h
    simp [hi, hj]

/-- Sample records. -/
def base (addr : Nat) : Inst :=
  { addr := addr, selected := false, mustBe := false, cannotBe := false, state := .slave,
    alarms := 0, userPriority := 128, clusteringScore := 0, clockClass := 6,
    masterAccuracy := .fin 100, localAccuracy := .fin 0, allanVariance := .nan, stepsRemoved := 0 }

example : Rule.tieBreak ∈ defaultRules ∧
    (select { base 7 with stepsRemoved := 2 } { base 3 with stepsRemoved := 5 } defaultRules 0)
      = some ({ base 7 with stepsRemoved := 2 }, 9) := by decide +kernel

/-- C07, full statement of transitivity. -/
def C07_transitive_statement : Prop :=
  ∀ rules : List Rule, .tieBreak ∈ rules → ∀ x y z : Inst,
    x.addr ≠ y.addr → y.addr ≠ z.addr → x.addr ≠ z.addr → OneSelected [x, y, z] →
    (select x y rules 0).map (·.1) = some x → (select y z rules 0).map (·.1) = some y →
    (select x z rules 0).map (·.1) = some x

/-- C07 is false of the code: with the default policy, two remote PTP clocks
and an NTP source (whose Allan variance is `NaN`) can beat each other in a
cycle. -/
theorem C07_transitivity_violated : ¬ C07_transitive_statement := by
  intro h
  have := h defaultRules (by decide)
    { base 1 with allanVariance := .fin 1, stepsRemoved := 5 }
    { base 2 with allanVariance := .fin 2, stepsRemoved := 1 }
    { base 3 with stepsRemoved := 3 } (by decide) (by decide) (by decide)
    (by unfold OneSelected; decide +kernel) (by decide +kernel) (by decide +kernel)
  revert this; decide +kernel

/-- C07, transitivity whenever the candidates do not mix `NaN` with numbers in
a criterion the policy uses.  Missing from the full statement: mixtures, where
it is false. -/
theorem C07_transitive_partial (rules : List Rule) (x y z : Inst)
    (hxy : x.addr ≠ y.addr) (hyz : y.addr ≠ z.addr) (hxz : x.addr ≠ z.addr)
    (hs : OneSelected [x, y, z]) (hn : NoMixedNaN rules [x, y, z])
    (h1 : (select x y rules 0).map (·.1) = some x) (h2 : (select y z rules 0).map (·.1) = some y) :
    (select x z rules 0).map (·.1) = some x := by
  have nxy : ¬ (x.selected = true ∧ y.selected = true) := fun h =>
    hxy (hs x (by simp) y (by simp) h.1 h.2)
  have nyz : ¬ (y.selected = true ∧ z.selected = true) := fun h =>
    hyz (hs y (by simp) z (by simp) h.1 h.2)
  have nxz : ¬ (x.selected = true ∧ z.selected = true) := fun h =>
    hxz (hs x (by simp) z (by simp) h.1 h.2)
  have b1 : Beats rules x y := (select_spec x y hxy nxy rules 0).1.1
    (by cases h : select x y rules 0 <;> simp_all [Prod.ext_iff])
  have b2 : Beats rules y z := (select_spec y z hyz nyz rules 0).1.1
    (by cases h : select y z rules 0 <;> simp_all [Prod.ext_iff])
  obtain ⟨i, hi⟩ := (select_spec x z hxz nxz rules 0).1.2
    (Beats_trans [x, y, z] rules hn x y z (by simp) (by simp) (by simp) b1 b2)
  simp [hi]

example : NoMixedNaN defaultRules [base 1, { base 2 with stepsRemoved := 1 }, base 3] := by
  unfold NoMixedNaN total; decide +kernel

/-- C07: forcing an instance leaves at most one instance manually selected. -/
theorem C07_select_instance_unique (l : List Inst) (sel : Option Nat) :
    OneSelected (selectInstance l sel) ∧
    (selectInstance l sel).map (·.addr) = l.map (·.addr) := by
  constructor
  · intro x hx y hy sx sy
    simp only [selectInstance, List.mem_map] at hx hy
    obtain ⟨a, _, rfl⟩ := hx
    obtain ⟨b, _, rfl⟩ := hy
    simp only [decide_eq_true_eq] at sx sy ⊢
    rw [sx] at sy
    exact Option.some.inj sy
  · simp [selectInstance]

example : OneSelected (selectInstance [base 1, base 2] (some 2)) ∧
    (selectInstance [base 1, base 2] (some 2)).map (·.selected) = [false, true] :=
  ⟨(C07_select_instance_unique _ _).1, by decide⟩

/-! ## C06 -/

/-- What the C standard guarantees of `qsort_r`: a permutation of the input,
ordered if the comparison function is consistent (a strict total order on the
elements); nothing about the order otherwise. -/
def SortsBy (rules : List Rule) (sort : List Inst → List Inst) : Prop :=
  ∀ l : List Inst, (sort l).Perm l ∧
    (((∀ x ∈ l, ∀ y ∈ l, x ≠ y → (compar rules x y = some (-1) ∧ compar rules y x = some 1) ∨
          (compar rules x y = some 1 ∧ compar rules y x = some (-1))) ∧
      (∀ x ∈ l, ∀ y ∈ l, ∀ z ∈ l, x ≠ y → y ≠ z → x ≠ z → compar rules x y = some (-1) →
          compar rules y z = some (-1) → compar rules x z = some (-1))) →
      (sort l).Pairwise (fun x y => x ≠ y → compar rules x y = some (-1)))

/-- C06, full statement: for every policy, every conforming sort and every
list of records the answer beats every other record. -/
def C06_statement : Prop :=
  ∀ (rules : List Rule) (sort : List Inst → List Inst) (l : List Inst),
    .tieBreak ∈ rules → SortsBy rules sort → l ≠ [] → l.Nodup → Distinct l → OneSelected l →
    ∃ x ∈ l, (choose sort l).1 = some x ∧ ∀ y ∈ l, y ≠ x → Beats rules x y

theorem compar_spec (rules : List Rule) (x y : Inst)
    (hne : x.addr ≠ y.addr) (hsel : ¬ (x.selected = true ∧ y.selected = true)) :
    (compar rules x y = some (-1) ↔ Beats rules x y) ∧
    (compar rules x y = some 1 ↔ Beats rules y x) := by
  obtain ⟨h1, h2, h3⟩ := select_spec x y hne hsel rules 0
  unfold compar
  rw [← h1, ← h2]
  cases h : select x y rules 0 with
  | none => simp
  | some c =>
    obtain ⟨c, i⟩ := c
    have hxy : x ≠ y := fun h => hne (by rw [h])
    have hne' : ¬ y.addr = x.addr := fun h => hne h.symm
    rcases h3 c i h with rfl | rfl
    · simp [hxy]
    · simp [hne', Ne.symm hxy]

/-- The result of `C06` for records that are not mixing `NaN`. -/
theorem choose_best (rules : List Rule) (sort : List Inst → List Inst) (l : List Inst)
    (ht : .tieBreak ∈ rules) (hsort : SortsBy rules sort) (hl : l ≠ []) (hnd : l.Nodup)
    (hd : Distinct l) (hs : OneSelected l) (hn : NoMixedNaN rules l) :
    ∃ x ∈ l, (choose sort l).1 = some x ∧ (∀ y ∈ l, y ≠ x → Beats rules x y) := by
  match l, hl with
  | [x], _ => exact ⟨x, by simp, rfl, by simp⟩
  | a :: b :: t, _ =>
    obtain ⟨hp, hso⟩ := hsort (a :: b :: t)
    have ne : ∀ x ∈ a :: b :: t, ∀ y ∈ a :: b :: t, x ≠ y → x.addr ≠ y.addr :=
      fun x hx y hy h he => h (hd x hx y hy he)
    have nsel : ∀ x ∈ a :: b :: t, ∀ y ∈ a :: b :: t, x ≠ y →
        ¬ (x.selected = true ∧ y.selected = true) :=
      fun x hx y hy h hh => ne x hx y hy h (hs x hx y hy hh.1 hh.2)
    have spec : ∀ x ∈ a :: b :: t, ∀ y ∈ a :: b :: t, x ≠ y →
        (compar rules x y = some (-1) ↔ Beats rules x y) ∧
        (compar rules x y = some 1 ↔ Beats rules y x) :=
      fun x hx y hy h => compar_spec rules x y (ne x hx y hy h) (nsel x hx y hy h)
    have hpw := hso ⟨fun x hx y hy h => by
        rw [(spec x hx y hy h).1, (spec x hx y hy h).2, (spec y hy x hx h.symm).1,
          (spec y hy x hx h.symm).2]
        rcases Beats_total rules ht x y (ne x hx y hy h) with h | h
        · exact Or.inl ⟨h, h⟩
        · exact Or.inr ⟨h, h⟩,
      fun x hx y hy z hz h1 h2 h3 => by
        rw [(spec x hx y hy h1).1, (spec y hy z hz h2).1, (spec x hx z hz h3).1]
        exact Beats_trans _ rules hn x y z hx hy hz⟩
    cases hsl : sort (a :: b :: t) with
    | nil => rw [hsl] at hp; exact absurd hp.length_eq (by simp)
    | cons x s =>
      rw [hsl] at hp hpw
      have hx : x ∈ a :: b :: t := hp.mem_iff.1 (by simp)
      refine ⟨x, hx, by simp [choose, hsl], ?_⟩
      intro y hy hyx
      have : y ∈ x :: s := hp.mem_iff.2 hy
      rcases List.mem_cons.1 this with h | h
      · exact absurd h hyx
      · exact (spec x hx y hy (Ne.symm hyx)).1.1
          ((List.pairwise_cons.1 hpw).1 y h (Ne.symm hyx))

/-- C06: for every policy, every conforming sorting function and every list of
records (at most one manually selected) that does not mix `NaN` with numbers,
the answer is a record that beats all others.  Missing from the full
statement: mixtures with `NaN`, see `C06_violated`. -/
theorem C06_choose_best_partial (rules : List Rule) (sort : List Inst → List Inst) (l : List Inst)
    (ht : .tieBreak ∈ rules) (hsort : SortsBy rules sort) (hl : l ≠ []) (hnd : l.Nodup)
    (hd : Distinct l) (hs : OneSelected l) (hn : NoMixedNaN rules l) :
    ∃ x ∈ l, (choose sort l).1 = some x ∧ (∀ y ∈ l, y ≠ x → Beats rules x y) ∧
      (∀ y ∈ l, ¬ Beats rules y x) := by
  obtain ⟨x, hx, h1, h2⟩ := choose_best rules sort l ht hsort hl hnd hd hs hn
  refine ⟨x, hx, h1, h2, ?_⟩
  intro y hy hb
  by_cases h : y = x
  · subst h; exact Beats_asymm rules y y hb hb
  · exact Beats_asymm rules x y (h2 y hy h) hb

/-- C06: the answer does not depend on the order in which the records are
listed nor on the sorting function. -/
theorem C06_order_independent_partial (rules : List Rule) (sort sort' : List Inst → List Inst)
    (l l' : List Inst) (ht : .tieBreak ∈ rules) (hsort : SortsBy rules sort)
    (hsort' : SortsBy rules sort') (hp : l.Perm l') (hnd : l.Nodup) (hd : Distinct l)
    (hs : OneSelected l) (hn : NoMixedNaN rules l) :
    (choose sort l).1 = (choose sort' l').1 := by
  by_cases hl : l = []
  · subst hl
    have : l' = [] := hp.nil_eq.symm
    subst this; rfl
  · have hl' : l' ≠ [] := fun h => hl (by rw [h] at hp; exact hp.eq_nil)
    have m : ∀ x, x ∈ l' ↔ x ∈ l := fun x => hp.mem_iff.symm
    obtain ⟨x, hx, h1, h2⟩ := choose_best rules sort l ht hsort hl hnd hd hs hn
    obtain ⟨y, hy, k1, k2⟩ := choose_best rules sort' l' ht hsort' hl' (hp.nodup_iff.1 hnd)
      (fun a ha b hb => hd a ((m a).1 ha) b ((m b).1 hb))
      (fun a ha b hb => hs a ((m a).1 ha) b ((m b).1 hb))
      ⟨fun hr a ha b hb => hn.1 hr a ((m a).1 ha) b ((m b).1 hb),
       fun hr a ha b hb => hn.2 hr a ((m a).1 ha) b ((m b).1 hb)⟩
    rw [h1, k1]
    by_cases he : x = y
    · rw [he]
    · exact absurd (h2 y ((m y).1 hy) (Ne.symm he)) (Beats_asymm _ _ _ (k2 x ((m x).2 hx) he))

/-- The cyclic triple of `C07_transitivity_violated`. -/
def cyc : List Inst :=
  [{ base 1 with allanVariance := .fin 1, stepsRemoved := 5 },
   { base 2 with allanVariance := .fin 2, stepsRemoved := 1 },
   { base 3 with stepsRemoved := 3 }]

/-- C06 is false of the code: on the cyclic triple no record beats all others,
so no conforming sort can make the statement true.  (That the conforming
sorts exist is shown by `sortsBy_exists`.) -/
theorem no_best : ¬ ∃ x ∈ cyc, ∀ y ∈ cyc, y ≠ x → Beats defaultRules x y := by
  have hb : ∀ x ∈ cyc, ∀ y ∈ cyc, x ≠ y →
      (Beats defaultRules x y ↔ compar defaultRules x y = some (-1)) := by
    intro x hx y hy h
    refine (compar_spec defaultRules x y ?_ ?_).1.symm
    · revert x y; decide +kernel
    · revert x y; decide +kernel
  have : ¬ ∃ x ∈ cyc, ∀ y ∈ cyc, y ≠ x → compar defaultRules x y = some (-1) := by decide +kernel
  rintro ⟨x, hx, h⟩
  exact this ⟨x, hx, fun y hy hne => (hb x hx y hy (Ne.symm hne)).1 (h y hy hne)⟩

/-- Conforming sorting functions exist, for every policy. -/
theorem sortsBy_exists (rules : List Rule) : ∃ sort, SortsBy rules sort := by
  classical
  let P := fun (l s : List Inst) => s.Perm l ∧
    s.Pairwise (fun x y => x ≠ y → compar rules x y = some (-1))
  refine ⟨fun l => if h : ∃ s, P l s then h.choose else l, ?_⟩
  intro l
  constructor
  · dsimp only
    split
    · rename_i h; exact h.choose_spec.1
    · exact List.Perm.refl _
  · rintro ⟨htot, htr⟩
    have h : ∃ s, P l s := by
      let le : {x // x ∈ l} → {x // x ∈ l} → Bool := fun a b =>
        decide (a.1 = b.1 ∨ compar rules a.1 b.1 = some (-1))
      have h1 : ∀ a b c, le a b = true → le b c = true → le a c = true := by
        intro a b c hab hbc
        simp only [le, decide_eq_true_eq] at *
        by_cases e1 : a.1 = b.1
        · rw [e1]; exact hbc
        · by_cases e2 : b.1 = c.1
          · rw [← e2]; exact hab
          · by_cases e3 : a.1 = c.1
            · exact Or.inl e3
            · exact Or.inr (htr a a.2 b b.2 c c.2 e1 e2 e3 (hab.resolve_left e1) (hbc.resolve_left e2))
      have h2 : ∀ a b, (le a b || le b a) = true := by
        intro a b
        simp only [le, Bool.or_eq_true, decide_eq_true_eq]
        by_cases e : a.1 = b.1
        · exact Or.inl (Or.inl e)
        · rcases htot a a.2 b b.2 e with h | h
          · exact Or.inl (Or.inr h.1)
          · exact Or.inr (Or.inr h.2)
      refine ⟨(l.attach.mergeSort le).map (·.1), ?_, ?_⟩
      · have := (List.mergeSort_perm l.attach le).map (·.1)
        simpa using this
      · rw [List.pairwise_map]
        refine (List.pairwise_mergeSort h1 h2 l.attach).imp ?_
        intro a b hab hne
        simp only [le, decide_eq_true_eq] at hab
        exact hab.resolve_left hne
    dsimp only
    rw [dif_pos h]
    exact h.choose_spec.2

/-- C06 is false of the code because of the cycle through `NaN`. -/
theorem C06_violated : ¬ C06_statement := by
  intro h
  obtain ⟨sort, hsort⟩ := sortsBy_exists defaultRules
  obtain ⟨x, hx, _, hb⟩ := h defaultRules sort cyc (by decide) hsort (by decide) (by decide +kernel)
    (by unfold Distinct; decide +kernel) (by unfold OneSelected; decide +kernel)
  exact no_best ⟨x, hx, hb⟩

example : ∃ sort, SortsBy defaultRules sort ∧
    (choose sort [base 2, { base 1 with alarms := 4 }, { base 3 with userPriority := 1 }]).1
      = some { base 3 with userPriority := 1 } := by
  obtain ⟨sort, hs⟩ := sortsBy_exists defaultRules
  refine ⟨sort, hs, ?_⟩
  obtain ⟨x, hx, h1, _, h3⟩ := C06_choose_best_partial defaultRules sort
    [base 2, { base 1 with alarms := 4 }, { base 3 with userPriority := 1 }] (by decide) hs
    (by decide) (by decide +kernel) (by unfold Distinct; decide +kernel)
    (by unfold OneSelected; decide +kernel) (by unfold NoMixedNaN total; decide +kernel)
  rw [h1]
  have c1 := (compar_spec defaultRules { base 3 with userPriority := 1 } (base 2)
    (by decide) (by decide)).1.1 (by decide +kernel)
  have c2 := (compar_spec defaultRules { base 3 with userPriority := 1 } { base 1 with alarms := 4 }
    (by decide) (by decide)).1.1 (by decide +kernel)
  simp only [List.mem_cons, List.not_mem_nil, or_false] at hx
  rcases hx with rfl | rfl | rfl
  · exact absurd c1 (h3 _ (by simp))
  · exact absurd c2 (h3 _ (by simp))
  · rfl

/-! ### Order of the array

The records live in an array, so the tie-break (lowest address) prefers the
lower array index.  Reordering the array can therefore change the answer, but
only between instances that every other rule considers equal. -/

/-- The array of records for a list of statuses: the address is the index. -/
def place (l : List Inst) : List Inst := l.zipIdx.map fun p => { p.1 with addr := p.2 }

/-- A record without its address. -/
def strip (x : Inst) : Inst := { x with addr := 0 }

/-- The rules of a policy before the tie-break. -/
def beforeTie (rules : List Rule) : List Rule := rules.takeWhile (· ≠ .tieBreak)

theorem Better_strip (r : Rule) (hr : r ≠ .tieBreak) (x y : Inst) :
    Better r x y ↔ Better r (strip x) (strip y) := by
  cases r <;> first | exact absurd rfl hr | exact Iff.rfl

theorem Beats_strip (rules : List Rule) (x y : Inst) :
    Beats (beforeTie rules) x y ↔ Beats (beforeTie rules) (strip x) (strip y) := by
  unfold beforeTie
  induction rules with
  | nil => simp [Beats_nil]
  | cons r rs ih =>
    by_cases h : r = .tieBreak
    · simp [h, Beats_nil]
    · simp only [List.takeWhile_cons, ne_eq, h, not_false_eq_true, decide_true, ↓reduceIte, Beats_cons]
      rw [← ih, ← Better_strip r h, ← Better_strip r h]

theorem Beats_of_beforeTie (rules : List Rule) (x y : Inst) (h : Beats (beforeTie rules) x y) :
    Beats rules x y := by
  obtain ⟨pre, r, post, he, hp, hb⟩ := h
  refine ⟨pre, r, post ++ rules.dropWhile (· ≠ .tieBreak), ?_, hp, hb⟩
  have := List.takeWhile_append_dropWhile (p := (· ≠ Rule.tieBreak)) (l := rules)
  unfold beforeTie at he
  rw [he] at this
  simpa using this.symm

theorem mem_place (l : List Inst) (x : Inst) (h : x ∈ place l) :
    ∃ s ∈ l, strip x = strip s ∧ l[x.addr]? = some s := by
  unfold place at h
  obtain ⟨⟨s, i⟩, hm, rfl⟩ := List.mem_map.1 h
  have hm' := List.mem_zipIdx_iff_getElem?.1 hm
  exact ⟨s, List.mem_of_getElem? hm', rfl, hm'⟩

theorem place_mem (l : List Inst) (s : Inst) (h : s ∈ l) : ∃ x ∈ place l, strip x = strip s := by
  obtain ⟨i, hi, hs⟩ := List.mem_iff_getElem.1 h
  refine ⟨{ s with addr := i }, ?_, rfl⟩
  unfold place
  exact List.mem_map.2 ⟨(s, i), List.mem_zipIdx_iff_getElem?.2 (by simp [hi, hs]), rfl⟩

theorem place_addr (l : List Inst) : (place l).map (·.addr) = List.range l.length := by
  unfold place
  rw [List.map_map]
  have : ((fun x : Inst => x.addr) ∘ fun p : Inst × Nat => { p.1 with addr := p.2 }) = Prod.snd := rfl
  rw [this, List.zipIdx_map_snd, List.range'_eq_map_range]
  simp

theorem place_nodup (l : List Inst) : (place l).Nodup := by
  have h : ((place l).map (·.addr)).Nodup := by rw [place_addr]; exact List.nodup_range
  unfold List.Nodup at h ⊢
  rw [List.pairwise_map] at h
  exact h.imp (fun hne he => hne (by rw [he]))

theorem place_distinct (l : List Inst) : Distinct (place l) := by
  intro x hx y hy h
  obtain ⟨s, _, e1, g1⟩ := mem_place l x hx
  obtain ⟨s', _, e2, g2⟩ := mem_place l y hy
  rw [h, g2] at g1
  cases g1
  have : strip x = strip y := by rw [e1, e2]
  obtain ⟨⟩ := x
  obtain ⟨⟩ := y
  simp only [strip, Inst.mk.injEq] at this h
  simp only [Inst.mk.injEq]
  exact ⟨h, this.2⟩

/-- At most one of the statuses in the array is manually selected. -/
def OneSelectedStatus (l : List Inst) : Prop :=
  l.Pairwise (fun x y => ¬ (x.selected = true ∧ y.selected = true))

theorem place_oneSelected (l : List Inst) (h : OneSelectedStatus l) : OneSelected (place l) := by
  intro x hx y hy sx sy
  obtain ⟨s, _, e1, g1⟩ := mem_place l x hx
  obtain ⟨s', _, e2, g2⟩ := mem_place l y hy
  have hs : s.selected = true := by
    have : (strip x).selected = (strip s).selected := by rw [e1]
    simpa [strip, sx] using this.symm
  have hs' : s'.selected = true := by
    have : (strip y).selected = (strip s').selected := by rw [e2]
    simpa [strip, sy] using this.symm
  unfold OneSelectedStatus at h
  rw [List.pairwise_iff_getElem] at h
  obtain ⟨b1, v1⟩ := List.getElem?_eq_some_iff.1 g1
  obtain ⟨b2, v2⟩ := List.getElem?_eq_some_iff.1 g2
  rcases Nat.lt_trichotomy x.addr y.addr with hl | hl | hl
  · exact absurd ⟨by rw [v1]; exact hs, by rw [v2]; exact hs'⟩ (h _ _ b1 b2 hl)
  · exact hl
  · exact absurd ⟨by rw [v2]; exact hs', by rw [v1]; exact hs⟩ (h _ _ b2 b1 hl)

theorem place_noMixed (rules : List Rule) (l : List Inst) (h : NoMixedNaN rules l) :
    NoMixedNaN rules (place l) := by
  have av : ∀ x s : Inst, strip x = strip s → x.allanVariance = s.allanVariance ∧ total x = total s := by
    intro x s h
    have h1 : (strip x).allanVariance = (strip s).allanVariance := by rw [h]
    have h2 : total (strip x) = total (strip s) := by rw [h]
    exact ⟨h1, h2⟩
  constructor
  · intro hr x hx y hy
    obtain ⟨s, m1, e1, _⟩ := mem_place l x hx
    obtain ⟨s', m2, e2, _⟩ := mem_place l y hy
    rw [(av _ _ e1).1, (av _ _ e2).1]
    exact h.1 hr s m1 s' m2
  · intro hr x hx y hy
    obtain ⟨s, m1, e1, _⟩ := mem_place l x hx
    obtain ⟨s', m2, e2, _⟩ := mem_place l y hy
    rw [(av _ _ e1).2, (av _ _ e2).2]
    exact h.2 hr s m1 s' m2

/-- Every two instances of the array are told apart by a rule before the
tie-break. -/
def Separated (rules : List Rule) (l : List Inst) : Prop :=
  l.Pairwise (fun x y => Beats (beforeTie rules) x y ∨ Beats (beforeTie rules) y x)

theorem place_separated (rules : List Rule) (l : List Inst) (h : Separated rules l)
    (x y : Inst) (hx : x ∈ place l) (hy : y ∈ place l) (hne : x ≠ y) :
    Beats (beforeTie rules) x y ∨ Beats (beforeTie rules) y x := by
  have hne' : x.addr ≠ y.addr := fun he => hne (place_distinct l x hx y hy he)
  obtain ⟨s, _, e1, g1⟩ := mem_place l x hx
  obtain ⟨s', _, e2, g2⟩ := mem_place l y hy
  unfold Separated at h
  rw [List.pairwise_iff_getElem] at h
  obtain ⟨b1, v1⟩ := List.getElem?_eq_some_iff.1 g1
  obtain ⟨b2, v2⟩ := List.getElem?_eq_some_iff.1 g2
  rw [Beats_strip rules x y, Beats_strip rules y x, e1, e2, ← Beats_strip, ← Beats_strip]
  rcases Nat.lt_or_gt_of_ne hne' with hl | hl
  · have := h _ _ b1 b2 hl
    rwa [v1, v2] at this
  · have := h _ _ b2 b1 hl
    rw [v1, v2] at this
    exact this.symm

/-- C06: reordering the array of instances elects the same instance, provided
the rules before the tie-break tell the instances apart (and no mixture with
`NaN`). -/
theorem C06_array_order_independent_partial (rules : List Rule)
    (sort sort' : List Inst → List Inst) (l l' : List Inst)
    (ht : .tieBreak ∈ rules) (hsort : SortsBy rules sort) (hsort' : SortsBy rules sort')
    (hp : l.Perm l') (hsel : OneSelectedStatus l) (hn : NoMixedNaN rules l)
    (hsep : Separated rules l) :
    (choose sort (place l)).1.map strip = (choose sort' (place l')).1.map strip := by
  by_cases hl : l = []
  · subst hl
    have : l' = [] := hp.nil_eq.symm
    subst this; rfl
  have hl' : l' ≠ [] := fun h => hl (by rw [h] at hp; exact hp.eq_nil)
  have nn : ∀ k : List Inst, k ≠ [] → place k ≠ [] := by
    intro k hk h
    have := congrArg List.length (place_addr k)
    rw [h] at this
    simp at this
    exact hk (List.eq_nil_of_length_eq_zero this.symm)
  have m : ∀ x, x ∈ l' ↔ x ∈ l := fun x => hp.mem_iff.symm
  have hsel' : OneSelectedStatus l' := hp.pairwise hsel (fun h k => h ⟨k.2, k.1⟩)
  have hsep' : Separated rules l' := hp.pairwise hsep (fun h => h.symm)
  have hn' : NoMixedNaN rules l' :=
    ⟨fun hr a ha b hb => hn.1 hr a ((m a).1 ha) b ((m b).1 hb),
     fun hr a ha b hb => hn.2 hr a ((m a).1 ha) b ((m b).1 hb)⟩
  obtain ⟨x, hx, h1, h2⟩ := choose_best rules sort (place l) ht hsort (nn l hl) (place_nodup l)
    (place_distinct l) (place_oneSelected l hsel) (place_noMixed rules l hn)
  obtain ⟨y, hy, k1, k2⟩ := choose_best rules sort' (place l') ht hsort' (nn l' hl') (place_nodup l')
    (place_distinct l') (place_oneSelected l' hsel') (place_noMixed rules l' hn')
  rw [h1, k1]
  simp only [Option.map_some, Option.some.injEq]
  apply Classical.byContradiction
  intro hne
  -- the counterpart of `y` in the first array
  obtain ⟨s, hs, es, _⟩ := mem_place l' y hy
  obtain ⟨y1, hy1, ey⟩ := place_mem l s ((m s).1 hs)
  have n1 : y1 ≠ x := fun h => hne (by rw [← h, ey, ← es])
  have b1 : Beats (beforeTie rules) x y1 := by
    rcases place_separated rules l hsep x y1 hx hy1 (Ne.symm n1) with h | h
    · exact h
    · exact absurd (Beats_of_beforeTie rules _ _ h) (Beats_asymm _ _ _ (h2 y1 hy1 n1))
  obtain ⟨s', hs', es', _⟩ := mem_place l x hx
  obtain ⟨x1, hx1, ex⟩ := place_mem l' s' ((m s').2 hs')
  have n2 : x1 ≠ y := fun h => hne (by rw [← h, ex, ← es'])
  have b2 : Beats (beforeTie rules) y x1 := by
    rcases place_separated rules l' hsep' y x1 hy hx1 (Ne.symm n2) with h | h
    · exact h
    · exact absurd (Beats_of_beforeTie rules _ _ h) (Beats_asymm _ _ _ (k2 x1 hx1 n2))
  rw [Beats_strip] at b1 b2
  rw [ey, ← es] at b1
  rw [ex, ← es'] at b2
  exact Beats_asymm _ _ _ b1 b2

example : Separated defaultRules [base 0, { base 0 with alarms := 4 }] := by
  unfold Separated
  simp only [List.pairwise_cons, List.mem_cons, List.not_mem_nil, or_false, forall_eq,
    false_implies, implies_true, List.Pairwise.nil, and_self, and_true]
  exact Or.inl ⟨[.manual, .extConstraints, .state], .noAlarms, _, rfl,
    by simp [Better, base, ExtBetter], by simp [Better, base]⟩

/-- With a tie on every rule the lower array index wins, so the answer does
depend on the order of the array in that case. -/
example : (select { base 0 with userPriority := 5 } { base 1 with userPriority := 5 } defaultRules 0).map (·.1.addr)
      = some 0 := by decide +kernel

end Verif.Bic
