/-
Lemmas about the instances of the PTP sync module.
-/
import Verif.PtpMod.Spec
import Mathlib.Tactic.Linarith
import Mathlib.Data.List.Perm.Basic

set_option linter.unusedSimpArgs false
set_option linter.unusedVariables false

namespace Verif.PtpMod

theorem defaults_spec (c : Conf) : Defaulted c (defaults c) := by
  unfold defaults
  cases hp : c.profile <;> by_cases hm : c.minor < 1 <;>
    constructor <;> simp [hp, hm] <;> omega

theorem Defaulted.eq {c d e : Conf} (h : Defaulted c d) (k : Defaulted c e) : d = e := by
  obtain ⟨h1, h2, h3, h4, h5, h6, h7, h8, h9⟩ := h
  obtain ⟨k1, k2, k3, k4, k5, k6, k7, k8, k9⟩ := k
  cases d; cases e
  simp_all

theorem is_iff (i : If) (n a : Nat) : i.is n a = true ↔ i.name = n ∧ a = i.rep.af := by
  simp [If.is]

/-- The instances of the interface. -/
def flat (m : Mod) : List Conf := m.flatMap (·.insts)

/-- What holds between rounds of the loop, `done` being the configurations
handled so far. -/
structure Inv (m : Mod) (done : List Conf) : Prop where
  nonempty : ∀ i ∈ m, i.insts ≠ []
  insts : ∀ i ∈ m, i.insts =
    ((done.filter (fun c => decide (c.iface = i.name ∧ c.af = i.rep.af))).map defaults).reverse
  rep : ∀ i ∈ m, i.insts.getLast? = some i.rep
  keys : m.Pairwise (fun i j => ¬ (i.name = j.name ∧ i.rep.af = j.rep.af))
  found : ∀ c ∈ done, ∃ i ∈ m, i.name = c.iface ∧ i.rep.af = c.af
  perm : (flat m).Perm (done.map defaults)
  keyIn : ∀ i ∈ m, ∃ c ∈ done, c.iface = i.name ∧ c.af = i.rep.af

theorem inv_nil : Inv [] [] := by
  constructor <;> simp [flat]

theorem def_iface (c : Conf) : (defaults c).iface = c.iface := (defaults_spec c).iface
theorem def_af (c : Conf) : (defaults c).af = c.af := (defaults_spec c).af
theorem def_domain (c : Conf) : (defaults c).domain = c.domain := (defaults_spec c).domain

theorem find_def (c : Conf) (m : Mod) :
    m.find? (fun i => i.is (defaults c).iface (defaults c).af) =
    m.find? (fun i => i.is c.iface c.af) := by
  rw [def_iface, def_af]

/-- A match is at one place. -/
theorem find_split {m : Mod} {c : Conf} {i : If} (h : m.find? (fun i => i.is c.iface c.af) = some i) :
    ∃ a b, m = a ++ i :: b ∧ (∀ j ∈ a, j.is c.iface c.af = false) ∧ i.is c.iface c.af = true := by
  obtain ⟨h1, a, b, h2, h3⟩ := List.find?_eq_some_iff_append.1 h
  exact ⟨a, b, h2, fun j hj => by simpa using h3 j hj, h1⟩

theorem addTo_split (c : Conf) (a b : Mod) (i : If)
    (ha : ∀ j ∈ a, j.is c.iface c.af = false) (hi : i.is c.iface c.af = true) :
    addTo c (a ++ i :: b) = a ++ { i with insts := c :: i.insts } :: b := by
  induction a with
  | nil => simp [addTo, hi]
  | cons j a ih =>
    have h1 := ha j (by simp)
    simp only [List.cons_append, addTo, h1]
    simp only [Bool.false_eq_true, if_false]
    rw [ih (fun k hk => ha k (by simp [hk]))]

theorem keys_ne {m : Mod} {a b : Mod} {i : If}
    (hk : m.Pairwise (fun i j => ¬ (i.name = j.name ∧ i.rep.af = j.rep.af)))
    (hm : m = a ++ i :: b) :
    ∀ j ∈ a ++ b, ¬ (j.name = i.name ∧ j.rep.af = i.rep.af) := by
  subst hm
  rw [List.pairwise_append] at hk
  obtain ⟨h1, h2, h3⟩ := hk
  rw [List.pairwise_cons] at h2
  intro j hj
  rcases List.mem_append.1 hj with hj | hj
  · exact h3 j hj i (by simp)
  · rintro ⟨k1, k2⟩
    exact h2.1 j hj ⟨k1.symm, k2.symm⟩

/-- One more instance keeps the invariant. -/
theorem inv_add {m : Mod} {done : List Conf} (h : Inv m done) (c : Conf) :
    Inv (addTo (defaults c) (ensure (defaults c) m)) (done ++ [c]) := by
  unfold ensure
  cases hf : m.find? (fun i => i.is (defaults c).iface (defaults c).af) with
  | none =>
    simp only [hf]
    rw [find_def] at hf
    have hno : ∀ i ∈ m, ¬ (i.name = c.iface ∧ c.af = i.rep.af) := by
      intro i hi hh
      have := List.find?_eq_none.1 hf i hi
      exact this ((is_iff _ _ _).2 hh)
    have hadd : addTo (defaults c) (⟨(defaults c).iface, defaults c, []⟩ :: m) =
        ⟨c.iface, defaults c, [defaults c]⟩ :: m := by
      simp [addTo, If.is, def_iface]
    rw [hadd]
    have hnodone : ∀ d ∈ done, ¬ (d.iface = c.iface ∧ d.af = c.af) := by
      intro d hd ⟨e1, e2⟩
      obtain ⟨i, hi, k1, k2⟩ := h.found d hd
      exact hno i hi ⟨by omega, by omega⟩
    constructor
    · intro i hi
      rcases List.mem_cons.1 hi with rfl | hi
      · simp
      · exact h.nonempty i hi
    · intro i hi
      rcases List.mem_cons.1 hi with rfl | hi
      · rw [List.filter_append]
        have : done.filter (fun d => decide (d.iface = c.iface ∧ d.af = (defaults c).af)) = [] := by
          rw [List.filter_eq_nil_iff]
          intro d hd
          rw [def_af]
          simpa using hnodone d hd
        rw [this]
        simp [def_af]
      · have hno' := hno i hi
        rw [List.filter_append]
        have : [c].filter (fun d => decide (d.iface = i.name ∧ d.af = i.rep.af)) = [] := by
          rw [List.filter_eq_nil_iff]
          intro d hd
          obtain rfl := List.mem_singleton.1 hd
          simp only [decide_eq_true_eq]
          rintro ⟨e1, e2⟩
          exact hno' ⟨e1.symm, e2⟩
        rw [this, List.append_nil]
        exact h.insts i hi
    · intro i hi
      rcases List.mem_cons.1 hi with rfl | hi
      · rfl
      · exact h.rep i hi
    · rw [List.pairwise_cons]
      refine ⟨?_, h.keys⟩
      intro j hj ⟨e1, e2⟩
      simp only [def_af] at e2
      exact hno j hj ⟨e1.symm, e2⟩
    · intro d hd
      rcases List.mem_append.1 hd with hd | hd
      · obtain ⟨i, hi, hh⟩ := h.found d hd
        exact ⟨i, by simp [hi], hh⟩
      · obtain rfl := List.mem_singleton.1 hd
        exact ⟨_, List.mem_cons_self, rfl, def_af _⟩
    · rw [List.map_append]
      simp only [flat, List.flatMap_cons, List.map_cons, List.map_nil]
      exact (List.Perm.cons _ h.perm).trans (List.perm_append_singleton _ _).symm
    · intro i hi
      rcases List.mem_cons.1 hi with rfl | hi
      · exact ⟨c, by simp, rfl, (def_af c).symm⟩
      · obtain ⟨d, hd, hh⟩ := h.keyIn i hi
        exact ⟨d, by simp [hd], hh⟩
  | some i =>
    simp only [hf]
    obtain ⟨a, b, hm, ha, hi⟩ := find_split hf
    have hadd := addTo_split (defaults c) a b i ha hi
    rw [hm, hadd]
    have hi' := (is_iff _ _ _).1 hi
    rw [def_iface, def_af] at hi'
    have hne := keys_ne h.keys hm
    have him : i ∈ m := by rw [hm]; simp
    have hfl : [c].filter (fun d => decide (d.iface = i.name ∧ d.af = i.rep.af)) = [c] := by
      simp [hi'.1, hi'.2]
    have hmem : ∀ j, j ∈ a ++ ({ i with insts := defaults c :: i.insts } : If) :: b →
        j = { i with insts := defaults c :: i.insts } ∨
        (j ∈ m ∧ ¬ (j.name = i.name ∧ j.rep.af = i.rep.af)) := by
      intro j hj
      rcases List.mem_append.1 hj with hj | hj
      · exact Or.inr ⟨by rw [hm]; simp [hj], hne j (by simp [hj])⟩
      · rcases List.mem_cons.1 hj with hj | hj
        · exact Or.inl hj
        · exact Or.inr ⟨by rw [hm]; simp [hj], hne j (by simp [hj])⟩
    constructor
    · intro j hj
      rcases hmem j hj with rfl | ⟨hj, _⟩
      · simp
      · exact h.nonempty j hj
    · intro j hj
      rcases hmem j hj with rfl | ⟨hj, hk⟩
      · rw [List.filter_append]
        dsimp only
        rw [hfl]
        simp only [List.map_append, List.map_cons, List.map_nil, List.reverse_append,
          List.reverse_cons, List.reverse_nil, List.nil_append, List.cons_append]
        rw [← h.insts i him]
      · rw [List.filter_append]
        have : [c].filter (fun d => decide (d.iface = j.name ∧ d.af = j.rep.af)) = [] := by
          rw [List.filter_eq_nil_iff]
          intro d hd
          obtain rfl := List.mem_singleton.1 hd
          simp only [decide_eq_true_eq]
          rintro ⟨e1, e2⟩
          exact hk ⟨by omega, by omega⟩
        rw [this, List.append_nil]
        exact h.insts j hj
    · intro j hj
      rcases hmem j hj with rfl | ⟨hj, _⟩
      · have h1 := h.rep i him
        have h2 := h.nonempty i him
        dsimp only
        cases hl : i.insts with
        | nil => exact absurd hl h2
        | cons x l => rw [hl] at h1; rw [List.getLast?_cons_cons]; exact h1
      · exact h.rep j hj
    · have := h.keys
      rw [hm] at this
      rw [List.pairwise_append] at this ⊢
      obtain ⟨k1, k2, k3⟩ := this
      rw [List.pairwise_cons] at k2 ⊢
      refine ⟨k1, ⟨fun j hj => k2.1 j hj, k2.2⟩, ?_⟩
      intro x hx y hy
      rcases List.mem_cons.1 hy with rfl | hy
      · exact k3 x hx i (by simp)
      · exact k3 x hx y (by simp [hy])
    · intro d hd
      rcases List.mem_append.1 hd with hd | hd
      · obtain ⟨j, hj, hh⟩ := h.found d hd
        rw [hm] at hj
        rcases List.mem_append.1 hj with hj | hj
        · exact ⟨j, by simp [hj], hh⟩
        · rcases List.mem_cons.1 hj with rfl | hj
          · exact ⟨_, List.mem_append_right _ List.mem_cons_self, hh⟩
          · exact ⟨j, by simp [hj], hh⟩
      · obtain rfl := List.mem_singleton.1 hd
        exact ⟨_, List.mem_append_right _ List.mem_cons_self, hi'.1, hi'.2.symm⟩
    · have h1 := h.perm
      rw [hm] at h1
      simp only [flat, List.flatMap_append, List.flatMap_cons, List.map_append, List.map_cons,
        List.map_nil] at h1 ⊢
      have h2 : (a.flatMap (·.insts) ++ (defaults c :: i.insts ++ b.flatMap (·.insts))).Perm
          (defaults c :: (a.flatMap (·.insts) ++ (i.insts ++ b.flatMap (·.insts)))) :=
        List.perm_middle
      exact h2.trans ((List.Perm.cons _ h1).trans (List.perm_append_singleton _ _).symm)
    · intro j hj
      rcases hmem j hj with rfl | ⟨hj, _⟩
      · exact ⟨c, by simp, hi'.1.symm, hi'.2⟩
      · obtain ⟨d, hd, hh⟩ := h.keyIn j hj
        exact ⟨d, by simp [hd], hh⟩

/-- Validation finds exactly the conflicts with what was handled before. -/
theorem valid_iff {m : Mod} {done : List Conf} (h : Inv m done) (c : Conf) :
    valid c (ensure c m) = true ↔ ∀ d ∈ done, ¬ Conflict d c := by
  unfold valid ensure
  cases hf : m.find? (fun i => i.is c.iface c.af) with
  | none =>
    simp only [hf]
    have : List.find? (fun i : If => i.is c.iface c.af) (⟨c.iface, c, []⟩ :: m) =
        some ⟨c.iface, c, []⟩ := by
      simp [List.find?_cons, If.is]
    rw [this]
    simp only [List.all_nil, true_iff]
    rintro d hd ⟨⟨e1, e2⟩, e3⟩
    obtain ⟨i, hi, k1, k2⟩ := h.found d hd
    have := List.find?_eq_none.1 hf i hi
    exact this ((is_iff _ _ _).2 ⟨by omega, by omega⟩)
  | some i =>
    simp only [hf]
    have him := List.mem_of_find?_eq_some hf
    have hi := List.find?_some hf
    have hi' := (is_iff _ _ _).1 hi
    rw [List.all_eq_true]
    rw [h.insts i him]
    simp only [List.mem_reverse, List.mem_map, List.mem_filter, decide_eq_true_eq]
    constructor
    · rintro hall d hd ⟨⟨e1, e2⟩, e3⟩
      have := hall (defaults d) ⟨d, ⟨hd, by omega, by omega⟩, rfl⟩
      rw [def_domain] at this
      simp [e3] at this
    · rintro hall x ⟨d, ⟨hd, e1, e2⟩, rfl⟩
      have := hall d hd
      rw [def_domain]
      simp only [Bool.not_eq_true', decide_eq_false_iff_not]
      intro e3
      exact this ⟨⟨by omega, by omega⟩, e3⟩

theorem ensure_mem (c : Conf) (m : Mod) :
    ∃ i ∈ ensure c m, i.is c.iface c.af = true := by
  unfold ensure
  cases hf : m.find? (fun i => i.is c.iface c.af) with
  | none => exact ⟨⟨c.iface, c, []⟩, by simp, by simp [If.is]⟩
  | some i =>
    have := List.find?_some hf
    exact ⟨i, List.mem_of_find?_eq_some hf, this⟩

theorem addTo_perm (c : Conf) (m : Mod) (h : ∃ i ∈ m, i.is c.iface c.af = true) :
    (flat (addTo c m)).Perm (c :: flat m) := by
  induction m with
  | nil => simp at h
  | cons i m ih =>
    unfold addTo
    by_cases hi : i.is c.iface c.af = true
    · simp [hi, flat]
    · simp only [hi, Bool.false_eq_true, if_false]
      have : ∃ j ∈ m, j.is c.iface c.af = true := by
        obtain ⟨j, hj, hh⟩ := h
        rcases List.mem_cons.1 hj with rfl | hj
        · exact absurd hh hi
        · exact ⟨j, hj, hh⟩
      have h1 := ih this
      simp only [flat, List.flatMap_cons] at h1 ⊢
      exact (List.Perm.append_left _ h1).trans List.perm_middle

theorem addTo_nonempty (c : Conf) (m : Mod) (h : ∀ i ∈ m, i.insts ≠ [] ∨ i.is c.iface c.af = true)
    (hu : m.Pairwise (fun i j => i.is c.iface c.af = true → j.is c.iface c.af = true →
      False)) :
    ∀ i ∈ addTo c m, i.insts ≠ [] := by
  induction m with
  | nil => simp [addTo]
  | cons j m ih =>
    unfold addTo
    rw [List.pairwise_cons] at hu
    by_cases hj : j.is c.iface c.af = true
    · simp only [hj, if_true]
      intro i hi
      rcases List.mem_cons.1 hi with rfl | hi
      · simp
      · rcases h i (by simp [hi]) with k | k
        · exact k
        · exact absurd (hu.1 i hi hj k) (by simp)
    · simp only [hj, Bool.false_eq_true, if_false]
      intro i hi
      rcases List.mem_cons.1 hi with rfl | hi
      · rcases h i (by simp) with k | k
        · exact k
        · exact absurd k hj
      · exact ih (fun i hi => h i (by simp [hi])) hu.2 i hi

theorem flat_ensure (c : Conf) (m : Mod) : flat (ensure c m) = flat m := by
  unfold ensure
  cases m.find? (fun i => i.is c.iface c.af) <;> simp [flat]

/-- The instances left when a configuration is refused. -/
theorem fail_shape {m : Mod} {done : List Conf} (h : Inv m done) (c : Conf) :
    (∀ i ∈ addTo c (ensure c m), i.insts ≠ []) ∧
    (flat (addTo c (ensure c m))).Perm (done.map defaults ++ [c]) := by
  constructor
  · apply addTo_nonempty
    · intro i hi
      unfold ensure at hi
      cases hf : m.find? (fun i => i.is c.iface c.af) with
      | none =>
        rw [hf] at hi
        rcases List.mem_cons.1 hi with rfl | hi
        · right; simp [If.is]
        · exact Or.inl (h.nonempty i hi)
      | some j =>
        rw [hf] at hi
        exact Or.inl (h.nonempty i hi)
    · unfold ensure
      cases hf : m.find? (fun i => i.is c.iface c.af) with
      | none =>
        simp only [List.pairwise_cons]
        refine ⟨?_, ?_⟩
        · intro j hj _ hh
          exact absurd hh (List.find?_eq_none.1 hf j hj)
        · refine h.keys.imp ?_
          intro i j hij h1 h2
          rw [is_iff] at h1 h2
          exact hij ⟨by omega, by omega⟩
      | some j =>
        simp only
        refine h.keys.imp ?_
        intro i j hij h1 h2
        rw [is_iff] at h1 h2
        exact hij ⟨by omega, by omega⟩
  · refine (addTo_perm c _ (ensure_mem c m)).trans ?_
    rw [flat_ensure]
    exact (List.Perm.cons _ h.perm).trans (List.perm_append_singleton _ _).symm

/-- What the loop does. -/
theorem createLoop_spec (cs : List Conf) : ∀ (m : Mod) (done : List Conf), Inv m done →
    ((createLoop m cs).2 = true ∧ Inv (createLoop m cs).1 (done ++ cs) ∧
      (∀ pre c post, cs = pre ++ c :: post → ∀ d ∈ done ++ pre, ¬ Conflict d c)) ∨
    ((createLoop m cs).2 = false ∧ ∃ pre c post, cs = pre ++ c :: post ∧
      (∀ pre' c' post', pre = pre' ++ c' :: post' → ∀ d ∈ done ++ pre', ¬ Conflict d c') ∧
      (∃ d ∈ done ++ pre, Conflict d c) ∧
      (∀ i ∈ (createLoop m cs).1, i.insts ≠ []) ∧
      (flat (createLoop m cs).1).Perm ((done ++ pre).map defaults ++ [c])) := by
  induction cs with
  | nil =>
    intro m done h
    left
    refine ⟨rfl, by simpa [createLoop] using h, ?_⟩
    intro pre c post he
    cases pre <;> simp at he
  | cons c cs ih =>
    intro m done h
    unfold createLoop
    by_cases hv : valid c (ensure c m) = true
    · simp only [hv, if_true]
      have hc := (valid_iff h c).1 hv
      rcases ih _ _ (inv_add h c) with ⟨h1, h2, h3⟩ | ⟨h1, pre, x, post, h2, h3, h4, h5, h6⟩
      · left
        refine ⟨h1, by simpa using h2, ?_⟩
        intro pre y post he d hd
        cases pre with
        | nil =>
          simp only [List.nil_append, List.cons.injEq] at he
          obtain ⟨rfl, _⟩ := he
          exact hc d (by simpa using hd)
        | cons z pre =>
          simp only [List.cons_append, List.cons.injEq] at he
          obtain ⟨rfl, he⟩ := he
          exact h3 pre y post he d (by simpa using hd)
      · right
        refine ⟨h1, c :: pre, x, post, by rw [h2]; rfl, ?_, by simpa using h4, h5, by simpa using h6⟩
        intro pre' y post' he d hd
        cases pre' with
        | nil =>
          simp only [List.nil_append, List.cons.injEq] at he
          obtain ⟨rfl, _⟩ := he
          exact hc d (by simpa using hd)
        | cons z pre' =>
          simp only [List.cons_append, List.cons.injEq] at he
          obtain ⟨rfl, he⟩ := he
          exact h3 pre' y post' he d (by simpa using hd)
    · simp only [hv, Bool.false_eq_true, if_false]
      right
      have hc : ∃ d ∈ done, Conflict d c := by
        by_contra hcon
        apply hv
        rw [valid_iff h]
        intro d hd hh
        exact hcon ⟨d, hd, hh⟩
      obtain ⟨f1, f2⟩ := fail_shape h c
      refine ⟨trivial, [], c, cs, rfl, ?_, by simpa using hc, f1, by simpa using f2⟩
      intro pre' y post' he
      cases pre' <;> simp at he

theorem pairwise_of_split {cs : List Conf}
    (h : ∀ pre c post, cs = pre ++ c :: post → ∀ d ∈ pre, ¬ Conflict d c) :
    cs.Pairwise (fun a b => ¬ Conflict a b) := by
  induction cs with
  | nil => exact .nil
  | cons a cs ih =>
    rw [List.pairwise_cons]
    refine ⟨?_, ih ?_⟩
    · intro b hb
      obtain ⟨s, t, rfl⟩ := List.append_of_mem hb
      exact h (a :: s) b t rfl a (by simp)
    · intro pre c post he d hd
      exact h (a :: pre) c post (by rw [he]; rfl) d (by simp [hd])

theorem not_pairwise {pre post : List Conf} {c d : Conf} (hd : d ∈ pre) (h : Conflict d c) :
    ¬ (pre ++ c :: post).Pairwise (fun a b => ¬ Conflict a b) := by
  intro hp
  rw [List.pairwise_append] at hp
  exact hp.2.2 d hd c (by simp) h

/-! ### Traversal and destruction -/

theorem size_eq (m : Mod) : size m = (flat m).length := by
  induction m with
  | nil => rfl
  | cons i m ih =>
    simp only [size, List.map_cons, List.sum_cons, flat, List.flatMap_cons,
      List.length_append] at ih ⊢
    omega

/-- The remaining instances from a position on. -/
def rest (m : Mod) (p : Pos) : List Conf :=
  ((m[p.1]?.map (fun i => i.insts.drop p.2)).getD []) ++ flat (m.drop (p.1 + 1))

theorem rest_step {m : Mod} (hne : ∀ i ∈ m, i.insts ≠ []) {p : Pos} {c : Conf}
    (hp : at? m p = some c) :
    rest m p = c :: (match next m p with | some q => rest m q | none => []) ∧
    (∀ q, next m p = some q → ∃ d, at? m q = some d) := by
  unfold at? at hp
  cases hi : m[p.1]? with
  | none => simp [hi] at hp
  | some i =>
    simp only [hi] at hp
    have hd : i.insts.drop p.2 = c :: i.insts.drop (p.2 + 1) := by
      have := List.getElem?_eq_some_iff.1 hp
      obtain ⟨hlt, he⟩ := this
      rw [← he]
      exact List.drop_eq_getElem_cons hlt
    unfold next
    cases hn : at? m (p.1, p.2 + 1) with
    | some d =>
      simp only
      refine ⟨?_, ?_⟩
      · simp only [rest, hi, Option.map_some, Option.getD_some, hd, List.cons_append]
      · intro q hq
        simp only [Option.some.injEq] at hq
        subst hq
        exact ⟨d, hn⟩
    | none =>
      have hnone : i.insts.drop (p.2 + 1) = [] := by
        simp only [at?, hi] at hn
        exact List.drop_eq_nil_of_le (List.getElem?_eq_none_iff.1 hn)
      simp only
      cases hj : m[p.1 + 1]? with
      | none =>
        simp only
        refine ⟨?_, by simp⟩
        have : m.drop (p.1 + 1) = [] := List.drop_eq_nil_of_le (List.getElem?_eq_none_iff.1 hj)
        simp [rest, hi, hd, hnone, this, flat]
      | some j =>
        have hjm : j ∈ m := List.mem_of_getElem? hj
        have hjne := hne j hjm
        cases hl : j.insts with
        | nil => exact absurd hl hjne
        | cons x xs =>
          simp only [hl]
          refine ⟨?_, ?_⟩
          · have hdrop : m.drop (p.1 + 1) = j :: m.drop (p.1 + 2) := by
              obtain ⟨hlt, he⟩ := List.getElem?_eq_some_iff.1 hj
              rw [← he]
              exact List.drop_eq_getElem_cons hlt
            simp [rest, hi, hj, hd, hnone, hdrop, flat, hl]
          · intro q hq
            simp only [Option.some.injEq] at hq
            subst hq
            exact ⟨x, by simp [at?, hj, hl]⟩

theorem walkFrom_spec {m : Mod} (hne : ∀ i ∈ m, i.insts ≠ []) :
    ∀ (n : Nat) (p : Pos) (c : Conf), at? m p = some c → (rest m p).length ≤ n →
      walkFrom m n (some p) = some (rest m p) := by
  intro n
  induction n with
  | zero =>
    intro p c hp hl
    rw [(rest_step hne hp).1] at hl
    simp at hl
  | succ n ih =>
    intro p c hp hl
    obtain ⟨h1, h2⟩ := rest_step hne hp
    unfold walkFrom
    simp only [hp]
    cases hn : next m p with
    | none =>
      rw [hn] at h1
      rw [h1]
      cases n <;> simp [walkFrom]
    | some q =>
      obtain ⟨d, hd⟩ := h2 q hn
      rw [hn] at h1
      simp only at h1
      rw [h1] at hl ⊢
      rw [ih q d hd (by simp at hl; omega)]
      rfl

theorem walk_spec {m : Mod} (hne : ∀ i ∈ m, i.insts ≠ []) : walk m = some (flat m) := by
  unfold walk first
  cases m with
  | nil => simp [walkFrom, flat]
  | cons i m =>
    have := hne i (by simp)
    cases hi : i.insts with
    | nil => exact absurd hi this
    | cons c cs =>
      simp only [hi]
      have hr : rest (i :: m) (0, 0) = flat (i :: m) := by
        simp [rest, flat]
      rw [← hr]
      apply walkFrom_spec hne _ _ c
      · simp [at?, hi]
      · rw [hr, size_eq]; omega

theorem destroyAll_spec : ∀ (n : Nat) (m : Mod), (∀ i ∈ m, i.insts ≠ []) → (flat m).length ≤ n →
    destroyAll n m = (flat m, []) := by
  intro n
  induction n with
  | zero =>
    intro m hne hl
    cases m with
    | nil => rfl
    | cons i m =>
      have := hne i (by simp)
      have h0 : flat (i :: m) = [] := List.eq_nil_of_length_eq_zero (by omega)
      simp only [flat, List.flatMap_cons, List.append_eq_nil_iff] at h0
      exact absurd h0.1 this
  | succ n ih =>
    intro m hne hl
    unfold destroyAll
    cases m with
    | nil => simp [destroyFirst, flat]
    | cons i m =>
      have hi := hne i (by simp)
      unfold destroyFirst
      cases hc : i.insts with
      | nil => exact absurd hc hi
      | cons c cs =>
        simp only [hc]
        cases cs with
        | nil =>
          simp only
          have hf : flat (i :: m) = c :: flat m := by simp [flat, hc]
          rw [hf] at hl ⊢
          rw [ih m (fun j hj => hne j (by simp [hj])) (by simp at hl; omega)]
        | cons d ds =>
          simp only
          have hf : flat (i :: m) = c :: flat ({ i with insts := d :: ds } :: m) := by
            simp [flat, hc]
          rw [hf] at hl ⊢
          rw [ih _ ?_ (by simp at hl; omega)]
          intro j hj
          rcases List.mem_cons.1 hj with rfl | hj
          · simp
          · exact hne j (by simp [hj])

end Verif.PtpMod
