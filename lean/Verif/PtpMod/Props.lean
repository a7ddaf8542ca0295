/-
Properties of the PTP sync module: translations and instances (C242-C251).
-/
import Verif.PtpMod.Support
import Mathlib.Algebra.Order.Group.Abs
import Mathlib.Algebra.Order.Field.Rat

set_option linter.unusedSimpArgs false
set_option linter.unusedVariables false

namespace Verif.PtpMod

/-! ### C242, C243: accuracy -/

theorem accMap_eq : accMap =
    (List.range 17).map (fun j => (0x20 + j, ieeeBound (0x20 + j))) ++ [(0xFE, none), (0x31, none)] := by
  decide +kernel

theorem bound_some : ∀ j < 17, (ieeeBound (0x20 + j)).isSome = true := by decide +kernel

theorem bound_range {e : Nat} {b : Rat} (h : ieeeBound e = some b) : ∃ j < 17, e = 0x20 + j := by
  unfold ieeeBound at h
  split at h
  · exact ⟨e - 0x20, by omega, by omega⟩
  · split at h
    · exact ⟨16, by omega, by omega⟩
    · simp at h

theorem bound_le {e : Nat} {b : Rat} (h : ieeeBound e = some b) : b ≤ 10 ^ 10 := by
  obtain ⟨j, hj, rfl⟩ := bound_range h
  have : ∀ j < 17, ∀ b ∈ ieeeBound (0x20 + j), b ≤ 10 ^ 10 := by decide +kernel
  exact this j hj b h

theorem within_num (r b : Rat) : F.within (.num r) (some b) = decide (|r| ≤ b) := by
  unfold F.within
  rw [Bool.eq_iff_iff]
  simp only [Bool.and_eq_true, decide_eq_true_eq]
  exact abs_le.symm

/-- C242: an accuracy is announced with the code of IEEE 1588 table 6 that has
the smallest bound not below its magnitude, and with `unknown` if it exceeds
ten seconds or is not a number. -/
theorem C242_encode (r : Rat) :
    (∃ b, ieeeBound (accToEnum (.num r)) = some b ∧ |r| ≤ b ∧
      ∀ k b', ieeeBound k = some b' → k < accToEnum (.num r) → b' < |r|) ∨
    (10 ^ 10 < |r| ∧ accToEnum (.num r) = 0xFE) := by
  unfold accToEnum
  rw [accMap_eq, List.find?_append, List.find?_map]
  cases hf : (List.range 17).find?
      ((fun e : Nat × Option Rat => (F.num r).within e.2) ∘ fun j => (0x20 + j, ieeeBound (0x20 + j))) with
  | some j =>
    obtain ⟨h1, h2, h3⟩ := List.find?_range_eq_some.1 hf
    have hj : j < 17 := by simpa using h2
    simp only [Option.map_some, Option.some_or]
    left
    obtain ⟨b, hb⟩ := Option.isSome_iff_exists.1 (bound_some j hj)
    refine ⟨b, hb, ?_, ?_⟩
    · simp only [Function.comp_apply, hb, within_num, decide_eq_true_eq] at h1
      exact h1
    · intro k b' hk hlt
      obtain ⟨i, hi, rfl⟩ := bound_range hk
      have := h3 i (by omega)
      simp only [Function.comp_apply, hk, within_num, Bool.not_eq_true', decide_eq_false_iff_not,
        not_le] at this
      exact this
  | none =>
    right
    have h := List.find?_eq_none.1 hf 16 (by simp)
    have h16 : ieeeBound (0x20 + 16) = some (10 ^ 10) := by decide +kernel
    simp only [Function.comp_apply, h16, within_num, decide_eq_true_eq, not_le] at h
    exact ⟨h, rfl⟩

theorem C242_special : accToEnum .inf = 0xFE ∧ accToEnum .ninf = 0xFE ∧ accToEnum .nan = 0xFE := by
  decide +kernel

example : accToEnum (.num (-300)) = 0x23 ∧ accToEnum (.num 20000000000) = 0xFE ∧
    accToEnum (.num 0) = 0x20 := by decide +kernel

/-- C243: decoding gives the bound of the table for every code; a decoded bound
is encoded again as the same code; and a worse accuracy never gets a better
code. -/
theorem C243_decode (e : Nat) : accToFloat e = ieeeBound e := by
  by_cases h : e < 0x40
  · have : ∀ e < 0x40, accToFloat e = ieeeBound e := by decide +kernel
    exact this e h
  · have h1 : ieeeBound e = none := by
      unfold ieeeBound
      rw [if_neg (by omega), if_neg (by omega)]
    rw [h1]
    unfold accToFloat
    cases hf : accMap.find? (fun m => e == m.1) with
    | none => rfl
    | some m =>
      have hm := List.mem_of_find?_eq_some hf
      have he := List.find?_some hf
      have : ∀ m ∈ accMap, 0x40 ≤ m.1 → m.2 = none := by decide +kernel
      exact this m hm (by simp at he; omega)

theorem C243_roundtrip (e : Nat) (b : Rat) (h : ieeeBound e = some b) : accToEnum (.num b) = e := by
  obtain ⟨j, hj, rfl⟩ := bound_range h
  have : ∀ j < 17, ∀ b ∈ ieeeBound (0x20 + j), accToEnum (.num b) = 0x20 + j := by decide +kernel
  exact this j hj b h

theorem C243_monotone (r s : Rat) (h : |r| ≤ |s|) : accToEnum (.num r) ≤ accToEnum (.num s) := by
  rcases C242_encode s with ⟨b, hb, hs, hmin⟩ | ⟨_, hs⟩
  · rcases C242_encode r with ⟨c, hc, hr, hminr⟩ | ⟨hr, he⟩
    · by_contra hlt
      have := hminr _ _ hb (by omega)
      linarith
    · have := bound_le hb
      linarith
  · rw [hs]
    rcases C242_encode r with ⟨c, hc, _⟩ | ⟨_, he⟩
    · obtain ⟨j, hj, he⟩ := bound_range hc
      omega
    · omega

example : accToFloat 0x2A = some 2500000 ∧ accToEnum (.num 2500000) = 0x2A ∧
    accToFloat 0x31 = none := by decide +kernel

/-! ### C244: clock class -/

/-- C244: what is announced for a class of clock is read back as that class. -/
def C244_statement : Prop := ∀ c, classFrom (classTo c) = c

/-- An unknown class is announced as slave-only and read back as
free-running. -/
theorem C244_violated : ¬ C244_statement := by
  intro h
  exact absurd (h .unknown) (by decide)

theorem C244_partial (c : Class) (h : c ≠ .unknown) : classFrom (classTo c) = c := by
  cases c <;> first | rfl | exact absurd rfl h

/-- The classification is that of the standard, and a better class is announced
with a smaller number, for the comparison of masters. -/
theorem C244_class_partial (n : Nat) (c : Class) : classFrom n = c ↔ ieeeClass n c := by
  unfold classFrom ieeeClass
  constructor
  · intro h
    split at h
    · subst h; simp; omega
    · split at h
      · subst h; simp; omega
      · split at h
        · subst h; simp; omega
        · subst h; simp; omega
  · intro h
    cases c <;> simp at h
    · rw [if_pos (by omega)]
    · rw [if_neg (by omega), if_pos (by omega)]
    · rw [if_neg (by omega), if_neg (by omega), if_pos (by omega)]
    · rw [if_neg (by omega), if_neg (by omega), if_neg (by omega)]

theorem C244_order_partial : classTo .locked < classTo .holdover ∧
    classTo .holdover < classTo .freerunning ∧ classTo .freerunning < classTo .unknown ∧
    classTo .unknown < 256 := by decide

example : ieeeClass 187 .freerunning ∧ classFrom 187 = .freerunning ∧ classFrom 100 = .unknown := by
  refine ⟨by simp [ieeeClass], by decide, by decide⟩

/-! ### C245: state names -/

/-- C245: the name of the port state in the statistics is that of the state
reported to the engine, with a prefix; a slave with alarms is marked. -/
theorem C245_text (s : PState) (a : BitVec 32) :
    stateText s a = "ptp-" ++ syncText (translate s) ++
      (if translate s = .slave ∧ 0 < a.toNat then "-alarm" else "") := by
  have ha : 0 < a.toNat ↔ a ≠ 0 := by
    rw [Nat.pos_iff_ne_zero, ne_eq, ne_eq, ← BitVec.toNat_inj]
    rfl
  simp only [ha, stateText]
  by_cases h : a = 0
  · simp only [h, ne_eq, not_true, and_false, if_false]
    cases s <;> decide
  · simp only [h, ne_eq, not_false_iff, and_true]
    cases s <;> decide

example : stateText .slave 4 = "ptp-slave-alarm" ∧ stateText .uncalibrated 4 = "ptp-faulty" := by
  decide

/-! ### C246-C248: creation -/

theorem create_true {cs : List Conf} (h : (create cs).2.1 = true) :
    (createLoop [] cs).2 = true ∧ (create cs).1 = (createLoop [] cs).1 ∧ (create cs).2.2 = [] := by
  unfold create at h ⊢
  by_cases hc : (createLoop [] cs).2 = true
  · simp [hc]
  · simp [hc] at h

theorem create_inv {cs : List Conf} (h : (create cs).2.1 = true) : Inv (create cs).1 cs := by
  obtain ⟨h1, h2, _⟩ := create_true h
  rw [h2]
  rcases createLoop_spec cs [] [] inv_nil with ⟨_, k, _⟩ | ⟨k, _⟩
  · simpa using k
  · rw [h1] at k; simp at k

/-- C246: the instances are created if and only if no two of them use the same
domain on the same interface with the same transport. -/
theorem C246_accept (cs : List Conf) :
    (create cs).2.1 = true ↔ cs.Pairwise (fun a b => ¬ Conflict a b) := by
  unfold create
  rcases createLoop_spec cs [] [] inv_nil with ⟨h1, h2, h3⟩ | ⟨h1, pre, c, post, h2, h3, h4, h5, h6⟩
  · simp only [h1, if_true, true_iff]
    exact pairwise_of_split (fun pre c post he d hd => h3 pre c post he d (by simpa using hd))
  · simp only [h1, Bool.false_eq_true, if_false, false_iff]
    obtain ⟨d, hd, hh⟩ := h4
    rw [h2]
    exact not_pairwise (by simpa using hd) hh

def exA : Conf := ⟨1, 10, 2, 0, .undef, false, 1, true, true⟩
def exB : Conf := ⟨2, 10, 2, 1, .undef, true, 0, true, false⟩
def exC : Conf := ⟨3, 10, 10, 0, .other 3, false, 1, false, true⟩
def exD : Conf := ⟨4, 10, 2, 1, .undef, false, 1, true, true⟩

example : (create [exA, exB, exC]).2.1 = true ∧ (create [exA, exB, exC, exD]).2.1 = false := by
  decide

/-- C247: after success each interface carries exactly the instances that were
configured for it, the latest first, each with its defaults set; its
representative is the first one configured; interfaces are pairwise different;
none is empty and every configuration has one. -/
theorem C247_grouping (cs : List Conf) (h : (create cs).2.1 = true) :
    (∀ i ∈ (create cs).1, i.insts ≠ [] ∧ i.insts.getLast? = some i.rep ∧
      List.Forall₂ Defaulted (cs.filter (fun c => decide (c.iface = i.name ∧ c.af = i.rep.af)))
        i.insts.reverse) ∧
    (create cs).1.Pairwise (fun i j => ¬ (i.name = j.name ∧ i.rep.af = j.rep.af)) ∧
    (∀ c ∈ cs, ∃ i ∈ (create cs).1, i.name = c.iface ∧ i.rep.af = c.af) := by
  have hi := create_inv h
  refine ⟨?_, hi.keys, hi.found⟩
  intro i him
  refine ⟨hi.nonempty i him, hi.rep i him, ?_⟩
  rw [hi.insts i him, List.reverse_reverse]
  generalize cs.filter (fun c => decide (c.iface = i.name ∧ c.af = i.rep.af)) = l
  induction l with
  | nil => exact .nil
  | cons c l ih => exact .cons (defaults_spec c) ih

example : ((create [exA, exB, exC]).1.map (fun i => (i.name, i.rep.af, i.insts.map (·.id)))) =
    [(10, 10, [3]), (10, 2, [2, 1])] := by decide

/-- C248: if a configuration is refused everything created so far is destroyed
again, each instance once, and nothing is left. -/
theorem C248_failure (cs : List Conf) (h : (create cs).2.1 = false) :
    (create cs).1 = [] ∧
    ∃ pre c post, cs = pre ++ c :: post ∧ pre.Pairwise (fun a b => ¬ Conflict a b) ∧
      (∃ d ∈ pre, Conflict d c) ∧
      ((create cs).2.2.map (·.id)).Perm ((pre ++ [c]).map (·.id)) := by
  unfold create at h ⊢
  rcases createLoop_spec cs [] [] inv_nil with ⟨h1, h2, h3⟩ | ⟨h1, pre, c, post, h2, h3, h4, h5, h6⟩
  · simp [h1] at h
  · have hd := destroyAll_spec (size (createLoop [] cs).1) (createLoop [] cs).1 h5
      (by rw [size_eq])
    simp only [h1, Bool.false_eq_true, if_false, hd]
    refine ⟨trivial, pre, c, post, h2, ?_, by simpa using h4, ?_⟩
    · exact pairwise_of_split (fun a b c he d hd => h3 a b c he d (by simpa using hd))
    · have := List.Perm.map (fun x : Conf => x.id) h6
      refine this.trans ?_
      simp only [List.nil_append, List.map_append, List.map_map, List.map_cons, List.map_nil]
      have : List.map ((fun x : Conf => x.id) ∘ defaults) pre = List.map (fun x => x.id) pre := by
        apply List.map_congr_left
        intro a _
        exact (defaults_spec a).id
      rw [this]

example : (create [exA, exB, exC, exD]).1 = [] ∧
    (create [exA, exB, exC, exD]).2.2.map (·.id) = [3, 4, 2, 1] := by decide

/-- C248: shutting the module down likewise destroys each instance once and
leaves no interface. -/
theorem C248_shutdown (cs : List Conf) (h : (create cs).2.1 = true) :
    (destroyAll (size (create cs).1) (create cs).1).2 = [] ∧
    ((destroyAll (size (create cs).1) (create cs).1).1.map (·.id)).Perm (cs.map (·.id)) := by
  have hi := create_inv h
  rw [destroyAll_spec _ _ hi.nonempty (by rw [size_eq])]
  refine ⟨rfl, ?_⟩
  refine (List.Perm.map _ hi.perm).trans ?_
  rw [List.map_map]
  have : List.map ((fun x : Conf => x.id) ∘ defaults) cs = List.map (fun x => x.id) cs := by
    apply List.map_congr_left
    intro a _
    exact (defaults_spec a).id
  rw [this]

example : (destroyAll 3 (create [exA, exB, exC]).1).1.map (·.id) = [3, 2, 1] := by decide

/-! ### C249, C250: traversal -/

/-- C249: going from the first instance to the next reaches the end after
visiting every configured instance exactly once, those of an interface
together. -/
theorem C249_walk (cs : List Conf) (h : (create cs).2.1 = true) :
    ∃ l, walk (create cs).1 = some l ∧ (l.map (·.id)).Perm (cs.map (·.id)) ∧
      l = ((create cs).1.map (·.insts)).flatten := by
  have hi := create_inv h
  refine ⟨flat (create cs).1, walk_spec hi.nonempty, ?_, ?_⟩
  · refine (List.Perm.map _ hi.perm).trans ?_
    rw [List.map_map]
    have : List.map ((fun x : Conf => x.id) ∘ defaults) cs = List.map (fun x => x.id) cs := by
      apply List.map_congr_left
      intro a _
      exact (defaults_spec a).id
    rw [this]
  · exact (List.flatMap_def ..)

example : (walk (create [exA, exB, exC]).1).map (List.map (·.id)) = some [3, 2, 1] := by decide

/-- C250: grandmaster information is passed to every instance but the one it
came from, leap second information to every instance, and the caller of
`sfptpd_ptp_module_create` is told of as many instances as its buffer holds. -/
theorem C250_gm (l : List Conf) (o : Option Nat) (c : Class) (a : F) :
    (gmInfo l o c a).map (·.1) = l.filter (fun x => decide (some x.id ≠ o)) ∧
    ∀ x ∈ gmInfo l o c a, (c ≠ .unknown → ieeeClass x.2.1 c) ∧
      (∀ r, a = .num r → ∀ b, ieeeBound x.2.2 = some b → |r| ≤ b) := by
  constructor
  · induction l with
    | nil => rfl
    | cons x l ih =>
      unfold gmInfo at ih ⊢
      by_cases hx : some x.id ≠ o
      · rw [List.filterMap_cons_some (b := (x, classTo c, accToEnum a)) (by simp [hx])]
        rw [List.filter_cons_of_pos (by simpa using hx), List.map_cons, ih]
      · rw [List.filterMap_cons_none (by simp at hx; simp [hx])]
        rw [List.filter_cons_of_neg (by simpa using hx), ih]
  · intro x hx
    unfold gmInfo at hx
    obtain ⟨y, _, hy⟩ := List.mem_filterMap.1 hx
    split at hy
    · simp only [Option.some.injEq] at hy
      subst hy
      refine ⟨fun hc => (C244_class_partial _ _).1 (C244_partial c hc), ?_⟩
      rintro r rfl b hb
      simp only at hb
      rcases C242_encode r with ⟨b', hb', h, _⟩ | ⟨_, h⟩
      · rw [hb'] at hb; simp at hb; linarith
      · have h0 : ieeeBound 0xFE = none := by decide +kernel
        rw [h, h0] at hb; simp at hb
    · simp at hy

theorem C250_leap (l : List Conf) (t : Nat) :
    (leapInfo l t).map (·.1) = l ∧
    ∀ x ∈ leapInfo l t, (x.2.1 = true ↔ t = 59) ∧ (x.2.2 = true ↔ t = 61) := by
  constructor
  · unfold leapInfo
    rw [List.map_map]
    exact List.map_id l
  · intro x hx
    obtain ⟨y, _, rfl⟩ := List.mem_map.1 hx
    simp

theorem C250_buffer (l : List Conf) (n : Nat) :
    (infoBuffer l n).length = n ∧
    ∀ k, k < n → (infoBuffer l n)[k]? = some l[k]? := by
  unfold infoBuffer
  constructor
  · simp; omega
  · intro k hk
    by_cases hl : k < l.length
    · rw [List.getElem?_append_left (by simp; omega)]
      simp only [List.getElem?_map, List.getElem?_take, if_pos hk]
      rw [List.getElem?_eq_getElem hl]
      rfl
    · rw [List.getElem?_append_right (by simp; omega)]
      rw [List.getElem?_eq_none (by omega : l.length ≤ k)]
      rw [List.getElem?_replicate, if_pos (by simp; omega)]

example : (gmInfo [exA, exB, exC] (some 2) .locked (.num 90)).map (fun x => (x.1.id, x.2)) =
    [(1, 6, 0x21), (3, 6, 0x21)] ∧
    infoBuffer [exA, exB] 3 = [some exA, some exB, none] := by decide +kernel

/-! ### C251: control flags -/

/-- C251: a control message changes exactly the flags in its mask, to the
values it gives, and ptpd is told exactly if some flag changed. -/
theorem C251_control (old flags mask : BitVec 32) :
    (∀ k, (control old flags mask).1.getLsbD k =
      if mask.getLsbD k = true then flags.getLsbD k else old.getLsbD k) ∧
    ((control old flags mask).2 = true ↔
      ∃ k, mask.getLsbD k = true ∧ flags.getLsbD k ≠ old.getLsbD k) := by
  have h1 : ∀ k, (control old flags mask).1.getLsbD k =
      if mask.getLsbD k = true then flags.getLsbD k else old.getLsbD k := by
    intro k
    simp only [control, BitVec.getLsbD_or, BitVec.getLsbD_and, BitVec.getLsbD_not]
    by_cases hk : k < 32
    · cases hm : mask.getLsbD k <;> simp [hk]
    · have e1 : mask.getLsbD k = false := BitVec.getLsbD_of_ge _ _ (by omega)
      have e2 : old.getLsbD k = false := BitVec.getLsbD_of_ge _ _ (by omega)
      simp [e1, e2]
  refine ⟨h1, ?_⟩
  have h2 : (control old flags mask).2 = true ↔ (control old flags mask).1 ≠ old := by
    simp [control]
  rw [h2]
  constructor
  · intro h
    by_contra hcon
    apply h
    apply BitVec.eq_of_getLsbD_eq
    intro k _
    rw [h1]
    by_cases hm : mask.getLsbD k = true
    · rw [if_pos hm]
      by_contra hne
      exact hcon ⟨k, hm, hne⟩
    · rw [if_neg hm]
  · rintro ⟨k, hm, hne⟩ heq
    have := h1 k
    rw [heq, if_pos hm] at this
    exact hne this.symm

example : control 2 1 1 = (3, true) ∧ control 2 8 1 = (2, false) := by decide

end Verif.PtpMod
