import Verif.Netlink.Trace

set_option linter.unusedSimpArgs false
set_option linter.unusedVariables false

/-! Sorting and comparing tables. -/

namespace Verif.Netlink

theorem sigMask_bit (i : Nat) (hi : i < 32) :
    sigMask.getLsbD i = decide (i ∈ [0, 3, 6, 7, 10, 11, 12, 16]) := by
  revert i; decide

theorem flags_matter (a b : BitVec 32) :
    (a ≠ b ∧ a &&& sigMask ≠ b &&& sigMask) ↔
      ∃ k ∈ [0, 3, 6, 7, 10, 11, 12, 16], a.getLsbD k ≠ b.getLsbD k := by
  constructor
  · rintro ⟨_, h⟩
    by_contra hc
    apply h
    apply BitVec.eq_of_getLsbD_eq
    intro i hi
    rw [BitVec.getLsbD_and, BitVec.getLsbD_and, sigMask_bit i hi]
    by_cases hm : i ∈ [0, 3, 6, 7, 10, 11, 12, 16]
    · have : a.getLsbD i = b.getLsbD i := by
        by_contra hne
        exact hc ⟨i, hm, hne⟩
      rw [this]
    · simp [hm]
  · rintro ⟨k, hk, hne⟩
    have hk32 : k < 32 := by
      simp only [List.mem_cons, List.not_mem_nil, or_false] at hk
      omega
    refine ⟨fun he => hne (by rw [he]), fun he => ?_⟩
    apply hne
    have := congrArg (fun x => x.getLsbD k) he
    simp only [BitVec.getLsbD_and, sigMask_bit k hk32, hk, decide_true, Bool.and_true] at this
    exact this

theorem differs_iff (a b : Link) : differs a b = true ↔ Matters a b := by
  unfold differs Matters
  rw [decide_eq_true_iff, flags_matter]
  generalize (∃ k ∈ [0, 3, 6, 7, 10, 11, 12, 16], a.flags.getLsbD k ≠ b.flags.getLsbD k) = P
  constructor
  · rintro (h | h | h | h | h)
    · exact .inl h
    · exact .inr (.inl h)
    · exact .inr (.inr (.inl h))
    · exact .inr (.inr (.inr (.inr (.inr (.inr (.inr (.inr (.inr (.inr h)))))))))
    · exact .inr (.inr (.inr (by rcases h with h | h | h | h | h | h | h <;> simp [h])))
  · rintro (h | h | h | h | h | h | h | h | h | h | h) <;> simp [h]

theorem findOld_none (i : Int) (prev : List Link) :
    findOld i prev = none ↔ ∀ r ∈ prev, r.idx ≠ i := by
  induction prev with
  | nil => simp [findOld]
  | cons r rs ih =>
      unfold findOld
      by_cases h : r.idx = i
      · simp [h]
      · simp [h, ih]

theorem findOld_skip (i : Int) (pre os : List Link) (h : ∀ r ∈ pre, r.idx ≠ i) :
    findOld i (pre ++ os) = (findOld i os).map (fun p => (p.1 + pre.length, p.2)) := by
  induction pre with
  | nil => simp
  | cons r rs ih =>
      have e : findOld i (r :: (rs ++ os)) = (findOld i (rs ++ os)).map (fun p => (p.1 + 1, p.2)) := by
        rw [findOld, if_neg (h r (by simp))]
      rw [List.cons_append, e, ih (fun x hx => h x (by simp [hx]))]
      cases findOld i os with
      | none => rfl
      | some p => simp; omega

theorem findOld_some (i : Int) (prev : List Link) (j : Nat) (a : Link)
    (h : findOld i prev = some (j, a)) : a ∈ prev ∧ a.idx = i := by
  induction prev generalizing j with
  | nil => simp [findOld] at h
  | cons r rs ih =>
      unfold findOld at h
      by_cases hi : r.idx = i
      · rw [if_pos hi] at h
        simp only [Option.some.injEq, Prod.mk.injEq] at h
        rw [← h.2]; exact ⟨by simp, hi⟩
      · rw [if_neg hi] at h
        cases hf : findOld i rs with
        | none => simp [hf] at h
        | some p =>
            simp only [hf, Option.map_some, Option.some.injEq, Prod.mk.injEq] at h
            obtain ⟨h1, h2⟩ := ih p.1 (by rw [hf, ← h.2])
            exact ⟨by simp [h1], h2⟩

theorem annotate_idx (prev : List Link) (b : Link) : (annotate prev b).1.idx = b.idx := by
  unfold annotate
  split <;> rfl

/-- The event a row is given. -/
theorem annotate_ev (prev : List Link) (b : Link) :
    ((∀ r ∈ prev, r.idx ≠ b.idx) ∧ (annotate prev b).1 = { b with ev := .up }) ∨
    (∃ a ∈ prev, a.idx = b.idx ∧
      (Matters a b → (annotate prev b).1 = { b with ev := .change }) ∧
      (¬ Matters a b → (annotate prev b).1 = { b with ev := .none })) := by
  unfold annotate
  cases hf : findOld b.idx prev with
  | none => exact .inl ⟨(findOld_none _ _).1 hf, rfl⟩
  | some p =>
      obtain ⟨j, a⟩ := p
      obtain ⟨h1, h2⟩ := findOld_some _ _ _ _ hf
      refine .inr ⟨a, h1, h2, ?_, ?_⟩
      · intro hm; simp only [(differs_iff a b).2 hm, if_true]
      · intro hm
        have : ¬ differs a b = true := fun h => hm ((differs_iff a b).1 h)
        simp only [if_neg this]

theorem merge_spec (prev : List Link) (n : Nat) (ls : List Link) (pre os : List Link) (ifi pifi : Int)
    (change : Bool) (hn : ls.length + os.length ≤ n) (hp : prev = pre ++ os)
    (hls : ls.Pairwise (fun a b => a.idx < b.idx)) (hos : os.Pairwise (fun a b => a.idx < b.idx))
    (hl0 : ∀ l ∈ ls, ifi < l.idx) (ho0 : ∀ o ∈ os, pifi < o.idx)
    (hpre : ∀ a ∈ pre, ∀ l ∈ ls, a.idx < l.idx) :
    merge n (ls.map (annotate prev)) pre.length os ifi pifi change =
      .ok (change || os.any (fun o => !ls.any (fun l => l.idx = o.idx))) := by
  induction n generalizing ls pre os ifi pifi change with
  | zero =>
      have h1 : ls = [] := List.length_eq_zero_iff.1 (by omega)
      have h2 : os = [] := List.length_eq_zero_iff.1 (by omega)
      subst h1; subst h2
      simp [merge]
  | succ n ih =>
      match ls, os with
      | [], [] => simp [merge]
      | [], o :: os =>
          have ho := ho0 o (by simp)
          rw [List.pairwise_cons] at hos
          simp only [List.map_nil, merge]
          rw [if_neg (by omega)]
          have := ih [] (pre ++ [o]) os ifi o.idx true (by simp at hn ⊢; omega) (by simp [hp]) .nil hos.2
            (by simp) hos.1 (by simp)
          simp only [List.map_nil, List.length_append, List.length_cons, List.length_nil] at this
          rw [this]; simp
      | l :: ls, [] =>
          have hl := hl0 l (by simp)
          rw [List.pairwise_cons] at hls
          have hup : (annotate prev l).1.ev = .up := by
            unfold annotate
            have : findOld l.idx prev = none := by
              rw [findOld_none]
              intro r hr
              rw [hp] at hr
              have := hpre r (by simpa using hr) l (by simp)
              omega
            rw [this]
          have hidx := annotate_idx prev l
          rw [List.map_cons]
          generalize annotate prev l = an at hup hidx
          obtain ⟨al, ap⟩ := an
          simp only at hup hidx
          simp only [merge]
          rw [if_neg (by omega), if_neg (by simp [hup])]
          rw [ih ls pre [] al.idx pifi change (by simp at hn ⊢; omega) hp hls.2 .nil
            (by rw [hidx]; exact hls.1) (by simp) (fun a ha x hx => hpre a ha x (by simp [hx]))]
          simp
      | l :: ls, o :: os =>
          have hl := hl0 l (by simp)
          have ho := ho0 o (by simp)
          have hls' := hls
          have hos' := hos
          rw [List.pairwise_cons] at hls hos
          have hidx := annotate_idx prev l
          have hskip : findOld l.idx prev =
              (findOld l.idx (o :: os)).map (fun p => (p.1 + pre.length, p.2)) := by
            rw [hp]
            apply findOld_skip
            intro r hr
            have := hpre r hr l (by simp)
            omega
          have hup : l.idx < o.idx → (annotate prev l).1.ev = .up := by
            intro hlt
            unfold annotate
            have : findOld l.idx (o :: os) = none := by
              rw [findOld_none]
              intro r hr
              rcases List.mem_cons.1 hr with rfl | hr
              · omega
              · have := hos.1 r hr; omega
            rw [hskip, this]; rfl
          have heq : l.idx = o.idx → (annotate prev l).2 = some pre.length := by
            intro he
            unfold annotate
            have : findOld l.idx (o :: os) = some (0, o) := by
              unfold findOld; rw [if_pos he.symm]
            rw [hskip, this]; simp
          rw [List.map_cons]
          generalize he : annotate prev l = an at hup heq hidx
          obtain ⟨al, ap⟩ := an
          simp only at hup heq hidx
          simp only [merge]
          rw [if_neg (by omega)]
          by_cases hlt : al.idx < o.idx
          · rw [if_pos hlt, if_neg (by simp [hup (by omega)])]
            rw [ih ls pre (o :: os) al.idx pifi change (by simp at hn ⊢; omega) hp hls.2 hos'
              (by rw [hidx]; exact hls.1) ho0 (fun a ha x hx => hpre a ha x (by simp [hx]))]
            have : (o :: os).any (fun o => !ls.any (fun l => l.idx = o.idx)) =
                (o :: os).any (fun o => !(l :: ls).any (fun l => l.idx = o.idx)) := by
              rw [Bool.eq_iff_iff]
              simp only [List.any_eq_true]
              have hge : ∀ x ∈ o :: os, l.idx ≠ x.idx := by
                intro x hx
                rcases List.mem_cons.1 hx with rfl | hx
                · omega
                · have := hos.1 x hx; omega
              constructor
              · rintro ⟨x, hx, h⟩
                refine ⟨x, hx, ?_⟩
                have := hge x hx
                simpa [this] using h
              · rintro ⟨x, hx, h⟩
                refine ⟨x, hx, ?_⟩
                have := hge x hx
                simpa [this] using h
            rw [this]
          · rw [if_neg hlt]
            by_cases hgt : o.idx < al.idx
            · rw [if_pos hgt]
              have := ih (l :: ls) (pre ++ [o]) os ifi o.idx true (by simp at hn ⊢; omega) (by simp [hp])
                hls' hos.2 hl0 hos.1 (by
                  intro a ha x hx
                  rcases List.mem_append.1 ha with ha | ha
                  · exact hpre a ha x hx
                  · simp only [List.mem_singleton] at ha; subst ha
                    rcases List.mem_cons.1 hx with rfl | hx
                    · omega
                    · have := hls.1 x hx; omega)
              simp only [List.length_append, List.length_cons, List.length_nil, List.map_cons] at this
              rw [he] at this
              rw [this]
              have hno : (l :: ls).any (fun l => l.idx = o.idx) = false := by
                rw [List.any_eq_false]
                intro x hx
                rcases List.mem_cons.1 hx with rfl | hx
                · simp; omega
                · have := hls.1 x hx; simp; omega
              simp only [List.any_cons] at hno ⊢
              simp [hno]
            · rw [if_neg hgt]
              have hlo : l.idx = o.idx := by omega
              have hap := heq hlo
              have rest : merge n (ls.map (annotate prev)) (pre.length + 1) os al.idx o.idx change =
                  .ok (change || os.any (fun o => !ls.any (fun l => l.idx = o.idx))) := by
                have := ih ls (pre ++ [o]) os al.idx o.idx change (by simp at hn ⊢; omega) (by simp [hp])
                  hls.2 hos.2 (by rw [hidx]; exact hls.1) hos.1 (by
                    intro a ha x hx
                    rcases List.mem_append.1 ha with ha | ha
                    · exact hpre a ha x (by simp [hx])
                    · simp only [List.mem_singleton] at ha; subst ha
                      have := hls.1 x hx; omega)
                simpa only [List.length_append, List.length_cons, List.length_nil] using this
              have hsame : (o :: os).any (fun o => !(l :: ls).any (fun l => l.idx = o.idx)) =
                  os.any (fun o => !ls.any (fun l => l.idx = o.idx)) := by
                rw [List.any_cons]
                have h0 : (l :: ls).any (fun l => l.idx = o.idx) = true := by simp [hlo]
                rw [h0, Bool.not_true, Bool.false_or]
                rw [Bool.eq_iff_iff]
                simp only [List.any_eq_true]
                constructor
                · rintro ⟨x, hx, h⟩
                  refine ⟨x, hx, ?_⟩
                  have : l.idx ≠ x.idx := by have := hos.1 x hx; omega
                  simpa [this] using h
                · rintro ⟨x, hx, h⟩
                  refine ⟨x, hx, ?_⟩
                  have : l.idx ≠ x.idx := by have := hos.1 x hx; omega
                  simpa [this] using h
              rw [hsame, ← rest]
              by_cases hc : al.ev = .change
              · rw [if_pos hc, if_neg (by simp [hap])]
              · rw [if_neg hc]

theorem compare_spec (prev cur : List Link) (hp : Sorted prev) (hc : Sorted cur) :
    compare prev cur = .ok (cur.map (fun b => (annotate prev b).1),
      (cur.map (annotate prev)).any (fun a => a.1.ev ≠ .none) ||
        prev.any (fun o => !cur.any (fun l => l.idx = o.idx))) := by
  unfold compare
  have := merge_spec prev (cur.length + prev.length) cur [] prev (-1) (-1)
    ((cur.map (annotate prev)).any (fun a => a.1.ev ≠ .none)) (Nat.le_refl _) rfl hc.1 hp.1
    (fun l hl => by have := hc.2 l hl; omega) (fun o ho => by have := hp.2 o ho; omega) (by simp)
  simp only [List.length_nil] at this
  simp only [bind, Except.bind, pure, Except.pure]
  rw [this]
  simp

theorem change_iff (prev cur : List Link) (hp : Sorted prev) (hc : Sorted cur) :
    ((cur.map (annotate prev)).any (fun a => a.1.ev ≠ .none) ||
        prev.any (fun o => !cur.any (fun l => l.idx = o.idx))) = true ↔ TablesDiffer prev cur := by
  have huniq : ∀ a ∈ prev, ∀ a' ∈ prev, a.idx = a'.idx → a = a' := by
    intro a ha a' ha' he
    have := hp.1
    have hn : (prev.map (·.idx)).Nodup := by
      rw [List.nodup_iff_pairwise_ne, List.pairwise_map]
      exact this.imp (fun h => Int.ne_of_lt h)
    exact List.inj_on_of_nodup_map hn ha ha' he
  rw [Bool.or_eq_true]
  unfold TablesDiffer
  constructor
  · rintro (h | h)
    · rw [List.any_eq_true] at h
      obtain ⟨an, han, hev⟩ := h
      obtain ⟨b, hb, rfl⟩ := List.mem_map.1 han
      rcases annotate_ev prev b with ⟨h1, h2⟩ | ⟨a, ha, hi, h1, h2⟩
      · exact .inl ⟨b, hb, h1⟩
      · by_cases hm : Matters a b
        · exact .inr (.inr ⟨a, ha, b, hb, hi, hm⟩)
        · rw [h2 hm] at hev; simp at hev
    · rw [List.any_eq_true] at h
      obtain ⟨o, ho, h⟩ := h
      refine .inr (.inl ⟨o, ho, ?_⟩)
      intro b hb he
      rw [Bool.not_eq_true', List.any_eq_false] at h
      exact h b hb (by simpa using he)
  · rintro (⟨b, hb, h⟩ | ⟨a, ha, h⟩ | ⟨a, ha, b, hb, hi, hm⟩)
    · left
      rw [List.any_eq_true]
      refine ⟨annotate prev b, List.mem_map.2 ⟨b, hb, rfl⟩, ?_⟩
      rcases annotate_ev prev b with ⟨_, h2⟩ | ⟨a, ha, hi, _, _⟩
      · rw [h2]; simp
      · exact absurd hi (h a ha)
    · right
      rw [List.any_eq_true]
      refine ⟨a, ha, ?_⟩
      rw [Bool.not_eq_true', List.any_eq_false]
      intro b hb; simpa using h b hb
    · left
      rw [List.any_eq_true]
      refine ⟨annotate prev b, List.mem_map.2 ⟨b, hb, rfl⟩, ?_⟩
      rcases annotate_ev prev b with ⟨h1, _⟩ | ⟨a', ha', hi', h1, _⟩
      · exact absurd hi (h1 a ha)
      · have := huniq a ha a' ha' (by rw [hi, hi'])
        subst this
        rw [h1 hm]; simp

/-! ### Sorting -/

theorem ordered_spec (i : Int) (rows : List Link) (h : ordered i rows = true) :
    rows.Pairwise (fun a b => a.idx ≤ b.idx) ∧ ∀ r ∈ rows, i ≤ r.idx := by
  induction rows generalizing i with
  | nil => exact ⟨.nil, by simp⟩
  | cons r rs ih =>
      simp only [ordered, Bool.and_eq_true, decide_eq_true_eq] at h
      obtain ⟨h1, h2⟩ := ih r.idx h.2
      refine ⟨List.pairwise_cons.2 ⟨h2, h1⟩, ?_⟩
      intro x hx
      rcases List.mem_cons.1 hx with rfl | hx
      · omega
      · have := h2 x hx; omega

theorem sortRows_perm (rows : List Link) : (sortRows rows).Perm rows := by
  unfold sortRows
  split
  · exact .refl _
  · exact List.perm_insertionSort _ _

theorem pairwise_le (rows : List Link) : (sortRows rows).Pairwise (fun a b => a.idx ≤ b.idx) := by
  unfold sortRows
  split
  · rename_i h; exact (ordered_spec 0 rows h).1
  · have : Std.Total (fun a b : Link => a.idx ≤ b.idx) := ⟨fun a b => Int.le_total _ _⟩
    have : IsTrans Link (fun a b : Link => a.idx ≤ b.idx) := ⟨fun a b c h1 h2 => Int.le_trans h1 h2⟩
    exact List.pairwise_insertionSort _ _

theorem sortRows_sorted (rows : List Link) (hn : (rows.map (·.idx)).Nodup) (h0 : ∀ r ∈ rows, 0 ≤ r.idx) :
    Sorted (sortRows rows) := by
  have hp := sortRows_perm rows
  refine ⟨?_, fun r hr => h0 r (hp.mem_iff.1 hr)⟩
  have hn' : ((sortRows rows).map (·.idx)).Nodup := ((hp.map _).nodup_iff).2 hn
  rw [List.nodup_iff_pairwise_ne, List.pairwise_map] at hn'
  exact (List.Pairwise.and hn' (pairwise_le rows)).imp (fun h => by
    have := h.1; have := h.2; omega)

theorem Sorted.nodup {rows : List Link} (h : Sorted rows) : (rows.map (·.idx)).Nodup := by
  rw [List.nodup_iff_pairwise_ne, List.pairwise_map]
  exact h.1.imp (fun h => Int.ne_of_lt h)

/-- Sortedness depends on the indices only. -/
theorem Sorted.of_idx {rows rows' : List Link} (h : Sorted rows)
    (he : rows'.map (·.idx) = rows.map (·.idx)) : Sorted rows' := by
  have hp : (rows.map (·.idx)).Pairwise (· < ·) := List.pairwise_map.2 h.1
  refine ⟨List.pairwise_map.1 (by rw [he]; exact hp), ?_⟩
  intro r hr
  have : r.idx ∈ rows.map (·.idx) := by rw [← he]; exact List.mem_map.2 ⟨r, hr, rfl⟩
  obtain ⟨x, hx, hxi⟩ := List.mem_map.1 this
  rw [← hxi]; exact h.2 x hx

theorem Sorted.nil : Sorted [] := ⟨.nil, by simp⟩

end Verif.Netlink
