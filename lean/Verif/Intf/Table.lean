import Verif.Intf.Runs

set_option linter.unusedSimpArgs false
set_option linter.unusedVariables false

/-!
# Indexes, numbers, names and memory in the table
-/

namespace Verif.Intf

theorem settle_phases {K : Kern} {k : Nat} {P Q R : St → Prop} (H : Phases K k P Q R) (l : Link) (rc : Int) (ch : Bool)
    (s : St) (hres : ∀ c, P (reset K l c k s)) (hdel : ∀ s, R s → R (delete k s)) (hscan : ∀ s, R s → R (rescan K s))
    (huns : R (delete k (s.upd k fun x => { x with name := l.name, index := l.index }))) :
    (settle K l k rc ch s).All fun r => R r.1 := by
  unfold settle
  split
  · exact All.ok (hscan _ huns)
  · rename_i c _
    refine All.bind (init_phases H l c s (hres c)) ?_
    rintro ⟨t, rc'⟩ ht
    dsimp only
    have h2 : R (rescan K (if rc' = ENODEV then delete k t else t)) := by
      apply hscan
      split
      · exact hdel _ ht
      · exact ht
    refine All.bind (P := fun _ => True) (fun _ _ => trivial) (fun _ _ => All.ok h2)

theorem handleRename_same {γ : Type} (g : Intf → γ) (h : ∀ x n c, g { x with name := n, canonical := c } = g x)
    (s : St) (k nm : Nat) : (handleRename s k nm).1.objs.map g = s.objs.map g := by
  unfold handleRename
  split
  · rfl
  · split
    · exact upd_same g s _ _ fun x => h x 0 _
    · rfl

theorem checkRename_same {γ : Type} (g : Intf → γ) (h : ∀ x n c, g { x with name := n, canonical := c } = g x)
    (K : Kern) (s : St) (k : Nat) : (checkRename K s k).objs.map g = s.objs.map g := by
  unfold checkRename
  split
  · rfl
  · split
    · rfl
    · rw [upd_same g _ _ _ fun x => h x _ x.canonical, handleRename_same g h]

/-- What an event does to the table, for a part `g` of objects that nothing changes but
what `insert` sets. -/
theorem step_same {γ : Type} (g : Intf → γ) (h : ∀ x n c, g { x with name := n, canonical := c } = g x)
    (hts : ∀ x b, g { x with tsOn := b } = g x) (hdel : ∀ x d c, g { x with deleted := d, clock := c } = g x)
    (hclk : ∀ x c, g { x with clock := c } = g x) (K : Kern) (s : St) (e : Ev) (hne : ∀ l, e ≠ .insert l) :
    (step K s e).All fun r => r.objs.map g = s.objs.map g := by
  have ren : ∀ t m, t.objs.map g = s.objs.map g → (t.obj m).canonical = none → (t.obj m).deleted = false →
      (checkRename K t m).objs.map g = s.objs.map g := fun t m ht _ _ => (checkRename_same g h K t m).trans ht
  have ts : ∀ (t : St) (m : Nat) (b : Bool), t.objs.map g = s.objs.map g →
      (t.upd m fun x => { x with tsOn := b }).objs.map g = s.objs.map g :=
    fun t m b ht => (upd_same g t m _ fun x => hts x b).trans ht
  cases e with
  | insert l => exact absurd rfl (hne l)
  | remove i n =>
    refine All.ok ?_
    unfold remove
    split
    · rfl
    · split
      · rfl
      · rw [rescan_same g hclk, delete_same g hdel]
  | enable k =>
    unfold step
    dsimp only
    split
    · exact All.bind (enable_all (P := fun t => t.objs.map g = s.objs.map g) k ren ts s rfl) (fun r hr => All.ok hr)
    · exact All.ok rfl
  | disable k =>
    unfold step
    dsimp only
    split
    · exact disable_all (P := fun t => t.objs.map g = s.objs.map g) k ren ts s rfl
    · exact All.ok rfl
  | ioctl k =>
    unfold step
    dsimp only
    split
    · exact All.bind (ioctl_all (k := k) (P := fun t => t.objs.map g = s.objs.map g) ren s rfl k)
        (fun r hr => All.ok hr)
    · exact All.ok rfl

/-! ## Indexes -/

theorem map_reset_index {K : Kern} {l : Link} {c : Class} {k : Nat} {s : St} (h : (s.obj k).index = l.index)
    (hk : k < s.objs.length) : (reset K l c k s).objs.map (·.index) = s.objs.map (·.index) := by
  apply List.ext_getElem?
  intro i
  unfold reset
  rw [List.getElem?_map, List.getElem?_map, upd_get]
  split
  · rename_i hik
    subst hik
    rw [obj_lt hk]
    simp [h]
  · rfl

theorem index_closed (K : Kern) (k : Nat) (L : List Int) : Closed K k fun s => s.objs.map (·.index) = L where
  mild s h f hf := (upd_same (·.index) s k f fun x => (hf x).1).trans h
  ren s m h _ _ := (checkRename_same (·.index) (fun _ _ _ => rfl) K s m).trans h
  nic s h := (assignNic_same (·.index) (fun _ _ _ _ => rfl) K s k).trans h
  stats s h b := (upd_same (·.index) s k _ fun x => by split <;> rfl).trans h

theorem map_set_index {l : Link} {k : Nat} {s : St} (h : (s.obj k).index = l.index) (hk : k < s.objs.length) :
    (s.upd k fun x => { x with name := l.name, index := l.index }).objs.map (·.index) = s.objs.map (·.index) := by
  apply List.ext_getElem?
  intro i
  rw [List.getElem?_map, List.getElem?_map, upd_get]
  split
  · rename_i hik
    subst hik
    rw [obj_lt hk]
    simp [h]
  · rfl

theorem upd_last (s : St) (o : Intf) (f : Intf → Intf) :
    ({ s with objs := s.objs ++ [o] } : St).upd s.objs.length f = { s with objs := s.objs ++ [f o] } := by
  unfold St.upd
  simp only [St.mk.injEq, and_true]
  apply List.ext_getElem?
  intro i
  rw [List.getElem?_modify]
  by_cases h : i < s.objs.length
  · rw [List.getElem?_append_left h, List.getElem?_append_left h]
    have : ¬ s.objs.length = i := by omega
    simp [this]
  · by_cases h' : i = s.objs.length
    · subst h'; simp
    · have h1 : ¬ s.objs.length = i := fun e => h' e.symm
      rw [List.getElem?_eq_none (by simp; omega), List.getElem?_eq_none (by simp; omega)]
      rfl

/-- The indexes of the table after an insertion. -/
theorem insert_index (K : Kern) (l : Link) (s : St) : (insert K l s).All fun r =>
    r.1.objs.map (·.index) =
      if l.index ∈ s.objs.map (·.index) then s.objs.map (·.index) else s.objs.map (·.index) ++ [l.index] := by
  unfold insert
  cases hf : findIndex s l.index with
  | none =>
    have hn : l.index ∉ s.objs.map (·.index) := by
      intro hm
      obtain ⟨o, ho, he⟩ := List.mem_map.mp hm
      exact findIndex_none.mp hf o ho he
    rw [if_neg hn]
    have hset : ∀ f : Intf → Intf, (∀ x, (f x).index = l.index) →
        (({ s with objs := s.objs ++ [{}] } : St).upd s.objs.length f).objs.map (·.index) =
          s.objs.map (·.index) ++ [l.index] := by
      intro f h
      rw [upd_last]
      simp [h]
    refine settle_all (index_closed K _ _) l _ _ _ (fun c => hset _ fun x => rfl)
      (fun t h => (delete_same (·.index) (fun _ _ _ => rfl) t _).trans h)
      (fun t h => (rescan_same (·.index) (fun _ _ => rfl) K t).trans h)
      ((delete_same (·.index) (fun _ _ _ => rfl) _ _).trans (hset _ fun x => rfl))
  | some k =>
    obtain ⟨h1, h2⟩ := findIndex_lt hf
    have hm : l.index ∈ s.objs.map (·.index) :=
      List.mem_map.mpr ⟨s.obj k, List.mem_of_getElem? (obj_lt h1), h2⟩
    rw [if_pos hm]
    have key : ∀ (t : St) rc ch, t.objs.map (·.index) = s.objs.map (·.index) → (t.obj k).index = l.index →
        k < t.objs.length → (settle K l k rc ch t).All fun r => r.1.objs.map (·.index) = s.objs.map (·.index) := by
      intro t rc ch ht hi hk
      refine settle_all (index_closed K _ _) l _ _ _ (fun c => (map_reset_index hi hk).trans ht)
        (fun t h => (delete_same (·.index) (fun _ _ _ => rfl) t _).trans h)
        (fun t h => (rescan_same (·.index) (fun _ _ => rfl) K t).trans h)
        ((delete_same (·.index) (fun _ _ _ => rfl) _ _).trans ((map_set_index hi hk).trans ht))
    dsimp only
    split
    · rename_i hne
      exact key _ _ _ (handleRename_same _ (fun _ _ _ => rfl) s k l.name)
        (by rw [handleRename_self hne]; exact h2) (by rw [handleRename_length]; exact h1)
    · exact key s _ _ rfl h2 h1

theorem step_index (K : Kern) (s : St) (e : Ev) : (step K s e).All fun r =>
    ∃ extra, r.objs.map (·.index) = s.objs.map (·.index) ++ extra ∧
      ((s.objs.map (·.index)).Nodup → (r.objs.map (·.index)).Nodup) := by
  by_cases he : ∃ l, e = .insert l
  · obtain ⟨l, rfl⟩ := he
    refine All.bind (insert_index K l s) (fun r hr => All.ok ?_)
    rw [hr]
    split
    · exact ⟨[], by simp, id⟩
    · rename_i hn
      refine ⟨[l.index], rfl, fun hd => ?_⟩
      rw [List.nodup_append]
      refine ⟨hd, by simp, ?_⟩
      intro a ha b hb hab
      rw [List.mem_singleton] at hb
      subst hb hab
      exact hn ha
  · refine fun r hr => ?_
    have := step_same (·.index) (fun _ _ _ => rfl) (fun _ _ => rfl) (fun _ _ _ => rfl) (fun _ _ => rfl) K s e
      (fun l hl => he ⟨l, hl⟩) r hr
    exact ⟨[], by simpa using this, by rw [this]; exact id⟩

theorem run_index : ∀ (es : List (Kern × Ev)) (s : St), (run s es).All fun r =>
    ∃ extra, r.objs.map (·.index) = s.objs.map (·.index) ++ extra ∧
      ((s.objs.map (·.index)).Nodup → (r.objs.map (·.index)).Nodup)
  | [], s => All.ok ⟨[], by simp, id⟩
  | (K, e) :: es, s => by
    refine All.bind (step_index K s e) ?_
    rintro t ⟨x, hx, hd⟩ r hr
    obtain ⟨y, hy, hd'⟩ := run_index es t r hr
    exact ⟨x ++ y, by rw [hy, hx, List.append_assoc], fun h => hd' (hd h)⟩

/-! ## Numbers of NICs -/

/-- Numbers given out are below the next one. -/
def NicInv (s : St) : Prop := 0 ≤ s.nextNic ∧ ∀ o ∈ s.objs, -1 ≤ o.nic ∧ o.nic < s.nextNic

/-- What has a number keeps it. -/
def KeepsNic (s s' : St) : Prop := ∀ (k : Nat) (o : Intf), s.objs[k]? = some o →
  ∃ o', s'.objs[k]? = some o' ∧ (o.nic ≠ -1 → o'.nic = o.nic)

theorem nextNic_upd (s : St) (k : Nat) (f : Intf → Intf) : (s.upd k f).nextNic = s.nextNic := rfl

theorem mem_nic_of_map {s s' : St} (h : s'.objs.map (·.nic) = s.objs.map (·.nic)) {o : Intf} (ho : o ∈ s'.objs) :
    ∃ o' ∈ s.objs, o'.nic = o.nic := by
  have : o.nic ∈ s.objs.map (·.nic) := by rw [← h]; exact List.mem_map.mpr ⟨o, ho, rfl⟩
  obtain ⟨o', h1, h2⟩ := List.mem_map.mp this
  exact ⟨o', h1, h2⟩

theorem nic_same {s0 s s' : St} (h : s'.objs.map (·.nic) = s.objs.map (·.nic)) (hn : s'.nextNic = s.nextNic)
    (hp : NicInv s ∧ KeepsNic s0 s) : NicInv s' ∧ KeepsNic s0 s' := by
  refine ⟨⟨by rw [hn]; exact hp.1.1, fun o ho => ?_⟩, fun k o ho => ?_⟩
  · obtain ⟨o', h1, h2⟩ := mem_nic_of_map h ho
    rw [hn, ← h2]
    exact hp.1.2 o' h1
  · obtain ⟨o1, h1, h2⟩ := hp.2 k o ho
    obtain ⟨o2, h3, h4⟩ := get_of_map h h1
    exact ⟨o2, h3, fun hne => by rw [h4]; exact h2 hne⟩

theorem nic_given {s0 s : St} {k : Nat} (hp : NicInv s ∧ KeepsNic s0 s) (hk : k < s.objs.length)
    (hm : (s.obj k).nic = -1) (f : Intf → Intf) (nn : Int) (hnn : s.nextNic ≤ nn)
    (hf : ∀ x, -1 ≤ (f x).nic ∧ (f x).nic < nn) :
    NicInv { s.upd k f with nextNic := nn } ∧ KeepsNic s0 { s.upd k f with nextNic := nn } := by
  refine ⟨⟨by have := hp.1.1; show 0 ≤ nn; omega, fun o ho => ?_⟩, fun i o ho => ?_⟩
  · obtain ⟨i, hi⟩ := List.mem_iff_getElem?.mp ho
    rw [show ({ s.upd k f with nextNic := nn } : St).objs = (s.upd k f).objs from rfl, upd_get] at hi
    show -1 ≤ o.nic ∧ o.nic < nn
    split at hi
    · cases hi' : s.objs[i]? with
      | none => rw [hi'] at hi; cases hi
      | some y =>
        rw [hi'] at hi
        simp only [Option.map_some, Option.some.injEq] at hi
        subst hi
        exact hf y
    · have := hp.1.2 o (List.mem_of_getElem? hi)
      omega
  · obtain ⟨o1, h1, h2⟩ := hp.2 i o ho
    show ∃ o', (s.upd k f).objs[i]? = some o' ∧ _
    rw [upd_get]
    split
    · rename_i hik
      subst hik
      rw [h1]
      refine ⟨f o1, rfl, fun hne => ?_⟩
      exfalso
      have := h2 hne
      rw [obj_of h1] at hm
      rw [hm] at this
      exact hne this.symm
    · exact ⟨o1, h1, h2⟩

theorem obj_nic {s : St} (h : NicInv s) (k : Nat) : -1 ≤ (s.obj k).nic ∧ (s.obj k).nic < s.nextNic := by
  by_cases hk : k < s.objs.length
  · exact h.2 _ (List.mem_of_getElem? (obj_lt hk))
  · have : s.obj k = {} := by
      have hn : s.objs[k]? = none := by simp; omega
      simp [St.obj, hn]
    rw [this]
    have := h.1
    exact ⟨Int.le_refl _, by show (-1 : Int) < _; omega⟩

theorem nic_assign {K : Kern} {s0 s : St} {k : Nat} (hp : NicInv s ∧ KeepsNic s0 s) (hk : k < s.objs.length) :
    NicInv (assignNic K k s) ∧ KeepsNic s0 (assignNic K k s) := by
  unfold assignNic
  by_cases hc : (s.obj k).ts.phc ≠ -1 ∧ (s.obj k).nic = -1
  · rw [if_pos hc]
    have hg : ∀ j, NicInv (s.upd k fun x => { x with nic := (s.obj j).nic }) ∧
        KeepsNic s0 (s.upd k fun x => { x with nic := (s.obj j).nic }) := fun j =>
      nic_given hp hk hc.2 _ s.nextNic (Int.le_refl _) (fun x => obj_nic hp.1 j)
    have hg2 : ∀ j p, NicInv (s.upd k fun x => { x with nic := (s.obj j).nic, ts.phc := p, phcOk := false }) ∧
        KeepsNic s0 (s.upd k fun x => { x with nic := (s.obj j).nic, ts.phc := p, phcOk := false }) := fun j p =>
      nic_given hp hk hc.2 _ s.nextNic (Int.le_refl _) (fun x => obj_nic hp.1 j)
    have hnew : NicInv (newNic s k) ∧ KeepsNic s0 (newNic s k) :=
      nic_given hp hk hc.2 _ (s.nextNic + 1) (by omega) (fun x => by have := hp.1.1; constructor <;> show _ <;> dsimp only <;> omega)
    dsimp only
    repeat' split
    all_goals first | exact hnew | exact hg _ | exact hg2 _ _
  · rw [if_neg hc]
    exact hp

theorem nextNic_checkRename (K : Kern) (s : St) (m : Nat) : (checkRename K s m).nextNic = s.nextNic := by
  unfold checkRename handleRename
  repeat' split
  all_goals rfl

theorem nextNic_handleRename (s : St) (k m : Nat) : (handleRename s k m).1.nextNic = s.nextNic := by
  unfold handleRename
  repeat' split
  all_goals rfl

theorem nic_closed (K : Kern) (k : Nat) (s0 : St) :
    Closed K k fun s => (NicInv s ∧ KeepsNic s0 s) ∧ k < s.objs.length where
  mild s h f hf := ⟨nic_same (upd_same (·.nic) s k f fun x => (hf x).2.2.2.2.1) rfl h.1, by rw [upd_length]; exact h.2⟩
  ren s m h _ _ := ⟨nic_same (checkRename_same (·.nic) (fun _ _ _ => rfl) K s m) (nextNic_checkRename K s m) h.1,
    by rw [checkRename_length]; exact h.2⟩
  nic s h := ⟨nic_assign h.1 h.2, by rw [assignNic_length]; exact h.2⟩
  stats s h b := ⟨nic_same (upd_same (·.nic) s k _ fun x => by split <;> rfl) rfl h.1, by rw [upd_length]; exact h.2⟩

theorem nic_settle {K : Kern} {l : Link} {k : Nat} {rc : Int} {ch : Bool} {s0 s : St} (h : NicInv s ∧ KeepsNic s0 s)
    (hk : k < s.objs.length) : (settle K l k rc ch s).All fun r => NicInv r.1 ∧ KeepsNic s0 r.1 := by
  refine fun r hr => (settle_all (P := fun s => (NicInv s ∧ KeepsNic s0 s) ∧ k < s.objs.length) (nic_closed K k s0) l rc ch s
    (fun c => ⟨nic_same (upd_same (·.nic) s k _ fun x => rfl) rfl h, by unfold reset; rw [upd_length]; exact hk⟩)
    (fun t ht => ⟨nic_same (delete_same (·.nic) (fun _ _ _ => rfl) t k) rfl ht.1, by rw [delete_length]; exact ht.2⟩)
    (fun t ht => ⟨nic_same (rescan_same (·.nic) (fun _ _ => rfl) K t) rfl ht.1, by rw [rescan_length]; exact ht.2⟩)
    ⟨nic_same (delete_same (·.nic) (fun _ _ _ => rfl) _ k) rfl (nic_same (upd_same (·.nic) s k _ fun x => rfl) rfl h),
      by rw [delete_length, upd_length]; exact hk⟩ r hr).1

theorem nic_step {K : Kern} {s0 s : St} {e : Ev} (h : NicInv s ∧ KeepsNic s0 s) :
    (step K s e).All fun r => NicInv r ∧ KeepsNic s0 r := by
  have ren : ∀ t m, NicInv t ∧ KeepsNic s0 t → (t.obj m).canonical = none → (t.obj m).deleted = false →
      NicInv (checkRename K t m) ∧ KeepsNic s0 (checkRename K t m) := fun t m ht _ _ =>
    nic_same (checkRename_same (·.nic) (fun _ _ _ => rfl) K t m) (nextNic_checkRename K t m) ht
  have ts : ∀ (t : St) (m : Nat) (b : Bool), NicInv t ∧ KeepsNic s0 t →
      NicInv (t.upd m fun x => { x with tsOn := b }) ∧ KeepsNic s0 (t.upd m fun x => { x with tsOn := b }) :=
    fun t m b ht => nic_same (upd_same (·.nic) t m _ fun x => rfl) rfl ht
  cases e with
  | insert l =>
    unfold step
    refine All.bind (P := fun r => NicInv r.1 ∧ KeepsNic s0 r.1) ?_ (fun r hr => All.ok hr)
    unfold insert
    split
    · refine nic_settle ⟨⟨h.1.1, fun o ho => ?_⟩, fun k o ho => ?_⟩ (by simp)
      · rcases List.mem_append.mp ho with ho | ho
        · exact h.1.2 o ho
        · rw [List.mem_singleton] at ho
          subst ho
          have := h.1.1
          exact ⟨Int.le_refl _, by show (-1 : Int) < s.nextNic; omega⟩
      · obtain ⟨o', h1, h2⟩ := h.2 k o ho
        refine ⟨o', ?_, h2⟩
        show (s.objs ++ [_])[k]? = _
        rw [List.getElem?_append_left (List.getElem?_eq_some_iff.mp h1).1]
        exact h1
    · rename_i k hk
      obtain ⟨h1, h2⟩ := findIndex_lt hk
      dsimp only
      split
      · exact nic_settle (nic_same (handleRename_same (·.nic) (fun _ _ _ => rfl) s k l.name)
          (nextNic_handleRename s k l.name) h) (by rw [handleRename_length]; exact h1)
      · exact nic_settle h h1
  | remove i n =>
    refine All.ok ?_
    unfold remove
    split
    · exact h
    · split
      · exact h
      · exact nic_same (rescan_same (·.nic) (fun _ _ => rfl) K _) rfl
          (nic_same (delete_same (·.nic) (fun _ _ _ => rfl) s _) rfl h)
  | enable k =>
    unfold step
    dsimp only
    split
    · exact All.bind (enable_all (P := fun t => NicInv t ∧ KeepsNic s0 t) k ren ts s h) (fun r hr => All.ok hr)
    · exact All.ok h
  | disable k =>
    unfold step
    dsimp only
    split
    · exact disable_all (P := fun t => NicInv t ∧ KeepsNic s0 t) k ren ts s h
    · exact All.ok h
  | ioctl k =>
    unfold step
    dsimp only
    split
    · exact All.bind (ioctl_all (k := k) (P := fun t => NicInv t ∧ KeepsNic s0 t) ren s h k) (fun r hr => All.ok hr)
    · exact All.ok h

theorem nic_run {s0 : St} : ∀ (es : List (Kern × Ev)) (s : St), NicInv s ∧ KeepsNic s0 s →
    (run s es).All fun r => NicInv r ∧ KeepsNic s0 r
  | [], s, h => All.ok h
  | (K, e) :: es, s, h => All.bind (nic_step h) fun t ht => nic_run es t ht

/-! ## Memory -/

/-- At most one block for each object. -/
def OneBlock (s : St) : Prop := ∀ o ∈ s.objs, o.blocks ≤ 1

theorem mem_of_map {γ : Type} {g : Intf → γ} {s s' : St} (h : s'.objs.map g = s.objs.map g) {o : Intf}
    (ho : o ∈ s'.objs) : ∃ o' ∈ s.objs, g o' = g o := by
  have : g o ∈ s.objs.map g := by rw [← h]; exact List.mem_map.mpr ⟨o, ho, rfl⟩
  obtain ⟨o', h1, h2⟩ := List.mem_map.mp this
  exact ⟨o', h1, h2⟩

theorem oneBlock_same {s s' : St} (h : s'.objs.map (·.blocks) = s.objs.map (·.blocks)) (hp : OneBlock s) :
    OneBlock s' := by
  intro o ho
  obtain ⟨o', h1, h2⟩ := mem_of_map h ho
  rw [← h2]
  exact hp o' h1

/-- Before memory is allocated for the object. -/
def NoBlock (k : Nat) (s : St) : Prop := OneBlock s ∧ ∀ o, s.objs[k]? = some o → o.blocks = 0

theorem noBlock_same {k : Nat} {s s' : St} (h : s'.objs.map (·.blocks) = s.objs.map (·.blocks)) (hp : NoBlock k s) :
    NoBlock k s' := by
  refine ⟨oneBlock_same h hp.1, fun o ho => ?_⟩
  obtain ⟨o', h1, h2⟩ := get_of_map h.symm ho
  rw [← h2]
  exact hp.2 o' h1

theorem block_phases (K : Kern) (k : Nat) : Phases K k (NoBlock k) (NoBlock k) OneBlock where
  mild s h f hf := noBlock_same (upd_same (·.blocks) s k f fun x => (hf x).2.2.2.2.2.1) h
  ren s m h _ _ := noBlock_same (checkRename_same (·.blocks) (fun _ _ _ => rfl) K s m) h
  nic s h := noBlock_same (assignNic_same (·.blocks) (fun _ _ _ _ => rfl) K s k) h
  renQ s m h _ _ := noBlock_same (checkRename_same (·.blocks) (fun _ _ _ => rfl) K s m) h
  stats s h b := by
    intro o ho
    obtain ⟨i, hi⟩ := List.mem_iff_getElem?.mp ho
    rw [upd_get] at hi
    split at hi
    · rename_i hik
      subst hik
      cases hs : s.objs[i]? with
      | none => rw [hs] at hi; cases hi
      | some x =>
        rw [hs] at hi
        simp only [Option.map_some, Option.some.injEq] at hi
        subst hi
        have := h.2 x hs
        split
        · show x.blocks + 1 ≤ 1
          omega
        · omega
    · exact h.1 o (List.mem_of_getElem? hi)

theorem block_step {K : Kern} {s : St} {e : Ev} (h : OneBlock s) (ho : Once s e) : (step K s e).All OneBlock := by
  by_cases he : ∃ l, e = .insert l
  · obtain ⟨l, rfl⟩ := he
    unfold step
    refine All.bind (P := fun r => OneBlock r.1) ?_ (fun r hr => All.ok hr)
    unfold insert
    rw [findIndex_none.mpr ho]
    have h0 : NoBlock s.objs.length { s with objs := s.objs ++ [{}] } := by
      refine ⟨fun o ho => ?_, fun o ho => ?_⟩
      · rcases List.mem_append.mp ho with ho | ho
        · exact h o ho
        · rw [List.mem_singleton] at ho; subst ho; exact Nat.zero_le _
      · have : o = {} := by simpa using ho.symm
        subst this; rfl
    exact settle_phases (block_phases K _) l _ _ _
      (fun c => noBlock_same (upd_same (·.blocks) _ _ _ fun x => rfl) h0)
      (fun t ht => oneBlock_same (delete_same (·.blocks) (fun _ _ _ => rfl) t _) ht)
      (fun t ht => oneBlock_same (rescan_same (·.blocks) (fun _ _ => rfl) K t) ht)
      (oneBlock_same (delete_same (·.blocks) (fun _ _ _ => rfl) _ _)
        (oneBlock_same (upd_same (·.blocks) _ _ _ fun x => rfl) h0.1))
  · intro r hr
    exact oneBlock_same (step_same (·.blocks) (fun _ _ _ => rfl) (fun _ _ => rfl) (fun _ _ _ => rfl) (fun _ _ => rfl)
      K s e (fun l hl => he ⟨l, hl⟩) r hr) h

theorem block_run : ∀ (es : List (Kern × Ev)) (s : St), OneBlock s → Along (fun _ s e => Once s e) s es →
    (run s es).All OneBlock
  | [], s, h, _ => All.ok h
  | (K, e) :: es, s, h, ha => by
    intro r hr
    unfold run at hr
    cases hs : step K s e with
    | assert => rw [hs] at hr; cases hr
    | hang => rw [hs] at hr; cases hr
    | ok t =>
      rw [hs] at hr
      exact block_run es t (block_step h ha.1 t hs) (ha.2 t hs) r hr

theorem leaked_zero {s : St} (h : OneBlock s) : leaked s = 0 := by
  unfold leaked
  unfold OneBlock at h
  generalize s.objs = os at h
  induction os with
  | nil => rfl
  | cons o os ih =>
    have h1 := h o List.mem_cons_self
    have h2 := ih fun x hx => h x (List.mem_cons_of_mem _ hx)
    rw [List.map_cons, List.sum_cons, h2]
    omega

/-! ## Names -/

/-- The part of objects that names are about. -/
def idn (o : Intf) : Int × Nat := (o.index, o.name)

/-- The kernel has these names. -/
def Agree (K : Kern) (L : List (Int × Nat)) : Prop := ∀ p ∈ L, ∀ n, K.nameOf p.1 = some n → n = p.2

theorem checkRename_id {K : Kern} {s : St} (h : Agree K (s.objs.map idn)) {m : Nat} (hd : (s.obj m).deleted = false) :
    checkRename K s m = s := by
  unfold checkRename
  split
  · rfl
  · rename_i nm hn
    have : nm = (s.obj m).name :=
      h (idn (s.obj m)) (List.mem_map.mpr ⟨_, List.mem_of_getElem? (obj_lt (live_lt hd)), rfl⟩) nm hn
    rw [if_pos this]

theorem names_closed (K : Kern) (k : Nat) (L : List (Int × Nat)) (hL : Agree K L) :
    Closed K k fun s => s.objs.map idn = L where
  mild s h f hf := (upd_same idn s k f fun x => by unfold idn; rw [(hf x).1, (hf x).2.1]).trans h
  ren s m h _ hd := by rw [checkRename_id (h ▸ hL) hd]; exact h
  nic s h := (assignNic_same idn (fun _ _ _ _ => rfl) K s k).trans h
  stats s h b := (upd_same idn s k _ fun x => by split <;> rfl).trans h

theorem settle_names {K : Kern} {l : Link} {k : Nat} {rc : Int} {ch : Bool} {s : St} {L : List (Int × Nat)}
    (hL : Agree K L) (hs : (s.upd k fun x => { x with name := l.name, index := l.index }).objs.map idn = L) :
    (settle K l k rc ch s).All fun r => r.1.objs.map idn = L := by
  refine settle_all (names_closed K k L hL) l rc ch s (fun c => ?_)
    (fun t h => (delete_same idn (fun _ _ _ => rfl) t _).trans h)
    (fun t h => (rescan_same idn (fun _ _ => rfl) K t).trans h)
    ((delete_same idn (fun _ _ _ => rfl) _ _).trans hs)
  rw [← hs]
  unfold reset
  apply List.ext_getElem?
  intro i
  rw [List.getElem?_map, List.getElem?_map, upd_get, upd_get]
  split
  · cases s.objs[i]? <;> rfl
  · rfl

theorem names_same {s s' : St} (h : s'.objs.map (·.name) = s.objs.map (·.name)) (hn : Names s) : Names s' := by
  intro i j a b ha hb hab h0
  obtain ⟨a', h1, h2⟩ := get_of_map h.symm ha
  obtain ⟨b', h3, h4⟩ := get_of_map h.symm hb
  exact hn i j a' b' h1 h3 (by rw [h2, h4]; exact hab) (by rw [h2]; exact h0)

theorem idn_names {s s' : St} (h : s'.objs.map idn = s.objs.map idn) : s'.objs.map (·.name) = s.objs.map (·.name) := by
  have := congrArg (List.map Prod.snd) h
  simpa [List.map_map, Function.comp_def, idn] using this

theorem names_set {s : St} {k : Nat} {l : Link} (hn : Names s)
    (ho : ∀ (i : Nat) (o : Intf), s.objs[i]? = some o → i ≠ k → o.name ≠ l.name) :
    Names (s.upd k fun x => { x with name := l.name, index := l.index }) := by
  intro i j a b ha hb hab h0
  rw [upd_get] at ha hb
  by_cases hi : i = k <;> by_cases hj : j = k
  · omega
  · rw [if_pos hi] at ha; rw [if_neg hj] at hb
    cases hs : s.objs[i]? with
    | none => rw [hs] at ha; cases ha
    | some x =>
      rw [hs] at ha
      simp only [Option.map_some, Option.some.injEq] at ha
      subst ha
      exact absurd hab.symm (ho j b hb hj)
  · rw [if_neg hi] at ha; rw [if_pos hj] at hb
    cases hs : s.objs[j]? with
    | none => rw [hs] at hb; cases hb
    | some x =>
      rw [hs] at hb
      simp only [Option.map_some, Option.some.injEq] at hb
      subst hb
      exact absurd hab (ho i a ha hi)
  · rw [if_neg hi] at ha; rw [if_neg hj] at hb
    exact hn i j a b ha hb hab h0

theorem names_handleRename {s : St} {k nm : Nat} (hn : Names s) : Names (handleRename s k nm).1 := by
  unfold handleRename
  split
  · exact hn
  · rename_i o _
    split
    · intro i j a b ha hb hab h0
      rw [upd_get] at ha hb
      by_cases hi : i = o
      · rw [if_pos hi] at ha
        cases hs : s.objs[i]? with
        | none => rw [hs] at ha; cases ha
        | some x =>
          rw [hs] at ha
          simp only [Option.map_some, Option.some.injEq] at ha
          subst ha
          exact absurd rfl h0
      · by_cases hj : j = o
        · rw [if_pos hj] at hb
          cases hs : s.objs[j]? with
          | none => rw [hs] at hb; cases hb
          | some x =>
            rw [hs] at hb
            simp only [Option.map_some, Option.some.injEq] at hb
            subst hb
            exact absurd hab h0
        · rw [if_neg hi] at ha; rw [if_neg hj] at hb
          exact hn i j a b ha hb hab h0
    · exact hn

theorem handleRename_get {s : St} {k nm : Nat} {i : Nat} {o : Intf} (h : (handleRename s k nm).1.objs[i]? = some o) :
    ∃ o', s.objs[i]? = some o' ∧ o.index = o'.index ∧ (o.name = o'.name ∨ o.name = 0 ∧ o'.deleted = true ∧ o'.name = nm) := by
  unfold handleRename at h
  split at h
  · exact ⟨o, h, rfl, .inl rfl⟩
  · rename_i q hq
    split at h
    · rename_i hd
      rw [upd_get] at h
      split at h
      · rename_i hiq
        subst hiq
        cases hs : s.objs[i]? with
        | none => rw [hs] at h; cases h
        | some x =>
          rw [hs] at h
          simp only [Option.map_some, Option.some.injEq] at h
          subst h
          exact ⟨x, rfl, rfl, .inr ⟨rfl, by rw [← obj_of hs]; exact hd, by rw [← obj_of hs]; exact (findName_lt hq).2⟩⟩
      · exact ⟨o, h, rfl, .inl rfl⟩
    · exact ⟨o, h, rfl, .inl rfl⟩

end Verif.Intf
