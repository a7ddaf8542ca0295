import Verif.Intf.Support

set_option linter.unusedSimpArgs false
set_option linter.unusedVariables false

/-!
# What runs keep
-/

namespace Verif.Intf

/-! ## What each part changes -/

theorem upd_same {γ : Type} (g : Intf → γ) (s : St) (k : Nat) (f : Intf → Intf) (h : ∀ x, g (f x) = g x) :
    (s.upd k f).objs.map g = s.objs.map g := by
  apply List.ext_getElem?
  intro i
  rw [List.getElem?_map, List.getElem?_map, upd_get]
  split
  · cases s.objs[i]? with
    | none => rfl
    | some o => simp [h]
  · rfl

theorem newNic_objs (s : St) (k : Nat) : (newNic s k).objs = (s.upd k fun x => { x with nic := s.nextNic }).objs := rfl

theorem assignNic_same {γ : Type} (g : Intf → γ) (h : ∀ x n t b, g { x with nic := n, ts := t, phcOk := b } = g x)
    (K : Kern) (s : St) (k : Nat) : (assignNic K k s).objs.map g = s.objs.map g := by
  have h1 : ∀ n, (s.upd k fun x => { x with nic := n }).objs.map g = s.objs.map g :=
    fun n => upd_same g s k _ (fun x => h x n x.ts x.phcOk)
  have h2 : ∀ n p, (s.upd k fun x => { x with nic := n, ts.phc := p, phcOk := false }).objs.map g = s.objs.map g :=
    fun n p => upd_same g s k _ (fun x => h x n { x.ts with phc := p } false)
  unfold assignNic
  dsimp only
  repeat' split
  all_goals first | rfl | exact h1 _ | exact h2 _ _

theorem rescan_same {γ : Type} (g : Intf → γ) (h : ∀ x c, g { x with clock := c } = g x) (K : Kern) (s : St) :
    (rescan K s).objs.map g = s.objs.map g := by
  unfold rescan
  apply List.ext_getElem?
  intro i
  simp only [List.getElem?_map, List.getElem?_mapIdx]
  cases s.objs[i]? with
  | none => rfl
  | some o =>
    simp only [Option.map_some]
    split
    · rw [h]
    · rfl

theorem delete_same {γ : Type} (g : Intf → γ) (h : ∀ x d c, g { x with deleted := d, clock := c } = g x) (s : St)
    (k : Nat) : (delete k s).objs.map g = s.objs.map g := by
  unfold delete
  refine upd_same g s k _ (fun x => ?_)
  split
  · rfl
  · exact h x true none

theorem get_of_map {γ : Type} {g : Intf → γ} {s s' : St} (h : s'.objs.map g = s.objs.map g) {k : Nat} {o : Intf}
    (ho : s.objs[k]? = some o) : ∃ o', s'.objs[k]? = some o' ∧ g o' = g o := by
  have := congrArg (fun l => l[k]?) h
  simp only [List.getElem?_map, ho, Option.map_some] at this
  cases h' : s'.objs[k]? with
  | none => rw [h'] at this; cases this
  | some o' =>
    rw [h'] at this
    simp only [Option.map_some, Option.some.injEq] at this
    exact ⟨o', rfl, this⟩

theorem length_of_map {γ : Type} {g : Intf → γ} {s s' : St} (h : s'.objs.map g = s.objs.map g) :
    s'.objs.length = s.objs.length := by simpa using congrArg List.length h

theorem settle_all {K : Kern} {k : Nat} {P : St → Prop} (H : Closed K k P) (l : Link) (rc : Int) (ch : Bool) (s : St)
    (hres : ∀ c, P (reset K l c k s)) (hdel : ∀ s, P s → P (delete k s)) (hscan : ∀ s, P s → P (rescan K s))
    (huns : P (delete k (s.upd k fun x => { x with name := l.name, index := l.index }))) :
    (settle K l k rc ch s).All fun r => P r.1 := by
  unfold settle
  split
  · exact All.ok (hscan _ huns)
  · rename_i c _
    refine All.bind (init_all H l c s (hres c)) ?_
    rintro ⟨t, rc'⟩ ht
    dsimp only
    have h2 : P (rescan K (if rc' = ENODEV then delete k t else t)) := by
      apply hscan
      split
      · exact hdel _ ht
      · exact ht
    refine All.bind (P := fun _ => True) (fun _ _ => trivial) (fun _ _ => All.ok h2)

/-! ## Aliases come to an end -/

/-- All aliases are of objects and come to an end. -/
def Good (s : St) : Prop := InRange s ∧ ∀ k, k < s.objs.length → Ends s k

theorem leads_same {s s' : St} (h : s'.objs.map (·.canonical) = s.objs.map (·.canonical)) {n k m : Nat}
    (hl : Leads s n k m) : Leads s' n k m := by
  induction hl with
  | here ho hc =>
    obtain ⟨o', h1, h2⟩ := get_of_map h ho
    exact .here h1 (by rw [h2]; exact hc)
  | next ho hc _ ih =>
    obtain ⟨o', h1, h2⟩ := get_of_map h ho
    exact .next h1 (by rw [h2]; exact hc) ih

theorem good_same {s s' : St} (h : s'.objs.map (·.canonical) = s.objs.map (·.canonical)) (hg : Good s) : Good s' := by
  have hl := length_of_map h
  refine ⟨fun k o ho j hj => ?_, fun k hk => ?_⟩
  · obtain ⟨o', h1, h2⟩ := get_of_map h.symm ho
    rw [hl]
    exact hg.1 k o' h1 j (by rw [h2]; exact hj)
  · rw [hl] at hk
    obtain ⟨n, m, hm⟩ := hg.2 k hk
    exact ⟨n, m, leads_same h hm⟩

theorem good_alias {s : St} (hg : Good s) {o m : Nat} (hm : m < s.objs.length) (hc : (s.obj m).canonical = none)
    (hne : o ≠ m) (ho : o < s.objs.length) :
    Good (s.upd o fun x => { x with name := 0, canonical := some m }) := by
  have hlen := upd_length s o fun x => { x with name := 0, canonical := some m }
  have hroot : Leads (s.upd o fun x => { x with name := 0, canonical := some m }) 0 m m := by
    have hne' : ¬ m = o := fun e => hne e.symm
    refine .here (o := s.obj m) ?_ hc
    rw [upd_get, if_neg hne']
    exact obj_lt hm
  have hself : Leads (s.upd o fun x => { x with name := 0, canonical := some m }) 1 o m := by
    refine .next (o := { s.obj o with name := 0, canonical := some m }) ?_ rfl hroot
    rw [upd_get, if_pos rfl, obj_lt ho]
    rfl
  have key : ∀ n k r, Leads s n k r → Ends (s.upd o fun x => { x with name := 0, canonical := some m }) k := by
    intro n k r hl
    induction hl with
    | @here k x h1 h2 =>
      by_cases hk : k = o
      · subst hk; exact ⟨1, m, hself⟩
      · exact ⟨0, k, .here (by rw [upd_get, if_neg hk]; exact h1) h2⟩
    | @next n k j r x h1 h2 _ ih =>
      by_cases hk : k = o
      · subst hk; exact ⟨1, m, hself⟩
      · obtain ⟨n', r', h'⟩ := ih
        exact ⟨n' + 1, r', .next (by rw [upd_get, if_neg hk]; exact h1) h2 h'⟩
  refine ⟨fun k x hx j hj => ?_, fun k hk => ?_⟩
  · rw [hlen]
    rw [upd_get] at hx
    split at hx
    · rename_i hko
      subst hko
      rw [obj_lt ho] at hx
      simp only [Option.map_some, Option.some.injEq] at hx
      subst hx
      simp only [Option.some.injEq] at hj
      omega
    · exact hg.1 k x hx j hj
  · rw [hlen] at hk
    obtain ⟨n, r, h⟩ := hg.2 k hk
    exact key n k r h

theorem good_handleRename {s : St} (hg : Good s) {k nm : Nat} (hk : k < s.objs.length)
    (hc : (s.obj k).canonical = none) (hn : (s.obj k).name ≠ nm) : Good (handleRename s k nm).1 := by
  unfold handleRename
  split
  · exact hg
  · rename_i o ho
    split
    · obtain ⟨h1, h2⟩ := findName_lt ho
      exact good_alias hg hk hc (by rintro rfl; exact hn h2) h1
    · exact hg

theorem handleRename_length (s : St) (k nm : Nat) : (handleRename s k nm).1.objs.length = s.objs.length := by
  unfold handleRename
  split
  · rfl
  · split
    · exact upd_length _ _ _
    · rfl

theorem handleRename_self {s : St} {k nm : Nat} (hn : (s.obj k).name ≠ nm) :
    (handleRename s k nm).1.obj k = s.obj k := by
  unfold handleRename
  split
  · rfl
  · rename_i o ho
    split
    · obtain ⟨h1, h2⟩ := findName_lt ho
      have : k ≠ o := by rintro rfl; exact hn h2
      exact upd_obj_ne this
    · rfl

theorem good_checkRename {K : Kern} {s : St} (hg : Good s) {m : Nat} (hc : (s.obj m).canonical = none)
    (hd : (s.obj m).deleted = false) : Good (checkRename K s m) := by
  unfold checkRename
  split
  · exact hg
  · split
    · exact hg
    · rename_i nm _ hnm
      exact good_same (upd_same _ _ _ _ fun x => rfl)
        (good_handleRename hg (live_lt hd) hc (fun e => hnm e.symm))

theorem good_closed (K : Kern) (k : Nat) : Closed K k Good where
  mild s h f hf := good_same (upd_same _ s k f fun x => (hf x).2.2.1) h
  ren s m h h1 h2 := good_checkRename h h1 h2
  nic s h := good_same (assignNic_same (·.canonical) (fun _ _ _ _ => rfl) K s k) h
  stats s h b := good_same (upd_same (·.canonical) s k _ fun x => by split <;> rfl) h

theorem good_append {s : St} (hg : Good s) : Good { s with objs := s.objs ++ [{}] } := by
  have hl : ∀ n k m, Leads s n k m → Leads { s with objs := s.objs ++ [{}] } n k m := by
    intro n k m h
    have hget : ∀ (k : Nat) (o : Intf), s.objs[k]? = some o → (s.objs ++ [({} : Intf)])[k]? = some o := by
      intro k o ho
      rw [List.getElem?_append_left (List.getElem?_eq_some_iff.mp ho).1]
      exact ho
    induction h with
    | here ho hc => exact .here (hget _ _ ho) hc
    | next ho hc _ ih => exact .next (hget _ _ ho) hc ih
  refine ⟨fun k o ho j hj => ?_, fun k hk => ?_⟩
  · simp only [List.length_append, List.length_cons, List.length_nil]
    by_cases h : k < s.objs.length
    · rw [List.getElem?_append_left h] at ho
      have := hg.1 k o ho j hj
      omega
    · rw [List.getElem?_append_right (by omega)] at ho
      have : o = {} := by
        rcases hh : k - s.objs.length with _ | n
        · rw [hh] at ho; simpa using ho.symm
        · rw [hh] at ho; simp at ho
      subst this
      cases hj
  · simp only [List.length_append, List.length_cons, List.length_nil] at hk
    by_cases h : k < s.objs.length
    · obtain ⟨n, m, hm⟩ := hg.2 k h
      exact ⟨n, m, hl n k m hm⟩
    · have hk' : k = s.objs.length := by omega
      subst hk'
      exact ⟨0, _, .here (o := {}) (by simp) rfl⟩

theorem good_settle {K : Kern} {l : Link} {k : Nat} {rc : Int} {ch : Bool} {s : St} (hg : Good s) :
    (settle K l k rc ch s).All fun r => Good r.1 := by
  refine settle_all (good_closed K k) l rc ch s (fun c => ?_) (fun s h => ?_) (fun s h => ?_) ?_
  · exact good_same (upd_same (·.canonical) s k _ fun x => rfl) hg
  · exact good_same (delete_same (·.canonical) (fun _ _ _ => rfl) s k) h
  · exact good_same (rescan_same (·.canonical) (fun _ _ => rfl) K s) h
  · exact good_same (delete_same (·.canonical) (fun _ _ _ => rfl) _ k)
      (good_same (upd_same (·.canonical) s k _ fun x => rfl) hg)

theorem good_step {K : Kern} {s : St} {e : Ev} (hg : Good s) (hn : NoComeback s e) : (step K s e).All Good := by
  cases e with
  | insert l =>
    unfold step
    refine All.bind (P := fun r => Good r.1) ?_ (fun r hr => All.ok hr)
    unfold insert
    split
    · exact good_settle (good_append hg)
    · rename_i k hk
      obtain ⟨h1, h2⟩ := findIndex_lt hk
      dsimp only
      split
      · rename_i hne
        exact good_settle (good_handleRename hg h1 (hn k _ (obj_lt h1) h2) hne)
      · exact good_settle hg
  | remove i n =>
    refine All.ok ?_
    unfold remove
    split
    · exact hg
    · split
      · exact hg
      · exact good_same (rescan_same (·.canonical) (fun _ _ => rfl) K _)
          (good_same (delete_same (·.canonical) (fun _ _ _ => rfl) s _) hg)
  | enable k =>
    unfold step
    dsimp only
    split
    · refine All.bind (P := fun r => Good r.1) ?_ (fun r hr => All.ok hr)
      exact enable_all k (fun s m h h1 h2 => good_checkRename h h1 h2)
        (fun s m b h => good_same (upd_same (·.canonical) s m _ fun x => rfl) h) s hg
    · exact All.ok hg
  | disable k =>
    unfold step
    dsimp only
    split
    · exact disable_all k (fun s m h h1 h2 => good_checkRename h h1 h2)
        (fun s m b h => good_same (upd_same (·.canonical) s m _ fun x => rfl) h) s hg
    · exact All.ok hg
  | ioctl k =>
    unfold step
    dsimp only
    split
    · refine All.bind (P := fun r => Good r.1) ?_ (fun r hr => All.ok hr)
      exact ioctl_all (k := k) (fun s m h h1 h2 => good_checkRename h h1 h2) s hg k
    · exact All.ok hg

/-! ## Nothing hangs or fails then -/

theorem canon_ok {s : St} (hg : Good s) {k : Nat} (hk : k < s.objs.length) : ∃ r, canon s k = .ok r := by
  obtain ⟨n, m, h⟩ := hg.2 k hk
  rw [canon_of h]
  split <;> exact ⟨_, rfl⟩

/-- A call returns, and what it returns satisfies `P`. -/
def Out.Fine {α : Type} (x : Out α) (P : α → Prop) : Prop := ∃ a, x = .ok a ∧ P a

theorem Fine.bind {α β : Type} {x : Out α} {f : α → Out β} {P : α → Prop} {Q : β → Prop}
    (hx : x.Fine P) (hf : ∀ a, P a → (f a).Fine Q) : (x.bind f).Fine Q := by
  obtain ⟨a, rfl, ha⟩ := hx
  exact hf a ha

theorem Fine.ok {α : Type} {a : α} {P : α → Prop} (h : P a) : (Out.ok a).Fine P := ⟨a, rfl, h⟩

theorem checkRename_length (K : Kern) (s : St) (m : Nat) : (checkRename K s m).objs.length = s.objs.length := by
  unfold checkRename
  split
  · rfl
  · split
    · rfl
    · rw [upd_length, handleRename_length]

theorem ioctl_fine {K : Kern} {s : St} {N : Nat} (hg : Good s) (hN : s.objs.length = N) {k : Nat} (hk : k < N) :
    (ioctl K s k).Fine fun r => Good r.1 ∧ r.1.objs.length = N := by
  obtain ⟨r, hr⟩ := canon_ok hg (hN ▸ hk)
  unfold ioctl
  rw [hr]
  cases r with
  | none => exact Fine.ok ⟨hg, hN⟩
  | some m =>
    obtain ⟨h1, h2⟩ := canon_some hr
    obtain ⟨h3, h4⟩ := checkRename_self K s m h1 h2
    refine Fine.ok ⟨good_checkRename (good_checkRename hg h1 h2) h3 h4, ?_⟩
    simp only [checkRename_length, hN]

theorem assignNic_length (K : Kern) (s : St) (k : Nat) : (assignNic K k s).objs.length = s.objs.length :=
  length_of_map (assignNic_same (·.canonical) (fun _ _ _ _ => rfl) K s k)

theorem init_fine {K : Kern} {l : Link} {c : Class} {k : Nat} {s : St} {N : Nat} (hg : Good s)
    (hN : s.objs.length = N) (hk : k < N) :
    (init K l c k s).Fine fun r => Good r.1 ∧ r.1.objs.length = N := by
  have H := good_closed K k
  have up : ∀ {t : St} (f : Intf → Intf), (∀ x, (f x).canonical = x.canonical) →
      Good t ∧ t.objs.length = N → Good (t.upd k f) ∧ (t.upd k f).objs.length = N := by
    intro t f hf ht
    exact ⟨good_same (upd_same _ t k f hf) ht.1, by rw [upd_length]; exact ht.2⟩
  have io : ∀ {t : St}, Good t ∧ t.objs.length = N →
      (ioctl K t k).Fine fun r => Good r.1 ∧ r.1.objs.length = N := fun ht => ioctl_fine ht.1 ht.2 hk
  have h : Good (reset K l c k s) ∧ (reset K l c k s).objs.length = N := up _ (fun x => rfl) ⟨hg, hN⟩
  unfold init
  refine Fine.bind (P := fun r => Good r.1 ∧ r.1.objs.length = N) ?_ ?_
  · unfold hwAddress
    split
    · exact Fine.ok (up _ (fun x => rfl) h)
    · refine Fine.bind (io h) ?_
      rintro ⟨s, d⟩ hs
      cases d with
      | none => exact Fine.ok hs
      | some d =>
        dsimp only
        split
        · exact Fine.ok hs
        · exact Fine.ok (up _ (fun x => rfl) hs)
  rintro ⟨s, rc1⟩ hs
  refine Fine.bind (P := fun r => Good r.1 ∧ r.1.objs.length = N) ?_ ?_
  · unfold versions
    split
    · exact Fine.ok (up _ (fun x => rfl) hs)
    · refine Fine.bind (io hs) ?_
      rintro ⟨s, d⟩ hs
      cases d with
      | none => exact Fine.ok (up _ (fun x => rfl) hs)
      | some d => exact Fine.ok (up _ (fun x => rfl) hs)
  rintro ⟨s, rc2⟩ hs
  refine Fine.bind (P := fun r => Good r ∧ r.objs.length = N) ?_ ?_
  · unfold tsInfo
    split
    · exact Fine.ok (up _ (fun x => rfl) hs)
    · refine Fine.bind (io hs) ?_
      rintro ⟨s, d⟩ hs
      cases d with
      | none => exact Fine.ok (up _ (fun x => rfl) hs)
      | some d =>
        dsimp only
        split
        · exact Fine.ok (up _ (fun x => rfl) hs)
        · exact Fine.ok (up _ (fun x => rfl) hs)
  intro s hs
  refine Fine.bind (P := fun r => Good r ∧ r.objs.length = N) ?_ ?_
  · unfold efxSupport
    split
    · refine Fine.bind (io hs) ?_
      rintro ⟨s, d⟩ hs
      cases d with
      | none => exact Fine.ok (up _ (fun x => rfl) hs)
      | some d =>
        dsimp only
        split
        · exact Fine.ok (up _ (fun x => rfl) hs)
        · exact Fine.ok hs
    · exact Fine.ok hs
  intro s hs
  refine Fine.bind (P := fun r => Good r ∧ r.objs.length = N) ?_ ?_
  · have hs' : Good (assignNic K k s) ∧ (assignNic K k s).objs.length = N :=
      ⟨H.nic s hs.1, by rw [assignNic_length]; exact hs.2⟩
    unfold statsInit
    dsimp only
    split
    · exact Fine.ok (up _ (fun x => by split <;> rfl) hs')
    · refine Fine.bind (io hs') ?_
      rintro ⟨s, d⟩ hs
      cases d with
      | none => exact Fine.ok (up _ (fun x => by split <;> rfl) hs)
      | some d => exact Fine.ok (up _ (fun x => by split <;> rfl) hs)
  intro s hs
  exact Fine.ok hs

theorem delete_length (k : Nat) (s : St) : (delete k s).objs.length = s.objs.length :=
  length_of_map (delete_same (·.canonical) (fun _ _ _ => rfl) s k)

theorem rescan_length (K : Kern) (s : St) : (rescan K s).objs.length = s.objs.length :=
  length_of_map (rescan_same (·.canonical) (fun _ _ => rfl) K s)

theorem settle_fine {K : Kern} {l : Link} {k : Nat} {rc : Int} {ch : Bool} {s : St} (hg : Good s)
    (hk : k < s.objs.length) : (settle K l k rc ch s).Fine fun r => Good r.1 := by
  have hdel : ∀ t, Good t → Good (delete k t) := fun t h => good_same (delete_same (·.canonical) (fun _ _ _ => rfl) t k) h
  have hsc : ∀ t, Good t → Good (rescan K t) := fun t h => good_same (rescan_same (·.canonical) (fun _ _ => rfl) K t) h
  unfold settle
  split
  · exact Fine.ok (hsc _ (hdel _ (good_same (upd_same (·.canonical) s k _ fun x => rfl) hg)))
  · refine Fine.bind (init_fine hg rfl hk) ?_
    rintro ⟨t, rc'⟩ ⟨ht, hN⟩
    dsimp only
    have h2 : Good (rescan K (if rc' = ENODEV then delete k t else t)) ∧
        (rescan K (if rc' = ENODEV then delete k t else t)).objs.length = s.objs.length := by
      rw [rescan_length]
      split
      · exact ⟨hsc _ (hdel _ ht), by rw [delete_length]; exact hN⟩
      · exact ⟨hsc _ ht, hN⟩
    obtain ⟨r, hr⟩ := canon_ok h2.1 (k := k) (by rw [h2.2]; exact hk)
    rw [hr]
    exact Fine.ok h2.1

theorem step_fine {K : Kern} {s : St} {e : Ev} (hg : Good s) (hn : NoComeback s e) : (step K s e).Fine Good := by
  suffices h : ∃ s', step K s e = .ok s' by
    obtain ⟨s', h⟩ := h
    exact ⟨s', h, good_step hg hn s' h⟩
  cases e with
  | insert l =>
    unfold step insert
    dsimp only
    split
    · obtain ⟨a, ha, _⟩ := settle_fine (K := K) (l := l) (k := s.objs.length) (rc := 0) (ch := false) (good_append hg)
        (by simp)
      rw [ha]; exact ⟨_, rfl⟩
    · rename_i k hk
      obtain ⟨h1, h2⟩ := findIndex_lt hk
      split
      · rename_i hne
        obtain ⟨a, ha, _⟩ := settle_fine (K := K) (l := l) (k := k) (rc := (handleRename s k l.name).2) (ch := false)
          (good_handleRename hg h1 (hn k _ (obj_lt h1) h2) hne) (by rw [handleRename_length]; exact h1)
        rw [ha]; exact ⟨_, rfl⟩
      · obtain ⟨a, ha, _⟩ := settle_fine (K := K) (l := l) (k := k) (rc := 0) (ch := true) hg h1
        rw [ha]; exact ⟨_, rfl⟩
  | remove i n => exact ⟨_, rfl⟩
  | enable k =>
    unfold step
    dsimp only
    split
    · rename_i hk
      obtain ⟨r, hr⟩ := canon_ok hg hk
      unfold enable
      rw [hr]
      cases r with
      | none => exact ⟨_, rfl⟩
      | some m =>
        simp only [bind_ok]
        repeat' split
        all_goals exact ⟨_, rfl⟩
    · exact ⟨_, rfl⟩
  | disable k =>
    unfold step
    dsimp only
    split
    · rename_i hk
      obtain ⟨r, hr⟩ := canon_ok hg hk
      unfold disable
      rw [hr]
      cases r with
      | none => exact ⟨_, rfl⟩
      | some m => exact ⟨_, rfl⟩
    · exact ⟨_, rfl⟩
  | ioctl k =>
    unfold step
    dsimp only
    split
    · rename_i hk
      obtain ⟨r, hr⟩ := canon_ok hg hk
      unfold ioctl
      rw [hr]
      cases r with
      | none => exact ⟨_, rfl⟩
      | some m => exact ⟨_, rfl⟩
    · exact ⟨_, rfl⟩

theorem run_fine : ∀ (es : List (Kern × Ev)) (s : St), Good s → Along (fun _ s e => NoComeback s e) s es →
    (run s es).Fine Good
  | [], s, hg, _ => Fine.ok hg
  | (K, e) :: es, s, hg, ha => by
    obtain ⟨s', h1, h2⟩ := step_fine (K := K) hg ha.1
    unfold run
    rw [h1]
    exact run_fine es s' h2 (ha.2 s' h1)

theorem good_empty : Good {} :=
  ⟨fun k o ho => by simp at ho, fun k hk => by simp at hk⟩

end Verif.Intf
