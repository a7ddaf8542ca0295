import Verif.Intf.Table

set_option linter.unusedSimpArgs false
set_option linter.unusedVariables false

/-!
# Names over runs, and start-up
-/

namespace Verif.Intf

/-! ## Names over runs -/

/-- Names and indexes are each of one object. -/
def Table (s : St) : Prop := Names s ∧ (s.objs.map (·.index)).Nodup

theorem same_of_index {s : St} (hd : (s.objs.map (·.index)).Nodup) {i j : Nat} {a b : Intf}
    (ha : s.objs[i]? = some a) (hb : s.objs[j]? = some b) (h : a.index = b.index) : i = j := by
  have h1 : (s.objs.map (·.index))[i]? = some a.index := by rw [List.getElem?_map, ha]; rfl
  have h2 : (s.objs.map (·.index))[j]? = some b.index := by rw [List.getElem?_map, hb]; rfl
  exact (List.getElem?_inj (List.getElem?_eq_some_iff.mp h1).1 hd).mp (by rw [h1, h2, h])

theorem findName_of_names {s : St} (hn : Names s) {k : Nat} {o : Intf} (ho : s.objs[k]? = some o) (h0 : o.name ≠ 0) :
    findName s o.name = some k := by
  cases hf : findName s o.name with
  | none => exact absurd rfl (findName_none.mp hf o (List.mem_of_getElem? ho))
  | some j =>
    obtain ⟨h1, h2⟩ := findName_lt hf
    rw [hn k j o _ ho (obj_lt h1) h2.symm h0]

theorem findIndex_of {s : St} (hd : (s.objs.map (·.index)).Nodup) {k : Nat} {o : Intf} (ho : s.objs[k]? = some o) :
    findIndex s o.index = some k := by
  cases hf : findIndex s o.index with
  | none => exact absurd rfl (findIndex_none.mp hf o (List.mem_of_getElem? ho))
  | some j =>
    obtain ⟨h1, h2⟩ := findIndex_lt hf
    rw [same_of_index hd ho (obj_lt h1) h2.symm]

/-- After a renaming no other object has the new name. -/
theorem handleRename_free {s : St} {k nm : Nat} (hn : Names s) (h0 : nm ≠ 0)
    (hl : ∀ (i : Nat) (o : Intf), s.objs[i]? = some o → i ≠ k → o.deleted = false → o.name ≠ nm)
    {i : Nat} {o : Intf} (ho : (handleRename s k nm).1.objs[i]? = some o) (hi : i ≠ k) : o.name ≠ nm := by
  intro he
  obtain ⟨x, hx, _, hc⟩ := handleRename_get ho
  rcases hc with hc | hc
  · have hf : findName s nm = some i := by
      have := findName_of_names hn hx (by rw [← hc, he]; exact h0)
      rwa [← hc, he] at this
    have hdel : x.deleted = true := by
      cases hd : x.deleted with
      | true => rfl
      | false => exact absurd (hc ▸ he) (hl i x hx hi hd)
    unfold handleRename at ho
    rw [hf] at ho
    dsimp only at ho
    rw [obj_of hx, if_pos hdel] at ho
    rw [upd_get, if_pos rfl, hx] at ho
    simp only [Option.map_some, Option.some.injEq] at ho
    subst ho
    exact h0 he.symm
  · exact h0 (he ▸ hc.1)

theorem handleRename_index (s : St) (k nm : Nat) :
    (handleRename s k nm).1.objs.map (·.index) = s.objs.map (·.index) := handleRename_same _ (fun _ _ _ => rfl) s k nm

theorem settle_table {K : Kern} {l : Link} {k : Nat} {rc : Int} {ch : Bool} {s t : St} (hk : k < t.objs.length)
    (hn : Names t) (hfree : ∀ (i : Nat) (o : Intf), t.objs[i]? = some o → i ≠ k → o.name ≠ l.name)
    (hK : ∀ n, K.nameOf l.index = some n → n = l.name)
    (hO : ∀ (i : Nat) (o : Intf), t.objs[i]? = some o → i ≠ k → ∀ n, K.nameOf o.index = some n → n = o.name) :
    (settle K l k rc ch t).All fun r => Names r.1 := by
  intro r hr
  have hL : Agree K ((t.upd k fun x => { x with name := l.name, index := l.index }).objs.map idn) := by
    intro p hp n hpn
    obtain ⟨o, ho, rfl⟩ := List.mem_map.mp hp
    obtain ⟨i, hi⟩ := List.mem_iff_getElem?.mp ho
    rw [upd_get] at hi
    split at hi
    · rename_i hik
      subst hik
      rw [obj_lt hk] at hi
      simp only [Option.map_some, Option.some.injEq] at hi
      subst hi
      exact hK n hpn
    · rename_i hik
      exact hO i o hi hik n hpn
  have := settle_names (rc := rc) (ch := ch) hL rfl r hr
  exact names_same (idn_names this) (names_set hn hfree)

theorem names_step {K : Kern} {s : St} {e : Ev} (h : Table s) (hK : SameNames K s e) (hF : FreeName s e) :
    (step K s e).All Names := by
  obtain ⟨hn, hd⟩ := h
  by_cases he : ∃ l, e = .insert l
  · obtain ⟨l, rfl⟩ := he
    obtain ⟨hK1, hK2⟩ := hK
    obtain ⟨h0, hF⟩ := hF
    unfold step
    refine All.bind (P := fun r => Names r.1) ?_ (fun r hr => All.ok hr)
    unfold insert
    cases hf : findIndex s l.index with
    | none =>
      have hne := findIndex_none.mp hf
      have hni : l.index ∉ s.objs.map (·.index) := by
        intro hm
        obtain ⟨o, ho, e⟩ := List.mem_map.mp hm
        exact hne o ho e
      rw [if_neg hni] at hF
      have hold : ∀ (i : Nat) (o : Intf), (s.objs ++ [({} : Intf)])[i]? = some o → i ≠ s.objs.length → s.objs[i]? = some o := by
        intro i o ho hi
        have := (List.getElem?_eq_some_iff.mp ho).1
        simp at this
        rw [List.getElem?_append_left (by omega)] at ho
        exact ho
      refine settle_table (s := s) (by simp) ?_ (fun i o ho hi => hF o (List.mem_of_getElem? (hold i o ho hi))) hK1
        (fun i o ho hi n hn => (hK2 o (List.mem_of_getElem? (hold i o ho hi))
          (hne o (List.mem_of_getElem? (hold i o ho hi))) n hn).1)
      intro i j a b ha hb hab h0'
      by_cases hi : i = s.objs.length
      · subst hi
        have : a = {} := by simpa using ha.symm
        subst this
        exact absurd rfl h0'
      · by_cases hj : j = s.objs.length
        · subst hj
          have : b = {} := by simpa using hb.symm
          subst this
          exact absurd hab h0'
        · exact hn i j a b (hold i a ha hi) (hold j b hb hj) hab h0'
    | some k =>
      obtain ⟨h1, h2⟩ := findIndex_lt hf
      have hm : l.index ∈ s.objs.map (·.index) := List.mem_map.mpr ⟨s.obj k, List.mem_of_getElem? (obj_lt h1), h2⟩
      rw [if_pos hm] at hF
      have hother : ∀ (i : Nat) (o : Intf), s.objs[i]? = some o → i ≠ k → o.index ≠ l.index := by
        intro i o ho hi he
        exact hi (same_of_index hd ho (obj_lt h1) (by rw [he, h2]))
      dsimp only
      split
      · refine settle_table (s := s) (by rw [handleRename_length]; exact h1) (names_handleRename hn) ?_ hK1 ?_
        · intro i o ho hi
          exact handleRename_free hn h0 (fun i o ho hi hl => hF o (List.mem_of_getElem? ho) (hother i o ho hi) hl) ho hi
        · intro i o ho hi n hnm
          obtain ⟨x, hx, hxi, hc⟩ := handleRename_get ho
          rw [hxi] at hnm
          have := hK2 x (List.mem_of_getElem? hx) (hother i x hx hi) n hnm
          rcases hc with hc | hc
          · rw [hc]; exact this.1
          · exact absurd (this.1.trans hc.2.2) this.2
      · rename_i hname
        have hname : (s.obj k).name = l.name := by simpa using hname
        refine settle_table (s := s) h1 hn ?_ hK1 (fun i o ho hi n hnm =>
          (hK2 o (List.mem_of_getElem? ho) (hother i o ho hi) n hnm).1)
        intro i o ho hi he
        exact hi (hn i k o _ ho (obj_lt h1) (by rw [he, hname]) (by rw [he]; exact h0))
  · have hA : (step K s e).All fun r => r.objs.map (·.name) = s.objs.map (·.name) := by
      have ren : Agree K (s.objs.map idn) → ∀ (t : St) m, t.objs.map idn = s.objs.map idn → (t.obj m).canonical = none →
          (t.obj m).deleted = false → (checkRename K t m).objs.map idn = s.objs.map idn := by
        intro hA t m ht _ hdl
        rw [checkRename_id (ht ▸ hA) hdl]
        exact ht
      have ts : ∀ (t : St) (m : Nat) (b : Bool), t.objs.map idn = s.objs.map idn →
          (t.upd m fun x => { x with tsOn := b }).objs.map idn = s.objs.map idn :=
        fun t m b ht => (upd_same idn t m (fun x => { x with tsOn := b }) fun x => rfl).trans ht
      have hAg : (∀ o ∈ s.objs, ∀ n, K.nameOf o.index = some n → n = o.name) → Agree K (s.objs.map idn) := by
        intro hh p hp n hpn
        obtain ⟨o, ho, rfl⟩ := List.mem_map.mp hp
        exact hh o ho n hpn
      cases e with
      | insert l => exact absurd ⟨l, rfl⟩ he
      | remove i n =>
        refine All.ok ?_
        unfold remove
        split
        · rfl
        · split
          · rfl
          · rw [rescan_same (·.name) (fun _ _ => rfl), delete_same (·.name) (fun _ _ _ => rfl)]
      | enable k =>
        unfold step
        dsimp only
        split
        · exact All.bind (enable_all (P := fun t => t.objs.map idn = s.objs.map idn) k (ren (hAg hK)) ts s rfl)
            (fun r hr => All.ok (idn_names hr))
        · exact All.ok rfl
      | disable k =>
        unfold step
        dsimp only
        split
        · exact fun r hr => idn_names (disable_all (P := fun t => t.objs.map idn = s.objs.map idn) k (ren (hAg hK)) ts s rfl r hr)
        · exact All.ok rfl
      | ioctl k =>
        unfold step
        dsimp only
        split
        · exact All.bind (ioctl_all (k := k) (P := fun t => t.objs.map idn = s.objs.map idn) (ren (hAg hK)) s rfl k)
            (fun r hr => All.ok (idn_names hr))
        · exact All.ok rfl
    exact fun r hr => names_same (hA r hr) hn

theorem table_run : ∀ (es : List (Kern × Ev)) (s : St), Table s →
    Along (fun K s e => SameNames K s e ∧ FreeName s e) s es → (run s es).All Table
  | [], s, h, _ => All.ok h
  | (K, e) :: es, s, h, ha => by
    intro r hr
    unfold run at hr
    cases hs : step K s e with
    | assert => rw [hs] at hr; cases hr
    | hang => rw [hs] at hr; cases hr
    | ok t =>
      rw [hs] at hr
      obtain ⟨_, _, hx⟩ := step_index K s e t hs
      exact table_run es t ⟨names_step h ha.1.1 ha.1.2 t hs, hx h.2⟩ (ha.2 t hs) r hr

theorem checkRename_name {K : Kern} {s : St} {m n : Nat} (hd : (s.obj m).deleted = false)
    (hn : K.nameOf (s.obj m).index = some n) :
    ((checkRename K s m).obj m).name = n ∧ ((checkRename K s m).obj m).index = (s.obj m).index := by
  have hm := live_lt hd
  have hi : ((checkRename K s m).obj m).index = (s.obj m).index := by
    obtain ⟨o, h1, h2⟩ := get_of_map (checkRename_same (·.index) (fun _ _ _ => rfl) K s m) (obj_lt hm)
    rw [obj_of h1]
    exact h2
  refine ⟨?_, hi⟩
  unfold checkRename
  rw [hn]
  dsimp only
  split
  · rename_i h; exact h.symm
  · rw [upd_obj (by rw [handleRename_length]; exact hm)]

/-! ## Start-up -/

/-- Index and whether it is gone. -/
def idd (o : Intf) : Int × Bool := (o.index, o.deleted)

theorem idd_closed (K : Kern) (k : Nat) (L : List (Int × Bool)) : Closed K k fun s => s.objs.map idd = L where
  mild s h f hf := (upd_same idd s k f fun x => by unfold idd; rw [(hf x).1, (hf x).2.2.2.1]).trans h
  ren s m h _ _ := (checkRename_same idd (fun _ _ _ => rfl) K s m).trans h
  nic s h := (assignNic_same idd (fun _ _ _ _ => rfl) K s k).trans h
  stats s h b := (upd_same idd s k _ fun x => by split <;> rfl).trans h

theorem init_idd (K : Kern) (l : Link) (c : Class) (s : St) :
    (init K l c s.objs.length { s with objs := s.objs ++ [{}] }).All fun r =>
      r.1.objs.map idd = s.objs.map idd ++ [(l.index, false)] := by
  refine init_all (idd_closed K _ _) l c _ ?_
  unfold reset
  rw [upd_last]
  simp [idd]

/-- What start-up makes of the links: one live object for each that is suitable, in order. -/
theorem scan_idd (K : Kern) : ∀ (ls : List Link) (s : St), (scan K ls s).All fun r => r.2 = 0 →
    r.1.objs.map idd = s.objs.map idd ++ (ls.filter fun l => (suitable K l).isSome).map fun l => (l.index, false)
  | [], s => All.ok (by simp)
  | l :: ls, s => by
    unfold scan
    cases hs : suitable K l with
    | none =>
      dsimp only
      rw [List.filter_cons_of_neg (by simp [hs])]
      exact scan_idd K ls s
    | some c =>
      dsimp only
      rw [List.filter_cons_of_pos (by simp [hs])]
      refine All.bind (init_idd K l c s) ?_
      rintro ⟨s1, rc⟩ h1
      dsimp only at h1 ⊢
      have hlast : (s1.obj s.objs.length).deleted = false := by
        have hl : (s1.objs.map idd)[s.objs.length]? = some (l.index, false) := by rw [h1]; simp
        rw [List.getElem?_map] at hl
        cases ho : s1.objs[s.objs.length]? with
        | none => rw [ho] at hl; cases hl
        | some o =>
          rw [ho] at hl
          rw [obj_of ho]
          simp only [Option.map_some, Option.some.injEq, idd, Prod.mk.injEq] at hl
          exact hl.2
      split
      · rw [hlast, if_neg (by simp)]
        intro r hr; cases hr
      · split
        · rename_i hne
          exact All.ok fun h => absurd h hne
        · intro r hr h0
          have := scan_idd K ls (rescan K s1) r hr h0
          rw [this, rescan_same idd (fun _ _ => rfl), h1]
          simp

/-- With all told by netlink, an initialisation succeeds. -/
theorem init_complete {K : Kern} {l : Link} {c : Class} {k : Nat} {s : St} (hg : Good s) (hk : k < s.objs.length)
    (hc : Complete l) : (init K l c k s).Fine fun r => Good r.1 ∧ r.2 = 0 := by
  obtain ⟨r, hr, h1, _⟩ := init_fine (K := K) (l := l) (c := c) hg rfl hk
  refine ⟨r, hr, h1, ?_⟩
  obtain ⟨hp, hb, hst⟩ := hc
  obtain ⟨a, ha⟩ := Option.isSome_iff_exists.mp hp
  have key : (init K l c k s).All fun r => r.2 = 0 := by
    unfold init
    refine All.bind (P := fun r => r.2 = 0) ?_ ?_
    · unfold hwAddress; rw [ha]; exact All.ok rfl
    rintro ⟨t, r1⟩ h1
    refine All.bind (P := fun r => r.2 = 0) ?_ ?_
    · unfold versions; rw [if_pos ⟨hb, hst⟩]; exact All.ok rfl
    rintro ⟨t, r2⟩ h2
    dsimp only at h1 h2 ⊢
    refine All.bind (P := fun _ => True) (fun _ _ => trivial) fun _ _ => ?_
    refine All.bind (P := fun _ => True) (fun _ _ => trivial) fun _ _ => ?_
    refine All.bind (P := fun _ => True) (fun _ _ => trivial) fun _ _ => ?_
    exact All.ok (by dsimp only; rw [if_pos h1]; exact h2)
  exact key r hr

theorem scan_complete {K : Kern} : ∀ (ls : List Link) (s : St), Good s → (∀ l ∈ ls, Complete l) →
    (scan K ls s).Fine fun r => r.2 = 0
  | [], s, _, _ => Fine.ok rfl
  | l :: ls, s, hg, hc => by
    unfold scan
    have hc' : ∀ l ∈ ls, Complete l := fun x hx => hc x (List.mem_cons_of_mem _ hx)
    split
    · exact scan_complete ls s hg hc'
    · refine Fine.bind (init_complete (good_append hg) (by simp) (hc l List.mem_cons_self)) ?_
      rintro ⟨t, rc⟩ ⟨ht, hrc⟩
      dsimp only at ht hrc ⊢
      subst hrc
      rw [if_neg (show ¬ (0 : Int) = EOPNOTSUPP by decide), if_neg (by simp)]
      exact scan_complete ls _ (good_same (rescan_same (·.canonical) (fun _ _ => rfl) K t) ht) hc'

/-! ## Numbers at start-up -/

/-- The part of objects that numbers depend on. -/
def core (o : Intf) : Int × Bool × Int × Int × Nat := (o.index, o.deleted, o.nic, o.ts.phc, o.mac)

/-- Before the object `n` of the link `l` has its number. -/
structure Fresh (L : List (Int × Bool × Int × Int × Nat)) (nn : Int) (l : Link) (s : St) : Prop where
  len : s.objs.length = L.length + 1
  old : (s.objs.take L.length).map core = L
  idx : (s.obj L.length).index = l.index
  del : (s.obj L.length).deleted = false
  nic : (s.obj L.length).nic = -1
  next : s.nextNic = nn

/-- Numbers are right. -/
structure NicOk (s : St) : Prop where
  live : ∀ o ∈ s.objs, o.deleted = false
  given : ∀ o ∈ s.objs, o.ts.phc ≠ -1 → o.nic ≠ -1 ∧ o.nic < s.nextNic
  one : ∀ a ∈ s.objs, ∀ b ∈ s.objs, a.ts.phc ≠ -1 → b.ts.phc ≠ -1 → (a.nic = b.nic ↔ a.ts.phc = b.ts.phc)
  pos : 0 ≤ s.nextNic

theorem nicOk_same {s s' : St} (h : s'.objs.map core = s.objs.map core) (hn : s'.nextNic = s.nextNic) (hp : NicOk s) :
    NicOk s' := by
  have hx : ∀ o ∈ s'.objs, ∃ o' ∈ s.objs, o'.deleted = o.deleted ∧ o'.nic = o.nic ∧ o'.ts.phc = o.ts.phc := by
    intro o ho
    obtain ⟨o', h1, h2⟩ := mem_of_map h ho
    simp only [core, Prod.mk.injEq] at h2
    exact ⟨o', h1, h2.2.1, h2.2.2.1, h2.2.2.2.1⟩
  refine ⟨fun o ho => ?_, fun o ho hne => ?_, fun a ha b hb => ?_, by rw [hn]; exact hp.pos⟩
  · obtain ⟨o', h1, h2, _⟩ := hx o ho
    rw [← h2]; exact hp.live o' h1
  · obtain ⟨o', h1, _, h3, h4⟩ := hx o ho
    rw [hn, ← h3]
    exact hp.given o' h1 (by rw [h4]; exact hne)
  · obtain ⟨a', h1, _, h3, h4⟩ := hx a ha
    obtain ⟨b', k1, _, k3, k4⟩ := hx b hb
    rw [← h3, ← h4, ← k3, ← k4]
    exact hp.one a' h1 b' k1

theorem take_upd {s : St} {n : Nat} {f : Intf → Intf} : (s.upd n f).objs.take n = s.objs.take n := by
  apply List.ext_getElem?
  intro i
  rw [List.getElem?_take, List.getElem?_take, upd_get]
  split
  · rw [if_neg (by omega)]
  · rfl

theorem fresh_core {L : List (Int × Bool × Int × Int × Nat)} {nn : Int} {l : Link} {s s' : St}
    (h : s'.objs.map core = s.objs.map core) (hn : s'.nextNic = s.nextNic) (hp : Fresh L nn l s) : Fresh L nn l s' := by
  have hl := length_of_map h
  obtain ⟨o, h1, h2⟩ := get_of_map h (obj_lt (show L.length < s.objs.length by rw [hp.len]; omega))
  simp only [core, Prod.mk.injEq] at h2
  rw [← obj_of h1] at h2
  refine ⟨hl.trans hp.len, ?_, h2.1.trans hp.idx, h2.2.1.trans hp.del, h2.2.2.1.trans hp.nic, hn.trans hp.next⟩
  rw [List.map_take, h, ← List.map_take, hp.old]

theorem fresh_mem {L : List (Int × Bool × Int × Int × Nat)} {nn : Int} {l : Link} {s : St} (hp : Fresh L nn l s)
    {i : Nat} {o : Intf} (ho : s.objs[i]? = some o) (hi : i ≠ L.length) : core o ∈ L := by
  have hlt := (List.getElem?_eq_some_iff.mp ho).1
  have := hp.len
  rw [← hp.old]
  refine List.mem_map.mpr ⟨o, List.mem_iff_getElem?.mpr ⟨i, ?_⟩, rfl⟩
  rw [List.getElem?_take, if_pos (by omega)]
  exact ho

theorem findIdx_some {os : List Intf} {p : Intf → Bool} {k : Nat} (h : os.findIdx? p = some k) :
    ∃ o, os[k]? = some o ∧ p o = true := by
  obtain ⟨h1, h2, _⟩ := List.findIdx?_eq_some_iff_getElem.mp h
  exact ⟨os[k], List.getElem?_eq_getElem h1, h2⟩

theorem findIdx_none {os : List Intf} {p : Intf → Bool} (h : os.findIdx? p = none) : ∀ o ∈ os, p o = false :=
  List.findIdx?_eq_none_iff.mp h

/-- The object gets a number that fits. -/
theorem nicOk_number {s0 s : St} {l : Link} (hp : Fresh (s0.objs.map core) s0.nextNic l s) (h0 : NicOk s0)
    (v : Int) (nn : Int) (f : Intf → Intf) (hf : ∀ x, (f x).nic = v ∧ (f x).deleted = x.deleted ∧ (f x).ts = x.ts)
    (hnn : s0.nextNic ≤ nn)
    (hv : (s.obj s0.objs.length).ts.phc ≠ -1 → v ≠ -1 ∧ v < nn ∧
      ∀ o ∈ s0.objs, o.ts.phc ≠ -1 → (o.nic = v ↔ o.ts.phc = (s.obj s0.objs.length).ts.phc)) :
    NicOk { s.upd s0.objs.length f with nextNic := nn } := by
  have hL : (s0.objs.map core).length = s0.objs.length := List.length_map _
  have hlen : s0.objs.length < s.objs.length := by have := hp.len; omega
  have hdel := hp.del
  rw [hL] at hdel
  have hx : ∀ o ∈ (s.upd s0.objs.length f).objs,
      (o = f (s.obj s0.objs.length)) ∨ ∃ o' ∈ s0.objs, o'.deleted = o.deleted ∧ o'.nic = o.nic ∧ o'.ts.phc = o.ts.phc := by
    intro o ho
    obtain ⟨i, hi⟩ := List.mem_iff_getElem?.mp ho
    rw [upd_get] at hi
    split at hi
    · rename_i hik
      subst hik
      rw [obj_lt hlen] at hi
      simp only [Option.map_some, Option.some.injEq] at hi
      exact .inl hi.symm
    · rename_i hik
      obtain ⟨o', h1, h2⟩ := List.mem_map.mp (fresh_mem hp hi (by rw [hL]; exact hik))
      simp only [core, Prod.mk.injEq] at h2
      exact .inr ⟨o', h1, h2.2.1, h2.2.2.1, h2.2.2.2.1⟩
  obtain ⟨f1, f2, f3⟩ := hf (s.obj s0.objs.length)
  have hpos := h0.pos
  refine ⟨fun o ho => ?_, fun o ho hne => ?_, fun a ha b hb hane hbne => ?_, by show 0 ≤ nn; omega⟩
  · rcases hx o ho with rfl | ⟨o', h1, h2, _⟩
    · rw [f2]; exact hdel
    · rw [← h2]; exact h0.live o' h1
  · show o.nic ≠ -1 ∧ o.nic < nn
    rcases hx o ho with rfl | ⟨o', h1, _, h3, h4⟩
    · rw [f3] at hne
      rw [f1]
      exact ⟨(hv hne).1, (hv hne).2.1⟩
    · rw [← h3]
      have := h0.given o' h1 (by rw [h4]; exact hne)
      exact ⟨this.1, by omega⟩
  · rcases hx a ha with rfl | ⟨a', h1, _, h3, h4⟩ <;> rcases hx b hb with rfl | ⟨b', k1, _, k3, k4⟩
    · exact ⟨fun _ => rfl, fun _ => rfl⟩
    · rw [f3] at hane ⊢
      rw [f1, ← k3, ← k4]
      have := (hv hane).2.2 b' k1 (by rw [k4]; exact hbne)
      exact ⟨fun h => (this.mp h.symm).symm, fun h => (this.mpr h.symm).symm⟩
    · rw [f3] at hbne ⊢
      rw [f1, ← h3, ← h4]
      exact (hv hbne).2.2 a' h1 (by rw [h4]; exact hane)
    · rw [← h3, ← h4, ← k3, ← k4]
      exact h0.one a' h1 b' k1 (by rw [h4]; exact hane) (by rw [k4]; exact hbne)

theorem nicOk_assign {K : Kern} {s0 s : St} {l : Link} (hp : Fresh (s0.objs.map core) s0.nextNic l s)
    (h0 : NicOk s0) (hone : K.onePhc = false) (hi : ∀ o ∈ s0.objs, o.index ≠ l.index)
    (hm : (s.objs.map (·.mac)).Nodup) : NicOk (assignNic K s0.objs.length s) := by
  have hL : (s0.objs.map core).length = s0.objs.length := List.length_map _
  have hlen : s0.objs.length < s.objs.length := by have := hp.len; omega
  have hdel := hp.del
  have hidx := hp.idx
  have hnic := hp.nic
  have hnext := hp.next
  rw [hL] at hdel hidx hnic
  have hold : ∀ (i : Nat) (o : Intf), s.objs[i]? = some o → i ≠ s0.objs.length →
      ∃ o' ∈ s0.objs, o'.index = o.index ∧ o'.deleted = o.deleted ∧ o'.nic = o.nic ∧ o'.ts.phc = o.ts.phc := by
    intro i o ho hik
    obtain ⟨o', h1, h2⟩ := List.mem_map.mp (fresh_mem hp ho (by rw [hL]; exact hik))
    simp only [core, Prod.mk.injEq] at h2
    exact ⟨o', h1, h2.1, h2.2.1, h2.2.2.1, h2.2.2.2.1⟩
  have hnew : ∀ o' ∈ s0.objs, ∃ (i : Nat) (o : Intf), i ≠ s0.objs.length ∧ s.objs[i]? = some o ∧ core o = core o' := by
    intro o' ho'
    have : core o' ∈ (s.objs.take (s0.objs.map core).length).map core := by
      rw [hp.old]; exact List.mem_map.mpr ⟨o', ho', rfl⟩
    obtain ⟨o, ho, he⟩ := List.mem_map.mp this
    obtain ⟨i, hi⟩ := List.mem_iff_getElem?.mp ho
    rw [List.getElem?_take, hL] at hi
    split at hi
    · exact ⟨i, o, by omega, hi, he⟩
    · cases hi
  unfold assignNic
  by_cases hc : (s.obj s0.objs.length).ts.phc ≠ -1 ∧ (s.obj s0.objs.length).nic = -1
  · rw [if_pos hc]
    cases hsc : sameClock s s0.objs.length with
    | some j =>
      obtain ⟨o, ho, hpo⟩ := findIdx_some hsc
      have hpo : o.ts.phc = (s.obj s0.objs.length).ts.phc ∧ o.index ≠ (s.obj s0.objs.length).index ∧ o.deleted = false := by
        simpa using hpo
      have hj : j ≠ s0.objs.length := by
        rintro rfl
        rw [obj_of ho] at hpo
        exact hpo.2.1 rfl
      obtain ⟨o', h1, h2, h3, h4, h5⟩ := hold j o ho hj
      dsimp only
      rw [obj_of ho]
      have := nicOk_number (nn := s0.nextNic) hp h0 o.nic (fun x => { x with nic := o.nic }) (fun x => ⟨rfl, rfl, rfl⟩) (Int.le_refl _) ?_
      · rw [← hnext] at this; exact this
      · intro hne
        have hg := h0.given o' h1 (by rw [h5, hpo.1]; exact hne)
        rw [← h4]
        refine ⟨hg.1, hg.2, fun b hb hbne => ?_⟩
        rw [← hpo.1, ← h5]
        exact h0.one b hb o' h1 hbne (by rw [h5, hpo.1]; exact hne)
    | none =>
      have hsn := findIdx_none hsc
      have hmac : sameMac s s0.objs.length = none := by
        cases hs : sameMac s s0.objs.length with
        | none => rfl
        | some j =>
          obtain ⟨o, ho, hpo⟩ := findIdx_some hs
          have hpo : o.mac = (s.obj s0.objs.length).mac ∧ o.index ≠ (s.obj s0.objs.length).index := by simpa using hpo
          exfalso
          have hj : j ≠ s0.objs.length := by
            rintro rfl
            rw [obj_of ho] at hpo
            exact hpo.2 rfl
          apply hj
          have hjl : j < (s.objs.map (·.mac)).length := by
            rw [List.length_map]; exact (List.getElem?_eq_some_iff.mp ho).1
          refine (List.getElem?_inj hjl hm).mp ?_
          rw [List.getElem?_map, List.getElem?_map, ho, obj_lt hlen]
          simp [hpo.1]
      dsimp only
      rw [hmac]
      dsimp only
      rw [if_neg (by simp [hone])]
      refine nicOk_number hp h0 s.nextNic (s.nextNic + 1) _ (fun x => ⟨rfl, rfl, rfl⟩) (by omega) ?_
      intro hne
      have hpos := h0.pos
      refine ⟨by omega, by omega, fun b hb hbne => ?_⟩
      have hb' := h0.given b hb hbne
      refine ⟨fun h => by omega, fun h => ?_⟩
      exfalso
      obtain ⟨i, o, hik, ho, hco⟩ := hnew b hb
      simp only [core, Prod.mk.injEq] at hco
      have hf := hsn o (List.mem_of_getElem? ho)
      have : o.ts.phc = (s.obj s0.objs.length).ts.phc ∧ o.index ≠ (s.obj s0.objs.length).index ∧ o.deleted = false :=
        ⟨by rw [hco.2.2.2.1]; exact h, by rw [hco.1, hidx]; exact hi b hb, by rw [hco.2.1]; exact h0.live b hb⟩
      simp [this] at hf
  · rw [if_neg hc]
    have hz : (s.obj s0.objs.length).ts.phc = -1 := by
      by_contra hne
      exact hc ⟨hne, hnic⟩
    have := nicOk_number (nn := s0.nextNic) hp h0 (-1) (fun x => { x with nic := -1 }) (fun x => ⟨rfl, rfl, rfl⟩) (Int.le_refl _)
      (fun h => absurd hz h)
    have he : ({ s.upd s0.objs.length (fun x => { x with nic := -1 }) with nextNic := s0.nextNic } : St) = s := by
      rw [← hnext]
      have : (s.upd s0.objs.length (fun x => { x with nic := -1 })).objs = s.objs := by
        apply List.ext_getElem?
        intro i
        rw [upd_get]
        split
        · rename_i hik
          subst hik
          rw [obj_lt hlen]
          simp only [Option.map_some, Option.some.injEq]
          rw [← hnic]
        · rfl
      show St.mk _ _ = s
      rw [this]
    rw [he] at this
    exact this

/-- If the addresses differ the numbers are right. -/
def NicGood (s : St) : Prop := (s.objs.map (·.mac)).Nodup → NicOk s

theorem nicGood_same {s s' : St} (h : s'.objs.map core = s.objs.map core) (hn : s'.nextNic = s.nextNic)
    (hp : NicGood s) : NicGood s' := by
  intro hm
  refine nicOk_same h hn (hp ?_)
  have := congrArg (List.map fun x => x.2.2.2.2) h
  simp only [List.map_map, Function.comp_def, core] at this
  rw [← this]
  exact hm

theorem core_stats (x : Intf) (b : Bool) :
    core (if x.ethStats || b then { x with ethStats := true, blocks := x.blocks + 1 } else x) = core x := by
  split <;> rfl

theorem core_prefix {L : List (Int × Bool × Int × Int × Nat)} {nn : Int} {l : Link} {s0 s : St}
    (hp : Fresh (s0.objs.map core) nn l s) : s.objs.map (·.mac) = s0.objs.map (·.mac) ++ [(s.obj s0.objs.length).mac] := by
  have hL : (s0.objs.map core).length = s0.objs.length := List.length_map _
  have hlen := hp.len
  rw [hL] at hlen
  have h1 : s.objs = s.objs.take s0.objs.length ++ [s.obj s0.objs.length] := by
    conv => lhs; rw [← List.take_append_drop s0.objs.length s.objs]
    congr 1
    apply List.ext_getElem?
    intro i
    rw [List.getElem?_drop]
    cases i with
    | zero => rw [Nat.add_zero, obj_lt (by omega)]; rfl
    | succ i => rw [List.getElem?_eq_none (by omega)]; rfl
  have h2 := hp.old
  rw [hL] at h2
  have := congrArg (List.map fun x => x.2.2.2.2) h2
  simp only [List.map_map, Function.comp_def, core] at this
  conv => lhs; rw [h1]
  rw [List.map_append, this]
  rfl

theorem nic_phases {K : Kern} {s0 : St} {l : Link} (hg : NicGood s0) (hone : K.onePhc = false)
    (hi : ∀ o ∈ s0.objs, o.index ≠ l.index) :
    Phases K s0.objs.length (Fresh (s0.objs.map core) s0.nextNic l) NicGood NicGood where
  mild s h f hf := by
    have hL : (s0.objs.map core).length = s0.objs.length := List.length_map _
    have hlen : s0.objs.length < s.objs.length := by have := h.len; omega
    obtain ⟨f1, _, _, f4, f5, _⟩ := hf (s.obj s0.objs.length)
    have := h.idx
    refine ⟨by rw [upd_length]; exact h.len, by rw [hL, take_upd, ← hL]; exact h.old, ?_, ?_, ?_, h.next⟩
    · rw [hL, upd_obj hlen, f1, ← hL]; exact h.idx
    · rw [hL, upd_obj hlen, f4, ← hL]; exact h.del
    · rw [hL, upd_obj hlen, f5, ← hL]; exact h.nic
  ren s m h _ _ := fresh_core (checkRename_same core (fun _ _ _ => rfl) K s m) (nextNic_checkRename K s m) h
  nic s h := by
    intro hm
    rw [assignNic_same (·.mac) (fun _ _ _ _ => rfl)] at hm
    refine nicOk_assign h (hg ?_) hone hi hm
    rw [core_prefix (L := []) h, List.nodup_append] at hm
    exact hm.1
  renQ s m h _ _ := nicGood_same (checkRename_same core (fun _ _ _ => rfl) K s m) (nextNic_checkRename K s m) h
  stats s h b := nicGood_same (upd_same core s _ _ fun x => core_stats x b) rfl h

theorem scan_nic {K : Kern} (hone : K.onePhc = false) : ∀ (ls : List Link) (s : St), NicGood s →
    (∀ l ∈ ls, ∀ o ∈ s.objs, o.index ≠ l.index) → (ls.map (·.index)).Nodup →
    (scan K ls s).All fun r => r.2 = 0 → NicGood r.1
  | [], s, hg, _, _ => All.ok fun _ => hg
  | l :: ls, s, hg, hi, hd => by
    rw [List.map_cons, List.nodup_cons] at hd
    unfold scan
    cases hs : suitable K l with
    | none => exact scan_nic hone ls s hg (fun x hx => hi x (List.mem_cons_of_mem _ hx)) hd.2
    | some c =>
      have hfr : Fresh (s.objs.map core) s.nextNic l (reset K l c s.objs.length { s with objs := s.objs ++ [{}] }) := by
        have hL : (s.objs.map core).length = s.objs.length := List.length_map _
        unfold reset
        rw [upd_last]
        refine ⟨by simp, by simp, ?_, ?_, ?_, rfl⟩ <;> simp [St.obj]
      have h1 := init_phases (nic_phases hg hone (hi l List.mem_cons_self)) l c { s with objs := s.objs ++ [{}] } hfr
      have h2 := init_idd K l c s
      have h3 : (init K l c s.objs.length { s with objs := s.objs ++ [{}] }).All fun r =>
          NicGood r.1 ∧ r.1.objs.map idd = s.objs.map idd ++ [(l.index, false)] := fun r hr => ⟨h1 r hr, h2 r hr⟩
      dsimp only
      refine All.bind h3 ?_
      rintro ⟨s1, rc⟩ ⟨hg1, hid⟩
      dsimp only at hg1 hid ⊢
      have hlast : (s1.obj s.objs.length).deleted = false := by
        have hl : (s1.objs.map idd)[s.objs.length]? = some (l.index, false) := by rw [hid]; simp
        rw [List.getElem?_map] at hl
        cases ho : s1.objs[s.objs.length]? with
        | none => rw [ho] at hl; cases hl
        | some o =>
          rw [ho] at hl
          rw [obj_of ho]
          simp only [Option.map_some, Option.some.injEq, idd, Prod.mk.injEq] at hl
          exact hl.2
      split
      · rw [hlast, if_neg (by simp)]
        intro r hr; cases hr
      · split
        · rename_i hne
          exact All.ok fun h => absurd h hne
        · refine scan_nic hone ls (rescan K s1) (nicGood_same (rescan_same core (fun _ _ => rfl) K s1) rfl hg1) ?_ hd.2
          intro x hx o ho he
          have hmem : o.index ∈ (rescan K s1).objs.map (·.index) := List.mem_map.mpr ⟨o, ho, rfl⟩
          rw [rescan_same (·.index) (fun _ _ => rfl)] at hmem
          have := congrArg (List.map Prod.fst) hid
          simp only [List.map_map, List.map_append, Function.comp_def, idd, List.map_cons, List.map_nil] at this
          rw [this] at hmem
          rcases List.mem_append.mp hmem with hm | hm
          · obtain ⟨o', h1, h2⟩ := List.mem_map.mp hm
            exact hi x (List.mem_cons_of_mem _ hx) o' h1 (by rw [h2, he])
          · rw [List.mem_singleton] at hm
            exact hd.1 (List.mem_map.mpr ⟨x, hx, by rw [← he, hm]⟩)

/-! ## The configuration at start-up -/

theorem enableAll_all {K : Kern} {P : St → Prop}
    (ren : ∀ s m, P s → (s.obj m).canonical = none → (s.obj m).deleted = false → P (checkRename K s m))
    (ts : ∀ s m b, P s → P (s.upd m fun x => { x with tsOn := b })) : ∀ (ks : List Nat) (s : St) (rc : Int), P s →
    (enableAll K ks s rc).All fun r => P r.1
  | [], s, rc, h => All.ok h
  | k :: ks, s, rc, h => by
    unfold enableAll
    refine All.bind (P := fun _ => True) (fun _ _ => trivial) fun c _ => ?_
    split
    · refine All.bind (enable_all k ren ts s h) ?_
      rintro ⟨t, r, a⟩ ht
      exact enableAll_all ren ts ks t _ ht
    · exact enableAll_all ren ts ks s rc h

theorem enableNames_all {K : Kern} {P : St → Prop}
    (ren : ∀ s m, P s → (s.obj m).canonical = none → (s.obj m).deleted = false → P (checkRename K s m))
    (ts : ∀ s m b, P s → P (s.upd m fun x => { x with tsOn := b })) : ∀ (ns : List Nat) (s : St), P s →
    (enableNames K ns s).All fun r => P r.1
  | [], s, h => All.ok h
  | n :: ns, s, h => by
    unfold enableNames
    split
    · exact All.ok h
    · rename_i k _
      refine All.bind (P := fun _ => True) (fun _ _ => trivial) fun c _ => ?_
      split
      · exact All.ok h
      · refine All.bind (enable_all k ren ts s h) ?_
        rintro ⟨t, r, a⟩ ht
        dsimp only
        split
        · exact All.ok ht
        · exact enableNames_all ren ts ns t ht

/-- What the configuration of time stamping does not touch is as the scan left it. -/
theorem initialise_all {K : Kern} {P : St → Prop} (cfg : TsCfg) (ls : List Link)
    (hscan : (scan K ls {}).All fun r => r.2 = 0 → P r.1)
    (ren : ∀ s m, P s → (s.obj m).canonical = none → (s.obj m).deleted = false → P (checkRename K s m))
    (ts : ∀ s m b, P s → P (s.upd m fun x => { x with tsOn := b })) :
    (initialise K cfg ls).All fun r => r.2 = 0 → P r.1 := by
  unfold initialise
  refine All.bind hscan ?_
  rintro ⟨s, rc⟩ h
  dsimp only
  split
  · rename_i hne
    exact All.ok fun h0 => absurd h0 hne
  · rename_i h0
    have hs : P s := h (by simpa using h0)
    split
    · exact fun r hr _ => enableAll_all ren ts _ s 0 hs r hr
    · exact fun r hr _ => enableNames_all ren ts _ s hs r hr

theorem good_ren {K : Kern} : ∀ s m, Good s → (s.obj m).canonical = none → (s.obj m).deleted = false →
    Good (checkRename K s m) := fun s m h => (good_closed K 0).ren s m h

theorem good_ts : ∀ (s : St) (m : Nat) (b : Bool), Good s → Good (s.upd m fun x => { x with tsOn := b }) :=
  fun s m b h => good_same (upd_same (·.canonical) s m (fun x => { x with tsOn := b }) fun x => rfl) h

theorem enable_fine {K : Kern} {k : Nat} {s : St} (hg : Good s) (hk : k < s.objs.length) :
    (enable K k s).Fine fun r => Good r.1 ∧ r.1.objs.length = s.objs.length := by
  obtain ⟨r, hr, _⟩ := step_fine (K := K) (e := .enable k) hg trivial
  unfold step at hr
  dsimp only at hr
  rw [if_pos hk] at hr
  cases he : enable K k s with
  | assert => rw [he] at hr; cases hr
  | hang => rw [he] at hr; cases hr
  | ok x =>
    refine ⟨x, rfl, enable_all k good_ren good_ts s hg x he, ?_⟩
    refine enable_all (P := fun t => t.objs.length = s.objs.length) k (fun t m ht _ _ => ?_) (fun t m b ht => ?_) s rfl x he
    · rw [checkRename_length]; exact ht
    · rw [upd_length]; exact ht

theorem read_fine {α : Type} {s : St} {k : Nat} (hg : Good s) (hk : k < s.objs.length) (a : α) (f : Intf → α) :
    (read s k a f).Fine fun _ => True := by
  obtain ⟨r, hr⟩ := canon_ok hg hk
  unfold read
  rw [hr]
  cases r with
  | none => exact ⟨_, rfl, trivial⟩
  | some m => exact ⟨_, rfl, trivial⟩

theorem enableAll_fine {K : Kern} : ∀ (ks : List Nat) (s : St) (rc : Int), Good s → (∀ k ∈ ks, k < s.objs.length) →
    (enableAll K ks s rc).Fine fun _ => True
  | [], s, rc, _, _ => ⟨_, rfl, trivial⟩
  | k :: ks, s, rc, hg, hk => by
    unfold enableAll
    refine Fine.bind (read_fine hg (hk k List.mem_cons_self) _ _) fun c _ => ?_
    split
    · refine Fine.bind (enable_fine hg (hk k List.mem_cons_self)) ?_
      rintro ⟨t, r, a⟩ ⟨h1, h2⟩
      exact enableAll_fine ks t _ h1 fun x hx => h2 ▸ hk x (List.mem_cons_of_mem _ hx)
    · exact enableAll_fine ks s rc hg fun x hx => hk x (List.mem_cons_of_mem _ hx)

theorem enableNames_fine {K : Kern} : ∀ (ns : List Nat) (s : St), Good s → (enableNames K ns s).Fine fun _ => True
  | [], s, _ => ⟨_, rfl, trivial⟩
  | n :: ns, s, hg => by
    unfold enableNames
    split
    · exact ⟨_, rfl, trivial⟩
    · rename_i k hf
      have hk := (findName_lt hf).1
      refine Fine.bind (read_fine hg hk _ _) fun c _ => ?_
      split
      · exact ⟨_, rfl, trivial⟩
      · refine Fine.bind (enable_fine hg hk) ?_
        rintro ⟨t, r, a⟩ ⟨h1, _⟩
        dsimp only
        split
        · exact ⟨_, rfl, trivial⟩
        · exact enableNames_fine ns t h1

theorem scan_good {K : Kern} : ∀ (ls : List Link) (s : St), Good s → (∀ l ∈ ls, Complete l) →
    (scan K ls s).Fine fun r => r.2 = 0 ∧ Good r.1
  | [], s, hg, _ => Fine.ok ⟨rfl, hg⟩
  | l :: ls, s, hg, hc => by
    unfold scan
    have hc' : ∀ l ∈ ls, Complete l := fun x hx => hc x (List.mem_cons_of_mem _ hx)
    split
    · exact scan_good ls s hg hc'
    · refine Fine.bind (init_complete (good_append hg) (by simp) (hc l List.mem_cons_self)) ?_
      rintro ⟨t, rc⟩ ⟨ht, hrc⟩
      dsimp only at ht hrc ⊢
      subst hrc
      rw [if_neg (show ¬ (0 : Int) = EOPNOTSUPP by decide), if_neg (by simp)]
      exact scan_good ls _ (good_same (rescan_same (·.canonical) (fun _ _ => rfl) K t) ht) hc'

/-! ## Tries -/

theorem tries_spec (f : Nat → Int) : ∀ (n t : Nat) (rc0 : Int), 0 < n → ∃ u,
    tries f n t rc0 = (f u, u + 1) ∧ t ≤ u ∧ u < t + n ∧ (∀ i, t ≤ i → i < u → f i = 16 ∨ f i = 11) ∧
    (f u = 16 ∨ f u = 11 → u + 1 = t + n)
  | 0, _, _, h => absurd h (by omega)
  | n + 1, t, rc0, _ => by
    unfold tries
    dsimp only
    by_cases h0 : f t = 0
    · rw [if_pos h0]
      exact ⟨t, by rw [h0], Nat.le_refl _, by omega, fun i h1 h2 => by omega, fun h => by omega⟩
    · rw [if_neg h0]
      by_cases h1 : f t = EBUSY ∨ f t = EAGAIN
      · rw [if_pos h1]
        cases n with
        | zero =>
          exact ⟨t, rfl, Nat.le_refl _, by omega, fun i h1 h2 => by omega, fun _ => rfl⟩
        | succ n =>
          obtain ⟨u, hu, h2, h3, h4, h5⟩ := tries_spec f (n + 1) (t + 1) (f t) (by omega)
          refine ⟨u, hu, by omega, by omega, fun i hi1 hi2 => ?_, fun h => by have := h5 h; omega⟩
          by_cases hit : i = t
          · subst hit; exact h1
          · exact h4 i (by omega) hi2
      · rw [if_neg h1]
        exact ⟨t, rfl, Nat.le_refl _, by omega, fun i h1 h2 => by omega, fun h => absurd h h1⟩

/-! ## Bits -/

theorem mask_all {x m : BitVec 32} : x &&& m = m ↔ ∀ i < 32, m.getLsbD i = true → x.getLsbD i = true := by
  constructor
  · intro h i _ hm
    have := congrArg (fun v => v.getLsbD i) h
    simp only [BitVec.getLsbD_and, hm, Bool.and_true] at this
    exact this
  · intro h
    apply BitVec.eq_of_getLsbD_eq
    intro i hi
    rw [BitVec.getLsbD_and]
    cases hm : m.getLsbD i with
    | false => simp
    | true => simp [h i hi hm]

theorem mask_any {x m : BitVec 32} : x &&& m ≠ 0 ↔ ∃ i < 32, m.getLsbD i = true ∧ x.getLsbD i = true := by
  constructor
  · intro h
    by_contra hn
    apply h
    apply BitVec.eq_of_getLsbD_eq
    intro i hi
    have hz : (0 : BitVec 32).getLsbD i = false := BitVec.getLsbD_zero
    rw [BitVec.getLsbD_and, hz]
    cases hm : m.getLsbD i with
    | false => simp
    | true =>
      cases hx : x.getLsbD i with
      | false => rfl
      | true => exact absurd ⟨i, hi, hm, hx⟩ hn
  · rintro ⟨i, hi, hm, hx⟩ h
    have := congrArg (fun v => v.getLsbD i) h
    have hz : (0 : BitVec 32).getLsbD i = false := BitVec.getLsbD_zero
    simp only [BitVec.getLsbD_and, hm, hx] at this
    rw [hz] at this
    cases this

theorem bits_raw (x : BitVec 32) : x &&& soRaw = soRaw ↔ x.getLsbD 0 = true ∧ x.getLsbD 2 = true ∧ x.getLsbD 6 = true := by
  rw [mask_all]
  constructor
  · intro h; exact ⟨h 0 (by omega) (by decide), h 2 (by omega) (by decide), h 6 (by omega) (by decide)⟩
  · rintro ⟨h0, h2, h6⟩ i hi hm
    have : i = 0 ∨ i = 2 ∨ i = 6 := by revert hm; revert i; decide
    rcases this with rfl | rfl | rfl <;> assumption

theorem bits_sw (x : BitVec 32) : x &&& soSw = soSw ↔ x.getLsbD 1 = true ∧ x.getLsbD 3 = true ∧ x.getLsbD 4 = true := by
  rw [mask_all]
  constructor
  · intro h; exact ⟨h 1 (by omega) (by decide), h 3 (by omega) (by decide), h 4 (by omega) (by decide)⟩
  · rintro ⟨h0, h2, h6⟩ i hi hm
    have : i = 1 ∨ i = 3 ∨ i = 4 := by revert hm; revert i; decide
    rcases this with rfl | rfl | rfl <;> assumption

theorem bit_one (x : BitVec 32) : x &&& 2 ≠ 0 ↔ x.getLsbD 1 = true := by
  rw [mask_any]
  constructor
  · rintro ⟨i, hi, hm, hx⟩
    have : i = 1 := by clear hx; revert hm; revert i; decide
    subst this; exact hx
  · intro h; exact ⟨1, by omega, by decide, h⟩

theorem bit_twelve (x : BitVec 32) : x &&& 0x1000 ≠ 0 ↔ x.getLsbD 12 = true := by
  rw [mask_any]
  constructor
  · rintro ⟨i, hi, hm, hx⟩
    have : i = 12 := by clear hx; revert hm; revert i; decide
    subst this; exact hx
  · intro h; exact ⟨12, by omega, by decide, h⟩

theorem bit_six (x : BitVec 32) : x &&& 0x40 ≠ 0 ↔ x.getLsbD 6 = true := by
  rw [mask_any]
  constructor
  · rintro ⟨i, hi, hm, hx⟩
    have : i = 6 := by clear hx; revert hm; revert i; decide
    subst this; exact hx
  · intro h; exact ⟨6, by omega, by decide, h⟩

theorem bits_min (x : BitVec 32) : x &&& rxMin ≠ 0 ↔ x.getLsbD 1 = true ∨ x.getLsbD 12 = true ∨ x.getLsbD 6 = true := by
  rw [mask_any]
  constructor
  · rintro ⟨i, hi, hm, hx⟩
    have : i = 1 ∨ i = 12 ∨ i = 6 := by clear hx; revert hm; revert i; decide
    rcases this with rfl | rfl | rfl
    · exact .inl hx
    · exact .inr (.inl hx)
    · exact .inr (.inr hx)
  · rintro (h | h | h)
    · exact ⟨1, by omega, by decide, h⟩
    · exact ⟨12, by omega, by decide, h⟩
    · exact ⟨6, by omega, by decide, h⟩

theorem filter_min (f : Nat) : (1#32 <<< f) &&& rxMin ≠ 0 ↔ f = 1 ∨ f = 12 ∨ f = 6 := by
  by_cases hf : f < 32
  · revert hf; revert f; decide
  · have h1 : (1#32 <<< f) = 0#32 := BitVec.shiftLeft_eq_zero (by omega)
    rw [h1]
    constructor
    · intro h; exact absurd (BitVec.zero_and) h
    · intro h; omega

/-! ## Links that are not suitable -/

theorem findIndex_map (s : St) (i : Int) : findIndex s i = (s.objs.map (·.index)).findIdx? fun x => decide (x = i) := by
  unfold findIndex
  rw [List.findIdx?_map]
  rfl

theorem settle_unsuitable {K : Kern} {l : Link} {k : Nat} {rc rc' : Int} {ch : Bool} {s r : St} (hs : suitable K l = none)
    (hk : k < s.objs.length) (h : settle K l k rc ch s = .ok (r, rc')) : ∃ o, r.objs[k]? = some o ∧
    o.index = l.index ∧ o.name = l.name ∧ o.deleted = true := by
  unfold settle at h
  rw [hs] at h
  simp only [Out.ok.injEq, Prod.mk.injEq] at h
  obtain ⟨rfl, _⟩ := h
  have h1 : (delete k (s.upd k fun x => { x with name := l.name, index := l.index })).objs[k]? =
      some (if (s.obj k).deleted then { s.obj k with name := l.name, index := l.index }
        else { s.obj k with name := l.name, index := l.index, deleted := true, clock := none }) := by
    unfold delete
    rw [upd_get, if_pos rfl, upd_get, if_pos rfl, obj_lt hk]
    rfl
  have hmap := rescan_same (fun o => (o.index, o.name, o.deleted)) (fun _ _ => rfl) K
    (delete k (s.upd k fun x => { x with name := l.name, index := l.index }))
  obtain ⟨o, h2, h3⟩ := get_of_map hmap h1
  simp only [Prod.mk.injEq] at h3
  refine ⟨o, h2, ?_, ?_, ?_⟩
  · rw [h3.1]; split <;> rfl
  · rw [h3.2.1]; split <;> rfl
  · rw [h3.2.2]
    split
    · assumption
    · rfl

end Verif.Intf
