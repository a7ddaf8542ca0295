import Verif.Intf.Spec
import Mathlib.Data.List.Perm.Subperm
import Mathlib.Data.List.Range
import Mathlib.Tactic.Linarith

set_option linter.unusedSimpArgs false
set_option linter.unusedVariables false

namespace Verif.Intf

theorem obj_of {s : St} {k : Nat} {o : Intf} (h : s.objs[k]? = some o) : s.obj k = o := by
  simp [St.obj, h]

theorem obj_lt {s : St} {k : Nat} (h : k < s.objs.length) : s.objs[k]? = some (s.obj k) := by
  simp [St.obj, h]

theorem live_lt {s : St} {k : Nat} (h : (s.obj k).deleted = false) : k < s.objs.length := by
  by_contra hk
  have : s.objs[k]? = none := by simp; omega
  simp [St.obj, this] at h

theorem upd_length (s : St) (k : Nat) (f : Intf → Intf) : (s.upd k f).objs.length = s.objs.length := by
  simp [St.upd]

theorem upd_get (s : St) (k : Nat) (f : Intf → Intf) (i : Nat) :
    (s.upd k f).objs[i]? = if i = k then (s.objs[i]?).map f else s.objs[i]? := by
  unfold St.upd
  rw [List.getElem?_modify]
  by_cases h : i = k
  · subst h; simp
  · have h' : ¬ k = i := fun e => h e.symm
    simp [h, h']

theorem upd_obj {s : St} {k : Nat} {f : Intf → Intf} (h : k < s.objs.length) : (s.upd k f).obj k = f (s.obj k) := by
  unfold St.obj
  rw [upd_get, if_pos rfl, obj_lt h]
  rfl

theorem upd_obj_ne {s : St} {k i : Nat} {f : Intf → Intf} (h : i ≠ k) : (s.upd k f).obj i = s.obj i := by
  unfold St.obj
  rw [upd_get, if_neg h]

/-! ## Aliases -/

theorem leads_det {s : St} {n m n' m' k : Nat} (h : Leads s n k m) (h' : Leads s n' k m') : n = n' ∧ m = m' := by
  induction h generalizing n' with
  | here ho hc =>
    cases h' with
    | here _ _ => exact ⟨rfl, rfl⟩
    | next ho' hc' _ =>
      rw [ho] at ho'; cases ho'; rw [hc] at hc'; cases hc'
  | next ho hc _ ih =>
    cases h' with
    | here ho' hc' => rw [ho] at ho'; cases ho'; rw [hc] at hc'; cases hc'
    | next ho' hc' h2 =>
      rw [ho] at ho'; cases ho'; rw [hc] at hc'; cases hc'
      obtain ⟨a, b⟩ := ih h2
      exact ⟨by omega, b⟩

theorem leads_lt {s : St} {n k m : Nat} (h : Leads s n k m) : k < s.objs.length := by
  cases h with
  | here ho _ => exact (List.getElem?_eq_some_iff.mp ho).1
  | next ho _ _ => exact (List.getElem?_eq_some_iff.mp ho).1

theorem leads_root {s : St} {n k m : Nat} (h : Leads s n k m) :
    ∃ o, s.objs[m]? = some o ∧ o.canonical = none := by
  induction h with
  | here ho hc => exact ⟨_, ho, hc⟩
  | next _ _ _ ih => exact ih

theorem leads_path {s : St} {n k m : Nat} (h : Leads s n k m) :
    ∃ l : List Nat, l.length = n + 1 ∧ l.Nodup ∧
      ∀ x ∈ l, x < s.objs.length ∧ ∃ d, d ≤ n ∧ Leads s d x m := by
  induction h with
  | @here k o ho hc =>
    refine ⟨[k], rfl, by simp, ?_⟩
    intro x hx
    rw [List.mem_singleton] at hx
    subst hx
    exact ⟨leads_lt (.here ho hc), 0, Nat.le_refl _, .here ho hc⟩
  | @next n k j m o ho hc hl ih =>
    obtain ⟨l, h1, h2, h3⟩ := ih
    refine ⟨k :: l, by simp [h1], ?_, ?_⟩
    · rw [List.nodup_cons]
      refine ⟨fun hk => ?_, h2⟩
      obtain ⟨_, d, hd, hl'⟩ := h3 k hk
      have := (leads_det hl' (.next ho hc hl)).1
      omega
    · intro x hx
      rcases List.mem_cons.mp hx with rfl | hx
      · exact ⟨leads_lt (.next ho hc hl), n + 1, Nat.le_refl _, .next ho hc hl⟩
      · obtain ⟨a, d, hd, b⟩ := h3 x hx
        exact ⟨a, d, by omega, b⟩

theorem leads_short {s : St} {n k m : Nat} (h : Leads s n k m) : n < s.objs.length := by
  obtain ⟨l, h1, h2, h3⟩ := leads_path h
  have hs : l ⊆ List.range s.objs.length := fun x hx => List.mem_range.mpr (h3 x hx).1
  have := (List.subperm_of_subset h2 hs).length_le
  rw [List.length_range] at this
  omega

theorem canonLoop_of {s : St} {n k m : Nat} (h : Leads s n k m) {f : Nat} (hf : n < f) :
    canonLoop s f k = if (s.obj m).deleted then .ok none else .ok (some m) := by
  induction h generalizing f with
  | here ho hc =>
    obtain ⟨f, rfl⟩ : ∃ g, f = g + 1 := ⟨f - 1, by omega⟩
    simp only [canonLoop, obj_of ho, hc]
  | next ho hc _ ih =>
    obtain ⟨f, rfl⟩ : ∃ g, f = g + 1 := ⟨f - 1, by omega⟩
    simp only [canonLoop, obj_of ho, hc]
    exact ih (by omega)

theorem canon_of {s : St} {n k m : Nat} (h : Leads s n k m) :
    canon s k = if (s.obj m).deleted then .ok none else .ok (some m) := canonLoop_of h (leads_short h)

theorem ends_of_canonLoop {s : St} (hr : InRange s) : ∀ (f k : Nat), k < s.objs.length →
    ∀ r, canonLoop s f k = .ok r → Ends s k
  | 0, k, _, r, h => by simp [canonLoop] at h
  | f + 1, k, hk, r, h => by
    cases hc : (s.obj k).canonical with
    | none => exact ⟨0, k, .here (obj_lt hk) hc⟩
    | some j =>
      simp only [canonLoop, hc] at h
      obtain ⟨n, m, hl⟩ := ends_of_canonLoop hr f j (hr k _ (obj_lt hk) j hc) r h
      exact ⟨n + 1, m, .next (obj_lt hk) hc hl⟩

/-- A loop that passes more objects than there are does not end. -/
theorem canon_hang_iff {s : St} (hr : InRange s) {k : Nat} (hk : k < s.objs.length) :
    canon s k = .hang ↔ ¬ Ends s k := by
  constructor
  · rintro h ⟨n, m, hl⟩
    rw [canon_of hl] at h
    split at h <;> cases h
  · intro h
    cases hc : canon s k with
    | hang => rfl
    | ok r => exact absurd (ends_of_canonLoop hr _ k hk r hc) h
    | assert =>
      exfalso
      have : ∀ f k, canonLoop s f k ≠ .assert := by
        intro f
        induction f with
        | zero => intro k; simp [canonLoop]
        | succ f ih =>
          intro k
          unfold canonLoop
          cases (s.obj k).canonical with
          | none => dsimp only; split <;> simp
          | some j => exact ih j
      exact this _ _ hc

theorem canonLoop_some {s : St} : ∀ (f k m : Nat), canonLoop s f k = .ok (some m) →
    (s.obj m).canonical = none ∧ (s.obj m).deleted = false
  | 0, k, m, h => by simp [canonLoop] at h
  | f + 1, k, m, h => by
    unfold canonLoop at h
    cases hc : (s.obj k).canonical with
    | none =>
      rw [hc] at h
      dsimp only at h
      split at h
      · cases h
      · rename_i hd
        cases h
        exact ⟨hc, by simpa using hd⟩
    | some j =>
      rw [hc] at h
      exact canonLoop_some f j m h

theorem canon_some {s : St} {k m : Nat} (h : canon s k = .ok (some m)) :
    (s.obj m).canonical = none ∧ (s.obj m).deleted = false := canonLoop_some _ _ _ h

theorem canon_self {s : St} {k : Nat} (hc : (s.obj k).canonical = none) (hd : (s.obj k).deleted = false) :
    canon s k = .ok (some k) := by
  rw [canon_of (.here (obj_lt (live_lt hd)) hc), hd]
  rfl

/-! ## Sequencing -/

theorem All.bind {α β : Type} {x : Out α} {f : α → Out β} {P : α → Prop} {Q : β → Prop}
    (hx : x.All P) (hf : ∀ a, P a → (f a).All Q) : (x.bind f).All Q := by
  intro b hb
  cases x with
  | ok a => exact hf a (hx a rfl) b hb
  | assert => cases hb
  | hang => cases hb

theorem All.ok {α : Type} {a : α} {P : α → Prop} (h : P a) : (Out.ok a).All P := by
  intro b hb; cases hb; exact h

theorem bind_ok {α β : Type} (a : α) (f : α → Out β) : (Out.ok a).bind f = f a := rfl

/-! ## Renames -/

theorem findName_lt {s : St} {n o : Nat} (h : findName s n = some o) :
    o < s.objs.length ∧ (s.obj o).name = n := by
  unfold findName at h
  rw [List.findIdx?_eq_some_iff_getElem] at h
  obtain ⟨h1, h2, _⟩ := h
  refine ⟨h1, ?_⟩
  have : s.obj o = s.objs[o] := by simp [St.obj, h1]
  rw [this]; simpa using h2

theorem findIndex_lt {s : St} {i : Int} {o : Nat} (h : findIndex s i = some o) :
    o < s.objs.length ∧ (s.obj o).index = i := by
  unfold findIndex at h
  rw [List.findIdx?_eq_some_iff_getElem] at h
  obtain ⟨h1, h2, _⟩ := h
  refine ⟨h1, ?_⟩
  have : s.obj o = s.objs[o] := by simp [St.obj, h1]
  rw [this]; simpa using h2

theorem findIndex_none {s : St} {i : Int} : findIndex s i = none ↔ ∀ o ∈ s.objs, o.index ≠ i := by
  unfold findIndex
  simp

theorem findName_none {s : St} {i : Nat} : findName s i = none ↔ ∀ o ∈ s.objs, o.name ≠ i := by
  unfold findName
  simp

/-- What predicates on states must allow for `init` to lead from `P` by `Q` to `R`: `P`
until the number of the NIC is assigned, `Q` until memory is allocated. -/
structure Phases (K : Kern) (k : Nat) (P Q R : St → Prop) : Prop where
  mild : ∀ s, P s → ∀ (f : Intf → Intf), (∀ x, (f x).index = x.index ∧ (f x).name = x.name ∧
    (f x).canonical = x.canonical ∧ (f x).deleted = x.deleted ∧ (f x).nic = x.nic ∧
    (f x).blocks = x.blocks ∧ (f x).ethStats = x.ethStats) → P (s.upd k f)
  ren : ∀ s m, P s → (s.obj m).canonical = none → (s.obj m).deleted = false → P (checkRename K s m)
  nic : ∀ s, P s → Q (assignNic K k s)
  renQ : ∀ s m, Q s → (s.obj m).canonical = none → (s.obj m).deleted = false → Q (checkRename K s m)
  stats : ∀ s, Q s → ∀ found : Bool, R (s.upd k fun x =>
    if x.ethStats || found then { x with ethStats := true, blocks := x.blocks + 1 } else x)

/-- The same throughout. -/
structure Closed (K : Kern) (k : Nat) (P : St → Prop) : Prop where
  mild : ∀ s, P s → ∀ (f : Intf → Intf), (∀ x, (f x).index = x.index ∧ (f x).name = x.name ∧
    (f x).canonical = x.canonical ∧ (f x).deleted = x.deleted ∧ (f x).nic = x.nic ∧
    (f x).blocks = x.blocks ∧ (f x).ethStats = x.ethStats) → P (s.upd k f)
  ren : ∀ s m, P s → (s.obj m).canonical = none → (s.obj m).deleted = false → P (checkRename K s m)
  nic : ∀ s, P s → P (assignNic K k s)
  stats : ∀ s, P s → ∀ found : Bool, P (s.upd k fun x =>
    if x.ethStats || found then { x with ethStats := true, blocks := x.blocks + 1 } else x)

theorem Closed.phases {K : Kern} {k : Nat} {P : St → Prop} (H : Closed K k P) : Phases K k P P P :=
  ⟨H.mild, H.ren, H.nic, H.ren, H.stats⟩

theorem checkRename_self (K : Kern) (s : St) (m : Nat) (hc : (s.obj m).canonical = none)
    (hd : (s.obj m).deleted = false) :
    ((checkRename K s m).obj m).canonical = none ∧ ((checkRename K s m).obj m).deleted = false := by
  have hm := live_lt hd
  unfold checkRename
  split
  · exact ⟨hc, hd⟩
  · split
    · exact ⟨hc, hd⟩
    · rename_i nm _ hnm
      have : ∀ t : St, (t.obj m).canonical = none → (t.obj m).deleted = false →
          ((t.upd m fun x => { x with name := nm }).obj m).canonical = none ∧
          ((t.upd m fun x => { x with name := nm }).obj m).deleted = false := by
        intro t h1 h2
        rw [upd_obj (live_lt h2)]
        exact ⟨h1, h2⟩
      apply this
      · unfold handleRename
        split
        · exact hc
        · split
          · rename_i o _ ho
            have : m ≠ o := by rintro rfl; rw [hd] at ho; cases ho
            rw [upd_obj_ne this]; exact hc
          · exact hc
      · unfold handleRename
        split
        · exact hd
        · split
          · rename_i o _ ho
            have : m ≠ o := by rintro rfl; rw [hd] at ho; cases ho
            rw [upd_obj_ne this]; exact hd
          · exact hd

theorem ioctl_all {K : Kern} {k : Nat} {P : St → Prop}
    (ren : ∀ s m, P s → (s.obj m).canonical = none → (s.obj m).deleted = false → P (checkRename K s m))
    (s : St) (h : P s) (j : Nat) : (ioctl K s j).All fun r => P r.1 := by
  unfold ioctl
  intro a ha
  cases hc : canon s j with
  | assert => rw [hc] at ha; cases ha
  | hang => rw [hc] at ha; cases ha
  | ok r =>
    rw [hc] at ha
    cases r with
    | none => cases ha; exact h
    | some m =>
      cases ha
      obtain ⟨h1, h2⟩ := canon_some hc
      obtain ⟨h3, h4⟩ := checkRename_self K s m h1 h2
      exact ren _ m (ren s m h h1 h2) h3 h4

/-- `init` keeps what its parts keep. -/
theorem init_phases {K : Kern} {k : Nat} {P Q R : St → Prop} (H : Phases K k P Q R) (l : Link) (c : Class) (s : St)
    (h : P (reset K l c k s)) : (init K l c k s).All fun r => R r.1 := by
  have hio : ∀ s, P s → (ioctl K s k).All fun r => P r.1 := fun s h => ioctl_all (k := k) H.ren s h k
  unfold init
  refine All.bind (P := fun r => P r.1) ?_ ?_
  · unfold hwAddress
    split
    · exact All.ok (H.mild _ h _ (by intro x; simp))
    · refine All.bind (hio _ h) ?_
      rintro ⟨s, d⟩ hs
      cases d with
      | none => exact All.ok hs
      | some d =>
        dsimp only
        split
        · exact All.ok hs
        · exact All.ok (H.mild _ hs _ (by intro x; simp))
  rintro ⟨s, rc1⟩ hs
  refine All.bind (P := fun r => P r.1) ?_ ?_
  · unfold versions
    split
    · exact All.ok (H.mild _ hs _ (by intro x; simp))
    · refine All.bind (hio _ hs) ?_
      rintro ⟨s, d⟩ hs
      cases d with
      | none => exact All.ok (H.mild _ hs _ (by intro x; simp))
      | some d => exact All.ok (H.mild _ hs _ (by intro x; simp))
  rintro ⟨s, rc2⟩ hs
  refine All.bind (P := P) ?_ ?_
  · unfold tsInfo
    split
    · exact All.ok (H.mild _ hs _ (by intro x; simp))
    · refine All.bind (hio _ hs) ?_
      rintro ⟨s, d⟩ hs
      cases d with
      | none => exact All.ok (H.mild _ hs _ (by intro x; simp))
      | some d =>
        dsimp only
        split
        · exact All.ok (H.mild _ hs _ (by intro x; simp))
        · exact All.ok (H.mild _ hs _ (by intro x; simp))
  intro s hs
  refine All.bind (P := P) ?_ ?_
  · unfold efxSupport
    split
    · refine All.bind (hio _ hs) ?_
      rintro ⟨s, d⟩ hs
      cases d with
      | none => exact All.ok (H.mild _ hs _ (by intro x; simp))
      | some d =>
        dsimp only
        split
        · exact All.ok (H.mild _ hs _ (by intro x; simp))
        · exact All.ok hs
    · exact All.ok hs
  intro s hs
  refine All.bind (P := R) ?_ ?_
  · have hs' := H.nic s hs
    unfold statsInit
    dsimp only
    split
    · exact All.ok (H.stats _ hs' _)
    · refine All.bind (ioctl_all (k := k) H.renQ _ hs' k) ?_
      rintro ⟨s, d⟩ hs
      cases d with
      | none => exact All.ok (H.stats _ hs _)
      | some d => exact All.ok (H.stats _ hs _)
  intro s hs
  exact All.ok hs

theorem init_all {K : Kern} {k : Nat} {P : St → Prop} (H : Closed K k P) (l : Link) (c : Class) (s : St)
    (h : P (reset K l c k s)) : (init K l c k s).All fun r => P r.1 := init_phases H.phases l c s h

theorem enable_all {K : Kern} {P : St → Prop} (k : Nat)
    (ren : ∀ s m, P s → (s.obj m).canonical = none → (s.obj m).deleted = false → P (checkRename K s m))
    (ts : ∀ s m b, P s → P (s.upd m fun x => { x with tsOn := b })) (s : St) (h : P s) :
    (enable K k s).All fun r => P r.1 := by
  unfold enable
  intro a ha
  cases hc : canon s k with
  | assert => rw [hc] at ha; cases ha
  | hang => rw [hc] at ha; cases ha
  | ok r =>
    rw [hc] at ha
    cases r with
    | none => cases ha; exact h
    | some m =>
      obtain ⟨h1, h2⟩ := canon_some hc
      obtain ⟨h3, h4⟩ := checkRename_self K s m h1 h2
      have hp := ren _ m (ren s m h h1 h2) h3 h4
      simp only [bind_ok] at ha
      repeat' split at ha
      all_goals (cases ha; first | exact h | exact hp | exact ts _ _ _ hp)

theorem disable_all {K : Kern} {P : St → Prop} (k : Nat)
    (ren : ∀ s m, P s → (s.obj m).canonical = none → (s.obj m).deleted = false → P (checkRename K s m))
    (ts : ∀ s m b, P s → P (s.upd m fun x => { x with tsOn := b })) (s : St) (h : P s) :
    (disable K k s).All P := by
  unfold disable
  intro a ha
  cases hc : canon s k with
  | assert => rw [hc] at ha; cases ha
  | hang => rw [hc] at ha; cases ha
  | ok r =>
    rw [hc] at ha
    cases r with
    | none => cases ha; exact h
    | some m =>
      obtain ⟨h1, h2⟩ := canon_some hc
      have hp := ts s m false h
      have e := upd_obj (s := s) (k := m) (f := fun x => { x with tsOn := false }) (live_lt h2)
      have g1 : ((s.upd m fun x => { x with tsOn := false }).obj m).canonical = none := by rw [e]; exact h1
      have g2 : ((s.upd m fun x => { x with tsOn := false }).obj m).deleted = false := by rw [e]; exact h2
      obtain ⟨h3, h4⟩ := checkRename_self K _ m g1 g2
      cases ha
      exact ren _ m (ren _ m hp g1 g2) h3 h4

end Verif.Intf
