import Verif.Netlink.Spec
import Mathlib.Tactic.Linarith

set_option linter.unusedSimpArgs false
set_option linter.unusedVariables false

/-! Helper lemmas on the rows of a table. -/

namespace Verif.Netlink

/-- What only link messages set. -/
structure SameRT (r r' : Link) : Prop where
  idx : r'.idx = r.idx
  ifType : r'.ifType = r.ifType
  family : r'.family = r.family
  flags : r'.flags = r.flags
  name : r'.name = r.name
  kind : r'.kind = r.kind
  type : r'.type = r.type
  link : r'.link = r.link
  bus : r'.bus = r.bus
  perm : r'.perm = r.perm
  vlan : r'.vlan = r.vlan
  slave : r'.isSlave = r.isSlave
  master : r'.bond.master = r.bond.master
  ev : r'.ev = r.ev

theorem SameRT.refl (r : Link) : SameRT r r := by constructor <;> rfl

theorem SameRT.trans {a b c : Link} (h : SameRT a b) (h' : SameRT b c) : SameRT a c := by
  cases h; cases h'; constructor <;> simp_all

theorem SameRT.carries {a : Attrs} {r r' : Link} (h : SameRT r r') (hc : Carries a r) :
    Carries a r' := by
  cases h; cases hc; constructor <;> simp_all

/-- Rows that agree on what link messages set. -/
abbrev SameRows := List.Forall₂ SameRT

theorem SameRows.refl (rows : List Link) : SameRows rows rows := by
  induction rows with
  | nil => exact .nil
  | cons r rs ih => exact .cons (.refl r) ih

theorem SameRows.trans {a b c : List Link} (h : SameRows a b) (h' : SameRows b c) : SameRows a c := by
  induction h generalizing c with
  | nil => cases h'; exact .nil
  | cons hr _ ih => cases h' with | cons hr' hrs' => exact .cons (hr.trans hr') (ih hrs')

theorem SameRows.length {a b : List Link} (h : SameRows a b) : b.length = a.length :=
  (List.Forall₂.length_eq h).symm

theorem SameRows.idx {a b : List Link} (h : SameRows a b) : b.map (·.idx) = a.map (·.idx) := by
  induction h with
  | nil => rfl
  | cons hr _ ih => simp [hr.idx, ih]

theorem SameRows.mem {a b : List Link} (h : SameRows a b) {r : Link} (hr : r ∈ b) :
    ∃ r' ∈ a, SameRT r' r := by
  induction h with
  | nil => cases hr
  | cons hx _ ih =>
      rcases List.mem_cons.1 hr with rfl | hr
      · exact ⟨_, by simp, hx⟩
      · obtain ⟨r', h1, h2⟩ := ih hr
        exact ⟨r', by simp [h1], h2⟩

theorem SameRows.mem' {a b : List Link} (h : SameRows a b) {r : Link} (hr : r ∈ a) :
    ∃ r' ∈ b, SameRT r r' := by
  induction h with
  | nil => cases hr
  | cons hx _ ih =>
      rcases List.mem_cons.1 hr with rfl | hr
      · exact ⟨_, by simp, hx⟩
      · obtain ⟨r', h1, h2⟩ := ih hr
        exact ⟨r', by simp [h1], h2⟩

theorem updRow_same (i : Int) (f : Link → Link) (hf : ∀ l, SameRT l (f l)) (rows : List Link) :
    SameRows rows (updRow i f rows) := by
  induction rows with
  | nil => exact .nil
  | cons r rs ih =>
      unfold updRow
      by_cases h : r.idx = i
      · rw [if_pos h]; exact .cons (hf r) (SameRows.refl rs)
      · rw [if_neg h]; exact .cons (.refl r) ih

theorem updRowM_same (i : Int) (f : Link → Except Fail Link)
    (hf : ∀ l l', f l = .ok l' → SameRT l l') (rows rows' : List Link)
    (h : updRowM i f rows = .ok rows') : SameRows rows rows' := by
  induction rows generalizing rows' with
  | nil => simp [updRowM] at h; subst h; exact .nil
  | cons r rs ih =>
      unfold updRowM at h
      by_cases hi : r.idx = i
      · rw [if_pos hi] at h
        cases hfr : f r with
        | error e => simp [hfr, bind, Except.bind] at h
        | ok r' =>
            simp [hfr, bind, Except.bind, pure, Except.pure] at h
            subst h; exact .cons (hf r r' hfr) (SameRows.refl rs)
      · rw [if_neg hi] at h
        cases hr : updRowM i f rs with
        | error e => simp [hr, bind, Except.bind] at h
        | ok rs' =>
            simp [hr, bind, Except.bind, pure, Except.pure] at h
            subst h; exact .cons (.refl r) (ih rs' hr)

theorem applyMode_same (v : List Nat) (t : Int) (rows : List Link) :
    SameRows rows (applyMode v t rows) :=
  updRow_same _ _ (fun l => by constructor <;> rfl) rows

theorem applyActive_same (v : List Nat) (t : Int) (d : Bool) (rows rows' : List Link)
    (h : applyActive v t d rows = .ok rows') : SameRows rows rows' := by
  unfold applyActive at h
  split at h
  · cases hu : u32 v with
    | none => simp [hu] at h
    | some x =>
        simp only [hu, Except.ok.injEq] at h
        subst h
        exact updRow_same _ _ (fun l => by constructor <;> rfl) rows
  · simp only [Except.ok.injEq] at h
    subst h; exact SameRows.refl rows

theorem teamOpt_same (t : Int) (o : TOpt) (v v' : TVars) (rows rows' : List Link)
    (h : teamOpt t o v rows = .ok (v', rows')) : SameRows rows rows' := by
  unfold teamOpt at h
  simp only [pure, Except.pure, bind, Except.bind] at h
  split at h
  · cases h; exact applyMode_same _ _ _
  · split at h
    · cases h
    · next r hr => cases h; exact applyActive_same _ _ _ _ _ hr
  · cases h; exact SameRows.refl rows

theorem teamOpts_same (t : Int) (os : List TOpt) (v : TVars) (rows rows' : List Link)
    (h : teamOpts t os v rows = .ok rows') : SameRows rows rows' := by
  induction os generalizing v rows with
  | nil => simp [teamOpts] at h; subst h; exact SameRows.refl rows
  | cons o os ih =>
      unfold teamOpts at h
      cases ho : teamOpt t o v rows with
      | error e => simp [ho, bind, Except.bind] at h
      | ok p =>
          obtain ⟨v1, r1⟩ := p
          simp [ho, bind, Except.bind] at h
          exact (teamOpt_same _ _ _ _ _ _ ho).trans (ih _ _ h)

theorem tsField_same (b : Option Bitset) (set : Nat → Link → Link) (hs : ∀ v l, SameRT l (set v l))
    (l l' : Link) (g : Bool) (h : tsField b set l = .ok (l', g)) : SameRT l l' := by
  unfold tsField at h
  cases b with
  | none => simp at h; rw [← h.1]; exact .refl l
  | some b =>
      simp only [pure, Except.pure, bind, Except.bind] at h
      cases hb : bitset32 b with
      | error e => simp [hb] at h
      | ok x =>
          cases x with
          | inl v => simp [hb] at h; rw [← h.1]; exact hs v l
          | inr e => simp [hb] at h; rw [← h.1]; exact .refl l

theorem tsApply_same (m : TsMsg) (l l' : Link) (h : tsApply m l = .ok l') : SameRT l l' := by
  unfold tsApply at h
  simp only [pure, Except.pure, bind, Except.bind] at h
  have h0 : SameRT l { l with ts := { l.ts with phc := m.phc.getD (-1) } } := by constructor <;> rfl
  cases h1 : tsField m.so (fun v l => { l with ts := { l.ts with so := v } })
      { l with ts := { l.ts with phc := m.phc.getD (-1) } } with
  | error e => simp [h1] at h
  | ok p =>
    obtain ⟨l1, g1⟩ := p
    have s1 := h0.trans (tsField_same _ _ (fun v l => by constructor <;> rfl) _ _ _ h1)
    cases g1 with
    | false => simp [h1] at h; subst h; exact s1
    | true =>
      simp only [h1] at h
      cases h2 : tsField m.tx (fun v l => { l with ts := { l.ts with tx := v } }) l1 with
      | error e => simp [h2] at h
      | ok p =>
        obtain ⟨l2, g2⟩ := p
        have s2 := s1.trans (tsField_same _ _ (fun v l => by constructor <;> rfl) _ _ _ h2)
        cases g2 with
        | false => simp [h2] at h; subst h; exact s2
        | true =>
          simp only [h2] at h
          cases h3 : tsField m.rx (fun v l => { l with ts := { l.ts with rx := v } }) l2 with
          | error e => simp [h3] at h
          | ok p =>
            obtain ⟨l3, g3⟩ := p
            have s3 := s2.trans (tsField_same _ _ (fun v l => by constructor <;> rfl) _ _ _ h3)
            cases g3 with
            | false => simp [h3] at h; subst h; exact s3
            | true =>
              simp [h3] at h
              subst h
              exact s3.trans (by constructor <;> rfl)

theorem strApply_same (keys : List String) (ss : List EStrSet) (l l' : Link)
    (h : strApply keys ss l = .ok l') : SameRT l l' := by
  induction ss generalizing l with
  | nil => simp [strApply] at h; subst h; exact .refl l
  | cons s ss ih =>
      unfold strApply at h
      split at h
      · next n xs _ _ _ =>
        cases hi : strIds keys xs (List.replicate 16 (-1)) with
        | error e => simp only [hi, bind, Except.bind] at h; cases h
        | ok ids =>
            simp only [hi, bind, Except.bind] at h
            exact SameRT.trans (by constructor <;> rfl) (ih _ h)
      · exact ih _ h

/-! ### Replacement of a row -/

theorem rowsReplace_none (l : Link) (rows : List Link) :
    rowsReplace l rows = none ↔ ∀ r ∈ rows, r.idx ≠ l.idx := by
  induction rows with
  | nil => simp [rowsReplace]
  | cons r rs ih =>
      unfold rowsReplace
      by_cases h : r.idx = l.idx
      · simp [h]
      · simp [h, ih]

/-- Where the row is, and what becomes of it. -/
theorem rowsReplace_some (l : Link) (rows rows' : List Link) (h : rowsReplace l rows = some rows') :
    ∃ pre r post, rows = pre ++ r :: post ∧ r.idx = l.idx ∧ (∀ x ∈ pre, x.idx ≠ l.idx) ∧
      rows' = pre ++ (if l.ev = .down then post else keep r l :: post) := by
  induction rows generalizing rows' with
  | nil => simp [rowsReplace] at h
  | cons r rs ih =>
      unfold rowsReplace at h
      by_cases hi : r.idx = l.idx
      · rw [if_pos hi] at h
        exact ⟨[], r, rs, rfl, hi, by simp, by simpa using h.symm⟩
      · rw [if_neg hi] at h
        cases hr : rowsReplace l rs with
        | none => simp [hr] at h
        | some x =>
            simp [hr] at h
            obtain ⟨pre, r', post, h1, h2, h3, h4⟩ := ih x hr
            refine ⟨r :: pre, r', post, by simp [h1], h2, ?_, by rw [← h, h4]; rfl⟩
            intro y hy
            rcases List.mem_cons.1 hy with rfl | hy
            · exact hi
            · exact h3 y hy

theorem keep_idx (r l : Link) : (keep r l).idx = l.idx := by
  unfold keep; dsimp only; split <;> rfl

theorem keep_carries (a : Attrs) (r l : Link) (h : Carries a l) : Carries a (keep r l) := by
  unfold keep; dsimp only
  cases h
  split <;> constructor <;> simp_all

/-! ### The state of the work -/

/-- The table being written is in order as far as handling messages needs. -/
structure Work.Ok (w : Work) : Prop where
  nodup : (w.rows.map (·.idx)).Nodup
  room : w.rows.length ≤ w.cap
  nonneg : ∀ r ∈ w.rows, 0 ≤ r.idx

theorem Work.Ok.same {w w' : Work} (h : w.Ok) (hr : SameRows w.rows w'.rows) (hc : w'.cap = w.cap) :
    w'.Ok := by
  refine ⟨by rw [hr.idx]; exact h.nodup, by rw [hr.length, hc]; exact h.room, ?_⟩
  intro r hm
  obtain ⟨r', h1, h2⟩ := hr.mem hm
  rw [h2.idx]; exact h.nonneg r' h1

theorem grow_gt (n c : Nat) (h : n ≤ c) : n < grow n c := by
  unfold grow; split
  · split <;> omega
  · omega

theorem grow_ge (n c : Nat) : c ≤ grow n c := by
  unfold grow; split
  · split <;> omega
  · omega

theorem sendTeam_rows (ok : SendOk) (i : Int) (w : Work) :
    (sendTeam ok i w).1.rows = w.rows ∧ (sendTeam ok i w).1.cap = w.cap := by
  unfold sendTeam; split
  · split <;> exact ⟨rfl, rfl⟩
  · exact ⟨rfl, rfl⟩

theorem sendEth_rows (ok : SendOk) (l : Link) (w : Work) :
    (sendEth ok l w).1.rows = w.rows ∧ (sendEth ok l w).1.cap = w.cap ∧
    SameRT l (sendEth ok l w).2.1 := by
  unfold sendEth
  by_cases h0 : w.famEth = 0
  · rw [if_pos h0]; exact ⟨rfl, rfl, .refl l⟩
  · rw [if_neg h0]
    dsimp only
    by_cases h1 : ok (.tsinfo l.idx) = true
    · by_cases h2 : w.keys ≠ [] ∧ ok (.strings l.idx) = true
      · simp [h1, h2]; constructor <;> rfl
      · simp only [h1, if_true, if_neg h2]; exact ⟨trivial, trivial, by constructor <;> rfl⟩
    · by_cases h2 : w.keys ≠ [] ∧ ok (.strings l.idx) = true
      · simp [h1, h2]; constructor <;> rfl
      · simp only [if_neg h1, if_neg h2]; exact ⟨trivial, trivial, .refl l⟩

/-- Everything a link message does to the rows. -/
theorem handleLink_ok (ok : SendOk) (a : Attrs) (w : Work) (hw : w.Ok) :
    ∃ w' c, handleLink ok a w = .ok (w', c) ∧ w'.cap ≥ w.cap ∧
      ((∃ rows, rowsReplace (parse a) w.rows = some rows ∧ w'.rows = rows) ∨
       (rowsReplace (parse a) w.rows = none ∧ (parse a).ev = .down ∧ w'.rows = w.rows) ∨
       (rowsReplace (parse a) w.rows = none ∧ (parse a).ev ≠ .down ∧ w'.rows = w.rows ++ [parse a])) ∧
      ((parse a).ev ≠ .down → w.rows.length < w'.cap) := by
  unfold handleLink
  dsimp only
  have hg := grow_gt w.rows.length w.cap hw.room
  have hge := grow_ge w.rows.length w.cap
  by_cases hd : (parse a).ev = .down
  · simp only [hd, if_true]
    cases hr : rowsReplace (parse a) w.rows with
    | some rows => exact ⟨_, _, rfl, Nat.le_refl _, by simp, by simp⟩
    | none => exact ⟨_, _, rfl, Nat.le_refl _, by simp, by simp⟩
  · simp only [if_neg hd]
    cases hr : rowsReplace (parse a) w.rows with
    | some rows => exact ⟨_, _, rfl, hge, by simp, fun _ => hg⟩
    | none =>
        simp only
        rw [if_neg (by omega)]
        generalize hW : (if (parse a).type = .team then
            if (sendTeam ok (parse a).idx { w with cap := grow w.rows.length w.cap, rows := w.rows ++ [parse a] }).2 = true
            then (sendTeam ok (parse a).idx { w with cap := grow w.rows.length w.cap, rows := w.rows ++ [parse a] }).1
            else { (sendTeam ok (parse a).idx { w with cap := grow w.rows.length w.cap, rows := w.rows ++ [parse a] }).1 with needTeams := true }
          else { w with cap := grow w.rows.length w.cap, rows := w.rows ++ [parse a] }) = W
        have hWr : W.rows = w.rows ++ [parse a] ∧ W.cap = grow w.rows.length w.cap := by
          have hst := sendTeam_rows ok (parse a).idx { w with cap := grow w.rows.length w.cap, rows := w.rows ++ [parse a] }
          rw [← hW]
          split
          · split <;> exact hst
          · exact ⟨rfl, rfl⟩
        by_cases ht : (parse a).tsState = .notRequested
        · rw [if_pos ht]
          obtain ⟨e1, e2, _⟩ := sendEth_rows ok (parse a) W
          have hr' : (if (sendEth ok (parse a) W).2.2 = true then (sendEth ok (parse a) W).1
              else { (sendEth ok (parse a) W).1 with needEth := true }).rows = w.rows ++ [parse a] ∧
              (if (sendEth ok (parse a) W).2.2 = true then (sendEth ok (parse a) W).1
              else { (sendEth ok (parse a) W).1 with needEth := true }).cap = grow w.rows.length w.cap := by
            split
            · exact ⟨e1.trans hWr.1, e2.trans hWr.2⟩
            · exact ⟨e1.trans hWr.1, e2.trans hWr.2⟩
          refine ⟨_, _, rfl, ?_, .inr (.inr ⟨trivial, hd, hr'.1⟩), ?_⟩
          · rw [hr'.2]; exact hge
          · intro _; rw [hr'.2]; exact hg
        · rw [if_neg ht]
          refine ⟨_, _, rfl, ?_, .inr (.inr ⟨trivial, hd, hWr.1⟩), ?_⟩
          · rw [hWr.2]; exact hge
          · intro _; rw [hWr.2]; exact hg

theorem opt_proj {α β γ : Type} (o : Option α) (f : α → β → β) (g : β → γ)
    (h : ∀ x b, g (f x b) = g b) (b : β) : g (opt o f b) = g b := by
  cases o with
  | none => rfl
  | some x => exact h x b

theorem applyData_proj {γ : Type} (g : Link → γ) (h : ∀ l b v, g { l with bond := b, vlan := v } = g l)
    (d : InfoData) (l : Link) : g (applyData d l) = g l := by
  unfold applyData
  split
  · exact h l _ l.vlan
  · exact h l l.bond _
  · rfl

theorem applyInfo_proj {γ : Type} (g : Link → γ)
    (h : ∀ l t k b v s, g { l with type := t, kind := k, bond := b, vlan := v, isSlave := s } = g l)
    (i : Info) (l : Link) : g (applyInfo i l) = g l := by
  unfold applyInfo
  dsimp only
  have e1 : ∀ (l : Link) (s : Bool), g { l with isSlave := s } = g l :=
    fun l s => h l l.type l.kind l.bond l.vlan s
  rw [e1, opt_proj _ _ g (fun d l => applyData_proj g
    (fun l b v => h l l.type l.kind b v l.isSlave) d l),
    opt_proj _ _ g (fun k l => h l _ _ l.bond l.vlan l.isSlave)]

/-- A projection that no stage of the parser touches. -/
theorem parse_proj {γ : Type} (g : Link → γ) (a : Attrs)
    (h : ∀ l n k t lk b v s p u, g { l with name := n, kind := k, type := t, link := lk, bond := b
                                            vlan := v, isSlave := s, perm := p, bus := u } = g l) :
    g (parse a) = g { idx := a.idx, ifType := a.ifType, flags := a.flags, family := a.family
                      ev := if a.del then .down else .none } := by
  unfold parse
  dsimp only
  have e0 : ∀ (c : Prop) [Decidable c] (l : Link),
      g (if c then { l with isSlave := true } else l) = g l := by
    intro c _ l
    by_cases hc : c
    · rw [if_pos hc]; exact h l l.name l.kind l.type l.link l.bond l.vlan true l.perm l.bus
    · rw [if_neg hc]
  rw [e0, opt_proj _ _ g (fun b l => h l l.name l.kind l.type l.link l.bond l.vlan l.isSlave l.perm _),
    opt_proj _ _ g (fun p l => by
      by_cases hp : p.length > 10
      · rw [if_pos hp]
      · rw [if_neg hp]; exact h l l.name l.kind l.type l.link l.bond l.vlan l.isSlave p l.bus),
    opt_proj _ _ g (fun i l => applyInfo_proj g
      (fun l t k b v s => h l l.name k t l.link b v s l.perm l.bus) i l),
    opt_proj _ _ g (fun m l => h l l.name l.kind l.type l.link _ l.vlan l.isSlave l.perm l.bus),
    opt_proj _ _ g (fun m l => h l l.name l.kind l.type m l.bond l.vlan l.isSlave l.perm l.bus),
    opt_proj _ _ g (fun n l => h l _ l.kind l.type l.link l.bond l.vlan l.isSlave l.perm l.bus)]

theorem parse_idx (a : Attrs) : (parse a).idx = a.idx := by
  rw [parse_proj (·.idx)]; intros; rfl

theorem parse_ev (a : Attrs) : (parse a).ev = if a.del then .down else .none := by
  rw [parse_proj (·.ev)]; intros; rfl

theorem parse_tsState (a : Attrs) : (parse a).tsState = .notRequested := by
  rw [parse_proj (·.tsState)]; intros; rfl

/-! ### What a message describes -/

/-- The nested data of a message. -/
def infoData (o : Option Info) : Option InfoData := o.bind (·.data)

theorem applyData_eq (d : InfoData) (l : Link) : applyData d l =
    { l with
      bond := { l.bond with
        mode := if l.type = .bond then (d.bondMode.map bondMode).getD l.bond.mode else l.bond.mode
        active := if l.type = .bond then d.active.getD l.bond.active else l.bond.active
        hash := if l.type = .bond then d.hash.getD l.bond.hash else l.bond.hash }
      vlan := if l.type = .vlan then d.vlan.getD l.vlan else l.vlan } := by
  unfold applyData
  split
  · next h => simp [h]
  · next h => simp [h]
  · next h1 h2 =>
      have h1' : l.type ≠ .bond := h1
      have h2' : l.type ≠ .vlan := h2
      simp [h1', h2']

theorem opt_info (o : Option Info) (l : Link) : opt o applyInfo l =
    { l with
      type := ((o.bind (·.kind)).map kindType).getD l.type
      kind := ((o.bind (·.kind)).map (trunc 16)).getD l.kind
      bond := { l.bond with
        mode := if ((o.bind (·.kind)).map kindType).getD l.type = .bond then
            (((infoData o).bind (·.bondMode)).map bondMode).getD l.bond.mode else l.bond.mode
        active := if ((o.bind (·.kind)).map kindType).getD l.type = .bond then
            ((infoData o).bind (·.active)).getD l.bond.active else l.bond.active
        hash := if ((o.bind (·.kind)).map kindType).getD l.type = .bond then
            ((infoData o).bind (·.hash)).getD l.bond.hash else l.bond.hash }
      vlan := if ((o.bind (·.kind)).map kindType).getD l.type = .vlan then
            ((infoData o).bind (·.vlan)).getD l.vlan else l.vlan
      isSlave := ((o.map (·.slaveKind)).getD false) || l.isSlave } := by
  cases o with
  | none => simp [opt, infoData]
  | some i =>
      simp only [opt, applyInfo, infoData]
      cases hk : i.kind <;> cases hd : i.data <;> simp [opt, hk, hd, applyData_eq]

theorem opt_name (o : Option String) (l : Link) :
    opt o (fun n l => { l with name := trunc 16 n }) l =
      { l with name := (o.map (trunc 16)).getD l.name } := by cases o <;> rfl

theorem opt_link (o : Option Int) (l : Link) :
    opt o (fun n l => { l with link := n }) l = { l with link := o.getD l.link } := by cases o <;> rfl

theorem opt_master (o : Option Int) (l : Link) :
    opt o (fun m l => { l with bond := { l.bond with master := m } }) l =
      { l with bond := { l.bond with master := o.getD l.bond.master } } := by cases o <;> rfl

theorem opt_bus (o : Option String) (l : Link) :
    opt o (fun n l => { l with bus := trunc 32 n }) l =
      { l with bus := (o.map (trunc 32)).getD l.bus } := by cases o <;> rfl

theorem opt_perm (o : Option (List Nat)) (l : Link) :
    opt o (fun p l => if p.length > 10 then l else { l with perm := p }) l =
      { l with perm := match o with
          | some p => if p.length > 10 then l.perm else p
          | none => l.perm } := by
  cases o with
  | none => rfl
  | some p =>
      simp only [opt]
      by_cases h : p.length > 10
      · simp [h]
      · simp [h]

/-- The link described, field by field. -/
theorem parse_eq (a : Attrs) : parse a =
    { idx := a.idx, ifType := a.ifType, flags := a.flags, family := a.family
      ev := if a.del then .down else .none
      name := (a.name.map (trunc 16)).getD ""
      link := a.link.getD 0
      type := ((a.info.bind (·.kind)).map kindType).getD .physical
      kind := ((a.info.bind (·.kind)).map (trunc 16)).getD ""
      bond := {
        master := a.master.getD 0
        mode := if ((a.info.bind (·.kind)).map kindType).getD .physical = .bond then
            (((infoData a.info).bind (·.bondMode)).map bondMode).getD .none else .none
        active := if ((a.info.bind (·.kind)).map kindType).getD .physical = .bond then
            ((infoData a.info).bind (·.active)).getD 0 else 0
        hash := if ((a.info.bind (·.kind)).map kindType).getD .physical = .bond then
            ((infoData a.info).bind (·.hash)).getD 0 else 0 }
      vlan := if ((a.info.bind (·.kind)).map kindType).getD .physical = .vlan then
            ((infoData a.info).bind (·.vlan)).getD 0 else 0
      perm := match a.perm with
          | some p => if p.length > 10 then [] else p
          | none => []
      bus := (a.bus.map (trunc 32)).getD ""
      isSlave := decide (a.flags.getLsbD 11 = true ∨ a.master.getD 0 > 0) ||
        (a.info.map (·.slaveKind)).getD false } := by
  unfold parse
  simp only [opt_name, opt_link, opt_master, opt_info, opt_perm, opt_bus, Bool.or_false]
  by_cases hc : a.flags.getLsbD 11 = true ∨ a.master.getD 0 > 0
  · rw [if_pos hc]; simp only [hc, decide_true, Bool.true_or]
  · rw [if_neg hc]; simp only [hc, decide_false, Bool.false_or]

theorem trunc_toList (n : Nat) (s : String) : (trunc n s).toList = s.toList.take (n - 1) := by
  simp [trunc]

theorem kindType_eq (k : String) : kindType k = (kindTable.lookup k).getD .physical := by
  by_cases h : k ∈ kindTable.map Prod.fst
  · simp only [kindTable, List.map_cons, List.map_nil, List.mem_cons, List.not_mem_nil, or_false] at h
    rcases h with rfl | rfl | rfl | rfl | rfl | rfl | rfl | rfl | rfl | rfl | rfl | rfl | rfl | rfl |
      rfl | rfl | rfl | rfl | rfl | rfl | rfl | rfl | rfl | rfl <;> decide
  · have hl : kindTable.lookup k = none := by
      rw [List.lookup_eq_none_iff]
      intro p hp
      simp only [bne_iff_ne, ne_eq, beq_eq_false_iff_ne]
      intro he
      exact h (List.mem_map.2 ⟨p, hp, he.symm⟩)
    rw [hl]
    simp only [kindTable, List.map_cons, List.map_nil, List.mem_cons, List.not_mem_nil, or_false,
      not_or] at h
    obtain ⟨a1, a2, a3, a4, a5, a6, a7, a8, a9, a10, a11, a12, a13, a14, a15, a16, a17, a18, a19, a20,
      a21, a22, a23, a24⟩ := h
    simp [kindType, a1, a2, a3, a4, a5, a6, a7, a8, a9, a10, a11, a12, a13, a14, a15, a16, a17, a18,
      a19, a20, a21, a22, a23, a24]

theorem kindType_vlan (k : String) : kindType k = .vlan ↔ k = "vlan" := by
  constructor
  · intro h
    by_contra hk
    unfold kindType at h
    simp only [hk, if_false] at h
    (repeat' split at h) <;> cases h
  · rintro rfl; decide

theorem kindType_bond (k : String) : kindType k = .bond ↔ k = "bond" := by
  constructor
  · intro h
    by_contra hk
    unfold kindType at h
    simp only [hk, if_false] at h
    (repeat' split at h) <;> cases h
  · rintro rfl; decide

theorem kindType_team (k : String) : kindType k = .team ↔ k = "team" := by
  constructor
  · intro h
    by_contra hk
    unfold kindType at h
    simp only [hk, if_false] at h
    (repeat' split at h) <;> cases h
  · rintro rfl; decide

theorem bit11 (f : BitVec 32) : f &&& 0x800 ≠ 0 ↔ f.getLsbD 11 = true := by
  have h : (0x800 : BitVec 32) = BitVec.twoPow 32 11 := by decide
  rw [h, BitVec.and_twoPow]
  cases f.getLsbD 11
  · simp
  · simp; decide

theorem parse_carries (a : Attrs) : Carries a (parse a) := by
  rw [parse_eq]
  constructor
  case name => cases a.name <;> simp [trunc_toList]
  case kind =>
    simp only [Attrs.kindName]
    cases a.info.bind (·.kind) <;> simp [trunc_toList]
  case type =>
    simp only [typeFor, Attrs.kindName]
    cases a.info.bind (·.kind) <;> simp [kindType_eq]
  case bus => cases a.bus <;> simp [trunc_toList]
  case vlan =>
    have h : (((a.info.bind (·.kind)).map kindType).getD .physical = .vlan) ↔
        a.kindName = some "vlan" := by
      show _ ↔ a.info.bind (·.kind) = some "vlan"
      cases a.info.bind (·.kind) with
      | none => simp
      | some k => simp [kindType_vlan]
    unfold Attrs.vlanId
    by_cases hk : a.kindName = some "vlan"
    · rw [if_pos (h.2 hk), if_pos hk]; rfl
    · rw [if_neg (fun hx => hk (h.1 hx)), if_neg hk]
  case slave =>
    simp only [Attrs.subordinate, bit11, Attrs.masterIdx]
    cases a.info <;> simp [or_assoc]
  all_goals rfl

end Verif.Netlink
