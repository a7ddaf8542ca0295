import Verif.Netlink.Trace

set_option linter.unusedSimpArgs false
set_option linter.unusedVariables false

/-! Properties of the table that netlink messages build. -/

namespace Verif.Netlink

/-- C262: whatever messages arrive, the table has one row for each interface whose last link message
announced it, none for one whose last message withdrew it, and each row carries what that message
said. -/
theorem C262_table_follows_kernel (ok : SendOk) (ms : List Msg) (w : Work) (hs : ∀ m ∈ ms, m.sane)
    (h : handleAll ok ms {} = .ok w) :
    (w.rows.map (·.idx)).Nodup ∧
    (∀ i, (∃ r ∈ w.rows, r.idx = i) ↔ ∃ a, latest i ms = some a ∧ a.del = false) ∧
    (∀ r ∈ w.rows, ∃ a, latest r.idx ms = some a ∧ a.del = false ∧ Carries a r) := by
  have h1 := (handleAll_Ok ok ms {} w .empty hs h).1
  have h2 := handleAll_matches ok [] ms {} w .empty .empty hs h
  rw [List.nil_append] at h2
  refine ⟨h1.nodup, h2.present, ?_⟩
  intro r hr
  obtain ⟨a, ha, hd⟩ := (h2.present r.idx).1 ⟨r, hr, rfl⟩
  exact ⟨a, ha, hd, h2.carries r hr a ha⟩

def vlanMsg : Attrs :=
  { idx := 7, flags := 0x11043, name := some "eth0.10", link := some 2
    info := some { kind := some "vlan", data := some { vlan := some 10 } } }

example : ∃ w, handleAll (fun _ => true) [.link { idx := 2, name := some "eth0" }, .link vlanMsg,
    .link { idx := 3, name := some "eth1" }, .link { idx := 2, del := true }] {} = .ok w ∧
    w.rows.map (fun r => (r.idx, r.name, r.type, r.vlan)) =
      [(7, "eth0.10", .vlan, 10), (3, "eth1", .physical, 0)] := by
  refine ⟨_, rfl, ?_⟩
  decide +kernel

/-- C263: link messages are never refused for want of room, and the table never holds more rows than
were allocated. -/
theorem C263_room_for_every_link (ok : SendOk) (as : List Attrs) (hs : ∀ a ∈ as, 0 ≤ a.idx) :
    ∃ w, handleAll ok (as.map .link) {} = .ok w ∧ w.rows.length ≤ w.cap := by
  have gen : ∀ (as : List Attrs) (w : Work), w.Ok → (∀ a ∈ as, 0 ≤ a.idx) →
      ∃ w', handleAll ok (as.map .link) w = .ok w' ∧ w'.Ok := by
    intro as
    induction as with
    | nil => intro w hw _; exact ⟨w, rfl, hw⟩
    | cons a as ih =>
        intro w hw hs
        obtain ⟨w1, c, h1, _⟩ := handleLink_ok ok a w hw
        have h2 := (handleLink_Ok ok a w w1 c hw (hs a (by simp)) h1).1
        obtain ⟨w2, h3, h4⟩ := ih w1 h2 (fun x hx => hs x (by simp [hx]))
        refine ⟨w2, ?_, h4⟩
        simp only [List.map_cons, handleAll, handle, h1, bind, Except.bind]
        exact h3
  obtain ⟨w, h1, h2⟩ := gen as {} .empty hs
  exact ⟨w, h1, h2.room⟩

example : ∃ w, handleAll (fun _ => true)
    (((List.range 70).map (fun n => { idx := n + 1 })).map .link) {} = .ok w ∧ w.rows.length ≤ w.cap :=
  C263_room_for_every_link _ ((List.range 70).map (fun n => { idx := n + 1 })) (by decide)

/-- C264: a new description of an interface that is already known keeps what was learnt about it from
other sources: the timestamping capabilities, the driver statistics and, for a team, its mode and
active port. -/
theorem C264_update_keeps_ethtool_and_team (ok : SendOk) (a : Attrs) (w w' : Work) (c : Bool) (hw : w.Ok)
    (r : Link) (hr : r ∈ w.rows) (hi : r.idx = a.idx) (hd : a.del = false)
    (h : handleLink ok a w = .ok (w', c)) :
    ∃ r' ∈ w'.rows, r'.idx = a.idx ∧ r'.ts = r.ts ∧ r'.tsState = r.tsState ∧
      r'.drvState = r.drvState ∧ r'.drvAll = r.drvAll ∧ r'.drvIds = r.drvIds ∧
      (a.kindName = some "team" →
        r'.bond.mode = r.bond.mode ∧ r'.bond.active = r.bond.active ∧ r'.bond.hash = r.bond.hash) := by
  obtain ⟨w1, c1, h1, _, hrows, _⟩ := handleLink_ok ok a w hw
  rw [h] at h1
  simp only [Except.ok.injEq, Prod.mk.injEq] at h1
  obtain ⟨rfl, rfl⟩ := h1
  have hnd : (parse a).ev ≠ .down := by rw [Ne, parse_down, hd]; simp
  rcases hrows with ⟨rows, hrr, he⟩ | ⟨hn, _⟩ | ⟨hn, _⟩
  · obtain ⟨pre, r0, post, e1, e2, e3, e4⟩ := rowsReplace_some _ _ _ hrr
    rw [parse_idx] at e2 e3
    rw [if_neg hnd] at e4
    have hr0 : r = r0 := by
      have hn := hw.nodup
      rw [e1] at hn hr
      simp only [List.mem_append, List.mem_cons] at hr
      rcases hr with hr | rfl | hr
      · exact absurd hi (e3 r hr)
      · rfl
      · simp only [List.map_append, List.map_cons] at hn
        have := (List.nodup_append.1 hn).2.1
        rw [List.nodup_cons] at this
        exact absurd (List.mem_map.2 ⟨r, hr, by rw [hi, e2]⟩) this.1
    subst hr0
    refine ⟨keep r (parse a), by rw [he, e4]; simp, by rw [keep_idx, parse_idx], ?_⟩
    unfold keep
    dsimp only
    by_cases ht : (parse a).type = .team
    · simp [ht]
    · simp only [if_neg ht]
      refine ⟨trivial, trivial, trivial, trivial, trivial, ?_⟩
      intro hk
      exfalso; apply ht
      rw [(parse_carries a).type, hk]; decide
  · exact absurd (by rw [parse_idx]; exact hi) ((rowsReplace_none _ _).1 hn r hr)
  · exact absurd (by rw [parse_idx]; exact hi) ((rowsReplace_none _ _).1 hn r hr)

def teamRow : Link :=
  { idx := 9, type := .team, name := "team0", kind := "team"
    bond := { mode := .activeBackup, active := 3 }, tsState := .populated, ts := { phc := 1 } }

example : ∃ w, handleLink (fun _ => true)
    { idx := 9, name := some "team0", flags := 0x43, info := some { kind := some "team" } }
    { rows := [teamRow], cap := 32 } = .ok (w, false) ∧
    w.rows.map (fun r => (r.bond.active, r.ts.phc, r.flags)) = [(3, 1, 0x43)] := by
  refine ⟨_, rfl, ?_⟩
  decide +kernel

/-- C265 in full: the master recorded for an interface is the one last announced. -/
def C265_statement : Prop :=
  ∀ (ok : SendOk) (a : Attrs) (w w' : Work) (c : Bool), w.Ok → a.del = false →
    handleLink ok a w = .ok (w', c) → ∀ r ∈ w'.rows, r.idx = a.idx → r.bond.master = a.masterIdx

/-- The description of a team is given the whole bonding record of its former row, the master
included: a team put under a bridge keeps master zero. -/
theorem C265_violated : ¬ C265_statement := by
  intro h
  have := h (fun _ => true)
    { idx := 9, name := some "team0", master := some 12, info := some { kind := some "team" } }
    { rows := [teamRow], cap := 32 } _ _
    ⟨by decide, by decide, by decide⟩ rfl rfl (keep teamRow (parse
      { idx := 9, name := some "team0", master := some 12, info := some { kind := some "team" } }))
    (by decide +kernel) (by decide +kernel)
  revert this
  decide +kernel

/-- C265: it is, for every interface that is not a team. -/
theorem C265_master_as_announced_partial (ok : SendOk) (a : Attrs) (w w' : Work) (c : Bool) (hw : w.Ok)
    (hd : a.del = false) (hk : a.kindName ≠ some "team") (h : handleLink ok a w = .ok (w', c)) :
    ∀ r ∈ w'.rows, r.idx = a.idx → r.bond.master = a.masterIdx := by
  obtain ⟨w1, c1, h1, _, hrows, _⟩ := handleLink_ok ok a w hw
  rw [h] at h1
  simp only [Except.ok.injEq, Prod.mk.injEq] at h1
  obtain ⟨rfl, rfl⟩ := h1
  have hnd : (parse a).ev ≠ .down := by rw [Ne, parse_down, hd]; simp
  have ht : (parse a).type ≠ .team := by
    rw [parse_eq]; simp only
    intro ht
    apply hk
    show a.info.bind (·.kind) = some "team"
    revert ht
    cases a.info.bind (·.kind) with
    | none => simp
    | some k => simp [kindType_team]
  have hpm : (parse a).bond.master = a.masterIdx := by rw [parse_eq]; rfl
  intro r hr hi
  rcases hrows with ⟨rows, hrr, he⟩ | ⟨hn, hx, _⟩ | ⟨hn, _, he⟩
  · obtain ⟨pre, r0, post, e1, e2, e3, e4⟩ := rowsReplace_some _ _ _ hrr
    rw [parse_idx] at e2 e3
    rw [if_neg hnd] at e4
    have hn := hw.nodup
    rw [e1] at hn
    rw [he, e4] at hr
    simp only [List.mem_append, List.mem_cons] at hr
    rcases hr with hr | rfl | hr
    · exact absurd hi (e3 r hr)
    · unfold keep; simp only [if_neg ht]; exact hpm
    · simp only [List.map_append, List.map_cons] at hn
      have := (List.nodup_append.1 hn).2.1
      rw [List.nodup_cons] at this
      exact absurd (List.mem_map.2 ⟨r, hr, by rw [hi, e2]⟩) this.1
  · exact absurd hx hnd
  · rw [he] at hr
    simp only [List.mem_append, List.mem_singleton] at hr
    rcases hr with hr | rfl
    · exact absurd (by rw [parse_idx]; exact hi) ((rowsReplace_none _ _).1 hn r hr)
    · exact hpm

example : ∃ w, handleLink (fun _ => true) { idx := 4, master := some 12 }
    { rows := [{ idx := 4, bond := { master := 1 } }], cap := 32 } = .ok (w, false) ∧
    w.rows.map (·.bond.master) = [12] := ⟨_, rfl, by decide +kernel⟩

/-- C266: an interface announced for the first time has the bonding characteristics announced if it is
a bond, and none otherwise. -/
theorem C266_bond_characteristics (ok : SendOk) (a : Attrs) (w w' : Work) (c : Bool) (hw : w.Ok)
    (hd : a.del = false) (hnew : ∀ r ∈ w.rows, r.idx ≠ a.idx) (h : handleLink ok a w = .ok (w', c)) :
    ∃ r, w'.rows = w.rows ++ [r] ∧ r.idx = a.idx ∧
      (a.kindName ≠ some "bond" → r.bond.mode = .none ∧ r.bond.active = 0) ∧
      (∀ d i, a.info = some i → i.data = some d → a.kindName = some "bond" →
        (d.bondMode = some 1 → r.bond.mode = .activeBackup) ∧
        (d.bondMode = some 4 → r.bond.mode = .lacp) ∧
        (∀ n, d.bondMode = some n → n ≠ 1 → n ≠ 4 → r.bond.mode = .unsupported) ∧
        (d.bondMode = none → r.bond.mode = .none) ∧
        (∀ s, d.active = some s → r.bond.active = s) ∧
        (∀ p, d.hash = some p → r.bond.hash = p)) := by
  obtain ⟨w1, c1, h1, _, hrows, _⟩ := handleLink_ok ok a w hw
  rw [h] at h1
  simp only [Except.ok.injEq, Prod.mk.injEq] at h1
  obtain ⟨rfl, rfl⟩ := h1
  have hnd : (parse a).ev ≠ .down := by rw [Ne, parse_down, hd]; simp
  have hb : ((a.info.bind (·.kind)).map kindType).getD .physical = .bond ↔ a.kindName = some "bond" := by
    show _ ↔ a.info.bind (·.kind) = some "bond"
    cases a.info.bind (·.kind) with
    | none => simp
    | some k => simp [kindType_bond]
  rcases hrows with ⟨rows, hrr, he⟩ | ⟨_, hx, _⟩ | ⟨_, _, he⟩
  · obtain ⟨pre, r0, post, e1, e2, e3, e4⟩ := rowsReplace_some _ _ _ hrr
    rw [parse_idx] at e2
    exact absurd e2 (hnew r0 (by rw [e1]; simp))
  · exact absurd hx hnd
  · refine ⟨parse a, he, parse_idx a, ?_, ?_⟩
    · intro hk
      have : ¬ ((a.info.bind (·.kind)).map kindType).getD .physical = .bond := fun hx => hk (hb.1 hx)
      rw [parse_eq]
      exact ⟨if_neg this, if_neg this⟩
    · intro d i hi hdat hk
      have hbt := hb.2 hk
      have hid : infoData a.info = some d := by simp [infoData, hi, hdat]
      have e : (parse a).bond =
          { master := a.master.getD 0, mode := (d.bondMode.map bondMode).getD .none
            active := d.active.getD 0, hash := d.hash.getD 0 } := by
        rw [parse_eq]; simp only [if_pos hbt, hid, Option.bind_some]
      rw [e]
      refine ⟨?_, ?_, ?_, ?_, ?_, ?_⟩
      · intro hm; simp [hm, bondMode]
      · intro hm; simp [hm, bondMode]
      · intro n hm h1 h4; simp [hm, bondMode, h1, h4]
      · intro hm; simp [hm]
      · intro s hs; simp [hs]
      · intro p hp; simp [hp]

example : ∃ w c, handleLink (fun _ => true)
    { idx := 5, info := some { kind := some "bond"
                               data := some { bondMode := some 4, hash := some 1 } } } {} = .ok (w, c) ∧
    w.rows.map (fun r => (r.bond.mode, r.bond.hash)) = [(.lacp, 1)] := ⟨_, _, rfl, by decide +kernel⟩

/-! ### Team options -/

/-- The bytes of a text with its terminator. -/
def textOf (s : String) : List Nat := s.toList.map Char.toNat ++ [0]

/-- The bytes of a number, least significant first. -/
def leBytes (v : Nat) : List Nat := [v % 256, v / 256 % 256, v / 65536 % 256, v / 16777216 % 256]

/-- What one team option by itself says about the bonding record: the mode by its name, the active port
by its number. -/
inductive OptSays : TOpt → BondI → BondI → Prop
  | ab (o b rest) : o.name = some "mode" → o.data = some (textOf "activebackup" ++ rest) →
      OptSays o b { b with mode := .activeBackup }
  | lb (o b rest) : o.name = some "mode" → o.data = some (textOf "loadbalance" ++ rest) →
      OptSays o b { b with mode := .lacp }
  | other (o b s rest) : o.name = some "mode" → o.data = some (textOf s ++ rest) →
      (∀ c ∈ s.toList, c.toNat ≠ 0) → s ≠ "activebackup" → s ≠ "loadbalance" →
      OptSays o b { b with mode := .unsupported }
  | port (o b v) : o.name = some "activeport" → o.data = some (leBytes v) → v < 2147483648 →
      o.removed = false → OptSays o b { b with mode := .activeBackup, active := v }
  | gone (o b) : o.name = some "activeport" → o.removed = true → OptSays o b b
  | noData (o b) : o.data = none → OptSays o b b
  | irrelevant (o b n) : o.name = some n → n ≠ "mode" → n ≠ "activeport" → OptSays o b b

/-- What a list of options says. -/
inductive OptsSay : List TOpt → BondI → BondI → Prop
  | nil (b) : OptsSay [] b b
  | cons (o os b b' b'') : OptSays o b b' → OptsSay os b' b'' → OptsSay (o :: os) b b''

/-- C267 in full: each option of a message about a team acts by its own attributes. -/
def C267_statement : Prop :=
  ∀ (team : Int) (os : List TOpt) (l : Link) (b : BondI), l.idx = team → OptsSay os l.bond b →
    teamOpts team os {} [l] = .ok [{ l with bond := b }]

/-- The table of attributes is not cleared between options: an `activeport` option without a value
takes the value of the option before it, here the first four letters of `activebackup`. -/
theorem C267_violated : ¬ C267_statement := by
  intro h
  have := h 9 [{ name := some "mode", data := some (textOf "activebackup") },
      { name := some "activeport" }] { idx := 9 } { mode := .activeBackup } rfl
    (.cons _ _ _ _ _ (.ab _ _ [] rfl (by simp)) (.cons _ _ _ _ _ (.noData _ _ rfl) (.nil _)))
  revert this
  decide +kernel

theorem takeWhile_text (s : String) (rest : List Nat) (hs : ∀ c ∈ s.toList, c.toNat ≠ 0) :
    cstr (textOf s ++ rest) = s.toList.map Char.toNat := by
  unfold cstr textOf
  rw [List.append_assoc, List.takeWhile_append_of_pos]
  · simp
  · intro x hx
    obtain ⟨c, hc, rfl⟩ := List.mem_map.1 hx
    simpa using hs c hc

theorem u32_leBytes (v : Nat) (hv : v < 2147483648) :
    ∃ x, u32 (leBytes v) = some x ∧ x.toInt = v := by
  refine ⟨_, rfl, ?_⟩
  have e : v % 256 + 256 * (v / 256 % 256) + 65536 * (v / 65536 % 256) +
      16777216 * (v / 16777216 % 256) = v := by omega
  rw [e]
  simp only [BitVec.toInt, BitVec.toNat_ofNat]
  omega

theorem bytes_inj (s t : String) (h : s.toList.map Char.toNat = bytes t) : s = t := by
  unfold bytes at h
  have : s.toList = t.toList := by
    refine (List.map_injective_iff.2 ?_) h
    intro a b hab
    exact Char.toNat_inj.1 hab
  exact String.toList_injective this

/-- C267: they do when every option carries its name and its value and none is marked as removed. -/
theorem C267_options_apply_partial (team : Int) (os : List TOpt) (l : Link) (b : BondI)
    (hl : l.idx = team) (hwf : ∀ o ∈ os, o.name.isSome ∧ o.data.isSome ∧ o.removed = false)
    (hsay : OptsSay os l.bond b) : teamOpts team os {} [l] = .ok [{ l with bond := b }] := by
  have gen : ∀ (os : List TOpt) (v : TVars) (b0 b : BondI), v.down = false → v.removed = false →
      (∀ o ∈ os, o.name.isSome ∧ o.data.isSome ∧ o.removed = false) → OptsSay os b0 b →
      teamOpts team os v [{ l with bond := b0 }] = .ok [{ l with bond := b }] := by
    intro os
    induction os with
    | nil => intro v b0 b _ _ _ hs; cases hs; rfl
    | cons o os ih =>
        intro v b0 b hv hr hwf hs
        cases hs with
        | cons _ _ _ b' _ hsay hrest =>
          obtain ⟨hn, hd, hrm⟩ := hwf o (by simp)
          obtain ⟨n, hn⟩ := Option.isSome_iff_exists.1 hn
          obtain ⟨d, hd⟩ := Option.isSome_iff_exists.1 hd
          have key : ∃ v', teamOpt team o v [{ l with bond := b0 }] =
              .ok (v', [{ l with bond := b' }]) ∧ v'.down = false ∧ v'.removed = false := by
            have hdown : ∀ c : Bool, (if c = true then false else v.down) = false := by
              intro c; cases c <;> simp [hv]
            unfold teamOpt teamVars
            simp only [hn, hd, hrm, hr, Option.some_or, Bool.or_false, Bool.false_eq_true, if_false,
              pure, Except.pure, bind, Except.bind]
            generalize hc : (o.changed || v.changed) = c
            have hopt : optOf n = some true ∨ optOf n = some false ∨ optOf n = none := by
              cases optOf n with
              | none => simp
              | some x => cases x <;> simp
            cases hsay with
            | ab rest h1 h2 =>
                rw [hn] at h1; cases h1
                rw [hd] at h2; cases h2
                have e : cstr (textOf "activebackup" ++ rest) = bytes "activebackup" :=
                  takeWhile_text "activebackup" rest (by decide)
                cases c <;> simp [optOf, applyMode, updRow, hl, e, hv]
            | lb rest h1 h2 =>
                rw [hn] at h1; cases h1
                rw [hd] at h2; cases h2
                have e : cstr (textOf "loadbalance" ++ rest) = bytes "loadbalance" :=
                  takeWhile_text "loadbalance" rest (by decide)
                have hne : bytes "loadbalance" ≠ bytes "activebackup" := by decide
                cases c <;> simp [optOf, applyMode, updRow, hl, e, hv, hne]
            | other s rest h1 h2 h3 h4 h5 =>
                rw [hn] at h1; cases h1
                rw [hd] at h2; cases h2
                have e := takeWhile_text s rest h3
                have n1 : ¬ s.toList.map Char.toNat = bytes "activebackup" :=
                  fun hx => h4 (bytes_inj _ _ hx)
                have n2 : ¬ s.toList.map Char.toNat = bytes "loadbalance" :=
                  fun hx => h5 (bytes_inj _ _ hx)
                cases c <;> simp [optOf, applyMode, updRow, hl, e, hv, n1, n2]
            | port x h1 h2 h3 h4 =>
                rw [hn] at h1; cases h1
                rw [hd] at h2; cases h2
                obtain ⟨y, hy, hyi⟩ := u32_leBytes x h3
                have hne : ¬ ("activeport" = "mode") := by decide
                cases c <;> simp [optOf, applyActive, updRow, hl, hy, hyi, hv, hne]
            | gone h1 h2 => rw [hrm] at h2; cases h2
            | noData h1 => rw [hd] at h1; cases h1
            | irrelevant m h1 h2 h3 =>
                rw [hn] at h1; cases h1
                cases c <;> simp [optOf, h2, h3, hv]
          obtain ⟨v', h1, h2, h3⟩ := key
          simp only [teamOpts, h1, bind, Except.bind]
          exact ih v' b' b h2 h3 (fun x hx => hwf x (by simp [hx])) hrest
  exact gen os {} l.bond b rfl rfl hwf hsay

example : OptsSay [{ name := some "mode", data := some (textOf "activebackup") },
      { name := some "activeport", data := some (leBytes 300), changed := true },
      { name := some "mcast", data := some [1] }] {} { mode := .activeBackup, active := 300 } :=
  .cons _ _ _ _ _ (.ab _ _ [] rfl (by simp))
    (.cons _ _ _ _ _ (.port _ _ 300 rfl rfl (by omega) rfl)
      (.cons _ _ _ _ _ (.irrelevant _ _ "mcast" rfl (by decide) (by decide)) (.nil _)))

end Verif.Netlink
