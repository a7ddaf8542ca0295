import Verif.Crny.Round

/-!
# What is seen of the events
-/

set_option linter.unusedVariables false
set_option linter.unusedSimpArgs false

namespace Verif.Crny

/-! ## Effects of the parts -/

/-- Effects of clock control. -/
def Ctl (o : List Out) : Prop := ∀ x ∈ o, (∃ p, x = .saw p) ∨ ∃ op ok, x = .script op ok

theorem Ctl.append {a b : List Out} (h : Ctl a) (k : Ctl b) : Ctl (a ++ b) :=
  fun x hx => (List.mem_append.1 hx).elim (h x) (k x)

theorem doControl_ctl (m : Mod) (op : Op) (p : Proc) (ok : Bool) : Ctl (doControl m op p ok).2.2 := by
  unfold doControl Ctl
  split
  · simp
  · dsimp only
    split
    · simp
    · have hx : Ctl [.saw p, .script op ok] := by
        intro x hx
        simp only [List.mem_cons, List.not_mem_nil, or_false] at hx
        exact hx.imp (fun h => ⟨p, h⟩) (fun h => ⟨op, ok, h⟩)
      cases op <;> exact hx

theorem saveState_ctl (m : Mod) (p : Proc) (ok : Bool) : Ctl (saveState m p ok).2 := by
  unfold saveState
  split
  · intro x hx; cases hx
  · exact doControl_ctl m .save p ok

theorem control_ctl (m : Mod) (b : Bool) (p : Proc) (ok : Bool) (p' : Proc) (ok' : Bool) :
    Ctl (control m b p ok p' ok').2.2 := (saveState_ctl m p ok).append (doControl_ctl _ _ p' ok')

theorem putBack_ctl (m : Mod) (env : Env) : Ctl (putBack m env).2 := by
  unfold putBack
  split
  · dsimp only
    split <;> exact control_ctl _ _ _ _ _ _
  · intro x hx; cases hx

theorem onControl_ctl (m : Mod) (mask flags : Flags) (env : Env) : Ctl (onControl m mask flags env).2 := by
  have hs : ∀ p, Ctl [.saw p] := fun p x hx => Or.inl ⟨p, List.mem_singleton.1 hx⟩
  unfold onControl
  dsimp only
  split
  · split
    · exact hs _
    · split
      · exact hs _
      · exact (hs _).append (control_ctl _ _ _ _ _ _)
  · intro x hx; cases hx

theorem runControl_ctl (m : Mod) (env : Env) : ∀ x ∈ (runControl m env).2,
    (∃ p, x = .saw p) ∨ (∃ op ok, x = .script op ok) ∨ x = .exit := by
  have hs : ∀ p, Ctl [.saw p] := fun p x hx => Or.inl ⟨p, List.mem_singleton.1 hx⟩
  have up : ∀ {o : List Out}, Ctl o → ∀ x ∈ o, (∃ p, x = .saw p) ∨ (∃ op ok, x = .script op ok) ∨ x = .exit :=
    fun h x hx => (h x hx).imp_right Or.inl
  unfold runControl
  dsimp only
  split
  · exact up (hs _)
  · split
    · split
      · exact up ((hs _).append (control_ctl _ _ _ _ _ _))
      · split
        · exact up ((hs _).append (control_ctl _ _ _ _ _ _))
        · intro x hx
          rcases List.mem_append.1 hx with hx | hx
          · exact up ((hs (env.look .first)).append (control_ctl _ _ _ _ _ _)) x hx
          · split at hx
            · exact Or.inr (Or.inr (List.mem_singleton.1 hx))
            · cases hx
    · split
      · exact up (hs _)
      · intro x hx
        rcases List.mem_cons.1 hx with rfl | hx
        · exact Or.inl ⟨_, rfl⟩
        · split at hx
          · exact Or.inr (Or.inr (List.mem_singleton.1 hx))
          · cases hx

theorem filterMap_none {β : Type} {f : Out → Option β} {o : List Out} (h : ∀ x ∈ o, f x = none) : o.filterMap f = [] :=
  List.filterMap_eq_nil_iff.2 h

/-- What an update shows: the change of clock control, and what the engine is told. -/
theorem updateState_outs {m m' : Mod} {env : Env} {o : List Out} (hn : NoSel m.next)
    (h : updateState m env = some (m', o)) :
    ∃ o2, o = (changeIf m env).2 ++ o2 ++ (stateChange (changeIf m env).1).2 ∧ ∀ x ∈ o2, x = .cluster false := by
  obtain ⟨u1, u2, u3, u4, u5, u6, o1, o2, rfl, h1, h2⟩ := updateState_spec h
  have hst : m'.next.st ≠ .slave := by rw [u1.next.st]; exact hn.st
  have ho1 : o1 = [] := by
    rcases h1 with rfl | h1
    · rfl
    · rw [rtStats_off hst] at h1
      simpa using h1.symm
  subst ho1
  refine ⟨o2, by simp, ?_⟩
  rcases h2 with rfl | h2
  · simp
  · unfold clustering at h2
    split at h2
    · split at h2
      · cases h2
      · cases h2
        simp [hst]
    · cases h2
      simp

theorem changeIf_outs (m : Mod) (env : Env) :
    (changeIf m env).2 = if m.next.cc ≠ m.state.cc then
      (setBlock m m.next.cc).2 ++ (putBack (constrain (setBlock m m.next.cc).1) env).2 else [] := by
  unfold changeIf
  split <;> rfl

theorem setBlock_outs (m : Mod) (b : Bool) : (setBlock m b).2 = if m.blocked = b then [] else [.block b] := by
  unfold setBlock
  split <;> rfl

theorem Ctl.blocking {o : List Out} (h : Ctl o) : o.filterMap Out.blocking = [] :=
  filterMap_none (fun x hx => by
    rcases h x hx with ⟨p, rfl⟩ | ⟨op, ok, rfl⟩ <;> rfl)

theorem Ctl.telling {o : List Out} (h : Ctl o) : o.filterMap Out.telling = [] :=
  filterMap_none (fun x hx => by
    rcases h x hx with ⟨p, rfl⟩ | ⟨op, ok, rfl⟩ <;> rfl)

theorem stateChange_told (m : Mod) : ∀ x ∈ (stateChange m).2,
    x = .told m.next.st (stateChange m).1.must (stateChange m).1.cannot := by
  intro x hx
  rw [stateChange_outs] at hx
  split at hx
  · exact List.mem_singleton.1 hx
  · cases hx

/-- The blocking of the clock as effects show it. -/
theorem changeIf_blocking (m : Mod) (env : Env) :
    ((changeIf m env).2.filterMap Out.blocking).getLast?.getD m.blocked = (changeIf m env).1.blocked := by
  rw [changeIf_outs]
  unfold changeIf
  by_cases h : m.next.cc ≠ m.state.cc
  · rw [if_pos h, if_pos h, List.filterMap_append, (putBack_ctl _ env).blocking, List.append_nil,
      (onChange_upd m env).2.2, setBlock_outs]
    split
    · simpa using by assumption
    · rfl
  · rw [if_neg h, if_neg h]
    rfl

theorem blocking_mv {o : List Out} (h : ∀ x ∈ o, (∃ p, x = .saw p) ∨ ∃ c s i, x = .sent c s i) :
    o.filterMap Out.blocking = [] ∧ o.filterMap Out.telling = [] :=
  ⟨filterMap_none (fun x hx => by rcases h x hx with ⟨p, rfl⟩ | ⟨c, s, i, rfl⟩ <;> rfl),
   filterMap_none (fun x hx => by rcases h x hx with ⟨p, rfl⟩ | ⟨c, s, i, rfl⟩ <;> rfl)⟩

/-- Effects of a move and update. -/
structure AdvOuts (m m' : Mod) (outs : List Out) : Prop where
  blk : (outs.filterMap Out.blocking).getLast?.getD m.blocked = m'.blocked
  told : ∀ st mu ca, .told st mu ca ∈ outs → st = m'.state.st ∧ mu = m'.must ∧ ca = m'.cannot
  rt : ∀ d, .rtStats d ∉ outs
  cl : .cluster true ∉ outs

theorem Adv.outsOf {env : Env} {m n m' : Mod} {o o' outs : List Out} (a : Adv env m n m' o o' outs) :
    AdvOuts m m' outs := by
  obtain ⟨upd, mv⟩ := a.mv
  have b := blocking_mv mv.quiet
  have hno : ∀ x ∈ o, ∀ st mu ca d, x ≠ .told st mu ca ∧ x ≠ .rtStats d ∧ x ≠ .cluster true := by
    intro x hx st mu ca d
    rcases mv.quiet x hx with ⟨p, rfl⟩ | ⟨c, s, i, rfl⟩ <;> simp
  rcases a.same with ⟨rfl, rfl, hc, hs⟩ | hu
  · have ho : outs = o := by simpa using a.outs
    subst ho
    exact ⟨by rw [b.1]; exact mv.blocked.symm, fun st mu ca hx => absurd rfl (hno _ hx st mu ca false).1,
      fun d hx => (hno _ hx .listening false false d).2.1 rfl, fun hx => (hno _ hx .listening false false false).2.2 rfl⟩
  · have u := updateState_spec hu
    obtain ⟨o2, ho', h2⟩ := updateState_outs mv.noN hu
    have hci : ∀ x ∈ (changeIf n env).2, (∃ b, x = .block b) ∨ (∃ p, x = .saw p) ∨ ∃ op ok, x = .script op ok := by
      intro x hx
      rw [changeIf_outs] at hx
      split at hx
      · rcases List.mem_append.1 hx with hx | hx
        · rw [setBlock_outs] at hx
          split at hx
          · cases hx
          · exact Or.inl ⟨_, List.mem_singleton.1 hx⟩
        · exact Or.inr (putBack_ctl _ env x hx)
      · cases hx
    have hb2 : o2.filterMap Out.blocking = [] := filterMap_none (fun x hx => by rw [h2 x hx]; rfl)
    have hb3 : (stateChange (changeIf n env).1).2.filterMap Out.blocking = [] :=
      filterMap_none (fun x hx => by rw [stateChange_told _ x hx]; rfl)
    have hout : outs = o ++ ((changeIf n env).2 ++ o2 ++ (stateChange (changeIf n env).1).2) := by rw [a.outs, ho']
    refine ⟨?_, ?_, ?_, ?_⟩
    · rw [hout]
      simp only [List.filterMap_append, b.1, hb2, hb3, List.nil_append, List.append_nil]
      rw [u.2.2.2.1, ← mv.blocked]
      exact changeIf_blocking n env
    · intro st mu ca hx
      rw [hout] at hx
      simp only [List.mem_append] at hx
      rcases hx with hx | (hx | hx) | hx
      · exact absurd rfl (hno _ hx st mu ca false).1
      · rcases hci _ hx with ⟨_, h⟩ | ⟨_, h⟩ | ⟨_, _, h⟩ <;> cases h
      · cases h2 _ hx
      · have := stateChange_told _ _ hx
        simp only [Out.told.injEq] at this
        have hcu := changeIf_upd n env
        refine ⟨this.1.trans ?_, this.2.1.trans u.2.2.2.2.1.symm, this.2.2.trans u.2.2.2.2.2.1.symm⟩
        rw [u.2.1, u.1.next.st]
        exact hcu.1.next.st
    · intro d hx
      rw [hout] at hx
      simp only [List.mem_append] at hx
      rcases hx with hx | (hx | hx) | hx
      · exact (hno _ hx .listening false false d).2.1 rfl
      · rcases hci _ hx with ⟨_, h⟩ | ⟨_, h⟩ | ⟨_, _, h⟩ <;> cases h
      · cases h2 _ hx
      · cases stateChange_told _ _ hx
    · intro hx
      rw [hout] at hx
      simp only [List.mem_append] at hx
      rcases hx with hx | (hx | hx) | hx
      · exact (hno _ hx .listening false false false).2.2 rfl
      · rcases hci _ hx with ⟨_, h⟩ | ⟨_, h⟩ | ⟨_, _, h⟩ <;> cases h
      · cases h2 _ hx
      · cases stateChange_told _ _ hx

/-- Effects of clock control only. -/
theorem ctl_outs {m m' : Mod} {outs : List Out} (hb : m'.blocked = m.blocked)
    (h : ∀ x ∈ outs, (∃ p, x = .saw p) ∨ (∃ op ok, x = .script op ok) ∨ x = .exit) : AdvOuts m m' outs := by
  refine ⟨?_, ?_, ?_, ?_⟩
  · rw [filterMap_none (fun x hx => by rcases h x hx with ⟨p, rfl⟩ | ⟨op, ok, rfl⟩ | rfl <;> rfl)]
    exact hb.symm
  · intro st mu ca hx
    rcases h _ hx with ⟨p, h⟩ | ⟨op, ok, h⟩ | h <;> cases h
  · intro d hx
    rcases h _ hx with ⟨p, h⟩ | ⟨op, ok, h⟩ | h <;> cases h
  · intro hx
    rcases h _ hx with ⟨p, h⟩ | ⟨op, ok, h⟩ | h <;> cases h

theorem prepared_state (m : Mod) (env : Env) : (prepared m env).blocked = m.blocked ∧ (prepared m env).conf = m.conf ∧
    (prepared m env).state.cc = m.state.cc ∧ (prepared m env).state.st = m.state.st := by
  have r := runControl_state
    { m with phase := true, nextPoll := env.now, query := .sleepDis, state := { m.state with unsafe_ := false } } env
  unfold prepared
  dsimp only
  rw [r.1]
  exact ⟨r.2.1, r.2.2.1, rfl, rfl⟩

/-- Effects of any event. -/
theorem step_outs {m m' : Mod} {e : Ev} {outs : List Out} (h : Inv m) (hs : step m e = some (m', outs)) :
    AdvOuts m m' outs := by
  cases step_kind h hs with
  | idle hm ho => subst hm ho; exact ctl_outs rfl (by simp)
  | ran env n o o' outs' a ho =>
    have ao := a.outsOf
    have pc : AdvOuts m (prepared m env) (preparedOuts m env) := ctl_outs (prepared_state m env).1 (runControl_ctl _ env)
    subst ho
    refine ⟨?_, ?_, ?_, ?_⟩
    · rw [List.filterMap_append, filterMap_none (o := preparedOuts m env) (fun x hx => by
        rcases runControl_ctl _ env x hx with ⟨p, rfl⟩ | ⟨op, ok, rfl⟩ | rfl <;> rfl), List.nil_append,
        ← (prepared_state m env).1]
      exact ao.blk
    · intro st mu ca hx
      rcases List.mem_append.1 hx with hx | hx
      · rcases runControl_ctl _ env _ hx with ⟨p, h⟩ | ⟨op, ok, h⟩ | h <;> cases h
      · exact ao.told st mu ca hx
    · intro d hx
      exact (List.mem_append.1 hx).elim (pc.rt d) (ao.rt d)
    · intro hx
      exact (List.mem_append.1 hx).elim pc.cl ao.cl
  | ticked env n o o' a => exact a.outsOf
  | got env r n o o' a => exact a.outsOf
  | gone env n o o' a => exact a.outsOf
  | asked mask flags env hm =>
    have k := onControl_kept m mask flags env
    have c := onControl_ctl m mask flags env
    rw [hm] at k c
    exact ctl_outs k.2.2.1 (fun x hx => (c x hx).imp_right Or.inl)
  | stepped hm ho => subst hm ho; exact ctl_outs rfl (by simp)
  | logged hm o1 o2 h1 h2 ho =>
    subst hm
    rw [rtStats_off h.noS.st] at h1
    cases h1
    have hc : ∀ x ∈ outs, x = .cluster false := by
      intro x hx
      rw [ho, List.nil_append] at hx
      unfold clustering at h2
      split at h2
      · split at h2
        · cases h2
        · cases h2
          rw [List.mem_singleton.1 hx]
          simp [h.noS.st]
      · cases h2
        cases hx
    refine ⟨?_, fun st mu ca hx => ?_, fun d hx => ?_, fun hx => ?_⟩
    · rw [filterMap_none (fun x hx => by rw [hc x hx]; rfl)]
      rfl
    · cases hc _ hx
    · cases hc _ hx
    · cases hc _ hx

/-- Induction over a run with its effects. -/
theorem run_effects {P : Mod → List Ev → List Out → Prop}
    (hstep : ∀ m es o e m' o', P m es o → step m e = some (m', o') → P m' (es ++ [e]) (o ++ o'))
    {m m' : Mod} {o : List Out} {es es' : List Ev} {tr : List Entry} (h : P m es o) (hr : run m es' = some (m', tr)) :
    P m' (es ++ es') (effects o tr) := by
  induction es' generalizing m tr o es with
  | nil =>
    cases hr
    simpa [effects] using h
  | cons e es' ih =>
    unfold run at hr
    split at hr
    · cases hr
    · rename_i a b hs
      split at hr
      · cases hr
      · rename_i c d hr'
        cases hr
        have := ih (hstep m es o e a b h hs) hr'
        simpa [effects] using this

end Verif.Crny
