import Verif.Crny.Moves

/-!
# Events of the chrony module
-/

set_option linter.unusedVariables false
set_option linter.unusedSimpArgs false

namespace Verif.Crny

/-! ## The update after a move -/

/-- What `advance` does: it moves, and the new state is taken over or is no different. -/
structure Adv (env : Env) (m n m' : Mod) (o o' outs : List Out) : Prop where
  mv : ∃ upd, Mv env m n upd o
  outs : outs = o ++ o'
  same : (m' = n ∧ o' = [] ∧ n.next.cc = n.state.cc ∧ n.next.st = n.state.st) ∨ updateState n env = some (m', o')

theorem advance_adv {env : Env} {m m' : Mod} (h : Inv m) {e : QEv} {outs : List Out}
    (ha : advance m env (machine m env e) = some (m', outs)) :
    ∃ n o o', Adv env m n m' o o' outs ∧ ∃ upd, machine m env e = some (n, upd, o) := by
  unfold advance at ha
  split at ha
  · cases ha
  · rename_i n upd o hm
    have mv := machine_mv h hm
    split at ha
    · match hu : updateState n env with
      | none => rw [hu] at ha; cases ha
      | some (a, b) =>
        rw [hu] at ha
        simp only [Option.map_some, Option.some.injEq, Prod.mk.injEq] at ha
        obtain ⟨rfl, rfl⟩ := ha
        exact ⟨n, o, b, ⟨⟨upd, mv⟩, rfl, Or.inr hu⟩, upd, hm⟩
    · rename_i hc
      cases ha
      have h1 : upd ≠ true := fun x => hc (Or.inl x)
      have h2 : m'.next.st = m'.state.st := by
        by_cases hx : m'.next.st = m'.state.st
        · exact hx
        · exact absurd (Or.inr hx) hc
      refine ⟨m', outs, [], ⟨⟨upd, mv⟩, by simp, Or.inl ⟨rfl, rfl, ?_, h2⟩⟩, upd, hm⟩
      rcases mv.look with l | l
      · rw [l.2.2.2, mv.state]
      · rcases l.2.2.2.2 with x | x
        · rw [l.2.2.2.1, mv.state]; exact x.symm
        · exact absurd x h1

theorem Adv.inv {env : Env} {m n m' : Mod} {o o' outs : List Out} (h : Inv m) (a : Adv env m n m' o o' outs) : Inv m' := by
  obtain ⟨upd, mv⟩ := a.mv
  rcases a.same with ⟨rfl, rfl, hc, hs⟩ | hu
  · exact ⟨by rw [mv.state]; exact h.noS, mv.noN, hc, hs⟩
  · have u := updateState_spec hu
    have hn := mv.noN.alike u.1.next
    exact ⟨by rw [u.2.1]; exact hn, hn, by rw [u.2.1], by rw [u.2.1]⟩

/-- The module that has just lost its connection. -/
theorem lost_adv {env : Env} {m m' : Mod} (h : Inv m) {outs : List Out}
    (ha : advance m env (some ((disconnect m).1, true, [])) = some (m', outs)) :
    ∃ n o o', Adv env m n m' o o' outs := by
  unfold advance at ha
  simp only [true_or, if_true] at ha
  match hu : updateState (disconnect m).1 env with
  | none => rw [hu] at ha; cases ha
  | some (a, b) =>
    rw [hu] at ha
    simp only [Option.map_some, Option.some.injEq, Prod.mk.injEq] at ha
    obtain ⟨rfl, rfl⟩ := ha
    exact ⟨(disconnect m).1, [], b, ⟨true, .plain h rfl rfl rfl rfl rfl h.noN rfl rfl h.cc (by simp)
      (fun x => Or.inl (h.st ▸ x))⟩, rfl, Or.inr hu⟩

theorem runControl_state (m : Mod) (env : Env) : (runControl m env).1.state = m.state ∧
    (runControl m env).1.blocked = m.blocked ∧ (runControl m env).1.conf = m.conf ∧
    (runControl m env).1.query = m.query ∧ (runControl m env).1.flags.cluster = m.flags.cluster ∧
    ((runControl m env).1.sock = true → m.sock = true) := by
  unfold runControl
  dsimp only
  have k := (look_kept m (env.look .first)).trans
    (control_kept (look m (env.look .first)).1 m.flags.clockCtrl (env.look .save) (env.script .save) (env.look .op) (env.script .op))
  split
  · exact ⟨rfl, rfl, rfl, rfl, rfl, id⟩
  · split
    · split
      · exact ⟨k.state, k.blocked, k.conf, k.query, by rw [k.flags], k.sock⟩
      · split
        · exact ⟨k.state, k.blocked, k.conf, k.query, by dsimp only; rw [k.flags], k.sock⟩
        · exact ⟨k.state, k.blocked, k.conf, k.query, by rw [k.flags], k.sock⟩
    · split
      · exact ⟨rfl, rfl, rfl, rfl, rfl, id⟩
      · exact ⟨rfl, rfl, rfl, rfl, rfl, id⟩

theorem onControl_kept (m : Mod) (mask flags : Flags) (env : Env) :
    let r := (onControl m mask flags env).1
    r.state = m.state ∧ r.next = m.next ∧ r.blocked = m.blocked ∧ r.conf = m.conf ∧ r.query = m.query ∧ r.srcIdx = m.srcIdx ∧
    (r.sock = true → m.sock = true) ∧ r.flags.cluster = (if mask.cluster then flags.cluster else m.flags.cluster) ∧
    r.phase = m.phase := by
  have k := (look_kept m (env.look .first)).trans (control_kept (look m (env.look .first)).1
    (m.flags.apply mask flags).clockCtrl (env.look .save) (env.script .save) (env.look .op) (env.script .op))
  unfold onControl
  dsimp only
  split
  · split
    · exact ⟨rfl, rfl, rfl, rfl, rfl, rfl, id, rfl, rfl⟩
    · split
      · exact ⟨rfl, rfl, rfl, rfl, rfl, rfl, id, rfl, rfl⟩
      · exact ⟨k.state, k.next, k.blocked, k.conf, k.query, k.srcIdx, k.sock, rfl, k.phase⟩
  · exact ⟨rfl, rfl, rfl, rfl, rfl, rfl, id, rfl, rfl⟩

/-- The module as `ntp_on_run` prepares it. -/
def prepared (m : Mod) (env : Env) : Mod :=
  let m := { m with phase := true, nextPoll := env.now, query := .sleepDis, state := { m.state with unsafe_ := false } }
  { (runControl m env).1 with next := (runControl m env).1.state }

def preparedOuts (m : Mod) (env : Env) : List Out :=
  (runControl { m with phase := true, nextPoll := env.now, query := .sleepDis, state := { m.state with unsafe_ := false } } env).2

theorem prepared_inv {m : Mod} (h : Inv m) (env : Env) : Inv (prepared m env) := by
  have r := runControl_state
    { m with phase := true, nextPoll := env.now, query := .sleepDis, state := { m.state with unsafe_ := false } } env
  have hn : NoSel (prepared m env).state := by
    unfold prepared
    dsimp only
    rw [r.1]
    exact ⟨h.noS.st, h.noS.peers⟩
  exact ⟨hn, hn, rfl, rfl⟩

/-- An event as a move, except for messages. -/
inductive Kind (m m' : Mod) (outs : List Out) : Ev → Prop where
  | idle {e : Ev} (h : m' = m) (ho : outs = []) (he : ∀ mask flags env, e ≠ .control mask flags env) (hs : e ≠ .step) :
      Kind m m' outs e
  | ran (env : Env) (n : Mod) (o o' outs' : List Out) (a : Adv env (prepared m env) n m' o o' outs')
      (ho : outs = preparedOuts m env ++ outs') : Kind m m' outs (.run env)
  | ticked (env : Env) (n : Mod) (o o' : List Out) (a : Adv env m n m' o o' outs) : Kind m m' outs (.tick env)
  | got (env : Env) (r : Reply) (n : Mod) (o o' : List Out) (a : Adv env m n m' o o' outs) : Kind m m' outs (.traffic env r)
  | gone (env : Env) (n : Mod) (o o' : List Out) (a : Adv env m n m' o o' outs) : Kind m m' outs (.lost env)
  | asked (mask flags : Flags) (env : Env) (h : onControl m mask flags env = (m', outs)) : Kind m m' outs (.control mask flags env)
  | stepped (h : m' = { m with state := { m.state with unsafe_ := true } }) (ho : outs = []) : Kind m m' outs .step
  | logged (h : m' = m) (o1 o2 : List Out) (h1 : rtStats m.state = some o1) (h2 : clustering m m.state = some o2)
      (ho : outs = o1 ++ o2) : Kind m m' outs .log

theorem step_kind {m m' : Mod} {e : Ev} {outs : List Out} (h : Inv m) (hs : step m e = some (m', outs)) :
    Kind m m' outs e := by
  unfold step at hs
  split at hs
  · rename_i env
    split at hs
    · cases hs; exact .idle rfl rfl (fun _ _ _ => by simp) (by simp)
    · unfold onRun at hs
      dsimp only at hs
      match ha : advance (prepared m env) env (machine (prepared m env) env .run) with
      | none =>
        have : (advance (prepared m env) env (machine (prepared m env) env .run)).map
          (fun x => (x.1, preparedOuts m env ++ x.2)) = some (m', outs) := hs
        rw [ha] at this; cases this
      | some (a, b) =>
        have : (advance (prepared m env) env (machine (prepared m env) env .run)).map
          (fun x => (x.1, preparedOuts m env ++ x.2)) = some (m', outs) := hs
        rw [ha] at this
        simp only [Option.map_some, Option.some.injEq, Prod.mk.injEq] at this
        obtain ⟨rfl, rfl⟩ := this
        obtain ⟨n, o, o', ad, -⟩ := advance_adv (prepared_inv h env) ha
        exact .ran env n o o' b ad rfl
  · rename_i env
    split at hs
    · obtain ⟨n, o, o', ad, -⟩ := advance_adv h hs
      exact .ticked env n o o' ad
    · cases hs; exact .idle rfl rfl (fun _ _ _ => by simp) (by simp)
  · rename_i env r
    split at hs
    · obtain ⟨n, o, o', ad, -⟩ := advance_adv h hs
      exact .got env r n o o' ad
    · cases hs; exact .idle rfl rfl (fun _ _ _ => by simp) (by simp)
  · rename_i env
    split at hs
    · obtain ⟨n, o, o', ad⟩ := lost_adv h hs
      exact .gone env n o o' ad
    · cases hs; exact .idle rfl rfl (fun _ _ _ => by simp) (by simp)
  · exact .asked _ _ _ (by simpa using hs)
  · cases hs; exact .stepped rfl rfl
  · split at hs
    · rename_i o1 o2 h1 h2
      cases hs
      exact .logged rfl o1 o2 h1 h2 rfl
    · cases hs

theorem step_inv {m m' : Mod} {e : Ev} {outs : List Out} (h : Inv m) (hs : step m e = some (m', outs)) : Inv m' := by
  cases step_kind h hs with
  | idle hm => exact hm ▸ h
  | ran env n o o' outs' a ho => exact a.inv (prepared_inv h env)
  | ticked env n o o' a => exact a.inv h
  | got env r n o o' a => exact a.inv h
  | gone env n o o' a => exact a.inv h
  | asked mask flags env hm =>
    have k := onControl_kept m mask flags env
    dsimp only at k
    rw [hm] at k
    dsimp only at k
    obtain ⟨k1, k2, -⟩ := k
    exact ⟨k1 ▸ h.noS, k2 ▸ h.noN, by rw [k1, k2]; exact h.cc, by rw [k1, k2]; exact h.st⟩
  | stepped hm => subst hm; exact ⟨⟨h.noS.st, h.noS.peers⟩, h.noN, h.cc, h.st⟩
  | logged hm => exact hm ▸ h

theorem start_spec (c : Conf) (p : Proc) :
    Inv (start c p).1 ∧ (start c p).1.conf = c ∧ (start c p).1.blocked = decide (p = .normal) ∧
    (start c p).1.state.cc = decide (p = .normal) ∧ (start c p).1.flags = ⟨false, false⟩ ∧
    (start c p).1.phase = false ∧ (start c p).1.sock = false ∧
    (start c p).2 = .saw p :: (if p = .normal then [.block true] else []) ∧
    (start c p).1.must = (!c.control && decide (p = .normal)) ∧ (start c p).1.cannot = (!c.control && decide (p = .minusX)) ∧
    (start c p).1.state.peers = List.replicate 32 .zero ∧ (start c p).1.next = (start c p).1.state ∧
    (start c p).1.state.numPeers = 0 ∧ (start c p).1.query = .sleepDis := by
  have hz : ∀ q ∈ List.replicate 32 Peer.zero, q.selected = false ∧ q.shortlist = false ∧ q.self = false := by
    intro q hq
    rw [List.eq_of_mem_replicate hq]
    exact zero_clear
  cases p with
  | absent => exact ⟨⟨⟨(fun h => nomatch h), hz⟩, ⟨(fun h => nomatch h), hz⟩, rfl, rfl⟩, rfl, rfl, rfl, rfl, rfl, rfl, rfl, rfl, rfl, rfl, rfl, rfl, rfl⟩
  | normal => exact ⟨⟨⟨(fun h => nomatch h), hz⟩, ⟨(fun h => nomatch h), hz⟩, rfl, rfl⟩, rfl, rfl, rfl, rfl, rfl, rfl, rfl, rfl, rfl, rfl, rfl, rfl, rfl⟩
  | minusX => exact ⟨⟨⟨(fun h => nomatch h), hz⟩, ⟨(fun h => nomatch h), hz⟩, rfl, rfl⟩, rfl, rfl, rfl, rfl, rfl, rfl, rfl, rfl, rfl, rfl, rfl, rfl, rfl⟩

/-! ## Runs -/

/-- Induction over a run. -/
theorem run_ind {P : Mod → Prop} (hstep : ∀ m e m' o, P m → step m e = some (m', o) → P m') {m m' : Mod} {es : List Ev}
    {tr : List Entry} (h : P m) (hr : run m es = some (m', tr)) : P m' := by
  induction es generalizing m tr with
  | nil => cases hr; exact h
  | cons e es ih =>
    unfold run at hr
    split at hr
    · cases hr
    · rename_i a b hs
      split at hr
      · cases hr
      · rename_i c d hr'
        cases hr
        exact ih (hstep m e a b h hs) hr'

theorem run_inv {m m' : Mod} {es : List Ev} {tr : List Entry} (h : Inv m) (hr : run m es = some (m', tr)) : Inv m' :=
  run_ind (fun m e m' o h hs => step_inv h hs) h hr

theorem run_append {m m' : Mod} {es : List Ev} {e : Ev} {tr : List Entry} (hr : run m (es ++ [e]) = some (m', tr)) :
    ∃ n tr' o, run m es = some (n, tr') ∧ step n e = some (m', o) ∧ tr = tr' ++ [⟨e, o⟩] := by
  induction es generalizing m tr with
  | nil =>
    simp only [List.nil_append, run] at hr
    split at hr
    · cases hr
    · rename_i a b hs
      cases hr
      exact ⟨m, [], b, rfl, hs, rfl⟩
  | cons d es ih =>
    simp only [List.cons_append, run] at hr
    split at hr
    · cases hr
    · rename_i a b hs
      split at hr
      · cases hr
      · rename_i a' b' hr'
        cases hr
        obtain ⟨n, tr', o, h1, h2, rfl⟩ := ih hr'
        exact ⟨n, ⟨d, b⟩ :: tr', o, by simp [run, hs, h1], h2, rfl⟩

end Verif.Crny
