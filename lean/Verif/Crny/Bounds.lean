import Verif.Crny.Steps

/-!
# Bounds of the chrony module's arrays
-/

set_option linter.unusedVariables false
set_option linter.unusedSimpArgs false

namespace Verif.Crny

/-- Bounds between events. -/
structure Bnd (m : Mod) : Prop where
  lenS : m.state.peers.length = 32
  lenN : m.next.peers.length = 32
  numS : m.state.numPeers ≤ 32
  numN : m.next.numPeers ≤ 32
  idx : m.query = .datum ∨ m.query = .stats ∨ m.query = .ntp → m.srcIdx < m.next.numPeers
  sock : m.query = .connect ∨ m.query = .sleepDis → m.sock = false
  cl : m.flags.cluster = false

/-- A reply with a sensible number of sources. -/
def QEv.sane : QEv → Prop
  | .traffic r => 0 ≤ r.count
  | _ => True

theorem clustering_off {m : Mod} (h : m.flags.cluster = false) (s : State) : clustering m s = some [] := by
  simp [clustering, h]

theorem rtStats_off {s : State} (h : s.st ≠ .slave) : rtStats s = some [] := by
  simp [rtStats, h]

/-- An update goes through. -/
theorem updateState_total {m : Mod} (h : NoSel m.next) (hc : m.flags.cluster = false) (env : Env) :
    ∃ m' o, updateState m env = some (m', o) := by
  have c := changeIf_upd m env
  have t := stateChange_kept (changeIf m env).1
  have hn : NoSel (stateChange (changeIf m env).1).1.next := by rw [t.next]; exact h.alike c.1.next
  have hf : (stateChange (changeIf m env).1).1.flags.cluster = false := by rw [t.flags, c.1.flags]; exact hc
  have hcv : converge (stateChange (changeIf m env).1).1.next env.converged =
      some { (stateChange (changeIf m env).1).1.next with synced := false } := by
    simp [converge, hn.st]
  unfold updateState
  dsimp only
  rw [hcv]
  dsimp only
  rw [rtStats_off (s := { (stateChange (changeIf m env).1).1.next with synced := false }) hn.st,
    clustering_off hf]
  simp only [ite_self]
  have : statsOk { (stateChange (changeIf m env).1).1.next with synced := false } = true := by
    simp [statsOk, hn.st]
  simp only [this, if_true]
  exact ⟨_, _, rfl⟩

theorem Upd.bnd {m m' : Mod} (h : Bnd m) (u : Upd m m') (hs : m'.state = m'.next) : Bnd m' :=
  ⟨by rw [hs, u.next.peers]; exact h.lenN, by rw [u.next.peers]; exact h.lenN, by rw [hs, u.next.numPeers]; exact h.numN,
   by rw [u.next.numPeers]; exact h.numN, by rw [u.query, u.srcIdx, u.next.numPeers]; exact h.idx,
   (fun hq => by
     have := h.sock (u.query ▸ hq)
     cases hk : m'.sock with
     | false => rfl
     | true => rw [u.sock hk] at this; exact this),
   by rw [u.flags]; exact h.cl⟩

/-- Nothing of a source out of bounds. -/
theorem setPeer_total {m : Mod} {i : Nat} (h : i < m.next.peers.length) (f : Peer → Peer) :
    setPeer m i f = some { m with next := { m.next with peers := m.next.peers.set i (f m.next.peers[i]) } } := by
  unfold setPeer
  rw [List.getElem?_eq_getElem h]

/-- A request for the source under consideration. -/
theorem goOn_bnd {m n : Mod} (upd : Bool) (q : Query) (env : Env) (h : Bnd m) (hq : q ≠ .connect ∧ q ≠ .sleepDis)
    (st : n.state = m.state) (len : n.next.peers.length = 32) (num : n.next.numPeers ≤ 32)
    (idx : q = .datum ∨ q = .stats ∨ q = .ntp → n.srcIdx < n.next.numPeers) (fl : n.flags = m.flags) :
    Bnd (goOn upd q (issue n env)).1 := by
  have g := goOn_issue upd q n env
  dsimp only at g
  obtain ⟨g1, g2, g3, g4, g5, g6, g7, g8, g9, g10, g11, g12, g13⟩ := g
  refine ⟨by rw [g5, st]; exact h.lenS, by rw [g6]; exact len, by rw [g5, st]; exact h.numS, by rw [g6]; exact num, ?_, ?_, by rw [g2, fl]; exact h.cl⟩
  · rw [g6, g12]
    rcases g11 with e | e
    · rw [e]; exact idx
    · rw [e.1]; simp
  · rcases g11 with e | e
    · rw [e]; exact fun x => x.elim (fun y => absurd y hq.1) (fun y => absurd y hq.2)
    · exact fun _ => e.2

theorem issueDatum_bnd {m n : Mod} (q : Query) (env : Env) (h : Bnd m) (hq : q ≠ .connect ∧ q ≠ .sleepDis)
    (st : n.state = m.state) (len : n.next.peers.length = 32) (num : n.next.numPeers ≤ 32)
    (idx : n.srcIdx < n.next.numPeers) (fl : n.flags = m.flags) :
    ∃ r, (issueDatum n env).map (goOn false q) = some r ∧ Bnd r.1 := by
  unfold issueDatum
  rw [setPeer_total (by omega)]
  dsimp only
  refine ⟨_, rfl, ?_⟩
  exact goOn_bnd false q env h hq st (by simpa [initReq] using len) num (fun _ => idx) fl

theorem nextSource_bnd {m n : Mod} (q : Query) (env : Env) (h : Bnd m) (hq : q ≠ .connect ∧ q ≠ .sleepDis)
    (st : n.state = m.state) (len : n.next.peers.length = 32) (num : n.next.numPeers ≤ 32)
    (idx : n.srcIdx < n.next.numPeers) (fl : n.flags = m.flags) (cl : NoSel n.next) :
    ∃ r, nextSource n env q = some r ∧ Bnd r.1 := by
  unfold nextSource
  dsimp only
  split
  · rw [parse_nosel cl.peers, if_pos num]
    refine ⟨_, rfl, ?_⟩
    exact ⟨by dsimp only; rw [st]; exact h.lenS, len, by dsimp only; rw [st]; exact h.numS, num, by simp, by simp, by dsimp only; rw [fl]; exact h.cl⟩
  · exact issueDatum_bnd (n := { n with srcIdx := n.srcIdx + 1 }) q env h hq st len num (by dsimp only; omega) fl

theorem Bnd.sleep {m : Mod} (h : Bnd m) : Bnd { m with query := .sleepCon } :=
  ⟨h.lenS, h.lenN, h.numS, h.numN, by simp, by simp, h.cl⟩

theorem toU32_small {n : Int} (h : 0 ≤ n) : toU32 (if n > 32 then 32 else n) ≤ 32 := by
  unfold toU32
  split <;> omega

/-- The machine gets through, and stays within bounds. -/
theorem machine_total {m : Mod} (inv : Inv m) (h : Bnd m) (env : Env) (e : QEv) (he : e.sane) :
    ∃ r, machine m env e = some r ∧ Bnd r.1 := by
  have hl : (e.late m env.now).sane := by
    unfold QEv.late
    split
    · trivial
    · exact he
  unfold machine
  dsimp only
  generalize e.late m env.now = e at hl
  cases hq : m.query with
  | connect =>
    dsimp only
    unfold atConnect
    rw [h.sock (Or.inl hq)]
    simp only [Bool.false_eq_true, if_false]
    split
    · exact ⟨_, rfl, goOn_bnd false .sysInfo env h (by simp) rfl h.lenS h.numS (by simp) rfl⟩
    · exact ⟨_, rfl, h.lenS, h.lenN, h.numS, h.numN, by simp, by simp, h.cl⟩
    · exact ⟨_, rfl, h.lenS, h.lenN, h.numS, Nat.zero_le _, by simp, fun _ => rfl, h.cl⟩
  | connectWait =>
    dsimp only
    cases e with
    | traffic r =>
      simp only [atWait]
      split
      · exact ⟨_, rfl, h.lenS, h.lenN, h.numS, h.numN, by simp [disconnect], fun _ => rfl, h.cl⟩
      · exact ⟨_, rfl, goOn_bnd false .sysInfo env h (by simp) rfl h.lenS h.numS (by simp) rfl⟩
    | timeout => exact ⟨_, rfl, h.sleep⟩
    | run => exact ⟨_, rfl, h⟩
    | tick => exact ⟨_, rfl, h⟩
  | sysInfo =>
    dsimp only
    cases e with
    | traffic r =>
      have c := nextControl_spec inv (env.look .next)
      dsimp only at c
      obtain ⟨c1, c2, c3, c4, c5, c6, -⟩ := c
      exact ⟨_, rfl, goOn_bnd _ .count env h (by simp) c5 (by rw [show (initReq (nextControl m (env.look .next)).1 14 env).next.peers = _ from c6.peers]; exact h.lenN)
        (by rw [show (initReq (nextControl m (env.look .next)).1 14 env).next.numPeers = _ from c6.numPeers]; exact h.numN) (by simp) c2⟩
    | timeout => exact ⟨_, rfl, h.sleep⟩
    | run => exact ⟨_, rfl, h⟩
    | tick => exact ⟨_, rfl, h⟩
  | count =>
    dsimp only
    cases e with
    | traffic r =>
      have hc : (handleCount m r).state = m.state ∧ (handleCount m r).next.peers = m.next.peers ∧
          (handleCount m r).next.numPeers ≤ 32 ∧ (handleCount m r).flags = m.flags := by
        unfold handleCount
        split
        · exact ⟨rfl, rfl, toU32_small hl, rfl⟩
        · exact ⟨rfl, rfl, h.numN, rfl⟩
      obtain ⟨h1, h2, h3, h4⟩ := hc
      simp only [atCount]
      split
      · exact issueDatum_bnd (n := { handleCount m r with srcIdx := 0 }) .datum env h (by simp) h1 (by dsimp only; rw [h2]; exact h.lenN) h3
          (by dsimp only; omega) h4
      · exact ⟨_, rfl, by dsimp only; rw [h1]; exact h.lenS, by dsimp only; rw [h2]; exact h.lenN, by dsimp only; rw [h1]; exact h.numS, h3, by simp, by simp,
          by dsimp only; rw [h4]; exact h.cl⟩
    | timeout => exact ⟨_, rfl, h.sleep⟩
    | run => exact ⟨_, rfl, h⟩
    | tick => exact ⟨_, rfl, h⟩
  | datum =>
    dsimp only
    have hi := h.idx (Or.inl hq)
    have hlen := h.lenN
    have hnum := h.numN
    cases e with
    | traffic r =>
      simp only [atDatum, handleDatum]
      by_cases hv : valid m r 3 = true
      · rw [if_pos hv, setPeer_total (by omega)]
        dsimp only
        unfold issueStats
        rw [setPeer_total (by simp; omega)]
        dsimp only
        exact ⟨_, rfl, goOn_bnd false .stats env h (by simp) rfl (by simpa [initReq] using h.lenN) h.numN (fun _ => hi) rfl⟩
      · rw [if_neg hv]
        exact nextSource_bnd .datum env h (by simp) rfl h.lenN h.numN hi rfl inv.noN
    | timeout => exact ⟨_, rfl, h.sleep⟩
    | run => exact ⟨_, rfl, h⟩
    | tick => exact ⟨_, rfl, h⟩
  | stats =>
    dsimp only
    have hi := h.idx (Or.inr (Or.inl hq))
    have hlen := h.lenN
    have hnum := h.numN
    cases e with
    | traffic r =>
      simp only [atStats]
      match hs : handleStats m r env with
      | none =>
        exfalso
        unfold handleStats at hs
        rw [setPeer_total (by omega)] at hs
        dsimp only at hs
        split at hs
        · split at hs <;> cases hs
        · cases hs
      | some (n, b) =>
        have near := handleStats_near inv r hs
        have hn : n.next.peers.length = 32 ∧ n.next.numPeers = m.next.numPeers ∧ n.srcIdx = m.srcIdx ∧ n.flags = m.flags := by
          unfold handleStats at hs
          rw [setPeer_total (by omega)] at hs
          dsimp only at hs
          split at hs
          · split at hs
            · cases hs; exact ⟨by simpa using h.lenN, rfl, rfl, rfl⟩
            · cases hs; exact ⟨by simpa [initReq] using h.lenN, rfl, rfl, rfl⟩
          · cases hs; exact ⟨h.lenN, rfl, rfl, rfl⟩
        cases b with
        | false =>
          exact nextSource_bnd .stats env h (by simp) near.1.state hn.1 (by omega) (by omega) hn.2.2.2 ⟨near.1.st, near.2⟩
        | true =>
          exact ⟨_, rfl, goOn_bnd false .ntp env h (by simp) near.1.state hn.1 (by omega) (fun _ => by omega) hn.2.2.2⟩
    | timeout => exact ⟨_, rfl, h.sleep⟩
    | run => exact ⟨_, rfl, h⟩
    | tick => exact ⟨_, rfl, h⟩
  | ntp =>
    dsimp only
    have hi := h.idx (Or.inr (Or.inr hq))
    have hlen := h.lenN
    have hnum := h.numN
    cases e with
    | traffic r =>
      simp only [atNtp]
      match hs : handleNtp m r with
      | none =>
        exfalso
        unfold handleNtp at hs
        rw [setPeer_total (by omega)] at hs
        split at hs <;> cases hs
      | some n =>
        have near := handleNtp_near inv r hs
        have hn : n.next.peers.length = 32 ∧ n.next.numPeers = m.next.numPeers ∧ n.srcIdx = m.srcIdx ∧ n.flags = m.flags := by
          unfold handleNtp at hs
          rw [setPeer_total (by omega)] at hs
          split at hs
          · cases hs; exact ⟨by simpa using h.lenN, rfl, rfl, rfl⟩
          · cases hs; exact ⟨h.lenN, rfl, rfl, rfl⟩
        exact nextSource_bnd .datum env h (by simp) near.1.state hn.1 (by omega) (by omega) hn.2.2.2 ⟨near.1.st, near.2⟩
    | timeout => exact ⟨_, rfl, h.sleep⟩
    | run => exact ⟨_, rfl, h⟩
    | tick => exact ⟨_, rfl, h⟩
  | sleepDis =>
    dsimp only
    have c := nextControl_spec inv (env.look .next)
    dsimp only at c
    obtain ⟨c1, c2, c3, c4, c5, c6, c7, c8, c9, c10, c11, c12, c13, c14, -⟩ := c
    unfold atSleepDis
    have hsk := h.sock (Or.inr hq)
    split
    · dsimp only
      split
      · exact ⟨_, rfl, by dsimp only; rw [c5]; exact h.lenS, by dsimp only; rw [c6.peers]; exact h.lenN, by dsimp only; rw [c5]; exact h.numS,
          by dsimp only; rw [c6.numPeers]; exact h.numN, by simp, fun _ => by dsimp only; rw [c14]; exact hsk, by dsimp only; rw [c2]; exact h.cl⟩
      · exact ⟨_, rfl, by dsimp only; rw [c5]; exact h.lenS, by dsimp only [parseError]; rw [c6.peers]; exact h.lenN, by dsimp only; rw [c5]; exact h.numS,
          Nat.zero_le _, by dsimp only; rw [c12, hq]; simp, fun _ => by dsimp only; rw [c14]; exact hsk, by dsimp only; rw [c2]; exact h.cl⟩
    · exact ⟨_, rfl, h⟩
  | sleepCon =>
    dsimp only
    unfold atSleepCon
    split
    · have g := goOn_bnd (n := initReq { m with next := m.state } 33 env) false .sysInfo env h (by simp) rfl h.lenS h.numS (by simp) rfl
      unfold goOn at g
      dsimp only
      split
      · rename_i hi
        unfold issueSysInfo at hi
        rw [if_pos hi] at g
        exact ⟨_, rfl, g.lenS, g.lenN, g.numS, g.numN, g.idx, g.sock, g.cl⟩
      · rename_i hi
        unfold issueSysInfo at hi
        rw [if_neg hi] at g
        exact ⟨_, rfl, g⟩
    · exact ⟨_, rfl, h⟩

theorem advance_total {m : Mod} (inv : Inv m) (h : Bnd m) (env : Env) (e : QEv) (he : e.sane) :
    ∃ m' o, advance m env (machine m env e) = some (m', o) ∧ Bnd m' := by
  obtain ⟨⟨n, upd, o⟩, hr, hb⟩ := machine_total inv h env e he
  have mv := machine_mv inv hr
  rw [hr]
  unfold advance
  dsimp only
  split
  · obtain ⟨m', o', hu⟩ := updateState_total mv.noN hb.cl env
    rw [hu]
    have u := updateState_spec hu
    exact ⟨m', _, rfl, u.1.bnd hb u.2.1⟩
  · exact ⟨_, _, rfl, hb⟩

theorem prepared_bnd {m : Mod} (h : Bnd m) (hs : m.sock = false) (env : Env) : Bnd (prepared m env) := by
  have r := runControl_state
    { m with phase := true, nextPoll := env.now, query := .sleepDis, state := { m.state with unsafe_ := false } } env
  obtain ⟨r1, r2, r3, r4, r5, r6⟩ := r
  unfold prepared
  dsimp only
  refine ⟨by dsimp only; rw [r1]; exact h.lenS, by dsimp only; rw [r1]; exact h.lenS, by dsimp only; rw [r1]; exact h.numS,
    by dsimp only; rw [r1]; exact h.numS, by dsimp only; rw [r4]; simp, fun _ => ?_, by dsimp only; rw [r5]; exact h.cl⟩
  dsimp only
  cases hk : (runControl { m with phase := true, nextPoll := env.now, query := .sleepDis, state := { m.state with unsafe_ := false } } env).1.sock with
  | false => rfl
  | true => have := r6 hk; rw [hs] at this; cases this

end Verif.Crny
