import Verif.Crny.Bounds
import Verif.Crny.Spec

/-!
# A poll answered truthfully
-/

set_option linter.unusedVariables false
set_option linter.unusedSimpArgs false

namespace Verif.Crny

/-- Waiting for the datum of a source, in the course of a poll. -/
structure Rd (srcs : List Source) (m : Mod) : Prop where
  inv : Inv m
  bnd : Bnd m
  sock : m.sock = true
  query : m.query = .datum
  cmd : m.reqCmd = 15
  num : m.next.numPeers = srcs.length
  cand : (m.next.peers.take m.srcIdx).any Peer.candidate = (srcs.take m.srcIdx).any Source.server

/-- A source that chronyd has an address of, and no reference clock. -/
def Plain (s : Source) : Prop := s.refClock = false ∧ s.unresolved = false

theorem advance_quiet {m n : Mod} {env : Env} {o : List Out} (h : n.next.st = n.state.st) :
    advance m env (some (n, false, o)) = some (n, o) := by
  unfold advance
  simp [h]

theorem late_traffic (m : Mod) (now : Int) (r : Reply) : (QEv.traffic r).late m now = .traffic r := by
  simp [QEv.late]

theorem issue_ok {m : Mod} {env : Env} (h : m.sock = true) (he : env.send = .ok) :
    issue m env = ({ m with expiry := env.now + 2000000000 }, true, [.sent m.reqCmd m.reqSeq m.srcIdx]) := by
  unfold issue
  rw [if_neg (fun x => x h)]
  dsimp only
  rw [he]

/-- After the datum. -/
def afterDatum (s : Source) (m : Mod) (e : Env) : Mod :=
  { m with next := { m.next with peers := m.next.peers.set m.srcIdx .zero }, srcMode := if s.refClock then 2 else 0,
           srcNoAddr := s.unresolved, reqCmd := 34, reqSeq := e.rand, expiry := e.now + 2000000000, query := .stats }

theorem step_datum {srcs : List Source} {s : Source} {m : Mod} (h : Rd srcs m) (hs : srcs[m.srcIdx]? = some s) {e : Env}
    (he : e.send = .ok) :
    step m (.traffic e (answer srcs (15, m.reqSeq, m.srcIdx))) = some (afterDatum s m e, [.sent 34 e.rand m.srcIdx]) := by
  have hi := h.bnd.idx (Or.inl h.query)
  have hl := h.bnd.lenN
  have hn := h.bnd.numN
  have ha : answer srcs (15, m.reqSeq, m.srcIdx) =
      ⟨0, m.reqSeq, 3, 15, 0, s.code, if s.refClock then 2 else 0, s.unresolved, 0, 0⟩ := by
    simp [answer, hs]
  rw [ha]
  simp only [step, h.sock, if_true, machine, late_traffic, h.query, atDatum, handleDatum, valid, h.cmd, decide_true, Bool.and_self]
  rw [setPeer_total (by omega)]
  simp only [issueStats]
  rw [setPeer_total (by simp; omega)]
  simp only [initReq, List.set_set, Option.map_some]
  rw [issue_ok (by exact h.sock) he]
  simp only [goOn, if_true]
  rw [advance_quiet (by exact h.inv.st)]
  rfl

/-- After the statistics. -/
def afterStats (s : Source) (m : Mod) (e : Env) : Mod :=
  { m with next := { m.next with peers := m.next.peers.set m.srcIdx { Peer.zero with meas := s.meas } }, reqCmd := 57,
           reqSeq := e.rand, expiry := e.now + 2000000000, query := .ntp }

theorem step_stats {srcs : List Source} {s : Source} {m : Mod} (h : Rd srcs m) (hs : srcs[m.srcIdx]? = some s)
    (hp : Plain s) {e e' : Env} (he : e'.send = .ok) :
    step (afterDatum s m e) (.traffic e' (answer srcs (34, e.rand, m.srcIdx))) =
      some (afterStats s (afterDatum s m e) e', [.sent 57 e'.rand m.srcIdx]) := by
  have hi := h.bnd.idx (Or.inl h.query)
  have hl := h.bnd.lenN
  have hn := h.bnd.numN
  have ha : answer srcs (34, e.rand, m.srcIdx) = ⟨0, e.rand, 6, 34, 0, 0, 0, false, s.meas, 0⟩ := by
    simp [answer, hs]
  rw [ha]
  have hsk : (afterDatum s m e).sock = true := h.sock
  have hst : (afterDatum s m e).next.st = (afterDatum s m e).state.st := h.inv.st
  have hq : (afterDatum s m e).query = .stats := rfl
  have hx : (afterDatum s m e).srcIdx < (afterDatum s m e).next.peers.length := by simp [afterDatum]; omega
  have hv : valid (afterDatum s m e) ⟨0, e.rand, 6, 34, 0, 0, 0, false, s.meas, 0⟩ 6 = true := by
    simp [valid, afterDatum]
  simp only [step, hsk, if_true, machine, late_traffic, hq, atStats, handleStats, hv]
  rw [setPeer_total hx]
  have h1 : (afterDatum s m e).srcMode = 0 := by simp [afterDatum, hp.1]
  have h2 : (afterDatum s m e).srcNoAddr = false := hp.2
  simp only [h1, h2, initReq]
  rw [if_neg (by decide)]
  simp only [Bool.not_false]
  rw [issue_ok (by exact hsk) he]
  simp only [goOn, if_true]
  rw [advance_quiet (by exact hst)]
  simp [afterStats, afterDatum, hp.1, hp.2]

/-- The peer recorded for a source. -/
def recorded (s : Source) : Peer := ⟨false, false, s.server, false, s.meas⟩

theorem handleNtp_ok {srcs : List Source} {s : Source} {m : Mod} (h : Rd srcs m) {e e' : Env} :
    handleNtp (afterStats s (afterDatum s m e) e') ⟨0, e'.rand, 16, 57, 0, 0, 0, false, s.meas, if s.server then 4 else 3⟩ =
      some { afterStats s (afterDatum s m e) e' with
        next := { m.next with peers := m.next.peers.set m.srcIdx (recorded s) } } := by
  have hi := h.bnd.idx (Or.inl h.query)
  have hl := h.bnd.lenN
  have hn := h.bnd.numN
  have hv : valid (afterStats s (afterDatum s m e) e')
      ⟨0, e'.rand, 16, 57, 0, 0, 0, false, s.meas, if s.server then 4 else 3⟩ 16 = true := by
    simp [valid, afterStats]
  unfold handleNtp
  rw [if_pos hv, setPeer_total (by simp [afterStats, afterDatum]; omega)]
  cases hc : s.server <;> simp [afterStats, afterDatum, recorded, hc, Peer.zero]

theorem take_set_any (l : List Peer) (i : Nat) (p : Peer) (h : i < l.length) :
    ((l.set i p).take (i + 1)).any Peer.candidate = ((l.take i).any Peer.candidate || p.candidate) := by
  rw [List.take_add_one, List.take_set_of_le (Nat.le_refl i), List.getElem?_set_self h]
  simp [List.any_append]

theorem take_succ_any (l : List Source) (i : Nat) (s : Source) (h : l[i]? = some s) :
    (l.take (i + 1)).any Source.server = ((l.take i).any Source.server || s.server) := by
  rw [List.take_add_one, h]
  simp [List.any_append]

/-- The module when the poll is over. -/
structure Over (srcs : List Source) (m : Mod) : Prop where
  inv : Inv m
  bnd : Bnd m
  st : m.state.st = if srcs.any Source.server then .selection else .listening
  query : m.query = .sleepCon

theorem lastSent_none {o : List Out} (h : ∀ x ∈ o, ∀ c s i, x ≠ .sent c s i) : lastSent o = none := by
  unfold lastSent
  rw [List.filterMap_eq_nil_iff.2]
  · rfl
  · intro x hx
    cases x with
    | sent c s i => exact absurd rfl (h _ hx c s i)
    | _ => rfl

theorem Rd.aux {srcs : List Source} {m : Mod} (h : Rd srcs m) {s : Source} (hs : srcs[m.srcIdx]? = some s) (e e' : Env) :
    NoSel { m.next with peers := m.next.peers.set m.srcIdx (recorded s) } :=
  ⟨h.inv.noN.st, set_clear h.inv.noN.peers ⟨rfl, rfl, rfl⟩⟩

/-- The three answers about one source, not the last. -/
theorem source_more {srcs : List Source} {s : Source} {m : Mod} (h : Rd srcs m) (hs : srcs[m.srcIdx]? = some s)
    (hp : Plain s) (hm : m.srcIdx + 1 < srcs.length) {e e' e'' : Env} (he : e.send = .ok) (he' : e'.send = .ok)
    (he'' : e''.send = .ok) (es : List Env) :
    ∃ m', Rd srcs m' ∧ m'.srcIdx = m.srcIdx + 1 ∧ m'.state = m.state ∧
      talk srcs m [.sent 15 m.reqSeq m.srcIdx] (e :: e' :: e'' :: es) =
        talk srcs m' [.sent 15 m'.reqSeq m'.srcIdx] es := by
  have hi := h.bnd.idx (Or.inl h.query)
  have hl := h.bnd.lenN
  have hn := h.bnd.numN
  have hnum := h.num
  have ha : answer srcs (57, e'.rand, m.srcIdx) = ⟨0, e'.rand, 16, 57, 0, 0, 0, false, s.meas, if s.server then 4 else 3⟩ := by
    simp [answer, hs]
  have hst : step (afterStats s (afterDatum s m e) e') (.traffic e'' (answer srcs (57, e'.rand, m.srcIdx))) =
      some ({ afterStats s (afterDatum s m e) e' with
        next := { m.next with peers := (m.next.peers.set m.srcIdx (recorded s)).set (m.srcIdx + 1) .zero },
        srcIdx := m.srcIdx + 1, reqCmd := 15, reqSeq := e''.rand, expiry := e''.now + 2000000000, query := .datum },
        [.sent 15 e''.rand (m.srcIdx + 1)]) := by
    rw [ha]
    have hsk : (afterStats s (afterDatum s m e) e').sock = true := h.sock
    have hq : (afterStats s (afterDatum s m e) e').query = .ntp := rfl
    simp only [step, hsk, if_true, machine, late_traffic, hq, atNtp]
    rw [handleNtp_ok h]
    simp only [nextSource]
    rw [if_neg (by simp only [afterStats, afterDatum]; omega)]
    simp only [issueDatum]
    rw [setPeer_total (by simp [afterStats, afterDatum]; omega)]
    simp only [initReq, Option.map_some]
    rw [issue_ok (by exact hsk) he'']
    simp only [goOn, if_true]
    rw [advance_quiet (by exact h.inv.st)]
    simp [afterStats, afterDatum, h.sock]
  refine ⟨{ afterStats s (afterDatum s m e) e' with
        next := { m.next with peers := (m.next.peers.set m.srcIdx (recorded s)).set (m.srcIdx + 1) .zero },
        srcIdx := m.srcIdx + 1, reqCmd := 15, reqSeq := e''.rand, expiry := e''.now + 2000000000, query := .datum }, ?_, rfl, rfl, ?_⟩
  · refine ⟨⟨h.inv.noS, ⟨h.inv.noN.st, set_clear (set_clear h.inv.noN.peers ⟨rfl, rfl, rfl⟩) zero_clear⟩, h.inv.cc, h.inv.st⟩,
      ⟨h.bnd.lenS, by simpa using hl, h.bnd.numS, h.bnd.numN, fun _ => by dsimp only; omega, by simp, h.bnd.cl⟩, h.sock, rfl, rfl, h.num, ?_⟩
    dsimp only
    rw [List.take_set_of_le (Nat.le_refl _), take_set_any _ _ _ (by omega), take_succ_any _ _ _ hs, h.cand]
    rfl
  · have t1 : lastSent [.sent 15 m.reqSeq m.srcIdx] = some (15, m.reqSeq, m.srcIdx) := rfl
    have t2 : lastSent [.sent 34 e.rand m.srcIdx] = some (34, e.rand, m.srcIdx) := rfl
    have t3 : lastSent [.sent 57 e'.rand m.srcIdx] = some (57, e'.rand, m.srcIdx) := rfl
    simp only [talk, t1, step_datum h hs he, t2, step_stats h hs hp he', t3, hst]

/-- The effects of an update are no requests. -/
theorem updateState_quiet {m m' : Mod} {env : Env} {o : List Out} (hcc : m.next.cc = m.state.cc)
    (hn : NoSel m.next) (hc : m.flags.cluster = false)
    (h : updateState m env = some (m', o)) : ∀ x ∈ o, ∃ st mu ca, x = .told st mu ca := by
  have u := updateState_spec h
  obtain ⟨u1, u2, u3, u4, u5, u6, o1, o2, rfl, h1, h2⟩ := u
  have hci : changeIf m env = (m, []) := by
    unfold changeIf
    rw [if_neg (by simpa using hcc)]
  rw [hci] at h2 ⊢
  have hst : m'.next.st ≠ .slave := by rw [u1.next.st]; exact hn.st
  have ho1 : o1 = [] := by
    rcases h1 with rfl | h1
    · rfl
    · rw [rtStats_off hst] at h1
      simpa using h1.symm
  have ho2 : o2 = [] := by
    rcases h2 with rfl | h2
    · rfl
    · rw [clustering_off (by rw [(stateChange_kept m).flags]; exact hc)] at h2
      simpa using h2.symm
  subst ho1 ho2
  intro x hx
  simp only [List.nil_append, List.append_nil, stateChange_outs] at hx
  split at hx
  · exact ⟨_, _, _, List.mem_singleton.1 hx⟩
  · cases hx

/-- The three answers about the last source. -/
theorem source_last {srcs : List Source} {s : Source} {m : Mod} (h : Rd srcs m) (hs : srcs[m.srcIdx]? = some s)
    (hp : Plain s) (hm : m.srcIdx + 1 = srcs.length) {e e' e'' : Env} (he : e.send = .ok) (he' : e'.send = .ok)
    (es : List Env) :
    ∃ m' o, Over srcs m' ∧ (∀ x ∈ o, ∃ st mu ca, x = .told st mu ca) ∧
      talk srcs m [.sent 15 m.reqSeq m.srcIdx] (e :: e' :: e'' :: es) = some (m', o) ∧
      (m'.state.st ≠ m.state.st → ∃ mu ca, .told m'.state.st mu ca ∈ o) := by
  have hi := h.bnd.idx (Or.inl h.query)
  have hl := h.bnd.lenN
  have hn := h.bnd.numN
  have hnum := h.num
  have ha : answer srcs (57, e'.rand, m.srcIdx) = ⟨0, e'.rand, 16, 57, 0, 0, 0, false, s.meas, if s.server then 4 else 3⟩ := by
    simp [answer, hs]
  have nos := h.aux hs e e'
  have hsk : (afterStats s (afterDatum s m e) e').sock = true := h.sock
  have hq : (afterStats s (afterDatum s m e) e').query = .ntp := rfl
  have hany : ((m.next.peers.set m.srcIdx (recorded s)).take m.next.numPeers).any Peer.candidate = srcs.any Source.server := by
    rw [hnum, ← hm, take_set_any _ _ _ (by omega), h.cand]
    have := take_succ_any srcs m.srcIdx s hs
    rw [hm, List.take_length] at this
    rw [this]
    rfl
  let n : Mod := { afterStats s (afterDatum s m e) e' with
    next := { m.next with
      peers := m.next.peers.set m.srcIdx (recorded s), st := if srcs.any Source.server then .selection else .listening, sel := -1, meas := some none },
    srcIdx := m.srcIdx + 1, query := .sleepCon }
  have hmach : machine (afterStats s (afterDatum s m e) e') e'' (.traffic (answer srcs (57, e'.rand, m.srcIdx))) =
      some (n, true, []) := by
    rw [ha]
    simp only [machine, late_traffic, hq, atNtp]
    rw [handleNtp_ok h]
    simp only [nextSource]
    rw [if_pos (by simp only [afterStats, afterDatum]; omega)]
    rw [parse_nosel nos.peers, if_pos (by exact hn)]
    dsimp only
    rw [hany]
    rfl
  have nn : NoSel n.next := ⟨by show (if _ then _ else _) ≠ _; split <;> simp, nos.peers⟩
  obtain ⟨m', o, hu⟩ := updateState_total (m := n) nn h.bnd.cl e''
  have us := updateState_spec hu
  have uq := updateState_quiet (m := n) h.inv.cc nn h.bnd.cl hu
  have hstep : step (afterStats s (afterDatum s m e) e') (.traffic e'' (answer srcs (57, e'.rand, m.srcIdx))) = some (m', o) := by
    simp only [step, hsk, if_true]
    rw [hmach]
    simp [advance, hu]
  have hb : Bnd n := ⟨h.bnd.lenS, by show (m.next.peers.set _ _).length = 32; simpa using hl, h.bnd.numS, h.bnd.numN, by simp [n], by simp [n], h.bnd.cl⟩
  refine ⟨m', o, ⟨⟨?_, ?_, ?_, ?_⟩, us.1.bnd hb us.2.1, ?_, us.1.query⟩, uq, ?_, ?_⟩
  · rw [us.2.1]; exact nn.alike us.1.next
  · exact nn.alike us.1.next
  · rw [us.2.1]
  · rw [us.2.1]
  · rw [us.2.1, us.1.next.st]
  · have t1 : lastSent [.sent 15 m.reqSeq m.srcIdx] = some (15, m.reqSeq, m.srcIdx) := rfl
    have t2 : lastSent [.sent 34 e.rand m.srcIdx] = some (34, e.rand, m.srcIdx) := rfl
    have t3 : lastSent [.sent 57 e'.rand m.srcIdx] = some (57, e'.rand, m.srcIdx) := rfl
    have hls : lastSent o = none := lastSent_none (fun x hx c s i hxe => by
      obtain ⟨st, mu, ca, hh⟩ := uq x hx
      rw [hh] at hxe; cases hxe)
    simp only [talk, t1, step_datum h hs he, t2, step_stats h hs hp he', t3, hstep]
    cases es with
    | nil => rfl
    | cons f fs => simp only [talk, hls]
  · intro hne
    obtain ⟨o1, o2, ho, -, -⟩ := us.2.2.2.2.2.2
    have hcc : n.next.cc = n.state.cc := h.inv.cc
    have hci : changeIf n e'' = (n, []) := by
      unfold changeIf
      rw [if_neg (by simpa using hcc)]
    rw [ho]
    rw [hci]
    have hd : n.next.st ≠ n.state.st := by
      rw [us.2.1, us.1.next.st] at hne
      exact hne
    refine ⟨(stateChange n).1.must, (stateChange n).1.cannot, ?_⟩
    apply List.mem_append_right
    rw [us.2.1, us.1.next.st]
    rw [stateChange_outs, if_pos (Or.inl hd)]
    exact List.mem_singleton.2 rfl

/-- All sources from one on. -/
theorem sources {srcs : List Source} (hpl : ∀ s ∈ srcs, Plain s) (k : Nat) {m : Mod} (h : Rd srcs m)
    (hk : m.srcIdx + k + 1 = srcs.length) (es : List Env) (hes : ∀ e ∈ es, e.send = .ok) (hlen : 3 * (k + 1) ≤ es.length) :
    ∃ m' o, Over srcs m' ∧ (∀ x ∈ o, ∃ st mu ca, x = .told st mu ca) ∧
      talk srcs m [.sent 15 m.reqSeq m.srcIdx] es = some (m', o) ∧
      (m'.state.st ≠ m.state.st → ∃ mu ca, .told m'.state.st mu ca ∈ o) := by
  induction k generalizing m es with
  | zero =>
    match es, hlen with
    | e :: e' :: e'' :: es, _ =>
      have hlt : m.srcIdx < srcs.length := by omega
      exact source_last h (List.getElem?_eq_getElem hlt) (hpl _ (List.getElem_mem hlt)) (by omega)
        (hes e (by simp)) (hes e' (by simp)) es
  | succ k ih =>
    match es, hlen with
    | e :: e' :: e'' :: es, hlen =>
      have hlt : m.srcIdx < srcs.length := by omega
      obtain ⟨m', hr, hidx, hst, ht⟩ := source_more h (List.getElem?_eq_getElem hlt) (hpl _ (List.getElem_mem hlt)) (by omega)
        (hes e (by simp)) (hes e' (by simp)) (hes e'' (by simp)) es
      rw [ht, ← hst]
      exact ih hr (by omega) es (fun e he => hes e (by simp [he])) (by simp at hlen; omega)

/-- Just after the request that opens a poll. -/
structure Opening (m : Mod) (o : List Out) : Prop where
  query : m.query = .sysInfo
  sock : m.sock = true
  sent : ∃ i, lastSent o = some (33, m.reqSeq, i)

/-- The two answers that open a poll. -/
theorem opening {srcs : List Source} {m : Mod} (inv : Inv m) (h : Bnd m) {o : List Out} (ho : Opening m o)
    (hn : srcs.length ≤ 32) {p : Proc} (hp : m.state.cc = decide (p = .normal)) {e e' : Env} (he : Steady p e)
    (he' : Steady p e') (es : List Env) :
    (srcs = [] → ∃ m', m'.state = m.state ∧ talk srcs m o (e :: e' :: es) = some (m', [])) ∧
    (srcs ≠ [] → ∃ m', Rd srcs m' ∧ m'.srcIdx = 0 ∧ m'.state = m.state ∧
      talk srcs m o (e :: e' :: es) = talk srcs m' [.sent 15 m'.reqSeq 0] es) := by
  obtain ⟨i, hi⟩ := ho.sent
  have hl := h.lenN
  -- the answer to the tracking request
  let m1 : Mod := { m with
    must := !m.conf.control && decide (p = .normal), cannot := !m.conf.control && decide (p = .minusX), running := decide (p ≠ .absent), reqCmd := 14, reqSeq := e.rand, expiry := e.now + 2000000000, query := .count }
  have hnc : nextControl m p = ({ m with
      must := !m.conf.control && decide (p = .normal), cannot := !m.conf.control && decide (p = .minusX), running := decide (p ≠ .absent) }, false) := by
    unfold nextControl look
    dsimp only
    rw [if_neg (by simpa using hp)]
  have h1 : step m (.traffic e (answer srcs (33, m.reqSeq, i))) = some (m1, [.saw p, .sent 14 e.rand m.srcIdx]) := by
    simp only [step, ho.sock, if_true, machine, late_traffic, ho.query, atSysInfo, he.2]
    rw [hnc]
    simp only [initReq]
    rw [issue_ok (by exact ho.sock) he.1]
    simp only [goOn, if_true]
    rw [advance_quiet (by exact inv.st)]
  have t1 : lastSent [.saw p, .sent 14 e.rand m.srcIdx] = some (14, e.rand, m.srcIdx) := rfl
  have hv : valid m1 ⟨0, e.rand, 2, 14, srcs.length, 0, 0, false, 0, 0⟩ 2 = true := by simp [valid, m1]
  have ha : answer srcs (14, e.rand, m.srcIdx) = ⟨0, e.rand, 2, 14, srcs.length, 0, 0, false, 0, 0⟩ := rfl
  have hu : toU32 (if (srcs.length : Int) > 32 then 32 else (srcs.length : Int)) = srcs.length := by
    unfold toU32
    rw [if_neg (by omega)]
    omega
  have hh : handleCount m1 ⟨0, e.rand, 2, 14, srcs.length, 0, 0, false, 0, 0⟩ =
      { m1 with next := { m1.next with numPeers := srcs.length } } := by
    unfold handleCount
    rw [if_pos hv]
    dsimp only
    rw [hu]
  have hsk : m1.sock = true := ho.sock
  have hq : m1.query = .count := rfl
  constructor
  · rintro rfl
    refine ⟨{ m1 with next := { m1.next with numPeers := 0 }, query := .sleepCon }, rfl, ?_⟩
    have h2 : step m1 (.traffic e' (answer [] (14, e.rand, m.srcIdx))) =
        some ({ m1 with next := { m1.next with numPeers := 0 }, query := .sleepCon }, []) := by
      rw [ha]
      simp only [step, hsk, if_true, machine, late_traffic, hq, atCount]
      rw [hh]
      simp only [List.length_nil, Nat.lt_irrefl, if_false, gt_iff_lt]
      rw [advance_quiet (by exact inv.st)]
      simp [m1, ho.sock]
    simp only [talk, hi, h1, t1, h2]
    cases es with
    | nil => rfl
    | cons f fs => rfl
  · intro hne
    have hpos : 0 < srcs.length := List.length_pos_iff.2 hne
    let m2 : Mod := { m1 with
      next := { m1.next with numPeers := srcs.length, peers := m.next.peers.set 0 .zero }, srcIdx := 0, reqCmd := 15, reqSeq := e'.rand, expiry := e'.now + 2000000000, query := .datum }
    have h2 : step m1 (.traffic e' (answer srcs (14, e.rand, m.srcIdx))) = some (m2, [.sent 15 e'.rand 0]) := by
      rw [ha]
      simp only [step, hsk, if_true, machine, late_traffic, hq, atCount]
      rw [hh]
      dsimp only
      rw [if_pos (by exact hpos)]
      simp only [issueDatum]
      rw [setPeer_total (by show 0 < m.next.peers.length; omega)]
      simp only [initReq, Option.map_some]
      rw [issue_ok (by exact hsk) he'.1]
      simp only [goOn, if_true]
      rw [advance_quiet (by exact inv.st)]
    refine ⟨m2, ⟨⟨inv.noS, ⟨inv.noN.st, set_clear inv.noN.peers zero_clear⟩, inv.cc, inv.st⟩,
      ⟨h.lenS, by show (m.next.peers.set _ _).length = 32; simpa using hl, h.numS, hn, fun _ => hpos, by simp [m2], h.cl⟩, ho.sock, rfl, rfl, rfl, rfl⟩, rfl, rfl, ?_⟩
    simp only [talk, hi, h1, t1, h2]
    rfl

/-- A poll answered truthfully by a chronyd with sources that have addresses. -/
theorem poll_over {srcs : List Source} (hpl : ∀ s ∈ srcs, Plain s) {m : Mod} (inv : Inv m) (h : Bnd m) {o : List Out}
    (ho : Opening m o) (hne : srcs ≠ []) (hn : srcs.length ≤ 32) {p : Proc} (hp : m.state.cc = decide (p = .normal))
    (es : List Env) (hes : ∀ e ∈ es, Steady p e) (hlen : 2 + 3 * srcs.length ≤ es.length) :
    ∃ m' o', Over srcs m' ∧ talk srcs m o es = some (m', o') ∧
      (m'.state.st ≠ m.state.st → ∃ mu ca, .told m'.state.st mu ca ∈ o') := by
  match es, hlen with
  | [], hlen => simp at hlen
  | [_], hlen => simp at hlen; omega
  | e :: e' :: es, hlen =>
    have hpos : 0 < srcs.length := List.length_pos_iff.2 hne
    obtain ⟨m1, hr, hi, hst, ht⟩ := (opening inv h ho hn hp (hes e (by simp)) (hes e' (by simp)) es).2 hne
    obtain ⟨m', o', h1, h2, h3, h4⟩ := sources hpl (srcs.length - 1) hr (by omega) es (fun e he => (hes e (by simp [he])).1) (by simp at hlen; omega)
    rw [hi] at h3
    exact ⟨m', o', h1, ht.trans h3, hst ▸ h4⟩

end Verif.Crny
