import Verif.Slave.Props

/-!
# Properties of a slave: completeness, times and timers
-/

set_option linter.unusedSimpArgs false
set_option linter.unusedVariables false

namespace Verif.Slave

open Verif.Time

/-! ## C50, completeness -/

/-- Whether the response comes before the timestamp or after, with any messages
around that are not responses to this port, there is a measurement. -/
def C50_order_statement : Prop :=
  ∀ c s m1 m2 tk loop raw h len w s' tr,
    s.port = .slave → s.mech = .e2e → s.reqTimer = true → h.src = s.parent → h.src ≠ c.self →
    h.seq = (s.sentSeq + 1) % 65536 → 54 ≤ len → len - 34 ≤ c.stashSize →
    (∀ x ∈ m1, NotForUs c x) → (∀ x ∈ m2, NotForUs c x) →
    (run c s (.reqExpired (.sent (some tk)) :: (m1 ++ .txTime loop h.seq tk raw ::
        (m2 ++ [.delayResp h len w c.self]))) = some (s', tr) ∨
     run c s (.reqExpired (.sent (some tk)) :: (m1 ++ .delayResp h len w c.self ::
        (m2 ++ [.txTime loop h.seq tk raw]))) = some (s', tr)) →
    ∃ e send recv corr, tr.getLast? = some e ∧ e.outs = [.s2m send recv corr]

/-- A slave that has got a Sync. -/
def exSlave : State :=
  { init .e2e exP1 exMe with
      port := .slave, utc := ⟨true, 37, 0, true⟩, reqTimer := true }

/-- The response to another slave, received between the response and the
timestamp, loses the measurement. -/
theorem C50_order_violated : ¬ C50_order_statement := by
  intro hh
  have key : ((run exCfg exSlave [exReq 3, exResp exP1 1 exMe, exResp exP1 1 exP2,
      exTx 1 3]).map fun r => r.2.getLast?.map Entry.outs) = some (some []) := by decide +kernel
  cases hr : run exCfg exSlave [exReq 3, exResp exP1 1 exMe, exResp exP1 1 exP2, exTx 1 3] with
  | none => rw [hr] at key; cases key
  | some r =>
    rw [hr] at key
    obtain ⟨e, send, recv, corr, h1, h2⟩ := hh exCfg exSlave [] [exResp exP1 1 exP2] ⟨3, 5⟩ false
      ⟨1000, 700, 0⟩ ⟨exP1, 1, false, 65536⟩ 54 ⟨1037, 900⟩ r.1 r.2 rfl rfl rfl rfl (by decide)
      (by decide) (by decide) (by decide) (by simp)
      (by simp [exResp, NotForUs]; decide) (.inr hr)
    simp only [Option.map_some, h1, Option.some.injEq] at key
    rw [key] at h2
    cases h2

theorem last_of {α : Type} (a : List α) (b : α) (l : List α) (x : α) :
    (a ++ b :: (l ++ [x])).getLast? = some x := by
  have : a ++ b :: (l ++ [x]) = (a ++ b :: l) ++ [x] := by simp
  rw [this, List.getLast?_concat]

/-- What is missing: between a response that came first and the timestamp, only
Syncs and Follow_Ups are harmless. -/
theorem C50_order_partial (c : Cfg) (s : State) (m1 m2 : List Event) (tk : Ticket) (loop : Bool)
    (raw : Ts) (h : Hdr) (len : Nat) (w : Wire) (s' : State) (tr : List Entry)
    (hp : s.port = .slave) (hm : s.mech = .e2e) (ht : s.reqTimer = true) (hsrc : h.src = s.parent)
    (hself : h.src ≠ c.self) (hseq : h.seq = (s.sentSeq + 1) % 65536) (hl : 54 ≤ len)
    (hz : len - 34 ≤ c.stashSize) (h1 : ∀ x ∈ m1, NotForUs c x)
    (h2 : ∀ x ∈ m2, NotForUs c x)
    (hr : run c s (.reqExpired (.sent (some tk)) :: (m1 ++ .txTime loop h.seq tk raw ::
        (m2 ++ [.delayResp h len w c.self]))) = some (s', tr) ∨
      ((∀ x ∈ m2, SyncLike x) ∧
       run c s (.reqExpired (.sent (some tk)) :: (m1 ++ .delayResp h len w c.self ::
        (m2 ++ [.txTime loop h.seq tk raw]))) = some (s', tr))) :
    ∃ e send recv corr, tr.getLast? = some e ∧ e.outs = [.s2m send recv corr] := by
  have issue : ∀ es, run c s (.reqExpired (.sent (some tk)) :: (m1 ++ es)) = some (s', tr) →
      ∃ m t1 t2, run c m es = some (s', t2) ∧ tr = t1 ++ t2 ∧ m.sentSeq = h.seq ∧
        m.txPending = true ∧ m.rxPending = true ∧ m.ticket = some tk ∧ m.port = .slave ∧
        m.mech = .e2e ∧ m.parent = s.parent := by
    intro es hr
    obtain ⟨u, o, t, k1, k2, k3⟩ := run_cons hr
    simp only [step] at k1
    rw [if_pos ⟨by simp [slaveLike, hp], hm, ht⟩] at k1
    simp only [Option.some.injEq, Prod.mk.injEq] at k1
    obtain ⟨rfl, rfl⟩ := k1
    obtain ⟨m, t1, t2, j1, j2, j3⟩ := run_append k2
    obtain ⟨a1, a2, -⟩ := run_notForUs h1 j1
    obtain ⟨d1, d2, d3, d4, d5, d6⟩ := dPart_eq a1
    obtain ⟨e1, e2, e3, e4⟩ := role_eq a2
    exact ⟨m, _ :: t1, t2, j2, by rw [k3, j3]; rfl, d1.trans hseq.symm, d2, d3, d4,
      e1.trans hp, e3.trans hm, e2⟩
  rcases hr with hr | ⟨hn, hr⟩
  · obtain ⟨m, t1, t2, j1, j2, f1, f2, f3, f4, f5, f6, f7⟩ := issue _ hr
    obtain ⟨u, o, t, k1, k2, k3⟩ := run_cons j1
    simp only [step] at k1
    rw [if_pos ⟨f4, f1.symm⟩] at k1
    simp only [Option.bind_eq_bind] at k1
    cases hf : fromSelf c m (applyUtc c m (if loop = true then applyUtc c m raw else raw)) with
    | none => simp [hf] at k1
    | some p =>
      simp only [hf, Option.bind_some, Option.some.injEq, Prod.mk.injEq] at k1
      obtain ⟨rfl, rfl⟩ := k1
      obtain ⟨a1, a2, a3, a4, a5, a6, a7, a8, a9, a10, a11⟩ := fromSelf_result hf
      have hrx : p.1.rxPending = true := by
        rcases a11 with ⟨-, b, -⟩ | ⟨-, b, -⟩
        · exact b.trans f3
        · rw [f3] at b; cases b
      obtain ⟨v, t3, t4, l1, l2, l3⟩ := run_append k2
      obtain ⟨c1, c2, -⟩ := run_notForUs h2 l1
      obtain ⟨d1, d2, d3, d4, d5, d6⟩ := dPart_eq c1
      obtain ⟨e1, e2, e3, e4⟩ := role_eq c2
      simp only at d1 d2 d3 d4 d5 d6 e1 e2 e3 e4
      obtain ⟨o, n1, n2⟩ := run_one l2
      simp only [step] at n1
      rw [if_neg hself] at n1
      obtain ⟨corr, q⟩ := delayResp_used (s := { v with tmpTime := w, tmpReq := c.self }) hl (e3.trans (a5.trans f6)) (e1.trans (a3.trans f5)) rfl
        (hsrc.trans (f7.symm.trans (a4.symm.trans e2.symm)))
        (f1.symm.trans (a7.symm.trans d1.symm))
        (.inr ⟨d3.trans hrx, d2.trans a8⟩) n1
      refine ⟨⟨v, .delayResp h len w c.self, o⟩, v.dSend, toInternalTime w, corr, ?_, q⟩
      rw [j2, k3, l3, n2]
      exact last_of _ _ _ _
  · obtain ⟨m, t1, t2, j1, j2, f1, f2, f3, f4, f5, f6, f7⟩ := issue _ hr
    obtain ⟨u, o, t, k1, k2, k3⟩ := run_cons j1
    simp only [step] at k1
    rw [if_neg hself] at k1
    obtain ⟨b1, b2, b3⟩ := delayResp_kept (s := { m with tmpTime := w, tmpReq := c.self }) hl hz f6 f5
      rfl (hsrc.trans f7.symm) f3 f2 k1
    obtain ⟨a1, a2, a3, a4, a5, a6, a7, a8, a9, a10, -⟩ := handleDelayResp_result k1
    simp only at a3 a4 a5 a7 a8 a9 b1 b2 b3
    obtain ⟨v, t3, t4, l1, l2, l3⟩ := run_append k2
    obtain ⟨c1, c2, c3⟩ := run_notForUs h2 l1
    have c3 := c3 hn
    obtain ⟨d1, d2, d3, d4, d5, d6⟩ := dPart_eq c1
    obtain ⟨e1, e2, e3, e4⟩ := role_eq c2
    obtain ⟨o', n1, n2⟩ := run_one l2
    simp only [step] at n1
    rw [if_pos ⟨d4.trans (a9.trans f4), (d1.trans (a7.trans f1)).symm⟩] at n1
    simp only [Option.bind_eq_bind] at n1
    cases hf : fromSelf c v (applyUtc c v (if loop = true then applyUtc c v raw else raw)) with
    | none => simp [hf] at n1
    | some p =>
      simp only [hf, Option.bind_some, Option.some.injEq, Prod.mk.injEq] at n1
      obtain ⟨rfl, rfl⟩ := n1
      unfold fromSelf at hf
      simp only [Option.bind_eq_bind] at hf
      cases ha : add (applyUtc c v (if loop = true then applyUtc c v raw else raw)) c.outbound with
      | none => simp [ha] at hf
      | some d =>
        rw [ha] at hf
        simp only [Option.bind_some] at hf
        rw [if_neg (by simp [d2.trans (a8.trans f2)]), if_pos (by simp [d3.trans b2]),
          d6.trans b1] at hf
        simp only at hf
        obtain ⟨corr, q⟩ := delayResp_used
          (s := { v with dSend := d, txPending := false, stash := none }) (by omega) (e3.trans (a5.trans f6))
          (e1.trans (a3.trans f5)) (c3.trans b3) (hsrc.trans (f7.symm.trans (a4.symm.trans e2.symm)))
          (f1.symm.trans (a7.symm.trans d1.symm)) (.inl rfl) hf
        refine ⟨⟨v, .txTime loop h.seq tk raw, p.2⟩, d, toInternalTime w, corr, ?_, q⟩
        rw [j2, k3, l3, n2]
        exact last_of _ _ _ _

example : ((run exCfg exSlave [exReq 3, exResp exP1 1 exP2, exTx 1 3, exResp exP1 1 exP2,
      exResp exP1 1 exMe]).map fun r => r.2.getLast?.map Entry.outs) =
      some (some [.s2m ⟨1037, 750, 0⟩ ⟨1037, 900, 0⟩ ⟨0, 1, 0⟩]) ∧
    ((run exCfg exSlave [exReq 3, exResp exP1 1 exP2, exResp exP1 1 exMe, exSync exP2 3 0,
      exTx 1 3]).map fun r => r.2.getLast?.map Entry.outs) =
      some (some [.s2m ⟨1037, 750, 0⟩ ⟨1037, 900, 0⟩ ⟨0, 1, 0⟩]) := by
  decide +kernel

/-! ## C68 -/

/-- The transmit time of a measurement from slave to master is a timestamp taken
by the interface, moved once to the timescale of the master. -/
def C68_statement : Prop :=
  ∀ c mech parent es s tr pre e post send recv corr,
    SaneCfg c → (∀ x ∈ es, SaneEvent x) →
    run c (init mech parent c.self) es = some (s, tr) → tr = pre ++ e :: post →
    Out.s2m send recv corr ∈ e.outs →
    ∃ x ∈ pre ++ [e], ∃ loop n t raw, x.ev = .txTime loop n t raw ∧ Transmitted c x.before 1 raw send

/-- A Delay_Req whose timestamp is found by the looping back of the packet. -/
def exLooped : List Event :=
  exStart ++ [exSync exP1 7 0, exReq 3, .txTime true 1 ⟨3, 5⟩ ⟨1000, 700, 0⟩, exResp exP1 1 exMe]

/-- The events of a history and the UTC shifts seen. -/
def exShifts (c : Cfg) (es : List Event) : Option (List (Event × Int)) :=
  (run c (init .e2e exP1 c.self) es).map fun r =>
    r.2.map fun e => (e.ev, utcShift c e.before)

theorem C68_violated : ¬ C68_statement := by
  intro h
  obtain ⟨s, tr, pre, e, post, h1, h2, h3⟩ :=
    outs_mem (c := exCfg) (es := exLooped)
      (x := .s2m ⟨1074, 750, 0⟩ ⟨1037, 900, 0⟩ ⟨0, 1, 0⟩)
      ⟨[.s2m ⟨1074, 750, 0⟩ ⟨1037, 900, 0⟩ ⟨0, 1, 0⟩], by decide +kernel, by simp⟩
  have hsane : ∀ x ∈ exLooped, SaneEvent x := by
    simp [exLooped, exStart, exSync, exReq, exResp, SaneEvent, Corr64, SaneTs, Norm]
  obtain ⟨x, k1, loop, n, t, raw, k2, k3⟩ := h exCfg .e2e exP1 exLooped s tr pre e post _ _ _
    exCfg_sane hsane h1 h2 h3
  have sh : exShifts exCfg exLooped = some (exLooped.zip [0, 0, 0, 37, 37, 37, 37]) := by
    decide +kernel
  unfold exShifts at sh
  rw [h1] at sh
  simp only [Option.map_some, Option.some.injEq] at sh
  have hx : x ∈ tr := by
    rw [h2]
    simp only [List.mem_append, List.mem_singleton, List.mem_cons] at k1 ⊢
    tauto
  have hm := List.mem_map_of_mem (f := fun e => (Entry.ev e, utcShift exCfg e.before)) hx
  rw [sh, k2] at hm
  simp [exLooped, exStart, exSync, exReq, exResp] at hm
  obtain ⟨⟨rfl, rfl, rfl, rfl⟩, hu⟩ := hm
  unfold Transmitted at k3
  rw [hu] at k3
  simp [val, exCfg] at k3

/-- What is missing: a timestamp found by the looping back of the packet is moved
twice.  Those that come from the error queue are moved once. -/
theorem C68_partial (c : Cfg) (mech : Mech) (parent : PortId) (es : List Event) (s : State)
    (tr pre post : List Entry) (e : Entry) (send recv corr : Ts) (hc : SaneCfg c)
    (hs : ∀ x ∈ es, SaneEvent x) (hr : run c (init mech parent c.self) es = some (s, tr))
    (ht : tr = pre ++ e :: post) (hm : Out.s2m send recv corr ∈ e.outs) :
    ∃ x ∈ pre ++ [e], ∃ loop n t raw, x.ev = .txTime loop n t raw ∧
      (loop = false → Transmitted c x.before 1 raw send) ∧
      (loop = true → Transmitted c x.before 2 raw send) := by
  obtain ⟨a, q, b, tk, h1, h2, h3, ⟨x, hx, loop, t, raw, k1, k2, k3⟩, -⟩ :=
    C50_matched c mech parent es s tr pre post e send recv corr hc hs hr ht hm
  exact ⟨x, by rw [h1]; simp [hx], loop, _, t, raw, k1, k3⟩

example : exOuts exCfg exLooped = some [.s2m ⟨1074, 750, 0⟩ ⟨1037, 900, 0⟩ ⟨0, 1, 0⟩] := by
  decide +kernel

/-! ## C69 -/

/-- A two-step Sync and its Follow_Up, in either order, with anything between
them but Syncs and Follow_Ups of the same master, give a measurement. -/
def C69_statement : Prop :=
  ∀ c s mid h len w raw h' len' w' s' tr,
    s.port = .slave → h.src = s.parent → h'.src = s.parent → s.parent ≠ c.self →
    h.twoStep = true → h'.seq = h.seq → 44 ≤ len → 44 ≤ len' →
    (∀ x ∈ mid, Unrelated s.parent x) →
    (run c s (.sync h len w (some raw) :: (mid ++ [.followUp h' len' w'])) = some (s', tr) ∨
     run c s (.followUp h' len' w' :: (mid ++ [.sync h len w (some raw)])) = some (s', tr)) →
    ∃ e send recv corr, e ∈ tr ∧ Out.m2s send recv corr ∈ e.outs

/-- The Follow_Up of the Sync number 0 is forgotten if it comes first. -/
theorem C69_violated : ¬ C69_statement := by
  intro hh
  have key : ((run exCfg exSlave [exFollow exP1 0 0, exSync exP1 0 0]).map
      fun r => r.2.flatMap Entry.outs) = some [] := by decide +kernel
  cases hr : run exCfg exSlave [exFollow exP1 0 0, exSync exP1 0 0] with
  | none => rw [hr] at key; cases key
  | some r =>
    rw [hr] at key
    obtain ⟨e, send, recv, corr, h1, h2⟩ := hh exCfg exSlave [] ⟨exP1, 0, true, 0⟩ 44 ⟨0, 0⟩
      ⟨1000, 500, 0⟩ ⟨exP1, 0, false, 0⟩ 44 ⟨1037, 300⟩ r.1 r.2 rfl rfl rfl (by decide) rfl rfl
      (by decide) (by decide) (by simp) (.inr hr)
    simp only [Option.map_some, Option.some.injEq] at key
    have : Out.m2s send recv corr ∈ r.2.flatMap Entry.outs := List.mem_flatMap.mpr ⟨e, h1, h2⟩
    rw [key] at this
    cases this

/-- The Follow_Up also is forgotten if the previous Sync still waits for its own. -/
theorem C69_waiting :
    ((run exCfg exSlave [exSync exP1 6 0, exFollow exP1 7 0, exSync exP1 7 0]).map
      fun r => r.2.flatMap Entry.outs) = some [.missM2s] := by
  decide +kernel

theorem sPart_eq {s s' : State} (h : sPart s' = sPart s) :
    s'.waiting = s.waiting ∧ s'.recvSeq = s.recvSeq ∧ s'.recvTime = s.recvTime ∧
    s'.cacheHdr = s.cacheHdr ∧ s'.cacheBody = s.cacheBody := by
  simpa only [sPart, Prod.mk.injEq] using h

/-- What is missing: when the Follow_Up comes first, its sequence number must not
be 0 and no earlier Sync must be waiting. -/
theorem C69_partial (c : Cfg) (s : State) (mid : List Event) (h : Hdr) (len : Nat) (w : Wire)
    (raw : Ts) (h' : Hdr) (len' : Nat) (w' : Wire) (s' : State) (tr : List Entry)
    (hp : s.port = .slave) (hsrc : h.src = s.parent) (hsrc' : h'.src = s.parent)
    (hself : s.parent ≠ c.self) (h2 : h.twoStep = true) (hseq : h'.seq = h.seq) (hl : 44 ≤ len)
    (hl' : 44 ≤ len') (hm : ∀ x ∈ mid, Unrelated s.parent x)
    (hr : run c s (.sync h len w (some raw) :: (mid ++ [.followUp h' len' w'])) = some (s', tr) ∨
     (h.seq ≠ 0 ∧ s.waiting = false ∧
      run c s (.followUp h' len' w' :: (mid ++ [.sync h len w (some raw)])) = some (s', tr))) :
    ∃ e send recv corr, e ∈ tr ∧ Out.m2s send recv corr ∈ e.outs := by
  have follow : ∀ (v : State) (hd : Hdr) (ln : Nat) (wr : Wire) (d : Bool) (p : State × List Out),
      44 ≤ ln → v.port = .slave → hd.src = v.parent → v.waiting = true → hd.seq = v.recvSeq →
      handleFollowUp v hd ln wr d = some p → ∃ corr, p.2 = [.m2s (toInternalTime wr) v.recvTime corr] := by
    intro v hd ln wr d p k1 k2 k3 k4 k5 hf
    unfold handleFollowUp at hf
    rw [if_neg (by omega), if_neg (by simp [idle, k2]), if_pos (by simp [k2]),
      if_neg (by simp [isParent, k3])] at hf
    dsimp only at hf
    by_cases h5 : v.cacheHdr.seq ≠ 0 ∧ ¬ d = true
    · simp only [if_pos h5] at hf
      rw [if_neg (by simp [k4]), if_neg (by simp [k5])] at hf
      cases hc : fromNs16 hd.corr with
      | none => simp [hc] at hf
      | some corr =>
        simp only [hc, Option.bind_eq_bind, Option.bind_some, Option.some.injEq] at hf
        subst hf
        exact ⟨corr, rfl⟩
    · simp only [if_neg h5] at hf
      rw [if_neg (by simp [k4]), if_neg (by simp [k5])] at hf
      cases hc : fromNs16 hd.corr with
      | none => simp [hc] at hf
      | some corr =>
        simp only [hc, Option.bind_eq_bind, Option.bind_some, Option.some.injEq] at hf
        subst hf
        exact ⟨corr, rfl⟩
  rcases hr with hr | ⟨h0, hw, hr⟩
  · obtain ⟨u, o, t, k1, k2, k3⟩ := run_cons hr
    simp only [step] at k1
    rw [if_neg (by rw [hsrc]; exact hself)] at k1
    simp only [Option.bind_eq_bind] at k1
    cases hx : rxTime c s raw with
    | none => simp [hx] at k1
    | some tt =>
      simp only [hx, Option.bind_some] at k1
      obtain ⟨a1, a2, a3, a4, a5, a6, a7⟩ := handleSync_result k1
      simp only at a3 a4
      rcases a7 with ⟨-, -, -, -, b⟩ | ⟨u', corr, b1, b2, b3, b4, b5, b6, b7, b8, b9, b10, miss, b11, b12⟩
      · exact absurd ⟨rfl, hl, hsrc, .inl hp⟩ b
      rcases b12 with ⟨g, -⟩ | ⟨-, g, -⟩ | ⟨-, g, -, -, -, corr', -, g'⟩
      · rw [h2] at g; cases g
      · obtain ⟨v, t3, t4, l1, l2, l3⟩ := run_append k2
        obtain ⟨c1, c2, c3⟩ := run_unrelated (fun x hx => a4 ▸ hm x hx) l1
        obtain ⟨d1, d2, d3, d4, d5⟩ := sPart_eq c1
        obtain ⟨o', n1, n2⟩ := run_one l2
        simp only [step] at n1
        rw [if_neg (by rw [hsrc']; exact hself)] at n1
        obtain ⟨corr', q⟩ := follow { v with tmpTime := w' } h' len' w' false _ hl'
          (c2.trans (a3.trans hp)) (hsrc'.trans (a4.symm.trans c3.symm)) (d1.trans g)
          (hseq.trans (b6.symm.trans d2.symm)) n1
        refine ⟨⟨v, .followUp h' len' w', o'⟩, toInternalTime w', v.recvTime, corr', ?_, ?_⟩
        rotate_left
        · have q' : o' = [.m2s (toInternalTime w') v.recvTime corr'] := q
          rw [q']
          exact List.mem_singleton.mpr rfl
        rw [k3, l3, n2]; simp
      · refine ⟨⟨s, .sync h len w (some raw), o⟩, toInternalTime s.cacheBody, u', corr',
          by rw [k3]; simp, ?_⟩
        have q' : o = miss ++ [.m2s (toInternalTime s.cacheBody) u' corr'] := g'
        rw [q']
        simp
  · obtain ⟨u, o, t, k1, k2, k3⟩ := run_cons hr
    simp only [step] at k1
    rw [if_neg (by rw [hsrc']; exact hself)] at k1
    have cached : u.cacheHdr = h' ∧ u.cacheBody = w' ∧ u.port = s.port ∧ u.parent = s.parent := by
      unfold handleFollowUp at k1
      rw [if_neg (by omega), if_neg (by simp [idle, hp]), if_pos (by simp [hp]),
        if_neg (by simp [isParent, hsrc'])] at k1
      dsimp only at k1
      by_cases h5 : s.cacheHdr.seq ≠ 0 ∧ ¬ false = true
      · simp only [if_pos h5] at k1
        rw [if_pos (by simp [hw])] at k1
        simp only [Option.some.injEq, Prod.mk.injEq] at k1
        obtain ⟨rfl, rfl⟩ := k1
        exact ⟨rfl, rfl, rfl, rfl⟩
      · simp only [if_neg h5] at k1
        rw [if_pos (by simp [hw])] at k1
        simp only [Option.some.injEq, Prod.mk.injEq] at k1
        obtain ⟨rfl, rfl⟩ := k1
        exact ⟨rfl, rfl, rfl, rfl⟩
    obtain ⟨z1, z2, z3, z4⟩ := cached
    obtain ⟨v, t3, t4, l1, l2, l3⟩ := run_append k2
    obtain ⟨c1, c2, c3⟩ := run_unrelated (fun x hx => z4 ▸ hm x hx) l1
    obtain ⟨d1, d2, d3, d4, d5⟩ := sPart_eq c1
    obtain ⟨o', n1, n2⟩ := run_one l2
    simp only [step] at n1
    rw [if_neg (by rw [hsrc]; exact hself)] at n1
    simp only [Option.bind_eq_bind] at n1
    cases hx : rxTime c v raw with
    | none => simp [hx] at n1
    | some tt =>
      simp only [hx, Option.bind_some] at n1
      have vp : v.port = .slave := c2.trans (z3.trans hp)
      have vs : h.src = v.parent := hsrc.trans (z4.symm.trans c3.symm)
      unfold handleSync at n1
      rw [if_neg (by omega), if_neg (by simp [idle, vp]), if_pos (by simp [vp]),
        if_pos (by simp [isParent, vs])] at n1
      simp only [Option.bind_eq_bind] at n1
      cases hc : fromNs16 h.corr with
      | none => simp [hc] at n1
      | some corr =>
        simp only [hc, Option.bind_some] at n1
        cases hu : useCached (recordSync { v with tmpTime := w } h tt w corr).1 with
        | none => simp [hu] at n1
        | some p =>
          simp only [hu, Option.bind_some, Option.some.injEq, Prod.mk.injEq] at n1
          have hcs : v.cacheHdr = h' := d4.trans z1
          unfold useCached at hu
          rw [if_neg (by simp [recordSync, hcs, hseq, h0]),
            if_pos (by simp [recordSync, hcs, hseq])] at hu
          simp only [Option.bind_eq_bind] at hu
          generalize hvv : (recordSync { v with tmpTime := w } h tt w corr).1 = vv at hu
          cases hf : handleFollowUp vv vv.cacheHdr 44 vv.cacheBody true with
          | none => simp [hf] at hu
          | some r =>
            simp only [hf, Option.bind_some, Option.some.injEq] at hu
            obtain ⟨corr', q⟩ := follow vv vv.cacheHdr 44 vv.cacheBody true r (by omega)
              (by subst hvv; exact vp)
              (by subst hvv; simp [recordSync, hcs]; rw [hsrc', ← z4]; exact c3.symm)
              (by subst hvv; exact h2)
              (by subst hvv; simp [recordSync, hcs, hseq]) hf
            refine ⟨⟨v, .sync h len w (some raw), o'⟩, toInternalTime vv.cacheBody, vv.recvTime, corr',
              by rw [k3, l3, n2]; simp, ?_⟩
            rw [← n1.2]
            subst hu
            simp only [List.mem_append]
            right
            rw [q]
            simp

example : ((run exCfg exSlave [exFollow exP1 5 0, exFollow exP2 5 0, exSync exP1 5 0]).map
      fun r => r.2.flatMap Entry.outs) =
      some [.m2s ⟨1037, 300, 0⟩ ⟨1037, 400, 0⟩ ⟨0, 0, 0⟩] ∧
    ((run exCfg exSlave [exSync exP1 0 0, exFollow exP2 5 0, exTx 1 3, exFollow exP1 0 0]).map
      fun r => r.2.flatMap Entry.outs) =
      some [.m2s ⟨1037, 300, 0⟩ ⟨1037, 400, 0⟩ ⟨0, 0, 0⟩] := by
  decide +kernel

/-! ## C70 -/

/-- Once a slave that uses the end-to-end mechanism has had a Sync of its
parent, one of the timers runs that make it send the next Delay_Req: the one for
the request itself or the one for the response awaited. -/
def C70_statement : Prop :=
  ∀ c mech parent es s tr,
    (∀ p, .goto p ∈ es → p ≠ .uninitialized ∧ p ≠ .preMaster) →
    (∀ q p, .bmc q p ∈ es → p ≠ .uninitialized ∧ p ≠ .preMaster) →
    run c (init mech parent c.self) es = some (s, tr) →
    s.port = .slave → s.mech = .e2e → s.firstSync = false →
    (s.reqTimer = true ∧ s.respTimer = false) ∨ (s.reqTimer = false ∧ s.respTimer = true)

/-- The mechanism is changed to end-to-end after the first Sync. -/
theorem C70_violated : ¬ C70_statement := by
  intro h
  have key : (run exCfg (init .p2p exP1 exMe) (exStart ++ [exSync exP1 7 0, .setMech .e2e])).map
      (fun r => (r.1.port, r.1.mech, r.1.firstSync, r.1.reqTimer, r.1.respTimer)) =
      some (.slave, .e2e, false, false, false) := by decide +kernel
  cases hr : run exCfg (init .p2p exP1 exMe) (exStart ++ [exSync exP1 7 0, .setMech .e2e]) with
  | none => rw [hr] at key; cases key
  | some r =>
    rw [hr] at key
    simp only [Option.map_some, Option.some.injEq, Prod.mk.injEq] at key
    obtain ⟨k1, k2, k3, k4, k5⟩ := key
    have := h exCfg .p2p exP1 _ r.1 r.2 (by simp [exStart, exSync])
      (by simp [exStart, exSync]) hr k1 k2 k3
    rw [k4, k5] at this
    simp at this

/-- What is missing: the mechanism must have been end-to-end all along. -/
theorem C70_partial (c : Cfg) (parent : PortId) (es : List Event) (s : State) (tr : List Entry)
    (hg : ∀ p, .goto p ∈ es → p ≠ .uninitialized ∧ p ≠ .preMaster)
    (hb : ∀ q p, .bmc q p ∈ es → p ≠ .uninitialized ∧ p ≠ .preMaster)
    (hm : ∀ m, .setMech m ∈ es → m = .e2e)
    (hr : run c (init .e2e parent c.self) es = some (s, tr))
    (hp : s.port = .slave) (hf : s.firstSync = false) :
    (s.reqTimer = true ∧ s.respTimer = false) ∨ (s.reqTimer = false ∧ s.respTimer = true) := by
  have := (timers_run (s := init .e2e parent c.self) (fun x hx => by
    cases x with
    | goto p => exact hg p hx
    | bmc q p => exact hb q p hx
    | setMech m => exact hm m hx
    | _ => trivial) rfl (by simp [TimersOk, init]) hr).2 hp
  rw [this.2 hf]
  cases s.reqTimer <;> simp

example : (run exCfg (init .e2e exP1 exMe) (exStart ++ [exSync exP1 7 0, exReq 3])).map
      (fun r => (r.1.port, r.1.firstSync, r.1.reqTimer, r.1.respTimer)) =
      some (.slave, false, false, true) ∧
    (run exCfg (init .e2e exP1 exMe)
      (exStart ++ [exSync exP1 7 0, exReq 3, exResp exP1 1 exMe, .respExpired, exTx 1 3])).map
      (fun r => (r.1.port, r.1.firstSync, r.1.reqTimer, r.1.respTimer)) =
      some (.slave, false, true, false) := by
  decide +kernel

end Verif.Slave
