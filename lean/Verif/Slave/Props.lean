import Verif.Slave.Frame
import Mathlib.Tactic.Tauto

/-!
# Properties of the measurements made by a slave

Over any history of a port, from its creation: messages of any source in any
order, timestamps, timers, decisions of the best master algorithm, management.
-/

set_option linter.unusedSimpArgs false
set_option linter.unusedVariables false

namespace Verif.Slave

open Verif.Time

/-! ## Examples used below -/

/-- A port identity of the examples. -/
def exP1 : PortId := ⟨0xaa, 1⟩
/-- Another. -/
def exP2 : PortId := ⟨0xbb, 1⟩
/-- The port of the examples. -/
def exMe : PortId := ⟨0x11, 1⟩
/-- The options of the examples. -/
def exCfg : Cfg := ⟨exMe, false, ⟨0, 100, 0⟩, ⟨0, 50, 0⟩, true, false, 20⟩

theorem exCfg_sane : SaneCfg exCfg := by
  simp [SaneCfg, SaneTs, exCfg, Norm]

/-- The port starts, listens and takes `exP1` as its parent. -/
def exStart : List Event := [.goto .listening, .bmc exP1 .slave, .setUtc ⟨true, 37, 0, true⟩]

/-- A two-step Sync. -/
def exSync (src : PortId) (seq : Nat) (corr : Int) : Event :=
  .sync ⟨src, seq, true, corr⟩ 44 ⟨0, 0⟩ (some ⟨1000, 500, 0⟩)

/-- A Follow_Up. -/
def exFollow (src : PortId) (seq : Nat) (corr : Int) : Event :=
  .followUp ⟨src, seq, false, corr⟩ 44 ⟨1037, 300⟩

/-- The outputs of a list of events, from the creation of the port. -/
def exOuts (c : Cfg) (es : List Event) : Option (List Out) :=
  (run c (init .e2e exP1 c.self) es).map fun r => r.2.flatMap Entry.outs

/-- Some entry of a history gives a given output. -/
theorem outs_mem {c : Cfg} {es : List Event} {x : Out}
    (h : ∃ o, exOuts c es = some o ∧ x ∈ o) :
    ∃ s tr pre e post, run c (init .e2e exP1 c.self) es = some (s, tr) ∧
      tr = pre ++ e :: post ∧ x ∈ e.outs := by
  obtain ⟨o, h1, h2⟩ := h
  unfold exOuts at h1
  cases hr : run c (init .e2e exP1 c.self) es with
  | none => simp [hr] at h1
  | some r =>
    rw [hr] at h1
    simp only [Option.map_some, Option.some.injEq] at h1
    subst h1
    obtain ⟨e, he, hx⟩ := List.mem_flatMap.mp h2
    obtain ⟨pre, post, hp⟩ := List.append_of_mem he
    exact ⟨r.1, r.2, pre, e, post, rfl, hp, hx⟩

/-! ## C48 -/

/-- Every measurement from master to slave is made of a Sync, the last accepted,
and, if it was two-step, of a Follow_Up of the same sequence number, both of
the parent of the moment of the measurement. -/
def C48_statement : Prop :=
  ∀ c mech parent es s tr pre e post send recv corr,
    SaneCfg c → (∀ x ∈ es, SaneEvent x) →
    run c (init mech parent c.self) es = some (s, tr) → tr = pre ++ e :: post →
    Out.m2s send recv corr ∈ e.outs →
    ∃ a y b, pre ++ [e] = a ++ y :: b ∧ AcceptedSync c y ∧ (∀ x ∈ b, ¬ AcceptedSync c x) ∧
      source y.ev = some e.before.parent ∧
      (Single c y send recv corr ∨
       ∃ f ∈ pre ++ [e], Pair c y f send recv ∧ source f.ev = some e.before.parent)

/-- Two decisions of the best master algorithm leave the port a slave but change
its parent: a Sync of the old parent is paired with a Follow_Up of the new. -/
def exChanged : List Event :=
  exStart ++ [exSync exP1 7 0, .bmc exP2 .slave, exFollow exP2 7 0]

theorem C48_violated : ¬ C48_statement := by
  intro h
  obtain ⟨s, tr, pre, e, post, h1, h2, h3⟩ :=
    outs_mem (c := exCfg) (es := exChanged)
      (x := .m2s ⟨1037, 300, 0⟩ ⟨1037, 400, 0⟩ ⟨0, 0, 0⟩)
      ⟨[.m2s ⟨1037, 300, 0⟩ ⟨1037, 400, 0⟩ ⟨0, 0, 0⟩], by decide +kernel, by simp⟩
  have hev := run_events h1
  have hsane : ∀ x ∈ exChanged, SaneEvent x := by
    simp [exChanged, exStart, exSync, exFollow, SaneEvent, Corr64, SaneTs, Norm]
  obtain ⟨a, y, b, k1, k2, k3, k4, k5⟩ := h exCfg .e2e exP1 exChanged s tr pre e post _ _ _
    exCfg_sane hsane h1 h2 h3
  have mem : ∀ x ∈ pre ++ [e], x.ev ∈ exChanged := by
    intro x hx
    rw [← hev, h2]
    refine List.mem_map_of_mem ?_
    simp only [List.mem_append, List.mem_singleton, List.mem_cons] at hx ⊢
    tauto
  have hy := mem y (by rw [k1]; simp)
  rcases k5 with ⟨h', len, w, raw, j1, j2, -⟩ | ⟨f, hf, ⟨h', len, w, raw, h'', len', w', j1, j2, j3, -⟩, j4⟩
  · rw [j1] at hy
    simp [exChanged, exStart, exSync, exFollow] at hy
    rw [hy.1] at j2
    cases j2
  · have hf' := mem f hf
    rw [j3] at hf' j4
    rw [j1] at hy k4
    rw [← k4] at j4
    simp [exChanged, exStart, exSync, exFollow, source] at hy hf' j4
    rw [hy.1, hf'.1] at j4
    exact absurd j4 (by decide)

/-- As stated, but for the sources: the Sync came from the parent of the time
when it was received, the Follow_Up from the parent of the time of the
measurement.  What is missing from `C48_statement` is that the parent may have
changed in between; when it has not, the statement holds in full. -/
theorem C48_partial (c : Cfg) (mech : Mech) (parent : PortId) (es : List Event) (s : State)
    (tr pre post : List Entry) (e : Entry) (send recv corr : Ts) (hc : SaneCfg c)
    (hs : ∀ x ∈ es, SaneEvent x) (hr : run c (init mech parent c.self) es = some (s, tr))
    (ht : tr = pre ++ e :: post) (hm : Out.m2s send recv corr ∈ e.outs) :
    ∃ a y b, pre ++ [e] = a ++ y :: b ∧ AcceptedSync c y ∧ (∀ x ∈ b, ¬ AcceptedSync c x) ∧
      source y.ev = some y.before.parent ∧
      ((y = e ∧ Single c y send recv corr) ∨
       ∃ f ∈ pre ++ [e], Pair c y f send recv ∧ source f.ev = some e.before.parent ∧
         Correction (correction f.ev) corr) := by
  have hh := run_hist hr
  have hev := run_events hr
  subst ht
  obtain ⟨hp, s', hstep⟩ := hh.split rfl
  have sane : ∀ x ∈ pre ++ [e], SaneEvent x.ev := by
    intro x hx
    apply hs
    rw [← hev]
    refine List.mem_map_of_mem ?_
    simp only [List.mem_append, List.mem_singleton, List.mem_cons] at hx ⊢
    tauto
  have small : ∀ (x : Entry), x ∈ pre ++ [e] → SmallUtc x.before.utc := by
    intro x hx
    obtain ⟨u, v, huv⟩ := List.append_of_mem hx
    have : pre ++ e :: post = u ++ x :: (v ++ post) := by
      have h3 : pre ++ e :: post = (pre ++ [e]) ++ post := by simp
      rw [h3, huv]; simp
    rw [this] at hh
    obtain ⟨hpx, -⟩ := hh.split rfl
    refine smallUtc_hist hpx (by simp [init, SmallUtc]) ?_
    intro z hz
    apply sane
    rw [huv]
    exact List.mem_append_left _ hz
  have inv := sInv_hist hp rfl rfl
  rcases step_sync hstep with ⟨-, -, q3, -⟩ |
      ⟨h, len, w, cr, f0, f1, f2, f3, f4, f5, f6, f7⟩ |
      ⟨h, len, w, raw, t, cr, g0, g1, g2, g3, g4, g5, g6, miss, g7, g8⟩
  · simpa [isM2s] using q3 _ hm
  · rw [f6] at hm
    simp only [List.mem_singleton, Out.m2s.injEq] at hm
    obtain ⟨rfl, rfl, rfl⟩ := hm
    obtain ⟨a, y, b, h', len', w', raw, k1, k2, k3, k4, k5, k6, k7⟩ := inv.sync f1
    have hy : y ∈ pre ++ [e] := by rw [k1]; simp
    have hsy := sane y hy
    rw [k4] at hsy
    refine ⟨a, y, b ++ [e], by rw [k1]; simp, k3, ?_, ?_, .inr ⟨e, by simp, ?_, ?_, ?_⟩⟩
    · intro x hx
      rcases List.mem_append.mp hx with hx | hx
      · exact k2 x hx
      · simp only [List.mem_singleton] at hx
        subst hx
        simp [AcceptedSync, f0]
    · unfold AcceptedSync at k3
      rw [k4] at k3 ⊢
      simp only [source]
      rw [k3.1]
    · exact ⟨h', len', w', raw, h, len, w, k4, k5, f0, f3.trans k6.symm,
        rxTime_received hc hsy.2 (small y hy) k7, written_internal w⟩
    · rw [f0, source, f4]
    · have he := sane e (by simp)
      rw [f0] at he ⊢
      exact correction_of he f5
  · have hse := sane e (by simp)
    rw [g0] at hse
    have hsrc : source e.ev = some e.before.parent := by
      unfold AcceptedSync at g1
      rw [g0] at g1 ⊢
      simp only [source]
      rw [g1.1]
    have notmiss : ∀ {x : Out}, x ∈ miss → x = .missM2s := by
      rcases g7 with rfl | rfl <;> simp
    refine ⟨pre, e, [], by simp, g1, by simp, hsrc, ?_⟩
    rcases g8 with ⟨i1, i2, i3⟩ | ⟨i1, i2, i3⟩ | ⟨i1, i2, i3, i4, i5, cr', i6, i7⟩
    · rw [i3] at hm
      rcases List.mem_append.mp hm with hm | hm
      · cases notmiss hm
      simp only [List.mem_singleton, Out.m2s.injEq] at hm
      obtain ⟨rfl, rfl, rfl⟩ := hm
      exact .inl ⟨rfl, h, len, w, raw, g0, i1, rxTime_received hc hse.2 (small e (by simp)) g2,
        written_internal w, correction_of hse.1 g3⟩
    · rw [i3] at hm
      cases notmiss hm
    · rw [i7] at hm
      rcases List.mem_append.mp hm with hm | hm
      · cases notmiss hm
      simp only [List.mem_singleton, Out.m2s.injEq] at hm
      obtain ⟨rfl, rfl, rfl⟩ := hm
      obtain ⟨f, hf, len', hfe⟩ := inv.cache i3
      have hf' : f ∈ pre ++ [e] := List.mem_append_left _ hf
      have hsf := sane f hf'
      rw [hfe] at hsf
      refine .inr ⟨f, hf', ?_, ?_, ?_⟩
      · exact ⟨h, len, w, raw, e.before.cacheHdr, len', e.before.cacheBody, g0, i1, hfe, i4,
          rxTime_received hc hse.2 (small e (by simp)) g2, written_internal _⟩
      · rw [hfe, source, i5]
      · rw [hfe]; exact correction_of hsf i6

/-- When the parent is the same at all times the statement holds in full. -/
theorem C48_same_parent (c : Cfg) (mech : Mech) (parent : PortId) (es : List Event) (s : State)
    (tr pre post : List Entry) (e : Entry) (send recv corr : Ts) (hc : SaneCfg c)
    (hs : ∀ x ∈ es, SaneEvent x) (hr : run c (init mech parent c.self) es = some (s, tr))
    (ht : tr = pre ++ e :: post) (hm : Out.m2s send recv corr ∈ e.outs)
    (hp : ∀ y ∈ pre, AcceptedSync c y → y.before.parent = e.before.parent) :
    ∃ a y b, pre ++ [e] = a ++ y :: b ∧ AcceptedSync c y ∧ (∀ x ∈ b, ¬ AcceptedSync c x) ∧
      source y.ev = some e.before.parent ∧
      (Single c y send recv corr ∨
       ∃ f ∈ pre ++ [e], Pair c y f send recv ∧ source f.ev = some e.before.parent) := by
  obtain ⟨a, y, b, k1, k2, k3, k4, k5⟩ := C48_partial c mech parent es s tr pre post e send recv corr
    hc hs hr ht hm
  have : y.before.parent = e.before.parent := by
    have hy : y ∈ pre ++ [e] := by rw [k1]; simp
    rcases List.mem_append.mp hy with hy | hy
    · exact hp y hy k2
    · simp only [List.mem_singleton] at hy
      rw [hy]
  refine ⟨a, y, b, k1, k2, k3, this ▸ k4, ?_⟩
  rcases k5 with ⟨-, k⟩ | ⟨f, hf, i1, i2, -⟩
  · exact .inl k
  · exact .inr ⟨f, hf, i1, i2⟩

/-- No Sync is measured twice: there are at most as many measurements as there
are accepted Syncs. -/
theorem C48_once (c : Cfg) (mech : Mech) (parent : PortId) (es : List Event) (s : State)
    (tr : List Entry) (hr : run c (init mech parent c.self) es = some (s, tr)) :
    measurements (fun o => match o with | .m2s .. => true | _ => false) tr ≤
      tr.countP fun e => decide (AcceptedSync c e) := by
  have := (sInv_hist (run_hist hr) rfl rfl).count
  have e : (fun o => match o with | Out.m2s .. => true | _ => false) = isM2s := by
    funext o; cases o <;> rfl
  rw [e]
  omega

/-- A Follow_Up that comes first, one lost, one duplicated, one of another
clock: three Syncs give two measurements. -/
def exMixed : List Event :=
  exStart ++ [exFollow exP1 7 0, exFollow exP2 7 0, exSync exP1 7 0, exSync exP1 8 0,
    exFollow exP2 8 0, exFollow exP1 7 0, exSync exP1 9 0, exFollow exP1 9 0, exFollow exP1 9 0]

example : (∀ x ∈ exMixed, SaneEvent x) ∧ exOuts exCfg exMixed =
    some [.m2s ⟨1037, 300, 0⟩ ⟨1037, 400, 0⟩ ⟨0, 0, 0⟩, .missM2s,
          .m2s ⟨1037, 300, 0⟩ ⟨1037, 400, 0⟩ ⟨0, 0, 0⟩] := by
  constructor
  · simp [exMixed, exStart, exSync, exFollow, SaneEvent, Corr64, SaneTs, Norm]
  · decide +kernel

/-! ## C49 -/

/-- The correction of a measurement made of a Sync and a Follow_Up is the sum of
the two correction fields. -/
def C49_statement : Prop :=
  ∀ c mech parent es s tr pre e post send recv corr,
    SaneCfg c → (∀ x ∈ es, SaneEvent x) →
    run c (init mech parent c.self) es = some (s, tr) → tr = pre ++ e :: post →
    Out.m2s send recv corr ∈ e.outs →
    ∃ y ∈ pre ++ [e], AcceptedSync c y ∧
      (Single c y send recv corr ∨
       ∃ f ∈ pre ++ [e], Pair c y f send recv ∧
         Correction (correction y.ev + correction f.ev) corr)

/-- 1 us in the Sync, added by a transparent clock, and 2 us in the Follow_Up. -/
def exCorrections : List Event :=
  exStart ++ [exSync exP1 7 65536000, exFollow exP1 7 131072000]

theorem C49_violated : ¬ C49_statement := by
  intro h
  obtain ⟨s, tr, pre, e, post, h1, h2, h3⟩ :=
    outs_mem (c := exCfg) (es := exCorrections)
      (x := .m2s ⟨1037, 300, 0⟩ ⟨1037, 400, 0⟩ ⟨0, 2000, 0⟩)
      ⟨[.m2s ⟨1037, 300, 0⟩ ⟨1037, 400, 0⟩ ⟨0, 2000, 0⟩], by decide +kernel, by simp⟩
  have hev := run_events h1
  have hsane : ∀ x ∈ exCorrections, SaneEvent x := by
    simp [exCorrections, exStart, exSync, exFollow, SaneEvent, Corr64, SaneTs, Norm]
  obtain ⟨y, k1, k2, k5⟩ := h exCfg .e2e exP1 exCorrections s tr pre e post _ _ _
    exCfg_sane hsane h1 h2 h3
  have mem : ∀ x ∈ pre ++ [e], x.ev ∈ exCorrections := by
    intro x hx
    rw [← hev, h2]
    refine List.mem_map_of_mem ?_
    simp only [List.mem_append, List.mem_singleton, List.mem_cons] at hx ⊢
    tauto
  have hy := mem y k1
  rcases k5 with ⟨h', len, w, raw, j1, j2, -⟩ |
    ⟨f, hf, ⟨h', len, w, raw, h'', len', w', j1, j2, j3, -⟩, j4⟩
  · rw [j1] at hy
    simp [exCorrections, exStart, exSync, exFollow] at hy
    rw [hy.1] at j2
    cases j2
  · have hf' := mem f hf
    rw [j3] at hf' j4
    rw [j1] at hy j4
    simp [exCorrections, exStart, exSync, exFollow, correction] at hy hf' j4
    rw [hy.1, hf'.1] at j4
    simp [Correction, val] at j4

/-- What is missing: only the correction of the Follow_Up is used, so the sum is
right when the Syncs carry none. -/
theorem C49_partial (c : Cfg) (mech : Mech) (parent : PortId) (es : List Event) (s : State)
    (tr pre post : List Entry) (e : Entry) (send recv corr : Ts) (hc : SaneCfg c)
    (hs : ∀ x ∈ es, SaneEvent x) (hr : run c (init mech parent c.self) es = some (s, tr))
    (ht : tr = pre ++ e :: post) (hm : Out.m2s send recv corr ∈ e.outs) :
    ∃ y ∈ pre ++ [e], AcceptedSync c y ∧
      (Single c y send recv corr ∨
       ∃ f ∈ pre ++ [e], Pair c y f send recv ∧ Correction (correction f.ev) corr ∧
         (correction y.ev = 0 → Correction (correction y.ev + correction f.ev) corr)) := by
  obtain ⟨a, y, b, k1, k2, k3, k4, k5⟩ := C48_partial c mech parent es s tr pre post e send recv corr
    hc hs hr ht hm
  refine ⟨y, by rw [k1]; simp, k2, ?_⟩
  rcases k5 with ⟨-, k⟩ | ⟨f, hf, i1, i2, i3⟩
  · exact .inl k
  · exact .inr ⟨f, hf, i1, i3, fun h => by rw [h, Int.zero_add]; exact i3⟩

example : exOuts exCfg exCorrections = some [.m2s ⟨1037, 300, 0⟩ ⟨1037, 400, 0⟩ ⟨0, 2000, 0⟩] := by
  decide +kernel

/-! ## C50 -/

/-- Every measurement from slave to master is made of the last Delay_Req that was
sent, after which no other was attempted, of a timestamp of its transmission
and of a response with its sequence number, addressed to this port, both
received after it.  The timestamp carries the sequence number and the ticket of
the request; should the request have got no ticket, the ticket is an earlier
one. -/
theorem C50_matched (c : Cfg) (mech : Mech) (parent : PortId) (es : List Event) (s : State)
    (tr pre post : List Entry) (e : Entry) (send recv corr : Ts) (hc : SaneCfg c)
    (hs : ∀ x ∈ es, SaneEvent x) (hr : run c (init mech parent c.self) es = some (s, tr))
    (ht : tr = pre ++ e :: post) (hm : Out.s2m send recv corr ∈ e.outs) :
    ∃ a q b tk, pre ++ [e] = a ++ q :: b ∧ Requested q tk ∧ (∀ x ∈ b, ∀ o, ¬ Attempted x o) ∧
      (∃ x ∈ b, ∃ loop t raw, x.ev = .txTime loop (requestSeq q) t raw ∧
        (tk = some t ∨ (tk = none ∧ ∃ q' ∈ a, Requested q' (some t))) ∧
        (loop = false → Transmitted c x.before 1 raw send) ∧
        (loop = true → Transmitted c x.before 2 raw send)) ∧
      (∃ x ∈ b, ∃ h len w, x.ev = .delayResp h len w c.self ∧ h.seq = requestSeq q ∧
        (h.src = x.before.parent ∨ c.ignorePort = true) ∧
        (h.src = e.before.parent ∨ c.ignorePort = true) ∧
        Written w recv ∧ Correction h.corr corr) := by
  have hh := run_hist hr
  have hev := run_events hr
  subst ht
  obtain ⟨hp, s', hstep⟩ := hh.split rfl
  have sane : ∀ x ∈ pre ++ [e], SaneEvent x.ev := by
    intro x hx
    apply hs
    rw [← hev]
    refine List.mem_map_of_mem ?_
    simp only [List.mem_append, List.mem_singleton, List.mem_cons] at hx ⊢
    tauto
  have small : ∀ (x : Entry), x ∈ pre ++ [e] → SmallUtc x.before.utc := by
    intro x hx
    obtain ⟨u, v, huv⟩ := List.append_of_mem hx
    have : pre ++ e :: post = u ++ x :: (v ++ post) := by
      have h3 : pre ++ e :: post = (pre ++ [e]) ++ post := by simp
      rw [h3, huv]; simp
    rw [this] at hh
    obtain ⟨hpx, -⟩ := hh.split rfl
    refine smallUtc_hist hpx (by simp [init, SmallUtc]) ?_
    intro z hz
    apply sane
    rw [huv]
    exact List.mem_append_left _ hz
  have trans : ∀ (x : Entry) (loop : Bool) (raw d : Ts) (n : Nat) (t : Ticket),
      x ∈ pre ++ [e] → x.ev = .txTime loop n t raw →
      add (applyUtc c x.before (if loop = true then applyUtc c x.before raw else raw)) c.outbound =
        some d →
      (loop = false → Transmitted c x.before 1 raw d) ∧
      (loop = true → Transmitted c x.before 2 raw d) := by
    intro x loop raw d n t hx he hd
    have h1 := sane x hx
    rw [he] at h1
    have h2 := add_transmitted hc h1 (small x hx) hd
    constructor
    · rintro rfl; simpa using h2
    · rintro rfl; simpa using h2
  have inv := dInv_hist hp rfl rfl rfl
  rcases step_delay hstep with ⟨-, -, -, -, -, q6, -⟩ | ⟨x, i1, i2, i3, i4⟩ |
    ⟨h, len, w, t0, t1, t2, t3, t4, t5, t6, t7, t8, t9, t10, t11⟩ |
    ⟨h, len, w, cr, n0, n1, n2, n3, n4, n5, n6, n7, n8, n9, n10⟩ |
    ⟨loop, tk, raw, m0, m1, m2, m3, m4, m5, m6⟩
  · simpa [isS2m] using q6 _ hm
  · rw [i3] at hm; cases hm
  · rw [t10] at hm; cases hm
  · -- the response came after the timestamp
    rw [n10] at hm
    simp only [List.mem_singleton, Out.s2m.injEq] at hm
    obtain ⟨rfl, rfl, rfl⟩ := hm
    obtain ⟨a, q, b, tk, r1, r2, r3, r4, r5, r6, r7⟩ := inv.pending (.inr n4)
    obtain ⟨x, hx, loop, t, raw, s1, s2, s3⟩ := r6 n3
    have hxp : x ∈ pre ++ [e] := by rw [r1]; simp [hx]
    have hse := sane e (by simp)
    rw [n0] at hse
    refine ⟨a, q, b ++ [e], tk, by rw [r1]; simp, r2, ?_, ?_, ?_⟩
    · intro z hz
      rcases List.mem_append.mp hz with hz | hz
      · exact r3 z hz
      · simp only [List.mem_singleton] at hz
        subst hz
        intro o
        simp [Attempted, n0]
    · refine ⟨x, List.mem_append_left _ hx, loop, t, raw, ?_, s2, trans x loop raw _ _ t hxp s1 s3⟩
      rw [s1, r4]; rfl
    · exact ⟨e, by simp, h, len, w, n0, n7.trans r4, n8, n8, written_internal w,
        correction_of hse n9⟩
  · -- the timestamp came after the response
    rcases m6 with ⟨k1, -⟩ | ⟨k1, k2, k3, h, plen, w, cr, k4, k5, k6, k7, k8, k9⟩
    · rw [k1] at hm; cases hm
    rw [k9] at hm
    simp only [List.mem_singleton, Out.s2m.injEq] at hm
    obtain ⟨rfl, rfl, rfl⟩ := hm
    obtain ⟨a, q, b, tk', r1, r2, r3, r4, r5, r6, r7⟩ := inv.pending (.inl k1)
    obtain ⟨x, hx, len, u1, u2⟩ := r7 k1 k2 h plen w k4
    have hxp : x ∈ pre ++ [e] := by rw [r1]; simp [hx]
    have hsx := sane x hxp
    rw [u1] at hsx
    refine ⟨a, q, b ++ [e], tk', by rw [r1]; simp, r2, ?_, ?_, ?_⟩
    · intro z hz
      rcases List.mem_append.mp hz with hz | hz
      · exact r3 z hz
      · simp only [List.mem_singleton] at hz
        subst hz
        intro o
        simp [Attempted, m0]
    · refine ⟨e, by simp, loop, tk, raw, ?_, r5 tk m1, trans e loop raw _ _ tk (by simp) m0 m5⟩
      rw [m0, r4]; rfl
    · exact ⟨x, List.mem_append_left _ hx, h, len, w, u1, k5.trans r4, u2, k7, written_internal w,
        correction_of hsx k8⟩

/-- No Delay_Req is measured twice: there are at most as many measurements as
there are Delay_Req sent. -/
theorem C50_once (c : Cfg) (mech : Mech) (parent : PortId) (es : List Event) (s : State)
    (tr : List Entry) (hr : run c (init mech parent c.self) es = some (s, tr)) :
    measurements (fun o => match o with | .s2m .. => true | _ => false) tr ≤
      tr.countP IsRequest := by
  have := (dInv_hist (run_hist hr) rfl rfl rfl).count
  have e : (fun o => match o with | Out.s2m .. => true | _ => false) = isS2m := by
    funext o; cases o <;> rfl
  rw [e]
  omega

/-- A Delay_Req of the examples, with its ticket. -/
def exReq (slot : Nat) : Event := .reqExpired (.sent (some ⟨slot, 5⟩))
/-- The timestamp of a Delay_Req. -/
def exTx (seq slot : Nat) : Event := .txTime false seq ⟨slot, 5⟩ ⟨1000, 700, 0⟩
/-- A response. -/
def exResp (src : PortId) (seq : Nat) (to : PortId) : Event :=
  .delayResp ⟨src, seq, false, 65536⟩ 54 ⟨1037, 900⟩ to

/-- Two requests, one answered before its timestamp and one after, with
responses for others and responses of others. -/
def exRequests : List Event :=
  exStart ++ [exSync exP1 7 0, exReq 3, exTx 1 3, exResp exP1 1 exP2, exResp exP2 1 exMe,
    exResp exP1 1 exMe, exResp exP1 1 exMe, exReq 4, exResp exP1 2 exMe, exTx 2 4]

example : (∀ x ∈ exRequests, SaneEvent x) ∧ exOuts exCfg exRequests =
    some [.s2m ⟨1037, 750, 0⟩ ⟨1037, 900, 0⟩ ⟨0, 1, 0⟩,
          .s2m ⟨1037, 750, 0⟩ ⟨1037, 900, 0⟩ ⟨0, 1, 0⟩] := by
  constructor
  · simp [exRequests, exStart, exSync, exReq, exTx, exResp, SaneEvent, Corr64, SaneTs, Norm]
  · decide +kernel

end Verif.Slave
