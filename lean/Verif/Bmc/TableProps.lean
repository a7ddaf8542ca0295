import Verif.Bmc.Props
/-!
# Properties C10 and C11: qualification and the foreign master table

Histories of the table: announces arriving, expiry runs, elections (which also
delete records) and port re-initialisation.
-/
set_option linter.unusedSimpArgs false

namespace Verif.Bmc
open Verif.Foreign

/-- One operation on the table. -/
inductive TOp where
  /-- announce from `pid` arriving at `now` (`insertIntoForeignMasterDS`) -/
  | announce (pid : PortId) (a : Ann) (now : Int)
  /-- `expireForeignMasterRecords` -/
  | expire (thr : Int)
  /-- `bmc` -/
  | elect (l : Local) (slaveOnly masterOnly : Bool) (parent : Nat) (ps : PState) (e : BmcEnv)
  /-- `resetForeignMasterDS` -/
  | reset

/-- Effect of one operation. -/
def tstep (s : Ds Ann) : TOp → Option (Ds Ann)
  | .announce pid a now => (s.insert pid a now).map (·.1)
  | .expire thr => s.expire thr
  | .elect l so mo parent ps e => (bmc l so mo parent ps e s).map (·.1)
  | .reset => some s.reset

/-- A history of operations. -/
def trun (s : Ds Ann) : List TOp → Option (Ds Ann)
  | [] => some s
  | o :: os => match tstep s o with
    | none => none
    | some s' => trun s' os

/-- Specification: arrival times of the announces from `pid`, newest first. -/
def arrivals (pid : PortId) : List TOp → List Int
  | [] => []
  | .announce q _ now :: os => arrivals pid os ++ (if q = pid then [now] else [])
  | _ :: os => arrivals pid os

/-- All arrival times of a history in order. -/
def allArrivals : List TOp → List Int
  | [] => []
  | .announce _ _ now :: os => now :: allArrivals os
  | _ :: os => allArrivals os

theorem arrivals_append (pid : PortId) (a b : List TOp) :
    arrivals pid (a ++ b) = arrivals pid b ++ arrivals pid a := by
  induction a with
  | nil => simp [arrivals]
  | cons o os ih => cases o <;> simp [arrivals, ih]

theorem arrivals_sub (pid : PortId) (a : List TOp) :
    (arrivals pid a).reverse.Sublist (allArrivals a) := by
  induction a with
  | nil => simp [arrivals]
  | cons o os ih =>
    cases o with
    | announce q d now =>
      simp only [arrivals, allArrivals, List.reverse_append]
      split
      · simp; exact ih
      · simp; exact ih.cons _
    | _ => exact ih

theorem trun_append (s : Ds Ann) (a b : List TOp) :
    trun s (a ++ b) = (trun s a).bind (fun s' => trun s' b) := by
  induction a generalizing s with
  | nil => rfl
  | cons o os ih =>
    simp only [List.cons_append, trun]
    cases tstep s o with
    | none => rfl
    | some s' => exact ih s'

/-! ### The invariant of every reachable table -/

theorem findLoop_pid {recs : List (Rec Ann)} {num : Nat} {pid : PortId} : ∀ fuel j k,
    findLoop recs num pid fuel j = some (some k) → ∃ r, recs[k]? = some r ∧ r.pid = pid := by
  intro fuel
  induction fuel with
  | zero => intro j k h; simp [findLoop] at h
  | succ n ih =>
    intro j k h
    simp only [findLoop] at h
    split at h
    · cases h
    · rename_i r hr
      split at h
      · rename_i hp; cases h; exact ⟨r, hr, hp⟩
      · exact ih _ _ h

/-- Capacity is respected and every slot's ring holds announces really received
from the identity in the slot. -/
structure Inv (max : Nat) (log : List TOp) (s : Ds Ann) : Prop where
  len : s.recs.length = max
  num : s.num ≤ max
  wr : s.wr ≤ max
  ring : ∀ r ∈ s.recs, ∃ h, Ring r h ∧ h.Sublist (arrivals r.pid log)

theorem inv_init (d : Ann) (max : Nat) : Inv max [] (Ds.init d max) where
  len := by simp [Ds.init]
  num := by simp [Ds.init]
  wr := by simp [Ds.init]
  ring := by
    intro r hr
    simp only [Ds.init] at hr
    rw [(List.mem_replicate.1 hr).2]
    exact ⟨[], Ring.blank d, by simp⟩

theorem mem_set_cases {α : Type} {l : List α} {i : Nat} {a x : α} (h : x ∈ l.set i a) : x = a ∨ x ∈ l := by
  rcases List.mem_or_eq_of_mem_set h with h | h
  · exact Or.inr h
  · exact Or.inl h

theorem expireLoop_mem (thr : Int) : ∀ fuel (s s' : Ds Ann) i,
    expireLoop thr fuel s i = some s' →
    (∀ r ∈ s'.recs, r ∈ s.recs) ∧ s'.wr ≤ s.wr ∧ s'.recs.length = s.recs.length ∧ s'.num ≤ s.num := by
  intro fuel
  induction fuel with
  | zero => intro s s' i h; simp [expireLoop] at h; subst h; simp
  | succ n ih =>
    intro s s' i h
    simp only [expireLoop] at h
    split at h
    · split at h
      · cases h
      · split at h
        · exact ih _ _ _ h
        · split at h
          · cases h
          · rename_i recs hsh
            obtain ⟨h1, h2, h3, h4⟩ := ih _ _ _ h
            have hl := shift_len hsh
            refine ⟨fun r hr => ?_, ?_, by rw [h3]; exact hl.1, by simp at h4; omega⟩
            · have := h1 r hr
              simp only [shift] at hsh
              split at hsh
              · cases hsh
                simp only [List.mem_append] at this
                rcases this with (hm | hm) | hm
                · exact List.mem_of_mem_take hm
                · exact List.mem_of_mem_drop (List.mem_of_mem_take hm)
                · exact List.mem_of_mem_drop hm
              · cases hsh
            · simp at h2; split at h2 <;> omega
    · cases h; simp

theorem inv_step {max : Nat} {log : List TOp} {s s' : Ds Ann} (o : TOp) (hi : Inv max log s)
    (h : tstep s o = some s') : Inv max (log ++ [o]) s' := by
  cases o with
  | announce pid a now =>
    have hlog : ∀ q, arrivals q (log ++ [TOp.announce pid a now])
        = (if pid = q then [now] else []) ++ arrivals q log := by
      intro q; rw [arrivals_append]; simp [arrivals]
    have keep : ∀ r ∈ s.recs, ∃ h, Ring r h ∧ h.Sublist (arrivals r.pid (log ++ [.announce pid a now])) := by
      intro r hr
      obtain ⟨h, h1, h2⟩ := hi.ring r hr
      exact ⟨h, h1, by rw [hlog]; exact h2.trans (List.sublist_append_right _ _)⟩
    simp only [tstep, Ds.insert] at h
    split at h
    · cases h
    · rename_i k hf
      obtain ⟨r, hr, hp⟩ := findLoop_pid _ _ _ hf
      simp only [hr, Option.map_some, Option.some.injEq] at h
      subst h
      refine ⟨by simp [hi.len], hi.num, hi.wr, ?_⟩
      intro x hx
      rcases mem_set_cases hx with rfl | hx
      · obtain ⟨h, h1, h2⟩ := hi.ring r (List.mem_of_getElem? hr)
        have h1' : Ring { r with data := a } h := ⟨h1.len, h1.tw, h1.tc, h1.newest, h1.second⟩
        refine ⟨now :: h, h1'.announce now, ?_⟩
        rw [hlog]
        simp only [Rec.announce, hp, if_true, List.singleton_append]
        exact List.Sublist.cons_cons now (by simpa [hp] using h2)
      · exact keep x hx
    · rename_i hf
      simp only [Option.map_eq_some_iff] at h
      obtain ⟨⟨s1, j⟩, h, rfl⟩ := h
      generalize hw : (if s.wr < s.num ∧ s.wr = s.best then (s.wr + 1) % s.recs.length else s.wr) = w at h
      cases hr : s.recs[w]? with
      | none => rw [hr] at h; cases h
      | some r =>
        rw [hr] at h
        simp only [Option.some.injEq, Prod.mk.injEq] at h
        obtain ⟨rfl, _⟩ := h
        have hmax := hi.len
        have hpos : 0 < s.recs.length := by
          have := (List.getElem?_eq_some_iff.1 hr).1; omega
        refine ⟨by simp [hi.len], ?_, ?_, ?_⟩
        · simp only; have := hi.num; split <;> omega
        · simp only; have := Nat.mod_lt (w + 1) hpos; omega
        · intro x hx
          rcases mem_set_cases hx with rfl | hx
          · obtain ⟨h, h1, _⟩ := hi.ring r (List.mem_of_getElem? hr)
            have h1' := Ring.nil ({ r with pid := pid, data := a } : Rec Ann) h1.len
            refine ⟨[now], h1'.announce now, ?_⟩
            rw [hlog]
            simp [Rec.announce]
          · exact keep x hx
  | expire thr =>
    have hlog : ∀ q, arrivals q (log ++ [TOp.expire thr]) = arrivals q log := by
      intro q; rw [arrivals_append]; simp [arrivals]
    obtain ⟨h1, h2, h3, h4⟩ := expireLoop_mem thr _ _ _ _ h
    have := hi.wr; have := hi.num; have := hi.len
    refine ⟨by omega, by omega, by omega, ?_⟩
    intro r hr; rw [hlog]; exact hi.ring r (h1 r hr)
  | elect l so mo parent ps e =>
    have hlog : ∀ q, arrivals q (log ++ [TOp.elect l so mo parent ps e]) = arrivals q log := by
      intro q; rw [arrivals_append]; simp [arrivals]
    have same : Inv max (log ++ [TOp.elect l so mo parent ps e]) s :=
      ⟨hi.len, hi.num, hi.wr, fun r hr => by rw [hlog]; exact hi.ring r hr⟩
    simp only [tstep, bmc] at h
    split at h
    · cases h; exact same
    · split at h
      · rename_i b d hel
        simp only [Option.map_eq_some_iff] at h
        obtain ⟨⟨s1, st, x⟩, h, rfl⟩ := h
        split at h
        · cases h
        · simp only [Option.some.injEq, Prod.mk.injEq] at h
          obtain ⟨rfl, _, _⟩ := h
          obtain ⟨h1, h2, h3, h4, h5⟩ := delete_sub l e.thr2 { s with best := b }
          have hle := h1.length_le
          have : (Ds.live { s with best := b }).length ≤ s.recs.length := by simp [Ds.live]; omega
          have hm := hi.len
          refine ⟨by rw [h4]; exact hi.len, by simp only; omega, by simp only; omega, ?_⟩
          intro r hr; rw [hlog]; exact hi.ring r (h5 r hr)
      · cases h; exact same
  | reset =>
    simp only [tstep, Ds.reset, Option.some.injEq] at h
    subst h
    exact ⟨hi.len, by simp, by simp, fun r hr => by
      rw [arrivals_append]; simp only [arrivals, List.nil_append]; exact hi.ring r hr⟩

theorem inv_run {max : Nat} (os : List TOp) : ∀ {log : List TOp} {s s' : Ds Ann}, Inv max log s →
    trun s os = some s' → Inv max (log ++ os) s' := by
  induction os with
  | nil => intro log s s' hi h; simp [trun] at h; subst h; simpa using hi
  | cons o os ih =>
    intro log s s' hi h
    simp only [trun] at h
    split at h
    · cases h
    · rename_i s1 h1
      have := ih (inv_step o hi h1) h
      simpa using this

/-! ## C10: only qualified masters are elected -/

/-- Specification of qualification: at least two announces heard from the master
lie inside the window that starts at `thr`. -/
def HeardEnough (pid : PortId) (thr : Int) (log : List TOp) : Prop :=
  2 ≤ ((arrivals pid log).filter (fun t => decide (thr ≤ t))).length

/-- A single master's ring: it counts as qualified by announces exactly when at
least two of the announces recorded in it lie in the window, whatever their
number and spacing. -/
theorem C10_ring (r : Rec Ann) (hr : r.times.length = 2) (ts : List Int)
    (hmono : ts.Pairwise (· ≤ ·)) (thr : Int) :
    let r' := ts.foldl (fun r t => r.announce t) { r with tw := 0, tc := 0 }
    (¬ r'.tc < threshold ∧ r'.earliestOk thr = true) ↔
      2 ≤ (ts.filter (fun t => decide (thr ≤ t))).length := by
  intro r'
  have key : ∀ (ts h : List Int) (r : Rec Ann), Ring r h →
      Ring (ts.foldl (fun r t => r.announce t) r) (ts.reverse ++ h) := by
    intro ts
    induction ts with
    | nil => intro h r hr; simpa using hr
    | cons t ts ih => intro h r hr; simpa using ih _ _ (hr.announce t)
  have hR := key ts [] _ (Ring.nil r hr)
  rw [List.append_nil] at hR
  rw [hR.earliestOk, second_iff_count (by rw [List.pairwise_reverse]; exact hmono)]
  rw [List.filter_reverse, List.length_reverse]

example : (([3, 5, 9] : List Int).foldl (fun r t => r.announce t) (Rec.blank ann0)).earliestOk 5 = true ∧
    (([3, 5, 9] : List Int).foldl (fun r t => r.announce t) (Rec.blank ann0)).earliestOk 6 = false := by decide

/-- C10: over any history with a monotonic clock, the master that the state
decision is run on has been heard at least twice inside the window. -/
def C10_statement : Prop :=
  ∀ (max : Nat) (d : Ann) (os : List TOp) (s s' : Ds Ann) (l : Local) (so mo : Bool) (parent : Nat)
    (ps st : PState) (e : BmcEnv) (r : Rec Ann),
    (allArrivals os).Pairwise (· ≤ ·) → e.thr1 ≤ e.thr2 →
    trun (Ds.init d max) os = some s →
    bmc l so mo parent ps e s = some (s', st, some r) →
    HeardEnough r.pid e.thr1 os

/-- The code reads the clock again when it deletes the unselected masters.  If
the winner's announces leave the window between the two readings, the best index
is not adjusted and a different record — here one heard only once — is used. -/
theorem C10_violated : ¬ C10_statement := by
  intro h
  let a : Ann := { ann0 with src := ⟨2, 1⟩, gmId := 2, cls := 200 }
  let b : Ann := { ann0 with src := ⟨3, 1⟩, gmId := 3, cls := 6 }
  let u : Ann := { ann0 with src := ⟨4, 1⟩, gmId := 4, cls := 248 }
  have := h 16 ann0
    [.announce a.src a 0, .announce b.src b 1, .announce b.src b 2, .announce a.src a 3,
     .announce a.src a 4, .announce u.src u 5]
    ⟨[{ pid := ⟨2, 1⟩, data := a, times := [4, 3], tw := 1, tc := 2 },
      { pid := ⟨3, 1⟩, data := b, times := [1, 2], tw := 0, tc := 2 },
      { pid := ⟨4, 1⟩, data := u, times := [5, 0], tw := 1, tc := 1 }] ++ List.replicate 13 (Rec.blank ann0), 3, 3, 0⟩
    ⟨[{ pid := ⟨3, 1⟩, data := b, times := [1, 2], tw := 0, tc := 2 },
      { pid := ⟨4, 1⟩, data := u, times := [5, 0], tw := 1, tc := 1 },
      { pid := ⟨4, 1⟩, data := u, times := [5, 0], tw := 1, tc := 1 }] ++ List.replicate 13 (Rec.blank ann0), 2, 2, 1⟩
    loc0 true false 0 .listening .slave ⟨1, 2, 0⟩
    { pid := ⟨4, 1⟩, data := u, times := [5, 0], tw := 1, tc := 1 }
    (by decide) (by decide) (by decide) (by decide)
  revert this; unfold HeardEnough; decide

/-- With one clock reading, the elected record was heard at least twice inside
the window, is fewer than 255 steps away, and (if the discriminator is enabled)
is close enough to it. -/
theorem C10_elected_partial (max : Nat) (d : Ann) (os : List TOp) (s s' : Ds Ann) (l : Local)
    (so mo : Bool) (parent : Nat) (ps st : PState) (e : BmcEnv) (r : Rec Ann)
    (hmono : (allArrivals os).Pairwise (· ≤ ·)) (hthr : e.thr1 = e.thr2)
    (hrun : trun (Ds.init d max) os = some s)
    (hb : bmc l so mo parent ps e s = some (s', st, some r)) :
    HeardEnough r.pid e.thr1 os ∧ r.data.steps < 255 ∧
    (l.discOffset ≠ 0 → ∃ o, r.data.offset = some o ∧
      o - l.discOffset < l.discThreshold ∧ l.discOffset - o < l.discThreshold) := by
  have hi := inv_run os (inv_init d max) hrun
  simp only [List.nil_append] at hi
  have hq : r ∈ s.recs ∧ qualification l e.thr1 r = .qualified := by
    simp only [bmc] at hb
    split at hb
    · cases hb
    · split at hb
      · rename_i b dd hel
        have hel' : (elect l parent e.thr1 s.live).1 = some b := by rw [hel]
        obtain ⟨x, hx, hxq⟩ := elect_some hel'
        have hdb := delete_best (s := { s with best := b }) (thr := e.thr2) (l := l)
          (r := x) hx (by rw [← hthr]; exact hxq)
        have hrec : (deleteUnselected l e.thr2 { s with best := b }).recs[
            (deleteUnselected l e.thr2 { s with best := b }).best]? = some x := by
          simp only [Ds.live, List.getElem?_take] at hdb
          split at hdb
          · exact hdb
          · cases hdb
        rw [hrec] at hb
        simp only [Option.some.injEq, Prod.mk.injEq] at hb
        obtain ⟨_, _, rfl⟩ := hb
        exact ⟨List.mem_of_mem_take (List.mem_of_getElem? hx), hxq⟩
      · cases hb
  obtain ⟨hrm, hq⟩ := hq
  obtain ⟨h, hR, hsub⟩ := hi.ring r hrm
  simp only [qualification] at hq
  split at hq
  · cases hq
  · rename_i hann
    split at hq
    · cases hq
    · rename_i hdisc
      split at hq
      · cases hq
      · rename_i hst
        refine ⟨?_, by omega, ?_⟩
        · have hann' : ¬ r.tc < threshold ∧ r.earliestOk e.thr1 = true := by
            constructor
            · exact fun h => hann (Or.inl h)
            · cases hc : r.earliestOk e.thr1 with
              | true => rfl
              | false => exact absurd (Or.inr (by simp [hc])) hann
          rw [hR.earliestOk] at hann'
          have hs : (arrivals r.pid os).Pairwise (fun a b => b ≤ a) := by
            have := List.Pairwise.sublist (arrivals_sub r.pid os) hmono
            rwa [List.pairwise_reverse] at this
          rw [second_iff_count (hs.sublist hsub)] at hann'
          have := (hsub.filter (fun t => decide (e.thr1 ≤ t))).length_le
          exact Nat.le_trans hann' this
        · intro hne
          simp only [discBad, hne, if_false] at hdisc
          cases ho : r.data.offset with
          | none => rw [ho] at hdisc; simp at hdisc
          | some o =>
            rw [ho] at hdisc
            refine ⟨o, rfl, ?_⟩
            simp only [decide_eq_true_eq] at hdisc
            split at hdisc <;> constructor <;> grind

/-- The hypotheses are met by a port that hears one good and one new master. -/
example :
    let u : Ann := { ann0 with src := ⟨4, 1⟩, gmId := 4, cls := 5 }
    ((trun (Ds.init ann0 4) [.announce ann0.src ann0 1, .announce u.src u 2, .announce ann0.src ann0 3]).bind
      (fun s => bmc loc0 true false 0 .listening ⟨0, 0, 0⟩ s)).map (fun x => (x.2.2.map (·.pid), x.2.1))
      = some (some ⟨1, 1⟩, .slave) := by decide

/-! ## C11: the table under any history -/

/-- C11, capacity: whatever the history, the table never holds more records than
its capacity and its size never changes. -/
theorem C11_capacity_partial (max : Nat) (d : Ann) (os : List TOp) (s : Ds Ann)
    (h : trun (Ds.init d max) os = some s) :
    s.live.length ≤ max ∧ s.num = s.live.length ∧ s.recs.length = max ∧ s.wr ≤ max := by
  have hi := inv_run os (inv_init d max) h
  have := hi.len; have := hi.num; have := hi.wr
  simp [Ds.live]; omega

/-- C11, expiry: when the run completes, exactly the records whose newest announce
is at or after the threshold remain, in their order. -/
theorem C11_expiry_partial (max : Nat) (d : Ann) (os : List TOp) (s s' : Ds Ann) (thr : Int)
    (h : trun (Ds.init d max) os = some s) (he : s.expire thr = some s') :
    s'.live.Sublist s.live ∧
    ∀ r, r ∈ s'.live ↔ r ∈ s.live ∧ ∃ hist, Ring r hist ∧ hist.Sublist (arrivals r.pid os) ∧
      ∃ t, hist.head? = some t ∧ thr ≤ t := by
  have hi := inv_run os (inv_init d max) h
  simp only [List.nil_append] at hi
  have := hi.len; have := hi.num
  obtain ⟨h1, _⟩ := expire_spec (by omega) he
  refine ⟨by rw [h1]; exact List.filter_sublist, fun r => ?_⟩
  rw [h1, List.mem_filter]
  constructor
  · rintro ⟨hr, hok⟩
    obtain ⟨hh, hR, hs⟩ := hi.ring r (List.mem_of_mem_take hr)
    obtain ⟨x, hx, hle⟩ := (hR.latestOk thr).1 hok
    exact ⟨hr, hh, hR, hs, x, by rw [List.head?_eq_getElem?]; exact hx, hle⟩
  · rintro ⟨hr, hh, hR, _, x, hx, hle⟩
    exact ⟨hr, (hR.latestOk thr).2 ⟨x, by rw [← List.head?_eq_getElem?]; exact hx, hle⟩⟩

example : ((trun (Ds.init ann0 8) [.announce ⟨1, 1⟩ ann0 1, .announce ⟨2, 1⟩ ann0 2, .announce ⟨3, 1⟩ ann0 3,
      .announce ⟨1, 1⟩ ann0 4, .expire 3]).map (fun s => s.live.map (·.pid)))
    = some [⟨1, 1⟩, ⟨3, 1⟩] := by decide

/-- C11, memory safety: no history reads or writes outside the table. -/
def C11_memory_statement : Prop :=
  ∀ (max : Nat) (d : Ann) (os : List TOp), 0 < max → (allArrivals os).Pairwise (· ≤ ·) →
    (trun (Ds.init d max) os).isSome

/-- Expiring one record of a full table of 16 moves memory beyond the table. -/
theorem C11_expiry_overrun : trun (Ds.init ann0 16)
    ((List.range 16).map (fun (i : Nat) => TOp.announce ⟨i, 1⟩ ann0 (i : Int)) ++ [.expire 1]) = none := by
  decide

/-- An election on a full table sets the write index to the capacity; the next new
master is then written behind the table. -/
theorem C11_memory_violated : ¬ C11_memory_statement := by
  intro h
  have := h 2 ann0 [.announce ⟨1, 1⟩ ann0 1, .announce ⟨1, 1⟩ ann0 2, .announce ⟨2, 1⟩ ann0 3,
    .elect loc0 true false 0 .listening ⟨0, 0, 0⟩, .announce ⟨3, 1⟩ ann0 4] (by decide) (by decide)
  revert this; decide

/-- C11, identities: no history leaves two records for one port identity. -/
def C11_nodup_statement : Prop :=
  ∀ (max : Nat) (d : Ann) (os : List TOp) (s : Ds Ann), (allArrivals os).Pairwise (· ≤ ·) →
    trun (Ds.init d max) os = some s → (s.live.map (·.pid)).Nodup

/-- The selected master sits in the last slot and expires: the best index then
points behind the live records, the lookup starts there and misses record 0, so
the next announce from the known master 1 creates a second record for it. -/
theorem C11_nodup_violated : ¬ C11_nodup_statement := by
  intro h
  have := h 16 ann0 [.announce ⟨1, 1⟩ ann0 0, .announce ⟨2, 1⟩ ann0 1, .announce ⟨2, 1⟩ ann0 2,
      .elect loc0 true false 0 .listening ⟨0, 0, 0⟩, .announce ⟨1, 1⟩ ann0 3, .expire 3,
      .announce ⟨1, 1⟩ ann0 4]
    ⟨[{ pid := ⟨1, 1⟩, data := ann0, times := [0, 3], tw := 0, tc := 2 },
      { pid := ⟨1, 1⟩, data := ann0, times := [4, 0], tw := 1, tc := 1 }]
      ++ List.replicate 14 (Rec.blank ann0), 2, 2, 1⟩ (by decide) (by decide)
  revert this; decide

/-! ### Histories in which the table behaves -/

/-- Table states in which the indices are where the code expects them. -/
structure Tidy (s : Ds Ann) : Prop where
  wr : s.wr = s.num
  num : s.num < s.recs.length
  best : s.best < s.num ∨ (s.num = 0 ∧ s.best = 0)

/-- Operations that leave a free slot, do not expire the selected master and do
not straddle a clock tick between the two clock readings of an election. -/
def Calm (s : Ds Ann) : TOp → Prop
  | .announce pid _ _ => (∃ r ∈ s.live, r.pid = pid) ∨ s.num + 1 < s.recs.length
  | .expire thr => s.num = 0 ∨ ∃ r, s.live[s.best]? = some r ∧ r.latestOk thr = true
  | .elect _ _ _ _ _ e => e.thr1 = e.thr2
  | .reset => True

/-- What an announce must do to the list of records: refresh the one record of
that identity, or append a new one. -/
def announceSpec (pid : PortId) (a : Ann) (now : Int) (live live' : List (Rec Ann)) : Prop :=
  (∃ pre r post, live = pre ++ r :: post ∧ r.pid = pid ∧
      live' = pre ++ ({ r with data := a }.announce now) :: post) ∨
  ((∀ r ∈ live, r.pid ≠ pid) ∧ ∃ r, live' = live ++ [r] ∧ r.pid = pid ∧ r.data = a ∧ r.tc = 1 ∧
      ∀ thr, r.latestOk thr = true ↔ thr ≤ now)

theorem set_split {l : List (Rec Ann)} {k : Nat} {r x : Rec Ann} (h : l[k]? = some r) :
    l = l.take k ++ r :: l.drop (k + 1) ∧ l.set k x = l.take k ++ x :: l.drop (k + 1) := by
  obtain ⟨hk, hr⟩ := List.getElem?_eq_some_iff.1 h
  constructor
  · rw [← hr, ← List.drop_eq_getElem_cons hk, List.take_append_drop]
  · rw [List.set_eq_take_append_cons_drop, if_pos hk]

/-- From a tidy table an announce does exactly what it must, and the table stays tidy. -/
theorem insert_tidy {s : Ds Ann} {pid : PortId} {a : Ann} {now : Int} (ht : Tidy s)
    (hc : (∃ r ∈ s.live, r.pid = pid) ∨ s.num + 1 < s.recs.length)
    (hlen : ∀ r ∈ s.recs, r.times.length = 2) :
    ∃ s' j, s.insert pid a now = some (s', j) ∧ Tidy s' ∧ announceSpec pid a now s.live s'.live := by
  have hnl := ht.num
  rcases find_spec (pid := pid) (s := s) (by omega) (by rcases ht.best with h | h <;> omega) with
    ⟨k, r, hf, hk, hr, hp⟩ | ⟨hf, hno⟩
  · refine ⟨{ s with recs := s.recs.set k ({ r with data := a }.announce now) }, k, ?_,
      ⟨ht.wr, by simpa using ht.num, ht.best⟩, ?_⟩
    · simp only [Ds.insert, hf, hr]
    · left
      have hl : s.live[k]? = some r := by simp [Ds.live, List.getElem?_take, hk, hr]
      obtain ⟨e1, e2⟩ := set_split (x := { r with data := a }.announce now) hl
      refine ⟨_, r, _, e1, hp, ?_⟩
      rw [← e2]; simp [Ds.live, List.take_set]
  · have hroom : s.num + 1 < s.recs.length := by
      rcases hc with ⟨r, hr, hp⟩ | h
      · exact absurd hp (hno r hr)
      · exact h
    have hw : (if s.wr < s.num ∧ s.wr = s.best then (s.wr + 1) % s.recs.length else s.wr) = s.num := by
      rw [if_neg (by have := ht.wr; omega)]; exact ht.wr
    have hlt : s.num < s.recs.length := hnl
    refine ⟨{ s with
        recs := s.recs.set s.num ({ s.recs[s.num] with pid := pid, data := a, tw := 0, tc := 0 }.announce now),
        num := s.num + 1, wr := s.num + 1 }, s.num, ?_, ⟨rfl, by simpa using hroom, ?_⟩, ?_⟩
    · simp only [Ds.insert, hf, hw, List.getElem?_eq_getElem hlt, if_pos hlt]
      rw [Nat.mod_eq_of_lt hroom]
    · left; rcases ht.best with h | h <;> simp only <;> omega
    · right
      refine ⟨hno, { s.recs[s.num] with pid := pid, data := a, tw := 0, tc := 0 }.announce now, ?_,
        rfl, rfl, rfl, ?_⟩
      · simp only [Ds.live]
        apply List.ext_getElem
        · simp; omega
        · intro i h1 h2
          simp at h1 h2
          simp only [List.getElem_take, List.getElem_set, List.getElem_append, List.length_take,
            List.getElem_singleton]
          by_cases hi : s.num = i
          · subst hi; simp; omega
          · simp [hi]; omega
      · intro thr
        have hR := (Ring.nil ({ s.recs[s.num] with pid := pid, data := a } : Rec Ann)
          (hlen s.recs[s.num] (List.getElem_mem hlt))).announce now
        have := hR.latestOk thr
        simpa using this

theorem expireLoop_tidy (thr : Int) : ∀ fuel (s s' : Ds Ann) i,
    s.num ≤ s.recs.length → s.wr = s.num →
    (s.best < s.num ∧ ∃ r, s.recs[s.best]? = some r ∧ r.latestOk thr = true) →
    expireLoop thr fuel s i = some s' → s'.wr = s'.num ∧ s'.best < s'.num := by
  intro fuel
  induction fuel with
  | zero => intro s s' i _ hw hb h; simp [expireLoop] at h; subst h; exact ⟨hw, hb.1⟩
  | succ n ih =>
    intro s s' i hn hw hb h
    simp only [expireLoop] at h
    split at h
    · rename_i hi
      split at h
      · cases h
      · rename_i r hr
        split at h
        · exact ih _ _ _ hn hw hb h
        · rename_i hbad
          split at h
          · cases h
          · rename_i recs hsh
            obtain ⟨hbn, rb, hrb, hok⟩ := hb
            have hne : s.best ≠ i := by
              intro e; rw [e, hr] at hrb; cases hrb; exact hbad hok
            have hl := shift_len hsh
            refine ih _ _ _ (by simp; omega) ?_ ?_ h
            · simp only; rw [if_pos (by omega)]; omega
            · simp only
              simp only [shift] at hsh
              split at hsh
              · cases hsh
                by_cases hlt : i < s.best
                · rw [if_pos hlt]
                  refine ⟨by omega, rb, ?_, hok⟩
                  rw [← hrb, List.append_assoc, List.getElem?_append_right (by simp; omega),
                    List.getElem?_append_left (by simp; omega), List.getElem?_take,
                    if_pos (by simp; omega), List.getElem?_drop]
                  congr 1; simp; omega
                · rw [if_neg hlt]
                  refine ⟨by omega, rb, ?_, hok⟩
                  rw [← hrb, List.append_assoc, List.getElem?_append_left (by simp; omega),
                    List.getElem?_take, if_pos (by omega)]
              · cases hsh
    · cases h; exact ⟨hw, hb.1⟩

theorem tidy_step {s s' : Ds Ann} {o : TOp} (ht : Tidy s) (hlen : ∀ r ∈ s.recs, r.times.length = 2)
    (hc : Calm s o) (h : tstep s o = some s') : Tidy s' := by
  have hnl := ht.num
  cases o with
  | announce pid a now =>
    obtain ⟨t, j, h1, h2, _⟩ := insert_tidy (a := a) (now := now) ht hc hlen
    simp only [tstep, h1, Option.map_some, Option.some.injEq] at h
    subst h; exact h2
  | expire thr =>
    obtain ⟨e1, e2, e3, e4⟩ := expire_spec (by omega) h
    rcases hc with hz | ⟨r, hr, hok⟩
    · simp only [tstep, Ds.expire, hz, expireLoop, Option.some.injEq] at h
      subst h; exact ht
    · have hr2 := hr
      simp only [Ds.live, List.getElem?_take] at hr2
      split at hr2
      · rename_i hbn
        obtain ⟨h1, h2⟩ := expireLoop_tidy thr _ _ _ _ (by omega) ht.wr ⟨hbn, r, hr2, hok⟩ h
        exact ⟨h1, by omega, Or.inl h2⟩
      · cases hr2
  | elect l so mo parent ps e =>
    simp only [tstep, bmc] at h
    split at h
    · cases h; exact ht
    · split at h
      · rename_i b d hel
        have hel' : (elect l parent e.thr1 s.live).1 = some b := by rw [hel]
        obtain ⟨x, hx, hxq⟩ := elect_some hel'
        have hdb := delete_best (s := { s with best := b }) (thr := e.thr2) (l := l)
          (r := x) hx (by rw [← show e.thr1 = e.thr2 from hc]; exact hxq)
        obtain ⟨h1, h2, h3, h4, h5⟩ := delete_sub l e.thr2 { s with best := b }
        simp only [Option.map_eq_some_iff] at h
        obtain ⟨⟨s1, st, y⟩, h, rfl⟩ := h
        split at h
        · cases h
        · simp only [Option.some.injEq, Prod.mk.injEq] at h
          obtain ⟨rfl, _, _⟩ := h
          have hle := h1.length_le
          have hll : (Ds.live { s with best := b }).length ≤ s.num := by simp [Ds.live]; omega
          have hbl := (List.getElem?_eq_some_iff.1 hdb).1
          exact ⟨h3, by rw [h4]; simp only; omega, Or.inl (by simp only; omega)⟩
      · cases h; exact ht
  | reset =>
    simp only [tstep, Ds.reset, Option.some.injEq] at h
    subst h
    exact ⟨rfl, by simp only; omega, Or.inr ⟨rfl, rfl⟩⟩

theorem nodup_step {s s' : Ds Ann} {o : TOp} (ht : Tidy s) (hlen : ∀ r ∈ s.recs, r.times.length = 2)
    (hc : Calm s o) (hd : (s.live.map (·.pid)).Nodup) (h : tstep s o = some s') :
    (s'.live.map (·.pid)).Nodup := by
  have hnl := ht.num
  cases o with
  | announce pid a now =>
    obtain ⟨t, j, h1, _, h3⟩ := insert_tidy (a := a) (now := now) ht hc hlen
    simp only [tstep, h1, Option.map_some, Option.some.injEq] at h
    subst h
    rcases h3 with ⟨pre, r, post, e1, hp, e2⟩ | ⟨hno, r, e, hp, _⟩
    · rw [e2]; rw [e1] at hd
      simpa [Rec.announce] using hd
    · rw [e, List.map_append, List.nodup_append]
      refine ⟨hd, by simp, ?_⟩
      intro x hx y hy
      simp only [List.map_cons, List.map_nil, List.mem_singleton] at hy
      obtain ⟨z, hz, rfl⟩ := List.mem_map.1 hx
      rw [hy, hp]; exact hno z hz
  | expire thr =>
    obtain ⟨e1, _⟩ := expire_spec (by omega) h
    rw [e1]
    exact hd.sublist (List.filter_sublist.map _)
  | elect l so mo parent ps e =>
    simp only [tstep, bmc] at h
    split at h
    · cases h; exact hd
    · split at h
      · rename_i b d hel
        obtain ⟨h1, _⟩ := delete_sub l e.thr2 { s with best := b }
        simp only [Option.map_eq_some_iff] at h
        obtain ⟨⟨s1, st, y⟩, h, rfl⟩ := h
        split at h
        · cases h
        · simp only [Option.some.injEq, Prod.mk.injEq] at h
          obtain ⟨rfl, _, _⟩ := h
          exact hd.sublist (h1.map _)
      · cases h; exact hd
  | reset =>
    simp only [tstep, Ds.reset, Option.some.injEq] at h
    subst h; simp [Ds.live]

/-- A history all of whose operations are calm where they happen. -/
def CalmRun (s : Ds Ann) : List TOp → Prop
  | [] => True
  | o :: os => Calm s o ∧ ∀ s', tstep s o = some s' → CalmRun s' os

theorem tidy_run {max : Nat} (os : List TOp) : ∀ {log : List TOp} {s s' : Ds Ann}, Inv max log s →
    Tidy s → (s.live.map (·.pid)).Nodup → CalmRun s os → trun s os = some s' →
    Tidy s' ∧ (s'.live.map (·.pid)).Nodup := by
  induction os with
  | nil => intro log s s' _ ht hd _ h; simp [trun] at h; subst h; exact ⟨ht, hd⟩
  | cons o os ih =>
    intro log s s' hi ht hd hc h
    simp only [trun] at h
    split at h
    · cases h
    · rename_i s1 h1
      have hlen : ∀ r ∈ s.recs, r.times.length = 2 := by
        intro r hr; obtain ⟨_, hR, _⟩ := hi.ring r hr; exact hR.len
      exact ih (inv_step o hi h1) (tidy_step ht hlen hc.1 h1) (nodup_step ht hlen hc.1 hd h1)
        (hc.2 s1 h1) h

/-- C11 for histories in which the table never fills up, the selected master does
not expire and an election sees one clock reading: no two records share an
identity, and an announce refreshes the record of a known master or appends a
record for a new one, without touching memory outside the table.  Missing from
the full statement: exactly those three kinds of history, for which it is false. -/
theorem C11_update_partial (max : Nat) (d : Ann) (os : List TOp) (s : Ds Ann) (hmax : 0 < max)
    (hc : CalmRun (Ds.init d max) os) (h : trun (Ds.init d max) os = some s)
    (pid : PortId) (a : Ann) (now : Int) (hroom : Calm s (.announce pid a now)) :
    (s.live.map (·.pid)).Nodup ∧
    ∃ s' j, s.insert pid a now = some (s', j) ∧ announceSpec pid a now s.live s'.live := by
  have hi := inv_run os (inv_init d max) h
  have ht0 : Tidy (Ds.init d max) :=
    ⟨rfl, by simpa [Ds.init] using hmax, Or.inr ⟨rfl, rfl⟩⟩
  obtain ⟨ht, hd⟩ := tidy_run os (inv_init d max) ht0 (by simp [Ds.init, Ds.live]) hc h
  have hlen : ∀ r ∈ s.recs, r.times.length = 2 := by
    intro r hr; obtain ⟨_, hR, _⟩ := hi.ring r hr; exact hR.len
  obtain ⟨s', j, h1, _, h3⟩ := insert_tidy (a := a) (now := now) ht hroom hlen
  exact ⟨hd, s', j, h1, h3⟩

/-- A calm history: two masters announce, one is elected, the other ages out. -/
example : CalmRun (Ds.init ann0 8) [.announce ⟨1, 1⟩ ann0 1, .announce ⟨2, 1⟩ ann0 2,
    .announce ⟨1, 1⟩ ann0 4, .elect loc0 true false 0 .listening ⟨0, 0, 0⟩, .expire 3] := by
  refine ⟨Or.inr (by decide), fun s1 h1 => ?_⟩
  cases h1
  refine ⟨Or.inr (by decide), fun s2 h2 => ?_⟩
  cases h2
  refine ⟨Or.inr (by decide), fun s3 h3 => ?_⟩
  cases h3
  refine ⟨rfl, fun s4 h4 => ?_⟩
  cases h4
  exact ⟨Or.inr ⟨_, rfl, by decide⟩, fun _ _ => trivial⟩

end Verif.Bmc
