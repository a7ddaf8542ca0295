import Verif.Bmc.Lemmas
/-!
# Properties C08 and C09: the election and the port state machine
-/
set_option linter.unusedSimpArgs false

namespace Verif.Bmc
open Verif.Foreign

/-! ## C08: the comparison is a consistent ordering -/

/-- An announce data set used in the examples. -/
def ann0 : Ann :=
  { src := ⟨1, 1⟩, utcValid := true, gmId := 100, prio1 := 128, cls := 6, acc := 0x21, var := 0x4e5d,
    prio2 := 128, steps := 0, offset := none }

theorem three_neg (a b : Nat) (r : Int) : three a b r = - three b a (-r) := by
  simp only [three]; repeat' split
  all_goals omega

theorem three_lt (a b : Nat) (r : Int) : three a b r < 0 ↔ a < b ∨ a = b ∧ r < 0 := by
  simp only [three]; repeat' split
  all_goals omega

theorem three_eq (a b : Nat) (r : Int) : three a b r = 0 ↔ a = b ∧ r = 0 := by
  simp only [three]; repeat' split
  all_goals omega

/-- C08, first half: the two orders of the arguments give mirror-image verdicts. -/
def C08_mirror_statement : Prop :=
  ∀ (u : Bool) (parent : Nat) (a b : Ann), compare u parent a b = - compare u parent b a

/-- Two masters announcing one grandmaster one step apart: each order of the
comparison says "the first is better". -/
theorem C08_mirror_violated : ¬ C08_mirror_statement := by
  intro h
  have := h false 10 { ann0 with src := ⟨5, 1⟩, steps := 1 } { ann0 with src := ⟨6, 1⟩, steps := 2 }
  revert this; decide

/-- The verdicts mirror each other unless both masters announce the same
grandmaster with step counts that differ by exactly one. -/
theorem C08_mirror_partial (u : Bool) (parent : Nat) (a b : Ann)
    (h : a.gmId ≠ b.gmId ∨ (a.steps + 1 ≠ b.steps ∧ b.steps + 1 ≠ a.steps)) :
    compare u parent a b = - compare u parent b a := by
  simp only [compare]
  by_cases hg : a.gmId = b.gmId
  · rw [if_pos hg, if_pos hg.symm]
    have : a.steps + 1 ≠ b.steps ∧ b.steps + 1 ≠ a.steps := by simpa [hg] using h
    have e1 : three b.src.clock a.src.clock (three b.src.port a.src.port 0)
        = - three a.src.clock b.src.clock (three a.src.port b.src.port 0) := by
      rw [three_neg b.src.clock, three_neg b.src.port]; simp
    rw [e1]
    repeat' split
    all_goals omega
  · have hg' : ¬ b.gmId = a.gmId := fun e => hg e.symm
    rw [if_neg hg, if_neg hg']
    rw [three_neg b.prio1, three_neg b.cls, three_neg b.acc, three_neg b.var, three_neg b.prio2,
      three_neg b.gmId]
    cases u <;> cases a.utcValid <;> cases b.utcValid <;> simp

example : compare true 7 ann0 { ann0 with gmId := 99, utcValid := false } = -1 ∧
    compare true 7 { ann0 with gmId := 99, utcValid := false } ann0 = 1 := by decide

/-- Specification of the ranking, most significant field first; smaller is better.
UTC validity counts only when the administrator asked for it. -/
def rankKey (u : Bool) (a : Ann) : List Nat :=
  [a.prio1, if u && !a.utcValid then 1 else 0, a.cls, a.acc, a.var, a.prio2, a.gmId,
   a.steps, a.src.clock, a.src.port]

/-- The set of data sets is regular: announces of one grandmaster agree on that
grandmaster's attributes, and their step counts never differ by exactly one. -/
def Regular (S : List Ann) : Prop :=
  ∀ a ∈ S, ∀ b ∈ S, a.gmId = b.gmId →
    a.prio1 = b.prio1 ∧ a.utcValid = b.utcValid ∧ a.cls = b.cls ∧ a.acc = b.acc ∧
    a.var = b.var ∧ a.prio2 = b.prio2 ∧ a.steps + 1 ≠ b.steps

/-- On a regular set the comparison is the lexicographic order of `rankKey`; in
particular it is irreflexive, transitive and total up to equal keys. -/
theorem C08_ranking_partial (u : Bool) (parent : Nat) (S : List Ann) (hS : Regular S)
    (a b : Ann) (ha : a ∈ S) (hb : b ∈ S) :
    (compare u parent a b < 0 ↔ rankKey u a < rankKey u b) ∧
    (compare u parent a b = 0 ↔ rankKey u a = rankKey u b) := by
  have h1 := hS a ha b hb
  have h2 := hS b hb a ha
  simp only [rankKey, List.cons_lt_cons_iff, List.cons.injEq, and_true, compare]
  have hnil : ¬ (([] : List Nat) < []) := by simp
  by_cases hg : a.gmId = b.gmId
  · obtain ⟨e1, e2, e3, e4, e5, e6, e7⟩ := h1 hg
    have e8 := (h2 hg.symm).2.2.2.2.2.2
    rw [if_pos hg]
    simp only [e1, e2, e3, e4, e5, e6, hg, hnil, Nat.lt_irrefl, true_and, false_or, and_false, or_false]
    by_cases c1 : b.steps + 1 < a.steps
    · simp only [c1, if_true]; omega
    · by_cases c2 : a.steps + 1 < b.steps
      · simp only [c1, c2, if_true, if_false]; omega
      · have c3 : a.steps = b.steps := by omega
        simp only [c3, Nat.lt_irrefl, if_false, show ¬ (b.steps + 1 < b.steps) by omega]
        simp only [three_lt, three_eq, Int.lt_irrefl, and_false, or_false, true_and, false_or, and_true]
  · rw [if_neg hg]
    simp only [hg, hnil, and_false, or_false, false_and]
    cases u <;> cases a.utcValid <;> cases b.utcValid <;>
      simp [three_lt, three_eq, hg]

example : Regular [ann0, { ann0 with src := ⟨9, 1⟩, steps := 2 }, { ann0 with gmId := 7, cls := 248 }] := by
  intro a ha b hb
  simp only [List.mem_cons, List.not_mem_nil, or_false] at ha hb
  rcases ha with rfl | rfl | rfl <;> rcases hb with rfl | rfl | rfl <;> simp [ann0]

/-- The masters eligible in a table. -/
def eligible (l : Local) (thr : Int) (live : List (Rec Ann)) : List (Rec Ann) :=
  live.filter (fun r => qualification l thr r = .qualified)

/-- C08, second half: the elected master does not depend on the order of hearing. -/
def C08_order_statement : Prop :=
  ∀ (l : Local) (parent : Nat) (thr : Int) (live live' : List (Rec Ann)), live.Perm live' →
    (live.map (·.pid)).Nodup → (∀ r ∈ live, r.pid = r.data.src) →
    (elect l parent thr live).1.bind (live[·]?) = (elect l parent thr live').1.bind (live'[·]?)

/-- A local data set and records used in the examples. -/
def loc0 : Local :=
  { clockId := 50, prio1 := 128, cls := 248, acc := 0xfe, var := 0xffff, prio2 := 128, utcValid := false,
    preferUtcValid := false, discOffset := 0, discThreshold := 0 }

/-- A record that heard two announces at time `t`. -/
def rec2 (a : Ann) (t : Int) : Rec Ann := { pid := a.src, data := a, times := [t, t], tw := 0, tc := 2 }

theorem C08_order_violated : ¬ C08_order_statement := by
  intro h
  have := h loc0 10 0
    [rec2 { ann0 with src := ⟨5, 1⟩, steps := 1 } 1, rec2 { ann0 with src := ⟨6, 1⟩, steps := 2 } 1]
    [rec2 { ann0 with src := ⟨6, 1⟩, steps := 2 } 1, rec2 { ann0 with src := ⟨5, 1⟩, steps := 1 } 1]
    (List.Perm.swap _ _ _) (by decide) (by decide)
  revert this; decide

/-- Minimality kept by the second loop. -/
theorem scan_min (l : Local) (parent : Nat) (thr : Int) (S : List Ann) (hS : Regular S) :
    ∀ rs i sc (seen : List Ann),
    (∀ r ∈ rs, r.data ∈ S) → sc.best ∈ S → (∀ a ∈ seen, a ∈ S) →
    (∀ a ∈ seen, ¬ rankKey l.preferUtcValid a < rankKey l.preferUtcValid sc.best) →
    ∀ a, (a ∈ seen ∨ a ∈ (eligible l thr rs).map (·.data)) →
      ¬ rankKey l.preferUtcValid a < rankKey l.preferUtcValid (scan l parent thr rs i sc).best := by
  intro rs
  induction rs with
  | nil => intro i sc seen _ _ _ h a ha; simp [eligible] at ha; exact h a ha
  | cons r rs ih =>
    intro i sc seen hrs hb hseen hmin a ha
    simp only [scan]
    have hr : r.data ∈ S := hrs r (by simp)
    have hrs' : ∀ x ∈ rs, x.data ∈ S := fun x hx => hrs x (List.mem_cons_of_mem _ hx)
    by_cases hq : qualification l thr r = .qualified
    · have hsc : (scanStep l parent thr sc i r).best
          = if compare l.preferUtcValid parent r.data sc.best < 0 then r.data else sc.best := by
        simp [scanStep, hq]
      have hord := (C08_ranking_partial l.preferUtcValid parent S hS r.data sc.best hr hb).1
      refine ih (i + 1) _ (r.data :: seen) hrs' ?_ ?_ ?_ a ?_
      · rw [hsc]; split <;> assumption
      · intro x hx; rcases List.mem_cons.1 hx with rfl | hx
        · exact hr
        · exact hseen x hx
      · intro x hx
        rw [hsc]
        split
        · rename_i hlt
          rw [hord] at hlt
          rcases List.mem_cons.1 hx with rfl | hx
          · exact List.lt_irrefl _
          · intro hx2; exact hmin x hx (List.lt_trans hx2 hlt)
        · rename_i hlt
          rw [hord] at hlt
          rcases List.mem_cons.1 hx with rfl | hx
          · exact hlt
          · exact hmin x hx
      · rcases ha with ha | ha
        · left; exact List.mem_cons_of_mem _ ha
        · simp only [eligible, List.filter_cons, hq, decide_true, if_true, List.map_cons,
            List.mem_cons] at ha
          rcases ha with rfl | ha
          · left; simp
          · right; exact ha
    · have hsc : (scanStep l parent thr sc i r).best = sc.best := by
        simp only [scanStep]; split <;> simp_all
      refine ih (i + 1) _ seen hrs' (by rw [hsc]; exact hb) hseen (by rw [hsc]; exact hmin) a ?_
      rcases ha with ha | ha
      · exact Or.inl ha
      · right
        simpa [eligible, List.filter_cons, hq] using ha

/-- Distinct keys make the second loop record a result as soon as it has seen two. -/
theorem scan_result (l : Local) (parent : Nat) (thr : Int) (S : List Ann) (hS : Regular S) :
    ∀ rs i sc, (∀ r ∈ rs, r.data ∈ S) → sc.best ∈ S →
    (∀ r ∈ rs, rankKey l.preferUtcValid r.data ≠ rankKey l.preferUtcValid sc.best) →
    (rs.Pairwise (fun a b => rankKey l.preferUtcValid a.data ≠ rankKey l.preferUtcValid b.data)) →
    (sc.hadResult = true ∨ sc.count = 1) →
    (scan l parent thr rs i sc).hadResult = true ∨ (scan l parent thr rs i sc).count = 1 := by
  intro rs
  induction rs with
  | nil => intro i sc _ _ _ _ h; exact h
  | cons r rs ih =>
    intro i sc hrs hb hne hpw hres
    simp only [scan]
    have hr : r.data ∈ S := hrs r (by simp)
    have hrs' : ∀ x ∈ rs, x.data ∈ S := fun x hx => hrs x (List.mem_cons_of_mem _ hx)
    have hpw' := List.pairwise_cons.1 hpw
    by_cases hq : qualification l thr r = .qualified
    · have hsc : (scanStep l parent thr sc i r).best
          = if compare l.preferUtcValid parent r.data sc.best < 0 then r.data else sc.best := by
        simp [scanStep, hq]
      have hz := (C08_ranking_partial l.preferUtcValid parent S hS r.data sc.best hr hb).2
      have hnz : compare l.preferUtcValid parent r.data sc.best ≠ 0 := by
        rw [Ne, hz]; exact hne r (by simp)
      refine ih (i + 1) _ hrs' ?_ ?_ hpw'.2 ?_
      · rw [hsc]; split <;> assumption
      · intro x hx; rw [hsc]; split
        · exact fun e => hpw'.1 x hx e.symm
        · exact hne x (List.mem_cons_of_mem _ hx)
      · left; simp [scanStep, hq, hnz]
    · have hsc : (scanStep l parent thr sc i r).best = sc.best ∧
          (scanStep l parent thr sc i r).hadResult = sc.hadResult ∧
          (scanStep l parent thr sc i r).count = sc.count := by
        simp only [scanStep]; split <;> simp_all
      refine ih (i + 1) _ hrs' (by rw [hsc.1]; exact hb) ?_ hpw'.2 (by rw [hsc.2.1, hsc.2.2]; exact hres)
      intro x hx; rw [hsc.1]; exact hne x (List.mem_cons_of_mem _ hx)

/-- On a regular table with distinct senders, some master is elected as soon as
one is eligible, it is eligible, and it ranks strictly before every other
eligible master. -/
theorem C08_best_partial (l : Local) (parent : Nat) (thr : Int) (live : List (Rec Ann))
    (hS : Regular (live.map (·.data))) (hd : (live.map (·.data.src)).Nodup)
    (hex : ∃ r ∈ live, qualification l thr r = .qualified) :
    ∃ b r, (elect l parent thr live).1 = some b ∧ live[b]? = some r ∧
      qualification l thr r = .qualified ∧
      ∀ x ∈ live, qualification l thr x = .qualified →
        x = r ∨ rankKey l.preferUtcValid r.data < rankKey l.preferUtcValid x.data := by
  have hkey : ∀ a ∈ live, ∀ b ∈ live, rankKey l.preferUtcValid a.data = rankKey l.preferUtcValid b.data →
      a.data.src = b.data.src := by
    intro a _ b _ h
    simp only [rankKey, List.cons.injEq] at h
    have := h.2.2.2.2.2.2.2.2.1; have h' := h.2.2.2.2.2.2.2.2.2.1
    cases ha : a.data.src; cases hb : b.data.src; simp_all
  have hpwsrc : live.Pairwise (fun a b => a.data.src ≠ b.data.src) := by
    rw [List.Nodup, List.pairwise_map] at hd; exact hd
  have hpwk : live.Pairwise
      (fun a b => rankKey l.preferUtcValid a.data ≠ rankKey l.preferUtcValid b.data) := by
    rw [List.pairwise_iff_forall_sublist] at hpwsrc ⊢
    intro a b hab h
    exact hpwsrc hab (hkey a (hab.subset (by simp)) b (hab.subset (by simp)) h)
  cases hf : firstQual l thr live 0 false with
  | mk i rest =>
  obtain ⟨bq, d⟩ := rest
  obtain ⟨h1, h2⟩ := firstQual_spec l thr live 0 false i bq d hf
  cases bq with
  | false =>
    obtain ⟨r, hr, hq⟩ := hex
    exact absurd hq (h2 rfl r hr)
  | true =>
    obtain ⟨_, r, hr, hq, hbefore⟩ := h1 rfl
    simp only [Nat.sub_zero] at hr hbefore
    have hlt : i < live.length := by
      rw [List.getElem?_eq_some_iff] at hr; exact hr.1
    have hri : live[i] = r := by rw [List.getElem?_eq_some_iff] at hr; exact hr.2
    have hsplit : live = live.take i ++ r :: live.drop (i + 1) := by
      rw [← hri, ← List.drop_eq_getElem_cons hlt, List.take_append_drop]
    have hrm : r ∈ live := List.mem_of_getElem? hr
    have hpw2 : (r :: live.drop (i + 1)).Pairwise
        (fun a b => rankKey l.preferUtcValid a.data ≠ rankKey l.preferUtcValid b.data) := by
      rw [hsplit, List.pairwise_append] at hpwk; exact hpwk.2.1
    obtain ⟨hpa, hpb⟩ := List.pairwise_cons.1 hpw2
    let sc0 : Scan := { besti := i, best := r.data, count := 1, hadResult := false, disc := d }
    have hmem : ∀ x ∈ live.drop (i + 1), x.data ∈ live.map (·.data) :=
      fun x hx => List.mem_map_of_mem (f := (·.data)) (List.mem_of_mem_drop hx)
    have hrd : r.data ∈ live.map (·.data) := List.mem_map_of_mem (f := (·.data)) hrm
    have hres := scan_result l parent thr _ hS (live.drop (i + 1)) (i + 1) sc0 hmem hrd
      (fun x hx => fun e => hpa x hx e.symm) hpb (Or.inr rfl)
    have hmin := scan_min l parent thr _ hS (live.drop (i + 1)) (i + 1) sc0 [r.data] hmem hrd
      (by simpa using hrd) (by simp [sc0, List.lt_irrefl])
    have hbst := scan_best l parent thr live (live.drop (i + 1)) (i + 1) sc0
      (by intro k; simp [List.getElem?_drop]) ⟨r, hr, rfl, hq⟩
    obtain ⟨x, hx, hxd, hxq⟩ := hbst
    have hel : (elect l parent thr live).1
        = some (scan l parent thr (live.drop (i + 1)) (i + 1) sc0).besti := by
      simp only [elect, hf, hr]
      rw [if_pos (by simpa [sc0] using hres)]
    refine ⟨_, x, hel, hx, hxq, ?_⟩
    intro y hy hyq
    have hxm : x ∈ live := List.mem_of_getElem? hx
    have hny : ¬ rankKey l.preferUtcValid y.data < rankKey l.preferUtcValid x.data := by
      rw [hxd]
      apply hmin
      rw [hsplit] at hy
      rcases List.mem_append.1 hy with hy | hy
      · exact absurd hyq (hbefore y hy)
      · rcases List.mem_cons.1 hy with rfl | hy
        · left; simp
        · right; exact List.mem_map_of_mem (f := fun r : Rec Ann => r.data) (by simp [eligible, hy, hyq])
    by_cases hxy : y = x
    · exact Or.inl hxy
    · right
      have hne : rankKey l.preferUtcValid x.data ≠ rankKey l.preferUtcValid y.data := by
        intro e
        have hsrc := hkey x hxm y hy e
        apply hxy
        obtain ⟨m, hm, hmx⟩ := List.getElem_of_mem hy
        obtain ⟨n, hn, hnx⟩ := List.getElem_of_mem hxm
        have hinj : m = n := (List.getElem_inj (xs := live.map (·.data.src)) (i := m) (j := n)
          (h₀ := by simpa using hm) (h₁ := by simpa using hn) hd).1 (by simp [hmx, hnx, hsrc])
        subst hinj
        rw [← hmx, ← hnx]
      rcases List.le_iff_lt_or_eq.1 (List.not_lt.1 hny) with h | h
      · exact h
      · exact absurd h hne

example : (elect loc0 10 0 [rec2 { ann0 with src := ⟨5, 1⟩, steps := 3 } 1, rec2 ann0 1,
      rec2 { ann0 with gmId := 4, src := ⟨4, 1⟩, cls := 7 } 1]).1 = some 1 := by decide

/-- On regular tables with distinct senders the elected master does not depend on
the order in which the masters were heard. -/
theorem C08_order_partial (l : Local) (parent : Nat) (thr : Int) (live live' : List (Rec Ann))
    (hp : live.Perm live')
    (hS : Regular (live.map (·.data))) (hd : (live.map (·.data.src)).Nodup) :
    (elect l parent thr live).1.bind (live[·]?) = (elect l parent thr live').1.bind (live'[·]?) := by
  have hS' : Regular (live'.map (·.data)) := by
    intro a ha b hb
    exact hS a ((hp.map _).mem_iff.2 ha) b ((hp.map _).mem_iff.2 hb)
  have hd' : (live'.map (·.data.src)).Nodup := (hp.map _).nodup_iff.1 hd
  by_cases hex : ∃ r ∈ live, qualification l thr r = .qualified
  · have hex' : ∃ r ∈ live', qualification l thr r = .qualified := by
      obtain ⟨r, hr, hq⟩ := hex; exact ⟨r, hp.mem_iff.1 hr, hq⟩
    obtain ⟨b, r, h1, h2, h3, h4⟩ := C08_best_partial l parent thr live hS hd hex
    obtain ⟨b', r', h1', h2', h3', h4'⟩ := C08_best_partial l parent thr live' hS' hd' hex'
    rw [h1, h1', Option.bind_some, Option.bind_some, h2, h2']
    have hr : r ∈ live := List.mem_of_getElem? h2
    have hr' : r' ∈ live' := List.mem_of_getElem? h2'
    rcases h4 r' (hp.mem_iff.2 hr') h3' with e | hlt
    · rw [e]
    · rcases h4' r (hp.mem_iff.1 hr) h3 with e | hlt'
      · rw [e]
      · exact absurd (List.lt_trans hlt hlt') (List.lt_irrefl _)
  · have none : ∀ L : List (Rec Ann), (¬ ∃ r ∈ L, qualification l thr r = .qualified) →
        (elect l parent thr L).1 = none := by
      intro L hL
      cases h : (elect l parent thr L).1 with
      | none => rfl
      | some b =>
        obtain ⟨r, hr, hq⟩ := elect_some h
        exact absurd ⟨r, List.mem_of_getElem? hr, hq⟩ hL
    rw [none live hex, none live' (by
      rintro ⟨r, hr, hq⟩; exact hex ⟨r, hp.mem_iff.2 hr, hq⟩)]
    rfl

example : (elect loc0 10 0 [rec2 ann0 1, rec2 { ann0 with gmId := 4, src := ⟨4, 1⟩, cls := 5 } 1]).1 = some 1 ∧
    (elect loc0 10 0 [rec2 { ann0 with gmId := 4, src := ⟨4, 1⟩, cls := 5 } 1, rec2 ann0 1]).1 = some 0 := by
  decide

/-! ## C09: a slave-only port never chooses to be master or passive -/

/-- Whatever the local data set, the heard masters, the clock and the current
state: the recommendation of the election to a slave-only port is MASTER or
PASSIVE only if the port already is in that state (and nothing is decided). -/
theorem C09_recommendation (l : Local) (mo : Bool) (parent : Nat) (ps : PState) (e : BmcEnv)
    (s s' : Ds Ann) (st : PState) (best : Option (Rec Ann))
    (h : bmc l true mo parent ps e s = some (s', st, best)) :
    (best ≠ none → st = .slave) ∧ (best = none → st = ps ∨ st = .listening) := by
  simp only [bmc] at h
  split at h
  · simp only [Option.some.injEq, Prod.mk.injEq] at h
    obtain ⟨rfl, rfl, rfl⟩ := h; simp
  · split at h
    · split at h
      · cases h
      · simp only [Option.some.injEq, Prod.mk.injEq] at h
        obtain ⟨rfl, rfl, rfl⟩ := h
        simp [stateDecision]
    · simp only [Option.some.injEq, Prod.mk.injEq] at h
      obtain ⟨rfl, rfl, rfl⟩ := h
      simp only [ne_eq, not_true, false_implies, true_and]
      intro _
      split <;> simp

example : (bmc loc0 true false 10 .listening ⟨0, 0, 0⟩
    ⟨[rec2 { ann0 with cls := 255, prio1 := 255 } 1], 1, 0, 0⟩).map (·.2.1) = some .slave := by decide

/-- Not one of the two forbidden states. -/
def Meek (st : PState) : Prop := st ≠ .master ∧ st ≠ .passive

instance (st : PState) : Decidable (Meek st) := inferInstanceAs (Decidable (_ ∧ _))

theorem meek_toState {st : PState} {p : Port} (h1 : Meek st) (h2 : Meek p.ps) : Meek (toState st p).ps := by
  simp only [toState]; split <;> assumption

theorem meek_sendFailure {p : Port} (h2 : Meek p.ps) : Meek (sendFailure p).ps := by
  simp only [sendFailure]; split <;> exact meek_toState (by decide) h2

@[simp] theorem toState_so (st : PState) (p : Port) : (toState st p).slaveOnly = p.slaveOnly := by
  simp only [toState]; split <;> rfl
@[simp] theorem toState_cfg (st : PState) (p : Port) : (toState st p).cfgSlaveOnly = p.cfgSlaveOnly := by
  simp only [toState]; split <;> rfl
@[simp] theorem toState_loc (st : PState) (p : Port) : (toState st p).loc = p.loc := by
  simp only [toState]; split <;> rfl
@[simp] theorem sendFailure_so (p : Port) : (sendFailure p).slaveOnly = p.slaveOnly := by
  simp only [sendFailure]; split <;> simp
@[simp] theorem sendFailure_cfg (p : Port) : (sendFailure p).cfgSlaveOnly = p.cfgSlaveOnly := by
  simp only [sendFailure]; split <;> simp
@[simp] theorem sendFailure_loc (p : Port) : (sendFailure p).loc = p.loc := by
  simp only [sendFailure]; split <;> simp

/-- The invariant of a port configured slave-only. -/
structure SO (p : Port) : Prop where
  cfg : p.cfgSlaveOnly = true
  so : p.slaveOnly = true
  meek : Meek p.ps

theorem so_toState {st : PState} {p : Port} (h1 : Meek st) (h : SO p) : SO (toState st p) :=
  ⟨by simp [h.cfg], by simp [h.so], meek_toState h1 h.meek⟩

theorem so_sendFailure {p : Port} (h : SO p) : SO (sendFailure p) :=
  ⟨by simp [h.cfg], by simp [h.so], meek_sendFailure h.meek⟩

theorem so_init {p : Port} (r : InitResult) (h : SO p) : SO (initPort r p) := by
  have h' : SO { p with slaveOnly := p.cfgSlaveOnly, foreign := p.foreign.reset } :=
    ⟨h.cfg, h.cfg, h.meek⟩
  cases r with
  | netFail => exact h
  | noClock => exact so_toState (by decide) h
  | setTimeFail => exact h'
  | servoFail => exact so_toState (by decide) h'
  | ok =>
    simp only [initPort]
    refine so_toState ?_ ⟨h'.cfg, h'.so, h'.meek⟩
    split <;> decide

theorem so_updateParent {p : Port} (st : PState) (best : Option (Rec Ann)) (h : SO p) :
    SO (updateParent st best p) := by
  simp only [updateParent]
  split
  · split
    · exact ⟨h.cfg, h.so, h.meek⟩
    · split
      · exact ⟨h.cfg, h.so, h.meek⟩
      · exact h
  · exact h

theorem so_tickBmc {p p' : Port} {e : TickEnv} (h : SO p) (ht : tickBmc e p = some p') : SO p' := by
  simp only [tickBmc] at ht
  split at ht
  · split at ht
    · split at ht
      · cases ht
      · rename_i f st best hb
        rw [h.so] at hb
        obtain ⟨hb1, hb2⟩ := C09_recommendation _ _ _ _ _ _ _ _ _ hb
        have hst : Meek st := by
          cases best with
          | some r => rw [hb1 (by simp)]; decide
          | none =>
            rcases hb2 rfl with e | e <;> rw [e]
            · exact h.meek
            · decide
        simp only [Option.some.injEq] at ht
        subst ht
        have h1 : SO { p with recordUpdate := false, foreign := f } := ⟨h.cfg, h.so, h.meek⟩
        have h2 := so_updateParent st best h1
        split
        · exact so_toState hst h2
        · exact h2
    · cases ht; exact h
  · cases ht; exact h

theorem so_tickTimers {p p' : Port} {e : TickEnv} (h : SO p) (ht : tickTimers e p = some p') : SO p' := by
  have key : ∀ q, SO q →
      (match (if e.foreignTimer then q.foreign.expire e.expiryThr else some q.foreign) with
       | none => none
       | some f => some (if e.delayReqFail then sendFailure { q with foreign := f } else { q with foreign := f }))
        = some p' → SO p' := by
    intro q hq h'
    split at h'
    · cases h'
    · rename_i f _
      have hf : SO { q with foreign := f } := ⟨hq.cfg, hq.so, hq.meek⟩
      simp only [Option.some.injEq] at h'
      subst h'
      split
      · exact so_sendFailure hf
      · exact hf
  have pre : SO (if e.announceReceipt then
        if !p.slaveOnly && p.loc.cls ≠ 255 then toState .master (m1 p) else toState .listening p
      else p) := by
    split
    · rw [h.so]; simp only [Bool.not_true, Bool.false_and, Bool.false_eq_true, if_false]
      exact so_toState (by decide) h
    · exact h
  have hmk := h.meek
  simp only [tickTimers] at ht
  split at ht
  · cases ht; split
    · exact so_toState (by decide) h
    · exact h
  · exact key _ pre ht
  · exact key _ pre ht
  · exact key _ pre ht
  · exact key _ pre ht
  · rename_i hm; exact absurd hm hmk.1
  · cases ht; exact h

/-- A port configured slave-only, from initialisation on, through any history of
ticks, announces, failures, management commands (other than clearing the
slave-only flag) and local data set changes, is never MASTER and never PASSIVE. -/
theorem C09_never_master (p p' : Port) (es : List Ev)
    (hc : p.cfgSlaveOnly = true) (hs : p.slaveOnly = true) (hi : p.ps = .initializing)
    (hm : ∀ b, Ev.mgmtSlaveOnly b ∈ es → b = true)
    (h : run p es = some p') : p'.ps ≠ .master ∧ p'.ps ≠ .passive := by
  have hso : SO p := ⟨hc, hs, by rw [hi]; decide⟩
  suffices SO p' from this.meek
  clear hc hs hi
  induction es generalizing p with
  | nil => simp [run] at h; subst h; exact hso
  | cons e es ih =>
    simp only [run] at h
    split at h
    · cases h
    · rename_i p1 hst
      refine ih p1 (fun b hb => hm b (List.mem_cons_of_mem _ hb)) h ?_
      cases e with
      | tick te =>
        simp only [step, tick] at hst
        split at hst
        · cases hst; exact so_init _ hso
        · split at hst
          · cases hst
          · rename_i q hq
            exact so_tickTimers (so_tickBmc hso hq) hst
      | announce pid a now =>
        simp only [step, onAnnounce] at hst
        repeat' split at hst
        all_goals first
          | (cases hst; exact ⟨hso.cfg, hso.so, hso.meek⟩)
          | cases hst
      | sendFail => cases hst; exact so_sendFailure hso
      | fault => cases hst; exact so_toState (by decide) hso
      | mgmtInit => cases hst; exact ⟨hso.cfg, hso.so, by show Meek PState.initializing; decide⟩
      | mgmtEnable =>
        cases hst; split
        · exact ⟨hso.cfg, hso.so, by show Meek PState.initializing; decide⟩
        · exact hso
      | mgmtDisable => cases hst; exact ⟨hso.cfg, hso.so, by show Meek PState.disabled; decide⟩
      | mgmtSlaveOnly b =>
        have : b = true := hm b (by simp)
        cases hst; exact ⟨hso.cfg, this, hso.meek⟩
      | setLocal l => cases hst; exact ⟨hso.cfg, hso.so, hso.meek⟩

/-- A tick environment in which nothing expires or fails, for the examples. -/
def env0 : TickEnv :=
  { init := .ok, bmcEnv := ⟨0, 0, 0⟩, faultRestart := false, announceReceipt := false,
    foreignTimer := false, expiryThr := 0, delayReqFail := false, syncFail := false,
    announceFail := false, pdelayFail := false }

/-- A freshly created port. -/
def port0 (so : Bool) : Port :=
  { ps := .initializing, cfgSlaveOnly := so, masterOnly := false, slaveOnly := so,
    missingIfTol := false, isClockNode := true, recordUpdate := false, loc := loc0,
    parent := ⟨0, 0⟩, foreign := Ds.init ann0 4 }

example : (run (port0 true) [.tick env0, .announce ann0.src ann0 1, .announce ann0.src ann0 2, .tick env0]).map (·.ps)
      = some .slave := by decide
example : (run (port0 true) [.tick env0, .tick { env0 with announceReceipt := true }]).map (·.ps)
      = some .listening ∧
    (run (port0 false) [.tick env0, .tick { env0 with announceReceipt := true }]).map (·.ps)
      = some .master := by decide

/-- No timer tick, in whatever state it finds the port, leaves a port whose
slave-only flag is set or whose clock class is 255 in MASTER. -/
theorem C09_tick_not_master (p p' : Port) (e : TickEnv) (h : tick e p = some p')
    (hs : p'.slaveOnly = true ∨ p'.loc.cls = 255) : p'.ps ≠ .master := by
  simp only [tick] at h
  split at h
  · rename_i hi
    cases h
    cases e.init <;> simp only [initPort, toState] <;> simp [hi, m1]
    split <;> simp
  · split at h
    · cases h
    · rename_i q _
      simp only [tickTimers] at h
      have key : ∀ r : Port, (r.ps ≠ .master ∨ (r.slaveOnly = false ∧ r.loc.cls ≠ 255)) →
        (match (if e.foreignTimer then r.foreign.expire e.expiryThr else some r.foreign) with
         | none => none
         | some f => some (if e.delayReqFail then sendFailure { r with foreign := f } else { r with foreign := f }))
          = some p' → p'.ps ≠ .master := by
        intro r hr h'
        split at h'
        · cases h'
        · simp only [Option.some.injEq] at h'
          subst h'
          split
          · simp only [sendFailure, toState]; split <;> simp
          · rename_i hd
            rw [if_neg hd] at hs
            rcases hr with hr | ⟨h1, h2⟩
            · exact hr
            · rcases hs with hs | hs
              · simp [h1] at hs
              · exact absurd hs h2
      have pre : q.ps ≠ .master → ∀ r : Port, r = (if e.announceReceipt then
            if !q.slaveOnly && q.loc.cls ≠ 255 then toState .master (m1 q) else toState .listening q
          else q) → (r.ps ≠ .master ∨ (r.slaveOnly = false ∧ r.loc.cls ≠ 255)) := by
        intro hq r hr
        subst hr
        split
        · split
          · rename_i hc
            right
            simp only [Bool.and_eq_true, Bool.not_eq_true', decide_eq_true_eq] at hc
            simpa [m1] using hc
          · left; simp [toState]
        · exact Or.inl hq
      split at h
      · rename_i hq; cases h; split
        · simp [toState]
        · rw [hq]; decide
      · rename_i hq; exact key _ (pre (by rw [hq]; decide) _ rfl) h
      · rename_i hq; exact key _ (pre (by rw [hq]; decide) _ rfl) h
      · rename_i hq; exact key _ (pre (by rw [hq]; decide) _ rfl) h
      · rename_i hq; exact key _ (pre (by rw [hq]; decide) _ rfl) h
      · have fin : ∀ r : Port,
            some (if r.slaveOnly || r.loc.cls = 255 then toState .listening r else r) = some p' →
            p'.ps ≠ .master := by
          intro r hr
          cases hr
          split
          · simp [toState]
          · rename_i hc
            rw [if_neg hc] at hs
            simp only [Bool.or_eq_true, decide_eq_true_eq] at hc
            exact absurd hs hc
        exact fin _ h
      · rename_i h1 h2 h3 h4 h5 h6
        cases h; exact h6

example : (tick env0 { port0 true with ps := .master }).map (·.ps) = some .listening ∧
    (tick env0 { port0 false with ps := .master }).map (·.ps) = some .master := by decide

end Verif.Bmc
