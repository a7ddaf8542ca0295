import Verif.Thread.Spec
import Mathlib.Data.List.Nodup

set_option linter.unusedSimpArgs false
set_option linter.unusedVariables false
set_option linter.unnecessarySeqFocus false

namespace Verif.Thread

/-- What holds in every reachable state. -/
structure Inv (s : Sys) : Prop where
  nd : ∀ q, (s.st.q q).Nodup
  dj : ∀ m q q', m ∈ s.st.q q → m ∈ s.st.q q' → q = q'
  hq : ∀ m q, m ∈ s.st.q q → s.holder m = none
  all : ∀ m p, s.st.home m = some p → s.holder m ≠ none ∨ ∃ q, m ∈ s.st.q q
  fr : ∀ m p, m ∈ s.st.q (.free p) → s.st.home m = some p
  frh : ∀ m p, m ∈ s.st.q (.free p) → s.named m = none
  rp : ∀ m, s.st.reply m = s.named m
  nfn : ∀ m p, s.named m ≠ some (.free p)
  wt : ∀ m t, s.named m = some (.wait t) ∨ m ∈ s.st.q (.wait t) → s.waiting t = some m
  wt2 : ∀ m t, s.waiting t = some m → m ∈ s.st.q (.wait t) ∨ s.named m = some (.wait t)
  wex : ∀ m t, m ∈ s.st.q (.wait t) → s.named m = none
  live : ∀ m, s.named m ≠ none → s.holder m ≠ none ∨ ∃ q, m ∈ s.st.q q
  cnt : ∀ p, s.st.freeCount p + s.failed p = (s.st.q (.free p)).length
  logs : ∀ q, (∀ p, q ≠ .free p) → s.sent q = s.received q ++ s.st.q q
  ask : ∀ q m, (s.asks q).count m = (s.answers q).count m + if s.named m = some q then 1 else 0
  tot : ∀ p, s.st.freeCount p + s.st.usedCount p = s.size p
  wlog : ∀ t, s.asks (.wait t) = s.received (.wait t) ++ (s.waiting t).toList

theorem inv_init : Inv Sys.init := by
  constructor <;> simp [Sys.init]

theorem nodup_snoc {l : List Nat} {m : Nat} (h : l.Nodup) (hm : m ∉ l) : (l ++ [m]).Nodup := by
  rw [List.nodup_append]
  refine ⟨h, by simp, ?_⟩
  intro a ha b hb
  simp only [List.mem_singleton] at hb
  subst hb
  rintro rfl
  exact hm ha

theorem inv_newLocal {s s' : Sys} {t m : Nat} (h : Inv s) (hs : Step s (.newLocal t m) s') : Inv s' := by
  obtain ⟨⟨h1, h2, h3⟩, rfl⟩ := hs
  have hn : s.named m = none := by
    cases hm : s.named m with
    | none => rfl
    | some q => rcases h.live m (by simp [hm]) with h' | ⟨q', h'⟩
                · exact absurd h2 h'
                · exact absurd h' (h3 q')
  constructor
  · exact h.nd
  · exact h.dj
  · grind [h.hq, upd]
  · grind [h.all, upd]
  · exact h.fr
  · exact h.frh
  · grind [h.rp, upd]
  · exact h.nfn
  · exact h.wt
  · exact h.wt2
  · exact h.wex
  · grind [h.live, upd]
  · exact h.cnt
  · exact h.logs
  · exact h.ask
  · exact h.tot
  · exact h.wlog

theorem inv_dropLocal {s s' : Sys} {t m : Nat} (h : Inv s) (hs : Step s (.dropLocal t m) s') : Inv s' := by
  obtain ⟨⟨h1, h2, h3⟩, h4, rfl⟩ := hs
  constructor
  · exact h.nd
  · exact h.dj
  · grind [h.hq, upd]
  · grind [h.all, upd]
  · exact h.fr
  · exact h.frh
  · exact h.rp
  · exact h.nfn
  · exact h.wt
  · exact h.wt2
  · exact h.wex
  · grind [h.live, upd]
  · exact h.cnt
  · exact h.logs
  · exact h.ask
  · exact h.tot
  · exact h.wlog

theorem inv_alloc {s s' : Sys} {t p : Nat} (h : Inv s) (hs : Step s (.alloc t p) s') : Inv s' := by
  obtain ⟨h1, m, st, hm, rfl⟩ := hs
  simp only [msgAlloc, queueReceive] at hm
  cases hq : s.st.q (.free p) with
  | nil => simp [hq] at hm
  | cons a rest =>
    simp only [hq] at hm
    cases hm
    have hnd := h.nd (.free p)
    rw [hq] at hnd
    have hd := h.dj m
    have hmem : ∀ x q, x ∈ upd s.st.q (.free p) rest q ↔ x ∈ s.st.q q ∧ x ≠ m := by
      intro x q
      by_cases hqq : q = .free p
      · subst hqq; simp [upd, hq]; grind
      · simp [upd, hqq]; rintro hx rfl; exact hqq (h.dj x _ _ hx (by simp [hq]))
    constructor
    · intro q; by_cases hqq : q = .free p
      · simp [upd, hqq]; grind
      · simp [upd, hqq]; exact h.nd q
    · grind [h.dj]
    · grind [h.hq, upd]
    · grind [h.all, upd]
    · grind [h.fr]
    · grind [h.frh]
    · exact h.rp
    · exact h.nfn
    · grind [h.wt]
    · intro x t' hx; have := h.wt2 x t' hx; have := h.dj m; grind [h.frh]
    · grind [h.wex]
    · grind [h.live, upd]
    · intro p'; have := h.cnt p'; by_cases hp : p' = p
      · subst hp; simp [upd, hq] at this ⊢; omega
      · simp [upd, hp, this]
    · intro q hqf; have := h.logs q hqf; grind [upd]
    · exact h.ask
    · intro p'; have := h.tot p'; simp only [upd]; split <;> simp_all <;> omega
    · exact h.wlog

theorem mem_push (f : Q → List Nat) (q0 : Q) (m x : Nat) (q : Q) :
    x ∈ upd f q0 (f q0 ++ [m]) q ↔ x ∈ f q ∨ (x = m ∧ q = q0) := by
  by_cases hq : q = q0
  · subst hq; simp [upd]
  · simp [upd, hq]

theorem nd_push {f : Q → List Nat} (h : ∀ q, (f q).Nodup) {q0 : Q} {m : Nat} (hm : m ∉ f q0) (q : Q) :
    (upd f q0 (f q0 ++ [m]) q).Nodup := by
  by_cases hq : q = q0
  · subst hq; simp only [upd, if_true]; exact nodup_snoc (h _) hm
  · simp only [upd, hq, if_false]; exact h q

/-- A held message is on no queue. -/
theorem Inv.notin {s : Sys} (h : Inv s) {t m : Nat} (hm : s.holder m = some t) (q : Q) : m ∉ s.st.q q := by
  intro hq; have := h.hq m q hq; rw [hm] at this; cases this

/-- Putting a held message with no answer due on the free queue. -/
theorem inv_toFree {s : Sys} {t m p : Nat} {st : St} {fl : Nat → Nat} (h : Inv s) (ho : s.holder m = some t)
    (hn : s.named m = none) (hp : s.st.home m = some p)
    (hq : st.q = upd s.st.q (.free p) (s.st.q (.free p) ++ [m]))
    (hr : ∀ x, st.reply x = s.st.reply x) (hh : st.home = s.st.home)
    (hc : ∀ p', st.freeCount p' + fl p' = s.st.freeCount p' + s.failed p' + if p' = p then 1 else 0)
    (hu : ∀ p', st.freeCount p' + st.usedCount p' = s.st.freeCount p' + s.st.usedCount p') :
    Inv { s with st := st, holder := upd s.holder m none, failed := fl } := by
  have hni := h.notin ho
  constructor
  · simp only [hq]; exact nd_push h.nd (hni _)
  · simp only [hq, mem_push]; grind [h.dj]
  · simp only [hq, mem_push]; grind [h.hq, upd]
  · simp only [hq, mem_push, hh]; grind [h.all, upd]
  · simp only [hq, mem_push, hh]; grind [h.fr]
  · simp only [hq, mem_push]; grind [h.frh]
  · simp only [hr]; exact h.rp
  · exact h.nfn
  · simp only [hq, mem_push]; grind [h.wt]
  · simp only [hq, mem_push]; grind [h.wt2]
  · simp only [hq, mem_push]; grind [h.wex]
  · simp only [hq, mem_push]; grind [h.live, upd]
  · intro p'; have := h.cnt p'; have := hc p'; by_cases hpp : p' = p
    · subst hpp; simp [hq, upd] at *; omega
    · simp [hq, upd, hpp] at *; omega
  · intro q hqf; have := h.logs q hqf; simp only [hq, upd, hqf p, if_false]; exact this
  · exact h.ask
  · intro p'; have := h.tot p'; have := hu p'; simp only; omega
  · exact h.wlog

theorem upd_self {α β : Type} [DecidableEq α] (f : α → β) (a : α) : upd f a (f a) = f := by
  funext x; simp only [upd]; split <;> simp_all

theorem inv_free {s s' : Sys} {t m : Nat} (h : Inv s) (hs : Step s (.free t m) s') : Inv s' := by
  obtain ⟨⟨h1, h2, h3⟩, h4, rfl⟩ := hs
  cases hp : s.st.home m with
  | none => exact absurd hp h4
  | some p =>
    refine inv_toFree h h2 h3 hp ?_ ?_ ?_ ?_ ?_
    · simp [msgFree, hp, queueSend]
    · intro x; simp [msgFree, hp, queueSend, upd]; rintro rfl; rw [h.rp, h3]
    · simp [msgFree, hp, queueSend]
    · intro p'; simp only [msgFree, hp, queueSend, upd, if_true]; split <;> simp_all <;> omega
    · intro p'; simp only [msgFree, hp, queueSend, upd, if_true]; split <;> simp_all <;> omega

/-- Putting a held message on a general queue, with an answer due or not. -/
theorem inv_toGeneral {s : Sys} {t m r : Nat} {st : St} {nm : Option Q} {wa : Nat → Option Nat} {asks : Q → List Nat}
    (h : Inv s) (ho : s.holder m = some t) (hn : s.named m = none)
    (hq : st.q = upd s.st.q (.general r) (s.st.q (.general r) ++ [m]))
    (hr : ∀ x, st.reply x = if x = m then nm else s.st.reply x) (hh : st.home = s.st.home)
    (hc : st.freeCount = s.st.freeCount) (hu : st.usedCount = s.st.usedCount)
    (hcase : (nm = none ∧ wa = s.waiting ∧ asks = s.asks) ∨
      (nm = some (.general t) ∧ wa = s.waiting ∧ asks = log s.asks (.general t) m) ∨
      (nm = some (.wait t) ∧ s.waiting t = none ∧ wa = upd s.waiting t (some m) ∧ asks = log s.asks (.wait t) m)) :
    Inv { s with
      st := st, holder := upd s.holder m none, sent := log s.sent (.general r) m,
      named := upd s.named m nm, waiting := wa, asks := asks } := by
  have hni := h.notin ho
  have hnm : ∀ p, nm ≠ some (.free p) := by
    rcases hcase with ⟨a, b⟩ | ⟨a, b⟩ | ⟨a, b⟩ <;> simp [a]
  constructor
  · simp only [hq]; exact nd_push h.nd (hni _)
  · simp only [hq, mem_push]; grind [h.dj]
  · simp only [hq, mem_push]; grind [h.hq, upd]
  · simp only [hq, mem_push, hh]; grind [h.all, upd]
  · simp only [hq, mem_push, hh]; grind [h.fr]
  · simp only [hq, mem_push]; grind [h.frh, upd]
  · simp only [hr]; grind [h.rp, upd]
  · grind [h.nfn, upd]
  · simp only [hq, mem_push]; have := h.wt; have := h.wt2; rcases hcase with ⟨a, b, c⟩ | ⟨a, b, c⟩ | ⟨a, b, c, d⟩ <;> subst_vars <;> grind [upd]
  · simp only [hq, mem_push]; have := h.wt2; rcases hcase with ⟨a, b, c⟩ | ⟨a, b, c⟩ | ⟨a, b, c, d⟩ <;> subst_vars <;> grind [upd]
  · simp only [hq, mem_push]; grind [h.wex, upd]
  · simp only [hq, mem_push]; grind [h.live, upd]
  · intro p'; have := h.cnt p'; simp [hc, hq, upd, this]
  · intro q hqf; have := h.logs q hqf; simp only [hq, log, upd]; split
    · rename_i hh; subst hh; rw [this]; simp
    · exact this
  · intro q x; have := h.ask q x; rcases hcase with ⟨a, b, c⟩ | ⟨a, b, c⟩ | ⟨a, b, c, d⟩ <;> subst_vars <;>
      simp only [log, upd] <;> (by_cases hx : x = m <;> [skip; skip]) <;> grind
  · simp only [hc, hu]; exact h.tot
  · intro t'; have := h.wlog t'; rcases hcase with ⟨a, b, c⟩ | ⟨a, b, c⟩ | ⟨a, b, c, d⟩ <;> subst_vars <;>
      simp only [log, upd] <;> grind

theorem inv_send {s s' : Sys} {t m r id : Nat} {needs ok : Bool} (h : Inv s) (hs : Step s (.send t m r id needs ok) s') :
    Inv s' := by
  obtain ⟨⟨h1, h2, h3⟩, p, hp, rc, st, hst, hif⟩ := hs
  cases ok with
  | true =>
    simp only [msgSend, hp, queueSend, if_true, ne_eq, not_true_eq_false, if_false, Option.some.injEq, Prod.mk.injEq] at hst
    obtain ⟨rfl, rfl⟩ := hst
    simp only [if_true] at hif
    subst hif
    refine inv_toGeneral h h2 h3 rfl ?_ rfl rfl rfl ?_
    · intro x; simp [upd]
    · cases needs <;> simp
  | false =>
    simp only [msgSend, hp, queueSend, if_true, ne_eq, Option.some.injEq, Prod.mk.injEq, Bool.false_eq_true, if_false] at hst
    simp at hst
    obtain ⟨rfl, rfl⟩ := hst
    simp at hif
    subst hif
    refine inv_toFree h h2 h3 hp rfl ?_ rfl ?_ ?_
    · intro x; simp [upd]; split
      · rename_i hx; subst hx; rw [h.rp, h3]
      · rfl
    · intro p'; simp only [upd]; split <;> simp_all <;> omega
    · intro p'; rfl

theorem inv_sendWait {s s' : Sys} {t m r id : Nat} {ok : Bool} (h : Inv s) (hs : Step s (.sendWait t m r id ok) s') :
    Inv s' := by
  obtain ⟨⟨h1, h2, h3⟩, hif⟩ := hs
  cases ok with
  | true =>
    simp [sendWaitBegin, queueSend] at hif
    subst hif
    refine inv_toGeneral h h2 h3 rfl ?_ rfl rfl rfl ?_
    · intro x; simp [upd]
    · simp [h1]
  | false =>
    simp [sendWaitBegin, queueSend] at hif
    subst hif
    have hr : upd (upd s.st.reply m (some (Q.wait t))) m none = s.st.reply := by
      funext x; simp only [upd]; split
      · rename_i hx; subst hx; rw [h.rp, h3]
      · rfl
    constructor
    · exact h.nd
    · exact h.dj
    · exact h.hq
    · exact h.all
    · exact h.fr
    · exact h.frh
    · simp only [hr]; exact h.rp
    · exact h.nfn
    · exact h.wt
    · exact h.wt2
    · exact h.wex
    · exact h.live
    · exact h.cnt
    · exact h.logs
    · exact h.ask
    · exact h.tot
    · exact h.wlog

theorem mem_pop {f : Q → List Nat} {q0 : Q} {m : Nat} {rest : List Nat} (hq : f q0 = m :: rest)
    (hnd : ∀ q, (f q).Nodup) (hdj : ∀ x q q', x ∈ f q → x ∈ f q' → q = q') (x : Nat) (q : Q) :
    x ∈ upd f q0 rest q ↔ x ∈ f q ∧ x ≠ m := by
  have := hnd q0
  rw [hq] at this
  by_cases hqq : q = q0
  · subst hqq; simp [upd, hq]; grind
  · simp [upd, hqq]; rintro hx rfl; exact hqq (hdj x _ _ hx (by simp [hq]))

theorem nd_pop {f : Q → List Nat} {q0 : Q} {m : Nat} {rest : List Nat} (hq : f q0 = m :: rest)
    (hnd : ∀ q, (f q).Nodup) (q : Q) : (upd f q0 rest q).Nodup := by
  by_cases hqq : q = q0
  · subst hqq; have := hnd q; rw [hq] at this; simp [upd]; grind
  · simp [upd, hqq]; exact hnd q

theorem inv_recv {s s' : Sys} {t : Nat} (h : Inv s) (hs : Step s (.recv t) s') : Inv s' := by
  obtain ⟨h1, m, st, hm, rfl⟩ := hs
  simp only [queueReceive] at hm
  cases hq : s.st.q (.general t) with
  | nil => simp [hq] at hm
  | cons a rest =>
    simp only [hq] at hm
    cases hm
    have hmem := mem_pop hq h.nd h.dj
    have hin : m ∈ s.st.q (.general t) := by simp [hq]
    constructor
    · exact nd_pop hq h.nd
    · simp only [hmem]; grind [h.dj]
    · simp only [hmem]; grind [h.hq, upd]
    · simp only [hmem]; grind [h.all, upd]
    · simp only [hmem]; grind [h.fr]
    · simp only [hmem]; grind [h.frh]
    · exact h.rp
    · exact h.nfn
    · simp only [hmem]; grind [h.wt]
    · simp only [hmem]; intro x t' hx; have := h.wt2 x t' hx; have := h.dj m; grind
    · simp only [hmem]; grind [h.wex]
    · simp only [hmem]; grind [h.live, upd]
    · intro p'; have := h.cnt p'; simp [upd, this]
    · intro q hqf; have := h.logs q hqf; simp only [log, upd]; split
      · rename_i hqq; subst hqq; rw [this, hq]; simp
      · exact this
    · exact h.ask
    · exact h.tot
    · intro t'; have := h.wlog t'; simpa [log] using this

theorem wake_own {s : Sys} {t m got : Nat} {st : St} (h : Inv s) (hw : s.waiting t = some m)
    (hm : sendWaitEnd s.st t m = some (got, st)) :
    got = m ∧ s.st.q (.wait t) = [m] ∧ st = { s.st with q := upd s.st.q (.wait t) [], reply := upd s.st.reply m none } := by
  simp only [sendWaitEnd, queueReceive] at hm
  cases hq : s.st.q (.wait t) with
  | nil => simp [hq] at hm
  | cons a rest =>
    simp only [hq, Option.some.injEq, Prod.mk.injEq] at hm
    obtain ⟨rfl, rfl⟩ := hm
    have h1 := h.wt a t (Or.inr (by simp [hq]))
    have ha : a = m := by rw [hw] at h1; cases h1; rfl
    subst ha
    have hr : rest = [] := by
      cases rest with
      | nil => rfl
      | cons b rest =>
        have h2 := h.wt b t (Or.inr (by simp [hq]))
        rw [hw] at h2
        cases h2
        have := h.nd (.wait t)
        simp [hq] at this
    subst hr
    simp [hq]

theorem inv_wake {s s' : Sys} {t : Nat} (h : Inv s) (hs : Step s (.wake t) s') : Inv s' := by
  obtain ⟨m, got, st, hw, hm, rfl⟩ := hs
  obtain ⟨rfl, hq, rfl⟩ := wake_own h hw hm
  have hmem := mem_pop hq h.nd h.dj
  have hin : got ∈ s.st.q (.wait t) := by simp [hq]
  have hn := h.wex _ _ hin
  constructor
  · exact nd_pop hq h.nd
  · simp only [hmem]; grind [h.dj]
  · simp only [hmem]; grind [h.hq, upd]
  · simp only [hmem]; grind [h.all, upd]
  · simp only [hmem]; grind [h.fr]
  · simp only [hmem]; grind [h.frh]
  · grind [h.rp, upd]
  · exact h.nfn
  · simp only [hmem]; have := h.wt; grind [upd]
  · simp only [hmem]; intro x t' hx; have := h.wt2 x t'; have := h.dj got; grind [upd]
  · simp only [hmem]; grind [h.wex]
  · simp only [hmem]; grind [h.live, upd]
  · intro p'; have := h.cnt p'; simp [upd, this]
  · intro q hqf; have := h.logs q hqf; simp only [log, upd]; split
    · rename_i hqq; subst hqq; rw [this, hq]; simp
    · exact this
  · exact h.ask
  · exact h.tot
  · intro t'; have := h.wlog t'; simp only [log, upd]; by_cases ht : t' = t
    · subst ht; simp [this, hw]
    · simp [ht, this]

theorem inv_reply {s s' : Sys} {t m : Nat} {ok : Bool} (h : Inv s) (hs : Step s (.reply t m ok) s') : Inv s' := by
  obtain ⟨h1, h2, h3⟩ := hs
  have hni := h.notin h2
  have hrp := h.rp m
  cases hn : s.named m with
  | none =>
    simp only [hn] at h3
    obtain ⟨h4, rfl⟩ := h3
    rw [hn] at hrp
    cases hp : s.st.home m with
    | none => exact absurd hp h4
    | some p =>
      refine inv_toFree h h2 hn hp ?_ ?_ ?_ ?_ ?_
      · simp [msgReply, hrp, msgFree, hp, queueSend]
      · intro x; simp [msgReply, hrp, msgFree, hp, queueSend, upd]; rintro rfl; rw [h.rp, hn]
      · simp [msgReply, hrp, msgFree, hp, queueSend]
      · intro p'; simp only [msgReply, hrp, msgFree, hp, queueSend, upd, if_true]; split <;> simp_all <;> omega
      · intro p'; simp only [msgReply, hrp, msgFree, hp, queueSend, upd, if_true]; split <;> simp_all <;> omega
  | some q0 =>
    rw [hn] at hrp
    simp only [hn] at h3
    have hnf := h.nfn m
    cases ok with
    | false =>
      simp [msgReply, hrp, queueSend] at h3
      subst h3
      have hr : upd (upd s.st.reply m none) m (some q0) = s.st.reply := by
        funext x; simp only [upd]; split
        · rename_i hx; subst hx; rw [hrp]
        · rfl
      constructor
      · exact h.nd
      · exact h.dj
      · exact h.hq
      · exact h.all
      · exact h.fr
      · exact h.frh
      · simp only [hr]; exact h.rp
      · exact h.nfn
      · exact h.wt
      · exact h.wt2
      · exact h.wex
      · exact h.live
      · exact h.cnt
      · exact h.logs
      · exact h.ask
      · exact h.tot
      · exact h.wlog
    | true =>
      simp [msgReply, hrp, queueSend] at h3
      subst h3
      constructor
      · exact nd_push h.nd (hni _)
      · simp only [mem_push]; grind [h.dj]
      · simp only [mem_push]; grind [h.hq, upd]
      · simp only [mem_push]; grind [h.all, upd]
      · simp only [mem_push]; grind [h.fr]
      · simp only [mem_push]; grind [h.frh, upd]
      · grind [h.rp, upd]
      · grind [h.nfn, upd]
      · simp only [mem_push]; have := h.wt; grind [upd]
      · simp only [mem_push]; have := h.wt2; grind [upd]
      · simp only [mem_push]; have := h.wex; grind [upd]
      · simp only [mem_push]; grind [h.live, upd]
      · intro p'; have := h.cnt p'; have h5 : Q.free p' ≠ q0 := by rintro rfl; exact hnf p' hn
        simp [upd, h5, this]
      · intro q hqf; have := h.logs q hqf; simp only [log, upd]; split
        · rename_i hqq; subst hqq; rw [this]; simp
        · exact this
      · intro q x; have := h.ask q x; simp only [log, upd]; by_cases hx : x = m <;> grind
      · exact h.tot
      · exact h.wlog

theorem poolAllocate_eff (p : Nat) (ms : List Nat) (s : St) :
    (poolAllocate s p ms).q = upd s.q (.free p) (s.q (.free p) ++ ms) ∧
    (∀ x, (poolAllocate s p ms).reply x = if x ∈ ms then none else s.reply x) ∧
    (∀ x, (poolAllocate s p ms).home x = if x ∈ ms then some p else s.home x) ∧
    (∀ p', (poolAllocate s p ms).freeCount p' = s.freeCount p' + if p' = p then ms.length else 0) ∧
    (poolAllocate s p ms).usedCount = s.usedCount := by
  induction ms generalizing s with
  | nil => simp [poolAllocate, upd_self]
  | cons m ms ih =>
    simp only [poolAllocate]
    obtain ⟨a, b, c, d, e⟩ := ih { (queueSend true { s with reply := upd s.reply m none, id := upd s.id m 0, home := upd s.home m (some p) } (.free p) m).2 with freeCount := upd s.freeCount p (s.freeCount p + 1) }
    refine ⟨?_, ?_, ?_, ?_, ?_⟩
    · refine a.trans ?_
      funext q; simp [queueSend, upd]; split <;> simp
    · intro x; refine (b x).trans ?_
      simp only [queueSend, upd, if_true]; grind
    · intro x; refine (c x).trans ?_
      simp only [queueSend, upd, if_true]; grind
    · intro p'; refine (d p').trans ?_
      simp only [upd, List.length_cons]; split <;> simp_all <;> omega
    · exact e

theorem inv_newPool {s s' : Sys} {p : Nat} {ms : List Nat} (h : Inv s) (hs : Step s (.newPool p ms) s') : Inv s' := by
  obtain ⟨h1, h2, h3, rfl⟩ := hs
  obtain ⟨hq, hr, hh, hc, hu⟩ := poolAllocate_eff p ms s.st
  have hmem : ∀ x q, x ∈ (poolAllocate s.st p ms).q q ↔ x ∈ s.st.q q ∨ (x ∈ ms ∧ q = .free p) := by
    intro x q
    rw [hq]
    by_cases hqq : q = .free p
    · subst hqq; simp [upd]
    · simp [upd, hqq]
  have hnn : ∀ m ∈ ms, s.named m = none := by
    intro m hm
    obtain ⟨-, a, b⟩ := h2 m hm
    cases hn : s.named m with
    | none => rfl
    | some q => rcases h.live m (by simp [hn]) with h' | ⟨q', h'⟩
                · exact absurd a h'
                · exact absurd h' (b q')
  have hho : ∀ m ∈ ms, s.st.home m = none := fun m hm => (h2 m hm).1
  have hhd : ∀ m ∈ ms, s.holder m = none := fun m hm => (h2 m hm).2.1
  have hno : ∀ m ∈ ms, ∀ q, m ∉ s.st.q q := fun m hm => (h2 m hm).2.2
  have hem : s.st.q (.free p) = [] := by
    rw [List.eq_nil_iff_forall_not_mem]
    intro m hm
    exact h3 m (h.fr m p hm)
  constructor
  · intro q; simp only [hq]; by_cases hqq : q = .free p
    · simp [upd, hqq, hem, h1]
    · simp [upd, hqq]; exact h.nd q
  · simp only [hmem]; grind [h.dj]
  · simp only [hmem]; grind [h.hq]
  · simp only [hmem, hh]; grind [h.all]
  · simp only [hmem, hh]; grind [h.fr]
  · simp only [hmem]; grind [h.frh]
  · intro m; simp only [hr]; have := h.rp m; have := hnn m; grind
  · exact h.nfn
  · simp only [hmem]; grind [h.wt]
  · simp only [hmem]; grind [h.wt2]
  · simp only [hmem]; grind [h.wex]
  · simp only [hmem]; grind [h.live]
  · intro p'; have := h.cnt p'; simp only [hc, hq, upd]; by_cases hp : p' = p
    · subst hp; simp [hem] at this ⊢; omega
    · simp [hp, this]
  · intro q hqf; have := h.logs q hqf; simp only [hq, upd, hqf p, if_false]; exact this
  · exact h.ask
  · intro p'; have := h.tot p'; simp only [hc, hu, upd]; by_cases hp : p' = p <;> simp [hp] at * <;> omega
  · exact h.wlog

theorem inv_step {s s' : Sys} {a : Act} (h : Inv s) (hs : Step s a s') : Inv s' := by
  cases a with
  | newPool p ms => exact inv_newPool h hs
  | alloc t p => exact inv_alloc h hs
  | free t m => exact inv_free h hs
  | send t m r id n ok => exact inv_send h hs
  | recv t => exact inv_recv h hs
  | sendWait t m r id ok => exact inv_sendWait h hs
  | wake t => exact inv_wake h hs
  | reply t m ok => exact inv_reply h hs
  | newLocal t m => exact inv_newLocal h hs
  | dropLocal t m => exact inv_dropLocal h hs

theorem reach_inv {s : Sys} (h : Reach s) : Inv s := by
  induction h with
  | init => exact inv_init
  | step a _ hs ih => exact inv_step ih hs

/-! ## Multicast -/

theorem allocDests_spec (pool : Nat) (us : List User) (s : St) :
    (∃ ms, ms.length = ((us.filter (fun u => u.event.isNone)).map User.thread).length ∧
      s.q (.free pool) = ms ++ (allocDests pool us s).2.q (.free pool) ∧
      (allocDests pool us s).1 = ((us.filter (fun u => u.event.isNone)).map User.thread).zip (ms.map some) ∧
      (∀ q, q ≠ .free pool → (allocDests pool us s).2.q q = s.q q) ∧
      (allocDests pool us s).2.home = s.home ∧ (allocDests pool us s).2.reply = s.reply ∧
      (∀ p, p ≠ pool → (allocDests pool us s).2.freeCount p = s.freeCount p ∧ (allocDests pool us s).2.usedCount p = s.usedCount p) ∧
      (allocDests pool us s).2.freeCount pool = s.freeCount pool - ms.length ∧
      (allocDests pool us s).2.usedCount pool = s.usedCount pool + ms.length) ∨
    (∃ (ms : List Nat) (t : Nat) (ts : List Nat), (s.q (.free pool)).length < (us.filter (fun u => u.event.isNone)).length ∧
      ms.length = ts.length ∧
      s.q (.free pool) = ms ∧ (allocDests pool us s).2.q (.free pool) = [] ∧
      (allocDests pool us s).1 = ts.zip (ms.map some) ++ [(t, none)] ∧
      (∀ q, q ≠ .free pool → (allocDests pool us s).2.q q = s.q q) ∧
      (allocDests pool us s).2.home = s.home ∧ (allocDests pool us s).2.reply = s.reply ∧
      (∀ p, p ≠ pool → (allocDests pool us s).2.freeCount p = s.freeCount p ∧ (allocDests pool us s).2.usedCount p = s.usedCount p) ∧
      (allocDests pool us s).2.freeCount pool = s.freeCount pool - ms.length ∧
      (allocDests pool us s).2.usedCount pool = s.usedCount pool + ms.length) := by
  induction us generalizing s with
  | nil => left; exact ⟨[], by simp [allocDests]⟩
  | cons u us ih =>
    by_cases he : u.event = none
    · simp only [allocDests, he, if_true, List.filter_cons, Option.isNone_none]
      simp only [msgAlloc, queueReceive]
      cases hq : s.q (.free pool) with
      | nil =>
        right
        refine ⟨[], u.thread, [], ?_⟩
        simp [hq]
      | cons m rest =>
        simp only [hq]
        rcases ih { s with q := upd s.q (.free pool) rest, freeCount := upd s.freeCount pool (s.freeCount pool - 1), usedCount := upd s.usedCount pool (s.usedCount pool + 1) } with
          ⟨ms, a1, a2, a3, a4, a5, a6, a7, a8, a9⟩ | ⟨ms, t, ts, a0, a1, a2, a3, a4, a5, a6, a7, a8, a9, a10⟩
        · left
          refine ⟨m :: ms, by simpa using a1, ?_, ?_, ?_, a5, a6, ?_, ?_, ?_⟩
          · simp [upd] at a2; simp [← a2]
          · simp [a3]
          · intro q hqq; rw [a4 q hqq]; simp [upd, hqq]
          · intro p hp; have := a7 p hp; simp [upd, hp] at this; exact this
          · rw [a8]; simp [upd]; omega
          · rw [a9]; simp [upd]; omega
        · right
          simp [upd] at a0 a2
          refine ⟨m :: ms, t, u.thread :: ts, by simpa using a0, by simpa using a1, by simp [a2], a3, ?_, ?_, a6, a7, ?_, ?_, ?_⟩
          · simp [a4]
          · intro q hqq; rw [a5 q hqq]; simp [upd, hqq]
          · intro p hp; have := a8 p hp; simp [upd, hp] at this; exact this
          · rw [a9]; simp [upd]; omega
          · rw [a10]; simp [upd]; omega
    · have he' : u.event.isNone = false := by cases h : u.event <;> simp_all
      simp only [allocDests, he, if_false, List.filter_cons, he', Bool.false_eq_true]
      exact ih s

theorem freeDests_spec (pool : Nat) (ts ms : List Nat) (t : Nat) (hl : ms.length = ts.length) (s : St)
    (hh : ∀ m ∈ ms, s.home m = some pool) :
    (freeDests (ts.zip (ms.map some) ++ [(t, none)]) s).q (.free pool) = s.q (.free pool) ++ ms.reverse ∧
    (∀ q, q ≠ .free pool → (freeDests (ts.zip (ms.map some) ++ [(t, none)]) s).q q = s.q q) ∧
    (∀ p, p ≠ pool → (freeDests (ts.zip (ms.map some) ++ [(t, none)]) s).freeCount p = s.freeCount p ∧
      (freeDests (ts.zip (ms.map some) ++ [(t, none)]) s).usedCount p = s.usedCount p) ∧
    (freeDests (ts.zip (ms.map some) ++ [(t, none)]) s).freeCount pool = s.freeCount pool + ms.length ∧
    (freeDests (ts.zip (ms.map some) ++ [(t, none)]) s).usedCount pool = s.usedCount pool - ms.length ∧
    (freeDests (ts.zip (ms.map some) ++ [(t, none)]) s).home = s.home := by
  induction ts generalizing ms with
  | nil =>
    have : ms = [] := by simpa using hl
    subst this
    simp [freeDests]
  | cons t' ts ih =>
    cases ms with
    | nil => simp at hl
    | cons m ms =>
      obtain ⟨a1, a2, a3, a4, a5, a6⟩ := ih ms (by simpa using hl) (fun x hx => hh x (by simp [hx]))
      have hm := hh m (by simp)
      simp only [List.map_cons, List.zip_cons_cons, List.cons_append, freeDests]
      generalize hS : freeDests (ts.zip (ms.map some) ++ [(t, none)]) s = S at *
      have hm' : S.home m = some pool := by rw [a6, hm]
      simp only [msgFree, hm', queueSend, if_true]
      refine ⟨?_, ?_, ?_, ?_, ?_, a6⟩
      · simp [upd, a1]
      · intro q hq; simp [upd, hq, a2 q hq]
      · intro p hp; simp [upd, hp, a3 p hp]
      · simp [upd, a4]; omega
      · simp [upd, a5]; omega

/-- What replication does to queues, headers and error code. -/
theorem sendDests_spec (self id pool : Nat) (ts ms : List Nat) (oks : List Bool) (hl : ms.length = ts.length)
    (ho : oks.length = ts.length) (rc : Int) (s : St) (hh : ∀ m ∈ ms, s.home m = some pool) (hnd : ms.Nodup) :
    ∃ rc' s', sendDests self id (ts.zip (ms.map some)) oks rc s = some (rc', s') ∧
      (rc' = 0 ↔ rc = 0 ∧ ∀ ok ∈ oks, ok = true) ∧
      (∀ t, s'.q (.general t) = s.q (.general t) ++
        ((ts.zip (ms.zip oks)).filter (fun x => decide (x.1 = t) && x.2.2)).map (fun x => x.2.1)) ∧
      s'.q (.free pool) = s.q (.free pool) ++ ((ms.zip oks).filter (fun x => !x.2)).map Prod.fst ∧
      (∀ p, p ≠ pool → s'.q (.free p) = s.q (.free p)) ∧ (∀ t, s'.q (.wait t) = s.q (.wait t)) ∧
      (∀ m, s'.id m = if m ∈ ms then id else s.id m) ∧
      (∀ m, s'.reply m = if m ∈ ms then none else s.reply m) ∧
      s'.freeCount = s.freeCount ∧ s'.usedCount = s.usedCount ∧ s'.home = s.home := by
  induction ts generalizing ms oks rc s with
  | nil =>
    have : ms = [] := by simpa using hl
    subst this
    have : oks = [] := by simpa using ho
    subst this
    exact ⟨rc, s, by simp [sendDests]⟩
  | cons t ts ih =>
    cases ms with
    | nil => simp at hl
    | cons m ms =>
      cases oks with
      | nil => simp at ho
      | cons ok oks =>
        have hm := hh m (by simp)
        have hnd' := List.nodup_cons.1 hnd
        simp only [List.map_cons, List.zip_cons_cons, sendDests, msgSend, hm, List.headD_cons, List.tail_cons, queueSend]
        cases ok with
        | true =>
          simp only [if_true, ne_eq, not_true_eq_false, if_false, false_and]
          obtain ⟨rc', s', e, e1, e2, e3, e4, e5, e6, e7, e8, e9, e10⟩ :=
            ih ms oks (by simpa using hl) (by simpa using ho) rc
              { s with id := upd s.id m id, reply := upd s.reply m none, q := upd s.q (.general t) (s.q (.general t) ++ [m]) }
              (fun x hx => hh x (by simp [hx])) hnd'.2
          refine ⟨rc', s', e, ?_, ?_, ?_, ?_, ?_, ?_, ?_, e8, e9, e10⟩
          · rw [e1]; simp
          · intro t'; rw [e2 t']; simp only [upd]
            by_cases ht : t' = t
            · subst ht; simp
            · have : t ≠ t' := fun h => ht h.symm
              simp [ht, this]
          · rw [e3]; simp [upd]
          · intro p hp; rw [e4 p hp]; simp [upd]
          · intro t'; rw [e5 t']; simp [upd]
          · intro x; rw [e6 x]; simp only [upd, List.mem_cons]; grind
          · intro x; rw [e7 x]; simp only [upd, List.mem_cons]; grind
        | false =>
          simp
          obtain ⟨rc', s', e, e1, e2, e3, e4, e5, e6, e7, e8, e9, e10⟩ :=
            ih ms oks (by simpa using hl) (by simpa using ho) (if rc = 0 then 11 else rc)
              { s with id := upd s.id m id, reply := upd (upd s.reply m none) m none, q := upd s.q (.free pool) (s.q (.free pool) ++ [m]) }
              (fun x hx => hh x (by simp [hx])) hnd'.2
          refine ⟨rc', s', e, ?_, ?_, ?_, ?_, ?_, ?_, ?_, e8, e9, e10⟩
          · intro h; have h' := (e1.1 h).1; split at h' <;> simp_all
          · intro t'; rw [e2 t']; simp [upd]
          · rw [e3]; simp [upd]
          · intro p hp; rw [e4 p hp]; simp [upd, hp]
          · intro t'; rw [e5 t']; simp [upd]
          · intro x; rw [e6 x]; simp only [upd, List.mem_cons]; grind
          · intro x; rw [e7 x]; simp only [upd, List.mem_cons]; grind

theorem find_group {gs : List Group} {g : Group} (hg : g ∈ gs) (hgs : (gs.map Group.id).Nodup) :
    gs.find? (fun x => decide (x.id = g.id)) = some g := by
  induction gs with
  | nil => simp at hg
  | cons a gs ih =>
    simp only [List.map_cons, List.nodup_cons] at hgs
    rw [List.find?_cons]
    by_cases ha : a.id = g.id
    · simp only [ha, decide_true]
      rcases List.mem_cons.1 hg with rfl | hg'
      · rfl
      · exact absurd (List.mem_map.2 ⟨g, hg', ha.symm⟩) hgs.1
    · simp only [ha, decide_false]
      rcases List.mem_cons.1 hg with rfl | hg'
      · exact absurd rfl ha
      · exact ih hg' hgs.2

theorem insertIn_none {u : User} {id : Nat} {pub : Bool} {gs : List Group} :
    insertIn u id pub gs = none ↔ ∀ g ∈ gs, g.id ≠ id := by
  induction gs with
  | nil => simp [insertIn]
  | cons a gs ih =>
    simp only [insertIn]
    by_cases ha : a.id = id
    · simp [ha]
    · simp [ha, ih]

theorem insertIn_some {u : User} {id : Nat} {pub : Bool} {gs gs' : List Group} (hgs : (gs.map Group.id).Nodup)
    (h : insertIn u id pub gs = some gs') :
    gs' = gs.map (fun g => if g.id = id then insertUser u pub g else g) ∧ ∃ g ∈ gs, g.id = id := by
  induction gs generalizing gs' with
  | nil => simp [insertIn] at h
  | cons a gs ih =>
    simp only [List.map_cons, List.nodup_cons, List.mem_map, not_exists, not_and] at hgs
    simp only [insertIn] at h
    by_cases ha : a.id = id
    · simp only [ha, if_true, Option.some.injEq] at h
      subst h
      refine ⟨?_, a, by simp, ha⟩
      simp only [List.map_cons, ha, if_true, List.cons.injEq, true_and]
      symm
      rw [List.map_congr_left (g := fun x => x)]
      · simp
      · intro x hx; have := hgs.1 x hx; rw [ha] at this; simp [this]
    · simp only [ha, if_false, Option.map_eq_some_iff] at h
      obtain ⟨gs1, h1, rfl⟩ := h
      obtain ⟨e, g, hg, hgi⟩ := ih hgs.2 h1
      exact ⟨by simp [ha, e], g, by simp [hg], hgi⟩

/-- A group with one user removed, if it has that user. -/
def dropUser (t : Nat) (pub : Bool) (g : Group) : Group :=
  match removeFirst t (if pub then g.publishers else g.subscribers) with
  | none => g
  | some us => if pub then { g with publishers := us } else { g with subscribers := us }

theorem dropUser_id (t : Nat) (pub : Bool) (g : Group) : (dropUser t pub g).id = g.id := by
  simp only [dropUser]; split
  · rfl
  · split <;> rfl

theorem removeUser_none {t id : Nat} {pub : Bool} {gs : List Group} (h : ∀ g ∈ gs, g.id ≠ id) :
    removeUser t id pub gs = (2, gs) := by
  induction gs with
  | nil => rfl
  | cons a gs ih =>
    have ha := h a (by simp)
    simp only [removeUser, ha, if_false, ih (fun g hg => h g (by simp [hg]))]

theorem keep_eq (g : Group) (gs : List Group) :
    (if g.publishers = [] ∧ g.subscribers = [] then gs else g :: gs) =
    if (!decide (g.publishers = [] ∧ g.subscribers = [])) = true then g :: gs else gs := by
  by_cases h : g.publishers = [] ∧ g.subscribers = [] <;> simp [h]

theorem removeUser_some {t id : Nat} {pub : Bool} {gs : List Group} (hgs : (gs.map Group.id).Nodup)
    (hu : ∀ g ∈ gs, g.publishers ≠ [] ∨ g.subscribers ≠ []) {g : Group} (hg : g ∈ gs) (hid : g.id = id) :
    (removeUser t id pub gs).1 = (if (removeFirst t (if pub then g.publishers else g.subscribers)).isSome then 0 else 2) ∧
    (removeUser t id pub gs).2 =
      (gs.map (fun x => if x.id = id then dropUser t pub x else x)).filter
        (fun x => !decide (x.publishers = [] ∧ x.subscribers = [])) := by
  subst hid
  induction gs with
  | nil => simp at hg
  | cons a gs ih =>
    simp only [List.map_cons, List.nodup_cons, List.mem_map, not_exists, not_and] at hgs
    simp only [removeUser]
    have hflt : ∀ l : List Group, (∀ g ∈ l, g.publishers ≠ [] ∨ g.subscribers ≠ []) →
        l.filter (fun x => !decide (x.publishers = [] ∧ x.subscribers = [])) = l := by
      intro l hl
      rw [List.filter_eq_self]
      intro x hx
      have := hl x hx
      simp only [Bool.not_eq_true', decide_eq_false_iff_not, not_and]
      intro h1 h2
      rcases this with h | h
      · exact h h1
      · exact h h2
    by_cases ha : a.id = g.id
    · have hga : g = a := by
        rcases List.mem_cons.1 hg with h | h
        · exact h
        · exact absurd ha.symm (hgs.1 g h)
      subst hga
      have hmap : gs.map (fun x => if x.id = g.id then dropUser t pub x else x) = gs := by
        rw [List.map_congr_left (g := fun x => x)]
        · simp
        · intro x hx; have := hgs.1 x hx; simp [this]
      simp only [↓reduceIte, List.map_cons, hmap, List.filter_cons]
      refine ⟨trivial, ?_⟩
      rw [hflt gs (fun x hx => hu x (by simp [hx]))]
      exact keep_eq _ gs
    · have hg' : g ∈ gs := by
        rcases List.mem_cons.1 hg with h | h
        · subst h; exact absurd rfl ha
        · exact h
      obtain ⟨e1, e2⟩ := ih hgs.2 (fun x hx => hu x (by simp [hx])) hg'
      simp only [ha, if_false, List.map_cons, List.filter_cons, e1, e2]
      refine ⟨trivial, ?_⟩
      have := hu a (by simp)
      have hna : ¬ (a.publishers = [] ∧ a.subscribers = []) := by
        rintro ⟨h1, h2⟩
        rcases this with h | h
        · exact h h1
        · exact h h2
      simp [hna]

end Verif.Thread
