import Verif.Feed.Model
import Mathlib.Data.List.Nodup
import Mathlib.Data.List.Induction

set_option linter.unusedSimpArgs false
set_option linter.unusedVariables false

namespace Verif.Feed

/-! ## Samples -/

/-- What happens at one sampling: result of the comparison, offset, times. -/
structure Tick where
  rc : Int
  diff : Int
  mono : Int
  system : Int
deriving DecidableEq, Repr

/-- A new feed, and the feed after some samplings. -/
def Shm.init : Shm := ⟨fun _ => ⟨0, 0, 0, 0, 0⟩, 0, false, true⟩
def after (l : List Tick) : Shm := l.foldl (fun s t => onSample s t.rc t.diff t.mono t.system) Shm.init

/-- The feed as it may be seen while it is being written: the slot of the next
sample may contain anything. -/
def Seen (shm seen : Shm) : Prop :=
  seen.writeCounter = shm.writeCounter ∧ seen.sourceInactive = shm.sourceInactive ∧ seen.clockActive = shm.clockActive ∧
  ∀ i, i ≠ shm.writeCounter % 16 → seen.samples i = shm.samples i

theorem after_counter (l : List Tick) : (after l).writeCounter = l.length := by
  suffices h : ∀ s : Shm, (l.foldl (fun s t => onSample s t.rc t.diff t.mono t.system) s).writeCounter = s.writeCounter + l.length by
    have := h Shm.init; simpa [after, Shm.init] using this
  induction l with
  | nil => simp
  | cons t l ih => intro s; rw [List.foldl_cons, ih]; simp only [onSample, List.length_cons]; omega

theorem after_snoc (l : List Tick) (t : Tick) : after (l ++ [t]) = onSample (after l) t.rc t.diff t.mono t.system := by
  simp [after, List.foldl_append]

/-- The sample made at a sampling. -/
def sampleOf (i : Nat) (t : Tick) : Sample := ⟨i, t.rc, t.mono, t.system, if t.rc = 0 then t.system + t.diff else 0⟩

theorem after_samples (l : List Tick) (i : Nat) (h1 : i < l.length) (h2 : l.length ≤ i + 16) :
    (after l).samples (i % 16) = sampleOf i l[i] := by
  induction l using List.reverseRecOn with
  | nil => simp at h1
  | append_singleton l t ih =>
    simp only [List.length_append, List.length_singleton] at h1 h2
    rw [after_snoc]
    simp only [onSample, after_counter, maxSamples]
    by_cases hi : i = l.length
    · subst hi
      simp [sampleOf]
    · have hlt : i < l.length := by omega
      rw [if_neg (by omega), ih hlt (by omega)]
      rw [List.getElem_append_left hlt]

/-! ## Sources and subscribers -/

theorem put_self {α : Type} (f : Nat → α) (a : Nat) (b : α) : put f a b a = b := by simp [put]

theorem put_put {α : Type} (f : Nat → α) (a : Nat) (b c : α) : put (put f a b) a c = put f a c := by
  funext y; by_cases hy : y = a <;> simp [put, hy]

/-- What holds of memory in every reachable state. -/
structure Ok (h : Heap) : Prop where
  nd : (h.active ++ h.zombies).Nodup
  act : ∀ s ∈ h.active, ∃ x, h.src s = some x ∧ x.inactive = false
  zom : ∀ s ∈ h.zombies, ∃ x, h.src s = some x ∧ x.inactive = true ∧ x.subs ≠ []
  own : ∀ s x, h.src s = some x → s ∈ h.active ∨ s ∈ h.zombies
  subl : ∀ k s, h.sub k = some s → ∃ x, h.src s = some x ∧ k ∈ x.subs
  subs : ∀ s x k, h.src s = some x → k ∈ x.subs → h.sub k = some s
  snd : ∀ s x, h.src s = some x → x.subs.Nodup

theorem findClock_ok {h : Heap} {clock : Nat} {l : List Nat} (hl : ∀ s ∈ l, ∃ x, h.src s = some x) :
    ∃ r, findClock h clock l = some r ∧ (∀ s, r = some s → s ∈ l ∧ ∃ x, h.src s = some x ∧ x.clock = clock) ∧
      (r = none → ∀ s ∈ l, ∀ x, h.src s = some x → x.clock ≠ clock) := by
  induction l with
  | nil => exact ⟨none, rfl, by simp, by simp⟩
  | cons a l ih =>
    obtain ⟨x, hx⟩ := hl a (by simp)
    simp only [findClock, hx]
    by_cases hc : x.clock = clock
    · simp only [hc, if_true]
      refine ⟨some a, rfl, ?_, by simp⟩
      intro s hs; cases hs; exact ⟨by simp, x, hx, hc⟩
    · simp only [hc, if_false]
      obtain ⟨r, h1, h2, h3⟩ := ih (fun s hs => hl s (by simp [hs]))
      refine ⟨r, h1, ?_, ?_⟩
      · intro s hs; obtain ⟨a1, a2⟩ := h2 s hs; exact ⟨by simp [a1], a2⟩
      · intro hr s hs y hy
        rcases List.mem_cons.1 hs with rfl | hs
        · rw [hx] at hy; cases hy; exact hc
        · exact h3 hr s hs y hy

theorem ok_add {h : Heap} {n clock : Nat} (hk : Ok h) (hn : h.src n = none) : ∃ h', onAdd h n clock = some h' ∧ Ok h' := by
  refine ⟨_, rfl, ?_⟩
  have hna : n ∉ h.active := by
    intro hm; obtain ⟨x, hx, -⟩ := hk.act n hm; rw [hn] at hx; cases hx
  have hnz : n ∉ h.zombies := by
    intro hm; obtain ⟨x, hx, -⟩ := hk.zom n hm; rw [hn] at hx; cases hx
  constructor
  · simp only [List.cons_append, List.nodup_cons, List.mem_append]
    exact ⟨by simp [hna, hnz], hk.nd⟩
  · intro s hs
    rcases List.mem_cons.1 hs with rfl | hs'
    · exact ⟨_, put_self _ _ _, rfl⟩
    · have : s ≠ n := by rintro rfl; exact hna hs'
      simpa [put, this] using hk.act s hs'
  · intro s hs
    have : s ≠ n := by rintro rfl; exact hnz hs
    simpa [put, this] using hk.zom s hs
  · grind [hk.own, put]
  · grind [hk.subl, put]
  · grind [hk.subs, put]
  · grind [hk.snd, put]

theorem nodup_parts {a b : List Nat} (h : (a ++ b).Nodup) : a.Nodup ∧ b.Nodup ∧ ∀ x ∈ a, x ∉ b := by
  rw [List.nodup_append] at h
  exact ⟨h.1, h.2.1, fun x hx hb => h.2.2 x hx x hb rfl⟩

theorem nodup_join {a b : List Nat} (h1 : a.Nodup) (h2 : b.Nodup) (h3 : ∀ x ∈ a, x ∉ b) : (a ++ b).Nodup := by
  rw [List.nodup_append]
  exact ⟨h1, h2, fun x hx y hy hxy => h3 x hx (hxy ▸ hy)⟩

theorem ok_remove {h : Heap} {clock : Nat} (hk : Ok h) :
    ∃ h', onRemove h clock = some h' ∧ Ok h' ∧
      (h' = h ∧ (∀ s ∈ h.active, ∀ x, h.src s = some x → x.clock ≠ clock) ∨
       ∃ s x, s ∈ h.active ∧ h.src s = some x ∧ x.clock = clock ∧ h'.active = h.active.erase s ∧ h'.sub = h.sub ∧
        (∀ y, y ≠ s → h'.src y = h.src y) ∧ (x.subs = [] → h'.src s = none) ∧
        (x.subs ≠ [] → h'.src s = some { x with inactive := true })) := by
  obtain ⟨r, h1, h2, h3⟩ := findClock_ok (h := h) (clock := clock) (l := h.active) (fun s hs => by
    obtain ⟨x, hx, -⟩ := hk.act s hs; exact ⟨x, hx⟩)
  cases r with
  | none => exact ⟨h, by simp only [onRemove, h1], hk, Or.inl ⟨rfl, h3 rfl⟩⟩
  | some s =>
    obtain ⟨hs, x, hx, hxc⟩ := h2 s rfl
    obtain ⟨x', hx', hxa⟩ := hk.act s hs
    rw [hx] at hx'; cases hx'
    obtain ⟨n1, n2, n3⟩ := nodup_parts hk.nd
    have he : ∀ y, y ∈ h.active.erase s ↔ y ≠ s ∧ y ∈ h.active := fun y => n1.mem_erase_iff
    by_cases hsub : x.subs = []
    · refine ⟨{ h with src := put h.src s none, active := h.active.erase s }, ?_, ?_, Or.inr ⟨s, x, hs, hx, hxc, rfl, rfl, ?_, ?_, ?_⟩⟩
      · simp only [onRemove, h1, hx, reap, put_self, if_true, hsub, and_self, List.mem_cons, true_or, List.erase_cons_head, Option.some.injEq]
        rw [put_put]
      · constructor
        · exact nodup_join (n1.erase _) n2 (fun y hy => n3 y ((he y).1 hy).2)
        · intro y hy; obtain ⟨a, b⟩ := (he y).1 hy; simpa [put, a] using hk.act y b
        · intro y hy; have : y ≠ s := by rintro rfl; exact n3 y hs hy
          simpa [put, this] using hk.zom y hy
        · intro y z hz; by_cases hy : y = s
          · simp [put, hy] at hz
          · simp only [put, hy, if_false] at hz; simp only [he]
            rcases hk.own y z hz with h | h
            · exact Or.inl ⟨hy, h⟩
            · exact Or.inr h
        · intro k y hy; obtain ⟨z, hz, hm⟩ := hk.subl k y hy
          by_cases hys : y = s
          · subst hys; rw [hx] at hz; cases hz; rw [hsub] at hm; simp at hm
          · exact ⟨z, by simpa [put, hys] using hz, hm⟩
        · intro y z k hz; by_cases hy : y = s
          · simp [put, hy] at hz
          · simp only [put, hy, if_false] at hz; exact hk.subs y z k hz
        · intro y z hz; by_cases hy : y = s
          · simp [put, hy] at hz
          · simp only [put, hy, if_false] at hz; exact hk.snd y z hz
      · intro y hy; simp [put, hy]
      · intro _; simp [put]
      · intro hc; exact absurd hsub hc
    · refine ⟨{ h with src := put h.src s (some { x with inactive := true }), active := h.active.erase s, zombies := s :: h.zombies }, ?_, ?_, Or.inr ⟨s, x, hs, hx, hxc, rfl, rfl, ?_, ?_, ?_⟩⟩
      · simp [onRemove, h1, hx, reap, put, hsub]
      · constructor
        · refine nodup_join (n1.erase _) ?_ ?_
          · simp only [List.nodup_cons]; exact ⟨n3 s hs, n2⟩
          · intro y hy hc
            obtain ⟨a, b⟩ := (he y).1 hy
            rcases List.mem_cons.1 hc with h | h
            · exact a h
            · exact n3 y b h
        · intro y hy; obtain ⟨a, b⟩ := (he y).1 hy; simpa [put, a] using hk.act y b
        · intro y hy
          by_cases hys : y = s
          · subst hys; simp [put, hsub]
          · rcases List.mem_cons.1 hy with h | h
            · exact absurd h hys
            · simpa [put, hys] using hk.zom y h
        · intro y z hz; by_cases hy : y = s
          · right; simp [hy]
          · simp only [put, hy, if_false] at hz; simp only [he]
            rcases hk.own y z hz with h | h
            · exact Or.inl ⟨hy, h⟩
            · right; simp [h]
        · intro k y hy; obtain ⟨z, hz, hm⟩ := hk.subl k y hy
          by_cases hys : y = s
          · subst hys; rw [hx] at hz; cases hz; exact ⟨_, put_self _ _ _, hm⟩
          · exact ⟨z, by simpa [put, hys] using hz, hm⟩
        · intro y z k hz; by_cases hy : y = s
          · subst hy; simp [put] at hz; subst hz; exact hk.subs y x k hx
          · simp only [put, hy, if_false] at hz; exact hk.subs y z k hz
        · intro y z hz; by_cases hy : y = s
          · subst hy; simp [put] at hz; subst hz; exact hk.snd y x hx
          · simp only [put, hy, if_false] at hz; exact hk.snd y z hz
      · intro y hy; simp [put, hy]
      · intro hc; exact absurd hc hsub
      · intro _; simp [put]

theorem ok_subscribe_at {h : Heap} {n s : Nat} {x : Src} (hk : Ok h) (hn : h.sub n = none) (hx : h.src s = some x) :
    Ok { h with src := put h.src s (some { x with subs := n :: x.subs }), sub := put h.sub n (some s) } := by
  have hnx : ∀ y z, h.src y = some z → n ∉ z.subs := by
    intro y z hz hm; have := hk.subs y z n hz hm; rw [hn] at this; cases this
  constructor
  · exact hk.nd
  · intro y hy; obtain ⟨z, hz, hi⟩ := hk.act y hy
    by_cases hys : y = s
    · subst hys; rw [hx] at hz; cases hz; exact ⟨_, put_self _ _ _, hi⟩
    · exact ⟨z, by simpa [put, hys] using hz, hi⟩
  · intro y hy; obtain ⟨z, hz, hi, hne⟩ := hk.zom y hy
    by_cases hys : y = s
    · subst hys; rw [hx] at hz; cases hz; exact ⟨_, put_self _ _ _, hi, by simp⟩
    · exact ⟨z, by simpa [put, hys] using hz, hi, hne⟩
  · intro y z hz; by_cases hys : y = s
    · subst hys; exact hk.own y x hx
    · simp only [put, hys, if_false] at hz; exact hk.own y z hz
  · intro k y hy
    by_cases hkn : k = n
    · subst hkn; simp [put] at hy; subst hy; exact ⟨_, put_self _ _ _, by simp⟩
    · simp only [put, hkn, if_false] at hy
      obtain ⟨z, hz, hm⟩ := hk.subl k y hy
      by_cases hys : y = s
      · subst hys; rw [hx] at hz; cases hz; exact ⟨_, put_self _ _ _, by simp [hm]⟩
      · exact ⟨z, by simpa [put, hys] using hz, hm⟩
  · intro y z k hz hm
    by_cases hys : y = s
    · subst hys; simp [put] at hz; subst hz
      rcases List.mem_cons.1 hm with rfl | hm'
      · simp [put]
      · have : k ≠ n := by rintro rfl; exact hnx y x hx hm'
        simp only [put, this, if_false]; exact hk.subs y x k hx hm'
    · simp only [put, hys, if_false] at hz
      have : k ≠ n := by rintro rfl; exact hnx y z hz hm
      simp only [put, this, if_false]; exact hk.subs y z k hz hm
  · intro y z hz; by_cases hys : y = s
    · subst hys; simp [put] at hz; subst hz
      simp only [List.nodup_cons]; exact ⟨hnx y x hx, hk.snd y x hx⟩
    · simp only [put, hys, if_false] at hz; exact hk.snd y z hz

theorem ok_subscribe {h : Heap} {n clock : Nat} (hk : Ok h) (hn : h.sub n = none) :
    ∃ r h', onSubscribe h n clock = some (r, h') ∧ Ok h' ∧
      (r = none ∧ h' = h ∧ (∀ s x, h.src s = some x → x.clock ≠ clock) ∨
       r = some n ∧ ∃ s x, h.src s = some x ∧ x.clock = clock ∧
        h' = { h with src := put h.src s (some { x with subs := n :: x.subs }), sub := put h.sub n (some s) }) := by
  obtain ⟨r, h1, h2, h3⟩ := findClock_ok (h := h) (clock := clock) (l := h.active) (fun s hs => by
    obtain ⟨x, hx, -⟩ := hk.act s hs; exact ⟨x, hx⟩)
  obtain ⟨r', h1', h2', h3'⟩ := findClock_ok (h := h) (clock := clock) (l := h.zombies) (fun s hs => by
    obtain ⟨x, hx, -⟩ := hk.zom s hs; exact ⟨x, hx⟩)
  cases r with
  | some s =>
    obtain ⟨hs, x, hx, hxc⟩ := h2 s rfl
    exact ⟨_, _, by simp only [onSubscribe, h1, hx], ok_subscribe_at hk hn hx, Or.inr ⟨rfl, s, x, hx, hxc, rfl⟩⟩
  | none =>
    cases r' with
    | some s =>
      obtain ⟨hs, x, hx, hxc⟩ := h2' s rfl
      exact ⟨_, _, by simp only [onSubscribe, h1, h1', hx], ok_subscribe_at hk hn hx, Or.inr ⟨rfl, s, x, hx, hxc, rfl⟩⟩
    | none =>
      refine ⟨none, h, by simp only [onSubscribe, h1, h1'], hk, Or.inl ⟨rfl, rfl, ?_⟩⟩
      intro s x hx
      rcases hk.own s x hx with hs | hs
      · exact h3 rfl s hs x hx
      · exact h3' rfl s hs x hx

theorem ok_unsubscribe {h : Heap} {k s : Nat} (hk : Ok h) (hs : h.sub k = some s) :
    ∃ h' x, onUnsubscribe h k = some h' ∧ Ok h' ∧ h.src s = some x ∧ k ∈ x.subs ∧ h'.active = h.active ∧
      h'.sub = put h.sub k none ∧ (∀ y, y ≠ s → h'.src y = h.src y) ∧
      (s ∈ h.zombies ∧ x.subs = [k] → h'.src s = none) ∧
      (¬ (s ∈ h.zombies ∧ x.subs = [k]) → h'.src s = some { x with subs := x.subs.erase k }) := by
  obtain ⟨x, hx, hm⟩ := hk.subl k s hs
  obtain ⟨n1, n2, n3⟩ := nodup_parts hk.nd
  have hnd := hk.snd s x hx
  have hse : ∀ j, j ∈ x.subs.erase k ↔ j ≠ k ∧ j ∈ x.subs := fun j => hnd.mem_erase_iff
  have hemp : x.subs.erase k = [] ↔ x.subs = [k] := by
    constructor
    · intro he
      have hl := List.length_erase_of_mem hm
      rw [he] at hl
      simp only [List.length_nil] at hl
      have : x.subs.length = 1 := by
        have := List.length_pos_of_mem hm
        omega
      obtain ⟨a, ha⟩ := List.length_eq_one_iff.1 this
      rw [ha] at hm ⊢
      simp only [List.mem_singleton] at hm
      rw [hm]
    · intro he; rw [he]; simp
  have hin : x.inactive = true ↔ s ∈ h.zombies := by
    constructor
    · intro hi
      rcases hk.own s x hx with h' | h'
      · obtain ⟨z, hz, hzi⟩ := hk.act s h'; rw [hx] at hz; cases hz; rw [hi] at hzi; cases hzi
      · exact h'
    · intro hz; obtain ⟨z, hz, hzi, -⟩ := hk.zom s hz; rw [hx] at hz; cases hz; exact hzi
  have hother : ∀ y z j, y ≠ s → h.src y = some z → j ∈ z.subs → j ≠ k := by
    rintro y z j hy hz hj rfl
    have := hk.subs y z j hz hj
    rw [hs] at this; cases this; exact hy rfl
  by_cases hc : s ∈ h.zombies ∧ x.subs = [k]
  · have hi := hin.2 hc.1
    refine ⟨{ h with src := put h.src s none, zombies := h.zombies.erase s, sub := put h.sub k none }, x, ?_, ?_, hx, hm, rfl, rfl, ?_, ?_, ?_⟩
    · simp only [onUnsubscribe, hs, hx, reap, put_self, if_true, hi, hc.2, List.erase_cons_head, and_self, hc.1]
      rw [put_put]
    · have he : ∀ y, y ∈ h.zombies.erase s ↔ y ≠ s ∧ y ∈ h.zombies := fun y => n2.mem_erase_iff
      constructor
      · exact nodup_join n1 (n2.erase _) (fun y hy hc => n3 y hy ((he y).1 hc).2)
      · intro y hy; have : y ≠ s := by rintro rfl; exact n3 y hy hc.1
        simpa [put, this] using hk.act y hy
      · intro y hy; obtain ⟨a, b⟩ := (he y).1 hy; simpa [put, a] using hk.zom y b
      · intro y z hz; by_cases hy : y = s
        · simp [put, hy] at hz
        · simp only [put, hy, if_false] at hz; simp only [he]
          rcases hk.own y z hz with h | h
          · exact Or.inl h
          · exact Or.inr ⟨hy, h⟩
      · intro j y hy
        by_cases hjk : j = k
        · simp [put, hjk] at hy
        · simp only [put, hjk, if_false] at hy
          obtain ⟨z, hz, hjm⟩ := hk.subl j y hy
          have hys : y ≠ s := by
            rintro rfl; rw [hx] at hz; cases hz; rw [hc.2] at hjm; simp at hjm; exact hjk hjm
          exact ⟨z, by simpa [put, hys] using hz, hjm⟩
      · intro y z j hz hj; by_cases hy : y = s
        · simp [put, hy] at hz
        · simp only [put, hy, if_false] at hz
          have := hother y z j hy hz hj
          simp only [put, this, if_false]; exact hk.subs y z j hz hj
      · intro y z hz; by_cases hy : y = s
        · simp [put, hy] at hz
        · simp only [put, hy, if_false] at hz; exact hk.snd y z hz
    · intro y hy; simp [put, hy]
    · intro _; simp [put]
    · intro h'; exact absurd hc h'
  · have hnr : ¬ (x.inactive = true ∧ x.subs.erase k = []) := by
      rintro ⟨a, b⟩; exact hc ⟨hin.1 a, hemp.1 b⟩
    refine ⟨{ h with src := put h.src s (some { x with subs := x.subs.erase k }), sub := put h.sub k none }, x, ?_, ?_, hx, hm, rfl, rfl, ?_, ?_, ?_⟩
    · simp only [onUnsubscribe, hs, hx, reap, put, if_true, hnr, if_false]
    · constructor
      · exact hk.nd
      · intro y hy; obtain ⟨z, hz, hi⟩ := hk.act y hy
        by_cases hys : y = s
        · subst hys; rw [hx] at hz; cases hz; exact ⟨_, put_self _ _ _, hi⟩
        · exact ⟨z, by simpa [put, hys] using hz, hi⟩
      · intro y hy; obtain ⟨z, hz, hi, hne⟩ := hk.zom y hy
        by_cases hys : y = s
        · subst hys; rw [hx] at hz; cases hz
          exact ⟨_, put_self _ _ _, hi, fun he => hnr ⟨hi, he⟩⟩
        · exact ⟨z, by simpa [put, hys] using hz, hi, hne⟩
      · intro y z hz; by_cases hys : y = s
        · subst hys; exact hk.own y x hx
        · simp only [put, hys, if_false] at hz; exact hk.own y z hz
      · intro j y hy
        by_cases hjk : j = k
        · simp [put, hjk] at hy
        · simp only [put, hjk, if_false] at hy
          obtain ⟨z, hz, hjm⟩ := hk.subl j y hy
          by_cases hys : y = s
          · subst hys; rw [hx] at hz; cases hz; exact ⟨_, put_self _ _ _, (hse j).2 ⟨hjk, hjm⟩⟩
          · exact ⟨z, by simpa [put, hys] using hz, hjm⟩
      · intro y z j hz hj
        by_cases hys : y = s
        · subst hys; simp [put] at hz; subst hz
          obtain ⟨a, b⟩ := (hse j).1 hj
          simp only [put, a, if_false]; exact hk.subs y x j hx b
        · simp only [put, hys, if_false] at hz
          have := hother y z j hys hz hj
          simp only [put, this, if_false]; exact hk.subs y z j hz hj
      · intro y z hz; by_cases hys : y = s
        · subst hys; simp [put] at hz; subst hz; exact hnd.erase _
        · simp only [put, hys, if_false] at hz; exact hk.snd y z hz
    · intro y hy; simp [put, hy]
    · intro h'; exact absurd h' hc
    · intro _; simp [put]

end Verif.Feed
