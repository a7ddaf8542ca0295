import Verif.Log.Model

/-
# Properties of log files, state files and the buffer of statistics
-/

set_option linter.unusedSimpArgs false
set_option linter.unusedVariables false

namespace Verif.Log

/-! ## C388: lines of statistics are written whole -/

/-- C388: every line that is not longer than the buffer is written whole. -/
def C388_statement : Prop :=
  ∀ es : List BufEv, (∀ n a r, .line n a r ∈ es → n ≤ 16384) → (es.foldl bufStep bufInit).split = false

/-- After 79 lines of 200 characters, one of 600 does not fit any more. -/
theorem C388_violated : ¬ C388_statement := by
  intro h
  have := h (List.replicate 79 (.line 200 false 0) ++ [.line 600 false 16]) (by
    intro n a r hm
    rcases List.mem_append.1 hm with hm | hm
    · cases List.eq_of_mem_replicate hm; decide
    · simp only [List.mem_singleton] at hm; cases hm; decide)
  exact absurd this (by decide +kernel)

/-- No line is longer than 512 characters or twice the line before. `last` is the length of the line before. -/
inductive Even : Nat → List BufEv → Prop
  | nil {last} : Even last []
  | tick {last es} (h : Even last es) : Even last (.tick :: es)
  | line {last n a r es} (hn : n ≤ 512 ∨ n ≤ 2 * last) (hm : n ≤ 16384) (h : Even n es) : Even last (.line n a r :: es)

/-- C388 if no line is longer than 512 characters or twice the line before. -/
theorem C388_whole_partial (es : List BufEv) (last : Nat) (h : Even last es) : (es.foldl bufStep bufInit).split = false := by
  have key : ∀ (es : List BufEv) (last : Nat) (b : Buf), Even last es → b.split = false → b.ptr = b.fill →
      (b.fill = 0 ∨ (b.fill + 512 ≤ 16384 ∧ b.fill + 2 * last ≤ 16384)) → (es.foldl bufStep b).split = false := by
    intro es
    induction es with
    | nil => intro last b _ h _ _; exact h
    | cons e es ih =>
      intro last b he hs hp hf
      rw [List.foldl_cons]
      cases he with
      | tick h =>
        refine ih last _ h ?_ ?_ (.inl ?_) <;> simp [bufStep, written, hs]
      | @line _ n a r _ hn hm h =>
        have hfit : b.fill + n ≤ bufSize := by simp only [bufSize]; omega
        have e1 : put n r b = { b with fill := b.fill + n } := by rw [put, if_pos hfit]
        simp only [bufStep, e1]
        by_cases hc : a = true ∨ ((bufSize : Int) - (b.ptr + n)) % 18446744073709551616 < 512 ∨
            ((bufSize : Int) - (b.ptr + n)) % 18446744073709551616 < n * 2
        · refine ih n _ h ?_ ?_ (.inl ?_) <;> simp only [written, if_pos hc] <;> first | exact hs | rfl
        · refine ih n _ h ?_ ?_ (.inr ?_) <;> simp only [written, if_neg hc]
          · exact hs
          · rw [hp]; omega
          · simp only [bufSize] at hc hfit
            omega
  exact key es last bufInit h rfl rfl (.inl rfl)

example : Even 0 [.line 300 false 0, .line 600 true 0, .tick, .line 1100 false 0, .line 200 false 0] := by
  refine .line (.inl (by decide)) (by decide) (.line (.inr (by decide)) (by decide) (.tick (.line (.inr (by decide)) (by decide)
    (.line (.inl (by decide)) (by decide) .nil))))

/-- The counter goes wrong for good, until the next tick: after a line that did not fit, however many lines (without alarms)
are added, none of them makes the buffer be flushed. -/
theorem C388_no_flush (b : Buf) (n r : Nat) (hp : 16384 < b.ptr) (hb : b.ptr + n < 4611686018427387904) :
    (bufStep b (.line n false r)).ptr = b.ptr + n := by
  have hc : ¬ (false = true ∨ ((bufSize : Int) - (b.ptr + n)) % 18446744073709551616 < 512 ∨
      ((bufSize : Int) - (b.ptr + n)) % 18446744073709551616 < n * 2) := by
    simp only [bufSize]
    rintro (h | h | h)
    · cases h
    · omega
    · omega
  have e : (put n r b).ptr = b.ptr := by unfold put; split <;> rfl
  simp only [bufStep, written, e, if_neg hc]

example : (([.line 8000 true 0, .line 200 false 0] : List BufEv).foldl bufStep { bufInit with ptr := 16400 }).ptr = 200 ∧
    (bufStep { bufInit with ptr := 16400 } (.line 200 false 0)).ptr = 16600 := by decide +kernel

/-! ## C389: state files are complete -/

/-- C389: whenever it is read, a state file is missing, as before, or one of the documents written, whole. -/
def C389_statement : Prop :=
  ∀ (es : List FsEv) (old : Option (List Char)) (s : Fs), fsRun es { final := old, temp := none, writer := .idle } = some s →
    s.final = old ∨ ∃ d, s.final = some d ∧ .create d ∈ es

/-- A document is cut if there is no space left. -/
theorem C389_violated : ¬ C389_statement := by
  intro h
  rcases h [.create "state: ok".toList, .write 5, .fail, .close] (some "old".toList) _ rfl with h | ⟨d, h1, h2⟩
  · exact absurd h (by decide)
  · simp only [List.mem_cons, FsEv.create.injEq, reduceCtorEq, List.not_mem_nil, or_false] at h2
    subst h2
    exact absurd h1 (by decide)

/-- C389 if no write fails. -/
theorem C389_complete_partial (es : List FsEv) (old : Option (List Char)) (s : Fs)
    (h : fsRun es { final := old, temp := none, writer := .idle } = some s) (hf : .fail ∉ es) :
    s.final = old ∨ ∃ d, s.final = some d ∧ .create d ∈ es := by
  have key : ∀ (es : List FsEv) (t : Fs) (P : List Char → Prop), fsRun es t = some s → .fail ∉ es →
      (t.final = old ∨ ∃ d, t.final = some d ∧ P d) →
      (∀ doc rest, t.writer = .writing doc rest → P doc ∧ ∃ w, t.temp = some w ∧ w ++ rest = doc) →
      s.final = old ∨ ∃ d, s.final = some d ∧ (P d ∨ .create d ∈ es) := by
    intro es
    induction es with
    | nil =>
      intro t P h _ h1 _
      cases h
      exact h1.imp id (fun ⟨d, a, b⟩ => ⟨d, a, .inl b⟩)
    | cons e es ih =>
      intro t P h hf h1 h2
      simp only [fsRun, Option.bind_eq_some_iff] at h
      obtain ⟨u, hu, h⟩ := h
      have hf' : .fail ∉ es := fun h => hf (List.mem_cons_of_mem _ h)
      have fin : ∀ Q : List Char → Prop, (∀ d, Q d → P d ∨ .create d ∈ e :: es) →
          (u.final = old ∨ ∃ d, u.final = some d ∧ Q d) →
          (∀ doc rest, u.writer = .writing doc rest → Q doc ∧ ∃ w, u.temp = some w ∧ w ++ rest = doc) →
          s.final = old ∨ ∃ d, s.final = some d ∧ (P d ∨ .create d ∈ e :: es) := by
        intro Q hQ a b
        rcases ih u Q h hf' a b with c | ⟨d, c1, c2⟩
        · exact .inl c
        · exact .inr ⟨d, c1, c2.elim (hQ d) (fun c => .inr (List.mem_cons_of_mem _ c))⟩
      cases hw : t.writer with
      | idle =>
        cases e with
        | create doc =>
          simp only [fsStep, hw, Option.some.injEq] at hu
          subst hu
          refine fin (fun d => P d ∨ d = doc) (fun d hd => hd.imp id (fun h => by subst h; simp)) ?_ ?_
          · exact h1.imp id (fun ⟨d, a, b⟩ => ⟨d, a, .inl b⟩)
          · intro doc' rest hr
            cases hr
            exact ⟨.inr rfl, [], rfl, by simp⟩
        | _ => simp [fsStep, hw] at hu
      | writing doc rest =>
        obtain ⟨p1, w, p2, p3⟩ := h2 doc rest hw
        cases e with
        | create d => simp [fsStep, hw] at hu
        | fail => simp at hf
        | write n =>
          simp only [fsStep, hw, Option.some.injEq] at hu
          subst hu
          refine fin P (fun d hd => .inl hd) h1 ?_
          intro doc' rest' hr
          cases hr
          refine ⟨p1, _, rfl, ?_⟩
          rw [p2, Option.getD_some, List.append_assoc, List.take_append_drop, p3]
        | close =>
          cases rest with
          | cons x xs => simp [fsStep, hw] at hu
          | nil =>
            simp only [fsStep, hw, Option.some.injEq] at hu
            subst hu
            refine fin P (fun d hd => .inl hd) (.inr ⟨doc, ?_, p1⟩) (fun _ _ hr => by cases hr)
            simp only [List.append_nil] at p3
            rw [p2, p3]
  rcases key es _ (fun _ => False) h hf (.inl rfl) (fun _ _ hr => by cases hr) with h | ⟨d, h1, h2⟩
  · exact .inl h
  · exact .inr ⟨d, h1, h2.elim False.elim id⟩

example : fsRun [.create "ab".toList, .write 1, .write 1, .close, .create "cd".toList, .write 1] ⟨none, none, .idle⟩ =
    some ⟨some "ab".toList, some "c".toList, .writing "cd".toList "d".toList⟩ := by decide

/-! ## C390: descriptors of log files -/

/-- The kernel gives numbers that are free: those of the log's descriptors only if they have just been closed. -/
def Kernel (c : Cfg) (r : Rot) (s : Fd) : Prop :=
  (∀ x, r.openM = some x → ∀ y ∈ s.own, y.1 = x.1 → (y.1 : Int) = s.msg) ∧
  (∀ x, r.openS = some x → ∀ y ∈ s.own, y.1 = x.1 → (y.1 : Int) = s.stats ∨ (c.msg = true ∧ (y.1 : Int) = s.msg)) ∧
  (∀ x y, r.openM = some x → r.openS = some y → c.msg = true → x.1 ≠ y.1)

/-- Along several rotations. -/
def Kernels (c : Cfg) : List Rot → Fd → Prop
  | [], _ => True
  | r :: rs, s => Kernel c r s ∧ Kernels c rs (rotate c r s).1

/-- C390: in every life of the log, only its own descriptors are closed, and at the end all are closed. -/
def C390_statement : Prop :=
  ∀ c first later rs, Kernels c (first :: rs) fdInit → (life c first later rs).wrong = false ∧ (life c first later rs).own = []

/-- If the file of the statistics cannot be opened, that of the messages is closed twice. -/
theorem C390_violated : ¬ C390_statement := by
  intro h
  have := h ⟨true, true, false⟩ ⟨true, some (3, 100), true, none⟩ true [] (by
    refine ⟨⟨?_, ?_, ?_⟩, trivial⟩
    · intro x _ y hy; cases hy
    · intro x hx; cases hx
    · intro x y _ hy; cases hy)
  exact absurd this.1 (by decide)

/-- A descriptor as a number. -/
def enc (o : Option (Nat × Nat)) : Int := match o with
  | some x => x.1
  | none => -1

/-- The descriptors of the log are those open, and different unless shared. -/
def Inv (c : Cfg) (s : Fd) : Prop :=
  ∃ M S : Option (Nat × Nat), s.msg = enc M ∧ s.wrong = false ∧ (c.msg = false → M = none) ∧
    if (c.msg && c.stats && c.shared) = true then s.stats = enc M ∧ s.own = M.toList
    else s.stats = enc S ∧ s.own = S.toList ++ M.toList ∧ (c.stats = false → S = none) ∧
      ∀ x y, M = some x → S = some y → x.1 ≠ y.1

theorem closeFd_mid (s : Fd) (A B : List (Nat × Nat)) (x : Nat × Nat) (h : s.own = A ++ x :: B) (hA : ∀ y ∈ A, y.1 ≠ x.1)
    (hB : ∀ y ∈ B, y.1 ≠ x.1) : closeFd (x.1 : Int) s = { s with own := A ++ B } := by
  unfold closeFd
  have h1 : s.own.any (fun y => decide ((y.1 : Int) = (x.1 : Int))) = true := by
    rw [h]; simp
  rw [if_pos h1]
  have fA : A.filter (fun y => decide ((y.1 : Int) ≠ (x.1 : Int))) = A := by
    rw [List.filter_eq_self]; intro y hy; have := hA y hy; simp; omega
  have fB : B.filter (fun y => decide ((y.1 : Int) ≠ (x.1 : Int))) = B := by
    rw [List.filter_eq_self]; intro y hy; have := hB y hy; simp; omega
  rw [h, List.filter_append, List.filter_cons, fA, fB]
  simp

/-- Closing one of the descriptors, if there is one. -/
theorem close_enc (s : Fd) (A : List (Nat × Nat)) (o : Option (Nat × Nat)) (h : s.own = A ++ o.toList)
    (hA : ∀ x, o = some x → ∀ y ∈ A, y.1 ≠ x.1) :
    (if enc o ≠ -1 then closeFd (enc o) s else s) = { s with own := A } := by
  cases o with
  | none => simp only [enc, ne_eq, not_true_eq_false, if_false]; simp at h; rw [← h]
  | some x =>
    have : enc (some x) ≠ -1 := by simp only [enc]; omega
    rw [if_pos this]
    have := closeFd_mid s A [] x h (hA x rfl) (by simp)
    simpa [enc] using this

theorem rotM_eq (r : Rot) (s : Fd) (A : List (Nat × Nat)) (M : Option (Nat × Nat)) (hm : s.msg = enc M) (h : s.own = A ++ M.toList)
    (hA : ∀ x, M = some x → ∀ y ∈ A, y.1 ≠ x.1) (hp : r.pathM = true) :
    ∃ e, rotM r s = ({ s with msg := enc r.openM, own := r.openM.toList ++ A, err := e }, r.openM.isSome) ∧
      (∀ x, r.openM = some x → e = some x.2) := by
  unfold rotM
  simp only [hm, close_enc s A M h hA, hp]
  cases r.openM with
  | none => exact ⟨s.err, rfl, by simp⟩
  | some x => exact ⟨some x.2, rfl, by simp⟩

theorem inv_rotate (c : Cfg) (r : Rot) (s : Fd) (h : Inv c s) (hk : Kernel c r s) (hm : r.pathM = true) (hs : r.pathS = true) :
    Inv c (rotate c r s).1 := by
  obtain ⟨M, S, i1, i2, i3, i4⟩ := h
  obtain ⟨k1, k2, k3⟩ := hk
  by_cases hsh : (c.msg && c.stats && c.shared) = true
  · rw [if_pos hsh] at i4
    obtain ⟨i4, i5⟩ := i4
    simp only [Bool.and_eq_true] at hsh
    obtain ⟨⟨hcm, hcs⟩, hcsh⟩ := hsh
    obtain ⟨e, h1, -⟩ := rotM_eq r s [] M i1 (by simpa using i5) (by simp) hm
    refine ⟨r.openM, none, ?_, ?_, ?_, ?_⟩
    · simp [rotate, hcm, hcs, hcsh, h1, rotS]
    · simp [rotate, hcm, hcs, hcsh, h1, rotS, i2]
    · simp [hcm]
    · simp [rotate, hcm, hcs, hcsh, h1, rotS]
  · rw [if_neg hsh] at i4
    obtain ⟨i4, i5, i6, i7⟩ := i4
    have hMS : ∀ x, M = some x → ∀ y ∈ S.toList, y.1 ≠ x.1 := by
      intro x hx y hy
      have : S = some y := by simpa [Option.mem_toList] using hy
      exact fun hh => i7 x y hx this hh.symm
    -- after the messages
    have hA : ∃ M' e, (if c.msg then rotM r s else (s, true)).1 = { s with msg := enc M', own := M'.toList ++ S.toList, err := e } ∧
        (c.msg = false → M' = none) ∧ (∀ x, M' = some x → ∀ y, S = some y → x.1 ≠ y.1) ∧
        (∀ x y, M' = some x → r.openS = some y → x.1 ≠ y.1) := by
      cases hcm : c.msg with
      | false =>
        have hM := i3 hcm
        subst hM
        refine ⟨none, s.err, ?_, by simp, by simp, by simp⟩
        have i5' : s.own = S.toList := by rw [i5]; simp
        have e : (none : Option (Nat × Nat)).toList ++ S.toList = s.own := by rw [i5']; rfl
        rw [← i1, e]
        rfl
      | true =>
        obtain ⟨e, h1, -⟩ := rotM_eq r s S.toList M i1 i5 hMS hm
        refine ⟨r.openM, e, by simp [h1], by simp, ?_, fun x y hx hy => k3 x y hx hy hcm⟩
        intro x hx y hy hxy
        have hmem : y ∈ s.own := by rw [i5, hy]; simp
        have := k1 x hx y hmem hxy.symm
        rw [i1] at this
        cases hM : M with
        | none => rw [hM] at this; simp only [enc] at this; omega
        | some z =>
          rw [hM] at this
          simp only [enc] at this
          exact i7 z y hM hy (by omega)
    obtain ⟨M', e, a1, a2, a3, a4⟩ := hA
    simp only [rotate, a1]
    cases hcs : c.stats with
    | false =>
      have hS := i6 hcs
      subst hS
      refine ⟨M', none, by simp, by simpa using i2, a2, ?_⟩
      rw [if_neg (by simp [hcs])]
      simp [i4]
    | true =>
      have hcl : (if enc S ≠ -1 then closeFd (enc S) { s with msg := enc M', own := M'.toList ++ S.toList, err := e }
          else { s with msg := enc M', own := M'.toList ++ S.toList, err := e }) =
          { s with msg := enc M', own := M'.toList, err := e } := by
        refine close_enc _ M'.toList S rfl ?_
        intro y hy x hx
        have : M' = some x := by simpa [Option.mem_toList] using hx
        exact a3 x this y hy
      have hrot : ∃ o b, rotS c r { s with msg := enc M', own := M'.toList ++ S.toList, err := e } =
          ({ s with msg := enc M', stats := enc r.openS, own := r.openS.toList ++ M'.toList, err := e, out := o }, b) := by
        unfold rotS
        rw [if_neg hsh]
        simp only [i4] at hcl ⊢
        simp only [hcl, hs]
        cases r.openS with
        | none => exact ⟨s.out, false, by simp [enc]⟩
        | some x => exact ⟨some x.2, true, by simp [enc]⟩
      obtain ⟨o, b, hrot⟩ := hrot
      refine ⟨M', r.openS, ?_, ?_, a2, ?_⟩
      · simp [hrot]
      · simp only [↓reduceIte, hrot]; exact i2
      · rw [if_neg hsh]
        refine ⟨by simp [hrot], by simp [hrot], by simp [hcs], fun x y hx hy => a4 x y hx hy⟩

theorem inv_close (c : Cfg) (s : Fd) (h : Inv c s) : (closeLog s).wrong = false ∧ (closeLog s).own = [] := by
  obtain ⟨M, S, i1, i2, i3, i4⟩ := h
  unfold closeLog
  by_cases hsh : (c.msg && c.stats && c.shared) = true
  · rw [if_pos hsh] at i4
    obtain ⟨i4, i5⟩ := i4
    have e1 : (if s.msg ≠ -1 ∧ s.msg ≠ s.stats then closeFd s.msg s else s) = s := by
      rw [if_neg]; rw [i1, i4]; simp
    simp only [e1]
    rw [i4, close_enc s [] M (by simpa using i5) (by simp)]
    exact ⟨i2, rfl⟩
  · rw [if_neg hsh] at i4
    obtain ⟨i4, i5, i6, i7⟩ := i4
    have e1 : (if s.msg ≠ -1 ∧ s.msg ≠ s.stats then closeFd s.msg s else s) = { s with own := S.toList } := by
      have hc := close_enc s S.toList M i5 (by
        intro x hx y hy
        have : S = some y := by simpa [Option.mem_toList] using hy
        exact fun hh => i7 x y hx this hh.symm)
      rw [← i1] at hc
      rw [← hc]
      by_cases hm : s.msg = -1
      · simp [hm]
      · have hne : s.msg ≠ s.stats := by
          rw [i1, i4]
          rw [i1] at hm
          cases hM : M with
          | none => simp [hM, enc] at hm
          | some x =>
            cases hS : S with
            | none => simp only [enc]; omega
            | some y => have := i7 x y hM hS; simp only [enc]; omega
        simp [hm, hne]
    simp only [e1]
    have := close_enc { s with own := S.toList } [] S rfl (by simp)
    rw [← i4] at this
    simp only [this]
    exact ⟨i2, trivial⟩

theorem inv_init (c : Cfg) : Inv c fdInit := by
  refine ⟨none, none, rfl, rfl, fun _ => rfl, ?_⟩
  split
  · exact ⟨rfl, rfl⟩
  · exact ⟨rfl, rfl, fun _ => rfl, by simp⟩

/-- C390 if the log can be opened and paths can be made. -/
theorem C390_own_partial (c : Cfg) (first : Rot) (rs : List Rot) (hk : Kernels c (first :: rs) fdInit)
    (hp : ∀ r ∈ first :: rs, r.pathM = true ∧ r.pathS = true) (h0 : (rotate c first fdInit).2 = true) :
    (life c first true rs).wrong = false ∧ (life c first true rs).own = [] := by
  have key : ∀ (rs : List Rot) (s : Fd), Inv c s → Kernels c rs s → (∀ r ∈ rs, r.pathM = true ∧ r.pathS = true) →
      Inv c (rs.foldl (fun s r => (rotate c r s).1) s) := by
    intro rs
    induction rs with
    | nil => intro s h _ _; exact h
    | cons r rs ih =>
      intro s h hk hp
      have := hp r (by simp)
      exact ih _ (inv_rotate c r s h hk.1 this.1 this.2) hk.2 (fun q hq => hp q (List.mem_cons_of_mem _ hq))
  have h1 := key (first :: rs) fdInit (inv_init c) hk hp
  simp only [life, h0, Bool.and_self, if_true]
  exact inv_close c _ h1

example : (life ⟨true, true, true⟩ ⟨true, some (3, 100), true, none⟩ true
    [⟨true, some (3, 101), true, none⟩, ⟨true, none, true, none⟩, ⟨true, some (4, 102), true, none⟩]).wrong = false := by decide

/-! ## C391: messages and statistics go to the new files -/

/-- C391: after a rotation that succeeded, messages and statistics go to the files just opened. -/
theorem C391_new_files (c : Cfg) (r : Rot) (s : Fd) (h0 : (rotate c r s).2 = true) :
    (c.msg = true → ∃ x, r.openM = some x ∧ (rotate c r s).1.err = some x.2) ∧
    (c.stats = true → (c.msg && c.shared) = false → ∃ x, r.openS = some x ∧ (rotate c r s).1.out = some x.2) ∧
    (c.stats = true → (c.msg && c.shared) = true → ∃ x, r.openM = some x ∧ (rotate c r s).1.out = some x.2) := by
  have hM : c.msg = true → (rotM r s).2 = true → ∃ x, r.openM = some x ∧ (rotM r s).1.err = some x.2 ∧ (rotM r s).1.msg = x.1 ∧
      ∃ l, (rotM r s).1.own = x :: l := by
    intro _ hr
    unfold rotM at hr ⊢
    cases hp : r.pathM with
    | false => simp [hp] at hr
    | true =>
      cases ho : r.openM with
      | none => simp [hp, ho] at hr
      | some x => exact ⟨x, rfl, by simp, by simp, _, by simp; rfl⟩
  have herr : ∀ t : Fd, (rotS c r t).1.err = t.err := by
    intro t
    unfold rotS closeFd
    repeat' split
    all_goals rfl
  have hS : ∀ t : Fd, (c.msg && c.shared) = false → c.stats = true → (rotS c r t).2 = true →
      ∃ x, r.openS = some x ∧ (rotS c r t).1.out = some x.2 := by
    intro t hn hc hr
    have hsh : ¬ ((c.msg && c.stats && c.shared) = true) := by
      rw [hc, Bool.and_true, hn]; simp
    unfold rotS at hr ⊢
    rw [if_neg hsh] at hr ⊢
    cases hp : r.pathS with
    | false => simp [hp] at hr
    | true =>
      cases ho : r.openS with
      | none => simp [hp, ho] at hr
      | some x => exact ⟨x, rfl, by simp⟩
  simp only [rotate, Bool.and_eq_true] at h0 ⊢
  obtain ⟨h1, h2⟩ := h0
  refine ⟨fun hc => ?_, fun hc hn => ?_, fun hc hn => ?_⟩
  · rw [if_pos hc] at h1
    obtain ⟨x, e1, e2, -⟩ := hM hc h1
    refine ⟨x, e1, ?_⟩
    simp only [hc, if_true]
    split
    · rw [herr]; exact e2
    · exact e2
  · rw [if_pos hc] at h2
    rw [if_pos hc]
    exact hS _ hn hc h2
  · rw [if_pos hn.1] at h1
    obtain ⟨x, e1, e2, e3, l, e4⟩ := hM hn.1 h1
    refine ⟨x, e1, ?_⟩
    rw [if_pos hc, if_pos hn.1, rotS, if_pos (by simp [hc, hn.1, hn.2])]
    simp [e3, fileOf, e4]

example : (rotate ⟨true, true, true⟩ ⟨true, some (3, 101), true, none⟩
    { fdInit with msg := 3, stats := 3, own := [(3, 100)], err := some 100, out := some 100 }).1.out = some 101 := by decide

end Verif.Log
