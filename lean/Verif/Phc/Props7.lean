import Verif.Phc.Props6

set_option linter.unusedSimpArgs false
set_option linter.unusedVariables false

/-!
# Properties of hardware clock devices: PPS input and file descriptors
-/

namespace Verif.Phc

open Verif.Time (Ts val)

/-! ## C172: the PPS input method -/

/-- The method can be used with the device as it is. -/
def InputUsable (env : Env) (p : Phc) : PpsMethod → Prop
  | .devPtp => 1 ≤ p.caps.nExtTs
  | .devPps => p.devPath ≠ [] ∧ ∃ t fd, env.openDev t p.devPath = .ok fd ∧ p.devFd = some fd
  | .max => False

/-- The method was tried in vain or could not be tried. -/
def InputUnusable (env : Env) (p : Phc) : PpsMethod → Prop
  | .devPtp => p.caps.nExtTs = 0
  | .devPps => p.devPath = [] ∨ ∃ t e, env.openDev t p.devPath = .error e
  | .max => True

theorem choosePps_spec (env : Env) (he : Errnos env) : ∀ (l : List PpsMethod) (w : World), w.phc.ppsMethod = .max →
    w.phc.devFd = none →
    (choosePps env l w).phc.caps = w.phc.caps ∧ (choosePps env l w).phc.devPath = w.phc.devPath ∧
    (((choosePps env l w).phc.ppsMethod ≠ .max ∧ ∃ pre rest, inEffect .max l = pre ++ (choosePps env l w).phc.ppsMethod :: rest ∧
        InputUsable env (choosePps env l w).phc (choosePps env l w).phc.ppsMethod ∧
        ∀ m ∈ pre, InputUnusable env (choosePps env l w).phc m) ∨
     ((choosePps env l w).phc.ppsMethod = .max ∧ ∀ m ∈ inEffect .max l, InputUnusable env (choosePps env l w).phc m)) := by
  intro l
  induction l with
  | nil => intro w hm _; exact ⟨rfl, rfl, Or.inr ⟨hm, by simp [inEffect]⟩⟩
  | cons a rest ih =>
    intro w hm hd
    -- going on with the rest of the list
    have goOn : ∀ w1 : World, w1.phc = w.phc → a ≠ .max → InputUnusable env w.phc a →
        choosePps env (a :: rest) w = choosePps env rest w1 →
        (choosePps env (a :: rest) w).phc.caps = w.phc.caps ∧ (choosePps env (a :: rest) w).phc.devPath = w.phc.devPath ∧
        (((choosePps env (a :: rest) w).phc.ppsMethod ≠ .max ∧
            ∃ pre post, inEffect .max (a :: rest) = pre ++ (choosePps env (a :: rest) w).phc.ppsMethod :: post ∧
            InputUsable env (choosePps env (a :: rest) w).phc (choosePps env (a :: rest) w).phc.ppsMethod ∧
            ∀ m ∈ pre, InputUnusable env (choosePps env (a :: rest) w).phc m) ∨
         ((choosePps env (a :: rest) w).phc.ppsMethod = .max ∧
            ∀ m ∈ inEffect .max (a :: rest), InputUnusable env (choosePps env (a :: rest) w).phc m)) := by
      intro w1 hw1 ha hun heq
      rw [heq]
      obtain ⟨i1, i2, i3⟩ := ih w1 (by rw [hw1]; exact hm) (by rw [hw1]; exact hd)
      rw [hw1] at i1 i2
      have hin : inEffect PpsMethod.max (a :: rest) = a :: inEffect .max rest := by
        unfold inEffect
        simp [List.takeWhile, ha]
      have hun' : InputUnusable env (choosePps env rest w1).phc a := by
        unfold InputUnusable at *
        cases a
        · simp only at hun ⊢; rw [i1]; exact hun
        · simp only at hun ⊢; rw [i2]; exact hun
        · trivial
      refine ⟨i1, i2, ?_⟩
      rcases i3 with ⟨j1, pre, post, j2, j3, j4⟩ | ⟨j1, j2⟩
      · left
        refine ⟨j1, a :: pre, post, by rw [hin, j2]; rfl, j3, ?_⟩
        intro m hmem
        rcases List.mem_cons.mp hmem with rfl | hmem
        · exact hun'
        · exact j4 m hmem
      · right
        refine ⟨j1, ?_⟩
        intro m hmem
        rw [hin] at hmem
        rcases List.mem_cons.mp hmem with rfl | hmem
        · exact hun'
        · exact j2 m hmem
    cases a with
    | devPtp =>
      by_cases hn : w.phc.caps.nExtTs ≥ 1
      · have heq : choosePps env (.devPtp :: rest) w = w.set fun p => { p with ppsMethod := .devPtp } := by
          simp only [choosePps]; rw [if_pos hn]
        rw [heq]
        refine ⟨rfl, rfl, Or.inl ⟨by simp [World.set], [], inEffect .max rest, ?_, hn, by simp⟩⟩
        simp [inEffect, List.takeWhile, World.set]
      · exact goOn w rfl (by decide) (by simp only [InputUnusable]; omega) (by simp only [choosePps]; rw [if_neg hn])
    | max =>
      refine ⟨rfl, rfl, Or.inr ⟨rfl, by simp [inEffect]⟩⟩
    | devPps =>
      by_cases hp : w.phc.devPath = []
      · exact goOn w rfl (by decide) (Or.inl hp) (by simp only [choosePps]; rw [if_pos hp])
      · rcases openDev_cases env w with ⟨⟨f, hf⟩, ho⟩ | ⟨hf, e, hoe, ho⟩ | ⟨hf, fd, hoe, ho⟩
        · rw [hd] at hf; cases hf
        · refine goOn w.next rfl (by decide) (Or.inr ⟨_, e, hoe⟩) ?_
          simp only [choosePps]
          rw [if_neg hp, ho]
          simp only
          rw [if_neg (he.openDev _ _ _ hoe)]
        · have heq : choosePps env (.devPps :: rest) w =
              ((w.next.note (.opened fd)).set fun p => { p with devFd := some fd }).set
                fun p => { p with ppsMethod := .devPps } := by
            simp only [choosePps]; rw [if_neg hp, ho]; simp
          rw [heq]
          refine ⟨rfl, rfl, Or.inl ⟨by simp [World.set], [], inEffect .max rest, ?_, ⟨hp, w.tick, fd, hoe, rfl⟩, by simp⟩⟩
          simp [inEffect, List.takeWhile, World.set]

/-- C172. Opening a device chooses the first PPS input method listed that can be
used with it, if there is one. -/
theorem C172_input_method (env : Env) (ms : List Method) (pms : List PpsMethod) (idx tick : Nat) (w : World)
    (log : List Ev) (he : Errnos env) (hs : ShortNames env) (h3 : pms.length = 3) (hend : pms[2]? = some .max)
    (h : openPhc env ms pms idx tick = .ok (0, some w, log)) :
    (w.phc.ppsMethod ≠ .max ∧ ∃ pre rest, inEffect .max pms = pre ++ w.phc.ppsMethod :: rest ∧
      InputUsable env w.phc w.phc.ppsMethod ∧ ∀ m ∈ pre, InputUnusable env w.phc m) ∨
    (w.phc.ppsMethod = .max ∧ ∀ m ∈ inEffect .max pms, InputUnusable env w.phc m) := by
  have heff : inEffect .max (pms.take 2) = inEffect .max pms := by
    match pms, h3, hend with
    | [a, b, c], _, hend =>
      simp at hend
      subst hend
      simp only [List.take, inEffect, List.takeWhile]
      cases a <;> cases b <;> simp
  unfold openPhc at h
  split at h
  · cases h
  · rename_i fd _
    split at h
    · cases h
    · rename_i caps _
      unfold discoverPps at h
      obtain ⟨path, hp⟩ := discoverDev_ok env (allocated ms pms idx tick fd caps) hs
      unfold allocated at hp
      rw [hp] at h
      cases h
      have := (choosePps_spec env he (pms.take 2)
        ((allocated ms pms idx tick fd caps).next.set fun p => { p with devPath := path }) rfl rfl).2.2
      rw [heff] at this
      exact this

example : (opened companions two [.devPps, .devPtp, .max] 0).map (fun w => (w.phc.ppsMethod, w.phc.devFd)) =
    some (.devPps, some 13) := by decide +kernel

example : (opened { companions with getCaps := fun _ => .ok ⟨0, 2, true, false⟩ } two [.devPtp, .devPps, .max] 0).map
    (fun w => (w.phc.ppsMethod, w.phc.devFd)) = some (.devPtp, none) := by decide +kernel

/-! ## C173: events of external PPS devices -/

/-- Polls the external PPS device for each call up to `n`: what is reported. -/
def poll (env : Env) : Nat → World → List Event
  | 0, _ => []
  | n + 1, w =>
    match devPpsEvent env w with
    | .ok (w', e) => e :: poll env n w'
    | .error _ => []

/-- The values of a list that differ from the one before. -/
def changes {α : Type} [DecidableEq α] : α → List α → List α
  | _, [] => []
  | a, b :: rest => if b = a then changes a rest else b :: changes b rest

/-- What the kernel answers from a moment on, leaving out failures. -/
def answers (env : Env) (t : Nat) : Nat → List (Int × Int × Nat)
  | 0 => []
  | n + 1 =>
    match env.fetchExt t with
    | .ok ev => ev :: answers env (t + 1) n
    | .error _ => answers env (t + 1) n

/-- The events reported. -/
def reported (l : List Event) : List (Option (Int × Int) × Option Nat) :=
  (l.filter (fun e => e.rc = 0)).map fun e => (e.time, e.seq)

/-- C173. The events reported are the pulses the kernel has seen, each once: a
new one is reported when the sequence number changes. -/
def C173_statement : Prop :=
  ∀ (env : Env) (w : World) (n : Nat), (∀ t e, env.fetchExt t = .error e → e ≠ 0) → w.phc.devFd ≠ none →
    w.phc.devPrev = (0, 0, 4294967295) →
    -- the kernel has seen no pulse before the sequence number is positive
    ∀ e ∈ poll env n w, e.rc = 0 → e.seq ≠ some 0

/-- C173 fails: before the first pulse the kernel answers with the time zero and
the sequence number zero, and this is reported as an event. -/
theorem C173_violated : ¬ C173_statement := by
  intro h
  have := h { bare with fetchExt := fun _ => .ok (0, 0, 0) } (bare0.set fun p => { p with devFd := some 3 }) 1
    (by intro t e he; simp at he) (by simp [World.set]) (by decide +kernel)
    { rc := 0, time := some (0, 0), seq := some 0 } (by decide +kernel) rfl
  exact this rfl

/-- What holds of C173: what is reported are the answers of the kernel that
differ from the one before, with their time and sequence number, in order; the
first is compared to zero with the largest sequence number. -/
theorem C173_events_partial (env : Env) (he : ∀ t e, env.fetchExt t = .error e → e ≠ 0) :
    ∀ (n : Nat) (w : World), w.phc.devFd ≠ none →
    reported (poll env n w) = (changes w.phc.devPrev (answers env w.tick n)).map (fun ev => (some (ev.1, ev.2.1), some ev.2.2)) ∧
    (poll env n w).length = n ∧
    ∀ e ∈ poll env n w, e.rc ≠ 0 → e.time = none ∧ e.seq = none := by
  intro n
  induction n with
  | zero => intro w _; simp [poll, reported, answers, changes]
  | succ n ih =>
    intro w hd
    rcases devPpsEvent_cases env w with ⟨hn, _⟩ | ⟨f, hf, ⟨e, h1, h⟩ | ⟨h1, h⟩ | ⟨ev, h1, hne, h⟩⟩
    · exact absurd hn hd
    · simp only [poll, h, answers, h1]
      obtain ⟨i1, i2, i3⟩ := ih w.next hd
      refine ⟨?_, by simp [i2], ?_⟩
      · have : reported ({ rc := e, time := none, seq := none } :: poll env n w.next) = reported (poll env n w.next) := by
          unfold reported; simp [he _ _ h1]
        rw [this, i1]
        rfl
      · intro x hx hrc
        rcases List.mem_cons.mp hx with rfl | hx
        · exact ⟨rfl, rfl⟩
        · exact i3 x hx hrc
    · simp only [poll, h, answers, h1]
      obtain ⟨i1, i2, i3⟩ := ih w.next hd
      refine ⟨?_, by simp [i2], ?_⟩
      · have : reported ({ rc := 11, time := none, seq := none } :: poll env n w.next) = reported (poll env n w.next) := by
          unfold reported; simp
        rw [this, i1]
        simp only [changes, if_true]
        rfl
      · intro x hx hrc
        rcases List.mem_cons.mp hx with rfl | hx
        · exact ⟨rfl, rfl⟩
        · exact i3 x hx hrc
    · simp only [poll, h, answers, h1]
      obtain ⟨i1, i2, i3⟩ := ih (w.next.set fun p => { p with devPrev := ev }) hd
      refine ⟨?_, by simp [i2], ?_⟩
      · have : reported ({ rc := 0, time := some (ev.1, ev.2.1), seq := some ev.2.2 } ::
            poll env n (w.next.set fun p => { p with devPrev := ev })) =
            (some (ev.1, ev.2.1), some ev.2.2) :: reported (poll env n (w.next.set fun p => { p with devPrev := ev })) := by
          unfold reported; simp
        rw [this, i1]
        simp only [changes, if_neg hne, List.map_cons]
        rfl
      · intro x hx hrc
        rcases List.mem_cons.mp hx with rfl | hx
        · exact absurd rfl hrc
        · exact i3 x hx hrc

example : reported (poll { bare with fetchExt := fun t => if t = 6 then .error 110 else .ok (t / 3, 5, t / 3) } 6
    (bare0.set fun p => { p with devFd := some 3 })) =
    [(some (1, 5), some 1), (some (2, 5), some 2)] := by decide +kernel

/-! ## C174: events of the PTP subsystem -/

/-- C174. The event returned for a device of the PTP subsystem is the first in
its queue that belongs to channel 0, and what precedes it is discarded; an error
of the queue is returned. -/
theorem C174_devptp_event (env : Env) : ∀ (n : Nat) (w w' : World) (e : Event),
    devPtpEvent env n w = some (w', e) → ∃ k, w'.tick = w.tick + k + 1 ∧ w'.phc = w.phc ∧
      (∀ j < k, ∃ x, env.readExtts (w.tick + j) = .ok x ∧ x.index ≠ 0) ∧
      ((∃ x, env.readExtts (w.tick + k) = .ok x ∧ x.index = 0 ∧ e.rc = 0 ∧ e.time = some (x.time.sec, x.time.nsec)) ∨
       (env.readExtts (w.tick + k) = .error e.rc ∧ e.time = none)) := by
  intro n
  induction n with
  | zero => intro w w' e h; cases h
  | succ n ih =>
    intro w w' e h
    simp only [devPtpEvent] at h
    split at h
    · rename_i e' he
      cases h
      exact ⟨0, rfl, rfl, by intro j hj; omega, Or.inr ⟨he, rfl⟩⟩
    · rename_i ev he
      split at h
      · rename_i h0
        cases h
        exact ⟨0, rfl, rfl, by intro j hj; omega, Or.inl ⟨ev, he, h0, rfl, rfl⟩⟩
      · rename_i h0
        obtain ⟨k, k1, k2, k3, k4⟩ := ih w.next w' e h
        have hn : w.next.tick = w.tick + 1 := rfl
        rw [hn] at k1 k3 k4
        refine ⟨k + 1, by omega, k2, ?_, ?_⟩
        · intro j hj
          cases j with
          | zero => exact ⟨ev, he, h0⟩
          | succ j =>
            obtain ⟨x, hx⟩ := k3 j (by omega)
            exact ⟨x, by rw [show w.tick + (j + 1) = w.tick + 1 + j by omega]; exact hx⟩
        · rw [show w.tick + (k + 1) = w.tick + 1 + k by omega]
          exact k4

/-- C174, the other way round: where such an event is in the queue it is found. -/
theorem C174_devptp_found (env : Env) : ∀ (k : Nat) (w : World) (x : Extts),
    (∀ j < k, ∃ y, env.readExtts (w.tick + j) = .ok y ∧ y.index ≠ 0) →
    env.readExtts (w.tick + k) = .ok x → x.index = 0 → ∀ n, k < n →
    ∃ w' e, devPtpEvent env n w = some (w', e) ∧ e.rc = 0 ∧ e.time = some (x.time.sec, x.time.nsec) := by
  intro k
  induction k with
  | zero =>
    intro w x _ hx h0 n hn
    cases n with
    | zero => omega
    | succ n =>
      simp only [Nat.add_zero] at hx
      simp only [devPtpEvent, hx, h0, if_true]
      exact ⟨_, _, rfl, rfl, rfl⟩
  | succ k ih =>
    intro w x hj hx h0 n hn
    cases n with
    | zero => omega
    | succ n =>
      obtain ⟨y, hy, hy0⟩ := hj 0 (by omega)
      simp only [Nat.add_zero] at hy
      simp only [devPtpEvent, hy, if_neg hy0]
      apply ih w.next x ?_ ?_ h0 n (by omega)
      · intro j hj'
        obtain ⟨z, hz⟩ := hj (j + 1) (by omega)
        exact ⟨z, by show env.readExtts (w.tick + 1 + j) = _ ∧ _; rw [show w.tick + 1 + j = w.tick + (j + 1) by omega]; exact hz⟩
      · show env.readExtts (w.tick + 1 + k) = _
        rw [show w.tick + 1 + k = w.tick + (k + 1) by omega]
        exact hx

example : (devPtpEvent { bare with readExtts := fun t => .ok ⟨t % 3, ⟨5, t, 0⟩⟩ } 3 bare0).map (·.2) =
    some { rc := 0, time := some (5, 3), seq := some 4294967295 } := by decide +kernel

/-! ## C175: file descriptors -/

theorem close_count (w : World) (e : Ev) :
    times (close w) e = times w.log e + (match w.phc.devFd with | some fd => times [.closed fd] e | none => 0) +
      (match w.phc.ppsFd with | some fd => times [.ppsOff w.phc.fd, .closed fd] e | none => 0) +
      times [.closed w.phc.fd] e := by
  unfold close times
  cases w.phc.devFd <;> cases w.phc.ppsFd <;> simp [List.count_append, List.count_cons] <;> omega

/-- C175. After any use of a device, closing it closes every file descriptor as
often as it was opened and stops the pulses exactly where they were started; a
device that could not be opened leaves nothing open. -/
theorem C175_descriptors (env : Env) (ms : List Method) (pms : List PpsMethod) (he : Errnos env) (hs : ShortNames env)
    (hl : Listed env) (hg : GoodTable ms) :
    (∀ w, Reach env ms pms w → ∀ fd, times (close w) (.opened fd) = times (close w) (.closed fd) ∧
      times (close w) (.ppsOn fd) = times (close w) (.ppsOff fd) ∧ times (close w) (.ppsOn fd) ≤ 1) ∧
    (∀ idx tick w log, openPhc env ms pms idx tick = .ok (0, some w, log) → ∀ fd,
      times (close w) (.opened fd) = times (close w) (.closed fd)) ∧
    (∀ idx tick rc log, openPhc env ms pms idx tick = .ok (rc, none, log) → ∀ fd,
      times log (.opened fd) = times log (.closed fd)) := by
  have key : ∀ w : World, Bal w → ∀ fd, times (close w) (.opened fd) = times (close w) (.closed fd) ∧
      times (close w) (.ppsOn fd) = times (close w) (.ppsOff fd) ∧ times (close w) (.ppsOn fd) ≤ 1 := by
    intro w hb fd
    have h1 := hb.fds fd
    have h2 := hb.on fd
    have h3 := hb.off fd
    simp only [close_count]
    cases hdev : w.phc.devFd with
    | none =>
      cases hpps : w.phc.ppsFd with
      | none =>
        rw [hdev, hpps] at h1
        rw [hpps] at h2
        simp [times, List.count_cons] at *
        refine ⟨?_, ?_, ?_⟩ <;> (try split) <;> simp_all
      | some b =>
        rw [hdev, hpps] at h1
        rw [hpps] at h2
        simp [times, List.count_cons] at *
        by_cases q1 : w.phc.fd = fd <;> by_cases q2 : b = fd <;> simp_all
    | some a =>
      cases hpps : w.phc.ppsFd with
      | none =>
        rw [hdev, hpps] at h1
        rw [hpps] at h2
        simp [times, List.count_cons] at *
        by_cases q1 : w.phc.fd = fd <;> by_cases q2 : a = fd <;> simp_all
      | some b =>
        rw [hdev, hpps] at h1
        rw [hpps] at h2
        simp [times, List.count_cons] at *
        by_cases q1 : w.phc.fd = fd <;> by_cases q2 : b = fd <;> by_cases q3 : a = fd <;> simp_all
  refine ⟨?_, ?_, ?_⟩
  · intro w h fd
    exact key w (reach_inv env ms pms he hs hl hg w h).2.bal fd
  · intro idx tick w log h fd
    rcases openPhc_spec env ms pms idx tick he hs with ⟨e, h'⟩ | ⟨e, fd', h'⟩ | ⟨w1, h', hf, _, _⟩
    · rw [h'] at h; cases h
    · rw [h'] at h; cases h
    · rw [h'] at h
      cases h
      exact (key w hf.bal fd).1
  · intro idx tick rc log h fd
    rcases openPhc_spec env ms pms idx tick he hs with ⟨e, h'⟩ | ⟨e, fd', h'⟩ | ⟨w1, h', hf, _, _⟩
    · rw [h'] at h; cases h; rfl
    · rw [h'] at h
      cases h
      simp [times, List.count_cons]
    · rw [h'] at h; cases h

/-- C175, the result: opening succeeds exactly where there is a device. -/
theorem C175_failure_told (env : Env) (ms : List Method) (pms : List PpsMethod) (he : Errnos env)
    (hc : ∀ t e, env.getCaps t = .error e → e ≠ 0) (idx tick rc : Nat) (w : Option World) (log : List Ev)
    (h : openPhc env ms pms idx tick = .ok (rc, w, log)) : rc = 0 ↔ w ≠ none := by
  unfold openPhc at h
  split at h
  · rename_i e ho
    cases h
    exact ⟨fun h0 => absurd h0 (he.openDev _ _ _ ho), fun h0 => absurd rfl h0⟩
  · split at h
    · rename_i e hg
      cases h
      exact ⟨fun h0 => absurd h0 (hc _ _ hg), fun h0 => absurd rfl h0⟩
    · split at h
      · cases h
      · cases h
        exact ⟨fun _ => by simp, fun _ => rfl⟩

/-- C170 without a method: once none works, and the pulses are not due another chance, each
comparison fails with `EOPNOTSUPP` and leaves the difference alone. -/
theorem C170_no_method (env : Env) (w : World) (d : Ts) (hm : w.phc.method = .max) (hs : w.phc.synth ≠ .notReady) :
    compare env w d = .ok (w, 95, d) := by
  unfold compare compareN
  have hr : reselect env w = w := by
    unfold reselect
    rw [if_neg hs]
  rw [hr]
  unfold dispatch
  rw [hm]
  rfl

example : ∃ w : World, w.phc.method = .max ∧ w.phc.synth ≠ .notReady ∧ compare stuck w ⟨5, 0, 0⟩ = .ok (w, 95, ⟨5, 0, 0⟩) :=
  ⟨stuck1.set fun p => { p with method := .max, synth := .bad }, rfl, by decide, C170_no_method _ _ _ rfl (by decide)⟩

example : close pulse0 = [.opened 10, .opened 14, .ppsOn 10, .ppsOff 10, .closed 14, .closed 10] := by decide +kernel

end Verif.Phc
