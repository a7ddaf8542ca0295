import Verif.Phc.Moves

set_option linter.unusedSimpArgs false
set_option linter.unusedVariables false

/-!
# Opening, starting and using a hardware clock device
-/

namespace Verif.Phc

open Verif.Time (Ts val)

/-! ## Looking for the external PPS device -/

theorem findExt_ok (name ext : List Char) (l : List (List Char × Option (List Char)))
    (hs : ∀ e text word, (e, some text) ∈ l → FirstWord text word → word.length < 16) :
    ∀ s, ∃ r, findExt name ext s l = .ok r := by
  induction l with
  | nil => intro s; exact ⟨none, rfl⟩
  | cons a rest ih =>
    intro s
    have ih' := ih (fun e text word h => hs e text word (List.mem_cons_of_mem _ h))
    obtain ⟨e, t⟩ := a
    cases t with
    | none =>
      simp only [findExt]
      split
      · exact ⟨none, rfl⟩
      · exact ih' s
    | some text =>
      simp only [findExt]
      rcases scanName_short text (fun w hw => hs e text w (by simp) hw) with ⟨w, h, _⟩ | ⟨h, _⟩
      · rw [h]
        simp only
        split
        · exact ⟨_, rfl⟩
        · exact ih' _
      · rw [h]
        exact ih' _

theorem discoverDev_ok (env : Env) (w : World) (hs : ShortNames env) :
    ∃ path, discoverDev env w = .ok (w.next.set fun p => { p with devPath := path }) := by
  unfold discoverDev
  split
  · exact ⟨[], rfl⟩
  · rename_i l hl
    obtain ⟨r, hr⟩ := findExt_ok (phcName w.phc.idx) (extName w.phc.idx) l (fun e text word h => hs _ l hl e text word h)
      .searching
    rw [hr]
    cases r with
    | none => exact ⟨[], rfl⟩
    | some e => exact ⟨e, rfl⟩

/-- What holds of a device that is open. -/
structure Open (ms : List Method) (pms : List PpsMethod) (w : World) : Prop where
  methods : w.methods = ms
  ppsMethods : w.ppsMethods = pms
  posix : w.phc.posix = fdToPosix w.phc.fd
  dev : w.phc.ppsMethod = .devPps → w.phc.devFd ≠ none
  ptp : w.phc.ppsMethod = .devPtp → 1 ≤ w.phc.caps.nExtTs
  bal : Bal w

/-- What holds of a device that was just opened. -/
structure Fresh (ms : List Method) (pms : List PpsMethod) (w : World) : Prop extends Open ms pms w where
  ppsFd : w.phc.ppsFd = none
  synth : w.phc.synth = .notTried
  method : w.phc.method = .precise
  index : w.phc.index = 6
  ppsPrev : w.phc.ppsPrev = (0, 0)
  prevMono : w.phc.prevMono = ⟨0, 0, 0⟩
  diffPrev : w.phc.diffPrev = ⟨0, 0, 0⟩
  stepped : w.phc.stepped = false
  devPrev : w.phc.devPrev = (0, 0, 4294967295)

theorem openDev_cases (env : Env) (w : World) :
    ((∃ f, w.phc.devFd = some f) ∧ openDev env w = (w, 0)) ∨
    (w.phc.devFd = none ∧ ∃ e, env.openDev w.tick w.phc.devPath = .error e ∧ openDev env w = (w.next, e)) ∨
    (w.phc.devFd = none ∧ ∃ fd, env.openDev w.tick w.phc.devPath = .ok fd ∧
      openDev env w = ((w.next.note (.opened fd)).set fun p => { p with devFd := some fd }, 0)) := by
  unfold openDev
  split
  · rename_i f h; left; exact ⟨⟨f, h⟩, rfl⟩
  · rename_i h
    split
    · rename_i e he; right; left; exact ⟨h, e, he, rfl⟩
    · rename_i fd he; right; right; exact ⟨h, fd, he, rfl⟩

/-- Opening the external device keeps the descriptors balanced. -/
theorem bal_openDev (w : World) (fd : Nat) (h : Bal w) (hn : w.phc.devFd = none) :
    Bal ((w.next.note (.opened fd)).set fun p => { p with devFd := some fd }) := by
  refine ⟨?_, ?_, ?_⟩
  · intro f
    have := h.fds f
    rw [hn] at this
    show times (w.log ++ [Ev.opened fd]) (.opened f) = times (w.log ++ [Ev.opened fd]) (.closed f) +
      (if w.phc.fd = f then 1 else 0) + (if some fd = some f then 1 else 0) + (if w.phc.ppsFd = some f then 1 else 0)
    simp only [times, List.count_append] at *
    rw [this]
    by_cases hf : fd = f
    · subst hf; simp; omega
    · simp [hf]
  · intro f
    have := h.on f
    show times (w.log ++ [Ev.opened fd]) (.ppsOn f) = if w.phc.fd = f ∧ w.phc.ppsFd ≠ none then 1 else 0
    rw [← this]
    simp [times]
  · intro f
    have := h.off f
    show times (w.log ++ [Ev.opened fd]) (.ppsOff f) = 0
    rw [← this]
    simp [times]

theorem choosePps_keep (env : Env) (ms : List Method) (pms : List PpsMethod) (he : Errnos env) :
    ∀ (l : List PpsMethod) (w : World), Fresh ms pms w → (w.phc.ppsMethod = .max) →
    Fresh ms pms (choosePps env l w) ∧ w.phc.idx = (choosePps env l w).phc.idx ∧
      w.phc.fd = (choosePps env l w).phc.fd ∧ w.phc.caps = (choosePps env l w).phc.caps ∧
      w.phc.efx = (choosePps env l w).phc.efx := by
  intro l
  induction l with
  | nil => intro w h hm; exact ⟨h, rfl, rfl, rfl, rfl⟩
  | cons a rest ih =>
    intro w h hm
    cases a with
    | devPtp =>
      simp only [choosePps]
      split
      · rename_i hn
        exact ⟨{ h with dev := nofun, ptp := fun _ => hn, bal := ⟨h.bal.fds, h.bal.on, h.bal.off⟩ },
          rfl, rfl, rfl, rfl⟩
      · exact ih w h hm
    | max =>
      simp only [choosePps]
      exact ⟨{ h with dev := nofun, ptp := nofun, bal := ⟨h.bal.fds, h.bal.on, h.bal.off⟩ },
        rfl, rfl, rfl, rfl⟩
    | devPps =>
      simp only [choosePps]
      split
      · exact ih w h hm
      · rcases openDev_cases env w with ⟨⟨f, hf⟩, ho⟩ | ⟨hf, e, hoe, ho⟩ | ⟨hf, fd, hoe, ho⟩
        · rw [ho]
          simp only [if_true]
          exact ⟨{ h with dev := fun _ => by simp only [World.set]; rw [hf]; simp
                          ptp := nofun
                          bal := ⟨h.bal.fds, h.bal.on, h.bal.off⟩ }, rfl, rfl, rfl, rfl⟩
        · rw [ho]
          simp only
          rw [if_neg (he.openDev _ _ _ hoe)]
          exact ih w.next { h with bal := ⟨h.bal.fds, h.bal.on, h.bal.off⟩ } hm
        · rw [ho]
          simp only [if_true]
          have hb := bal_openDev w fd h.bal hf
          exact ⟨{ h with dev := fun _ => by simp [World.set]
                          ptp := nofun
                          bal := ⟨hb.fds, hb.on, hb.off⟩ }, rfl, rfl, rfl, rfl⟩

/-- The device as allocated by `sfptpd_phc_open`. -/
def allocated (ms : List Method) (pms : List PpsMethod) (idx tick fd : Nat) (caps : Caps) : World :=
  { methods := ms, ppsMethods := pms, tick := tick + 2, log := [.opened fd],
    phc := { idx := idx, fd := fd, posix := fdToPosix fd, caps := caps } }

theorem allocated_fresh (ms : List Method) (pms : List PpsMethod) (idx tick fd : Nat) (caps : Caps) (path : List Char) :
    Fresh ms pms ((allocated ms pms idx tick fd caps).next.set fun p => { p with devPath := path }) := by
  refine { methods := rfl, ppsMethods := rfl, posix := rfl, dev := ?_, ptp := ?_, bal := ⟨?_, ?_, ?_⟩,
           ppsFd := rfl, synth := rfl, method := rfl, index := rfl, ppsPrev := rfl, prevMono := rfl,
           diffPrev := rfl, stepped := rfl, devPrev := rfl }
  · intro h; cases h
  · intro h; cases h
  · intro f
    simp only [World.set, World.next, times, allocated]
    by_cases hf : fd = f <;> simp [hf]
  · intro f; simp [World.set, World.next, times, allocated]
  · intro f; simp [World.set, World.next, times, allocated]

/-- Opening never faults where the names fit; a failure leaves nothing open. -/
theorem openPhc_spec (env : Env) (ms : List Method) (pms : List PpsMethod) (idx tick : Nat) (he : Errnos env)
    (hs : ShortNames env) :
    (∃ e, openPhc env ms pms idx tick = .ok (e, none, [])) ∨
    (∃ e fd, openPhc env ms pms idx tick = .ok (e, none, [.opened fd, .closed fd])) ∨
    (∃ w, openPhc env ms pms idx tick = .ok (0, some w, w.log) ∧ Fresh ms pms w ∧ w.phc.idx = idx ∧
      w.phc.efx = false) := by
  unfold openPhc
  split
  · left; exact ⟨_, rfl⟩
  · rename_i fd _
    split
    · right; left; exact ⟨_, fd, rfl⟩
    · rename_i caps _
      right; right
      unfold discoverPps
      obtain ⟨path, hp⟩ := discoverDev_ok env (allocated ms pms idx tick fd caps) hs
      unfold allocated at hp
      rw [hp]
      obtain ⟨h1, h2, _, _, h5⟩ := choosePps_keep env ms pms he (List.take 2 pms) _
        (allocated_fresh ms pms idx tick fd caps path) rfl
      exact ⟨_, rfl, h1, h2.symm, h5.symm⟩

/-! ## Starting -/

theorem Bal.same {w w' : World} (h : Bal w) (h1 : w'.log = w.log) (h2 : w'.phc.fd = w.phc.fd)
    (h3 : w'.phc.devFd = w.phc.devFd) (h4 : w'.phc.ppsFd = w.phc.ppsFd) : Bal w' := by
  refine ⟨?_, ?_, ?_⟩
  · intro f; have := h.fds f; rw [h1, h2, h3, h4]; exact this
  · intro f; have := h.on f; rw [h1, h2, h4]; exact this
  · intro f; have := h.off f; rw [h1]; exact this

theorem strip_fd {p q : Phc} (h : Phc.strip p = Phc.strip q) : p.fd = q.fd := by
  have := congrArg Phc.fd h; exact this

theorem strip_devFd {p q : Phc} (h : Phc.strip p = Phc.strip q) : p.devFd = q.devFd := by
  have := congrArg Phc.devFd h; exact this

theorem strip_posix {p q : Phc} (h : Phc.strip p = Phc.strip q) : p.posix = q.posix := by
  have := congrArg Phc.posix h; exact this

theorem strip_ppsMethod {p q : Phc} (h : Phc.strip p = Phc.strip q) : p.ppsMethod = q.ppsMethod := by
  have := congrArg Phc.ppsMethod h; exact this

theorem strip_devPrev {p q : Phc} (h : Phc.strip p = Phc.strip q) : p.devPrev = q.devPrev := by
  have := congrArg Phc.devPrev h; exact this

theorem Open.of_strip {ms : List Method} {pms : List PpsMethod} {w w' : World} (h : Open ms pms w)
    (h1 : w'.methods = w.methods) (h2 : w'.ppsMethods = w.ppsMethods) (h3 : Phc.strip w'.phc = Phc.strip w.phc)
    (hb : Bal w') : Open ms pms w' where
  methods := h1.trans h.methods
  ppsMethods := h2.trans h.ppsMethods
  posix := by rw [strip_posix h3, strip_fd h3]; exact h.posix
  dev := by rw [strip_ppsMethod h3, strip_devFd h3]; exact h.dev
  ptp := by rw [strip_ppsMethod h3, strip_caps h3]; exact h.ptp
  bal := hb

theorem Open.keep {ms : List Method} {pms : List PpsMethod} {w w' : World} (h : Open ms pms w) (hk : Keep w w') :
    Open ms pms w' :=
  h.of_strip hk.methods hk.ppsMethods hk.strip
    (h.bal.same hk.log (strip_fd hk.strip) (strip_devFd hk.strip) hk.ppsFd)

theorem Fresh.efx {ms : List Method} {pms : List PpsMethod} {w : World} (h : Fresh ms pms w) (b : Bool) :
    Fresh ms pms (if b then defineEfx w else w) := by
  cases b with
  | false => exact h
  | true => exact { h with bal := h.bal.same rfl rfl rfl rfl }

/-- What starting a fresh device gives. -/
theorem start_spec (env : Env) (ms : List Method) (pms : List PpsMethod) (w : World) (he : Errnos env)
    (hs : ShortNames env) (hl : Listed env) (hg : ∃ m ∈ ms.take 6, m = .readTime ∨ m = .max) (hi : w.phc.idx < 2147483648)
    (h : Fresh ms pms w) :
    ∃ w' rc, start env w = .ok (w', rc) ∧ Fall env (ms.take 6) 0 (w.set fun p => { p with index := -1 }) w' rc := by
  unfold start fallback
  have e1 : ((w.set fun p => { p with index := -1 }).phc.index + 1).toNat = 0 := rfl
  have e2 : (w.set fun p => { p with index := -1 }).methods = ms := h.methods
  rw [e1, e2, List.drop_zero]
  exact fallbackLoop_fall env he hs hl (ms.take 6) false 0 _ hi hg

theorem start_inv {env : Env} {ms : List Method} {pms : List PpsMethod} {w w' : World} {rc : Nat} (hg : GoodTable ms)
    (h : Fresh ms pms w) (hf : Fall env (ms.take 6) 0 (w.set fun p => { p with index := -1 }) w' rc) :
    Inv ms w' ∧ Open ms pms w' := by
  have hopen : Open ms pms w' := h.toOpen.of_strip hf.methods hf.ppsMethods hf.strip
    (hf.bal h.ppsFd (h.bal.same rfl rfl rfl rfl))
  refine ⟨?_, hopen⟩
  have hsy : (w.set fun p => { p with index := -1 }).phc.synth = .notTried := h.synth
  refine ⟨hf.methods.trans h.methods, ?_, ?_, ?_, ?_⟩
  · intro hm
    obtain ⟨pre, m, rest, t, e1, e2, e3, _, e5, e6, _⟩ := hf.ex
    rw [hm] at e5
    subst e5
    obtain ⟨t1, t2⟩ := hg.tail e1 e2 e3
    rcases hf.synth with ⟨_, g2, _, _, g5⟩ | ⟨g1, _⟩
    · refine ⟨⟨pre, rest, e1, t1, t2⟩, ?_, g5, by rw [g2]; decide, by rw [g2]; decide⟩
      intro i hi
      rw [t2] at hi
      cases hi
      rw [e6]
      simp
    · exact absurd hm g1
  · intro hn
    rcases hf.synth with ⟨_, g2, _⟩ | ⟨_, g | g, _⟩
    · rw [g2] at hn; cases hn
    · rw [g, hsy] at hn; cases hn
    · rw [g] at hn; cases hn
  · intro hn
    rcases hf.synth with ⟨g1, _⟩ | ⟨_, g | g, _⟩
    · exact g1
    · rw [g, hsy] at hn; cases hn
    · rw [g] at hn; cases hn
  · intro hn
    rcases hf.synth with ⟨g1, _⟩ | ⟨_, g | g, _⟩
    · exact g1
    · rw [g, hsy] at hn; cases hn
    · rw [g] at hn; cases hn

/-! ## Using -/

theorem enablePps_inv (env : Env) (ms : List Method) (pms : List PpsMethod) (w : World) (on : Bool)
    (hi : Inv ms w) (ho : Open ms pms w) : Inv ms (enablePps env w on).1 ∧ Open ms pms (enablePps env w on).1 ∧
      (enablePps env w on).1.phc.idx = w.phc.idx := by
  have tickOnly : ∀ t, Inv ms { w with tick := t } ∧ Open ms pms { w with tick := t } ∧
      ({ w with tick := t } : World).phc.idx = w.phc.idx := fun t =>
    ⟨hi.same rfl rfl rfl rfl rfl, ho.of_strip rfl rfl rfl (ho.bal.same rfl rfl rfl rfl), rfl⟩
  unfold enablePps
  split
  · unfold enableDevPtp
    split
    · exact ⟨hi, ho, rfl⟩
    · cases on
      · simp only [Bool.false_eq_true, if_false]
        split
        · exact tickOnly _
        · exact tickOnly _
      · simp only [if_true]
        split
        · exact tickOnly _
        · exact tickOnly _
  · rename_i hm
    unfold enableDevPps
    split
    · rcases openDev_cases env w with ⟨_, h⟩ | ⟨hn, _⟩ | ⟨hn, _⟩
      · rw [h]; exact ⟨hi, ho, rfl⟩
      · exact absurd hn (ho.dev hm)
      · exact absurd hn (ho.dev hm)
    · exact ⟨hi, ho, rfl⟩
  · exact ⟨hi, ho, rfl⟩

theorem devPpsEvent_cases (env : Env) (w : World) :
    (w.phc.devFd = none ∧ devPpsEvent env w = .error .assertion) ∨
    (∃ f, w.phc.devFd = some f ∧
      ((∃ e, env.fetchExt w.tick = .error e ∧ devPpsEvent env w = .ok (w.next, { rc := e, time := none, seq := none })) ∨
       (env.fetchExt w.tick = .ok w.phc.devPrev ∧
          devPpsEvent env w = .ok (w.next, { rc := 11, time := none, seq := none })) ∨
       (∃ ev, env.fetchExt w.tick = .ok ev ∧ ev ≠ w.phc.devPrev ∧
          devPpsEvent env w = .ok (w.next.set fun p => { p with devPrev := ev },
            { rc := 0, time := some (ev.1, ev.2.1), seq := some ev.2.2 })))) := by
  unfold devPpsEvent
  split
  · rename_i h; left; exact ⟨h, rfl⟩
  · rename_i f h
    right
    refine ⟨f, h, ?_⟩
    split
    · rename_i e he; left; exact ⟨e, he, rfl⟩
    · rename_i ev he
      right
      split
      · rename_i hv; left; rw [← hv]; exact ⟨he, rfl⟩
      · rename_i hv; right; exact ⟨ev, he, hv, rfl⟩

/-- No operation on a device that was started faults, and it keeps the invariant. -/
theorem step_ok (env : Env) (ms : List Method) (pms : List PpsMethod) (w : World) (op : Op)
    (hi : Inv ms w) (ho : Open ms pms w) :
    ∃ w', step env w op = .ok w' ∧ Inv ms w' ∧ Open ms pms w' ∧ w'.phc.idx = w.phc.idx := by
  cases op with
  | compare d =>
    obtain ⟨w', rc, d', h1, h2, h3, _⟩ := compare_ok env ms w d hi
    refine ⟨w', ?_, h2, ho.keep h3, strip_idx h3.strip⟩
    simp only [step, h1, Except.map]
  | step =>
    exact ⟨_, rfl, hi.same rfl rfl rfl rfl rfl, ho.of_strip rfl rfl rfl (ho.bal.same rfl rfl rfl rfl), rfl⟩
  | enable on =>
    obtain ⟨h1, h2, h3⟩ := enablePps_inv env ms pms w on hi ho
    exact ⟨_, rfl, h1, h2, h3⟩
  | event =>
    simp only [step]
    split
    · rename_i hm
      rcases devPpsEvent_cases env w with ⟨hn, _⟩ | ⟨f, hf, ⟨e, _, h⟩ | ⟨_, h⟩ | ⟨ev, _, _, h⟩⟩
      · exact absurd hn (ho.dev hm)
      · rw [h]
        exact ⟨_, rfl, hi.same rfl rfl rfl rfl rfl, ho.of_strip rfl rfl rfl (ho.bal.same rfl rfl rfl rfl), rfl⟩
      · rw [h]
        exact ⟨_, rfl, hi.same rfl rfl rfl rfl rfl, ho.of_strip rfl rfl rfl (ho.bal.same rfl rfl rfl rfl), rfl⟩
      · rw [h]
        exact ⟨_, rfl, hi.same rfl rfl rfl rfl rfl,
          { methods := ho.methods, ppsMethods := ho.ppsMethods, posix := ho.posix, dev := ho.dev, ptp := ho.ptp,
            bal := ho.bal.same rfl rfl rfl rfl }, rfl⟩
    · exact ⟨_, rfl, hi.same rfl rfl rfl rfl rfl, ho.of_strip rfl rfl rfl (ho.bal.same rfl rfl rfl rfl), rfl⟩

/-- Every device an execution leads to. -/
theorem reach_inv (env : Env) (ms : List Method) (pms : List PpsMethod) (he : Errnos env) (hs : ShortNames env)
    (hl : Listed env) (hg : GoodTable ms) (w : World) (h : Reach env ms pms w) : Inv ms w ∧ Open ms pms w := by
  induction h with
  | start efx hi h hstart =>
    rename_i idx tick rc rc' log w0 w
    rcases openPhc_spec env ms pms idx tick he hs with ⟨e, h'⟩ | ⟨e, fd, h'⟩ | ⟨w1, h', hf, hidx, _⟩
    · rw [h'] at h; cases h
    · rw [h'] at h; cases h
    · rw [h'] at h
      cases h
      have hw0 : (if efx = true then defineEfx w0 else w0).phc.idx = idx := by
        cases efx
        · exact hidx
        · exact hidx
      obtain ⟨w2, rc2, g1, g2⟩ := start_spec env ms pms _ he hs hl hg.stop (by rw [hw0]; exact hi) (hf.efx efx)
      rw [g1] at hstart
      cases hstart
      exact start_inv hg (hf.efx efx) g2
  | step op h hstep ih =>
    rename_i w w'
    obtain ⟨i1, i2⟩ := ih
    obtain ⟨w'', g1, g2, g3, _⟩ := step_ok env ms pms w op i1 i2
    rw [g1] at hstep
    cases hstep
    exact ⟨g2, g3⟩

end Verif.Phc
