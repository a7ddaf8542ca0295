import Verif.Priv.Support

/-! # Properties of the privileged helper and of the calls to it: C314-C324, C329, C330 -/

set_option linter.unusedSimpArgs false
set_option linter.unusedVariables false

namespace Verif.Priv

/-- All calls succeed. -/
def okCalls : Calls :=
  { clientFits := true, serverFits := true, sock := none, fd := 7, getfd := none, setfd := none,
    setfl := none, bind := none, chmod := none, connect := none }

/-- A turn in which a request arrives. -/
def turnOf (r : Req) : Turn :=
  { recv := .request r, junk := .sync, calls := okCalls, open_ := .ok 9, ctl := 0, broken := false }

def padded (s : String) : Text := s.toList ++ List.replicate (128 - s.length) nul

/-! ## C314: only clock devices are opened -/

/-- **C314.** Whatever the helper receives, and whatever its memory holds, every file it opens for
a caller is a PPS or PTP device: `/dev/pps` or `/dev/ptp` followed by digits and nothing else. -/
theorem C314 (ig : Bool) (ts : List Turn) (t : Turn) (a : List Act)
    (h : (t, a) ∈ (server ig ts).1) (p : Text) (fd : Option Nat) (ho : Act.opened p fd ∈ a) :
    DeviceName p := by
  rw [(mem_server h).2] at ho
  exact permitted_spec (serve_opened (turn_deed ho trivial))

-- a PTP device is opened, handed over and closed
example : (serverTurn true (turnOf (.openDev (padded "/dev/ptp12")))).1 =
    [.opened "/dev/ptp12".toList (some 9), .sent {} (some 9), .close 9] := by decide

-- other names are refused, also with a newline or another path behind a proper one
example : (serverTurn true (turnOf (.openDev (padded "/dev/ptp1/../mem")))).1 =
    [.sent { rc := 1 } none] := by decide
example : (serverTurn true (turnOf (.openDev (padded "/dev/ptp1\n")))).1 =
    [.sent { rc := 1 } none] := by decide

/-- The same the other way round: a proper name is opened. -/
theorem C314_serves (t : Turn) (p : Text) (r : Text) (d : Text) (k : Bool)
    (hd : d ≠ []) (hdig : ∀ c ∈ d, isDigit c = true)
    (hp : p = (if k then "/dev/pps" else "/dev/ptp").toList ++ d)
    (ht : t.recv = .request (.openDev (p ++ nul :: r))) (fd : Nat) (ho : t.open_ = .ok fd)
    (hb : t.broken = false) (ig : Bool) :
    (serverTurn ig t).1 = [.opened p (some fd), .sent {} (some fd), .close fd] := by
  have hdg : ∀ d : Text, d ≠ [] → (∀ c ∈ d, isDigit c = true) → digitsToEnd d = true := by
    intro d
    induction d with
    | nil => intro h; exact absurd rfl h
    | cons c d ih =>
      intro _ h
      cases d with
      | nil => exact h c List.mem_cons_self
      | cons c' d' =>
        simp only [digitsToEnd, Bool.and_eq_true]
        exact ⟨h c List.mem_cons_self, ih (by simp) fun x hx => h x (List.mem_cons_of_mem _ hx)⟩
  have hnd : ∀ c ∈ d, c ≠ nul := by
    intro c hc e
    have := hdig c hc
    rw [e] at this
    revert this
    decide
  have hpn : ∀ c ∈ p, c ≠ nul := by
    intro c hc
    rw [hp, List.mem_append] at hc
    rcases hc with hc | hc
    · cases k
      · clear hp ht; revert c; decide
      · clear hp ht; revert c; decide
    · exact hnd c hc
  have hcs : cstr (p ++ nul :: r) = p := by
    unfold cstr
    rw [List.takeWhile_append_of_pos (fun c hc => by simpa using hpn c hc)]
    simp [List.takeWhile_cons]
  have hperm : permitted p = true := by
    have := hdg d hd hdig
    cases k
    · rw [hp]
      have e1 : ("/dev/".toList).isPrefixOf ("/dev/ptp".toList ++ d) = true := rfl
      have e2 : ("/dev/ptp".toList ++ d).drop 5 = "ptp".toList ++ d := rfl
      have e3 : ("ptp".toList).isPrefixOf ("ptp".toList ++ d) = true := rfl
      have e4 : ("ptp".toList ++ d).drop 3 = d := rfl
      show permitted ("/dev/ptp".toList ++ d) = true
      unfold permitted
      simp only [e1, e2, e3, e4, this, Bool.and_true, Bool.or_true]
    · rw [hp]
      have e1 : ("/dev/".toList).isPrefixOf ("/dev/pps".toList ++ d) = true := rfl
      have e2 : ("/dev/pps".toList ++ d).drop 5 = "pps".toList ++ d := rfl
      have e3 : ("pps".toList).isPrefixOf ("pps".toList ++ d) = true := rfl
      have e4 : ("pps".toList ++ d).drop 3 = d := rfl
      show permitted ("/dev/pps".toList ++ d) = true
      unfold permitted
      simp only [e1, e2, e3, e4, this, Bool.and_true, Bool.true_or]
  unfold serverTurn
  rw [ht]
  simp [serve, opOpenDev, hcs, hperm, ho, hb, reply]

example : (serverTurn false (turnOf (.openDev ("/dev/pps0".toList ++ nul :: [])))).1 =
    [.opened "/dev/pps0".toList (some 9), .sent {} (some 9), .close 9] :=
  C314_serves _ "/dev/pps0".toList [] ['0'] true (by decide) (by decide) rfl rfl 9 rfl rfl false

/-! ## C315: the helper does only what it is asked -/

/-- **C315.** Everything the helper does beyond answering is asked for by the request it has just
received. -/
def C315_statement : Prop :=
  ∀ (ig : Bool) (ts : List Turn) (t : Turn) (a : List Act), (t, a) ∈ (server ig ts).1 →
    ∀ x ∈ a, Deed x → ∃ r, t.recv = .request r ∧ AskedFor r x

/-- The turn after the daemon has gone: `recv` returns 0, and the memory still holds the last
request. -/
def goneTurn (junk : Req) : Turn := { turnOf .sync with recv := .closed, junk, broken := true }

/-- When the daemon has closed its end, `recv` gives 0 bytes, which is not looked at, and the
helper acts on whatever is in the memory of the request: here it turns off chronyd's clock
control again. -/
theorem C315_violated : ¬ C315_statement := by
  intro h
  obtain ⟨r, hr, -⟩ := h false [turnOf (.control .disable), goneTurn (.control .disable)]
    (goneTurn (.control .disable)) [.control .disable] (by
      show _ ∈ [(turnOf (.control .disable), [Act.control .disable, Act.sent {} none]),
        (goneTurn (.control .disable), [Act.control .disable])]
      exact List.mem_cons_of_mem _ List.mem_cons_self)
    (.control .disable) List.mem_cons_self trivial
  cases hr

/-- What holds: in every turn that receives a request, or that is repeated after an interrupted
call, only what is asked for is done.  Missing: the turns in which the connection is closed or
broken. -/
theorem C315_partial (ig : Bool) (ts : List Turn) (t : Turn) (a : List Act)
    (h : (t, a) ∈ (server ig ts).1)
    (hr : (∃ r, t.recv = .request r) ∨ t.recv = .failed 11 ∨ t.recv = .failed 4)
    (x : Act) (hx : x ∈ a) (hd : Deed x) : ∃ r, t.recv = .request r ∧ AskedFor r x := by
  rw [(mem_server h).2] at hx
  rcases hr with ⟨r, hr⟩ | hr | hr
  · have hx' := turn_deed hx hd
    have ht : t.taken = r := by unfold Turn.taken; rw [hr]
    rw [ht] at hx'
    exact ⟨r, hr, serve_deed hx' hd⟩
  · unfold serverTurn at hx
    rw [hr] at hx
    cases hx
  · unfold serverTurn at hx
    rw [hr] at hx
    cases hx

example : (server false [turnOf .openChrony, { turnOf .sync with recv := .failed 4 },
    turnOf (.control .restore), turnOf .close]).1.map (·.2) =
    [[.socket 7, .unlink, .bound, .sent { rc := 0, step := "success".toList } (some 7), .close 7],
     [], [.control .restore, .sent {} none], [.sent {} none]] := by decide

/-! ## C316: the helper ends with the daemon -/

/-- **C316.** Once the helper finds the connection closed, it ends. -/
def C316_statement : Prop :=
  ∀ (ig : Bool) (ts : List Turn), (∃ t ∈ ts, t.recv = .closed ∧ t.broken = true) →
    (server ig ts).2 ≠ .go

/-- With `SIGPIPE` ignored, as it is for services started by systemd, the helper goes on for ever:
it acts on the same old request again and again, here restarting chronyd each time. -/
theorem C316_forever (n : Nat) :
    (server true (List.replicate n (goneTurn (.control .disable)))).2 = .go ∧
    ((server true (List.replicate n (goneTurn (.control .disable)))).1.map (·.2)).flatten =
      List.replicate n (.control .disable) := by
  have ht : serverTurn true (goneTurn (.control .disable)) = ([.control .disable], .go) := by decide
  induction n with
  | zero => exact ⟨rfl, rfl⟩
  | succ n ih =>
    rw [List.replicate_succ]
    unfold server
    rw [ht]
    refine ⟨ih.1, ?_⟩
    simp only [List.map_cons, List.flatten_cons, ih.2, List.replicate_succ, List.cons_append,
      List.nil_append]

theorem C316_violated : ¬ C316_statement := by
  intro h
  exact h true [goneTurn (.control .disable)] ⟨_, List.mem_cons_self, rfl, rfl⟩
    (C316_forever 1).1

/-- What holds: where `SIGPIPE` has its default effect, the helper ends in the first turn that
finds the connection closed.  Missing: the case of an ignored signal. -/
theorem C316_partial (ts : List Turn) (t : Turn) (ht : t ∈ ts) (hc : t.recv = .closed)
    (hb : t.broken = true) : (server false ts).2 ≠ .go ∧
      ∀ pre post, ts = pre ++ t :: post → (server false ts).1.length ≤ pre.length + 1 := by
  have hk : ∃ a, serverTurn false t = (a, .killed) := by
    unfold serverTurn
    rw [hc, hb]
    exact ⟨_, rfl⟩
  obtain ⟨a, hk⟩ := hk
  have key : ∀ (pre post : List Turn), (server false (pre ++ t :: post)).2 ≠ .go ∧
      (server false (pre ++ t :: post)).1.length ≤ pre.length + 1 := by
    intro pre post
    induction pre with
    | nil =>
      rw [List.nil_append]
      unfold server
      rw [hk]
      exact ⟨by simp, by simp⟩
    | cons x pre ih =>
      rw [List.cons_append]
      unfold server
      split
      · exact ⟨ih.1, by simp only [List.length_cons]; have := ih.2; omega⟩
      · rename_i a e hne he
        refine ⟨?_, by simp⟩
        intro hgo
        exact hne hgo
  obtain ⟨pre, post, rfl⟩ := List.append_of_mem ht
  refine ⟨(key pre post).1, fun pre' post' e => ?_⟩
  rw [e]
  exact (key pre' post').2

example : (server false [turnOf .sync, goneTurn .sync, turnOf .sync]).2 = .killed := by decide

/-! ## C317: the helper keeps no descriptors -/

/-- **C317.** Every descriptor made in serving a request is closed in the same turn. -/
def C317_statement : Prop :=
  ∀ (ig : Bool) (ts : List Turn), (∀ t ∈ ts, t.calls.Errnos) → (server ig ts).2 ≠ .killed →
    ∀ t a, (t, a) ∈ (server ig ts).1 → made a = closed a

/-- If connecting is reported to be in progress, the socket is neither handed over nor closed. -/
theorem C317_violated : ¬ C317_statement := by
  intro h
  have := h false [{ turnOf .openChrony with calls := { okCalls with connect := some 115 } }]
    (by
      intro t ht n e he
      rw [List.mem_singleton] at ht
      subst ht
      simp only [Calls.steps, okCalls, List.mem_cons, Prod.mk.injEq, List.not_mem_nil] at he
      have h115 : e = 115 := by
        rcases he with h | h | h | h | h | h | h | h | h | h
        · cases h.2
        · cases h.2
        · cases h.2
        · cases h.2
        · cases h.2
        · cases h.2
        · cases h.2
        · cases h.2
        · cases h.2
          rfl
        · cases h
      omega)
    (by decide) { turnOf .openChrony with calls := { okCalls with connect := some 115 } }
    [.socket 7, .unlink, .bound, .sent { rc := 115, step := "success".toList } none]
    (by
      show _ ∈ [({ turnOf .openChrony with calls := { okCalls with connect := some 115 } },
        [Act.socket 7, .unlink, .bound, .sent { rc := 115, step := "success".toList } none])]
      exact List.mem_cons_self)
  revert this
  decide

/-- What holds: in all other cases every descriptor made is closed, whether the request was
carried out or refused and whatever step failed.  Missing: a connection in progress. -/
theorem C317_partial (ig : Bool) (ts : List Turn) (he : ∀ t ∈ ts, t.calls.Errnos)
    (hc : ∀ t ∈ ts, t.calls.connect ≠ some 115) (hk : (server ig ts).2 ≠ .killed)
    (t : Turn) (a : List Act) (h : (t, a) ∈ (server ig ts).1) : made a = closed a := by
  have hm := mem_server h
  have hk' := server_killed h hk
  rw [hm.2]
  have hb := serve_balance (t := t) (hc t hm.1) (he t hm.1)
  unfold serverTurn at hk' ⊢
  split
  · rename_i e hr
    split
    · rfl
    · rename_i hne
      rw [hr] at hk'
      dsimp only at hk'
      rw [if_neg hne] at hk'
      exact reply_balance (hb _) hk'
  · rename_i hr
    rw [hr] at hk'
    exact reply_balance (hb _) hk'
  · rename_i r hr
    rw [hr] at hk'
    exact reply_balance (hb _) hk'

example : made (serverTurn false (turnOf .openChrony)).1 = [7] ∧
    closed (serverTurn false (turnOf .openChrony)).1 = [7] := by decide
example : made (serverTurn false { turnOf .openChrony with
      calls := { okCalls with chmod := some 1 } }).1 = [7] ∧
    closed (serverTurn false { turnOf .openChrony with
      calls := { okCalls with chmod := some 1 } }).1 = [7] := by decide

/-! ## C318: connecting to chronyd -/

/-- **C318.** If all steps of connecting succeed, the socket is handed over open with its path in
place; if a step fails, its error and its name are told, the socket is closed and no path is left;
only a connection in progress is handed over with its error. -/
theorem C318 (c : Calls) (he : c.Errnos) (was : Bool) :
    (firstFailure c.steps = none → (helperConnect c).rc = 0 ∧
      (helperConnect c).sock = some c.fd ∧ (helperConnect c).step = "success".toList ∧
      made (helperConnect c).acts = [c.fd] ∧ closed (helperConnect c).acts = [] ∧
      pathLeft was (helperConnect c).acts = true) ∧
    (∀ n e, firstFailure c.steps = some (n, e) → ¬ (n = "connect" ∧ e = 115) →
      (helperConnect c).rc = e ∧ e ≠ 0 ∧ (helperConnect c).sock = none ∧
      (helperConnect c).step = n.toList ∧
      made (helperConnect c).acts = closed (helperConnect c).acts ∧
      pathLeft false (helperConnect c).acts = false) ∧
    (firstFailure c.steps = some ("connect", 115) → (helperConnect c).rc = 115 ∧
      (helperConnect c).sock = some c.fd) := by
  have hpos : ∀ n e, (n, some e) ∈ c.steps → e ≠ 0 :=
    fun n e h => Nat.pos_iff_ne_zero.mp (he n e h)
  obtain ⟨cf, sf, so, fd, g, sfd, sfl, b, ch, cn⟩ := c
  simp only [Calls.steps, List.mem_cons, Prod.mk.injEq, List.not_mem_nil, or_false] at hpos
  simp only [Calls.steps, helperConnect, Conn.fail]
  cases cf
  · simp [firstFailure, made, closed, pathLeft, eNOMEM]
  cases sf
  · simp [firstFailure, made, closed, pathLeft, eNOMEM]
  cases so with
  | some e => simp [firstFailure, made, closed, pathLeft]; grind
  | none =>
  cases g with
  | some e => simp [firstFailure, made, closed, pathLeft]; grind
  | none =>
  cases sfd with
  | some e => simp [firstFailure, made, closed, pathLeft]; grind
  | none =>
  cases sfl with
  | some e => simp [firstFailure, made, closed, pathLeft]; grind
  | none =>
  cases b with
  | some e => simp [firstFailure, made, closed, pathLeft]; grind
  | none =>
  cases ch with
  | some e => simp [firstFailure, made, closed, pathLeft]; grind
  | none =>
  cases cn with
  | some e =>
    by_cases h : e = 115
    · subst h
      simp [firstFailure, made, closed, pathLeft, eINPROGRESS]
    · simp [firstFailure, made, closed, pathLeft, eINPROGRESS, h]
      grind
  | none => simp [firstFailure, made, closed, pathLeft]

example : helperConnect okCalls =
    { rc := 0, sock := some 7, step := "success".toList,
      acts := [.socket 7, .unlink, .bound] } := by decide
example : firstFailure { okCalls with chmod := some 13, connect := some 111 }.steps =
    some ("chmod", 13) := by decide

/-! ## C319: a device handed over is a device -/

/-- What the helper sends when it hands over no device: an error. -/
def Refuses (rx : RecvR) : Prop := ∀ resp, rx = .msg resp .none → 0 < resp.rc

/-- **C319.** A descriptor that opening a device returns is the one the helper sent, or the one
the daemon's own attempt gave. -/
def C319_statement : Prop :=
  ∀ (ig : Bool) (s s' : Cl) (p : Text) (tx : SendR) (rx : RecvR) (own : Except Nat Nat) (n : Int),
    Refuses rx → (∀ e, own = .error e → 0 < e) → openDev ig s p tx rx own = .ret s' n → 0 ≤ n →
    (∃ k : Nat, n = k ∧ ((∃ resp, rx = .msg resp (.fd k)) ∨ own = .ok k))

/-- When the helper has died, `recvmsg` returns 0 bytes, which counts as success; the response is
still all zeroes, so the descriptor returned is 0, the standard input of the daemon. -/
theorem C319_violated : ¬ C319_statement := by
  intro h
  obtain ⟨k, hk, h1 | h1⟩ := h false { conn := true } { conn := true } "/dev/ptp0".toList .ok .eof
    (.error 13) 0 (fun r hr => by cases hr) (fun e he => by cases he; decide) rfl (by decide)
  · obtain ⟨_, h1⟩ := h1
    cases h1
  · cases h1

/-- What holds: it is so unless the connection ends while the answer is awaited.  Missing: the
helper dying in that time. -/
theorem C319_partial (ig : Bool) (s s' : Cl) (p : Text) (tx : SendR) (rx : RecvR)
    (own : Except Nat Nat) (n : Int) (hr : Refuses rx) (ho : ∀ e, own = .error e → 0 < e)
    (hne : rx ≠ .eof) (h : openDev ig s p tx rx own = .ret s' n) (hn : 0 ≤ n) :
    ∃ k : Nat, n = k ∧ ((∃ resp, rx = .msg resp (.fd k) ∧ s.conn = true ∧ tx = .ok) ∨
      (own = .ok k ∧ s'.conn = false)) := by
  have back : ∀ s'' : Cl, s''.conn = false →
      Res.ret s'' (fdOrErr own) =
        Res.ret s' n → ∃ k : Nat, n = k ∧ (own = .ok k ∧ s'.conn = false) := by
    intro s'' hc h
    cases own with
    | ok fd =>
      cases h
      exact ⟨fd, rfl, rfl, hc⟩
    | error e =>
      cases h
      have := ho e rfl
      simp only [fdOrErr] at hn
      omega
  unfold openDev at h
  split at h
  · cases h
    simp [eNAMETOOLONG] at hn
  · unfold rpc at h
    cases hc : s.conn with
    | false =>
      rw [hc] at h
      simp [eNOTCONN] at h
      obtain ⟨k, hk, h2⟩ := back s hc (by rw [h.1, h.2])
      exact ⟨k, hk, .inr h2⟩
    | true =>
      rw [hc] at h
      cases tx with
      | broken =>
        cases ig with
        | false => simp at h
        | true =>
          simp [eNOTCONN] at h
          obtain ⟨k, hk, h2⟩ := back (privFail { s with locked := true } true) rfl
            (by rw [hc, h.1, h.2])
          exact ⟨k, hk, .inr h2⟩
      | err =>
        simp [eNOTCONN] at h
        obtain ⟨k, hk, h2⟩ := back (privFail { s with locked := true } true) rfl
          (by rw [hc, h.1, h.2])
        exact ⟨k, hk, .inr h2⟩
      | ok =>
        cases rx with
        | eof => exact absurd rfl hne
        | err =>
          simp [eNOTCONN] at h
          obtain ⟨k, hk, h2⟩ := back (privFail { s with locked := false } true) rfl
            (by rw [hc, h.1, h.2])
          exact ⟨k, hk, .inr h2⟩
        | msg resp anc =>
          cases anc with
          | none =>
            simp at h
            have := hr resp rfl
            omega
          | fd k =>
            simp at h
            exact ⟨k, h.2.symm, .inl ⟨resp, rfl, rfl, rfl⟩⟩
          | invalid =>
            simp [eNOTCONN, eINVAL] at h
            omega

example : openDev false { conn := true } "/dev/ptp0".toList .ok (.msg {} (.fd 12)) (.error 13) =
    .ret { conn := true } 12 := by decide
example : openDev true { conn := true } "/dev/ptp0".toList .broken .err (.ok 5) =
    .ret { conn := false, locked := true, reported := 1 } 5 := by decide

/-- The helper's own answers are of that kind: without a descriptor there is an error. -/
theorem C319_helper (p : Text) (res : Except Nat Nat) (he : ∀ e, res = .error e → 0 < e) :
    (opOpenDev p res).2.1 = none → 0 < (opOpenDev p res).1.rc := by
  unfold opOpenDev
  split
  · intro _; simp [eNAMETOOLONG]
  · split
    · intro _; simp [ePERM]
    · cases res with
      | error e => intro _; simpa using he e rfl
      | ok fd => intro h; cases h

example : (opOpenDev (padded "/dev/ptp0") (.error 13)).1.rc = 13 := by decide

/-! ## C320: success of the control of chronyd -/

/-- **C320.** If controlling chronyd is reported to have succeeded, the helper has answered that it
succeeded, or the daemon has done it itself. -/
def C320_statement : Prop :=
  ∀ (ig : Bool) (s s' : Cl) (tx : SendR) (rx : RecvR) (own : Int) (d : Bool),
    chronyControl ig s tx rx own = .ret s' (0, d) →
    (∃ resp anc, rx = .msg resp anc ∧ resp.rc = 0) ∨ (own = 0 ∧ d = true)

/-- If the helper dies before it answers, success is reported. -/
theorem C320_violated : ¬ C320_statement := by
  intro h
  rcases h false { conn := true } { conn := true } .ok .eof 1 false rfl with ⟨_, _, h, _⟩ | ⟨h, _⟩
  · cases h
  · cases h

/-- What holds: it is so unless the connection ends while the answer is awaited. -/
theorem C320_partial (ig : Bool) (s s' : Cl) (tx : SendR) (rx : RecvR) (own : Int) (d : Bool)
    (hne : rx ≠ .eof) (h : chronyControl ig s tx rx own = .ret s' (0, d)) :
    (∃ resp anc, rx = .msg resp anc ∧ resp.rc = 0) ∨ (own = 0 ∧ d = true) := by
  unfold chronyControl rpc at h
  cases hc : s.conn with
  | false =>
    rw [hc] at h
    simp [eNOTCONN] at h
    exact .inr ⟨h.2.1, h.2.2⟩
  | true =>
    rw [hc] at h
    cases tx with
    | broken =>
      cases ig with
      | false => simp at h
      | true => simp [eNOTCONN] at h; exact .inr ⟨h.2.1, h.2.2⟩
    | err => simp [eNOTCONN] at h; exact .inr ⟨h.2.1, h.2.2⟩
    | ok =>
      cases rx with
      | eof => exact absurd rfl hne
      | err => simp [eNOTCONN] at h; exact .inr ⟨h.2.1, h.2.2⟩
      | msg resp anc =>
        cases anc with
        | none => simp at h; exact .inl ⟨resp, _, rfl, h.2.1⟩
        | fd k => simp at h; exact .inl ⟨resp, _, rfl, h.2.1⟩
        | invalid => simp [eNOTCONN, eINVAL] at h

example : chronyControl false { conn := true } .ok (.msg { rc := 0 } .none) 5 =
    .ret { conn := true } (0, false) := by decide
example : chronyControl false { conn := true } .ok (.msg { rc := 256 } .none) 5 =
    .ret { conn := true } (-256, false) := by decide

/-! ## C321: a helper that is started answers -/

/-- **C321.** If a helper is configured and starting it succeeds, it has answered. -/
def C321_statement : Prop :=
  ∀ (ig : Bool) (i : Start) (s : Cl), i.path ≠ [] → startHelper ig i = .ret s 0 →
    ∃ resp anc, i.rx = .msg resp anc

/-- A helper that cannot be executed ends at once, and starting it succeeds. -/
theorem C321_violated : ¬ C321_statement := by
  intro h
  obtain ⟨_, _, h⟩ := h false
    { path := "/no/such".toList, pair := none, fork := none, mutex := none, tx := .ok, rx := .eof,
      tx2 := .ok, rx2 := .eof } { conn := true } (by simp) rfl
  cases h

/-- What holds: success means an answer unless the connection ended, and then the daemon has a
connection; when the exchange fails, an error is returned and there is no connection. -/
theorem C321_partial (ig : Bool) (i : Start) (s : Cl) (n : Int) (hp : i.path ≠ [])
    (he : i.rx ≠ .eof) (hm : i.pair = none ∧ i.fork = none ∧ i.mutex = none)
    (h : startHelper ig i = .ret s n) :
    (n = 0 → (∃ resp anc, i.rx = .msg resp anc) ∧ i.tx = .ok ∧ s.conn = true) ∧
    (n ≠ 0 → n = -107 ∧ s.conn = false) := by
  obtain ⟨hpair, hfork, hmutex⟩ := hm
  unfold startHelper at h
  simp only [hp, if_false, hpair, hfork, hmutex, rpc, Bool.not_true, Bool.false_eq_true] at h
  cases htx : i.tx with
  | broken =>
    rw [htx] at h
    cases ig with
    | false => simp at h
    | true =>
      simp [eNOTCONN, stopHelper, privFail] at h
      obtain ⟨h1, h2⟩ := h
      subst h1 h2
      exact ⟨fun h => absurd h (by decide), fun _ => ⟨rfl, rfl⟩⟩
  | err =>
    rw [htx] at h
    simp [eNOTCONN, stopHelper, privFail] at h
    obtain ⟨h1, h2⟩ := h
    subst h1 h2
    exact ⟨fun h => absurd h (by decide), fun _ => ⟨rfl, rfl⟩⟩
  | ok =>
    rw [htx] at h
    cases hrx : i.rx with
    | eof => exact absurd hrx he
    | err =>
      rw [hrx] at h
      simp [eNOTCONN, stopHelper, privFail] at h
      obtain ⟨h1, h2⟩ := h
      subst h1 h2
      exact ⟨fun h => absurd h (by decide), fun _ => ⟨rfl, rfl⟩⟩
    | msg resp anc =>
      rw [hrx] at h
      simp at h
      obtain ⟨h1, h2⟩ := h
      subst h1 h2
      exact ⟨fun _ => ⟨⟨resp, anc, rfl⟩, rfl, rfl⟩, fun h => absurd rfl h⟩

example : startHelper false
    { path := "/usr/libexec/h".toList, pair := none, fork := none, mutex := none, tx := .ok,
      rx := .msg {} .none, tx2 := .ok, rx2 := .eof } =
    .ret { conn := true } 0 := by decide
example : startHelper false
    { path := "/usr/libexec/h".toList, pair := none, fork := none, mutex := none, tx := .ok,
      rx := .err, tx2 := .ok, rx2 := .eof } =
    .ret { conn := false, reported := 1 } (-107) := by decide

/-! ## C322: the step that failed is told -/

/-- **C322.** When the helper could not connect to chronyd, the caller gets the name of the step
that failed. -/
def C322_statement : Prop :=
  ∀ (ig : Bool) (s s' : Cl) (st0 st : Text) (resp : Resp) (own : Calls) (n : Int),
    s.conn = true → openChrony ig s st0 .ok (.msg resp .none) own = .ret s' (n, st) → n < 0 →
    st = resp.step

/-- The name is put in the parameter of the function instead of the array of the caller. -/
theorem C322_violated : ¬ C322_statement := by
  intro h
  have := h false { conn := true } { conn := true } "?".toList "?".toList
    { rc := 111, step := "connect".toList } okCalls (-111) rfl rfl (by decide)
  revert this
  decide

/-- What holds: the error itself is told; and without a helper the step is told too. -/
theorem C322_partial (ig : Bool) (s : Cl) (st0 : Text) (own : Calls) (he : own.Errnos) :
    (s.conn = true → ∀ resp : Resp, 0 < resp.rc →
      ∃ st, openChrony ig s st0 .ok (.msg resp .none) own =
        .ret { s with locked := false } (-resp.rc, st)) ∧
    (s.conn = false → ∀ (tx : SendR) (rx : RecvR) n e, firstFailure own.steps = some (n, e) →
      ¬ (n = "connect" ∧ e = 115) →
      openChrony ig s st0 tx rx own = .ret s (-(e : Int), n.toList)) := by
  refine ⟨fun hc resp hr => ⟨st0, ?_⟩, fun hc tx rx n e hf hne => ?_⟩
  · unfold openChrony rpc
    simp [hc]
  · obtain ⟨h1, h2, h3, h4, -⟩ := (C318 own he false).2.1 n e hf hne
    unfold openChrony rpc
    simp [hc, eNOTCONN, h1, h2, h4]

example : openChrony false { conn := false } [] .ok .eof { okCalls with bind := some 13 } =
    .ret { conn := false } (-13, "bind".toList) := by decide

/-! ## C323: the lock of the connection -/

/-- **C323.** A thread waiting for its turn to use the helper can always get it: some continuation
lets it have the lock. -/
def C323_statement : Prop :=
  ∀ (es : List Ev) (s : Locks) (i : Nat), Locks.init.run es = some s → s.pc i = .waiting →
    ∃ fs s', s.run fs = some s' ∧ s'.pc i = .sending

/-- When sending fails, the call returns without giving the lock back; a thread that had already
seen the connection open waits for ever. -/
theorem C323_violated : ¬ C323_statement := by
  intro h
  have hr : ∃ s, Locks.init.run [.call 0, .call 1, .lock 0, .sendFails 0] = some s ∧
      s.Lost 0 1 := by
    refine ⟨_, rfl, rfl, fun j => ?_, rfl⟩
    simp only [Locks.at, Locks.init]
    split
    · exact .inl rfl
    · split
      · exact .inr rfl
      · exact .inl rfl
  obtain ⟨s, hs, hl⟩ := hr
  obtain ⟨fs, s', hrun, hp⟩ := h _ s 1 hs hl.2.2
  have := (lost_run hl hrun).2.2
  rw [hp] at this
  cases this

/-- What holds: as long as no sending has failed, every waiting thread can get the lock, at the
latest after the exchange under way.  Missing: what comes after a failed sending. -/
theorem C323_partial (es : List Ev) (s : Locks) (i : Nat) (hs : Locks.init.run es = some s)
    (hf : ∀ j, Ev.sendFails j ∉ es) (hw : s.pc i = .waiting) :
    ∃ fs s', s.run fs = some s' ∧ s'.pc i = .sending ∧ ∀ j, Ev.sendFails j ∉ fs := by
  have hg : s.Good := good_run good_init hs hf
  cases hl : s.lock with
  | none =>
    obtain ⟨s', h1, h2⟩ := get_lock hw hl
    exact ⟨[.lock i], s', h1, h2, by simp⟩
  | some k =>
    have hk := (hg k).mpr hl
    have hik : i ≠ k := by
      intro e
      rw [← e, hw] at hk
      rcases hk with h | h <;> cases h
    rcases hk with hk | hk
    · obtain ⟨s1, h1, h2, h3⟩ := finish_sending hik hw hk
      obtain ⟨s2, h4, h5, h6⟩ := finish_receiving hik h2 h3
      obtain ⟨s', h7, h8⟩ := get_lock h5 h6
      refine ⟨[.sent k, .received k, .lock i], s', ?_, h8, by simp⟩
      simp only [Locks.run, h1, h4, Option.bind_some] at h7 ⊢
      exact h7
    · obtain ⟨s2, h4, h5, h6⟩ := finish_receiving hik hw hk
      obtain ⟨s', h7, h8⟩ := get_lock h5 h6
      refine ⟨[.received k, .lock i], s', ?_, h8, by simp⟩
      simp only [Locks.run, h4, Option.bind_some] at h7 ⊢
      exact h7

example : ∃ s, Locks.init.run [.call 0, .call 1, .lock 0, .sent 0] = some s ∧
    s.pc 1 = .waiting ∧ s.lock = some 0 := ⟨_, rfl, rfl, rfl⟩

/-- Nor do two threads ever use the connection at the same time. -/
theorem C323_one_at_a_time (es : List Ev) (s : Locks) (i j : Nat)
    (hs : Locks.init.run es = some s) (hf : ∀ k, Ev.sendFails k ∉ es)
    (hi : s.pc i = .sending ∨ s.pc i = .receiving)
    (hj : s.pc j = .sending ∨ s.pc j = .receiving) : i = j := by
  have hg : s.Good := good_run good_init hs hf
  have h1 := (hg i).mp hi
  rw [(hg j).mp hj] at h1
  cases h1
  rfl

example : ∃ s, Locks.init.run [.call 3, .lock 3, .sent 3] = some s ∧ s.pc 3 = .receiving :=
  ⟨_, rfl, rfl⟩

/-! ## C324: the daemon outlives the helper -/

/-- **C324.** Losing the helper does not end the daemon: every call returns. -/
def C324_statement : Prop :=
  ∀ (ig : Bool) (s : Cl) (p : Text) (tx : SendR) (rx : RecvR) (own : Except Nat Nat),
    openDev ig s p tx rx own ≠ .killed

/-- Sending to a helper that has gone raises `SIGPIPE`, whose default effect ends the daemon. -/
theorem C324_violated : ¬ C324_statement := by
  intro h
  exact h false { conn := true } "/dev/ptp0".toList .broken .err (.error 2) rfl

/-- What holds: where the signal is ignored, or the sending fails for another reason, the failure
is reported once, the connection is given up, and this call and all later ones are made by the
daemon itself. -/
theorem C324_partial (ig : Bool) (s : Cl) (p q : Text) (tx tx' : SendR) (rx rx' : RecvR)
    (own own' : Except Nat Nat) (hc : s.conn = true) (hp : p.length < 128) (hq : q.length < 128)
    (h : tx = .err ∨ (tx = .broken ∧ ig = true) ∨ (tx = .ok ∧ rx = .err)) :
    ∃ s', openDev ig s p tx rx own =
        .ret s' (fdOrErr own) ∧
      s'.conn = false ∧ s'.reported = s.reported + 1 ∧
      openDev ig s' q tx' rx' own' =
        .ret s' (fdOrErr own') := by
  have hl : ∀ s' : Cl, s'.conn = false → openDev ig s' q tx' rx' own' =
      .ret s' (fdOrErr own') := by
    intro s' hs'
    unfold openDev rpc
    rw [if_neg (by omega)]
    simp [hs', eNOTCONN]
  rcases h with rfl | ⟨rfl, rfl⟩ | ⟨rfl, rfl⟩
  · refine ⟨privFail { s with locked := true } true, ?_, rfl, rfl, hl _ rfl⟩
    unfold openDev rpc
    rw [if_neg (by omega)]
    simp [hc, eNOTCONN]
  · refine ⟨privFail { s with locked := true } true, ?_, rfl, rfl, hl _ rfl⟩
    unfold openDev rpc
    rw [if_neg (by omega)]
    simp [hc, eNOTCONN]
  · refine ⟨privFail { s with locked := false } true, ?_, rfl, rfl, hl _ rfl⟩
    unfold openDev rpc
    rw [if_neg (by omega)]
    simp [hc, eNOTCONN]

example : openDev false { conn := true } "/dev/ptp0".toList .err .err (.ok 5) =
    .ret { conn := false, locked := true, reported := 1 } 5 := by decide

/-! ## C329: restarting chronyd -/

/-- The operations that change what chronyd does at once. -/
def Restarts (op : Op) : Prop := op = .enable ∨ op = .disable ∨ op = .restore

/-- **C329.** Where the command `systemctl` does not exist (the shell's exit code is 127), chronyd
is restarted with `service`. -/
def C329_statement : Prop :=
  ∀ (sys : Cmd → Int) (op : Op), Restarts op → sys .systemctlChronyd = status 127 →
    Cmd.serviceChronyd ∈ (control 0 sys op).2.1

/-- `system` returns the status as `wait` has it, in which the exit code is multiplied by 256; it
is compared with the bare code, so that `service` is never tried. -/
theorem C329_violated : ¬ C329_statement := by
  intro h
  have := h (fun _ => status 127) .disable (.inr (.inl rfl)) rfl
  revert this
  decide

/-- What holds: nothing is restarted if editing fails or is not asked for; a first restart that
succeeds is the only command; if it ends with any other exit code, the name `chrony` is tried with
`systemctl`; success is told exactly if the last command succeeded.  Missing: the way without
`systemctl`. -/
theorem C329_partial (edit : Int) (sys : Cmd → Int) (op : Op) (code : Nat)
    (hs : sys .systemctlChronyd = status code) :
    (¬ Restarts op → (control edit sys op).2.1 = []) ∧
    (edit ≠ 0 → (control edit sys op).2.1 = [] ∧
      ((op = .save ∨ op = .nop) ∨ (control edit sys op).2.2 = edit)) ∧
    (Restarts op → edit = 0 → code = 0 →
      (control edit sys op).2 = ([.systemctlChronyd], 0)) ∧
    (Restarts op → edit = 0 → code ≠ 0 →
      (control edit sys op).2 = ([.systemctlChronyd, .systemctlChrony], sys .systemctlChrony)) := by
  refine ⟨?_, ?_, ?_, ?_⟩
  · intro h
    cases op with
    | enable => exact absurd (.inl rfl) h
    | disable => exact absurd (.inr (.inl rfl)) h
    | restore => exact absurd (.inr (.inr rfl)) h
    | _ => rfl
  · intro h
    cases op <;> simp [control, h]
  · intro h he hc
    subst he hc
    have h0 : sys .systemctlChronyd = 0 := hs
    rcases h with rfl | rfl | rfl <;> simp [control, h0]
  · intro h he hc
    subst he
    have h1 : sys .systemctlChronyd ≠ 127 := by
      rw [hs]
      unfold status
      omega
    have h2 : (4 : Int) ≤ sys .systemctlChronyd := by
      rw [hs]
      unfold status
      omega
    rcases h with rfl | rfl | rfl <;> simp [control, h1, h2]

example : (control 0 (fun c => match c with | .systemctlChronyd => status 5 | _ => 0)
    .disable).2 = ([.systemctlChronyd, .systemctlChrony], 0) := by decide

/-! ## C330: success of editing -/

/-- **C330.** If editing is reported to have succeeded, a file has been edited. -/
def C330_statement : Prop := ∀ files : List FileR, editRc files = 0 → FileR.done ∈ files

/-- If no stream can be made for the file, the code left over from compiling the pattern, which is
success, is returned. -/
theorem C330_violated : ¬ C330_statement := by
  intro h
  have := h [.openFails 2, .streamFails false] (by decide)
  revert this
  decide

theorem foldl_done (files : List FileR) : ∀ s : Int × Nat,
    ((files.foldl fileRc s).2 ≠ 0 ↔ s.2 ≠ 0 ∨ FileR.done ∈ files) := by
  induction files with
  | nil => intro s; simp
  | cons f fs ih =>
    intro s
    rw [List.foldl_cons, ih]
    cases f with
    | streamFails b => cases b <;> simp [fileRc]
    | _ => simp [fileRc]

theorem foldl_rc (files : List FileR) : ∀ s : Int × Nat, s.1 ≠ 0 →
    (∀ e, FileR.openFails e ∈ files ∨ FileR.statFails e ∈ files ∨ FileR.mmapFails e ∈ files →
      e ≠ 0) → FileR.streamFails false ∉ files → FileR.done ∉ files →
    (files.foldl fileRc s).1 ≠ 0 := by
  induction files with
  | nil => intro s h _ _ _; exact h
  | cons f fs ih =>
    intro s hs he hn hd
    rw [List.foldl_cons]
    refine ih _ ?_ (fun e h => he e ?_) (fun h => hn (List.mem_cons_of_mem _ h))
      (fun h => hd (List.mem_cons_of_mem _ h))
    · cases f with
      | openFails e => simpa [fileRc] using he e (.inl List.mem_cons_self)
      | statFails e => simpa [fileRc] using he e (.inr (.inl List.mem_cons_self))
      | mmapFails e => simpa [fileRc] using he e (.inr (.inr List.mem_cons_self))
      | streamFails b =>
        cases b with
        | true => exact hs
        | false => exact absurd List.mem_cons_self hn
      | truncFails => simp [fileRc]
      | done => exact absurd List.mem_cons_self hd
    · rcases h with h | h | h
      · exact .inl (List.mem_cons_of_mem _ h)
      · exact .inr (.inl (List.mem_cons_of_mem _ h))
      · exact .inr (.inr (List.mem_cons_of_mem _ h))

/-- What holds: if a stream could be made for every file that is not empty, success is reported
exactly if at least one file was edited.  Missing: the failure to make a stream. -/
theorem C330_partial (files : List FileR)
    (he : ∀ e, FileR.openFails e ∈ files ∨ FileR.statFails e ∈ files ∨
      FileR.mmapFails e ∈ files → e ≠ 0)
    (hs : FileR.streamFails false ∉ files) : editRc files = 0 ↔ FileR.done ∈ files := by
  unfold editRc
  have h1 := foldl_done files ((eNOENT : Int), 0)
  dsimp only
  constructor
  · intro h
    by_cases hd : FileR.done ∈ files
    · exact hd
    · rw [if_neg (by
        intro hne
        rcases h1.mp hne with h | h
        · exact h rfl
        · exact hd h)] at h
      exact absurd h (foldl_rc files _ (by decide) he hs hd)
  · intro hd
    rw [if_pos (h1.mpr (.inr hd))]

example : editRc [.done, .openFails 2] = 0 := by decide
example : editRc [.openFails 2, .openFails 2] = 2 := by decide

end Verif.Priv
