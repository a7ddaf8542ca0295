import Verif.Ntp7.Props
import Verif.Ntp7.Safe

/-!
# Properties of the mode 7 client: the functions, whatever arrives
-/

set_option linter.unusedSimpArgs false
set_option linter.unusedVariables false

namespace Verif.Ntp7

/-! ## C210: safety -/

/-- The full claim: no datagrams make the client use an array outside its bounds or run into other
undefined behaviour. -/
def C210_statement : Prop :=
  (∀ name c ns s f, Sound c → getSys name c ns s ≠ .error f) ∧
  (∀ name t qs f, Whole t → getPeers name t qs ≠ .error f) ∧
  (∀ c ns on f, Sound c → clockControl c ns on ≠ .error f)

/-- An answer with the error code 8 makes it read the table of errors outside its bounds. -/
theorem C210_violated : ¬ C210_statement := by
  rintro ⟨h, -, -⟩
  refine h (fun _ => 0) fresh [{ events := [(1, .packet (Msg.bytes { code := 4, err := 8 }))] }] {} .table fresh_sound ?_
  have : (query fresh [{ events := [(1, .packet (Msg.bytes { code := 4, err := 8 }))] }] { code := 4, req := 80 }).1 = .fault .table := by
    decide +kernel
  unfold getSys
  revert this
  rcases query fresh [{ events := [(1, .packet (Msg.bytes { code := 4, err := 8 }))] }] { code := 4, req := 80 } with ⟨r, c⟩
  rintro rfl
  rfl

/-- C210, in part: whatever arrives, nothing is read or written outside the buffer, the packet or the
table of peers.  The faults that remain are the two that are named: an error code above 7, and the
overflow in the comparison of addresses. -/
theorem C210_partial :
    (∀ name c ns s f, Sound c → getSys name c ns s = .error f → f = .table ∧ BadCode 4 ns) ∧
    (∀ name t qs f, Whole t → getPeers name t qs = .error f → Known qs f) ∧
    (∀ c ns on f, Sound c → clockControl c ns on = .error f → f = .table ∧ BadCode (if on then 12 else 13) ns) := by
  refine ⟨?_, fun name t qs f hw h => (getPeers_safe name t qs hw).1 f h, ?_⟩
  · intro name c ns s f hs h
    obtain ⟨-, hf⟩ := query_step (q := { code := 4, req := 80 }) (ns := ns) (by simp) hs
    unfold getSys at h
    revert h hf
    rcases query c ns { code := 4, req := 80 } with ⟨r, c'⟩
    intro h hf
    cases r with
    | fault f' => simp only [Except.error.injEq] at h; subst h; exact hf f' rfl
    | rc e => simp at h
    | ok n => simp at h
  · intro c ns on f hs h
    obtain ⟨-, hf⟩ := query_step (q := { code := if on then 12 else 13, auth := true, num := 1, size := 4, data := be32 12 }) (ns := ns) (by simp [be32, be16]) hs
    unfold clockControl at h
    split at h
    · simp at h
    · revert h hf
      rcases query c ns { code := if on then 12 else 13, auth := true, num := 1, size := 4, data := be32 12 } with ⟨r, c'⟩
      intro hf h
      cases r with
      | fault f' => simp only [Except.error.injEq] at h; subst h; exact hf f' rfl
      | rc e => simp at h
      | ok n => simp at h

/-- A table as it is at the beginning. -/
def freshTable : Table := { peers := List.replicate 32 {}, num := 0, client := fresh }

theorem freshTable_whole : Whole freshTable where
  client := fresh_sound
  peers := List.length_replicate
  short := by
    intro p hp
    obtain ⟨-, rfl⟩ := List.mem_replicate.1 hp
    simp [Addr.Short]

/-! ## C215: the table of peers -/

/-- C215: whatever arrives, at most 32 peers are reported, the table keeps its size and the client
stays usable. -/
theorem C215_bounded {name : Addr → Int} {t t' : Table} {qs : List (List Net)} {rc : Int} (hw : Whole t) (hn : t.num ≤ 32)
    (h : getPeers name t qs = .ok (rc, t')) : t'.num ≤ 32 ∧ t'.peers.length = 32 ∧ Whole t' := by
  obtain ⟨h1, h2, -⟩ := (getPeers_safe name t qs hw).2 rc t' h
  exact ⟨by omega, h1.peers, h1⟩

/-- 40 peers are announced in seven messages; 32 are reported. -/
def manyParts : List Msg :=
  (List.range 7).map (fun j => { code := 1, more := decide (j < 6), seq := j, size := 72, items := List.replicate (if j = 6 then 4 else 6) (List.replicate 72 j) })

example : (match getPeers (fun _ => 0) freshTable [[{ events := manyParts.map (fun m => (1, .packet m.bytes)) }], [{ events := [(5, .failed 111)] }]] with
    | .ok (rc, t) => rc = 111 && t.num = 32
    | .error _ => false) = true := by decide +kernel

/-! ## C222: looking does not change the daemon -/

/-- C222: `get_sys_info` and `get_peer_info` only send requests of the kinds that read, without
authentication, whatever arrives; `get_sys_info` sends at most one besides the retries, and
`get_peer_info` at most two for each peer and one. -/
theorem C222_reading {name : Addr → Int} :
    (∀ {c c' : Client} {ns : List Net} {s s' : Sys} {rc : Int}, Sound c → getSys name c ns s = .ok (rc, s', c') → Sound c' ∧ Asked [4] c c' 1) ∧
    (∀ {t t' : Table} {qs : List (List Net)} {rc : Int}, Whole t → getPeers name t qs = .ok (rc, t') → Asked [1, 2, 3] t.client t'.client 65) := by
  refine ⟨?_, fun hw h => ((getPeers_safe name _ _ hw).2 _ _ h).2.2⟩
  intro c c' ns s s' rc hs h
  obtain ⟨h1, h2, -⟩ := query_asked (codes := [4]) (q := { code := 4, req := 80 }) (ns := ns) hs (by simp) rfl (by simp) (by simp)
  unfold getSys at h
  revert h h1 h2
  rcases query c ns { code := 4, req := 80 } with ⟨r, c2⟩
  intro h h1 h2
  cases r with
  | fault f => simp at h
  | rc e =>
    simp only [Except.ok.injEq, Prod.mk.injEq] at h
    obtain ⟨-, -, rfl⟩ := h
    exact ⟨h1, h2⟩
  | ok n =>
    simp only [Except.ok.injEq, Prod.mk.injEq] at h
    obtain ⟨-, -, rfl⟩ := h
    exact ⟨h1, h2⟩

example : (match getSys (fun _ => 0) fresh [{ events := [(5, .failed 111)] }] {} with
    | .ok (rc, _, c) => rc = 111 && c.out.map (fun p => p.take 4) = [[23, 0, 3, 4]]
    | .error _ => false) = true := by decide +kernel

/-! ## C216: a daemon that does not answer -/

/-- Nothing arrives that begins like an answer to a request with this code. -/
def Silent (code : Nat) (n : Net) : Prop :=
  n.sent = 0 ∧ ∀ t e, (t, e) ∈ n.arrivals → ∃ b, e = .packet b ∧ (∀ x ∈ b, x < 256) ∧ ¬ About code b

theorem silent_query {c : Client} {q : Ask} {n : Net} {ns : List Net} {p : List Nat}
    (hp : request c.digest n.clock c.size q.code q.auth q.num q.size q.data = .packet p) (h : Silent q.code n) :
    query c (n :: ns) q = (.rc 110, { c with out := c.out ++ [p] }) := by
  have ha : attempt c n q = (.rc 110, { c with out := c.out ++ [p] }) := by
    unfold attempt
    rw [hp]
    simp only [h.1, ne_eq, not_true_eq_false, if_false]
    rw [C211_silence h.2]
  unfold query
  cases hf : 2 - c.legacy with
  | zero => unfold retry; simpa using ha
  | succ k =>
    unfold retry
    simp only [List.headD_cons, hp, ha]
    simp

theorem request_plain {digest : List Nat → List Nat} {now : Int × Nat} {len code num size : Nat} {data : List Nat} (hd : data.length ≤ 200) :
    request digest now len code false num size data = .packet ((blank false code num size data).take len) := by
  unfold request
  rw [if_neg (by omega)]
  simp

/-- C216: when the daemon does not answer, both functions say so after one request, and leave what
they were to fill in as it was. -/
theorem C216_silent {name : Addr → Int} :
    (∀ (c : Client) (n : Net) (ns : List Net) (s : Sys), Silent 4 n →
      ∃ p, getSys name c (n :: ns) s = .ok (110, s, { c with out := c.out ++ [p] })) ∧
    (∀ (t : Table) (n : Net) (ns : List Net) (qs : List (List Net)), Silent 1 n →
      ∃ p, getPeers name t ((n :: ns) :: qs) = .ok (110, { t with client := { t.client with out := t.client.out ++ [p] } })) := by
  refine ⟨?_, ?_⟩
  · intro c n ns s h
    refine ⟨(blank false 4 0 0 []).take c.size, ?_⟩
    unfold getSys
    rw [silent_query (request_plain (by simp)) h]
    rfl
  · intro t n ns qs h
    refine ⟨(blank false 1 0 0 []).take t.client.size, ?_⟩
    unfold getPeers
    rw [List.headD_cons, silent_query (request_plain (by simp)) h]
    rfl

example : Silent 4 { events := [(3, .packet [1, 2, 3])] } := by
  refine ⟨rfl, ?_⟩
  intro t e h
  simp [Net.arrivals, drain] at h
  obtain ⟨-, rfl⟩ := h
  refine ⟨_, rfl, by simp, ?_⟩
  rintro ⟨m, n, rest, -, -, -, h⟩
  have := congrArg List.length h
  simp [head_length] at this
  omega

/-- C216: an answer without data means that there are no peers, which is no error. -/
theorem C216_no_peers {name : Addr → Int} {t : Table} {n : Net} {ns : List Net} {qs : List (List Net)} {m : Msg} {k tm : Nat}
    {rest : List Nat} {es : List (Nat × Rx)} (hw : Whole t) (hsent : n.sent = 0) (hf : m.Fits) (hc : m.code = 1) (he : m.err = 4)
    (hk : k < 4096) (ht : tm ≤ n.start + t.client.timeout) (hev : n.arrivals = (tm, .packet (m.head k ++ rest)) :: es) :
    ∃ c', getPeers name t ((n :: ns) :: qs) = .ok (0, { t with num := 0, client := c' }) := by
  have hp := request_plain (digest := t.client.digest) (now := n.clock) (len := t.client.size) (code := 1) (num := 0) (size := 0) (data := []) (by simp)
  have ha : attempt t.client n { code := 1, req := 72 } = (.rc 61, { t.client with out := t.client.out ++ [(blank false 1 0 0 []).take t.client.size] }) := by
    unfold attempt
    rw [hp]
    simp only [hsent, ne_eq, not_true_eq_false, if_false]
    rw [hev, C208_refused es hf hc he hk .noData ht]
  have hq : query t.client (n :: ns) { code := 1, req := 72 } = (.rc 61, { t.client with out := t.client.out ++ [(blank false 1 0 0 []).take t.client.size] }) := by
    unfold query
    cases hf : 2 - t.client.legacy with
    | zero => unfold retry; simpa using ha
    | succ k =>
      unfold retry
      simp only [List.headD_cons, hp, ha]
      simp
  refine ⟨{ t.client with out := t.client.out ++ [(blank false 1 0 0 []).take t.client.size] }, ?_⟩
  unfold getPeers
  rw [List.headD_cons, hq]
  rfl

example : (match getPeers (fun _ => 0) { freshTable with num := 3 } [[{ events := [(5, .packet (Msg.bytes { code := 1, err := 4 }))] }]] with
    | .ok (rc, t) => rc = 0 && t.num = 0
    | .error _ => false) = true := by decide +kernel

/-! ## C219: control of the clock -/

/-- An answer without error to a request with this code. -/
def Granted (code : Nat) (ns : List Net) : Prop :=
  ∃ n ∈ ns, ∃ t m k rest, (t, Rx.packet (Msg.head m k ++ rest)) ∈ n.arrivals ∧ m.Fits ∧ m.code = code ∧ m.err = 0 ∧ m.more = false

/-- The datagrams are made of bytes. -/
def Octets (ns : List Net) : Prop := ∀ n ∈ ns, ∀ t b, (t, Rx.packet b) ∈ n.arrivals → ∀ x ∈ b, x < 256

theorem onPacket_stored {code req : Nat} {s s' : Rs} {b : List Nat} (h : onPacket code req s b = .stored s') :
    check b code = true ∧ errOf b = 0 ∧ s'.count = s.count + 1 ∧ ((isMore b = true ∧ s'.last = s.last) ∨ (isMore b = false ∧ s'.last = seqOf b)) := by
  unfold onPacket at h
  by_cases h1 : check b code = true
  swap
  · rw [if_pos (by simp [h1])] at h; simp at h
  rw [if_neg (by simp [h1])] at h
  by_cases h2 : errOf b ≠ 0
  · rw [if_pos h2] at h
    unfold errAnswer at h
    cases hx : errTable[errOf b]? <;> rw [hx] at h <;> simp at h
  rw [if_neg h2] at h
  split at h
  · simp at h
  split at h
  · simp at h
  split at h
  · simp at h
  unfold take at h
  simp only [pad_eq] at h
  split at h
  · simp at h
  split at h
  · simp at h
  · simp only [Verdict.stored.injEq] at h
    subst h
    refine ⟨h1, by simpa using h2, rfl, ?_⟩
    cases isMore b <;> simp

theorem loop_granted {code req until_ : Nat} : ∀ (es : List (Nat × Rx)) (s : Rs) (n : Nat), s.last = 2147483647 → s.count + es.length < 2147483647 →
    (loop code req until_ s es).reply = .ok n →
    ∃ t b, (t, Rx.packet b) ∈ es ∧ check b code = true ∧ errOf b = 0 ∧ isMore b = false
  | [], s, n, _, _, h => by simp [loop] at h
  | (t, e) :: es, s, n, hl, hn, h => by
    unfold loop at h
    split at h
    · simp at h
    cases e with
    | failed n => simp at h
    | packet b =>
      simp only at h
      cases hv : onPacket code req s b with
      | again =>
        rw [hv] at h
        obtain ⟨t', b', h1, h2⟩ := loop_granted es s n hl (by simp at hn; omega) h
        exact ⟨t', b', by simp [h1], h2⟩
      | fail n => rw [hv] at h; simp at h
      | fault f => rw [hv] at h; simp at h
      | stored s' =>
        rw [hv] at h
        obtain ⟨g1, g2, g3, g4⟩ := onPacket_stored hv
        rcases g4 with ⟨g4, g5⟩ | ⟨g4, g5⟩
        · simp only at h
          rw [List.length_cons] at hn
          rw [if_pos (by omega)] at h
          obtain ⟨t', b', h1, h2⟩ := loop_granted es s' n (by omega) (by omega) h
          exact ⟨t', b', by simp [h1], h2⟩
        · exact ⟨t, b, by simp, g1, g2, g4⟩

/-- An attempt counts fewer packets than an `int` can hold. -/
def Countable (ns : List Net) : Prop := ∀ n ∈ ns, n.arrivals.length < 2147483647

theorem head_of_check {b : List Nat} {code : Nat} (hb : ∀ x ∈ b, x < 256) (h : check b code = true) (he : errOf b = 0) (hm : isMore b = false) :
    ∃ m k rest, b = Msg.head m k ++ rest ∧ m.Fits ∧ m.code = code ∧ m.err = 0 ∧ m.more = false := by
  obtain ⟨m, k, rest, h1, h2, h3, h4⟩ := about_of_check hb h
  obtain ⟨f1, -, -, -, f5⟩ := fields_head rest h1 h3
  rw [← h4] at f1 f5
  exact ⟨m, k, rest, h4, h1, h2, f1.symm.trans he, f5.symm.trans hm⟩

theorem attempt_granted {c : Client} {n : Net} {q : Ask} {k : Nat} (hb : ∀ t b, (t, Rx.packet b) ∈ n.arrivals → ∀ x ∈ b, x < 256)
    (hn : n.arrivals.length < 2147483647) (h : (attempt c n q).1 = .ok k) :
    ∃ t m k rest, (t, Rx.packet (Msg.head m k ++ rest)) ∈ n.arrivals ∧ m.Fits ∧ m.code = q.code ∧ m.err = 0 ∧ m.more = false := by
  unfold attempt at h
  split at h
  · simp at h
  · simp at h
  · simp only at h
    split at h
    · simp at h
    · obtain ⟨t, b, h1, h2, h3, h4⟩ := loop_granted n.arrivals _ k rfl (by simpa using hn) h
      obtain ⟨m, k, rest, g1, g2⟩ := head_of_check (hb t b h1) h2 h3 h4
      exact ⟨t, m, k, rest, g1 ▸ h1, g2⟩

theorem retry_granted {q : Ask} : ∀ (fuel : Nat) (c : Client) (ns : List Net) (k : Nat), Octets ns → Countable ns →
    (retry fuel c ns q).1 = .ok k → Granted q.code ns := by
  have base : ∀ (c : Client) (ns : List Net) (k : Nat), Octets ns → Countable ns → (attempt c (ns.headD {}) q).1 = .ok k → Granted q.code ns := by
    intro c ns k ho hc h
    cases ns with
    | nil =>
      obtain ⟨t, m, k, rest, h1, -⟩ := attempt_granted (by simp [Net.arrivals, drain]) (by simp [Net.arrivals, drain]) h
      simp [Net.arrivals, drain] at h1
    | cons n ns =>
      obtain ⟨t, m, k, rest, h1, h2⟩ := attempt_granted (ho n (by simp)) (hc n (by simp)) h
      exact ⟨n, by simp, t, m, k, rest, h1, h2⟩
  intro fuel
  induction fuel with
  | zero => exact base
  | succ fuel ih =>
    intro c ns k ho hc h
    unfold retry at h
    simp only at h
    split at h
    · split at h
      · obtain ⟨n, hn, h2⟩ := ih _ ns.tail k (fun n hn => ho n (List.mem_of_mem_tail hn)) (fun n hn => hc n (List.mem_of_mem_tail hn)) h
        exact ⟨n, List.mem_of_mem_tail hn, h2⟩
      · exact base c ns k ho hc h
    · exact base c ns k ho hc h

/-- C219: without a key nothing is sent and permission is denied. -/
theorem C219_no_key {c : Client} (ns : List Net) (on : Bool) (h : c.key = 0) : clockControl c ns on = .ok (13, c) := by
  unfold clockControl
  rw [if_pos h]

/-- C219: success is reported only after an answer without error to this kind of request. -/
theorem C219_success {c c' : Client} {ns : List Net} {on : Bool} (ho : Octets ns) (hc : Countable ns)
    (herr : ∀ n ∈ ns, ∀ t e, (t, Rx.failed e) ∈ n.arrivals → e ≠ 0)
    (h : clockControl c ns on = .ok (0, c')) : Granted (if on then 12 else 13) ns := by
  unfold clockControl at h
  split at h
  · simp at h
  · revert h
    have hg := fun k => retry_granted (q := { code := if on then 12 else 13, auth := true, num := 1, size := 4, data := be32 12 }) (2 - c.legacy) c ns k ho hc
    have hz : ∀ (fuel : Nat) (c : Client) (ns : List Net) (q : Ask), (∀ n ∈ ns, ∀ t e, (t, Rx.failed e) ∈ n.arrivals → e ≠ 0) →
        (retry fuel c ns q).1 ≠ .rc 0 := by
      have hl : ∀ code req until_ (es : List (Nat × Rx)) (s : Rs), (∀ t e, (t, Rx.failed e) ∈ es → e ≠ 0) → (loop code req until_ s es).reply ≠ .rc 0 := by
        intro code req until_ es
        induction es with
        | nil => intro s _ h; simp [loop] at h
        | cons x es ih =>
          obtain ⟨t, e⟩ := x
          intro s hz h
          unfold loop at h
          split at h
          · simp at h
          cases e with
          | failed n => simp at h; exact hz t n (by simp) h
          | packet b =>
            simp only at h
            cases hv : onPacket code req s b with
            | again => rw [hv] at h; exact ih s (fun t e he => hz t e (by simp [he])) h
            | fail n =>
              rw [hv] at h
              simp only [Reply.rc.injEq] at h
              subst h
              unfold onPacket at hv
              split at hv
              · simp at hv
              split at hv
              · rename_i he
                unfold errAnswer at hv
                have : ∀ k : Fin 16, k ≠ 0 → errTable[(k : Nat)]? ≠ some 0 := by decide
                have hlt : errOf b < 16 := by unfold errOf; omega
                cases hx : errTable[errOf b]? with
                | none => rw [hx] at hv; simp at hv
                | some rc =>
                  rw [hx] at hv
                  simp only [Verdict.fail.injEq] at hv
                  subst hv
                  refine this ⟨errOf b, hlt⟩ ?_ hx
                  intro h0
                  exact he (congrArg Fin.val h0)
              split at hv
              · simp at hv
              split at hv
              · simp at hv
              split at hv
              · simp at hv
              unfold take at hv
              simp only [pad_eq] at hv
              split at hv
              · simp at hv
              split at hv <;> simp at hv
            | fault f => rw [hv] at h; simp at h
            | stored s' =>
              rw [hv] at h
              simp only at h
              split at h
              · exact ih s' (fun t e he => hz t e (by simp [he])) h
              · simp at h
      have hat : ∀ (c : Client) (n : Net) (q : Ask), (∀ t e, (t, Rx.failed e) ∈ n.arrivals → e ≠ 0) → (attempt c n q).1 ≠ .rc 0 := by
        intro c n q h2 h
        unfold attempt at h
        split at h
        · simp at h
        · rename_i rc hrq
          simp only [Reply.rc.injEq] at h
          subst h
          unfold request at hrq
          split at hrq
          · simp at hrq
          · simp only at hrq
            split at hrq
            · simp at hrq
            · split at hrq <;> simp at hrq
        · simp only at h
          split at h
          · rename_i hne
            simp only [Reply.rc.injEq] at h
            exact hne h
          · exact hl _ _ _ _ _ h2 h
      have hat0 : ∀ (c : Client) (ns : List Net) (q : Ask), (∀ n ∈ ns, ∀ t e, (t, Rx.failed e) ∈ n.arrivals → e ≠ 0) → (attempt c (ns.headD {}) q).1 ≠ .rc 0 := by
        intro c ns q h
        cases ns with
        | nil => exact hat c _ q (by simp [Net.arrivals, drain])
        | cons n ns => exact hat c n q (h n (by simp))
      intro fuel
      induction fuel with
      | zero => exact hat0
      | succ fuel ih =>
        intro c ns q h
        unfold retry
        simp only
        split
        · split
          · exact ih _ _ _ (fun n hn => h n (List.mem_of_mem_tail hn))
          · exact hat0 c ns q h
        · exact hat0 c ns q h
    have hz' := hz (2 - c.legacy) c ns { code := if on then 12 else 13, auth := true, num := 1, size := 4, data := be32 12 } herr
    change (query c ns _).1 ≠ _ at hz'
    change ∀ k, (query c ns _).1 = _ → _ at hg
    revert hg hz'
    rcases query c ns { code := if on then 12 else 13, auth := true, num := 1, size := 4, data := be32 12 } with ⟨r, c2⟩
    intro hz' hg h
    cases r with
    | fault f => simp at h
    | rc e =>
      simp only [Except.ok.injEq, Prod.mk.injEq] at h
      exact absurd (congrArg Reply.rc h.1) hz'
    | ok n => exact hg n rfl

/-- C219: one request goes out, authenticated, for the two flags NTP (4) and KERNEL (8), to set them
or to clear them; an answer without error is success. -/
theorem C219_granted {c : Client} {n : Net} {ns : List Net} {on : Bool} {m : Msg} {t : Nat} {es : List (Nat × Rx)}
    (hs : Sound c) (hk : c.key ≠ 0) (hdig : ∀ l, (c.digest l).length = 20) (hsent : n.sent = 0)
    (hf : m.Fits) (hc : m.code = if on then 12 else 13) (he : m.err = 0) (hm : m.more = false) (hseq : m.seq = 0)
    (hsz : m.size = 0) (hit : m.items = []) (ht : t ≤ n.start + c.timeout) (hev : n.arrivals = (t, .packet m.bytes) :: es) :
    ∃ p c', clockControl c (n :: ns) on = .ok (0, c') ∧ c'.out = c.out ++ [p] ∧
      (requestHead true (if on then 12 else 13) 1 4 ++ w32 (4 + 8)) <+: p := by
  obtain ⟨p, hp⟩ : ∃ p, request c.digest n.clock c.size (if on then 12 else 13) true 1 4 (be32 12) = .packet p := by
    unfold request
    rw [if_neg (by simp [be32, be16])]
    simp [hdig]
  have hl : c.size = 188 ∨ c.size = 160 ∨ c.size = 48 := by rw [hs.size]; exact legacySize_cases _
  have hpre := C207_authenticated hl (by simp [be32, be16]) (by cases on <;> simp) (by simp) (by simp) (by simp [be32, be16]) hp
  have hans : Answered c { code := if on then 12 else 13, auth := true, num := 1, size := 4, data := be32 12 } n [m] := by
    refine ⟨hsent, ⟨[(t, m)], rfl, ?_⟩, ⟨[m], ?_, List.Perm.refl _⟩, by simp, by simp [content, hit]⟩
    · rw [hev]
      exact .msg ht (.done _)
    · refine ⟨by simp, by simp, ?_, ?_⟩
      · intro x hx
        simp only [List.mem_singleton] at hx
        subst hx
        exact ⟨hf, ⟨by simp [hit], by simp [hit]⟩, hc, he⟩
      · intro j x hx
        match j, hx with
        | 0, hx => simp at hx; subst hx; simp [hm, hseq]
        | j + 1, hx => simp at hx
  have hq := answered_query (ns := ns) hs.buf hp hans
  refine ⟨p, { c with out := c.out ++ [p], buf := content 0 [m] ++ c.buf.drop (content 0 [m]).length }, ?_, rfl, hpre⟩
  unfold clockControl
  rw [if_neg hk, hq]

example : (match clockControl fresh [{ events := [(5, .packet (Msg.bytes { code := 13 }))] }] false with
    | .ok (rc, c) => rc = 0 && c.out.map (fun p => p.take 12) = [[23, 128, 3, 13, 0, 1, 0, 4, 0, 0, 0, 12]]
    | .error _ => false) = true := by decide +kernel

/-! ## C221: answers to earlier questions -/

/-- The full claim: what was waiting at the socket before the question makes no difference. -/
def C221_statement : Prop :=
  ∀ (c : Client) (n : Net) (ns : List Net) (q : Ask), Sound c → query c (n :: ns) q = query c ({ n with pending := [] } :: ns) q

/-- An empty datagram ends the emptying of the socket, so that an old answer is taken for the new
one. -/
theorem C221_violated : ¬ C221_statement := by
  intro h
  have := congrArg Prod.fst (h fresh { pending := [.packet [], .packet (Msg.bytes { code := 4 })] } [] { code := 4, req := 80 } fresh_sound)
  revert this
  decide +kernel

theorem drain_nil {l : List Rx} (h : ∀ e ∈ l, ∃ b, e = .packet b ∧ b ≠ []) : drain l = [] := by
  induction l with
  | nil => rfl
  | cons e l ih =>
    obtain ⟨b, rfl, hb⟩ := h e (by simp)
    simp only [drain, if_neg hb]
    exact ih (fun e he => h e (by simp [he]))

theorem attempt_arrivals {c : Client} {n n' : Net} {q : Ask} (h1 : n.clock = n'.clock) (h2 : n.sent = n'.sent) (h3 : n.start = n'.start)
    (h4 : n.arrivals = n'.arrivals) : attempt c n q = attempt c n' q := by
  unfold attempt
  rw [h1, h2, h3, h4]

/-- C221, in part: if only datagrams with contents are waiting, they make no difference. -/
theorem C221_partial {c : Client} {n : Net} {ns : List Net} {q : Ask} (h : ∀ e ∈ n.pending, ∃ b, e = .packet b ∧ b ≠ []) :
    query c (n :: ns) q = query c ({ n with pending := [] } :: ns) q := by
  have ha : attempt c n q = attempt c { n with pending := [] } q :=
    attempt_arrivals rfl rfl rfl (by simp [Net.arrivals, drain_nil h, drain])
  unfold query
  cases 2 - c.legacy with
  | zero => unfold retry; exact ha
  | succ k =>
    unfold retry
    simp only [List.headD_cons, List.tail_cons, ha]
    cases request c.digest n.clock c.size q.code q.auth q.num q.size q.data <;> rfl

example : (query fresh [{ pending := [.packet (Msg.bytes { code := 4 }), .packet [1]] }] { code := 4, req := 80 }).1 = .rc 110 := by
  decide +kernel

/-! ## C223: creation -/

/-- C223: a client is created exactly when there is memory, the key has a value if its number is not
0, and the socket could be opened and connected; it is then sound, has sent nothing and waits
300 ms. -/
theorem C223_created (w : Sys0) (hash : Int → List Nat → List Nat → List Nat) (key : Int) (value : Option (List Nat)) :
    (∃ c, create w hash key value = .ok c) ↔ w.memory = true ∧ (key ≠ 0 → value ≠ none) ∧ w.socket = 0 ∧ w.connect = 0 := by
  unfold create
  constructor
  · rintro ⟨c, h⟩
    split at h
    · simp at h
    split at h
    · simp at h
    split at h
    · simp at h
    split at h
    · simp at h
    rename_i h1 h2 h3 h4
    refine ⟨by simpa using h1, ?_, by simpa using h3, by simpa using h4⟩
    intro hk hv
    simp [hk, hv] at h2
  · rintro ⟨h1, h2, h3, h4⟩
    rw [if_neg (by simp [h1]), if_neg, if_neg (by simp [h3]), if_neg (by simp [h4])]
    · exact ⟨_, rfl⟩
    · simp only [Bool.and_eq_true, decide_eq_true_eq, not_and]
      exact fun hk => h2 hk

theorem C223_sound {w : Sys0} {hash : Int → List Nat → List Nat → List Nat} {key : Int} {value : Option (List Nat)} {c : Client}
    (h : create w hash key value = .ok c) : Sound c ∧ c.key = key ∧ c.out = [] ∧ c.timeout = 300 * 1000000 ∧ c.size = 188 := by
  unfold create at h
  split at h
  · simp at h
  split at h
  · simp at h
  split at h
  · simp at h
  split at h
  · simp at h
  simp only [Except.ok.injEq] at h
  subst h
  exact ⟨⟨by simp, rfl, List.length_replicate⟩, rfl, rfl, rfl, rfl⟩

/-- C223: a creation that fails leaves no socket: one is closed exactly if one was opened. -/
theorem C223_failed {w : Sys0} {hash : Int → List Nat → List Nat → List Nat} {key : Int} {value : Option (List Nat)} {rc closed : Nat}
    (h : create w hash key value = .error (rc, closed)) :
    rc ≠ 0 ∧ (closed = 1 ↔ w.memory = true ∧ (key = 0 ∨ value ≠ none) ∧ w.socket = 0) ∧ closed ≤ 1 := by
  unfold create at h
  by_cases h1 : w.memory = true
  swap
  · rw [if_pos (by simp [h1])] at h
    simp only [Except.error.injEq, Prod.mk.injEq] at h
    obtain ⟨rfl, rfl⟩ := h
    simp [h1]
  rw [if_neg (by simp [h1])] at h
  by_cases h2 : (decide (key ≠ 0) && decide (value = none)) = true
  · rw [if_pos h2] at h
    simp only [Except.error.injEq, Prod.mk.injEq] at h
    obtain ⟨rfl, rfl⟩ := h
    simp only [Bool.and_eq_true, decide_eq_true_eq] at h2
    simp [h2]
  rw [if_neg h2] at h
  have hv : key = 0 ∨ value ≠ none := by
    simp only [Bool.and_eq_true, decide_eq_true_eq, not_and] at h2
    by_cases hk : key = 0
    · exact Or.inl hk
    · exact Or.inr (h2 hk)
  by_cases h3 : w.socket ≠ 0
  · rw [if_pos h3] at h
    simp only [Except.error.injEq, Prod.mk.injEq] at h
    obtain ⟨rfl, rfl⟩ := h
    simp [h3]
  rw [if_neg h3] at h
  by_cases h4 : w.connect ≠ 0
  · rw [if_pos h4] at h
    simp only [Except.error.injEq, Prod.mk.injEq] at h
    obtain ⟨rfl, rfl⟩ := h
    refine ⟨h4, ?_, Nat.le_refl _⟩
    simp only [h1, true_and, true_iff]
    exact ⟨hv, by simpa using h3⟩
  · rw [if_neg h4] at h; exact nomatch h

example : create {} (fun _ _ _ => []) 5 none = .error (22, 0) := rfl
example : create { connect := 111 } (fun _ _ _ => []) 5 (some [1]) = .error (111, 1) := by rfl

end Verif.Ntp7
