import Verif.Ntp7.Honest

/-!
# Properties of the mode 7 client: what is reported
-/

set_option linter.unusedSimpArgs false
set_option linter.unusedVariables false

namespace Verif.Ntp7

/-- An attempt that the daemon answers with one message, after `t` nanoseconds. -/
def answer (code size : Nat) (items : List (List Nat)) (t : Nat) : List Net :=
  [{ events := [(t, .packet (Msg.bytes { code := code, size := size, items := items }))] }]

theorem answer_tells {c : Client} {q : Ask} {items : List (List Nat)} {t : Nat} (hc : q.code < 256) (hr : q.req < 4096) (hi : ∀ x ∈ items, x.length = q.req)
    (hn : items.length < 4096) (hroom : items.flatten.length ≤ 4096) (ht : t ≤ c.timeout) : Tells c q (answer q.code q.req items t) items := by
  have hcont : content q.req [{ code := q.code, size := q.req, items := items }] = items.flatten := by
    unfold content
    simp only [List.flatMap_cons, List.flatMap_nil, List.append_nil]
    congr 1
    conv_rhs => rw [← List.map_id items]
    refine List.map_congr_left (fun x hx => ?_)
    simp [fillUp, hi x hx]
  refine ⟨_, [], [{ code := q.code, size := q.req, items := items }], rfl, ⟨rfl, ⟨[(t, _)], rfl, ?_⟩, ⟨_, ?_, List.Perm.refl _⟩, by simp, ?_⟩, hcont, by simp⟩
  · exact .msg (by simpa using ht) (.done _)
  · refine ⟨by simp, by simp, ?_, ?_⟩
    · intro m hm
      simp only [List.mem_singleton] at hm
      subst hm
      exact ⟨by unfold Msg.Fits; simp; omega, ⟨hn, hi⟩, rfl, rfl⟩
    · intro j m hm
      cases j with
      | zero => simp at hm; subst hm; simp
      | succ j => simp at hm
  · rw [hcont]; exact hroom

/-! ## C213: the system -/

/-- The full claim: when the daemon tells what it follows, that is reported, also when there is no name
for the address; and success is only reported when the daemon told it. -/
def C213_statement : Prop :=
  (∀ name c ns (s : SysRec) s0, Sound c → s.Fits → Tells c { code := 4, req := 80 } ns [s.bytes] →
    ∃ c', getSys name c ns s0 = .ok (0, { peer := host s.flag s.peer s.peer6, control := s.flags.testBit 2 || s.flags.testBit 3 }, c')) ∧
  (∀ name c ns s0 s' c' items, Sound c → Tells c { code := 4, req := 80 } ns items → getSys name c ns s0 = .ok (0, s', c') → items ≠ [])

theorem getSys_tells {name : Addr → Int} {c : Client} {ns : List Net} {s : SysRec} {s0 : Sys} (hs : Sound c) (hf : s.Fits)
    (h : Tells c { code := 4, req := 80 } ns [s.bytes]) :
    ∃ c', getSys name c ns s0 = .ok (name (host s.flag s.peer s.peer6),
      { peer := host s.flag s.peer s.peer6, control := s.flags.testBit 2 || s.flags.testBit 3 }, c') := by
  obtain ⟨c1, b1, q1, e1, t1, s1⟩ := query_tells hs (by simp) rfl (by simp) h
  simp only [List.flatten_cons, List.flatten_nil, List.append_nil] at e1
  obtain ⟨x1, x2⟩ := SysRec.address hf b1
  rw [← e1] at x1 x2
  refine ⟨c1, ?_⟩
  unfold getSys
  rw [q1]
  simp only [x1, x2, testBit_two, testBit_three]

/-- A record of a system that follows 10.0.0.1 and sets the clock of the kernel. -/
def demoSys : SysRec := { peer := 167772161, flags := 8 }

theorem demoSys_fits : demoSys.Fits := ⟨by decide, by decide, by decide, by decide⟩

theorem demoSys_told : Tells fresh { code := 4, req := 80 } (answer 4 80 [demoSys.bytes] 5) [demoSys.bytes] :=
  answer_tells (q := { code := 4, req := 80 }) (by decide) (by decide) (by decide) (by decide) (by decide) (by decide)

/-- When there is no name for the address, `getnameinfo` fails and with it the query. -/
theorem C213_violated : ¬ C213_statement := by
  rintro ⟨h, -⟩
  obtain ⟨c1, h1⟩ := h (fun _ => -2) fresh _ demoSys {} fresh_sound demoSys_fits demoSys_told
  obtain ⟨c2, h2⟩ := getSys_tells (name := fun _ => -2) (s0 := {}) fresh_sound demoSys_fits demoSys_told
  rw [h2] at h1
  simp at h1

/-- An answer without items is success: what is reported was in the buffer before. -/
theorem C213_violated_empty : ¬ C213_statement := by
  rintro ⟨-, h⟩
  have ht : Tells fresh { code := 4, req := 80 } (answer 4 80 [] 5) [] :=
    answer_tells (q := { code := 4, req := 80 }) (by decide) (by decide) (by decide) (by decide) (by decide) (by decide)
  obtain ⟨c1, b1, q1, -⟩ := query_tells fresh_sound (by simp) rfl (by simp) ht
  refine h (fun _ => 0) fresh (answer 4 80 [] 5) {} { peer := address c1.buf 56 0 64, control := u8 c1.buf 32 / 4 % 2 = 1 || u8 c1.buf 32 / 8 % 2 = 1 } c1 []
    fresh_sound ht ?_ rfl
  unfold getSys
  rw [q1]

/-- C213, in part: when the daemon tells what it follows and there is a name for the address, that is
reported; and whether it controls the clock is what the flags for NTP and for the kernel say. -/
theorem C213_partial {name : Addr → Int} (hname : ∀ a, name a = 0) {c : Client} {ns : List Net} {s : SysRec} {s0 : Sys} (hs : Sound c) (hf : s.Fits)
    (h : Tells c { code := 4, req := 80 } ns [s.bytes]) :
    ∃ c', getSys name c ns s0 = .ok (0, { peer := host s.flag s.peer s.peer6, control := s.flags.testBit 2 || s.flags.testBit 3 }, c') := by
  have := getSys_tells (name := name) (s0 := s0) hs hf h
  rwa [hname] at this

example : ∃ c', getSys (fun _ => 0) fresh (answer 4 80 [demoSys.bytes] 5) {} = .ok (0, { peer := .v4 [10, 0, 0, 1], control := true }, c') := by
  simpa [demoSys, host, w32, Nat.testBit] using C213_partial (name := fun _ => 0) (fun _ => rfl) (s0 := {}) fresh_sound demoSys_fits demoSys_told

/-! ## C214: the peers -/

/-- C214: when the daemon tells about its peers, not more than 32, and the three records about each
agree on the address, then the table holds them in that order, each as it was told; what is beyond
them in the table stays. -/
theorem C214_peers {name : Addr → Int} (hname : ∀ a, name a = 0) {t : Table} {rs : List Rec} {n0 : List Net} {qs rest : List (List Net)} (hw : Whole t)
    (hk : rs.length ≤ 32) (hg : ∀ r ∈ rs, r.Good) (h0 : Tells t.client { code := 1, req := 72 } n0 (rs.map (·.summary.bytes)))
    (ht : Told t.client rs qs rest) :
    ∃ t', getPeers name t (n0 :: qs) = .ok (0, t') ∧ t'.num = rs.length ∧ t'.peers.length = 32 ∧
      (∀ (j : Nat) (r : Rec), rs[j]? = some r → t'.peers[j]? = some r.peer) ∧ (∀ j, rs.length ≤ j → t'.peers[j]? = t.peers[j]?) := by
  obtain ⟨ps, c', -, -, h1, h2, -, h3, h4⟩ := getPeers_told hname (ss := []) hw (by simpa using hk) hg (by simp) (by simpa using h0) ht
  refine ⟨{ peers := ps, num := rs.length, client := c' }, ?_, rfl, h1, h2, fun j hj => h3 j (by simpa using hj)⟩
  rw [h4]
  simp [details]

/-- Two peers: the one that ntpd follows, 1.5 s ahead, and one with an IPv6 address. -/
def demoPeers : List Rec :=
  [{ summary := { src := 167772161, dst := 167772170, stratum := 2, flags := 2, hmode := 3, sec := 4294967294, frac := 2147483648 },
     stats := { src := 167772161, sent := 20, processed := 19 }, info := { src := 167772161, disp := 65536 } },
   { summary := { flag := 1, src6 := List.replicate 16 7, dst6 := List.replicate 16 8, stratum := 3, flags := 128, hmode := 3, sec := 1 },
     stats := { flag := 1, src6 := List.replicate 16 7, sent := 5, processed := 4 }, info := { flag := 1, src6 := List.replicate 16 7, disp := 32768 } }]

/-- What happens during the queries about them. -/
def demoQueries : List (List Net) :=
  demoPeers.flatMap (fun r => [answer 3 120 [r.stats.bytes] 7, answer 2 280 [r.info.bytes] 9])

theorem demoPeers_good : ∀ r ∈ demoPeers, r.Good := by
  intro r hr
  simp only [demoPeers, List.mem_cons, List.not_mem_nil, or_false] at hr
  rcases hr with rfl | rfl <;>
    exact ⟨⟨by decide +kernel, by decide +kernel, by decide +kernel, by decide +kernel, by decide +kernel⟩, ⟨by decide +kernel, by decide +kernel, by decide +kernel, by decide +kernel, by decide +kernel, by decide +kernel, by decide +kernel⟩,
      ⟨by decide +kernel, by decide +kernel, by decide +kernel, by decide +kernel, by decide +kernel, by decide +kernel⟩, by decide +kernel, by decide +kernel⟩

theorem demoPeers_told : Told fresh demoPeers demoQueries [] := by
  refine ⟨_, _, _, rfl, ?_, ?_, _, _, _, rfl, ?_, ?_, rfl⟩ <;>
    exact answer_tells (q := about _ _ _) (by simp only [about]; decide +kernel) (by simp only [about]; decide +kernel) (by simp only [about]; decide +kernel) (by decide +kernel) (by decide +kernel) (by decide +kernel)

theorem demoPeers_summaries : Tells fresh { code := 1, req := 72 } (answer 1 72 (demoPeers.map (·.summary.bytes)) 5) (demoPeers.map (·.summary.bytes)) :=
  answer_tells (q := { code := 1, req := 72 }) (by decide +kernel) (by decide +kernel) (by decide +kernel) (by decide +kernel) (by decide +kernel) (by decide +kernel)

example : ∃ t', getPeers (fun _ => 0) freshTable (answer 1 72 (demoPeers.map (·.summary.bytes)) 5 :: demoQueries) = .ok (0, t') ∧ t'.num = 2 ∧
    t'.peers[0]? = some
      { remote := .v4 [10, 0, 0, 1], local_ := .v4 [10, 0, 0, 10], sent := 20, received := 19, stratum := 2, selected := true,
        candidate := true, offset := 1500000000, disp := 1000000000 } := by
  obtain ⟨t', h1, h2, -, h3, -⟩ := C214_peers (name := fun _ => 0) (fun _ => rfl) freshTable_whole (rs := demoPeers) (by decide +kernel) demoPeers_good demoPeers_summaries demoPeers_told
  refine ⟨t', h1, h2, ?_⟩
  rw [h3 0 _ rfl]
  decide +kernel

/-! ## C217: nothing of earlier peers -/

/-- The full claim: what is reported about the peers does not depend on what was in the table before. -/
def C217_statement : Prop :=
  ∀ name t1 t2 qs t1' t2', Whole t1 → Whole t2 → t1.client = t2.client → getPeers name t1 qs = .ok (0, t1') → getPeers name t2 qs = .ok (0, t2') →
    ∀ j, j < t1'.num → t1'.peers[j]? = t2'.peers[j]?

/-- A daemon with one peer that has no statistics about it. -/
def noStats : List (List Net) :=
  [answer 1 72 [Summary.bytes { src := 167772161 }] 5, [{ events := [(7, .packet (Msg.bytes { code := 3, err := 4 }))] }]]

/-- The root dispersion of the first peer, when there is one. -/
def firstDisp : Except Fault (Int × Table) → Option Rat
  | .ok (0, t) => if t.num = 1 then t.peers[0]?.map (·.disp) else none
  | _ => none

theorem firstDisp_some {r : Except Fault (Int × Table)} {d : Rat} (h : firstDisp r = some d) :
    ∃ t, r = .ok (0, t) ∧ t.num = 1 ∧ t.peers[0]?.map (·.disp) = some d := by
  unfold firstDisp at h
  split at h
  · next t =>
    split at h
    · next h1 => exact ⟨t, rfl, h1, h⟩
    · simp at h
  · simp at h

/-- The root dispersion of the peer that had the entry before is reported. -/
theorem C217_violated : ¬ C217_statement := by
  intro h
  obtain ⟨t1, h1, h2, h3⟩ := firstDisp_some (r := getPeers (fun _ => 0) freshTable noStats) (d := 0) (by decide +kernel)
  obtain ⟨t2, h4, h5, h6⟩ := firstDisp_some (r := getPeers (fun _ => 0) { freshTable with peers := List.replicate 32 { disp := 1000 } } noStats) (d := 1000)
    (by decide +kernel)
  have := h (fun _ => 0) freshTable { freshTable with peers := List.replicate 32 { disp := 1000 } } noStats t1 t2 freshTable_whole
    ⟨fresh_sound, List.length_replicate, by
      intro p hp
      obtain ⟨-, rfl⟩ := List.mem_replicate.1 hp
      simp [Addr.Short]⟩ rfl h1 h4 0 (by omega)
  rw [this, h6] at h3
  simp at h3

/-- An entry without its root dispersion. -/
def Peer.rest (p : Peer) : Peer := { p with disp := 0 }

/-- The first `n` entries agree except for the root dispersion. -/
def Alike (n : Nat) (t1 t2 : Table) : Prop :=
  t1.client = t2.client ∧ t1.num = t2.num ∧ t1.peers.length = t2.peers.length ∧ ∀ j, j < n → t1.peers[j]?.map Peer.rest = t2.peers[j]?.map Peer.rest

/-- Two results that a user cannot tell apart except for root dispersions. -/
def AlikeResult (n : Nat) : Except Fault (Int × Table) → Except Fault (Int × Table) → Prop
  | .ok (r1, t1), .ok (r2, t2) => r1 = r2 ∧ Alike n t1 t2
  | .error f, .error g => f = g
  | _, _ => False

theorem Alike.set {n i : Nat} {t1 t2 : Table} {p1 p2 : Peer} {c : Client} (h : Alike n t1 t2) (hp : p1.rest = p2.rest) :
    Alike n { t1 with peers := t1.peers.set i p1, client := c } { t2 with peers := t2.peers.set i p2, client := c } := by
  refine ⟨rfl, h.2.1, by simpa using h.2.2.1, fun j hj => ?_⟩
  simp only [List.getElem?_set]
  have hl := h.2.2.1
  by_cases hij : i = j
  · rw [if_pos hij, if_pos hij, hl]
    split <;> simp [hp]
  · rw [if_neg hij, if_neg hij]
    exact h.2.2.2 j hj

theorem Alike.client {n : Nat} {t1 t2 : Table} {c : Client} (h : Alike n t1 t2) : Alike n { t1 with client := c } { t2 with client := c } :=
  ⟨rfl, h.2⟩

theorem details_alike {name : Addr → Int} {n : Nat} : ∀ (k i : Nat) (rc : Int) (t1 t2 : Table) (qs : List (List Net)), i + k ≤ n → Alike n t1 t2 →
    AlikeResult n (details name k i rc t1 qs) (details name k i rc t2 qs)
  | 0, i, rc, t1, t2, qs, hk, h => by rw [details, details]; exact ⟨rfl, h⟩
  | k + 1, i, rc, t1, t2, qs, hk, h => by
    have hi := h.2.2.2 i (by omega)
    have hc := h.1
    rw [details, details]
    cases e1 : t1.peers[i]? with
    | none =>
      cases e2 : t2.peers[i]? with
      | none => simp [AlikeResult]
      | some p2 => rw [e1, e2] at hi; simp at hi
    | some p1 =>
      cases e2 : t2.peers[i]? with
      | none => rw [e1, e2] at hi; simp at hi
      | some p2 =>
        rw [e1, e2] at hi
        simp only [Option.map_some, Option.some.injEq] at hi
        have hr : p1.remote = p2.remote := (Peer.mk.inj hi).1
        simp only [hr, hc]
        rcases query t2.client (qs.headD []) { code := 3, num := 1, size := 32, data := listData p2.remote, req := 120 } with ⟨r, c⟩
        cases r with
        | fault f => simp [AlikeResult]
        | rc e =>
          simp only
          by_cases he : e = 61
          · rw [if_pos he, if_pos he]
            exact details_alike k (i + 1) 0 _ _ qs.tail (by omega) h.client
          · rw [if_neg he, if_neg he]
            exact ⟨rfl, h.client⟩
        | ok m =>
          simp only
          cases sameHost p2.remote c.buf 80 4 104 with
          | error f => simp [AlikeResult]
          | ok b =>
            cases b with
            | false => exact ⟨rfl, h.client⟩
            | true =>
              simp only
              have h1 : Peer.rest { p1 with remote := p2.remote, sent := u32 c.buf 28, received := u32 c.buf 36 } =
                  Peer.rest { p2 with sent := u32 c.buf 28, received := u32 c.buf 36 } := by
                unfold Peer.rest at hi ⊢
                simp only [Peer.mk.injEq] at hi ⊢
                simp_all
              have h2 : ∀ x, Peer.rest { p1 with remote := p2.remote, sent := u32 c.buf 28, received := u32 c.buf 36, disp := x } =
                  Peer.rest { p2 with sent := u32 c.buf 28, received := u32 c.buf 36, disp := x } := by
                intro x
                unfold Peer.rest at hi ⊢
                simp only [Peer.mk.injEq] at hi ⊢
                simp_all
              rcases query c (qs.tail.headD []) { code := 2, num := 1, size := 32, data := listData p2.remote, req := 280 } with ⟨r, c2⟩
              cases r with
              | fault f => simp [AlikeResult]
              | rc e => exact ⟨rfl, h.set h1⟩
              | ok m =>
                simp only
                cases infoMatches p2.remote c2.buf with
                | error f => simp [AlikeResult]
                | ok b =>
                  cases b with
                  | false => exact ⟨rfl, h.set h1⟩
                  | true =>
                    simp only [List.set_set]
                    exact details_alike k (i + 1) _ _ _ qs.tail.tail (by omega) (h.set (h2 _))

/-- C217, in part: the result, the number of peers and everything about them but the root dispersion do
not depend on what was in the table before, unless the first query failed, which leaves the table
as it was. -/
theorem C217_partial {name : Addr → Int} {t1 t2 t1' t2' : Table} {qs : List (List Net)} {rc1 rc2 : Int} (hw1 : Whole t1) (hw2 : Whole t2)
    (hc : t1.client = t2.client) (h1 : getPeers name t1 qs = .ok (rc1, t1')) (h2 : getPeers name t2 qs = .ok (rc2, t2')) :
    rc1 = rc2 ∧ ((t1'.peers = t1.peers ∧ t1'.num = t1.num ∧ t2'.peers = t2.peers ∧ t2'.num = t2.num) ∨
      t1'.num = t2'.num ∧ ∀ j, j < t1'.num → t1'.peers[j]?.map Peer.rest = t2'.peers[j]?.map Peer.rest) := by
  obtain ⟨s1, -, -⟩ := query_asked (codes := [1]) (q := { code := 1, req := 72 }) (ns := qs.headD []) hw2.client (by simp) rfl (by simp) (by simp)
  have main : ∀ (c : Client) (n : Nat), Sound c → withItems name { t1 with client := c } n qs.tail = .ok (rc1, t1') →
      withItems name { t2 with client := c } n qs.tail = .ok (rc2, t2') →
      rc1 = rc2 ∧ t1'.num = t2'.num ∧ ∀ j, j < t1'.num → t1'.peers[j]?.map Peer.rest = t2'.peers[j]?.map Peer.rest := by
    intro c n hs g1 g2
    have hn1 : t1'.num = if 32 < n then 32 else n := by
      unfold withItems at g1
      simp only at g1
      split at g1
      · simp at g1
      · next ps _ =>
        have := (details_num name _ _ _ _ _ _ _ g1)
        simpa using this
    unfold withItems at g1 g2
    simp only at g1 g2
    rw [← hn1] at g1 g2
    have hle : t1'.num ≤ 32 := by rw [hn1]; split <;> omega
    obtain ⟨ps1, f1, l1, -, -, a1⟩ := fill_ok hs.buf t1'.num 0 t1.peers (by rw [hw1.peers]; omega) (by omega) hw1.short
    obtain ⟨ps2, f2, l2, -, -, a2⟩ := fill_ok hs.buf t1'.num 0 t2.peers (by rw [hw2.peers]; omega) (by omega) hw2.short
    rw [f1] at g1
    rw [f2] at g2
    simp only at g1 g2
    have := details_alike (name := name) (n := t1'.num) t1'.num 0 0 { peers := ps1, num := t1'.num, client := c } { peers := ps2, num := t1'.num, client := c } qs.tail
      (by omega) ⟨rfl, rfl, by rw [l1, l2, hw1.peers, hw2.peers], fun j hj => by
        obtain ⟨p1, -, e1⟩ := a1 j (by omega) (by omega)
        obtain ⟨p2, -, e2⟩ := a2 j (by omega) (by omega)
        simp only [e1, e2, Option.map_some]
        rfl⟩
    rw [g1, g2] at this
    obtain ⟨e, -, e2, -, e4⟩ := this
    exact ⟨e, e2, e4⟩
  unfold getPeers at h1 h2
  rw [hc] at h1
  revert h1 h2 s1
  rcases query t2.client (qs.headD []) { code := 1, req := 72 } with ⟨r, c⟩
  intro h1 h2 s1
  cases r with
  | fault f => simp at h1
  | ok n =>
    obtain ⟨e1, e2⟩ := main c n s1 h1 h2
    exact ⟨e1, Or.inr e2⟩
  | rc e =>
    simp only at h1 h2
    by_cases he : e = 61
    · rw [if_pos he] at h1 h2
      obtain ⟨e1, e2⟩ := main c 0 s1 h1 h2
      exact ⟨e1, Or.inr e2⟩
    · rw [if_neg he] at h1 h2
      simp only [Except.ok.injEq, Prod.mk.injEq] at h1 h2
      obtain ⟨rfl, rfl⟩ := h1
      obtain ⟨rfl, rfl⟩ := h2
      exact ⟨rfl, Or.inl ⟨rfl, rfl, rfl, rfl⟩⟩

example : (match getPeers (fun _ => 0) { freshTable with peers := List.replicate 32 { disp := 1000, selected := true, sent := 3 } } noStats with
    | .ok (rc, t) => rc = 0 && t.num = 1 && t.peers[0]? = some { remote := .v4 [10, 0, 0, 1], disp := 1000 }
    | .error _ => false) = true := by decide +kernel

/-! ## C218: answers about another peer -/

/-- The full claim: when the daemon has told about some peers, and then answers a question about the
next with statistics or information of another host, the result is `EIO`. -/
def C218_statement : Prop :=
  ∀ name t rs r ss n0 qs n1 n2 rest (st : Stats) (i : Info), (∀ a, name a = 0) → Whole t → (rs ++ r :: ss).length ≤ 32 → (∀ r ∈ rs, Rec.Good r) →
    (∀ s ∈ r :: ss, s.summary.Fits) → r.summary.src < 4294967296 → st.src < 4294967296 → i.src < 4294967296 → st.Fits → i.Fits →
    Tells t.client { code := 1, req := 72 } n0 ((rs ++ r :: ss).map (·.summary.bytes)) → Told t.client rs qs (n1 :: n2 :: rest) →
    Tells t.client (about 3 120 (host r.summary.flag r.summary.src r.summary.src6)) n1 [st.bytes] →
    (host st.flag st.src st.src6 ≠ host r.summary.flag r.summary.src r.summary.src6 ∨
      host st.flag st.src st.src6 = host r.summary.flag r.summary.src r.summary.src6 ∧
      Tells t.client (about 2 280 (host r.summary.flag r.summary.src r.summary.src6)) n2 [i.bytes] ∧
      host i.flag i.src i.src6 ≠ host r.summary.flag r.summary.src r.summary.src6) →
    ∃ t', getPeers name t (n0 :: qs) = .ok (5, t')

/-- The result. -/
def code : Except Fault (Int × Table) → Option Int
  | .ok (rc, _) => some rc
  | .error _ => none

theorem code_not {r : Except Fault (Int × Table)} {x : Int} (h : ¬ code r = some x) : ∀ t, r ≠ .ok (x, t) := by
  rintro t rfl
  exact h rfl

/-- The peer is 0.0.0.127 and the statistics are about 1.0.0.128: the difference of the two as numbers
of 32 bits overflows. -/
theorem C218_violated : ¬ C218_statement := by
  intro h
  obtain ⟨t', h'⟩ := h (fun _ => 0) freshTable [] { summary := { src := 127 }, stats := {}, info := {} } []
    (answer 1 72 [Summary.bytes { src := 127 }] 5) [answer 3 120 [Stats.bytes { src := 16777344 }] 5, []] (answer 3 120 [Stats.bytes { src := 16777344 }] 5) [] []
    { src := 16777344 } {} (fun _ => rfl) freshTable_whole (by decide) (by simp)
    (by
      intro r hr
      simp only [List.mem_singleton] at hr
      subst hr
      exact ⟨by decide, by decide, by decide, by decide, by decide⟩) (by decide) (by decide) (by decide)
    ⟨by decide, by decide, by decide, by decide, by decide, by decide, by decide⟩ ⟨by decide +kernel, by decide +kernel, by decide +kernel, by decide +kernel, by decide +kernel, by decide +kernel⟩
    (answer_tells (q := { code := 1, req := 72 }) (by decide +kernel) (by decide +kernel) (by decide +kernel) (by decide +kernel) (by decide +kernel) (by decide +kernel)) rfl
    (answer_tells (q := about _ _ _) (by simp only [about]; decide +kernel) (by simp only [about]; decide +kernel) (by simp only [about]; decide +kernel) (by decide +kernel) (by decide +kernel) (by decide +kernel))
    (Or.inl (by decide))
  exact code_not (by decide +kernel) t' h'

/-- For a peer with an IPv6 address, information about another is taken. -/
theorem C218_violated_v6 : ¬ C218_statement := by
  intro h
  obtain ⟨t', h'⟩ := h (fun _ => 0) freshTable [] { summary := { flag := 1, src6 := List.replicate 16 7 }, stats := {}, info := {} } []
    (answer 1 72 [Summary.bytes { flag := 1, src6 := List.replicate 16 7 }] 5)
    [answer 3 120 [Stats.bytes { flag := 1, src6 := List.replicate 16 7 }] 5, answer 2 280 [Info.bytes { flag := 1, src6 := List.replicate 16 9, disp := 65536 }] 5]
    (answer 3 120 [Stats.bytes { flag := 1, src6 := List.replicate 16 7 }] 5) (answer 2 280 [Info.bytes { flag := 1, src6 := List.replicate 16 9, disp := 65536 }] 5) []
    { flag := 1, src6 := List.replicate 16 7 } { flag := 1, src6 := List.replicate 16 9, disp := 65536 } (fun _ => rfl) freshTable_whole (by decide) (by simp)
    (by
      intro r hr
      simp only [List.mem_singleton] at hr
      subst hr
      exact ⟨by decide, by decide, by decide, by decide, by decide⟩) (by decide) (by decide) (by decide)
    ⟨by decide, by decide, by decide, by decide, by decide, by decide, by decide⟩ ⟨by decide +kernel, by decide +kernel, by decide +kernel, by decide +kernel, by decide +kernel, by decide +kernel⟩
    (answer_tells (q := { code := 1, req := 72 }) (by decide +kernel) (by decide +kernel) (by decide +kernel) (by decide +kernel) (by decide +kernel) (by decide +kernel)) rfl
    (answer_tells (q := about _ _ _) (by simp only [about]; decide +kernel) (by simp only [about]; decide +kernel) (by simp only [about]; decide +kernel) (by decide +kernel) (by decide +kernel) (by decide +kernel))
    (Or.inr ⟨by decide,
      answer_tells (q := about _ _ _) (by simp only [about]; decide +kernel) (by simp only [about]; decide +kernel) (by simp only [about]; decide +kernel) (by decide +kernel) (by decide +kernel) (by decide +kernel),
      by decide⟩)
  exact code_not (by decide +kernel) t' h'

theorem w32_bytes {n : Nat} (h : n < 4294967296) : ∀ v ∈ w32 n, v < 256 := by
  intro v hv
  simp only [w32, List.mem_cons, List.not_mem_nil, or_false] at hv
  omega

theorem sameHost_other {f v f' v' : Nat} {v6 v6' b : List Nat} {x y z : Nat} (h1 : v < 4294967296) (h2 : v' < 4294967296)
    (ha : address b x y z = host f' v' v6') (hb : flag32 b x = decide (f' ≠ 0)) (hne : host f' v' v6' ≠ host f v v6) :
    sameHost (host f v v6) b x y z = .ok false ∨ sameHost (host f v v6) b x y z = .error .overflow := by
  unfold address at ha
  unfold sameHost
  unfold host at ha hne ⊢
  rw [hb] at ha ⊢
  by_cases hf' : f' = 0 <;> by_cases hf : f = 0
  · simp only [hf', hf, if_true, ne_eq, not_true_eq_false, decide_false, Bool.false_eq_true, if_false, Addr.v4.injEq] at ha hne ⊢
    rw [ha]
    have hd : asInt (w32 v) - asInt (w32 v') ≠ 0 := by
      intro hd
      exact hne (asInt_inj rfl rfl (w32_bytes h2) (w32_bytes h1) (by omega))
    split
    · exact Or.inr rfl
    · left; simp [hd]
  · left; simp [hf', hf]
  · left; simp [hf', hf]
  · simp only [hf', hf, if_false, ne_eq, not_false_eq_true, decide_true, if_true, Addr.v6.injEq] at ha hne ⊢
    left
    rw [ha]
    simp [hne]

/-- C218, in part: the result is `EIO`, or the comparison of IPv4 addresses overflows; except that
information about a peer with an IPv6 address is not compared. -/
theorem C218_partial {name : Addr → Int} (hname : ∀ a, name a = 0) {t : Table} {rs ss : List Rec} {r : Rec} {n0 n1 n2 : List Net}
    {qs rest : List (List Net)} {st : Stats} {inf : Info} (hw : Whole t) (hk : (rs ++ r :: ss).length ≤ 32) (hg : ∀ r ∈ rs, r.Good)
    (hfit : ∀ s ∈ r :: ss, s.summary.Fits) (hsrc : r.summary.src < 4294967296) (hst : st.src < 4294967296) (hin : inf.src < 4294967296)
    (hstf : st.Fits) (hinf : inf.Fits) (h0 : Tells t.client { code := 1, req := 72 } n0 ((rs ++ r :: ss).map (·.summary.bytes)))
    (ht : Told t.client rs qs (n1 :: n2 :: rest))
    (h1 : Tells t.client (about 3 120 (host r.summary.flag r.summary.src r.summary.src6)) n1 [st.bytes])
    (hne : host st.flag st.src st.src6 ≠ host r.summary.flag r.summary.src r.summary.src6 ∨
      r.summary.flag = 0 ∧ host st.flag st.src st.src6 = host r.summary.flag r.summary.src r.summary.src6 ∧
      Tells t.client (about 2 280 (host r.summary.flag r.summary.src r.summary.src6)) n2 [inf.bytes] ∧
      host inf.flag inf.src inf.src6 ≠ host r.summary.flag r.summary.src r.summary.src6) :
    (∃ t', getPeers name t (n0 :: qs) = .ok (5, t')) ∨ getPeers name t (n0 :: qs) = .error .overflow := by
  obtain ⟨ps, c', s', t', l', -, a2, -, e'⟩ := getPeers_told hname hw hk hg hfit h0 ht
  obtain ⟨p, -, hp⟩ := a2 0 r rfl
  rw [Nat.add_zero] at hp
  rw [e', List.length_cons]
  obtain ⟨c1, b1, q1, e1, t1, s1⟩ := query_tells s' (about_short (hfit r (by simp)).src6) rfl (by simp [about]) (h1.congr t')
  simp only [List.flatten_cons, List.flatten_nil, List.append_nil] at e1
  obtain ⟨x1, -⟩ := Stats.address hstf b1
  have x4 := Stats.flag_at hstf b1
  rw [← e1] at x1 x4
  have hr : (r.summary.peer p.disp).remote = host r.summary.flag r.summary.src r.summary.src6 := rfl
  unfold about at q1
  rw [details]
  simp only [hp, hr, List.headD_cons, q1, List.tail_cons]
  rcases hne with hne | ⟨hv4, heq, h2, hne⟩
  · rcases sameHost_other hsrc hst x1 x4 hne with h | h
    · rw [h]; exact Or.inl ⟨_, rfl⟩
    · rw [h]; exact Or.inr rfl
  · rw [sameHost_self (x1.trans heq)]
    simp only
    obtain ⟨c2, b2, q2, e2, t2, s2⟩ := query_tells s1 (about_short (hfit r (by simp)).src6) rfl (by simp [about]) (h2.congr (t1.trans t'))
    simp only [List.flatten_cons, List.flatten_nil, List.append_nil] at e2
    obtain ⟨y1, -⟩ := Info.address hinf b2
    have y4 := Info.flag_at hinf b2
    rw [← e2] at y1 y4
    unfold about at q2
    rw [q2]
    simp only
    have hm : infoMatches (host r.summary.flag r.summary.src r.summary.src6) c2.buf = sameHost (host r.summary.flag r.summary.src r.summary.src6) c2.buf 240 4 264 := by
      unfold infoMatches
      rw [if_pos (by simp [host, hv4, Addr.isV4])]
    rw [hm]
    rcases sameHost_other hsrc hin y1 y4 hne with h | h
    · rw [h]; exact Or.inl ⟨_, rfl⟩
    · rw [h]; exact Or.inr rfl

example : code (getPeers (fun _ => 0) freshTable
    [answer 1 72 [Summary.bytes { src := 167772161 }] 5, answer 3 120 [Stats.bytes { src := 167772162 }] 5]) = some 5 := by decide +kernel

/-! ## C220: daemons without IPv6 -/

theorem fillUp_summary (s : Summary) : fillUp 72 s.old = Summary.bytes { s with flag := 0, unused := 0, dst6 := List.replicate 16 0, src6 := List.replicate 16 0 } := by
  unfold fillUp
  rw [s.old_length]
  unfold Summary.bytes
  congr 1
  show List.replicate 40 0 = w32 0 ++ w32 0 ++ List.replicate 16 0 ++ List.replicate 16 0
  decide

theorem fillUp_sys {s : SysRec} (h : s.Fits) : fillUp 80 s.old = SysRec.bytes { s with flag := 0, unused4 := 0, peer6 := List.replicate 16 0 } := by
  unfold fillUp
  rw [s.old_length h]
  unfold SysRec.bytes
  congr 1
  show List.replicate 24 0 = w32 0 ++ w32 0 ++ List.replicate 16 0
  decide

/-- C220: the shorter records of daemons without IPv6 are read as records about IPv4 addresses, with
nothing of what was in the buffer before. -/
theorem C220_short {name : Addr → Int} (hname : ∀ a, name a = 0) {c : Client} {n : Net} {ns : List Net} {s : SysRec} {s0 : Sys} {m : Msg}
    (hs : Sound c) (hf : s.Fits) (hm : m.items = [s.old]) (h : Answered c { code := 4, req := 80 } n [m]) :
    ∃ c', getSys name c (n :: ns) s0 = .ok (0, { peer := .v4 (w32 s.peer), control := s.flags.testBit 2 || s.flags.testBit 3 }, c') := by
  have hc : content 80 [m] = [SysRec.bytes { s with flag := 0, unused4 := 0, peer6 := List.replicate 16 0 }].flatten := by
    simp [content, hm, fillUp_sys hf]
  exact C213_partial hname (s := { s with flag := 0, unused4 := 0, peer6 := List.replicate 16 0 }) hs
    ⟨by simp, hf.before, hf.after, by simp⟩ ⟨n, ns, [m], rfl, h, hc, by simp [hm]⟩

example : (match getSys (fun _ => 0) { fresh with buf := List.replicate 4096 255 }
      [{ events := [(5, .packet (Msg.bytes { code := 4, size := 56, items := [demoSys.old] }))] }] {} with
    | .ok (rc, s, _) => rc = 0 && s = { peer := .v4 [10, 0, 0, 1], control := true }
    | .error _ => false) = true := by decide +kernel

/-- C220: as `C220_short`, for the summaries of the peers. -/
theorem C220_peers {c : Client} {q : Ask} {n : Net} {ns : List Net} {m : Msg} {ss : List Summary} (hq : q.req = 72) (hm : m.items = ss.map (·.old))
    (h : Answered c q n [m]) :
    Tells c q (n :: ns) (ss.map (fun s => Summary.bytes { s with flag := 0, unused := 0, dst6 := List.replicate 16 0, src6 := List.replicate 16 0 })) := by
  refine ⟨n, ns, [m], rfl, h, ?_, by simp [hm]⟩
  simp [content, hm, hq, Function.comp_def, fillUp_summary]

example : (match getPeers (fun _ => 0) { freshTable with client := { fresh with buf := List.replicate 4096 255 } }
      [[{ events := [(5, .packet (Msg.bytes { code := 1, size := 32, items := [Summary.old { src := 167772161, stratum := 2, flags := 2 }] }))] }],
        [{ events := [(7, .packet (Msg.bytes { code := 3, err := 4 }))] }]] with
    | .ok (rc, t) => rc = 0 && t.num = 1 && t.peers[0]? = some { remote := .v4 [10, 0, 0, 1], stratum := 2, selected := true }
    | .error _ => false) = true := by decide +kernel

end Verif.Ntp7
