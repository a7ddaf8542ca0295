import Verif.Ntp7.Props2
import Verif.Ntp7.Records

/-!
# Runs with a daemon that answers
-/

set_option linter.unusedSimpArgs false
set_option linter.unusedVariables false

namespace Verif.Ntp7

/-- During these attempts the question is answered at the first one, with these items (filled up to the
size that is expected), in any number of messages and between any other datagrams. -/
def Tells (c : Client) (q : Ask) (ns : List Net) (items : List (List Nat)) : Prop :=
  ∃ n rest ms, ns = n :: rest ∧ Answered c q n ms ∧ content q.req ms = items.flatten ∧ (ms.flatMap (·.items)).length = items.length

theorem Tells.congr {c c' : Client} {q : Ask} {ns : List Net} {items : List (List Nat)} (h : Tells c q ns items) (ht : c'.timeout = c.timeout) :
    Tells c' q ns items := by
  obtain ⟨n, rest, ms, h1, h2, h3⟩ := h
  exact ⟨n, rest, ms, h1, ⟨h2.sent, by rw [ht]; exact h2.arrive, h2.split, h2.size, h2.room⟩, h3⟩

theorem query_tells {c : Client} {q : Ask} {ns : List Net} {items : List (List Nat)} (hs : Sound c) (hd : q.data.length ≤ 200) (ha : q.auth = false)
    (hc : q.code < 256) (h : Tells c q ns items) :
    ∃ c' rest, query c ns q = (.ok items.length, c') ∧ c'.buf = items.flatten ++ rest ∧ c'.timeout = c.timeout ∧ Sound c' := by
  obtain ⟨h1, h2, -⟩ := query_asked (codes := [q.code]) (ns := ns) hs hd ha hc (by simp)
  obtain ⟨n, rest, ms, rfl, h3, h4, h5⟩ := h
  have hq := answered_query (ns := rest) (p := (blank q.auth q.code q.num q.size q.data).take c.size) hs.buf
    (by rw [ha]; exact request_plain hd) h3
  rw [hq] at h1 h2
  rw [h4, h5] at hq
  rw [h4] at h1 h2
  exact ⟨_, _, hq, rfl, h2.timeout, h1⟩

/-- What a daemon says about a peer. -/
structure Rec where
  summary : Summary
  stats : Stats
  info : Info

/-- The fields fit, and the three records are about the same host. -/
structure Rec.Good (r : Rec) : Prop where
  summary : r.summary.Fits
  stats : r.stats.Fits
  info : r.info.Fits
  stats_host : host r.stats.flag r.stats.src r.stats.src6 = host r.summary.flag r.summary.src r.summary.src6
  info_host : host r.info.flag r.info.src r.info.src6 = host r.summary.flag r.summary.src r.summary.src6

/-- What the user should be told about it. -/
def Rec.peer (r : Rec) : Peer :=
  { r.summary.peer ((r.info.disp : Rat) / 65536 * 1000000000) with sent := r.stats.sent, received := r.stats.processed }

/-- The question about a peer (lines 1422-1430 and 1455-1463): code 3 for statistics, 2 for
information. -/
def about (code req : Nat) (a : Addr) : Ask := { code := code, num := 1, size := 32, data := listData a, req := req }

/-- The daemon answers the questions about these peers. -/
def Told (c : Client) : List Rec → List (List Net) → List (List Net) → Prop
  | [], qs, rest => qs = rest
  | r :: rs, qs, rest => ∃ n1 n2 tl, qs = n1 :: n2 :: tl ∧
      Tells c (about 3 120 (host r.summary.flag r.summary.src r.summary.src6)) n1 [r.stats.bytes] ∧
      Tells c (about 2 280 (host r.summary.flag r.summary.src r.summary.src6)) n2 [r.info.bytes] ∧ Told c rs tl rest

theorem Told.congr {c c' : Client} (ht : c'.timeout = c.timeout) : ∀ {rs : List Rec} {qs rest : List (List Net)}, Told c rs qs rest → Told c' rs qs rest
  | [], _, _, h => h
  | _ :: _, _, _, ⟨n1, n2, tl, h1, h2, h3, h4⟩ => ⟨n1, n2, tl, h1, h2.congr ht, h3.congr ht, Told.congr ht h4⟩

theorem host_short (f v : Nat) {v6 : List Nat} (h : v6.length = 16) : (host f v v6).Short := by
  unfold host
  split <;> simp [Addr.Short, w32, h]

theorem about_short {code req f v : Nat} {v6 : List Nat} (h : v6.length = 16) : (about code req (host f v v6)).data.length ≤ 200 :=
  Nat.le_trans (listData_length (host_short f v h)) (by omega)

/-- One entry of the second loop, when the daemon answers. -/
theorem details_one {name : Addr → Int} {k i : Nat} {rc : Int} {t : Table} {n1 n2 : List Net} {tl : List (List Net)} {r : Rec} {d : Rat}
    (hs : Sound t.client) (hg : r.Good) (hp : t.peers[i]? = some (r.summary.peer d))
    (h1 : Tells t.client (about 3 120 (host r.summary.flag r.summary.src r.summary.src6)) n1 [r.stats.bytes])
    (h2 : Tells t.client (about 2 280 (host r.summary.flag r.summary.src r.summary.src6)) n2 [r.info.bytes]) :
    ∃ c', c'.timeout = t.client.timeout ∧ Sound c' ∧
      details name (k + 1) i rc t (n1 :: n2 :: tl) =
        details name k (i + 1) (name (host r.summary.flag r.summary.src r.summary.src6))
          { t with peers := t.peers.set i r.peer, client := c' } tl := by
  obtain ⟨c1, b1, q1, e1, t1, s1⟩ := query_tells hs (about_short hg.summary.src6) rfl (by simp [about]) h1
  obtain ⟨c2, b2, q2, e2, t2, s2⟩ := query_tells s1 (about_short hg.summary.src6) rfl (by simp [about]) (h2.congr t1)
  refine ⟨c2, t2.trans t1, s2, ?_⟩
  simp only [List.flatten_cons, List.flatten_nil, List.append_nil] at e1 e2
  obtain ⟨x1, x2, x3⟩ := Stats.address hg.stats b1
  obtain ⟨y1, y2⟩ := Info.address hg.info b2
  rw [← e1] at x1 x2 x3
  rw [← e2] at y1 y2
  have m1 : sameHost (host r.summary.flag r.summary.src r.summary.src6) c1.buf 80 4 104 = .ok true := sameHost_self (x1.trans hg.stats_host)
  have m2 : infoMatches (host r.summary.flag r.summary.src r.summary.src6) c2.buf = .ok true := by
    unfold infoMatches
    split
    · exact sameHost_self (y1.trans hg.info_host)
    · rfl
  have hr : (r.summary.peer d).remote = host r.summary.flag r.summary.src r.summary.src6 := rfl
  unfold about at q1 q2
  rw [details]
  simp only [hp, hr, List.headD_cons, q1, m1, List.tail_cons, q2, m2, x2, x3, y2, List.set_set]
  congr 3
  unfold Rec.peer Summary.peer
  congr 1
  ring

/-- The second loop for peers about which the daemon answers. -/
theorem details_told {name : Addr → Int} (hname : ∀ a, name a = 0) {k : Nat} : ∀ (rs : List Rec) (i : Nat) (t : Table) (qs rest : List (List Net)),
    Sound t.client → (∀ r ∈ rs, r.Good) → (∀ (j : Nat) (r : Rec), rs[j]? = some r → ∃ d, t.peers[i + j]? = some (r.summary.peer d)) → Told t.client rs qs rest →
    ∃ ps c', c'.timeout = t.client.timeout ∧ Sound c' ∧ ps.length = t.peers.length ∧
      (∀ (j : Nat) (r : Rec), rs[j]? = some r → ps[i + j]? = some r.peer) ∧ (∀ j, (j < i ∨ i + rs.length ≤ j) → ps[j]? = t.peers[j]?) ∧
      details name (rs.length + k) i 0 t qs = details name k (i + rs.length) 0 { t with peers := ps, client := c' } rest
  | [], i, t, qs, rest, hs, hg, hp, ht => by
    simp only [Told] at ht
    subst ht
    exact ⟨t.peers, t.client, rfl, hs, rfl, by simp, by simp, by simp⟩
  | r :: rs, i, t, qs, rest, hs, hg, hp, ht => by
    obtain ⟨n1, n2, tl, rfl, h1, h2, h3⟩ := ht
    obtain ⟨d, hd⟩ := hp 0 r rfl
    rw [Nat.add_zero] at hd
    obtain ⟨c1, t1, s1, e1⟩ := details_one (name := name) (k := rs.length + k) (rc := 0) (tl := tl) hs (hg r (by simp)) hd h1 h2
    have hlt : i < t.peers.length := by
      have := (List.getElem?_eq_some_iff.1 hd).1
      omega
    obtain ⟨ps, c', t2, s2, l2, a2, b2, e2⟩ := details_told hname (k := k) rs (i + 1) { t with peers := t.peers.set i r.peer, client := c1 } tl rest s1
      (fun x hx => hg x (by simp [hx]))
      (fun j x hx => by
        obtain ⟨d', hd'⟩ := hp (j + 1) x (by simpa using hx)
        refine ⟨d', ?_⟩
        simp only
        rw [List.getElem?_set_ne (by omega), ← hd']
        congr 1; omega)
      (h3.congr t1)
    refine ⟨ps, c', t2.trans t1, s2, by simpa using l2, ?_, ?_, ?_⟩
    · intro j x hx
      cases j with
      | zero =>
        simp only [List.getElem?_cons_zero, Option.some.injEq] at hx
        subst hx
        rw [b2 _ (by omega)]
        simp [hlt]
      | succ j =>
        rw [← a2 j x (by simpa using hx)]
        congr 1; omega
    · intro j hj
      rw [b2 j (by simp only [List.length_cons] at hj; omega)]
      simp only
      rw [List.getElem?_set_ne (by simp only [List.length_cons] at hj; omega)]
    · have : (r :: rs).length + k = rs.length + k + 1 := by simp; omega
      rw [this, e1, hname, e2]
      congr 1
      simp; omega

theorem part_flatten {α : Type} (f : α → List Nat) : ∀ (xs : List α) (j : Nat) (x : α) (rest : List Nat), (∀ x ∈ xs, (f x).length = 72) → xs[j]? = some x →
    part ((xs.map f).flatten ++ rest) (j * 72) 72 = f x
  | [], j, x, rest, h, hj => by simp at hj
  | y :: ys, 0, x, rest, h, hj => by
    simp only [List.getElem?_cons_zero, Option.some.injEq] at hj
    subst hj
    have := h y (by simp)
    simp [part, ← this]
  | y :: ys, j + 1, x, rest, h, hj => by
    have ih := part_flatten f ys j x rest (fun x hx => h x (by simp [hx])) (by simpa using hj)
    rw [← ih]
    unfold part
    have hy := h y (by simp)
    simp only [List.map_cons, List.flatten_cons, List.append_assoc]
    rw [show (j + 1) * 72 = (f y).length + j * 72 by omega, ← List.drop_drop, List.drop_left]

/-- After the first query, when the daemon tells the summaries. -/
theorem filled {rs : List Rec} {t : Table} {rest : List Nat} (hw : Whole t) (hk : rs.length ≤ 32) (hg : ∀ r ∈ rs, r.summary.Fits)
    (hb : t.client.buf = (rs.map (·.summary.bytes)).flatten ++ rest) :
    ∃ ps, fill t.client.buf rs.length 0 t.peers = .ok ps ∧ ps.length = 32 ∧
      (∀ (j : Nat) (r : Rec), rs[j]? = some r → ∃ p, t.peers[j]? = some p ∧ ps[j]? = some (r.summary.peer p.disp)) ∧
      (∀ j, rs.length ≤ j → ps[j]? = t.peers[j]?) := by
  obtain ⟨ps, h1, h2, -, h4, h5⟩ := fill_ok hw.client.buf rs.length 0 t.peers (by rw [hw.peers]; omega) (by omega) hw.short
  refine ⟨ps, h1, by rw [h2, hw.peers], ?_, fun j hj => h4 j (by omega)⟩
  intro j r hr
  have hj := (List.getElem?_eq_some_iff.1 hr).1
  obtain ⟨p, e1, e2⟩ := h5 j (by omega) (by omega)
  refine ⟨p, e1, ?_⟩
  rw [e2, hb, part_flatten (fun r => r.summary.bytes) rs j r rest (fun x hx => Summary.bytes_length (hg x hx)) hr]
  have := fromSummary_bytes (hg r (List.mem_of_getElem? hr)) p []
  rw [List.append_nil] at this
  rw [this]

/-- Up to and including the peers about which the daemon answers. -/
theorem getPeers_told {name : Addr → Int} (hname : ∀ a, name a = 0) {t : Table} {rs ss : List Rec} {n0 : List Net} {qs rest : List (List Net)} (hw : Whole t)
    (hk : (rs ++ ss).length ≤ 32) (hg : ∀ r ∈ rs, r.Good) (hg' : ∀ r ∈ ss, r.summary.Fits)
    (h0 : Tells t.client { code := 1, req := 72 } n0 ((rs ++ ss).map (·.summary.bytes))) (ht : Told t.client rs qs rest) :
    ∃ ps c', Sound c' ∧ c'.timeout = t.client.timeout ∧ ps.length = 32 ∧ (∀ (j : Nat) (r : Rec), rs[j]? = some r → ps[j]? = some r.peer) ∧
      (∀ (j : Nat) (r : Rec), ss[j]? = some r → ∃ p, t.peers[rs.length + j]? = some p ∧ ps[rs.length + j]? = some (r.summary.peer p.disp)) ∧
      (∀ j, (rs ++ ss).length ≤ j → ps[j]? = t.peers[j]?) ∧
      getPeers name t (n0 :: qs) = details name ss.length rs.length 0 { peers := ps, num := (rs ++ ss).length, client := c' } rest := by
  obtain ⟨c1, b1, q1, e1, t1, s1⟩ := query_tells hw.client (by simp) rfl (by simp) h0
  have hg2 : ∀ r ∈ rs ++ ss, r.summary.Fits := by
    intro r hr
    rcases List.mem_append.1 hr with hr | hr
    · exact (hg r hr).summary
    · exact hg' r hr
  obtain ⟨ps, f1, f2, f3, f4⟩ := filled (rs := rs ++ ss) (t := { t with client := c1 }) ⟨s1, hw.peers, hw.short⟩ hk hg2 e1
  obtain ⟨ps2, c2, t2, s2, l2, a2, a3, e2⟩ := details_told hname (k := ss.length) rs 0 { peers := ps, num := (rs ++ ss).length, client := c1 } qs rest s1 hg
    (fun j r hr => by
      obtain ⟨p, -, hp⟩ := f3 j r (by rw [List.getElem?_append_left (List.getElem?_eq_some_iff.1 hr).1]; exact hr)
      exact ⟨p.disp, by simpa using hp⟩)
    (ht.congr t1)
  refine ⟨ps2, c2, s2, t2.trans t1, by simpa [f2] using l2, fun j r hr => by simpa using a2 j r hr, ?_, ?_, ?_⟩
  · intro j r hr
    obtain ⟨p, h1, h2⟩ := f3 (rs.length + j) r (by rw [List.getElem?_append_right (by omega)]; simpa using hr)
    exact ⟨p, h1, by rw [a3 _ (by omega)]; exact h2⟩
  · intro j hj
    rw [a3 j (by rw [List.length_append] at hj; omega)]
    exact f4 j hj
  · unfold getPeers
    simp only [List.headD_cons, q1, List.length_map, List.tail_cons]
    unfold withItems
    simp only
    rw [if_neg (by omega), f1]
    simp only
    rw [List.length_append] at e2 ⊢
    rw [e2]
    simp

/-- The second loop does not change the number of peers. -/
theorem details_num (name : Addr → Int) : ∀ (k i : Nat) (rc rc' : Int) (t t' : Table) (qs : List (List Net)),
    details name k i rc t qs = .ok (rc', t') → t'.num = t.num
  | 0, i, rc, rc', t, t', qs, h => by
    simp only [details, Except.ok.injEq, Prod.mk.injEq] at h
    rw [← h.2]
  | k + 1, i, rc, rc', t, t', qs, h => by
    rw [details] at h
    split at h
    · simp at h
    · split at h
      · simp at h
      · split at h
        · have := details_num name k _ _ _ _ _ _ h; exact this
        · simp only [Except.ok.injEq, Prod.mk.injEq] at h; rw [← h.2]
      · split at h
        · simp at h
        · simp only [Except.ok.injEq, Prod.mk.injEq] at h; rw [← h.2]
        · simp only at h
          split at h
          · simp at h
          · simp only [Except.ok.injEq, Prod.mk.injEq] at h; rw [← h.2]
          · split at h
            · simp at h
            · simp only [Except.ok.injEq, Prod.mk.injEq] at h; rw [← h.2]
            · have := details_num name k _ _ _ _ _ _ h; exact this

end Verif.Ntp7
