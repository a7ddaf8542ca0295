import Verif.Ntp7.Whole

/-!
# What the functions of the mode 7 client can do, whatever arrives
-/

set_option linter.unusedSimpArgs false
set_option linter.unusedVariables false

namespace Verif.Ntp7

/-- The number of bytes of an address is at most that of its kind. -/
def Addr.Short : Addr → Prop
  | .v4 x => x.length ≤ 4
  | .v6 x => x.length ≤ 16

theorem listData_length {a : Addr} (h : a.Short) : (listData a).length ≤ 32 := by
  cases a with
  | v4 x => simp only [Addr.Short] at h; simp [listData]; omega
  | v6 x => simp only [Addr.Short] at h; simp [listData]; omega

theorem address_short (b : List Nat) (f a4 a6 : Nat) : (address b f a4 a6).Short := by
  unfold address
  split <;> simp [Addr.Short, part]

/-- A datagram that only asks: no authentication, and a code of those that read. -/
def Reading (codes : List Nat) (p : List Nat) : Prop := ∃ code rest, code ∈ codes ∧ p = 23 :: 0 :: 3 :: code :: rest

theorem built_reading {digest : List Nat → List Nat} {q : Ask} {p : List Nat} {codes : List Nat} (h : Built.For digest q p)
    (ha : q.auth = false) (hc : q.code < 256) (hm : q.code ∈ codes) : Reading codes p := by
  obtain ⟨now, len, hl, h⟩ := h
  unfold request at h
  split at h
  · simp at h
  · rw [ha] at h
    simp only [Bool.not_false, if_true, Built.packet.injEq] at h
    subst h
    obtain ⟨k, rfl⟩ : ∃ k, len = k + 4 := ⟨len - 4, by omega⟩
    obtain ⟨rest, hr⟩ : ∃ rest, blank false q.code q.num q.size q.data = 23 :: 0 :: 3 :: q.code :: rest := by
      simp only [blank, header, List.cons_append, List.nil_append, Bool.false_eq_true, if_false]
      rw [Nat.mod_eq_of_lt hc]
      exact ⟨_, rfl⟩
    refine ⟨q.code, rest.take k, hm, ?_⟩
    rw [hr]
    rfl

/-- The table of peers and the client between calls. -/
structure Whole (t : Table) : Prop where
  client : Sound t.client
  peers : t.peers.length = 32
  short : ∀ p ∈ t.peers, p.remote.Short

/-- What may have changed in the client: at most `k` datagrams more than retries, all of them
questions. -/
structure Asked (codes : List Nat) (c c' : Client) (k : Nat) : Prop where
  key : c'.key = c.key
  timeout : c'.timeout = c.timeout
  digest : c'.digest = c.digest
  legacy : c.legacy ≤ c'.legacy
  out : ∃ new, c'.out = c.out ++ new ∧ new.length + c.legacy ≤ k + c'.legacy ∧ ∀ p ∈ new, Reading codes p

theorem Asked.refl (codes : List Nat) (c : Client) : Asked codes c c 0 :=
  ⟨rfl, rfl, rfl, Nat.le_refl _, [], by simp, by simp, by simp⟩

theorem Asked.trans {codes : List Nat} {a b c : Client} {j k : Nat} (h : Asked codes a b j) (g : Asked codes b c k) : Asked codes a c (j + k) := by
  obtain ⟨n1, o1, o2, o3⟩ := h.out
  obtain ⟨n2, o4, o5, o6⟩ := g.out
  refine ⟨g.key.trans h.key, g.timeout.trans h.timeout, g.digest.trans h.digest, Nat.le_trans h.legacy g.legacy, n1 ++ n2, ?_, ?_, ?_⟩
  · rw [o4, o1]; simp
  · simp; omega
  · intro p hp
    rcases List.mem_append.1 hp with hp | hp
    · exact o3 p hp
    · exact o6 p hp

theorem Asked.mono {codes : List Nat} {a b : Client} {j k : Nat} (h : Asked codes a b j) (hk : j ≤ k) : Asked codes a b k := by
  obtain ⟨n1, o1, o2, o3⟩ := h.out
  exact ⟨h.key, h.timeout, h.digest, h.legacy, n1, o1, by omega, o3⟩

/-- A question without authentication. -/
theorem query_asked {codes : List Nat} {q : Ask} {c : Client} {ns : List Net} (hs : Sound c) (hd : q.data.length ≤ 200) (ha : q.auth = false)
    (hc : q.code < 256) (hm : q.code ∈ codes) :
    Sound (query c ns q).2 ∧ Asked codes c (query c ns q).2 1 ∧
      (∀ f, (query c ns q).1 = .fault f → f = .table ∧ BadCode q.code ns) := by
  obtain ⟨⟨k, st⟩, hf⟩ := query_step (ns := ns) hd hs
  obtain ⟨new, o1, o2, o3⟩ := st.out
  have hl := st.legacy
  exact ⟨st.sound, ⟨st.key, st.timeout, st.digest, by omega, new, o1, by omega, fun p hp => built_reading (o3 p hp) ha hc hm⟩, hf⟩

theorem set_short {ps : List Peer} {i : Nat} {p : Peer} (h : ∀ p ∈ ps, p.remote.Short) (hp : p.remote.Short) :
    ∀ x ∈ ps.set i p, x.remote.Short := by
  intro x hx
  rcases List.mem_or_eq_of_mem_set hx with hx | rfl
  · exact h x hx
  · exact hp

theorem fill_ok {buf : List Nat} (hb : buf.length = 4096) : ∀ (n i : Nat) (ps : List Peer), i + n ≤ ps.length → i + n ≤ 32 →
    (∀ p ∈ ps, p.remote.Short) →
    ∃ ps', fill buf n i ps = .ok ps' ∧ ps'.length = ps.length ∧ (∀ p ∈ ps', p.remote.Short) ∧
      (∀ j, (j < i ∨ i + n ≤ j) → ps'[j]? = ps[j]?) ∧
      (∀ j, i ≤ j → j < i + n → ∃ p, ps[j]? = some p ∧ ps'[j]? = some (fromSummary (part buf (j * 72) 72) p))
  | 0, i, ps, _, _, hs => ⟨ps, rfl, rfl, hs, fun _ _ => rfl, fun j h1 h2 => by omega⟩
  | n + 1, i, ps, h1, h2, hs => by
    unfold fill
    have hi : i < ps.length := by omega
    rw [List.getElem?_eq_getElem hi]
    simp only
    rw [if_neg (by omega)]
    set p' := fromSummary (part buf (i * 72) 72) ps[i] with hp'
    obtain ⟨ps', g1, g2, g3, g4, g5⟩ := fill_ok hb n (i + 1) (ps.set i p') (by simp; omega) (by omega)
      (set_short hs (by rw [hp']; exact address_short _ _ _ _))
    refine ⟨ps', g1, by simpa using g2, g3, ?_, ?_⟩
    · intro j hj
      rw [g4 j (by omega), List.getElem?_set_ne (by omega)]
    · intro j hj1 hj2
      by_cases hji : j = i
      · subst hji
        refine ⟨ps[j], List.getElem?_eq_getElem hi, ?_⟩
        rw [g4 j (by omega), List.getElem?_set_self hi]
      · obtain ⟨p, e1, e2⟩ := g5 j (by omega) (by omega)
        exact ⟨p, by rw [List.getElem?_set_ne (by omega)] at e1; exact e1, e2⟩

theorem sameHost_fault {a : Addr} {b : List Nat} {x y z : Nat} {f : Fault} (h : sameHost a b x y z = .error f) : f = .overflow := by
  unfold sameHost at h
  split at h
  · cases a <;> simp at h
  · cases a with
    | v6 _ => simp at h
    | v4 _ =>
      simp only at h
      split at h
      · simpa using h.symm
      · simp at h

theorem infoMatches_fault {a : Addr} {b : List Nat} {f : Fault} (h : infoMatches a b = .error f) : f = .overflow := by
  unfold infoMatches at h
  split at h
  · exact sameHost_fault h
  · simp at h

/-- The faults that remain. -/
def Known (qs : List (List Net)) (f : Fault) : Prop :=
  f = .overflow ∨ (f = .table ∧ ∃ ns ∈ qs, ∃ code, BadCode code ns)

theorem Known.tail {qs : List (List Net)} {f : Fault} (h : Known qs.tail f) : Known qs f := by
  rcases h with h | ⟨h, ns, h1, h2⟩
  · exact Or.inl h
  · exact Or.inr ⟨h, ns, List.mem_of_mem_tail h1, h2⟩

theorem known_head {qs : List (List Net)} {f : Fault} {code : Nat} (h : f = .table ∧ BadCode code (qs.headD [])) : Known qs f := by
  cases qs with
  | nil => obtain ⟨n, hn, -⟩ := h.2; exact absurd hn List.not_mem_nil
  | cons ns qs => exact Or.inr ⟨h.1, ns, by simp, code, h.2⟩

theorem details_safe (name : Addr → Int) : ∀ (k i : Nat) (rc : Int) (t : Table) (qs : List (List Net)), Whole t → i + k ≤ 32 →
    (∀ f, details name k i rc t qs = .error f → Known qs f) ∧
    (∀ rc' t', details name k i rc t qs = .ok (rc', t') → Whole t' ∧ t'.num = t.num ∧ Asked [2, 3] t.client t'.client (2 * k))
  | 0, i, rc, t, qs, hw, _ => by
    refine ⟨fun f h => by simp [details] at h, ?_⟩
    intro rc' t' h
    simp only [details, Except.ok.injEq, Prod.mk.injEq] at h
    obtain ⟨-, rfl⟩ := h
    exact ⟨hw, rfl, Asked.refl _ _⟩
  | k + 1, i, rc, t, qs, hw, hi => by
    have hil : i < t.peers.length := by rw [hw.peers]; omega
    unfold details
    rw [List.getElem?_eq_getElem hil]
    simp only
    have hsh : t.peers[i].remote.Short := hw.short _ (List.getElem_mem hil)
    have hdat := listData_length hsh
    obtain ⟨q1, q2, q3⟩ := query_asked (codes := [2, 3]) (ns := qs.headD []) (q := { code := 3, num := 1, size := 32, data := listData t.peers[i].remote, req := 120 }) hw.client
      (by show (listData _).length ≤ 200; omega) rfl (by simp) (by simp)
    rcases hq : query t.client (qs.headD []) { code := 3, num := 1, size := 32, data := listData t.peers[i].remote, req := 120 } with ⟨r, c⟩
    rw [hq] at q1 q2 q3
    simp only at q1 q2 q3 ⊢
    cases r with
    | fault f =>
      refine ⟨?_, fun rc' t' h => by simp at h⟩
      intro f' h
      simp only [Except.error.injEq] at h
      subst h
      exact known_head (q3 f rfl)
    | rc e =>
      simp only
      by_cases he : e = 61
      · rw [if_pos he]
        obtain ⟨d1, d2⟩ := details_safe name k (i + 1) 0 { t with client := c } qs.tail ⟨q1, hw.peers, hw.short⟩ (by omega)
        refine ⟨fun f h => (d1 f h).tail, ?_⟩
        intro rc' t' h
        obtain ⟨w, w1, w2⟩ := d2 rc' t' h
        exact ⟨w, w1, (q2.trans w2).mono (by omega)⟩
      · rw [if_neg he]
        refine ⟨fun f h => by simp at h, ?_⟩
        intro rc' t' h
        simp only [Except.ok.injEq, Prod.mk.injEq] at h
        obtain ⟨-, rfl⟩ := h
        exact ⟨⟨q1, hw.peers, hw.short⟩, rfl, q2.mono (by omega)⟩
    | ok n =>
      simp only
      cases hsame : sameHost t.peers[i].remote c.buf 80 4 104 with
      | error f =>
        refine ⟨?_, fun rc' t' h => by simp at h⟩
        intro f' h
        simp only [Except.error.injEq] at h
        subst h
        exact Or.inl (sameHost_fault hsame)
      | ok same =>
        cases same with
        | false =>
          refine ⟨fun f h => by simp at h, ?_⟩
          intro rc' t' h
          simp only [Except.ok.injEq, Prod.mk.injEq] at h
          obtain ⟨-, rfl⟩ := h
          exact ⟨⟨q1, hw.peers, hw.short⟩, rfl, q2.mono (by omega)⟩
        | true =>
          simp only
          obtain ⟨q4, q5, q6⟩ := query_asked (codes := [2, 3]) (ns := qs.tail.headD []) (q := { code := 2, num := 1, size := 32, data := listData t.peers[i].remote, req := 280 }) q1
            (by show (listData _).length ≤ 200; omega) rfl (by simp) (by simp)
          rcases hq2 : query c (qs.tail.headD []) { code := 2, num := 1, size := 32, data := listData t.peers[i].remote, req := 280 } with ⟨r2, c2⟩
          rw [hq2] at q4 q5 q6
          simp only at q4 q5 q6 ⊢
          have hw2 : ∀ x : Peer, x.remote = t.peers[i].remote → ∀ y ∈ t.peers.set i x, y.remote.Short := by
            intro x hx
            exact set_short hw.short (by rw [hx]; exact hsh)
          cases r2 with
          | fault f =>
            refine ⟨?_, fun rc' t' h => by simp at h⟩
            intro f' h
            simp only [Except.error.injEq] at h
            subst h
            exact (known_head (q6 f rfl)).tail
          | rc e =>
            refine ⟨fun f h => by simp at h, ?_⟩
            intro rc' t' h
            simp only [Except.ok.injEq, Prod.mk.injEq] at h
            obtain ⟨-, rfl⟩ := h
            exact ⟨⟨q4, by simpa using hw.peers, hw2 _ rfl⟩, rfl, (q2.trans q5).mono (by omega)⟩
          | ok n2 =>
            simp only
            cases hinf : infoMatches t.peers[i].remote c2.buf with
            | error f =>
              refine ⟨?_, fun rc' t' h => by simp at h⟩
              intro f' h
              simp only [Except.error.injEq] at h
              subst h
              exact Or.inl (infoMatches_fault hinf)
            | ok m =>
              cases m with
              | false =>
                refine ⟨fun f h => by simp at h, ?_⟩
                intro rc' t' h
                simp only [Except.ok.injEq, Prod.mk.injEq] at h
                obtain ⟨-, rfl⟩ := h
                exact ⟨⟨q4, by simpa using hw.peers, hw2 _ rfl⟩, rfl, (q2.trans q5).mono (by omega)⟩
              | true =>
                simp only
                obtain ⟨d1, d2⟩ := details_safe name k (i + 1) (name t.peers[i].remote)
                  { t with peers := (t.peers.set i { t.peers[i] with sent := u32 c.buf 28, received := u32 c.buf 36 }).set i { t.peers[i] with sent := u32 c.buf 28, received := u32 c.buf 36, disp := (u32 c2.buf 48 : Rat) * 1000000000 / 65536 }, client := c2 } qs.tail.tail
                  ⟨q4, by simpa using hw.peers, set_short (hw2 _ rfl) hsh⟩ (by omega)
                refine ⟨fun f h => (d1 f h).tail.tail, ?_⟩
                intro rc' t' h
                obtain ⟨w, w1, w2⟩ := d2 rc' t' h
                exact ⟨w, w1, ((q2.trans q5).trans w2).mono (by omega)⟩

theorem Asked.sub {codes codes' : List Nat} {a b : Client} {k : Nat} (h : Asked codes a b k) (hc : ∀ x ∈ codes, x ∈ codes') : Asked codes' a b k := by
  obtain ⟨n1, o1, o2, o3⟩ := h.out
  refine ⟨h.key, h.timeout, h.digest, h.legacy, n1, o1, o2, ?_⟩
  intro p hp
  obtain ⟨c, r, h1, h2⟩ := o3 p hp
  exact ⟨c, r, hc c h1, h2⟩

theorem withItems_safe (name : Addr → Int) (t : Table) (num : Nat) (qs : List (List Net)) (hw : Whole t) :
    (∀ f, withItems name t num qs = .error f → Known qs f) ∧
    (∀ rc' t', withItems name t num qs = .ok (rc', t') → Whole t' ∧ t'.num = min num 32 ∧ Asked [2, 3] t.client t'.client (2 * min num 32)) := by
  have hn : (if 32 < num then 32 else num) = min num 32 := by split <;> omega
  unfold withItems
  simp only [hn]
  obtain ⟨ps', g1, g2, g3, -, -⟩ := fill_ok hw.client.buf (min num 32) 0 t.peers (by rw [hw.peers]; omega) (by omega) hw.short
  rw [g1]
  simp only
  exact details_safe name (min num 32) 0 0 { t with peers := ps', num := min num 32 } qs ⟨hw.client, g2.trans hw.peers, g3⟩ (by omega)

theorem getPeers_safe (name : Addr → Int) (t : Table) (qs : List (List Net)) (hw : Whole t) :
    (∀ f, getPeers name t qs = .error f → Known qs f) ∧
    (∀ rc' t', getPeers name t qs = .ok (rc', t') → Whole t' ∧ (t'.num = t.num ∨ t'.num ≤ 32) ∧ Asked [1, 2, 3] t.client t'.client 65) := by
  unfold getPeers
  obtain ⟨q1, q2, q3⟩ := query_asked (codes := [1, 2, 3]) (ns := qs.headD []) (q := { code := 1, req := 72 }) hw.client (by simp) rfl (by simp) (by simp)
  rcases hq : query t.client (qs.headD []) { code := 1, req := 72 } with ⟨r, c⟩
  rw [hq] at q1 q2 q3
  have hw' : Whole { t with client := c } := ⟨q1, hw.peers, hw.short⟩
  cases r with
  | fault f =>
    refine ⟨?_, fun rc' t' h => by simp at h⟩
    intro f' h
    simp only [Except.error.injEq] at h
    subst h
    exact known_head (q3 f rfl)
  | ok n =>
    simp only
    obtain ⟨d1, d2⟩ := withItems_safe name { t with client := c } n qs.tail hw'
    refine ⟨fun f h => (d1 f h).tail, ?_⟩
    intro rc' t' h
    obtain ⟨w, w1, w2⟩ := d2 rc' t' h
    exact ⟨w, Or.inr (by omega), (q2.trans (w2.sub (by simp))).mono (by omega)⟩
  | rc e =>
    simp only
    by_cases he : e = 61
    · rw [if_pos he]
      obtain ⟨d1, d2⟩ := withItems_safe name { t with client := c } 0 qs.tail hw'
      refine ⟨fun f h => (d1 f h).tail, ?_⟩
      intro rc' t' h
      obtain ⟨w, w1, w2⟩ := d2 rc' t' h
      exact ⟨w, Or.inr (by omega), (q2.trans (w2.sub (by simp))).mono (by omega)⟩
    · rw [if_neg he]
      refine ⟨fun f h => by simp at h, ?_⟩
      intro rc' t' h
      simp only [Except.ok.injEq, Prod.mk.injEq] at h
      obtain ⟨-, rfl⟩ := h
      exact ⟨hw', Or.inl rfl, q2.mono (by omega)⟩

end Verif.Ntp7
