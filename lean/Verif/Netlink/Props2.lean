import Verif.Netlink.Props

set_option linter.unusedSimpArgs false
set_option linter.unusedVariables false

/-! Properties of the replies and queries. -/

namespace Verif.Netlink

/-! ### Bitsets -/

/-- Whether a bitset of a size fits a payload of a number of bytes: whole words of 32 bits. -/
def Fits (size len : Nat) : Prop := ∃ words, size ≤ 32 * words ∧ 4 * words ≤ len

/-- C268 in full: reading a bitset never goes outside its payload. -/
def C268_statement : Prop :=
  ∀ b : Bitset, (∀ p, b.value = some p → p.length < 65536) → bitset32 b ≠ .error .oob

/-- A size near the largest makes the rounding wrap round to zero, so that an empty payload is taken
to be long enough. -/
theorem C268_violated : ¬ C268_statement := by
  intro h
  exact h { size := some 0xffffffff, value := some [] } (by simp) (by decide)

theorem round32 (x : BitVec 32) : (x &&& ~~~(0x1f : BitVec 32)).toNat = x.toNat / 32 * 32 := by
  have e : x &&& ~~~(0x1f : BitVec 32) = (x >>> 5) <<< 5 := by
    apply BitVec.eq_of_getLsbD_eq
    intro i hi
    have h31 : (0x1f : BitVec 32).getLsbD i = decide (i < 5) := by
      revert i; decide
    simp only [BitVec.getLsbD_and, BitVec.getLsbD_not, h31, BitVec.getLsbD_shiftLeft,
      BitVec.getLsbD_ushiftRight, hi, decide_true, Bool.true_and]
    by_cases h5 : i < 5
    · simp [h5]
    · have : 5 + (i - 5) = i := by omega
      simp [h5, this]
  rw [e]
  simp only [BitVec.toNat_shiftLeft, BitVec.toNat_ushiftRight, Nat.shiftLeft_eq, Nat.shiftRight_eq_div_pow]
  have := x.isLt
  omega

theorem u32_some (p : List Nat) (h : 4 ≤ p.length) :
    ∃ a b c d rest, p = a :: b :: c :: d :: rest ∧
      u32 p = some (BitVec.ofNat 32 (a + 256 * b + 65536 * c + 16777216 * d)) := by
  match p, h with
  | a :: b :: c :: d :: rest, _ => exact ⟨a, b, c, d, rest, rfl, rfl⟩

/-- C268: it does not unless the size is within 31 of the largest; the first word is read when the
payload holds the words the size calls for, and the two kinds of failure are told apart. -/
theorem C268_bitset_read_partial (size : BitVec 32) (p : List Nat) (hs : size.toNat ≤ 4294967264)
    (hp : p.length < 65536) :
    (¬ Fits size.toNat p.length → bitset32 { size := some size, value := some p } = .ok (.inr 7)) ∧
    (size = 0 → bitset32 { size := some size, value := some p } = .ok (.inr 2)) ∧
    (∀ v rest, p = leBytes v ++ rest → v < 4294967296 → size ≠ 0 → Fits size.toNat p.length →
      bitset32 { size := some size, value := some p } = .ok (.inl v)) ∧
    bitset32 { size := some size, value := some p } ≠ .error .oob := by
  have hlen : (BitVec.ofNat 32 p.length * 8).toNat = p.length * 8 := by
    have e8 : (8 : BitVec 32).toNat = 8 := rfl
    simp only [BitVec.toNat_mul, BitVec.toNat_ofNat, e8]
    omega
  have hsz : ((size + 31) &&& ~~~(0x1f : BitVec 32)).toNat = (size.toNat + 31) / 32 * 32 := by
    rw [round32]
    have e31 : (31 : BitVec 32).toNat = 31 := rfl
    simp only [BitVec.toNat_add, e31]
    omega
  have hfit : (BitVec.ofNat 32 p.length * 8 < ((size + 31) &&& ~~~(0x1f : BitVec 32))) ↔
      ¬ Fits size.toNat p.length := by
    rw [BitVec.lt_def, hlen, hsz]
    constructor
    · rintro h ⟨w, h1, h2⟩; omega
    · intro h
      by_contra hc
      exact h ⟨(size.toNat + 31) / 32, by omega, by omega⟩
  have hz : size > 0 ↔ size ≠ 0 := by
    constructor
    · intro h h0; subst h0; exact absurd h (by decide)
    · intro h
      show (0 : BitVec 32) < size
      rw [BitVec.lt_def]
      have : size.toNat ≠ 0 := fun h0 => h (BitVec.eq_of_toNat_eq (by simpa using h0))
      simp; omega
  refine ⟨?_, ?_, ?_, ?_⟩
  · intro h
    simp only [bitset32, Option.getD_some, if_pos (hfit.2 h)]
  · intro h
    subst h
    have hf : Fits (0 : BitVec 32).toNat p.length := ⟨0, by simp, by simp⟩
    simp only [bitset32, Option.getD_some, if_neg (fun hx => hfit.1 hx hf)]
    rw [if_neg (by decide)]
  · intro v rest he hv hne hf
    simp only [bitset32, Option.getD_some, if_neg (fun hx => hfit.1 hx hf), if_pos (hz.2 hne)]
    rw [he]
    have e : v % 256 + 256 * (v / 256 % 256) + 65536 * (v / 65536 % 256) +
        16777216 * (v / 16777216 % 256) = v := by omega
    simp only [leBytes, List.cons_append, u32, e, BitVec.toNat_ofNat]
    rw [Nat.mod_eq_of_lt (by omega)]
  · simp only [bitset32, Option.getD_some]
    by_cases hf : Fits size.toNat p.length
    · rw [if_neg (fun hx => hfit.1 hx hf)]
      by_cases hne : size = 0
      · rw [if_neg (by rw [hz]; simpa using hne)]; simp
      · rw [if_pos (hz.2 hne)]
        obtain ⟨w, h1, h2⟩ := hf
        have : size.toNat ≠ 0 := fun h0 => hne (BitVec.eq_of_toNat_eq (by simpa using h0))
        obtain ⟨a, b, c, d, rest, _, hu⟩ := u32_some p (by omega)
        rw [hu]; simp
    · rw [if_pos (hfit.2 hf)]; simp

example : bitset32 { size := some 17, value := some [0x5f, 0, 0, 0] } = .ok (.inl 95) := by decide

/-! ### Driver statistics -/

/-- The index under which a text was last listed; minus one when it was not. -/
def lastIndex (k : String) (xs : List EString) : Int :=
  ((xs.filter (fun s => s.value = k)).getLast?.map (·.index)).getD (-1)

theorem strIds_spec (keys : List String) (hk : keys.Nodup) (hl : keys.length ≤ 16) (xs : List EString)
    (ids : List Int) (hi : ids.length = 16) :
    ∃ ids', strIds keys xs ids = .ok ids' ∧ ids'.length = 16 ∧
      ∀ (j : Nat) (hj : j < 16), ids'[j]? = some (match keys[j]? with
        | some k => ((xs.filter (fun s => s.value = k)).getLast?.map (·.index)).getD ids[j]
        | none => ids[j]) := by
  induction xs generalizing ids with
  | nil =>
      refine ⟨ids, rfl, hi, ?_⟩
      intro j hj
      cases hx : keys[j]? <;> simp [hx, hi, hj]
  | cons s xs ih =>
      unfold strIds
      dsimp only
      have key : ∀ k, ((s :: xs).filter (fun x => x.value = k)) =
          if s.value = k then s :: xs.filter (fun x => x.value = k) else xs.filter (fun x => x.value = k) := by
        intro k
        by_cases h : s.value = k <;> simp [h]
      by_cases h : keys.findIdx (fun k => k = s.value) = keys.length
      · rw [if_pos h]
        obtain ⟨ids', h1, h2, h3⟩ := ih ids hi
        refine ⟨ids', h1, h2, ?_⟩
        intro j hj
        rw [h3 j hj]
        cases hx : keys[j]? with
        | none => simp
        | some k =>
            have hne : s.value ≠ k := by
              intro he
              have hmem : k ∈ keys := List.mem_of_getElem? hx
              have := List.findIdx_lt_length_of_exists (p := fun k => decide (k = s.value)) ⟨k, hmem, by simp [he]⟩
              omega
            simp only [key k, if_neg hne]
      · rw [if_neg h]
        have hlt : keys.findIdx (fun k => decide (k = s.value)) < keys.length := by
          have := List.findIdx_le_length (p := fun k => decide (k = s.value)) (xs := keys)
          omega
        rw [if_pos (by omega)]
        obtain ⟨ids', h1, h2, h3⟩ := ih (ids.set (keys.findIdx (fun k => decide (k = s.value))) s.index)
          (by simpa using hi)
        refine ⟨ids', h1, h2, ?_⟩
        intro j hj
        rw [h3 j hj]
        have hval : keys[keys.findIdx (fun k => decide (k = s.value))] = s.value := by
          have := List.findIdx_getElem (p := fun k => decide (k = s.value)) (xs := keys) (w := hlt)
          simpa using this
        cases hx : keys[j]? with
        | none =>
            have : ¬ j < keys.length := by simpa using hx
            simp only [List.getElem_set]
            rw [if_neg (by omega)]
        | some k =>
            simp only [key k]
            obtain ⟨hjl, hjk⟩ := List.getElem?_eq_some_iff.1 hx
            by_cases hek : s.value = k
            · have hje : keys.findIdx (fun k => decide (k = s.value)) = j := by
                refine (List.Nodup.getElem_inj_iff hk (hi := hlt) (hj := hjl)).1 ?_
                rw [hval, hjk, hek]
              rw [if_pos hek]
              simp only [List.getElem_set, if_pos hje]
              cases hg : (xs.filter (fun x => decide (x.value = k))).getLast? with
              | none =>
                  rw [List.getLast?_eq_none_iff] at hg
                  simp [hg]
              | some y =>
                  rw [List.getLast?_cons]
                  simp [hg]
            · rw [if_neg hek]
              have hje : keys.findIdx (fun k => decide (k = s.value)) ≠ j := by
                intro he
                apply hek
                rw [← hval, ← hjk]
                simp only [he]
              simp only [List.getElem_set, if_neg hje]

theorem updRowM_map (i : Int) (f : Link → Except Fail Link) (g : Link → Link) (rows : List Link)
    (hn : (rows.map (·.idx)).Nodup) (hf : ∀ r ∈ rows, r.idx = i → f r = .ok (g r)) :
    updRowM i f rows = .ok (rows.map (fun r => if r.idx = i then g r else r)) := by
  induction rows with
  | nil => rfl
  | cons r rs ih =>
      rw [List.map_cons, List.nodup_cons] at hn
      unfold updRowM
      by_cases h : r.idx = i
      · rw [if_pos h, hf r (by simp) h]
        have : rs.map (fun r => if r.idx = i then g r else r) = rs := by
          conv => rhs; rw [← List.map_id rs]
          apply List.map_congr_left
          intro x hx
          rw [if_neg, id]
          intro hxi
          exact hn.1 (List.mem_map.2 ⟨x, hx, by rw [hxi, h]⟩)
        simp [bind, Except.bind, pure, Except.pure, h, this]
      · rw [if_neg h, ih hn.2 (fun x hx => hf x (by simp [hx]))]
        simp [bind, Except.bind, pure, Except.pure, h]

/-- C269: a list of driver statistics gives the row of its interface, and no other, the number of
statistics and for each configured key the index under which it was last listed, minus one if it was
not; no store goes outside the sixteen places. -/
theorem C269_driver_statistics (ok : SendOk) (w : Work) (i n : Int) (xs : List EString) (hw : w.Ok)
    (hk : w.keys.Nodup) (hne : w.keys ≠ []) (hl : w.keys.length ≤ 16) :
    ∃ ids w', ids.length = 16 ∧
      (∀ (j : Nat) (k : String), w.keys[j]? = some k → ids[j]? = some (lastIndex k xs)) ∧
      (∀ j : Nat, w.keys.length ≤ j → j < 16 → ids[j]? = some (-1)) ∧
      handle ok (.str { idx := some i, sets := some [{ id := some 1, count := some n, strings := some xs }] }) w =
        .ok (w', false) ∧
      w' = { w with rows := w.rows.map (fun r => if r.idx = i
        then { r with drvAll := n, drvIds := ids, drvState := .populated } else r) } := by
  obtain ⟨ids, h1, h2, h3⟩ := strIds_spec w.keys hk hl xs (List.replicate 16 (-1)) (by simp)
  refine ⟨ids, _, h2, ?_, ?_, ?_, rfl⟩
  · intro j k hjk
    have hj : j < 16 := by
      have := (List.getElem?_eq_some_iff.1 hjk).1
      omega
    rw [h3 j hj]
    simp only [hjk, List.getElem_replicate, lastIndex]
  · intro j hj hj16
    rw [h3 j hj16]
    have : w.keys[j]? = none := by simpa using hj
    simp only [this, List.getElem_replicate]
  · simp only [handle, handleStr]
    cases hks : w.keys with
    | nil => exact absurd hks hne
    | cons k ks =>
        rw [hks] at h1
        simp only [Option.getD_some]
        rw [updRowM_map i _ (fun r => { r with drvAll := n, drvIds := ids, drvState := .populated })
          w.rows hw.nodup]
        · rfl
        · intro r _ _
          simp only [strApply, h1, bind, Except.bind]

def statSet : EStrSet :=
  { id := some 1, count := some 2, strings := some [⟨0, "rx_ok"⟩, ⟨1, "pps_in"⟩] }

example : ∃ w, handle (fun _ => true) (.str { idx := some 3, sets := some [statSet] })
    { rows := [{ idx := 3 }], cap := 32, keys := ["pps_in", "pps_bad"] } = .ok (w, false) ∧
    w.rows.map (fun r => r.drvIds.take 2) = [[1, -1]] := ⟨_, rfl, by decide⟩

/-! ### Timestamping replies -/

/-- A bitset, if present, holds a value; what is absent leaves the former value. -/
inductive Says : Option Bitset → Nat → Nat → Prop
  | absent (v) : Says none v v
  | present (size : BitVec 32) (v old : Nat) (rest : List Nat) : size ≠ 0 → size.toNat ≤ 4294967264 →
      v < 4294967296 → (leBytes v ++ rest).length < 65536 →
      Fits size.toNat (leBytes v ++ rest).length →
      Says (some { size := some size, value := some (leBytes v ++ rest) }) old v

theorem tsField_says (b : Option Bitset) (old v : Nat) (set : Nat → Link → Link) (l : Link)
    (hid : set old l = l) (h : Says b old v) : tsField b set l = .ok (set v l, true) := by
  cases h with
  | absent => simp [tsField, hid]
  | present size _ _ rest h1 h2 h3 h4 h5 =>
      have := (C268_bitset_read_partial size (leBytes v ++ rest) h2 h4).2.2.1 v rest rfl h3 h1 h5
      simp [tsField, this, bind, Except.bind, pure, Except.pure]

/-- C270: a complete timestamping reply gives the row of its interface, and no other, the clock and the
capabilities it reports and marks them as known. -/
theorem C270_timestamping_reply (ok : SendOk) (w : Work) (i : Int) (m : TsMsg) (hw : w.Ok)
    (hi : m.idx = some i) (r : Link) (hr : r ∈ w.rows) (hri : r.idx = i) (so tx rx : Nat)
    (h1 : Says m.so r.ts.so so) (h2 : Says m.tx r.ts.tx tx) (h3 : Says m.rx r.ts.rx rx) :
    handle ok (.ts m) w = .ok ({ w with rows := w.rows.map (fun x => if x.idx = i
      then { x with ts := { phc := m.phc.getD (-1), so := so, tx := tx, rx := rx }, tsState := .populated }
      else x) }, false) := by
  have huniq : ∀ x ∈ w.rows, x.idx = i → x = r := by
    intro x hx hxi
    exact List.inj_on_of_nodup_map hw.nodup hx hr (by rw [hxi, hri])
  simp only [handle, handleTs, hi, Option.getD_some]
  rw [updRowM_map i _ (fun x => { x with
    ts := { phc := m.phc.getD (-1), so := so, tx := tx, rx := rx }, tsState := .populated })
    w.rows hw.nodup]
  · rfl
  · intro x hx hxi
    obtain rfl := huniq x hx hxi
    unfold tsApply
    dsimp only
    rw [tsField_says m.so x.ts.so so _ _ rfl h1]
    simp only [bind, Except.bind, pure, Except.pure]
    rw [if_neg (by simp), tsField_says m.tx x.ts.tx tx _ _ rfl h2]
    simp only [bind, Except.bind, pure, Except.pure]
    rw [if_neg (by simp), tsField_says m.rx x.ts.rx rx _ _ rfl h3]
    simp

example : Says (some { size := some 17, value := some (leBytes 95 ++ []) }) 0 95 :=
  .present 17 95 0 [] (by decide) (by decide) (by decide) (by decide) ⟨1, by decide, by decide⟩

/-! ### Datagrams and queries -/

/-- C271 in full: every message of a datagram is handled. -/
def C271_statement : Prop :=
  ∀ (ok : SendOk) (d : Dgram) (w : Work), runDgram ok d w = handleAll ok d.msgs w

/-- Queries are composed in the buffer that holds the received messages: when the first message of a
datagram announces a new interface the query about it replaces the others. -/
theorem C271_violated : ¬ C271_statement := by
  intro h
  have := h (fun _ => true) { msgs := [.link { idx := 2 }, .link { idx := 3 }] } { famEth := 21 }
  revert this
  decide +kernel

theorem handleLink_clob (ok : SendOk) (a : Attrs) (w w' : Work) (c : Bool)
    (hq : a.del = true ∨ (∃ r ∈ w.rows, r.idx = a.idx) ∨ (w.famEth = 0 ∧ w.famTeam = 0))
    (h : handleLink ok a w = .ok (w', c)) : c = false := by
  unfold handleLink at h
  dsimp only at h
  by_cases hd : (parse a).ev = .down
  · simp only [hd, if_true] at h
    cases hr : rowsReplace (parse a) w.rows with
    | some rows => simp only [hr, Except.ok.injEq, Prod.mk.injEq] at h; exact h.2.symm
    | none => simp only [hr, Except.ok.injEq, Prod.mk.injEq] at h; exact h.2.symm
  · simp only [if_neg hd] at h
    cases hr : rowsReplace (parse a) w.rows with
    | some rows => simp only [hr, Except.ok.injEq, Prod.mk.injEq] at h; exact h.2.symm
    | none =>
        have hn := (rowsReplace_none _ _).1 hr
        rw [parse_idx] at hn
        simp only [hr] at h
        rcases hq with hq | ⟨r, hr', hri⟩ | ⟨hq1, hq2⟩
        · exact absurd ((parse_down a).2 hq) hd
        · exact absurd hri (hn r hr')
        · split at h
          · cases h
          · rw [if_pos (parse_tsState a)] at h
            simp only [Except.ok.injEq, Prod.mk.injEq] at h
            rw [← h.2]
            by_cases ht : (parse a).type = .team
            · simp [ht, hq1, hq2, sendTeam]
            · simp [ht, hq1, hq2]

/-- C271: every message is handled unless the first one causes a query, which takes the announcement of
an interface not yet known when the kernel has teams or ethtool. -/
theorem C271_datagram_handled_partial (ok : SendOk) (d : Dgram) (w : Work)
    (hq : ∀ a ms, d.msgs = .link a :: ms →
      a.del = true ∨ (∃ r ∈ w.rows, r.idx = a.idx) ∨ (w.famEth = 0 ∧ w.famTeam = 0)) :
    runDgram ok d w = handleAll ok d.msgs w := by
  unfold runDgram
  cases hm : d.msgs with
  | nil => rfl
  | cons m ms =>
      simp only [handleAll, bind, Except.bind]
      cases hh : handle ok m w with
      | error e => rfl
      | ok p =>
          obtain ⟨w1, c⟩ := p
          have hc : c = false := by
            cases m with
            | link a => exact handleLink_clob ok a w w1 c (hq a ms hm) hh
            | ctrl x => simp only [handle, Except.ok.injEq, Prod.mk.injEq] at hh; exact hh.2.symm
            | team x =>
                simp only [handle] at hh
                cases hx : handleTeam x w with
                | error e => simp [hx, Except.map] at hh
                | ok y => simp only [hx, Except.map, Except.ok.injEq, Prod.mk.injEq] at hh; exact hh.2.symm
            | ts x =>
                simp only [handle] at hh
                cases hx : handleTs x w with
                | error e => simp [hx, Except.map] at hh
                | ok y => simp only [hx, Except.map, Except.ok.injEq, Prod.mk.injEq] at hh; exact hh.2.symm
            | str x =>
                simp only [handle] at hh
                cases hx : handleStr x w with
                | error e => simp [hx, Except.map] at hh
                | ok y => simp only [hx, Except.map, Except.ok.injEq, Prod.mk.injEq] at hh; exact hh.2.symm
          simp [hc]

example : ∃ w, runDgram (fun _ => true) { msgs := [.link { idx := 2, name := some "p0" }, .link { idx := 3 }] }
    { rows := [{ idx := 2 }], cap := 32, famEth := 21 } = .ok w ∧
    w.rows.map (fun r => (r.idx, r.name)) = [(2, "p0"), (3, "")] := ⟨_, rfl, by decide +kernel⟩

/-- C272 in full: a new interface has its timestamping capabilities asked for, or is remembered so
that they will be. -/
def C272_statement : Prop :=
  ∀ (ok : SendOk) (a : Attrs) (w w' : Work) (c : Bool), w.Ok → a.del = false →
    (∀ r ∈ w.rows, r.idx ≠ a.idx) → handleLink ok a w = .ok (w', c) →
    Query.tsinfo a.idx ∈ w'.sent ∨ w'.needEth = true

/-- When sending fails although the kernel has ethtool, the function that sends reports success and
nothing is remembered. -/
theorem C272_violated : ¬ C272_statement := by
  intro h
  have := h (fun _ => false) { idx := 2 } { famEth := 21 } _ _ ⟨by simp, by simp, by simp⟩ rfl (by simp) rfl
  revert this
  decide +kernel

/-- C272: it is so when the query can be sent or the kernel is not yet known to have ethtool. -/
theorem C272_asked_or_remembered_partial (ok : SendOk) (a : Attrs) (w w' : Work) (c : Bool) (hw : w.Ok)
    (hd : a.del = false) (hnew : ∀ r ∈ w.rows, r.idx ≠ a.idx)
    (hok : ok (.tsinfo a.idx) = true ∨ w.famEth = 0) (h : handleLink ok a w = .ok (w', c)) :
    (w.famEth ≠ 0 → Query.tsinfo a.idx ∈ w'.sent) ∧ (w.famEth = 0 → w'.needEth = true) := by
  have hnd : (parse a).ev ≠ .down := by rw [Ne, parse_down, hd]; simp
  unfold handleLink at h
  dsimp only at h
  rw [if_neg hnd] at h
  have hr : rowsReplace (parse a) w.rows = none :=
    (rowsReplace_none _ _).2 (by rw [parse_idx]; exact hnew)
  simp only [hr, if_neg hnd] at h
  split at h
  · cases h
  · rw [if_pos (parse_tsState a)] at h
    simp only [Except.ok.injEq, Prod.mk.injEq] at h
    have h := h.1
    -- what the team query leaves
    generalize hw2 : (if (parse a).type = .team then
        if (sendTeam ok (parse a).idx { { w with cap := grow w.rows.length w.cap } with
            rows := w.rows ++ [parse a] }).2 = true then
          (sendTeam ok (parse a).idx { { w with cap := grow w.rows.length w.cap } with
            rows := w.rows ++ [parse a] }).1
        else { (sendTeam ok (parse a).idx { { w with cap := grow w.rows.length w.cap } with
            rows := w.rows ++ [parse a] }).1 with needTeams := true }
      else { { w with cap := grow w.rows.length w.cap } with rows := w.rows ++ [parse a] }) = w2 at h
    have hfam : w2.famEth = w.famEth := by
      rw [← hw2]
      unfold sendTeam
      (repeat' split) <;> rfl
    rw [← h]
    constructor
    · intro hne
      have hok' : ok (.tsinfo a.idx) = true := by
        rcases hok with hok | hok
        · exact hok
        · exact absurd hok hne
      have hne' : ¬ w2.famEth = 0 := by rw [hfam]; exact hne
      have hok2 : ok (.tsinfo (parse a).idx) = true := by rw [parse_idx]; exact hok'
      simp only [sendEth, if_neg hne', if_pos hok2, if_true]
      split <;> simp [parse_idx]
    · intro he
      have he' : w2.famEth = 0 := by rw [hfam]; exact he
      simp [sendEth, he']

example : ∃ w c, handleLink (fun _ => true) { idx := 2 } { famEth := 21 } = .ok (w, c) ∧
    w.sent = [.tsinfo 2] := ⟨_, _, rfl, by decide +kernel⟩

/-- C273 in full: an interface is asked for its capabilities once. -/
def C273_statement : Prop :=
  ∀ (a : Attrs) (w w' : Work) (c : Bool), w.Ok → a.del = false →
    (∀ r ∈ w.rows, r.idx ≠ a.idx) → .tsinfo a.idx ∉ w.sent →
    handleLink (fun _ => true) a w = .ok (w', c) →
    (rescanEth (fun _ => true) w').sent.count (.tsinfo a.idx) ≤ 1

/-- That the query has been sent is noted in a copy of the row made before it was stored: the next scan
asks again. -/
theorem C273_violated : ¬ C273_statement := by
  intro h
  have := h { idx := 2 } { famEth := 21 } _ _ ⟨by simp, by simp, by simp⟩ rfl (by simp) (by simp) rfl
  revert this
  decide +kernel

/-- What a scan does to one row. -/
theorem sendEth_row (ok : SendOk) (l : Link) (w : Work) (h : w.famEth ≠ 0) :
    ∃ extra, (sendEth ok l w).1 = { w with sent := w.sent ++ extra } ∧
      (∀ q ∈ extra, q = .tsinfo l.idx ∨ q = .strings l.idx) ∧
      extra.count (.tsinfo l.idx) = (if ok (.tsinfo l.idx) then 1 else 0) ∧
      (ok (.tsinfo l.idx) = true → (sendEth ok l w).2.1.tsState = .requested) ∧
      (ok (.tsinfo l.idx) = false → (sendEth ok l w).2.1.tsState = l.tsState) ∧
      (sendEth ok l w).2.1.idx = l.idx := by
  unfold sendEth
  simp only [if_neg h]
  cases h1 : ok (.tsinfo l.idx) <;> by_cases h2 : w.keys ≠ [] ∧ ok (.strings l.idx)
  · refine ⟨[.strings l.idx], ?_⟩
    simp [h2.1, h2.2]
  · refine ⟨[], ?_⟩
    simp [if_neg h2]
  · refine ⟨[.tsinfo l.idx, .strings l.idx], ?_⟩
    simp [h2.1, h2.2]
  · refine ⟨[.tsinfo l.idx], ?_⟩
    simp [if_neg h2]

theorem rescanEthLoop_spec (ok : SendOk) (ls done : List Link) (w : Work) (h : w.famEth ≠ 0)
    (hn : (ls.map (·.idx)).Nodup) :
    ∃ ls' extra, rescanEthLoop ok done ls w = { w with rows := done ++ ls', sent := w.sent ++ extra } ∧
      ls'.map (·.idx) = ls.map (·.idx) ∧
      (∀ i, extra.count (.tsinfo i) =
        if (∃ r ∈ ls, r.idx = i ∧ r.tsState = .notRequested) ∧ ok (.tsinfo i) = true then 1 else 0) ∧
      (∀ r' ∈ ls', r'.tsState = .notRequested → ok (.tsinfo r'.idx) = false) := by
  induction ls generalizing done w with
  | nil => exact ⟨[], [], by simp [rescanEthLoop], rfl, by simp, by simp⟩
  | cons l ls ih =>
      rw [List.map_cons, List.nodup_cons] at hn
      have hnot : ∀ r ∈ ls, r.idx ≠ l.idx := fun r hr he => hn.1 (List.mem_map.2 ⟨r, hr, he⟩)
      unfold rescanEthLoop
      by_cases hs : l.tsState = .notRequested
      · rw [if_pos hs]
        obtain ⟨ex, e1, e2, e3, e4, e5, e6⟩ := sendEth_row ok l w h
        simp only []
        rw [e1]
        obtain ⟨ls', extra, i1, i2, i3, i4⟩ := ih (done ++ [(sendEth ok l w).2.1])
          { w with sent := w.sent ++ ex } h hn.2
        refine ⟨(sendEth ok l w).2.1 :: ls', ex ++ extra, ?_, ?_, ?_, ?_⟩
        · rw [i1]; simp
        · simp [i2, e6]
        · intro i
          rw [List.count_append, i3]
          by_cases hi : i = l.idx
          · subst hi
            rw [e3]
            have : ¬ ∃ r ∈ ls, r.idx = l.idx ∧ r.tsState = .notRequested := by
              rintro ⟨r, hr, he, _⟩; exact hnot r hr he
            simp [this, hs]
          · have hz : ex.count (.tsinfo i) = 0 := by
              rw [List.count_eq_zero]
              intro hm
              rcases e2 _ hm with he | he
              · cases he; exact hi rfl
              · cases he
            have : ¬ l.idx = i := fun he => hi he.symm
            simp [hz, this]
        · intro r' hr'
          rcases List.mem_cons.1 hr' with rfl | hr'
          · intro hx
            rw [e6]
            cases ho : ok (.tsinfo l.idx) with
            | false => rfl
            | true => rw [e4 ho] at hx; cases hx
          · exact i4 r' hr'
      · rw [if_neg hs]
        obtain ⟨ls', extra, i1, i2, i3, i4⟩ := ih (done ++ [l]) w h hn.2
        refine ⟨l :: ls', extra, ?_, ?_, ?_, ?_⟩
        · rw [i1]; simp
        · simp [i2]
        · intro i
          rw [i3]
          simp [hs]
        · intro r' hr'
          rcases List.mem_cons.1 hr' with rfl | hr'
          · intro hx; exact absurd hx hs
          · exact i4 r' hr'

/-- C273: a scan asks each interface that has not been asked, and no other, once; those asked are
noted, so that a further scan asks none of them. -/
theorem C273_scan_asks_once_partial (ok : SendOk) (w : Work) (hw : w.Ok) (hf : w.famEth ≠ 0) :
    (∀ i, (rescanEth ok w).sent.count (.tsinfo i) = w.sent.count (.tsinfo i) +
      if (∃ r ∈ w.rows, r.idx = i ∧ r.tsState = .notRequested) ∧ ok (.tsinfo i) = true then 1 else 0) ∧
    (∀ i, (rescanEth ok (rescanEth ok w)).sent.count (.tsinfo i) =
      (rescanEth ok w).sent.count (.tsinfo i)) := by
  obtain ⟨ls, ex, h1, h2, h3, h4⟩ := rescanEthLoop_spec ok w.rows [] w hf hw.nodup
  have e : rescanEth ok w = { w with rows := ls, sent := w.sent ++ ex, needEth := false } := by
    unfold rescanEth; rw [h1]; simp
  refine ⟨?_, ?_⟩
  · intro i; rw [e]; simp only [List.count_append, h3]
  · intro i
    obtain ⟨ls2, ex2, g1, g2, g3, g4⟩ := rescanEthLoop_spec ok ls []
      { w with rows := ls, sent := w.sent ++ ex, needEth := false } hf (by rw [h2]; exact hw.nodup)
    rw [e]
    unfold rescanEth
    simp only []
    rw [g1]
    simp only [List.count_append, g3]
    rw [if_neg]
    · omega
    · rintro ⟨⟨r, hr, hri, hrs⟩, ho⟩
      have := h4 r hr hrs
      rw [hri, ho] at this
      cases this

example : (rescanEth (fun _ => true)
    { rows := [{ idx := 2 }, { idx := 3, tsState := .populated }], cap := 32, famEth := 21
      needEth := true }).sent = [.tsinfo 2] := by decide +kernel

end Verif.Netlink
