import Verif.Intf.Start

set_option linter.unusedSimpArgs false
set_option linter.unusedVariables false

/-!
# Properties of interfaces
-/

namespace Verif.Intf

/-- A kernel for examples: the names of links are given, all else is plain. -/
def plain (names : List (Int × Nat)) : Kern where
  nameOf i := (names.find? fun p => p.1 = i).map (·.2)
  perm d := .ok d
  drv d := (0, 1)
  ts d := .error EOPNOTSUPP
  efx _ := EOPNOTSUPP
  strings _ := false
  wireless _ := false
  virt _ := false
  vendor _ := 0x1924
  device _ := 0
  setTs _ _ := 0
  getTs _ := .error 1
  clk k := k + 10
  sys := 9
  onePhc := false
  nonSfc := false

/-- A link for examples, on the clock 0. -/
def port (i : Int) (n : Nat) : Link :=
  { index := i, name := n, perm := some (n + 100), bus := some 1, stats := some true,
    ts := some { so := 0x45, tx := 3, rx := 3, phc := 0 } }

/-- The name of one index, computed. -/
def chkName (K : Kern) (i : Int) (p : Nat → Bool) : Bool := ((K.nameOf i).map p).getD true

theorem chkName_of {K : Kern} {i : Int} {p : Nat → Bool} (h : chkName K i p = true) (n : Nat) (hn : K.nameOf i = some n) :
    p n = true := by
  unfold chkName at h
  rw [hn] at h
  exact h

/-- `SameNames` of an insertion, computed. -/
theorem same_insert {K : Kern} {s : St} {l : Link} (h1 : chkName K l.index (fun n => n == l.name) = true)
    (h2 : (s.objs.all fun o => o.index == l.index || chkName K o.index fun n => n == o.name && n != l.name) = true) :
    SameNames K s (.insert l) := by
  refine ⟨fun n hn => by simpa using chkName_of h1 n hn, fun o ho hne n hn => ?_⟩
  have := List.all_eq_true.mp h2 o ho
  rw [Bool.or_eq_true] at this
  rcases this with h | h
  · exact absurd (by simpa using h) hne
  · simpa using chkName_of h n hn

/-- `SameNames` of a removal, computed. -/
theorem same_remove {K : Kern} {s : St} {i : Int} {x : Nat}
    (h2 : (s.objs.all fun o => chkName K o.index fun n => n == o.name) = true) :
    SameNames K s (.remove i x) := by
  intro o ho n hn
  simpa using chkName_of (List.all_eq_true.mp h2 o ho) n hn

/-! ## C303 -/

/-- **C303**: an object stands for one interface index for ever. Over any run the indexes of
the table stay different from one another, an object that was there is still there with the
index it had, and a search for an index finds its object. -/
theorem C303_one_index (s : St) (hs : (s.objs.map (·.index)).Nodup) (es : List (Kern × Ev)) (r : St)
    (h : run s es = .ok r) :
    (r.objs.map (·.index)).Nodup ∧
    (∀ (k : Nat) (o : Intf), s.objs[k]? = some o → ∃ o', r.objs[k]? = some o' ∧ o'.index = o.index) ∧
    (∀ (k : Nat) (o : Intf), r.objs[k]? = some o → findIndex r o.index = some k) ∧
    ∀ i, (∀ o ∈ r.objs, o.index ≠ i) → findIndex r i = none := by
  obtain ⟨x, hx, hd⟩ := run_index es s r h
  refine ⟨hd hs, fun k o ho => ?_, fun k o ho => findIndex_of (hd hs) ho, fun i hi => findIndex_none.mpr hi⟩
  have hk := (List.getElem?_eq_some_iff.mp ho).1
  have h1 : (r.objs.map (·.index))[k]? = some o.index := by
    rw [hx, List.getElem?_append_left (by simpa using hk), List.getElem?_map, ho]; rfl
  rw [List.getElem?_map] at h1
  cases hr : r.objs[k]? with
  | none => rw [hr] at h1; cases h1
  | some o' =>
    rw [hr] at h1
    simp only [Option.map_some, Option.some.injEq] at h1
    exact ⟨o', rfl, h1⟩

/-- **C303**: an insertion adds an object exactly if the index is new, with that index. -/
theorem C303_insert (K : Kern) (l : Link) (s : St) (r : St) (rc : Int) (h : insert K l s = .ok (r, rc)) :
    r.objs.map (·.index) =
      if l.index ∈ s.objs.map (·.index) then s.objs.map (·.index) else s.objs.map (·.index) ++ [l.index] :=
  insert_index K l s _ h

example : (∃ r, run {} [(plain [(1, 5)], .insert (port 1 5)), (plain [(1, 6)], .insert (port 1 6)),
    (plain [(1, 6), (2, 5)], .insert (port 2 5))] = .ok r ∧ r.objs.map (·.index) = [1, 2] ∧
    r.objs.map (·.name) = [6, 5] ∧ findIndex r 2 = some 1) := ⟨_, rfl, by decide, by decide, by decide⟩

/-! ## C304 -/

/-- **C304**: as long as the table and the kernel agree on names, a search for the name of
an interface that is there finds it. -/
def C304_statement : Prop :=
  ∀ (es : List (Kern × Ev)) (r : St), Along SameNames {} es → run {} es = .ok r →
    ∀ (k : Nat) (o : Intf), r.objs[k]? = some o → o.deleted = false → o.name ≠ 0 → findName r o.name = some k

/-- The interface is replugged and has another index: the search finds the object of the
one that is gone. -/
theorem C304_violated : ¬ C304_statement := by
  intro h
  have := h [(plain [(1, 5)], .insert (port 1 5)), (plain [], .remove 1 5), (plain [(2, 5)], .insert (port 2 5))]
    _ ⟨same_insert rfl rfl, fun s hs => ⟨by cases hs; exact same_remove rfl, fun s' hs' => ⟨by
      cases hs; cases hs'
      exact same_insert rfl rfl, fun _ _ => trivial⟩⟩⟩ rfl 1 _ rfl (by decide) (by decide)
  revert this
  decide

/-- **C304**, in part: it does if a new interface comes with a name that no object has, not
even of an interface that is gone, and an interface is renamed to a name that no live one
has. Missing: interfaces that are replugged with another index. -/
theorem C304_found_partial (s : St) (hs : Names s) (hi : (s.objs.map (·.index)).Nodup) (es : List (Kern × Ev)) (r : St)
    (ha : Along (fun K s e => SameNames K s e ∧ FreeName s e) s es) (h : run s es = .ok r) :
    Names r ∧ ∀ (k : Nat) (o : Intf), r.objs[k]? = some o → o.name ≠ 0 → findName r o.name = some k := by
  have := table_run es s ⟨hs, hi⟩ ha r h
  exact ⟨this.1, fun k o ho h0 => findName_of_names this.1 ho h0⟩

/-- An interface is renamed to the name of one that is gone. -/
example : ∃ r, run {} [(plain [(1, 5)], .insert (port 1 5)), (plain [(1, 5), (2, 6)], .insert (port 2 6)),
      (plain [(1, 5)], .remove 2 6), (plain [(1, 6)], .insert (port 1 6))] = .ok r ∧ findName r 6 = some 0 ∧
    (r.obj 0).deleted = false ∧ (r.obj 1).deleted = true ∧ getName r 1 = .ok (some 6) :=
  ⟨_, rfl, by decide, by decide, by decide, by decide⟩

example : Along (fun K s e => SameNames K s e ∧ FreeName s e) {} [(plain [(1, 5)], .insert (port 1 5)),
    (plain [(1, 6)], .insert (port 1 6))] :=
  ⟨⟨same_insert rfl rfl, by decide, by decide⟩, fun s hs => ⟨by
    cases hs
    exact ⟨same_insert rfl rfl, by decide, by decide⟩, fun _ _ => trivial⟩⟩

/-! ## C305 -/

/-- **C305**: no sequence of events makes the program go on for ever in following aliases. -/
def C305_statement : Prop := ∀ es : List (Kern × Ev), run {} es ≠ .hang

/-- An interface the name of which another has taken comes back, first under a third name,
then under its own: both objects are aliases of each other. -/
theorem C305_violated : ¬ C305_statement := fun h =>
  h [(plain [(1, 1)], .insert (port 1 1)), (plain [(1, 1), (2, 2)], .insert (port 2 2)),
     (plain [(1, 1)], .remove 2 2), (plain [(1, 2)], .insert (port 1 2)),
     (plain [(1, 2), (2, 3)], .insert (port 2 3)), (plain [(2, 3)], .remove 1 2),
     (plain [(2, 2)], .insert (port 2 2))] rfl

/-- **C305**, in part: if no interface that has become the alias of another comes back,
every run ends, and the aliases of every object lead to one that is no alias. Missing:
interfaces that come back. -/
theorem C305_ends_partial (es : List (Kern × Ev)) (ha : Along (fun _ s e => NoComeback s e) {} es) :
    ∃ r, run {} es = .ok r ∧ ∀ k, k < r.objs.length → Ends r k := by
  obtain ⟨r, hr, hg⟩ := run_fine es {} good_empty ha
  exact ⟨r, hr, hg.2⟩

/-- **C305**: a call hangs exactly if the aliases do not end; it takes no step more than
there are objects. -/
theorem C305_hang_iff (s : St) (hr : InRange s) (k : Nat) (hk : k < s.objs.length) :
    canon s k = .hang ↔ ¬ Ends s k := canon_hang_iff hr hk

example : Along (fun _ s e => NoComeback s e) {} [(plain [(1, 1)], .insert (port 1 1)),
    (plain [(1, 1), (2, 2)], .insert (port 2 2)), (plain [(1, 1)], .remove 2 2), (plain [(1, 2)], .insert (port 1 2))] := by
  have key : ∀ (s : St) (l : Link), (∀ o ∈ s.objs, o.canonical = none) → NoComeback s (.insert l) :=
    fun s l h k o ho _ => h o (List.mem_of_getElem? ho)
  refine ⟨key _ _ (by decide), fun s hs => ?_⟩
  cases hs
  refine ⟨key _ _ (by decide), fun s hs => ?_⟩
  cases hs
  refine ⟨trivial, fun s hs => ?_⟩
  cases hs
  exact ⟨key _ _ (by decide), fun _ _ => trivial⟩

/-! ## C306 -/

/-- **C306**: the handle of an interface that is gone can still be used: every question has
a neutral answer, nothing is asked of a device and nothing changes. -/
theorem C306_gone (K : Kern) (s : St) (k : Nat) (h : Gone s k) :
    getName s k = .ok none ∧ getMac s k = .ok 0 ∧ getIndex s k = .ok 0 ∧ getClock K s k = .ok (some K.sys) ∧
    getDevice s k = .ok (false, -1, false) ∧ getClass s k = .ok .other ∧ getPtpCaps s k = .ok (false, false) ∧
    getRxCaps s k = .ok (false, false) ∧ supportsPtp K s k = .ok false ∧ supportsPps K s k = .ok false ∧
    linkDetected s k = .ok (22, false) ∧ ioctl K s k = .ok (s, none) ∧ enable K k s = .ok (s, 22, []) ∧
    disable K k s = .ok s := by
  obtain ⟨n, m, o, hl, ho, hd⟩ := h
  have hc : canon s k = .ok none := by rw [canon_of hl, obj_of ho, if_pos hd]
  refine ⟨?_, ?_, ?_, ?_, ?_, ?_, ?_, ?_, ?_, ?_, ?_, ?_, ?_, ?_⟩ <;>
    simp only [getName, getMac, getIndex, getClock, getDevice, getClass, getPtpCaps, getRxCaps, supportsPtp,
      supportsPps, linkDetected, ioctl, enable, disable, read, hc, Out.bind, EINVAL]

/-- **C306**: the handle of an interface that is there, or that another name of it led to,
gives what that interface has. -/
theorem C306_there (K : Kern) (s : St) (k : Nat) (o : Intf) (h : StandsFor s k o) :
    getName s k = .ok (some o.name) ∧ getMac s k = .ok o.mac ∧ getIndex s k = .ok o.index ∧
    getClock K s k = .ok o.clock ∧ getDevice s k = .ok (o.phcOk, o.ts.phc, o.efx) ∧ getClass s k = .ok o.cls ∧
    linkDetected s k = .ok (0, o.up) ∧ (∃ r, ioctl K s k = .ok (r, some o.name)) := by
  obtain ⟨n, m, hl, ho, hd⟩ := h
  have hc : canon s k = .ok (some m) := by rw [canon_of hl, obj_of ho, if_neg (by simp [hd])]
  refine ⟨?_, ?_, ?_, ?_, ?_, ?_, ?_, ⟨checkRename K (checkRename K s m) m, ?_⟩⟩ <;>
    simp only [getName, getMac, getIndex, getClock, getDevice, getClass, linkDetected, ioctl, read, hc, Out.bind,
      obj_of ho]

/-- **C306**: a handle stands for an interface that is there or for one that is gone,
whenever its aliases end; and not for both, nor for two. -/
theorem C306_either (s : St) (k : Nat) (h : Ends s k) :
    (Gone s k ∧ ∀ o, ¬ StandsFor s k o) ∨ (¬ Gone s k ∧ ∃ o, StandsFor s k o ∧ ∀ o', StandsFor s k o' → o' = o) := by
  obtain ⟨n, m, hl⟩ := h
  obtain ⟨o, ho, _⟩ := leads_root hl
  cases hd : o.deleted with
  | true =>
    refine .inl ⟨⟨n, m, o, hl, ho, hd⟩, fun o' ⟨n', m', hl', ho', hd'⟩ => ?_⟩
    obtain ⟨_, rfl⟩ := leads_det hl hl'
    rw [ho] at ho'
    cases ho'
    rw [hd] at hd'
    cases hd'
  | false =>
    refine .inr ⟨fun ⟨n', m', o', hl', ho', hd'⟩ => ?_, o, ⟨n, m, hl, ho, hd⟩, fun o' ⟨n', m', hl', ho', hd'⟩ => ?_⟩
    · obtain ⟨_, rfl⟩ := leads_det hl hl'
      rw [ho] at ho'
      cases ho'
      rw [hd] at hd'
      cases hd'
    · obtain ⟨_, rfl⟩ := leads_det hl hl'
      rw [ho] at ho'
      cases ho'
      rfl

/-- **C306**: after the removal of an interface its handle, if no alias, stands for one that is gone. -/
theorem C306_removed (K : Kern) (s : St) (i : Int) (name : Nat) (k : Nat) (o : Intf) (hi : 0 ≤ i)
    (hd : (s.objs.map (·.index)).Nodup) (ho : s.objs[k]? = some o) (hx : o.index = i) (hc : o.canonical = none) :
    Gone (remove K i name s) k := by
  have hf : findIndex s i = some k := hx ▸ findIndex_of hd ho
  have hmap : (remove K i name s).objs.map (·.canonical) = s.objs.map (·.canonical) := by
    unfold remove
    rw [if_pos hi, hf]
    dsimp only
    split
    · rfl
    · rw [rescan_same (·.canonical) (fun _ _ => rfl), delete_same (·.canonical) (fun _ _ _ => rfl)]
  obtain ⟨o', h1, h2⟩ := get_of_map hmap ho
  refine ⟨0, k, o', Leads.here h1 (h2.trans hc), h1, ?_⟩
  unfold remove at h1
  rw [if_pos hi, hf] at h1
  dsimp only at h1
  split at h1
  · rename_i hdel
    rw [obj_of h1] at hdel
    exact hdel
  · have hg : (rescan K (delete k s)).objs.map (·.deleted) = (delete k s).objs.map (·.deleted) :=
      rescan_same (·.deleted) (fun _ _ => rfl) K _
    obtain ⟨o2, h3, h4⟩ := get_of_map hg.symm h1
    unfold delete at h3
    rw [upd_get, if_pos rfl, ho] at h3
    simp only [Option.map_some, Option.some.injEq] at h3
    rw [← h4, ← h3]
    split
    · assumption
    · rfl

example : ∃ r, run {} [(plain [(1, 5)], .insert (port 1 5)), (plain [], .remove 1 5)] = .ok r ∧
    Gone r 0 ∧ getName r 0 = .ok none := ⟨_, rfl, ⟨0, 0, _, Leads.here rfl rfl, rfl, rfl⟩, rfl⟩

example : StandsFor { objs := [{ canonical := some 1 }, { index := 2, name := 7, deleted := false, mac := 3 }] } 0
    { index := 2, name := 7, deleted := false, mac := 3 } :=
  ⟨1, 1, Leads.next rfl rfl (Leads.here rfl rfl), rfl, rfl⟩

/-! ## C307 -/

/-- **C307**: a request made through a handle goes to the device that has the index of the
interface. -/
def C307_statement : Prop :=
  ∀ (K : Kern) (s r : St) (k d n : Nat) (o : Intf), StandsFor s k o → K.nameOf o.index = some n →
    ioctl K s k = .ok (r, some d) → d = n

/-- Interfaces 1 and 2 have exchanged names, which is not yet known: the request for the
first goes to the second. -/
theorem C307_violated : ¬ C307_statement := by
  intro h
  have := h (plain [(1, 6), (2, 5)]) { objs := [{ index := 1, name := 5, deleted := false },
    { index := 2, name := 6, deleted := false }] } _ 0 5 6 _ ⟨0, 0, Leads.here rfl rfl, rfl, rfl⟩ rfl rfl
  revert this
  decide

/-- **C307**, in part: it does if the name is known, and the request after one that did not
does. Missing: the first request after a change of the name. -/
theorem C307_device_partial (K : Kern) (s r : St) (k d n : Nat) (o : Intf) (hs : StandsFor s k o)
    (hn : K.nameOf o.index = some n) (h : ioctl K s k = .ok (r, some d)) :
    (o.name = n → d = n ∧ r = s) ∧
    (o.canonical = none → s.objs[k]? = some o → ∃ r', ioctl K r k = .ok (r', some n)) := by
  obtain ⟨i, m, hl, ho, hd⟩ := hs
  have hc : canon s k = .ok (some m) := by rw [canon_of hl, obj_of ho, if_neg (by simp [hd])]
  unfold ioctl at h
  rw [hc] at h
  simp only [Out.bind, Out.ok.injEq, Prod.mk.injEq, Option.some.injEq] at h
  obtain ⟨hr, hdn⟩ := h
  rw [obj_of ho] at hdn
  constructor
  · intro he
    have hid : checkRename K s m = s := by
      unfold checkRename
      rw [obj_of ho, hn]
      dsimp only
      rw [if_pos he.symm]
    rw [hid, hid] at hr
    exact ⟨hdn ▸ he, hr.symm⟩
  · intro hcn hk
    have hmk : k = m := (leads_det (Leads.here hk hcn) hl).2
    subst hmk
    have e0 : s.obj k = o := obj_of ho
    have hd0 : (s.obj k).deleted = false := by rw [e0]; exact hd
    have hc0 : (s.obj k).canonical = none := by rw [e0]; exact hcn
    obtain ⟨c1, d1⟩ := checkRename_self K s k hc0 hd0
    obtain ⟨n1, i1⟩ := checkRename_name (n := n) hd0 (by rw [e0]; exact hn)
    obtain ⟨c2, d2⟩ := checkRename_self K _ k c1 d1
    obtain ⟨n2, i2⟩ := checkRename_name (n := n) d1 (by rw [i1, e0]; exact hn)
    rw [hr] at c2 d2 n2
    unfold ioctl
    rw [canon_self c2 d2]
    simp only [Out.bind, n2]
    exact ⟨_, rfl⟩

example : ∃ r r', ioctl (plain [(1, 6)]) { objs := [{ index := 1, name := 5, deleted := false }] } 0 = .ok (r, some 5) ∧
    ioctl (plain [(1, 6)]) r 0 = .ok (r', some 6) := ⟨_, _, rfl, rfl⟩

/-! ## C308 -/

/-- The receive filter that is to be asked for: all packets, else PTP events of all
transports, else PTP events over UDP. -/
def best (t : Ts) : Nat := if t.rx.getLsbD 1 then 1 else if t.rx.getLsbD 12 then 12 else 6

/-- **C308**: enabling hardware time stamping. Nothing is asked if it is on already. Else
there are one to five tries, each with the best filter the interface has, another only when
the device was busy; the first to the name in the table, the others to the name the kernel
has. The call succeeds exactly if the last try did, or the device does not allow it but
stamps packets sent and receives with a filter that will do; else the result is that of
the last try. The interface is marked accordingly. -/
theorem C308_enable (K : Kern) (k : Nat) (s r : St) (rc : Int) (asked : List (Nat × Nat)) (n m : Nat) (o : Intf)
    (hl : Leads s n k m) (ho : s.objs[m]? = some o) (hd : o.deleted = false)
    (h : enable K k s = .ok (r, rc, asked)) :
    (o.tsOn = true → asked = [] ∧ rc = 0 ∧ r = s) ∧
    (o.tsOn = false → ∃ u, asked.length = u + 1 ∧ u < 5 ∧
      (∀ t, t < asked.length → asked[t]? = some (if t = 0 then o.name else (K.nameOf o.index).getD o.name, best o.ts)) ∧
      ∃ f : Nat → Int, (∀ t, f t = K.setTs (if t = 0 then o.name else (K.nameOf o.index).getD o.name) t) ∧
      (∀ t, t < u → f t = 16 ∨ f t = 11) ∧ (f u = 16 ∨ f u = 11 → u = 4) ∧
      (rc = 0 ↔ f u = 0 ∨ ((f u = 95 ∨ f u = 1 ∨ f u = 13) ∧ ∃ g,
        K.getTs ((K.nameOf o.index).getD o.name) = .ok (true, g) ∧ (g = 1 ∨ g = 12 ∨ g = 6))) ∧
      (rc ≠ 0 → rc = f u) ∧ (r.obj m).tsOn = decide (rc = 0)) := by
  have hm := (List.getElem?_eq_some_iff.mp ho).1
  have e0 : s.obj m = o := obj_of ho
  have hc : canon s k = .ok (some m) := by rw [canon_of hl, e0, if_neg (by simp [hd])]
  have hcn : (s.obj m).canonical = none := by
    obtain ⟨x, h1, h2⟩ := leads_root hl
    rw [obj_of h1]; exact h2
  have hd0 : (s.obj m).deleted = false := by rw [e0]; exact hd
  obtain ⟨c1, d1⟩ := checkRename_self K s m hcn hd0
  -- what the two checks leave
  obtain ⟨o2, h2, h3⟩ := get_of_map ((checkRename_same (fun x => (x.ts, x.tsOn)) (fun _ _ _ => rfl) K
    (checkRename K s m) m).trans (checkRename_same (fun x => (x.ts, x.tsOn)) (fun _ _ _ => rfl) K s m)) ho
  simp only [Prod.mk.injEq] at h3
  have hname : ((checkRename K (checkRename K s m) m).obj m).name = (K.nameOf o.index).getD o.name := by
    cases hn : K.nameOf o.index with
    | none =>
      have hid : checkRename K s m = s := by unfold checkRename; rw [e0, hn]
      rw [hid, hid, e0]; rfl
    | some nm =>
      obtain ⟨n1, i1⟩ := checkRename_name (n := nm) hd0 (by rw [e0]; exact hn)
      exact (checkRename_name (n := nm) d1 (by rw [i1, e0]; exact hn)).1
  have hts : ((checkRename K (checkRename K s m) m).obj m).ts = o.ts := by rw [obj_of h2]; exact h3.1
  have hlen : m < (checkRename K (checkRename K s m) m).objs.length := (List.getElem?_eq_some_iff.mp h2).1
  have hfil : rxFilter o.ts = best o.ts := by
    unfold rxFilter best
    by_cases h1 : o.ts.rx.getLsbD 1 = true
    · rw [if_pos ((bit_one _).mpr h1), if_pos h1]
    · rw [if_neg (fun h => h1 ((bit_one _).mp h)), if_neg h1]
      by_cases h12 : o.ts.rx.getLsbD 12 = true
      · rw [if_pos ((bit_twelve _).mpr h12), if_pos h12]
      · rw [if_neg (fun h => h12 ((bit_twelve _).mp h)), if_neg h12]
  unfold enable at h
  rw [hc, bind_ok] at h
  dsimp only at h
  rw [e0] at h
  constructor
  · intro hon
    rw [if_pos hon] at h
    cases h
    exact ⟨rfl, rfl, rfl⟩
  · intro hoff
    rw [if_neg (by simp [hoff]), hname, hts, hfil] at h
    obtain ⟨u, hu, _, h5, hbusy, hlast⟩ := tries_spec
      (fun t => K.setTs (if t = 0 then o.name else (K.nameOf o.index).getD o.name) t) 5 0 0 (by omega)
    rw [hu] at h
    dsimp only at h
    rw [if_neg (show ¬ u + 1 = 0 by omega)] at h
    have hoff2 : ((checkRename K (checkRename K s m) m).obj m).tsOn = false := by rw [obj_of h2, h3.2]; exact hoff
    have hon2 : (((checkRename K (checkRename K s m) m).upd m fun x => { x with tsOn := true }).obj m).tsOn = true := by
      rw [upd_obj hlen]
    generalize hf : (fun t => K.setTs (if t = 0 then o.name else (K.nameOf o.index).getD o.name) t) = f at hbusy hlast
    have hfu : K.setTs (if u = 0 then o.name else (K.nameOf o.index).getD o.name) u = f u := by rw [← hf]
    rw [hfu] at h
    have hask : asked = (List.range (u + 1)).map fun t =>
        (if t = 0 then o.name else (K.nameOf o.index).getD o.name, best o.ts) := by
      repeat' split at h
      all_goals (cases h; rfl)
    refine ⟨u, by rw [hask]; simp, by omega, fun t ht => ?_, f, fun t => by rw [← hf], fun t ht => by subst hf; exact hbusy t (by omega) ht,
      fun hb => by subst hf; have := hlast hb; omega, ?_⟩
    · rw [hask] at ht ⊢
      have ht' : t < u + 1 := by simpa using ht
      rw [List.getElem?_map, List.getElem?_range ht']
      rfl
    · by_cases h0 : f u = 0
      · rw [if_pos h0] at h
        cases h
        exact ⟨⟨fun _ => .inl h0, fun _ => rfl⟩, fun hne => absurd rfl hne, by simp [hon2]⟩
      · rw [if_neg h0] at h
        by_cases hno : f u = EOPNOTSUPP ∨ f u = EPERM ∨ f u = EACCES
        · rw [if_pos hno] at h
          split at h
          · rename_i g hg
            by_cases hgm : (1#32 <<< g) &&& rxMin ≠ 0
            · rw [if_pos hgm] at h
              cases h
              exact ⟨⟨fun _ => .inr ⟨hno, g, hg, (filter_min g).mp hgm⟩, fun _ => rfl⟩, fun hne => absurd rfl hne,
                by simp [hon2]⟩
            · rw [if_neg hgm] at h
              cases h
              refine ⟨⟨fun h => absurd h h0, ?_⟩, fun _ => rfl, by simp [hoff2, h0]⟩
              rintro (h | ⟨_, g', hg', hm'⟩)
              · exact h
              · rw [hg] at hg'
                cases hg'
                exact absurd ((filter_min g).mpr hm') hgm
          · rename_i hx
            cases h
            refine ⟨⟨fun h => absurd h h0, ?_⟩, fun _ => rfl, by simp [hoff2, h0]⟩
            rintro (h | ⟨_, g', hg', hm'⟩)
            · exact h
            · exact absurd hg' (hx g')
        · rw [if_neg hno] at h
          cases h
          refine ⟨⟨fun h => absurd h h0, ?_⟩, fun _ => rfl, by simp [hoff2, h0]⟩
          rintro (h | ⟨h, _⟩)
          · exact h
          · exact absurd h hno

/-- The device is busy twice. -/
example : ∃ r, enable { plain [(1, 5)] with setTs := fun _ t => if t < 2 then 16 else 0 } 0
    { objs := [{ index := 1, name := 5, deleted := false, ts := { rx := 0x1002 } }] } =
    .ok (r, 0, [(5, 1), (5, 1), (5, 1)]) ∧ (r.obj 0).tsOn = true := ⟨_, rfl, rfl⟩

/-! ## C309 -/

/-- **C309**: an interface that is said to do PTP in hardware can stamp packets sent. -/
def C309_statement : Prop :=
  ∀ (es : List (Kern × Ev)) (r : St), run {} es = .ok r → ∀ (K : Kern) (k : Nat) (o : Intf), StandsFor r k o →
    supportsPtp K r k = .ok true → o.ts.tx.getLsbD 1 = true

/-- A device that has no hardware stamps of packets sent but says it has in the other field:
the test for it has no effect. -/
theorem C309_violated : ¬ C309_statement := by
  intro h
  have := h [(plain [(1, 5)], .insert { port 1 5 with ts := some { so := 0x45, tx := 1, rx := 3, phc := 0 } })] _ rfl
    (plain [(1, 5)]) 0 _ ⟨0, 0, Leads.here rfl rfl, rfl, rfl⟩ rfl
  revert this
  decide

/-- **C309**, in part: what is said is exactly what the fields that are looked at say:
hardware needs stamps of both directions, raw, a clock and a filter that will do. Missing:
the types of transmit time stamping. -/
theorem C309_caps_partial (K : Kern) (s : St) (k : Nat) (o : Intf) (h : StandsFor s k o) (sw hw : Bool)
    (hc : getPtpCaps s k = .ok (sw, hw)) :
    (sw = true ↔ o.ts.so.getLsbD 1 = true ∧ o.ts.so.getLsbD 3 = true ∧ o.ts.so.getLsbD 4 = true) ∧
    (hw = true ↔ (o.ts.so.getLsbD 0 = true ∧ o.ts.so.getLsbD 2 = true ∧ o.ts.so.getLsbD 6 = true) ∧ o.ts.phc ≠ -1 ∧
      (o.ts.rx.getLsbD 1 = true ∨ o.ts.rx.getLsbD 12 = true ∨ o.ts.rx.getLsbD 6 = true)) ∧
    getRxCaps s k = .ok (sw, hw && o.ts.rx.getLsbD 1) ∧
    supportsPtp K s k = .ok (hw && (o.cls == .sfc || o.cls == .xnet || K.nonSfc)) ∧
    supportsPps K s k = .ok (decide (o.ts.phc ≠ -1) && (o.cls == .sfc || o.cls == .xnet || K.nonSfc)) := by
  obtain ⟨n, m, hl, ho, hd⟩ := h
  have hcn : canon s k = .ok (some m) := by rw [canon_of hl, obj_of ho, if_neg (by simp [hd])]
  simp only [getPtpCaps, read, hcn, Out.bind, obj_of ho, Out.ok.injEq] at hc
  have h1 : sw = decide (o.ts.so &&& soSw = soSw) := (congrArg Prod.fst hc).symm
  have h2 : hw = (ptpCaps o.ts).2 := (congrArg Prod.snd hc).symm
  have hw_iff : hw = true ↔ (o.ts.so.getLsbD 0 = true ∧ o.ts.so.getLsbD 2 = true ∧ o.ts.so.getLsbD 6 = true) ∧
      o.ts.phc ≠ -1 ∧ (o.ts.rx.getLsbD 1 = true ∨ o.ts.rx.getLsbD 12 = true ∨ o.ts.rx.getLsbD 6 = true) := by
    rw [h2]
    unfold ptpCaps
    rw [decide_eq_true_iff, bits_raw, bit_one, bit_twelve, bit_six]
  refine ⟨?_, hw_iff, ?_, ?_, ?_⟩
  · rw [h1, decide_eq_true_iff, bits_sw]
  · simp only [getRxCaps, read, hcn, Out.bind, obj_of ho, Out.ok.injEq, rxCaps, Prod.mk.injEq]
    refine ⟨h1.symm, ?_⟩
    rw [Bool.eq_iff_iff, decide_eq_true_iff, Bool.and_eq_true, hw_iff, bits_raw, bit_one]
    constructor
    · rintro ⟨a, b, c⟩; exact ⟨⟨a, b, .inl c⟩, c⟩
    · rintro ⟨⟨a, b, _⟩, c⟩; exact ⟨a, b, c⟩
  · simp only [supportsPtp, read, hcn, Out.bind, obj_of ho, Out.ok.injEq]
    rw [← h2]
    have hp : hw = true → o.ts.phc ≠ -1 := fun h => (hw_iff.mp h).2.1
    cases hw with
    | false => simp
    | true =>
      have := hp rfl
      cases o.cls <;> cases K.nonSfc <;> simp [this]
  · simp only [supportsPps, read, hcn, Out.bind, obj_of ho]

/-- **C309**: what the test that is without effect finds capable is said to be. -/
theorem C309_capable_partial (t : Ts) (h : ptpCapable t = true) : (ptpCaps t).2 = true ∧ t.tx.getLsbD 1 = true := by
  unfold ptpCapable at h
  rw [decide_eq_true_iff, bits_raw, bit_one, bits_min] at h
  obtain ⟨h1, h2, h3, h4⟩ := h
  refine ⟨?_, h3⟩
  unfold ptpCaps
  rw [decide_eq_true_iff, bits_raw, bit_one, bit_twelve, bit_six]
  exact ⟨h2, h1, h4⟩

example : getPtpCaps { objs := [{ index := 1, deleted := false, ts := { so := 0x5f, rx := 0x40 } }] } 0 = .ok (true, true) ∧
    getRxCaps { objs := [{ index := 1, deleted := false, ts := { so := 0x5f, rx := 0x40 } }] } 0 = .ok (true, false) ∧
    ptpCapable { so := 0x5f, rx := 0x40, tx := 2 } = true := by decide

/-! ## C310 -/

/-- **C310**: a link becomes an interface exactly if it is a physical link or a macvlan,
not wireless, physical links only if not virtual, and Ethernet; its class goes by the
vendor, and the device for one vendor. -/
theorem C310_suitable (K : Kern) (l : Link) :
    ((suitable K l).isSome = true ↔ (l.kind = .physical ∧ K.virt l.name = false ∨ l.kind = .macvlan) ∧
      K.wireless l.name = false ∧ l.ether = true) ∧
    ∀ c, suitable K l = some c →
      (c = .sfc ↔ K.vendor l.name = 6436) ∧ (c = .xnet ↔ K.vendor l.name = 4334 ∧ K.device l.name = 20612) := by
  unfold suitable
  constructor
  · cases l.kind <;> simp <;> cases K.wireless l.name <;> cases K.virt l.name <;> cases l.ether <;> simp <;>
      (repeat' split) <;> simp
  · intro c hc
    have key : (if K.vendor l.name = 0x1924 then some Class.sfc
        else if K.vendor l.name = 0x10ee ∧ K.device l.name = 0x5084 then some .xnet else some .other) = some c := by
      cases hk : l.kind <;> rw [hk] at hc <;> simp only [reduceCtorEq] at hc <;>
        (split at hc <;> [cases hc; skip]) <;> (split at hc <;> [cases hc; skip]) <;>
        (split at hc <;> [cases hc; exact hc])
    split at key
    · cases key
      rename_i hv
      exact ⟨⟨fun _ => hv, fun _ => rfl⟩, ⟨fun h => (nomatch h), fun h => by rw [hv] at h; omega⟩⟩
    · rename_i hv
      split at key
      · rename_i hx
        cases key
        exact ⟨⟨fun h => (nomatch h), fun h => absurd h hv⟩, ⟨fun _ => hx, fun _ => rfl⟩⟩
      · rename_i hx
        cases key
        exact ⟨⟨fun h => (nomatch h), fun h => absurd h hv⟩, ⟨fun h => (nomatch h), fun h => absurd h hx⟩⟩

/-- **C310**: a link that does not become an interface leaves an object that is gone, also
if there was an interface with its index before. -/
theorem C310_unsuitable (K : Kern) (l : Link) (s r : St) (rc : Int) (hs : suitable K l = none)
    (h : insert K l s = .ok (r, rc)) : ∃ (k : Nat) (o : Intf), findIndex r l.index = some k ∧ r.objs[k]? = some o ∧
      o.index = l.index ∧ o.name = l.name ∧ o.deleted = true := by
  have hix := insert_index K l s _ h
  unfold insert at h
  cases hf : findIndex s l.index with
  | none =>
    rw [hf] at h
    dsimp only at h hix
    obtain ⟨o, h1, h2⟩ := settle_unsuitable hs (by simp) h
    refine ⟨_, o, ?_, h1, h2⟩
    have hn : l.index ∉ s.objs.map (·.index) := by
      intro hm
      obtain ⟨x, hx, e⟩ := List.mem_map.mp hm
      exact findIndex_none.mp hf x hx e
    rw [if_neg hn] at hix
    rw [findIndex_map, hix, List.findIdx?_append, ← findIndex_map, hf]
    simp
  | some k =>
    rw [hf] at h
    obtain ⟨hk, hi⟩ := findIndex_lt hf
    have hm : l.index ∈ s.objs.map (·.index) := List.mem_map.mpr ⟨s.obj k, List.mem_of_getElem? (obj_lt hk), hi⟩
    dsimp only at h hix
    rw [if_pos hm] at hix
    have hr : findIndex r l.index = some k := by rw [findIndex_map, hix, ← findIndex_map, hf]
    split at h
    · obtain ⟨o, h1, h2⟩ := settle_unsuitable hs (by rw [handleRename_length]; exact hk) h
      exact ⟨k, o, hr, h1, h2⟩
    · obtain ⟨o, h1, h2⟩ := settle_unsuitable hs hk h
      exact ⟨k, o, hr, h1, h2⟩

/-- The interface becomes part of a bond. -/
example : ∃ r, run {} [(plain [(1, 5)], .insert (port 1 5)),
      (plain [(1, 5)], .insert { port 1 5 with kind := .bond })] = .ok r ∧ (r.obj 0).deleted = true ∧
    suitable (plain []) (port 1 5) = some .sfc := ⟨_, rfl, rfl, rfl⟩

/-! ## C311 -/

/-- **C311**: a link that lacks what is needed does not stop the program from starting. -/
def C311_statement : Prop := ∀ (K : Kern) (cfg : TsCfg) (ls : List Link), initialise K cfg ls ≠ .assert

/-- The device does not tell its permanent address, and netlink does not either: the object
is freed, which is for deleted objects only. -/
theorem C311_violated : ¬ C311_statement := fun h =>
  h { plain [(1, 5)] with perm := fun _ => .error 95 } (.names []) [{ port 1 5 with perm := none }] rfl

/-- **C311**, in part: if start-up succeeds, there is one interface for each link that is
suitable, in the order of the links, and none is gone. -/
theorem C311_table_partial (K : Kern) (cfg : TsCfg) (ls : List Link) (r : St) (h : initialise K cfg ls = .ok (r, 0)) :
    r.objs.map (fun o => (o.index, o.deleted)) =
      (ls.filter fun l => (suitable K l).isSome).map fun l => (l.index, false) := by
  have := initialise_all (P := fun s => s.objs.map idd =
      (ls.filter fun l => (suitable K l).isSome).map fun l => (l.index, false)) cfg ls
    (fun r hr h0 => by simpa using scan_idd K ls {} r hr h0)
    (fun s m hs _ _ => (checkRename_same idd (fun _ _ _ => rfl) K s m).trans hs)
    (fun s m b hs => (upd_same idd s m (fun x => { x with tsOn := b }) fun x => rfl).trans hs) _ h rfl
  exact this

/-- **C311**, in part: if netlink tells all about every link, start-up comes to an end,
with a table that has every suitable link. Missing: links about which the device has to be
asked. -/
theorem C311_complete_partial (K : Kern) (cfg : TsCfg) (ls : List Link) (hc : ∀ l ∈ ls, Complete l) :
    ∃ r rc, initialise K cfg ls = .ok (r, rc) ∧ (cfg = .names [] → rc = 0) ∧
      r.objs.map (fun o => (o.index, o.deleted)) =
        (ls.filter fun l => (suitable K l).isSome).map fun l => (l.index, false) := by
  obtain ⟨⟨s, rc⟩, hs, h0, hg⟩ := scan_good (K := K) ls {} good_empty hc
  dsimp only at h0 hg
  subst h0
  have hid : s.objs.map idd = (ls.filter fun l => (suitable K l).isSome).map fun l => (l.index, false) := by
    simpa using scan_idd K ls {} _ hs rfl
  have ren : ∀ (t : St) (m : Nat), t.objs.map idd = s.objs.map idd → (t.obj m).canonical = none →
      (t.obj m).deleted = false → (checkRename K t m).objs.map idd = s.objs.map idd :=
    fun t m ht _ _ => (checkRename_same idd (fun _ _ _ => rfl) K t m).trans ht
  have ts : ∀ (t : St) (m : Nat) (b : Bool), t.objs.map idd = s.objs.map idd →
      (t.upd m fun x => { x with tsOn := b }).objs.map idd = s.objs.map idd :=
    fun t m b ht => (upd_same idd t m (fun x => { x with tsOn := b }) fun x => rfl).trans ht
  unfold initialise
  rw [hs, bind_ok]
  dsimp only
  rw [if_neg (by simp)]
  cases cfg with
  | all =>
    obtain ⟨⟨r, rc⟩, hr, _⟩ := enableAll_fine (K := K) (List.range s.objs.length) s 0 hg (fun k hk => by simpa using hk)
    exact ⟨r, rc, hr, fun h => (nomatch h), (enableAll_all ren ts _ s 0 rfl _ hr).trans hid⟩
  | names ns =>
    obtain ⟨⟨r, rc⟩, hr, _⟩ := enableNames_fine (K := K) ns s hg
    refine ⟨r, rc, hr, fun h => ?_, (enableNames_all ren ts _ s rfl _ hr).trans hid⟩
    cases h
    cases hr
    rfl

example : ∃ r, initialise (plain [(1, 5), (2, 6)]) .all [port 1 5, { port 2 6 with kind := .vlan }, port 3 7] = .ok (r, 0) ∧
    r.objs.map (·.index) = [1, 3] ∧ r.objs.map (·.tsOn) = [true, true] ∧ Complete (port 1 5) :=
  ⟨_, rfl, by decide, by decide, by decide, by decide, by decide⟩

/-! ## C312 -/

/-- **C312**: when the program ends, all the memory for statistics of interfaces has been
given back. -/
def C312_statement : Prop := ∀ (es : List (Kern × Ev)) (r : St), run {} es = .ok r → leaked r = 0

/-- Each change of a link allocates the memory anew. -/
theorem C312_violated : ¬ C312_statement := by
  intro h
  have := h [(plain [(1, 5)], .insert (port 1 5)), (plain [(1, 5)], .insert { port 1 5 with up := false })] _ rfl
  revert this
  decide

/-- **C312**, in part: it has if each interface is told of once. Missing: changes. -/
theorem C312_once_partial (es : List (Kern × Ev)) (r : St) (ha : Along (fun _ s e => Once s e) {} es)
    (h : run {} es = .ok r) : leaked r = 0 :=
  leaked_zero (block_run es {} (fun o ho => absurd ho List.not_mem_nil) ha r h)

example : Along (fun _ s e => Once s e) {} [(plain [(1, 5)], .insert (port 1 5)), (plain [], .enable 0),
    (plain [], .remove 1 5), (plain [(2, 5)], .insert (port 2 5))] := by
  refine ⟨fun o ho => absurd ho List.not_mem_nil, fun s hs => ?_⟩
  cases hs
  refine ⟨trivial, fun s hs => ?_⟩
  cases hs
  refine ⟨trivial, fun s hs => ?_⟩
  cases hs
  refine ⟨?_, fun _ _ => trivial⟩
  show ∀ o ∈ _, _
  decide

/-! ## C313 -/

/-- **C313**: two interfaces that are there have the same NIC number exactly if they have the
same clock. -/
def C313_statement : Prop := ∀ (es : List (Kern × Ev)) (r : St), run {} es = .ok r → OneNic r

/-- The first port of a NIC is removed before the second comes, and then comes back: it has
its old number, the second a new one. -/
theorem C313_violated : ¬ C313_statement := by
  intro h
  have := h [(plain [(1, 5)], .insert (port 1 5)), (plain [], .remove 1 5), (plain [(2, 6)], .insert (port 2 6)),
    (plain [(1, 5), (2, 6)], .insert (port 1 5))] _ rfl
  have := this _ List.mem_cons_self _ (List.mem_cons_of_mem _ List.mem_cons_self) rfl rfl (by decide) (by decide)
  revert this
  decide

/-- **C313**, in part: so it is after start-up, if addresses differ and NICs are not taken to
have one clock each. Missing: what comes and goes later. -/
theorem C313_start_partial (K : Kern) (cfg : TsCfg) (ls : List Link) (r : St) (hone : K.onePhc = false)
    (hi : (ls.map (·.index)).Nodup) (h : initialise K cfg ls = .ok (r, 0)) (hm : (r.objs.map (·.mac)).Nodup) :
    OneNic r := by
  have := initialise_all (P := NicGood) cfg ls
    (scan_nic hone ls {} (fun _ => ⟨fun o ho => absurd ho List.not_mem_nil, fun o ho => absurd ho List.not_mem_nil,
      fun o ho => absurd ho List.not_mem_nil, Int.le_refl _⟩) (fun l _ o ho => absurd ho List.not_mem_nil) hi)
    (fun s m hs _ _ => nicGood_same (checkRename_same core (fun _ _ _ => rfl) K s m) (nextNic_checkRename K s m) hs)
    (fun s m b hs => nicGood_same (upd_same core s m (fun x => { x with tsOn := b }) fun x => rfl) rfl hs) _ h rfl
  intro a ha b hb _ _ h1 h2
  exact (this hm).one a ha b hb h1 h2

/-- **C313**: over any run an interface that has a number keeps it, and all numbers are
below the next. -/
theorem C313_permanent (s : St) (hs : 0 ≤ s.nextNic ∧ ∀ o ∈ s.objs, -1 ≤ o.nic ∧ o.nic < s.nextNic)
    (es : List (Kern × Ev)) (r : St) (h : run s es = .ok r) :
    (∀ o ∈ r.objs, -1 ≤ o.nic ∧ o.nic < r.nextNic) ∧
    ∀ (k : Nat) (o : Intf), s.objs[k]? = some o → o.nic ≠ -1 → ∃ o', r.objs[k]? = some o' ∧ o'.nic = o.nic := by
  obtain ⟨h1, h2⟩ := nic_run (s0 := s) es s ⟨hs, fun k o ho => ⟨o, ho, fun _ => rfl⟩⟩ r h
  refine ⟨h1.2, fun k o ho hn => ?_⟩
  obtain ⟨o', h3, h4⟩ := h2 k o ho
  exact ⟨o', h3, h4 hn⟩

example : ∃ r, initialise (plain [(1, 5), (2, 6), (3, 7)]) (.names []) [port 1 5,
      { port 2 6 with ts := some { so := 0x45, tx := 3, rx := 3, phc := 1 } }, port 3 7] = .ok (r, 0) ∧
    r.objs.map (·.nic) = [0, 1, 0] ∧ (r.objs.map (·.mac)).Nodup := ⟨_, rfl, by decide, by decide⟩

end Verif.Intf
