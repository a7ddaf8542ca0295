import Verif.Bond.Props2

set_option linter.unusedSimpArgs false
set_option linter.unusedVariables false

/-!
# Choosing the interface of a port, and the type of timestamps
-/

namespace Verif.Bond

/-- What the loop of `ptp_get_active_intf` knows after the links `u` that are up. -/
structure Known (recv cur : Phys → Bool) (u : List Phys) (s : Best) : Prop where
  sync : s.sync = u.any recv
  got : s.sync = true → u.reverse.find? recv = some s.best
  prim : s.sync = false → s.best.primary = u.any Phys.primary
  last : s.sync = false → s.best.primary = true → u.reverse.find? Phys.primary = some s.best
  hw : s.sync = false → s.best.primary = false → s.best.hwts = u.any Phys.hwts
  rest : s.sync = false → s.best.primary = false → u ≠ [] →
    ((u.find? fun p => p.hwts && cur p).or (u.find? Phys.hwts)).or u.getLast? = some s.best ∧
      s.current = cur s.best

theorem any_snoc {α : Type} (f : α → Bool) (u : List α) (p : α) : (u ++ [p]).any f = (u.any f || f p) := by
  simp

theorem find_none_of_any {α : Type} (f : α → Bool) (u : List α) (h : u.any f = false) : u.find? f = none := by
  rw [List.find?_eq_none]
  intro x hx hf
  rw [List.any_eq_false] at h
  exact h x hx hf

theorem find_some_of_any {α : Type} (f : α → Bool) (u : List α) (h : u.any f = true) :
    ∃ x, u.find? f = some x ∧ f x = true := by
  cases hf : u.find? f with
  | none =>
    rw [List.find?_eq_none] at hf
    obtain ⟨x, hx, hfx⟩ := List.any_eq_true.1 h
    exact absurd hfx (hf x hx)
  | some x => exact ⟨x, rfl, List.find?_some hf⟩

theorem find_hw_cur_none {u : List Phys} {cur : Phys → Bool} (h : u.any Phys.hwts = false) :
    (u.find? fun p => p.hwts && cur p) = none := by
  rw [List.find?_eq_none]
  intro x hx hf
  rw [List.any_eq_false] at h
  simp only [Bool.and_eq_true] at hf
  exact h x hx hf.1

theorem Known.snoc {ifs : Ifs} {clock : Nat} {sync : Int} {u : List Phys} {s : Best} (p : Phys) (hp : p.up = true)
    (k : Known (fun q => indexOf ifs q.intf == sync) (fun q => clockOf ifs q.intf == clock) u s) :
    Known (fun q => indexOf ifs q.intf == sync) (fun q => clockOf ifs q.intf == clock) (u ++ [p])
      (s.step ifs clock sync p) := by
  generalize hs' : s.step ifs clock sync p = s'
  unfold Best.step at hs'
  simp only [hp, Bool.true_eq_false, if_false] at hs'
  generalize hR : (fun q : Phys => indexOf ifs q.intf == sync) = R at k ⊢
  have hRp : (indexOf ifs p.intf == sync) = R p := by rw [← hR]
  generalize hC : (fun q : Phys => clockOf ifs q.intf == clock) = C at k ⊢
  have hCp : (clockOf ifs p.intf == clock) = C p := by rw [← hC]
  rw [hRp, hCp] at hs'
  have hrev : (u ++ [p]).reverse = p :: u.reverse := by simp
  cases hr : R p with
  | true =>
    simp only [hr, if_true] at hs'
    subst hs'
    exact ⟨by rw [any_snoc, hr]; simp, fun _ => by rw [hrev, List.find?_cons_of_pos hr], nofun, nofun, nofun, nofun⟩
  | false =>
    simp only [hr, Bool.false_eq_true, if_false] at hs'
    have hsync : (u ++ [p]).any R = u.any R := by rw [any_snoc, hr, Bool.or_false]
    cases hsy : s.sync with
    | true =>
      simp only [hsy, if_true] at hs'
      subst hs'
      refine ⟨by rw [hsync, k.sync], fun _ => ?_, ?_, ?_, ?_, ?_⟩
      · rw [hrev, List.find?_cons_of_neg (by rw [hr]; simp)]
        exact k.got hsy
      all_goals (intro hh; rw [hsy] at hh; cases hh)
    | false =>
      simp only [hsy, Bool.false_eq_true, if_false] at hs'
      cases hpp : p.primary with
      | true =>
        simp only [hpp, if_true] at hs'
        subst hs'
        refine ⟨by rw [hsync, ← k.sync, hsy], ?_, fun _ => ?_, fun _ _ => ?_, ?_, ?_⟩
        · intro hh; cases hh
        · rw [any_snoc]; simp [hpp]
        · rw [hrev, List.find?_cons_of_pos hpp]
        · intro _ hh; rw [show p.primary = false from hh] at hpp; cases hpp
        · intro _ hh; rw [show p.primary = false from hh] at hpp; cases hpp
      | false =>
        simp only [hpp, Bool.false_eq_true, if_false] at hs'
        have hprim : (u ++ [p]).any Phys.primary = u.any Phys.primary := by rw [any_snoc, hpp, Bool.or_false]
        cases hbp : s.best.primary with
        | true =>
          simp only [hbp, if_true] at hs'
          subst hs'
          refine ⟨by rw [hsync, k.sync], ?_, fun _ => ?_, fun _ _ => ?_, ?_, ?_⟩
          · intro hh; rw [hsy] at hh; cases hh
          · rw [hprim]; exact k.prim hsy
          · rw [hrev, List.find?_cons_of_neg (by rw [hpp]; simp)]; exact k.last hsy hbp
          · intro _ hh; rw [hbp] at hh; cases hh
          · intro _ hh; rw [hbp] at hh; cases hh
        | false =>
          simp only [hbp, Bool.false_eq_true, if_false] at hs'
          have hno : u.any Phys.primary = false := by rw [← k.prim hsy, hbp]
          have khw := k.hw hsy hbp
          -- the new state takes `p`
          have take : ∀ s'' : Best, s'' = { s with best := p, current := C p } →
              (s.best.hwts = false ∨ (p.hwts = true ∧ C p = true ∧ s.current = false)) →
              Known R C (u ++ [p]) s'' := by
            intro s'' he hcase
            subst he
            refine ⟨by rw [hsync, ← k.sync], ?_, fun _ => ?_, ?_, fun _ _ => ?_, fun _ _ _ => ⟨?_, rfl⟩⟩
            · intro hh; rw [show s.sync = true from hh] at hsy; cases hsy
            · rw [hprim, hno]; exact hpp
            · intro _ hh; rw [show p.primary = true from hh] at hpp; cases hpp
            · show p.hwts = _
              rw [any_snoc]
              rcases hcase with h | h
              · rw [← khw, h, Bool.false_or]
              · rw [h.1, Bool.or_true]
            · show _ = some p
              rcases hcase with h | ⟨h1, h2, h3⟩
              · have hu : u.any Phys.hwts = false := by rw [← khw, h]
                rw [List.find?_append, List.find?_append, find_hw_cur_none hu, find_none_of_any _ _ hu]
                cases hph : p.hwts
                · simp [hph]
                · cases hcp : C p <;> simp [hph, hcp]
              · have hcn : (u.find? fun q => q.hwts && C q) = none := by
                  cases hf : (u.find? fun q => q.hwts && C q) with
                  | none => rfl
                  | some q =>
                    exfalso
                    have hune : u ≠ [] := by intro hh; rw [hh] at hf; cases hf
                    obtain ⟨e1, e2⟩ := k.rest hsy hbp hune
                    rw [hf] at e1
                    have hq : q = s.best := by
                      have : some q = some s.best := by rw [← e1]; rfl
                      exact Option.some.inj this
                    have := List.find?_some hf
                    simp only [Bool.and_eq_true] at this
                    rw [hq] at this
                    rw [e2, this.2] at h3
                    cases h3
                rw [List.find?_append, hcn]
                simp [h1, h2]
          -- the state stays
          have stay : (s.best.hwts = true ∧ (p.hwts = false ∨ C p = false ∨ s.current = true)) →
              Known R C (u ++ [p]) s := by
            rintro ⟨h1, h2⟩
            have hu : u.any Phys.hwts = true := by rw [← khw, h1]
            have hune : u ≠ [] := by intro hh; rw [hh] at hu; cases hu
            obtain ⟨e1, e2⟩ := k.rest hsy hbp hune
            refine ⟨by rw [hsync, k.sync], ?_, fun _ => ?_, ?_, fun _ _ => ?_, fun _ _ _ => ⟨?_, e2⟩⟩
            · intro hh; rw [hsy] at hh; cases hh
            · rw [hprim, hno, hbp]
            · intro _ hh; rw [hbp] at hh; cases hh
            · rw [any_snoc, hu, h1, Bool.true_or]
            · obtain ⟨x, hx, -⟩ := find_some_of_any _ _ hu
              rw [List.find?_append, List.find?_append, hx]
              rw [hx] at e1
              cases hf : (u.find? fun q => q.hwts && C q) with
              | some q => rw [hf] at e1; simpa using e1
              | none =>
                rw [hf] at e1
                have hxb : x = s.best := by simpa using e1
                have hncur : C s.best = false := by
                  cases hcb : C s.best with
                  | false => rfl
                  | true =>
                    rw [List.find?_eq_none] at hf
                    have := hf x (List.mem_of_find?_eq_some hx)
                    rw [hxb] at this
                    simp [h1, hcb] at this
                have hpn : (p.hwts && C p) = false := by
                  rcases h2 with h | h | h
                  · rw [h]; rfl
                  · rw [h, Bool.and_false]
                  · rw [e2, hncur] at h; cases h
                simp [hpn, hxb]
          cases hbh : s.best.hwts with
          | false =>
            simp only [hbh, Bool.not_false, Bool.or_true, Bool.true_or, if_true] at hs'
            exact take s' hs'.symm (.inl hbh)
          | true =>
            simp only [hbh, Bool.not_true, Bool.or_false, Bool.false_or] at hs'
            cases hph : p.hwts with
            | false =>
              simp only [hph, Bool.false_eq_true, if_false] at hs'
              subst hs'
              exact stay ⟨hbh, .inl hph⟩
            | true =>
              simp only [hph, if_true] at hs'
              by_cases hcc : (C p && !s.current) = true
              · rw [if_pos hcc] at hs'
                simp only [Bool.and_eq_true, Bool.not_eq_true'] at hcc
                exact take s' hs'.symm (.inr ⟨hph, hcc.1, hcc.2⟩)
              · rw [if_neg hcc] at hs'
                subst hs'
                refine stay ⟨hbh, .inr ?_⟩
                cases hcp : C p
                · exact .inl rfl
                · right
                  cases hsc : s.current
                  · rw [hcp, hsc] at hcc; exact absurd rfl hcc
                  · rfl

theorem step_down {ifs : Ifs} {clock : Nat} {sync : Int} {s : Best} {p : Phys} (hp : p.up = false) :
    s.step ifs clock sync p = s := by
  unfold Best.step
  simp [hp]

theorem known_fold {ifs : Ifs} {clock : Nat} {sync : Int} (l : List Phys) (u : List Phys) (s : Best)
    (k : Known (fun q => indexOf ifs q.intf == sync) (fun q => clockOf ifs q.intf == clock) u s) :
    Known (fun q => indexOf ifs q.intf == sync) (fun q => clockOf ifs q.intf == clock) (u ++ ups l)
      (l.foldl (Best.step ifs clock sync) s) := by
  induction l generalizing u s with
  | nil => simpa [ups] using k
  | cons p rest ih =>
    rw [List.foldl_cons]
    cases hp : p.up with
    | false =>
      rw [step_down hp]
      have : ups (p :: rest) = ups rest := by unfold ups; rw [List.filter_cons_of_neg (by rw [hp]; simp)]
      rw [this]
      exact ih u s k
    | true =>
      have : u ++ ups (p :: rest) = (u ++ [p]) ++ ups rest := by
        unfold ups; rw [List.filter_cons_of_pos hp]; simp
      rw [this]
      exact ih _ _ (k.snoc p hp)

theorem fold_down {ifs : Ifs} {clock : Nat} {sync : Int} (l : List Phys) (s : Best) (h : ups l = []) :
    l.foldl (Best.step ifs clock sync) s = s := by
  induction l generalizing s with
  | nil => rfl
  | cons p rest ih =>
    cases hp : p.up with
    | true => unfold ups at h; rw [List.filter_cons_of_pos hp] at h; cases h
    | false =>
      have h' : ups rest = [] := by
        unfold ups at h ⊢
        rw [List.filter_cons_of_neg (by rw [hp]; simp)] at h
        exact h
      rw [List.foldl_cons, step_down hp, ih s h']

theorem received_eq (ifs : Ifs) (sync : Int) : received ifs sync = fun q => indexOf ifs q.intf == sync := by
  funext q
  unfold received indexOf
  cases q.intf <;> rfl

theorem hasClock_eq (ifs : Ifs) (c : Nat) : hasClock ifs c = fun q => clockOf ifs q.intf == c := by
  funext q
  unfold hasClock clockOf
  cases q.intf <;> rfl

/-! ## C233 -/

/-- **C233.** A port always uses one of the physical interfaces found, if there are any, and
none otherwise. -/
theorem C233_member (ifs : Ifs) (clock : Nat) (sync : Int) (b : Info) (ps : List Phys) (hps : Members b ps) :
    (ps = [] → active ifs clock sync b = none) ∧
      (ps ≠ [] → ∃ p ∈ ps, active ifs clock sync b = p.intf) := by
  have hlen := hps.1
  have hv := hps.eq
  constructor
  · intro h
    subst h
    unfold active
    rw [if_pos (by simp at hlen; omega)]
  · intro h
    have hpos : 0 < b.num := by rw [← hlen]; exact List.length_pos_iff.2 h
    unfold active
    rw [if_neg (by omega), ← hv]
    have h0 : b.slots 0 ∈ ps := by
      rw [hv]; unfold Info.valid
      exact List.mem_map.2 ⟨0, List.mem_range.2 hpos, rfl⟩
    have key : ∀ (l : List Phys) (s : Best), (∀ q ∈ l, q ∈ ps) → s.best ∈ ps →
        (l.foldl (Best.step ifs clock sync) s).best ∈ ps := by
      intro l
      induction l with
      | nil => intro s _ hs; exact hs
      | cons q rest ih =>
        intro s hl hs
        rw [List.foldl_cons]
        refine ih _ (fun x hx => hl x (by simp [hx])) ?_
        have hq := hl q (by simp)
        unfold Best.step
        simp only
        repeat' split
        all_goals first | exact hs | exact hq
    exact ⟨_, key ps _ (fun _ h => h) h0, rfl⟩

/-- **C233**, the full statement: when there is an interface that is up, the one used is
the one to be preferred. -/
def C233_statement : Prop :=
  ∀ (ifs : Ifs) (clock : Nat) (sync : Int) (b : Info) (ps : List Phys), Members b ps → ups ps ≠ [] →
    active ifs clock sync b = (preferred (received ifs sync) (hasClock ifs clock) ps).bind Phys.intf

/-- A first interface that is down but has hardware timestamps is used although another one
is up. -/
theorem C233_violated : ¬ C233_statement := by
  intro h
  have := h demo 7 0 { num := 2, slots := fun k => if k = 0 then ⟨some 1, false, false, true⟩ else ⟨some 2, true, false, true⟩ }
    [⟨some 1, false, false, true⟩, ⟨some 2, true, false, true⟩]
    ⟨rfl, by
      intro k p hk
      match k, hk with
      | 0, hk => exact Option.some.inj hk
      | 1, hk => exact Option.some.inj hk
      | n + 2, hk => simp at hk⟩ (by decide)
  revert this
  decide

/-- The first interface is up or it has nothing that would make it preferred. -/
def HeadOk (ps : List Phys) : Prop :=
  ∀ p, ps.head? = some p → p.up = true ∨ (p.primary = false ∧ p.hwts = false)

instance (ps : List Phys) : Decidable (HeadOk ps) :=
  decidable_of_iff ((ps.head?.all fun p => p.up || (!p.primary && !p.hwts)) = true) (by
    unfold HeadOk
    cases ps.head? with
    | none => simp
    | some p => simp)

/-- What a port is to use, given the physical interfaces: the preferred one of those that are
up, or else the first. -/
def Chosen (ifs : Ifs) (clock : Nat) (sync : Int) (ps : List Phys) : Option Nat :=
  if ups ps = [] then (ps.head?).bind Phys.intf
  else (preferred (received ifs sync) (hasClock ifs clock) ps).bind Phys.intf

/-- **C233**, unless the first interface is down and has hardware timestamps or is primary. -/
theorem C233_preferred_partial (ifs : Ifs) (clock : Nat) (sync : Int) (b : Info) (ps : List Phys)
    (hps : Members b ps) (hok : HeadOk ps) : active ifs clock sync b = Chosen ifs clock sync ps := by
  have hlen := hps.1
  have hv := hps.eq
  by_cases hnil : ps = []
  · subst hnil
    rw [(C233_member ifs clock sync b [] hps).1 rfl]
    rfl
  have hpos : 0 < b.num := by rw [← hlen]; exact List.length_pos_iff.2 hnil
  have hhead : ps.head? = some (b.slots 0) := by
    have := valid_getElem b 0
    rw [if_pos hpos, ← hv] at this
    rw [List.head?_eq_getElem?, this]
  unfold active Chosen
  rw [if_neg (by omega), ← hv]
  by_cases hu : ups ps = []
  · rw [if_pos hu, fold_down ps _ hu, hhead]
    rfl
  rw [if_neg hu]
  have k : Known (fun q => indexOf ifs q.intf == sync) (fun q => clockOf ifs q.intf == clock) (ups ps)
      (ps.foldl (Best.step ifs clock sync) { best := b.slots 0 }) := by
    rcases hok _ hhead with h | ⟨h1, h2⟩
    · obtain ⟨p, rest, rfl⟩ := List.exists_cons_of_ne_nil hnil
      have hp : b.slots 0 = p := by simpa using hhead.symm
      rw [hp] at h ⊢
      rw [List.foldl_cons]
      have e : ups (p :: rest) = [p] ++ ups rest := by unfold ups; rw [List.filter_cons_of_pos h]; rfl
      rw [e]
      refine known_fold rest [p] _ ?_
      unfold Best.step
      simp only [h, Bool.true_eq_false, if_false]
      cases hr : (indexOf ifs p.intf == sync)
      · simp only [Bool.false_eq_true, if_false]
        cases hpp : p.primary
        · simp only [Bool.false_eq_true, if_false]
          cases hph : p.hwts
          · simp only [Bool.not_false, Bool.or_true, if_true, Bool.true_or]
            constructor <;> simp [hr, hpp, hph]
          · simp only [Bool.true_or, if_true, Bool.not_true, Bool.false_or, Bool.not_false, Bool.and_true]
            cases hc : (clockOf ifs p.intf == clock)
            · simp only [Bool.false_eq_true, if_false]
              constructor <;> simp [hr, hpp, hph, hc]
            · simp only [if_true]
              constructor <;> simp [hr, hpp, hph, hc]
        · simp only [if_true]
          constructor <;> simp [hr, hpp]
      · simp only [if_true]
        constructor <;> simp [hr]
    · have := known_fold (ifs := ifs) (clock := clock) (sync := sync) ps [] { best := b.slots 0 } (by
        constructor <;> simp [h1, h2])
      simpa using this
  generalize ps.foldl (Best.step ifs clock sync) { best := b.slots 0 } = s at k ⊢
  unfold preferred
  simp only
  rw [received_eq, hasClock_eq]
  cases hsy : s.sync with
  | true => rw [k.got hsy]; rfl
  | false =>
    have hnr : (ups ps).reverse.find? (fun q => indexOf ifs q.intf == sync) = none := by
      refine find_none_of_any _ _ ?_
      rw [List.any_reverse, ← k.sync, hsy]
    rw [hnr, Option.none_or]
    cases hbp : s.best.primary with
    | true => rw [k.last hsy hbp]; rfl
    | false =>
      have hnp : (ups ps).reverse.find? Phys.primary = none := by
        refine find_none_of_any _ _ ?_
        rw [List.any_reverse, ← k.prim hsy, hbp]
      rw [hnp, Option.none_or, (k.rest hsy hbp hu).1]
      rfl

example : let ps : List Phys := [⟨some 11, true, false, false⟩, ⟨some 1, true, false, true⟩,
    ⟨some 2, true, false, true⟩, ⟨some 3, false, true, true⟩]
    HeadOk ps ∧ Chosen demo 2 0 ps = some 2 ∧ Chosen demo 7 0 ps = some 1 ∧ Chosen demo 2 11 ps = some 11 ∧
      Members { num := 4, slots := fun k => ps.getD k {} } ps := by
  refine ⟨by decide, by decide, by decide, by decide, rfl, ?_⟩
  intro k p hk
  show List.getD _ _ _ = _
  rw [List.getD_eq_getElem?_getD, hk]
  rfl

/-! ## C234 -/

/-- **C234**, the full statement: having moved to an interface, and with nothing else
changed, a port stays there. -/
def C234_statement : Prop :=
  ∀ (ifs : Ifs) (clock : Nat) (sync : Int) (b : Info),
    active ifs (clockOf ifs (active ifs clock sync b)) sync b = active ifs clock sync b

/-- A first interface that is down is left for one with the same clock. -/
theorem C234_violated : ¬ C234_statement := by
  intro h
  have := h { demo with clock := fun _ => 1 } 7 0
    { num := 2, slots := fun k => if k = 0 then ⟨some 1, false, false, true⟩ else ⟨some 2, true, false, true⟩ }
  revert this
  decide

/-- **C234**, unless the first interface is down and has hardware timestamps or is primary. -/
theorem C234_stays_partial (ifs : Ifs) (clock : Nat) (sync : Int) (b : Info) (ps : List Phys)
    (hps : Members b ps) (hok : HeadOk ps) :
    active ifs (clockOf ifs (active ifs clock sync b)) sync b = active ifs clock sync b := by
  simp only [C233_preferred_partial ifs _ sync b ps hps hok]
  unfold Chosen
  by_cases hu : ups ps = []
  · rw [if_pos hu, if_pos hu]
  rw [if_neg hu, if_neg hu]
  unfold preferred
  simp only
  cases h1 : (ups ps).reverse.find? (received ifs sync) with
  | some p => rfl
  | none =>
    rw [Option.none_or]
    cases h2 : (ups ps).reverse.find? Phys.primary with
    | some p => rfl
    | none =>
      simp only [Option.none_or]
      cases h3 : (ups ps).find? Phys.hwts with
      | none =>
        have hn : ∀ c : Nat, ((ups ps).find? fun p => p.hwts && hasClock ifs c p) = none := by
          intro c
          rw [List.find?_eq_none] at h3 ⊢
          intro x hx hf
          simp only [Bool.and_eq_true] at hf
          exact h3 x hx hf.1
        simp only [hn]
      | some q =>
        cases h4 : ((ups ps).find? fun p => p.hwts && hasClock ifs clock p) with
        | some r =>
          have hr := List.find?_some h4
          simp only [Bool.and_eq_true] at hr
          have hc : clockOf ifs r.intf = clock := by
            have := hr.2
            rw [hasClock_eq] at this
            simpa using this
          show (((ups ps).find? fun p => p.hwts && hasClock ifs (clockOf ifs r.intf) p).or _ |>.or _).bind Phys.intf = r.intf
          rw [hc, h4]
          rfl
        | none =>
          show (((ups ps).find? fun p => p.hwts && hasClock ifs (clockOf ifs q.intf) p).or _ |>.or _).bind Phys.intf = q.intf
          have : ((ups ps).find? fun p => p.hwts && hasClock ifs (clockOf ifs q.intf) p) = some q := by
            obtain ⟨a, b', h, hb⟩ := List.find?_eq_some_iff_append.1 h3 |>.2
            rw [h, List.find?_append]
            have : (a.find? fun p => p.hwts && hasClock ifs (clockOf ifs q.intf) p) = none := by
              rw [List.find?_eq_none]
              intro x hx hf
              simp only [Bool.and_eq_true] at hf
              have := hb x hx
              rw [hf.1] at this
              cases this
            rw [this, Option.none_or, List.find?_cons_of_pos]
            have hq := List.find?_some h3
            rw [hq, hasClock_eq]
            simp
          rw [this]
          rfl

example : let b : Info := { num := 3, slots := fun k => ⟨some (k + 1), true, false, true⟩ }
    active demo 7 0 b = some 1 ∧ active demo 2 0 b = some 2 ∧ active demo 1 0 b = some 1 ∧
      HeadOk b.valid ∧ Members b b.valid :=
  ⟨by decide, by decide, by decide, by decide, members_valid _⟩

/-! ## C235 -/

/-- **C235.** Hardware timestamps are used exactly when the interface has them and no
instance asks for software timestamps, and software timestamps when none asks for
hardware and one asks for software or there is nothing else. Instances that ask for
different ones are refused, as is one that asks for hardware timestamps where there are
none. -/
theorem C235_type (ifs : Ifs) (prefs : List Ts) (i : Option Nat) (capable : Prop)
    (hc : capable ↔ ∃ k, i = some k ∧ ifs.ptp k = true) :
    (tsType ifs prefs i = .ok .hw ↔ capable ∧ Ts.sw ∉ prefs) ∧
      (tsType ifs prefs i = .ok .sw ↔ Ts.hw ∉ prefs ∧ (Ts.sw ∈ prefs ∨ ¬ capable)) ∧
      (tsType ifs prefs i = .error .inval ↔ Ts.hw ∈ prefs ∧ Ts.sw ∈ prefs) ∧
      (tsType ifs prefs i = .error .notsup ↔ Ts.hw ∈ prefs ∧ Ts.sw ∉ prefs ∧ ¬ capable) := by
  have hsw : prefs.any (· == .sw) = decide (Ts.sw ∈ prefs) := by
    rw [Bool.eq_iff_iff]; simp
  have hhw : prefs.any (· == .hw) = decide (Ts.hw ∈ prefs) := by
    rw [Bool.eq_iff_iff]; simp
  unfold tsType
  simp only [hsw, hhw]
  cases i with
  | none =>
    have h1 : ¬ capable := by rw [hc]; simp
    by_cases a : Ts.sw ∈ prefs <;> by_cases b : Ts.hw ∈ prefs <;> simp [a, b, h1]
  | some k =>
    cases hk : ifs.ptp k
    · have h1 : ¬ capable := by rw [hc]; simp [hk]
      by_cases a : Ts.sw ∈ prefs <;> by_cases b : Ts.hw ∈ prefs <;> simp [a, b, h1, hk]
    · have h1 : capable := by rw [hc]; simp [hk]
      by_cases a : Ts.sw ∈ prefs <;> by_cases b : Ts.hw ∈ prefs <;> simp [a, b, h1, hk]

example : tsType demo [.auto, .hw] (some 1) = .ok .hw ∧ tsType demo [.sw] (some 1) = .ok .sw ∧
    tsType demo [.hw] (some 12) = .error .notsup ∧ tsType demo [.hw, .sw] none = .error .inval := by
  refine ⟨by rfl, by rfl, by rfl, by rfl⟩

end Verif.Bond
