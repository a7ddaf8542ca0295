import Verif.Tsd.Model
import Verif.Time.Props

/-!
# Properties of the timestamp data set (C33, C34)

The specification is a scan of the history (newest operation first): which
master-to-slave measurement and which delay measurement is current.
-/

namespace Verif.Tsd
open Verif.Time Verif.CInt

/-! ## Specification -/

/-- Current master-to-slave measurement `(tx, rx, correction)`, from a history
with the newest operation first. -/
def curM2S : List Op → Option (Ts × Ts × Ts)
  | [] => none
  | .setM2S tx rx c :: _ => some (tx, rx, c)
  | .clearM2S :: _ => none
  | _ :: h => curM2S h

/-- Current end-to-end delay measurement `(tx, rx, correction)`. -/
def curS2M : List Op → Option (Ts × Ts × Ts)
  | [] => none
  | .setS2M tx rx c :: _ => some (tx, rx, c)
  | .clearS2M :: _ => none
  | .setP2P .. :: _ => none
  | _ :: h => curS2M h

/-- Current peer delay measurement. -/
def curP2P : List Op → Option (Ts × Ts × Ts × Ts × Ts)
  | [] => none
  | .setP2P a b c d e :: _ => some (a, b, c, d, e)
  | .clearP2P :: _ => none
  | .setS2M .. :: _ => none
  | _ :: h => curP2P h

/-- The newest operation is a setter. -/
def lastIsSet : List Op → Bool
  | .setM2S .. :: _ => true
  | .setS2M .. :: _ => true
  | .setP2P .. :: _ => true
  | _ => false

/-- Nanoseconds denoted by a timestamp. -/
def nsOf (t : Ts) : Rat := (val t : Rat) / 4294967296

/-- Round trip equation of IEEE 1588 section 11.3 (delay request-response). -/
def e2eDelay (m s : Ts × Ts × Ts) : Rat :=
  (((nsOf s.2.1 - nsOf s.1) - nsOf s.2.2) + ((nsOf m.2.1 - nsOf m.1) - nsOf m.2.2)) / 2

/-- Peer delay equation of IEEE 1588 section 11.4. -/
def p2pDelay (p : Ts × Ts × Ts × Ts × Ts) : Rat :=
  ((nsOf p.2.1 - nsOf p.1) + (nsOf p.2.2.2.1 - nsOf p.2.2.1) - nsOf p.2.2.2.2) / 2

/-- The results that a history entitles a reader to: `(offset, path delay)`. -/
def specResult (h : List Op) : Option (Rat × Rat) :=
  if lastIsSet h then
    match curM2S h, curS2M h, curP2P h with
    | some m, some s, _ =>
      some ((nsOf m.2.1 - nsOf m.1) - nsOf m.2.2 - e2eDelay m s, e2eDelay m s)
    | some m, none, some p =>
      some ((nsOf m.2.1 - nsOf m.1) - nsOf m.2.2 - p2pDelay p, p2pDelay p)
    | _, _, _ => none
  else none

/-- Timestamps in normal form with at most 2^60 s magnitude: no overflow. -/
def Sane (t : Ts) : Prop :=
  Norm t ∧ -1152921504606846976 ≤ t.sec ∧ t.sec < 1152921504606846976

def SaneOp : Op → Prop
  | .setM2S a b c => Sane a ∧ Sane b ∧ Sane c
  | .setS2M a b c => Sane a ∧ Sane b ∧ Sane c
  | .setP2P a b c d e => Sane a ∧ Sane b ∧ Sane c ∧ Sane d ∧ Sane e
  | _ => True

/-! ## Proof -/

theorem toFloatNs_eq (t : Ts) : toFloatNs t = nsOf t := by
  unfold toFloatNs nsOf val
  simp only [Rat.intCast_add, Rat.intCast_mul]
  have : ((1000000000 : Int) : Rat) = 1000000000 := rfl
  have : ((4294967296 : Int) : Rat) = 4294967296 := rfl
  grind

theorem sub_sane (a b : Ts) (ha : Sane a) (hb : Sane b) :
    ∃ c, subtract a b = some c ∧ Norm c ∧ val c = val a - val b ∧
      -2305843009213693953 ≤ c.sec ∧ c.sec ≤ 2305843009213693953 := by
  obtain ⟨ha, ha1, ha2⟩ := ha
  obtain ⟨hb, hb1, hb2⟩ := hb
  obtain ⟨c, h1, h2, h3⟩ := C01_subtract_exact a b ha hb (by unfold InS64; omega)
    (by unfold InS64; unfold Norm at ha hb; unfold val; omega)
  refine ⟨c, h1, h2, h3, ?_⟩
  unfold Norm at ha hb h2; unfold val at h3; omega

theorem rt_sane (a b c d : Ts) (ha : Sane a) (hb : Sane b) (hc : Sane c) (hd : Sane d) :
    ∃ x y z, subtract a b = some x ∧ subtract c d = some y ∧ add x y = some z ∧
      nsOf x = nsOf a - nsOf b ∧ nsOf y = nsOf c - nsOf d ∧
      nsOf z = (nsOf a - nsOf b) + (nsOf c - nsOf d) := by
  obtain ⟨x, hx1, hx2, hx3, hx4, hx5⟩ := sub_sane a b ha hb
  obtain ⟨y, hy1, hy2, hy3, hy4, hy5⟩ := sub_sane c d hc hd
  obtain ⟨z, hz1, hz2, hz3⟩ := C01_add_exact x y hx2 hy2 (by unfold InS64; omega)
    (by unfold InS64; unfold Norm at hx2 hy2; unfold val; omega)
  refine ⟨x, y, z, hx1, hy1, hz1, ?_, ?_, ?_⟩
  · simp only [nsOf, hx3, Rat.intCast_sub]; grind
  · simp only [nsOf, hy3, Rat.intCast_sub]; grind
  · simp only [nsOf, hz3, hx3, hy3, Rat.intCast_sub, Rat.intCast_add]; grind

def SaneM (m : Meas) : Prop := m.valid = true → Sane m.tx ∧ Sane m.rx ∧ Sane m.corr

/-- Effect of `update` on sane measurements. -/
theorem update_spec (t : Tsd) (h1 : SaneM t.m2s) (h2 : SaneM t.s2m) (h3 : SaneM t.s2p)
    (h4 : SaneM t.p2s) (hpair : t.s2p.valid = t.p2s.valid) :
    ∃ t' b, update t = some (t', b) ∧ t'.complete = b ∧
      t'.m2s = t.m2s ∧ t'.s2m = t.s2m ∧ t'.s2p = t.s2p ∧ t'.p2s = t.p2s ∧
      (b = true ↔ t.m2s.valid = true ∧ (t.s2m.valid = true ∨ t.p2s.valid = true)) ∧
      (t.m2s.valid = true → t.s2m.valid = true →
        t'.pathDelay = e2eDelay (t.m2s.tx, t.m2s.rx, t.m2s.corr) (t.s2m.tx, t.s2m.rx, t.s2m.corr) ∧
        t'.offset = (nsOf t.m2s.rx - nsOf t.m2s.tx) - nsOf t.m2s.corr - t'.pathDelay) ∧
      (t.m2s.valid = true → t.s2m.valid = false → t.p2s.valid = true →
        t'.pathDelay = p2pDelay (t.s2p.tx, t.s2p.rx, t.p2s.tx, t.p2s.rx, t.p2s.corr) ∧
        t'.offset = (nsOf t.m2s.rx - nsOf t.m2s.tx) - nsOf t.m2s.corr - t'.pathDelay) := by
  unfold update
  by_cases hm : t.m2s.valid = true
  · obtain ⟨m1, m2, m3⟩ := h1 hm
    by_cases hs : t.s2m.valid = true
    · obtain ⟨s1, s2, s3⟩ := h2 hs
      obtain ⟨x, y, z, e1, e2, e3, n1, n2, n3⟩ := rt_sane _ _ _ _ s2 s1 m2 m1
      simp only [hm, hs, Bool.and_self, ↓reduceIte, e1, e2, e3, update.finish,
        Option.bind_eq_bind, Option.bind_some, Option.pure_def, toFloatNs_eq]
      refine ⟨_, _, rfl, rfl, rfl, rfl, rfl, rfl, by simp, ?_, by simp⟩
      intro _ _
      simp only [e2eDelay, n3, n2]
      constructor
      · grind
      · grind
    · have hs' : t.s2m.valid = false := by simpa using hs
      by_cases hp : t.p2s.valid = true
      · have hp' : t.s2p.valid = true := by rw [hpair, hp]
        obtain ⟨p1, p2, p3⟩ := h3 hp'
        obtain ⟨q1, q2, q3⟩ := h4 hp
        obtain ⟨x, y, z, e1, e2, e3, n1, n2, n3⟩ := rt_sane _ _ _ _ p2 p1 q2 q1
        obtain ⟨_, w, _, _, f2, _, _, k2, _⟩ := rt_sane _ _ _ _ p2 p1 m2 m1
        simp only [hm, hs', hp, hp', Bool.and_self, Bool.and_false, Bool.false_eq_true, ↓reduceIte,
          e1, e2, e3, f2, update.finish, Option.bind_eq_bind, Option.bind_some, Option.pure_def,
          toFloatNs_eq]
        refine ⟨_, _, rfl, rfl, rfl, rfl, rfl, rfl, by simp, by simp, ?_⟩
        intro _ _ _
        simp only [p2pDelay, n3, k2]
        constructor
        · grind
        · grind
      · have hp' : t.p2s.valid = false := by simpa using hp
        simp [hs', hp']
  · have hm' : t.m2s.valid = false := by simpa using hm
    simp [hm']

/-- What the state says about a history. -/
def Match (m : Meas) : Option (Ts × Ts × Ts) → Prop
  | none => m.valid = false
  | some (a, b, c) => m = ⟨true, a, b, c⟩

structure Inv (h : List Op) (t : Tsd) : Prop where
  m2s : Match t.m2s (curM2S h)
  s2m : Match t.s2m (curS2M h)
  p2p : match curP2P h with
        | none => t.s2p.valid = false ∧ t.p2s.valid = false
        | some (a, b, c, d, e) => t.s2p = ⟨true, a, b, null⟩ ∧ t.p2s = ⟨true, c, d, e⟩
  s1 : SaneM t.m2s
  s2 : SaneM t.s2m
  s3 : SaneM t.s2p
  s4 : SaneM t.p2s
  res : (if t.complete then some (t.offset, t.pathDelay) else none) = specResult h
  excl : curS2M h = none ∨ curP2P h = none

theorem excl_spec (h : List Op) : curS2M h = none ∨ curP2P h = none := by
  induction h with
  | nil => simp [curS2M]
  | cons o h ih => cases o <;> simp [curS2M, curP2P, ih] <;>
      (rcases ih with ih | ih <;> simp [ih])

theorem sane_null : Sane null := by unfold Sane; decide

/-- Establishes the invariant after a setter from the facts on measurements. -/
theorem inv_of_update (h : List Op) (t : Tsd) (hset : lastIsSet h = true)
    (i1 : Match t.m2s (curM2S h)) (i2 : Match t.s2m (curS2M h))
    (i3 : match curP2P h with
        | none => t.s2p.valid = false ∧ t.p2s.valid = false
        | some (a, b, c, d, e) => t.s2p = ⟨true, a, b, null⟩ ∧ t.p2s = ⟨true, c, d, e⟩)
    (s1 : SaneM t.m2s) (s2 : SaneM t.s2m) (s3 : SaneM t.s2p) (s4 : SaneM t.p2s) :
    ∃ t' b, update t = some (t', b) ∧ b = t'.complete ∧ Inv h t' := by
  have hpair : t.s2p.valid = t.p2s.valid := by
    revert i3; split
    · intro ⟨a, b⟩; rw [a, b]
    · intro ⟨a, b⟩; rw [a, b]
  obtain ⟨t', b, hu, hc, e1, e2, e3, e4, hb, r1, r2⟩ := update_spec t s1 s2 s3 s4 hpair
  refine ⟨t', b, hu, hc.symm, ⟨e1 ▸ i1, e2 ▸ i2, ?_, e1 ▸ s1, e2 ▸ s2, e3 ▸ s3, e4 ▸ s4, ?_, excl_spec h⟩⟩
  · rw [e3, e4]; exact i3
  · rw [hc]
    unfold specResult
    rw [if_pos hset]
    cases hm : curM2S h with
    | none =>
      rw [hm] at i1; simp only [Match] at i1
      have : b = false := by simpa [i1] using hb
      simp [this]
    | some m =>
      obtain ⟨ma, mb, mc⟩ := m
      rw [hm] at i1; simp only [Match] at i1
      cases hs : curS2M h with
      | some s =>
        obtain ⟨sa, sb, sc⟩ := s
        rw [hs] at i2; simp only [Match] at i2
        have hb' : b = true := by rw [hb]; simp [i1, i2]
        obtain ⟨q1, q2⟩ := r1 (by rw [i1]) (by rw [i2])
        simp [hb', q2, q1, i1, i2]
      | none =>
        rw [hs] at i2; simp only [Match] at i2
        cases hp : curP2P h with
        | none =>
          rw [hp] at i3; simp only at i3
          have hb' : b = false := by simpa [i2, i3.2] using hb
          simp [hb']
        | some p =>
          obtain ⟨pa, pb, pc, pd, pe⟩ := p
          rw [hp] at i3; simp only at i3
          have hb' : b = true := by rw [hb]; simp [i1, i3.2]
          obtain ⟨q1, q2⟩ := r2 (by rw [i1]) i2 (by rw [i3.2])
          simp [hb', q2, q1, i1, i3.1, i3.2]

theorem step_inv (h : List Op) (t : Tsd) (o : Op) (hi : Inv h t) (ho : SaneOp o) :
    ∃ t', step t o = some t' ∧ Inv (o :: h) t' := by
  have hn : SaneM ⟨false, null, null, null⟩ := by intro h; cases h
  have inval : ∀ m : Meas, SaneM { m with valid := false } := by intro m h; cases h
  cases o with
  | setM2S a b c =>
    obtain ⟨t', bb, hu, _, hinv⟩ := inv_of_update (.setM2S a b c :: h)
      { t with timeProtocol := b, m2s := ⟨true, a, b, c⟩ } rfl
      rfl (by simpa [curS2M] using hi.s2m) (by simpa [curP2P] using hi.p2p)
      (fun _ => ho) hi.s2 hi.s3 hi.s4
    exact ⟨t', by simp [step, setM2S, hu], hinv⟩
  | setS2M a b c =>
    obtain ⟨t', bb, hu, _, hinv⟩ := inv_of_update (.setS2M a b c :: h)
      { t with s2p := { t.s2p with valid := false }, p2s := { t.p2s with valid := false },
               timeProtocol := b, s2m := ⟨true, a, b, c⟩ } rfl
      (by simpa [curM2S] using hi.m2s) rfl (by simp [curP2P])
      hi.s1 (fun _ => ho) (inval _) (inval _)
    exact ⟨t', by simp [step, setS2M, hu], hinv⟩
  | setP2P a b c d e =>
    obtain ⟨o1, o2, o3, o4, o5⟩ := ho
    obtain ⟨t', bb, hu, _, hinv⟩ := inv_of_update (.setP2P a b c d e :: h)
      { t with s2m := { t.s2m with valid := false }, timeProtocol := d,
               s2p := ⟨true, a, b, null⟩, p2s := ⟨true, c, d, e⟩ } rfl
      (by simpa [curM2S] using hi.m2s) rfl (by simp [curP2P])
      hi.s1 (inval _) (fun _ => ⟨o1, o2, sane_null⟩) (fun _ => ⟨o3, o4, o5⟩)
    exact ⟨t', by simp [step, setP2P, hu], hinv⟩
  | clearM2S =>
    exact ⟨_, rfl, ⟨rfl, by simpa [curS2M, clearM2S] using hi.s2m, by simpa [curP2P, clearM2S] using hi.p2p,
      inval _, hi.s2, hi.s3, hi.s4, by simp [clearM2S, specResult, lastIsSet],
      excl_spec _⟩⟩
  | clearS2M =>
    exact ⟨_, rfl, ⟨by simpa [curM2S, clearS2M] using hi.m2s, rfl, by simpa [curP2P, clearS2M] using hi.p2p,
      hi.s1, inval _, hi.s3, hi.s4, by simp [clearS2M, specResult, lastIsSet],
      excl_spec _⟩⟩
  | clearP2P =>
    exact ⟨_, rfl, ⟨by simpa [curM2S, clearP2P] using hi.m2s, by simpa [curS2M, clearP2P] using hi.s2m, by simp [curP2P, clearP2P],
      hi.s1, hi.s2, inval _, inval _, by simp [clearP2P, specResult, lastIsSet],
      excl_spec _⟩⟩

theorem run_inv (ops : List Op) : ∀ (h : List Op) (t : Tsd), Inv h t → (∀ o ∈ ops, SaneOp o) →
    ∃ t', run t ops = some t' ∧ Inv (ops.reverse ++ h) t' := by
  induction ops with
  | nil => intro h t hi _; exact ⟨t, rfl, by simpa using hi⟩
  | cons o os ih =>
    intro h t hi hs
    obtain ⟨t1, e1, i1⟩ := step_inv h t o hi (hs o (by simp))
    obtain ⟨t2, e2, i2⟩ := ih (o :: h) t1 i1 (fun x hx => hs x (by simp [hx]))
    exact ⟨t2, by simp [run, e1, e2], by simpa using i2⟩

theorem init_inv : Inv [] init := by
  refine ⟨rfl, rfl, ⟨rfl, rfl⟩, ?_, ?_, ?_, ?_, rfl, Or.inl rfl⟩ <;> intro h <;> cases h

/-! ## Theorems -/

/-- C33/C34: for every history of operations, the code does not overflow and
the getters return exactly what the history entitles to: nothing unless the
newest operation is a setter and both a current master-to-slave and a current
delay measurement exist, and otherwise the IEEE 1588 equations applied to the
current measurements. -/
theorem C33_results_match_history (ops : List Op) (hs : ∀ o ∈ ops, SaneOp o) :
    ∃ t, run init ops = some t ∧
      getOffset t = (specResult ops.reverse).map (·.1) ∧
      getPathDelay t = (specResult ops.reverse).map (·.2) := by
  obtain ⟨t, h1, h2⟩ := run_inv ops [] init init_inv hs
  refine ⟨t, h1, ?_⟩
  have hr := h2.res
  rw [List.append_nil] at hr
  rw [← hr]
  unfold getOffset getPathDelay
  cases t.complete <;> simp

/-- C34: results are available exactly when the newest operation is a setter
and a master-to-slave and a delay measurement are current. -/
theorem C34_available_iff (ops : List Op) (hs : ∀ o ∈ ops, SaneOp o) :
    ∃ t, run init ops = some t ∧
      ((getOffset t).isSome = true ↔
        lastIsSet ops.reverse = true ∧ (curM2S ops.reverse).isSome = true ∧
          ((curS2M ops.reverse).isSome = true ∨ (curP2P ops.reverse).isSome = true)) := by
  obtain ⟨t, h1, h2, _⟩ := C33_results_match_history ops hs
  refine ⟨t, h1, ?_⟩
  rw [h2]
  unfold specResult
  split
  · rename_i hl
    cases curM2S ops.reverse <;> cases curS2M ops.reverse <;> cases curP2P ops.reverse <;> simp [hl]
  · rename_i hl; simp [hl]

/-- C34: after any clearing the results are unavailable. -/
theorem C34_clear_makes_unavailable (ops : List Op) (o : Op) (hs : ∀ x ∈ ops, SaneOp x)
    (ho : o = .clearM2S ∨ o = .clearS2M ∨ o = .clearP2P) :
    ∃ t, run init (ops ++ [o]) = some t ∧ getOffset t = none ∧ getPathDelay t = none := by
  have hs' : ∀ x ∈ ops ++ [o], SaneOp x := by
    intro x hx
    rcases List.mem_append.1 hx with h | h
    · exact hs x h
    · rcases List.mem_singleton.1 h with rfl
      rcases ho with rfl | rfl | rfl <;> trivial
  obtain ⟨t, h1, h2, h3⟩ := C33_results_match_history _ hs'
  refine ⟨t, h1, ?_, ?_⟩
  · rw [h2]; rcases ho with rfl | rfl | rfl <;> simp [specResult, lastIsSet]
  · rw [h3]; rcases ho with rfl | rfl | rfl <;> simp [specResult, lastIsSet]

/-- C34: end-to-end and peer-to-peer data are never both current, and setting
one kind makes the other unavailable until set again. -/
theorem C34_never_mixed (ops : List Op) (hs : ∀ o ∈ ops, SaneOp o) :
    ∃ t, run init ops = some t ∧ ¬ (t.s2m.valid = true ∧ (t.s2p.valid = true ∨ t.p2s.valid = true)) := by
  obtain ⟨t, h1, h2⟩ := run_inv ops [] init init_inv hs
  refine ⟨t, h1, ?_⟩
  rcases h2.excl with h | h
  · have := h2.s2m; rw [h] at this; simp only [Match] at this; simp [this]
  · have := h2.p2p; rw [h] at this; simp only at this; simp [this]

theorem update_result (t t' : Tsd) (b : Bool) (h : update t = some (t', b)) : b = t'.complete := by
  unfold update at h
  simp only [update.finish, Option.bind_eq_bind] at h
  split at h
  · simp only [Option.bind_eq_some_iff, Option.pure_def, Option.some.injEq, Prod.mk.injEq] at h
    obtain ⟨_, _, _, _, _, _, _, _, rfl, rfl⟩ := h; rfl
  · split at h
    · simp only [Option.bind_eq_some_iff, Option.pure_def, Option.some.injEq, Prod.mk.injEq] at h
      obtain ⟨_, _, _, _, _, _, _, _, rfl, rfl⟩ := h; rfl
    · simp only [Option.some.injEq, Prod.mk.injEq] at h
      obtain ⟨rfl, rfl⟩ := h; rfl

/-- C34: in every state, the result of a setter tells whether results are
available afterwards (the caller reads them exactly when it is true). -/
theorem C34_setter_result (t t' : Tsd) (b : Bool) (o1 o2 o3 o4 o5 : Ts)
    (h : setM2S t o1 o2 o3 = some (t', b) ∨ setS2M t o1 o2 o3 = some (t', b) ∨
      setP2P t o1 o2 o3 o4 o5 = some (t', b)) :
    b = (getOffset t').isSome ∧ b = (getPathDelay t').isSome := by
  have : b = t'.complete := by
    rcases h with h | h | h <;> exact update_result _ _ _ h
  subst this
  unfold getOffset getPathDelay
  cases t'.complete <;> simp

/-- C33, end-to-end: with true one-way delay `d`, true slave error `θ` and
corrections equal to the residence times, the reported offset is `θ` and the
path delay `d`. -/
theorem C33_symmetric_e2e (pre : List Op) (t1 t2 t3 t4 cm cs : Ts) (θ d : Rat)
    (hs : ∀ o ∈ pre ++ [.setM2S t1 t2 cm, .setS2M t3 t4 cs], SaneOp o)
    (hm : nsOf t2 = nsOf t1 + d + nsOf cm + θ)
    (hss : nsOf t4 = nsOf t3 + d + nsOf cs - θ) :
    ∃ t, run init (pre ++ [.setM2S t1 t2 cm, .setS2M t3 t4 cs]) = some t ∧
      getOffset t = some θ ∧ getPathDelay t = some d := by
  obtain ⟨t, h1, h2, h3⟩ := C33_results_match_history _ hs
  refine ⟨t, h1, ?_, ?_⟩
  · rw [h2]; simp [specResult, lastIsSet, curM2S, curS2M, e2eDelay]; grind
  · rw [h3]; simp [specResult, lastIsSet, curM2S, curS2M, e2eDelay]; grind

/-- C33, peer-to-peer: `θp` is the error of the peer relative to the slave, it
cancels; `d` is the link delay. -/
theorem C33_symmetric_p2p (pre : List Op) (t1 t2 cm a b c e cp : Ts) (θ θp d : Rat)
    (hs : ∀ o ∈ pre ++ [.setP2P a b c e cp, .setM2S t1 t2 cm], SaneOp o)
    (hm : nsOf t2 = nsOf t1 + d + nsOf cm + θ)
    (h1 : nsOf b = nsOf a + d + θp) (h2 : nsOf e = nsOf c + d - θp + nsOf cp) :
    ∃ t, run init (pre ++ [.setP2P a b c e cp, .setM2S t1 t2 cm]) = some t ∧
      getOffset t = some θ ∧ getPathDelay t = some d := by
  obtain ⟨t, k1, k2, k3⟩ := C33_results_match_history _ hs
  refine ⟨t, k1, ?_, ?_⟩
  · rw [k2]; simp [specResult, lastIsSet, curM2S, curS2M, curP2P, p2pDelay]; grind
  · rw [k3]; simp [specResult, lastIsSet, curM2S, curS2M, curP2P, p2pDelay]; grind

/-! ## Concrete cases -/

/-- A history with an offset of 500 ns, delay 1000 ns and correction 20 ns. -/
def exOps : List Op :=
  [.clearM2S, .setP2P ⟨1, 0, 0⟩ ⟨1, 7, 0⟩ ⟨1, 8, 0⟩ ⟨1, 9, 0⟩ ⟨0, 0, 0⟩,
   .setM2S ⟨10, 999999000, 0⟩ ⟨11, 520, 0⟩ ⟨0, 20, 0⟩, .setS2M ⟨12, 0, 0⟩ ⟨12, 500, 0⟩ ⟨0, 0, 0⟩]

instance (t : Ts) : Decidable (Sane t) := inferInstanceAs (Decidable (_ ∧ _))
instance : DecidablePred SaneOp := fun o => by
  cases o <;> unfold SaneOp <;> infer_instance

example : (∀ o ∈ exOps, SaneOp o) ∧
    (run init exOps).bind getOffset = some 500 ∧ (run init exOps).bind getPathDelay = some 1000 := by
  decide +kernel
example : (run init (exOps ++ [.clearP2P])).bind getOffset = none := by decide +kernel
example : (setM2S init ⟨1, 0, 0⟩ ⟨2, 0, 0⟩ ⟨0, 0, 0⟩).map (·.2) = some false := by decide +kernel
example : (run init (exOps ++ [.clearM2S])).bind
    (fun t => (setM2S t ⟨1, 0, 0⟩ ⟨2, 0, 0⟩ ⟨0, 0, 0⟩).map (·.2)) = some true := by decide +kernel
example : nsOf ⟨11, 520, 0⟩ = nsOf ⟨10, 999999000, 0⟩ + 1000 + nsOf ⟨0, 20, 0⟩ + 500 ∧
    nsOf ⟨12, 500, 0⟩ = nsOf ⟨12, 0, 0⟩ + 1000 + nsOf ⟨0, 0, 0⟩ - 500 := by decide +kernel

end Verif.Tsd
