import Verif.Management.Spec
import Verif.Codec.Support
import Mathlib.Tactic.SplitIfs

set_option linter.unusedSimpArgs false
set_option linter.unusedVariables false
set_option linter.unnecessarySeqFocus false
set_option linter.unusedTactic false
set_option linter.unreachableTactic false

namespace Verif.Management
open Verif.Codec Verif.Codec.Spec
open Spec

theorem unpackFields_ok (m : Mem) (a len : Nat) : ∀ (fs : List Field) (off n : Nat), fs ≠ [] →
    ((unpackFields m a len fs off n).ok = true ↔ off + (fs.map (·.size)).sum ≤ len)
  | [], _, _, h => absurd rfl h
  | [f], off, n, _ => by
    simp only [unpackFields]
    split <;> simp <;> omega
  | f :: g :: fs, off, n, _ => by
    rw [unpackFields]
    split
    · simp; omega
    · have := unpackFields_ok m a len (g :: fs) (off + f.size) (n + f.size) (by simp)
      simp only at this ⊢
      rw [this]
      simp; omega

theorem unpackFields_vals (m : Mem) (a len : Nat) (f : Field) (fs : List Field) (off n : Nat) (h : off + f.size ≤ len) :
    (unpackFields m a len (f :: fs) off n).vals = (f.ty.unpack m (a + off) (len - off)).vals ++ (unpackFields m a len fs (off + f.size) (n + f.size)).vals := by
  rw [unpackFields, if_neg (by omega)]

theorem unpackFields_nil (m : Mem) (a len off n : Nat) : (unpackFields m a len [] off n).vals = [] := rfl

theorem ofBE_load (m : Mem) (a n : Nat) : ofBE (load m a n) = num m a n := by rw [ofBE_eq]; rfl

theorem num_one (m : Mem) (a : Nat) : num m a 1 = (m a).toNat := by simp [num, number, slice]

theorem low_nibble (x : Byte) : (x &&& 0x0F#8).toNat = x.toNat % 16 := by
  rw [BitVec.toNat_and]
  exact Nat.and_two_pow_sub_one_eq_mod x.toNat 4

theorem vals_uint (m : Mem) (a len k w : Nat) (fs : List Field) (off n : Nat) (h : off + k ≤ len) :
    (unpackFields m a len (⟨k, uint w⟩ :: fs) off n).vals = some (num m (a + off) w) :: (unpackFields m a len fs (off + k) (n + k)).vals := by
  rw [unpackFields_vals _ _ _ _ _ _ _ h]; simp [uint, ofBE_load]

theorem vals_upper (m : Mem) (a len k : Nat) (fs : List Field) (off n : Nat) (h : off + k ≤ len) :
    (unpackFields m a len (⟨k, upper⟩ :: fs) off n).vals = some (m (a + off) >>> 4).toNat :: (unpackFields m a len fs (off + k) (n + k)).vals := by
  rw [unpackFields_vals _ _ _ _ _ _ _ h]; simp [upper]

theorem vals_lower (m : Mem) (a len k : Nat) (fs : List Field) (off n : Nat) (h : off + k ≤ len) :
    (unpackFields m a len (⟨k, lower⟩ :: fs) off n).vals = some (num m (a + off) 1 % 16) :: (unpackFields m a len fs (off + k) (n + k)).vals := by
  rw [unpackFields_vals _ _ _ _ _ _ _ h]; simp only [lower, low_nibble, num_one]; rfl

theorem vals_boolean (m : Mem) (a len k : Nat) (fs : List Field) (off n : Nat) (h : off + k ≤ len) :
    (unpackFields m a len (⟨k, boolean⟩ :: fs) off n).vals = some (ofLE (load m (a + off) 4)) :: (unpackFields m a len fs (off + k) (n + k)).vals := by
  rw [unpackFields_vals _ _ _ _ _ _ _ h]; rfl

theorem vals_checked (m : Mem) (a len k w : Nat) (fs : List Field) (off n : Nat) (h : off + k ≤ len) (h' : w ≤ len - off) :
    (unpackFields m a len (⟨k, checked w⟩ :: fs) off n).vals = some (num m (a + off) w) :: (unpackFields m a len fs (off + k) (n + k)).vals := by
  rw [unpackFields_vals _ _ _ _ _ _ _ h]; simp [checked, ofBE_load, h']

theorem vals_table (m : Mem) (a len k : Nat) (gs fs : List Field) (off n : Nat) (h : off + k ≤ len) :
    (unpackFields m a len (⟨k, table gs⟩ :: fs) off n).vals =
      (unpackFields m (a + off) (len - off) gs 0 0).vals ++ (unpackFields m a len fs (off + k) (n + k)).vals := by
  rw [unpackFields_vals _ _ _ _ _ _ _ h]; rfl

/-- The message read. -/
def message (m : Mem) (tlv : Ptr Tlv) : Msg :=
  ⟨num m 2 2, num m 6 1, (num m 20 8, num m 28 2), num m 30 2, (num m 34 8, num m 42 2), num m 44 1, num m 45 1, num m 46 1 % 16, tlv⟩

theorem unpack_tlv (m : Mem) (length : Nat) :
    unpackManagementTLV m length = if 54 ≤ length then .live ⟨num m 48 2, num m 50 2, num m 52 2, .null⟩ else .freed := by
  unfold unpackManagementTLV
  have ok := unpackFields_ok m 0 length managementTLV 48 0 (by simp [managementTLV])
  by_cases h : 54 ≤ length
  · rw [if_pos h, if_pos (by rw [ok]; simp [managementTLV]; omega)]
    simp (disch := omega) only [managementTLV, vals_uint, unpackFields_nil]
    simp
  · rw [if_neg h, if_neg (by rw [ok]; simp [managementTLV]; omega)]

theorem header_vals (m : Mem) (a len : Nat) (h : 34 ≤ len) : (unpackFields m a len header 0 0).vals =
    [some (m (a + 0) >>> 4).toNat, some (num m (a + 0) 1 % 16), some (m (a + 1) >>> 4).toNat, some (num m (a + 1) 1 % 16), some (num m (a + 2) 2),
      some (num m (a + 4) 1), some (num m (a + 5) 1), some (num m (a + 6) 1), some (num m (a + 7) 1), some (num m (a + 8) 8), some (num m (a + 16) 4),
      some (num m (a + 20) 8), some (num m (a + 28) 2), some (num m (a + 30) 2), some (num m (a + 32) 1), some (num m (a + 33) 1)] := by
  unfold header portIdentity
  rw [vals_upper _ _ _ _ _ _ _ (by omega), vals_lower _ _ _ _ _ _ _ (by omega), vals_upper _ _ _ _ _ _ _ (by omega), vals_lower _ _ _ _ _ _ _ (by omega),
    vals_uint _ _ _ _ _ _ _ _ (by omega), vals_uint _ _ _ _ _ _ _ _ (by omega), vals_uint _ _ _ _ _ _ _ _ (by omega), vals_uint _ _ _ _ _ _ _ _ (by omega),
    vals_uint _ _ _ _ _ _ _ _ (by omega), vals_uint _ _ _ _ _ _ _ _ (by omega), vals_uint _ _ _ _ _ _ _ _ (by omega), vals_table _ _ _ _ _ _ _ _ (by omega),
    vals_checked _ _ _ _ _ _ _ _ (by omega) (by omega), vals_uint _ _ _ _ _ _ _ _ (by omega), vals_uint _ _ _ _ _ _ _ _ (by omega), vals_uint _ _ _ _ _ _ _ _ (by omega),
    vals_uint _ _ _ _ _ _ _ _ (by omega)]
  rfl

theorem management_vals (m : Mem) (len : Nat) (h : 48 ≤ len) : (unpackFields m 0 len management 0 0).vals =
    [some (m (0) >>> 4).toNat, some (num m (0) 1 % 16), some (m (1) >>> 4).toNat, some (num m (1) 1 % 16), some (num m (2) 2),
      some (num m (4) 1), some (num m (5) 1), some (num m (6) 1), some (num m (7) 1), some (num m (8) 8), some (num m (16) 4),
      some (num m (20) 8), some (num m (28) 2), some (num m (30) 2), some (num m (32) 1), some (num m (33) 1), some (num m (34) 8),
      some (num m (42) 2), some (num m (44) 1), some (num m (45) 1), some (m (46) >>> 4).toNat, some (num m (46) 1 % 16), some (num m (47) 1)] := by
  unfold management portIdentity
  rw [vals_table _ _ _ _ _ _ _ _ (by omega), header_vals _ _ _ (by omega), vals_table _ _ _ _ _ _ _ _ (by omega), vals_checked _ _ _ _ _ _ _ _ (by omega) (by omega),
    vals_uint _ _ _ _ _ _ _ _ (by omega), vals_uint _ _ _ _ _ _ _ _ (by omega), vals_uint _ _ _ _ _ _ _ _ (by omega), vals_upper _ _ _ _ _ _ _ (by omega),
    vals_lower _ _ _ _ _ _ _ (by omega), vals_uint _ _ _ _ _ _ _ _ (by omega)]
  simp only [List.cons_append, List.nil_append, Nat.zero_add, Nat.reduceAdd, unpackFields_nil]

theorem toMsg_eq (a b c d e f g h i j k l n o p q r s t u v w x : Nat) (tlv : Nat → Ptr Tlv) :
    toMsg [some a, some b, some c, some d, some e, some f, some g, some h, some i, some j, some k, some l, some n, some o, some p, some q, some r, some s, some t,
      some u, some v, some w, some x] tlv = ⟨e, h, (l, n), o, (r, s), t, u, w, tlv e⟩ := rfl

theorem unpack_msg (m : Mem) (length : Nat) :
    msgUnpackManagement m length =
      if 48 ≤ length then some (message m (if 48 < num m 2 2 then unpackManagementTLV m length else .null)) else none := by
  have ok := unpackFields_ok m 0 length management 0 0 (by simp [management])
  have e : (0 + (management.map (·.size)).sum) = 48 := by simp [management]
  rw [e] at ok
  have t : (table management).unpack m 0 length = unpackFields m 0 length management 0 0 := rfl
  unfold msgUnpackManagement
  rw [t]
  dsimp only
  by_cases h : 48 ≤ length
  · rw [if_pos h, if_pos (ok.2 h), management_vals m length h, toMsg_eq]
    rfl
  · rw [if_neg h, if_neg fun g => h (ok.1 g)]

/-! ### Data fields -/

theorem ite_some {α : Type} {p : Prop} [Decidable p] {a x : α} {e : Option α} (h : (if p then some a else e) = some x) : p ∧ a = x ∨ e = some x := by
  split at h
  · exact .inl ⟨by assumption, by simpa using h⟩
  · exact .inr h

theorem dataTable_size {id : Nat} {fs : List Field} (h : dataTable id = some fs) : fs ≠ [] ∧ (id, (fs.map (·.size)).sum) ∈ sizes := by
  unfold dataTable at h
  iterate 10
    rcases ite_some h with ⟨rfl, rfl⟩ | h
    · simp [sizes, defaultDataSet]
  rcases ite_some h with ⟨h', rfl⟩ | h
  · rcases h' with h' | h' | h' | h' | h' | h' | h' | h' | h' | h' <;> subst h' <;> simp [sizes, pair]
  · cases h

theorem unpackData_table {m : Mem} {length id : Nat} {fs : List Field} (h : dataTable id = some fs) (hl : 54 + (fs.map (·.size)).sum ≤ length) :
    unpackData m length id = .live (.values (unpackFields m 0 length fs 54 0).vals) := by
  simp only [unpackData, h]
  rw [if_pos ((unpackFields_ok _ _ _ _ _ _ (dataTable_size h).1).2 hl)]

theorem unpackText_eq (m : Mem) (a length : Nat) (old : Text) (h : 1 + num m a 1 ≤ length) :
    unpackText m a length old = .text (num m a 1) (if num m a 1 = 0 then .null else .live (load m (a + 1) (num m a 1))) := by
  rw [num_one] at h ⊢
  simp only [unpackText]
  rw [if_neg (show ¬ 1 + (m a).toNat > length by omega)]

theorem ofBE_load_one (m : Mem) (a : Nat) : ofBE (load m a 1) = num m a 1 := ofBE_load m a 1

theorem describe_ok {m : Mem} {length : Nat} {p q r s t u : Nat} (hp : p = num m 56 1) (hq : q = num m (57 + p) 2) (hr : r = num m (61 + p + q) 2)
    (hs : s = num m (67 + p + q + r) 1) (ht : t = num m (68 + p + q + r + s) 1) (hu : u = num m (69 + p + q + r + s + t) 1)
    (hl : 76 + p + q + r + s + t + u ≤ length) : describe m length descriptionRows 54 = true := by
  have d0 : ∀ n rows off, off + n ≤ length → describe m length (.fixed n :: rows) off = describe m length rows (off + n) := by
    intro n rows off h; rw [describe, if_neg (by omega)]
  have d1 : ∀ skip n k rows off, off + (skip + n) ≤ length → k = num m (off + skip) n →
      describe m length (.counted skip n :: rows) off = describe m length rows (off + (skip + n) + k) := by
    intro skip n k rows off h hk; rw [describe, if_neg (by omega), ofBE_load, hk]
  unfold descriptionRows
  rw [d0 _ _ _ (by omega), d0 _ _ _ (by omega), d1 0 1 p _ _ (by omega) hp]
  rw [d1 0 2 q _ _ (by omega) (by rw [hq]; congr 1 <;> omega), d1 2 2 r _ _ (by omega) (by rw [hr]; congr 1 <;> omega)]
  rw [d0 _ _ _ (by omega), d0 _ _ _ (by omega), d0 _ _ _ (by omega), d0 _ _ _ (by omega)]
  rw [d1 0 1 s _ _ (by omega) (by rw [hs]; congr 1 <;> omega), d1 0 1 t _ _ (by omega) (by rw [ht]; congr 1 <;> omega),
    d1 0 1 u _ _ (by omega) (by rw [hu]; congr 1 <;> omega)]
  rw [d0 _ _ _ (by omega), d0 _ _ _ (by omega), d0 _ _ _ (by omega), d0 _ _ _ (by omega), d0 _ _ _ (by omega), d0 _ _ _ (by omega)]
  rfl

/-- The data of a complete message. -/
inductive Read (m : Mem) (length : Nat) : Ptr Data → Prop where
  | values {fs : List Field} (h : dataTable (managementId m) = some fs) (hl : 54 + (fs.map (·.size)).sum ≤ length) :
      Read m length (.live (.values (unpackFields m 0 length fs 54 0).vals))
  | description (h : managementId m = 1) : Read m length (.live .description)
  | text (h : managementId m = 2) : Read m length
      (.live (.text (num m 54 1) (if num m 54 1 = 0 then .null else .live (load m 55 (num m 54 1)))))
  | none (h : dataTable (managementId m) = Option.none) (h1 : managementId m ≠ 1) (h2 : managementId m ≠ 2) : Read m length .null

theorem unpackData_read {m : Mem} {length : Nat} (h : Complete m length) : Read m length (unpackData m length (managementId m)) := by
  obtain ⟨h0, h2, h1⟩ := h
  generalize e : unpackData m length (managementId m) = d
  cases hd : dataTable (managementId m) with
  | some fs =>
    have hl := h0 _ (dataTable_size hd).2
    rw [unpackData_table hd hl] at e
    subst e
    exact .values hd hl
  | none =>
    by_cases i1 : managementId m = 1
    · obtain ⟨p, q, r, s, t, u, hp, hq, hr, hs, ht, hu, hl⟩ := h1 i1
      unfold unpackData at e
      rw [hd] at e
      simp only [i1, if_true, describe_ok hp hq hr hs ht hu hl] at e
      subst e
      exact .description i1
    · by_cases i2 : managementId m = 2
      · have hl := h2 i2
        unfold unpackData at e
        rw [hd] at e
        simp only [i2, if_true] at e
        rw [if_neg (by omega), if_neg (by omega), unpackText_eq _ _ _ _ (by omega)] at e
        simp at e
        subst e
        exact .text i2
      · simp only [unpackData, hd, i1, i2, if_false] at e
        subst e
        exact .none hd i1 i2

theorem free_read {m : Mem} {length : Nat} {d : Ptr Data} (h : Read m length d) (t : Tlv) : freeManagementTLV (.live { t with data := d }) = .ok .null := by
  cases h with
  | values => rfl
  | description => rfl
  | text =>
    by_cases e : num m 54 1 = 0 <;> simp [freeManagementTLV, e]
  | none => rfl

theorem Read.value {m : Mem} {length : Nat} {d : Ptr Data} (h : Read m length d) {fs : List Field} (hd : dataTable (managementId m) = some fs) (k : Nat) :
    Management.value d k = .ok (((unpackFields m 0 length fs 54 0).vals.getD k Option.none).getD 0) := by
  cases h with
  | values h' => rw [hd] at h'; cases h'; rfl
  | description h' => rw [h'] at hd; simp [dataTable] at hd
  | text h' => rw [h'] at hd; simp [dataTable] at hd
  | none h' => rw [hd] at h'; cases h'

theorem attr_ok {c : Clock} {action : Nat} {refuse : Bool} {set : Except Fault Clock} {get : Clock → List Nat} (h : action = 1 → ∃ c', set = .ok c') :
    ∃ o, attr c action refuse set get = .ok o := by
  unfold attr
  split
  · split
    · exact ⟨_, rfl⟩
    · obtain ⟨c', e⟩ := h (by assumption)
      rw [e]
      exact ⟨_, rfl⟩
  · split <;> exact ⟨_, rfl⟩

/-! ### Handlers -/

theorem value_set {m : Mem} {length : Nat} {d : Ptr Data} (h : Read m length d) {fs : List Field} (hd : dataTable (managementId m) = some fs) (v : Nat → Clock) :
    ∃ c', (Management.value d 0).map v = .ok c' := by
  rw [h.value hd]; exact ⟨_, rfl⟩

/-- No fault. -/
def Fine (x : Except Fault Out) : Prop := ∃ o, x = .ok o

/-- A complete request is handled without faults. -/
theorem handle_ok (c : Clock) (query : Nat → Clock → List Nat) {m : Mem} {length : Nat} {d : Ptr Data} (h : Read m length d) (action : Nat) :
    ∃ o, handle c query (managementId m) action d = .ok o := by
  have hv := @value_set m length d h
  have hx : ∀ k fs, dataTable (managementId m) = some fs → ∃ x, value d k = .ok x := fun k fs hd => ⟨_, h.value hd k⟩
  have ht : managementId m = 2 → ∃ o, setUser c d = .ok o := by
    intro i
    cases h with
    | values h' => rw [i] at h'; simp [dataTable] at h'
    | description h' => omega
    | text h' =>
      unfold setUser
      by_cases e : num m 54 1 = 0
      · simp [e]
      · simp only [e, if_false]
        split <;> exact ⟨_, rfl⟩
    | none _ _ h' => exact absurd i h'
  generalize managementId m = id at hv hx ht
  change Fine _
  unfold handle
  dsimp only
  iterate 2
    refine iteInduction (motive := Fine) (fun _ => ⟨_, rfl⟩) (fun _ => ?_)
  refine iteInduction (motive := Fine) (fun i => ?_) (fun _ => ?_)
  · split
    · obtain ⟨o, e⟩ := ht i
      rw [e]
      exact ⟨_, rfl⟩
    · exact ⟨_, rfl⟩
  refine iteInduction (motive := Fine) (fun i => ?_) (fun _ => ?_)
  · split
    · obtain ⟨x, e⟩ := hx 0 [⟨2, uint 2⟩] (by subst i; simp [dataTable])
      rw [e]
      exact ⟨_, rfl⟩
    · exact ⟨_, rfl⟩
  iterate 3
    refine iteInduction (motive := Fine) (fun i => attr_ok fun _ => hv (fs := pair) (by subst i; simp [dataTable]) _) (fun _ => ?_)
  refine iteInduction (motive := Fine)
    (fun i => attr_ok fun _ => hv (fs := [⟨1, boolean⟩, ⟨1, uint 1⟩]) (by subst i; simp [dataTable]) _) (fun _ => ?_)
  iterate 3
    refine iteInduction (motive := Fine) (fun i => attr_ok fun _ => hv (fs := pair) (by subst i; simp [dataTable]) _) (fun _ => ?_)
  iterate 2
    refine iteInduction (motive := Fine) (fun _ => ⟨_, rfl⟩) (fun _ => ?_)
  refine iteInduction (motive := Fine) (fun i => attr_ok fun _ => ⟨_, rfl⟩) (fun _ => ?_)
  refine iteInduction (motive := Fine) (fun i => attr_ok fun _ => hv (fs := pair) (by subst i; simp [dataTable]) _) (fun _ => ?_)
  refine iteInduction (motive := Fine) (fun i => attr_ok fun _ => ?_) (fun _ => ?_)
  · obtain ⟨x, e⟩ := hx 0 [⟨2, uint 2⟩, ⟨1, uint 1⟩, ⟨1, uint 1⟩] (by subst i; simp [dataTable])
    obtain ⟨y, e'⟩ := hx 1 [⟨2, uint 2⟩, ⟨1, uint 1⟩, ⟨1, uint 1⟩] (by subst i; simp [dataTable])
    rw [e, e']
    exact ⟨_, rfl⟩
  iterate 3
    refine iteInduction (motive := Fine) (fun i => attr_ok fun _ => hv (fs := pair) (by subst i; simp [dataTable]) _) (fun _ => ?_)
  exact iteInduction (motive := Fine) (fun _ => ⟨_, rfl⟩) (fun _ => ⟨_, rfl⟩)

theorem attr_get {c : Clock} {refuse : Bool} {set : Except Fault Clock} {get : Clock → List Nat} :
    attr c 0 refuse set get = .ok ⟨0, c, 2, get c⟩ := by simp [attr]

theorem attr_other {c : Clock} {action : Nat} {refuse : Bool} {set : Except Fault Clock} {get : Clock → List Nat} (h : action ≠ 1) {o : Out}
    (e : attr c action refuse set get = .ok o) : o.clock = c := by
  unfold attr at e
  rw [if_neg h] at e
  split at e <;> (cases e; rfl)

/-- The clock is unchanged, except for its state by a command. -/
def Frame (c : Clock) (id action : Nat) (x : Except Fault Out) : Prop :=
  ∀ o, x = .ok o → o.clock = c ∨ action = 3 ∧ (id = 5 ∨ id = 0x200D ∨ id = 0x200E) ∧ ∃ s, o.clock = { c with state := s }

/-- GET and undefined actions change nothing, commands only the state of the port. -/
theorem handle_frame {c : Clock} {query : Nat → Clock → List Nat} {id action : Nat} {d : Ptr Data} (h1 : action ≠ 1) :
    Frame c id action (handle c query id action d) := by
  unfold handle
  dsimp only
  refine iteInduction (motive := Frame c id action) (fun _ o e => ?_) (fun _ => ?_)
  · left; split at e
    · cases e; rfl
    · split at e <;> (cases e; rfl)
  refine iteInduction (motive := Frame c id action) (fun _ o e => ?_) (fun _ => ?_)
  · left; split at e <;> (cases e; rfl)
  refine iteInduction (motive := Frame c id action) (fun _ o e => ?_) (fun _ => ?_)
  · left; rw [if_neg h1] at e; split at e <;> (cases e; rfl)
  refine iteInduction (motive := Frame c id action) (fun i o e => ?_) (fun _ => ?_)
  · split at e
    · cases hv : value d 0 with
      | error f => rw [hv] at e; cases e
      | ok x =>
        rw [hv] at e
        cases e
        dsimp only
        split
        · exact .inr ⟨by assumption, .inl i, _, rfl⟩
        · exact .inl rfl
    · cases e; exact .inl rfl
  iterate 7
    refine iteInduction (motive := Frame c id action) (fun i o e => .inl (attr_other h1 e)) (fun _ => ?_)
  refine iteInduction (motive := Frame c id action) (fun i o e => ?_) (fun _ => ?_)
  · split at e
    · cases e
      dsimp only
      split
      · exact .inr ⟨by assumption, .inr (.inl i), _, rfl⟩
      · exact .inl rfl
    · cases e; exact .inl rfl
  refine iteInduction (motive := Frame c id action) (fun i o e => ?_) (fun _ => ?_)
  · split at e
    · cases e
      exact .inr ⟨by assumption, .inr (.inr i), _, rfl⟩
    · cases e; exact .inl rfl
  iterate 6
    refine iteInduction (motive := Frame c id action) (fun i o e => .inl (attr_other h1 e)) (fun _ => ?_)
  refine iteInduction (motive := Frame c id action) (fun i o e => ?_) (fun _ o e => ?_) <;> (cases e; exact .inl rfl)

/-! ### The effect of setting -/

theorem pair_value {m : Mem} {length : Nat} {d : Ptr Data} (h : Read m length d) (hd : dataTable (managementId m) = some pair) :
    Management.value d 0 = .ok (m 54).toNat ∧ 56 ≤ length := by
  cases h with
  | values h' hl =>
    rw [hd] at h'; cases h'
    have hl' : 56 ≤ length := by simpa [pair] using hl
    refine ⟨?_, hl'⟩
    simp only [Management.value, pair]
    rw [vals_uint _ _ _ _ _ _ _ _ (by omega), ← num_one]
    rfl
  | description h' => rw [h'] at hd; simp [dataTable] at hd
  | text h' => rw [h'] at hd; simp [dataTable] at hd
  | none h' => rw [hd] at h'; cases h'

theorem slice_getD (m : Mem) (a n k : Nat) (h : k < n) : (slice m a n).getD k 0 = m (a + k) := by
  simp [slice, h]

theorem slice_getD0 (m : Mem) (a n : Nat) (h : 0 < n) : (slice m a n).getD 0 0 = m a := slice_getD m a n 0 h

theorem flags_get (p q r : Bool) : setField p 2 + setField q 1 + setField r 0 = (if r then 1 else 0) + (if q then 2 else 0) + (if p then 4 else 0) := by
  cases p <;> cases q <;> cases r <;> rfl

theorem traceable_get (p q : Bool) : setField p 5 + setField q 4 = (if q then 16 else 0) + (if p then 32 else 0) := by
  cases p <;> cases q <;> rfl

theorem isSet_flag (x : Byte) (k : Nat) : isSet x.toNat k = Spec.flag x k := by
  simp [isSet, Spec.flag, Nat.testBit_eq_decide_div_mod_eq]

theorem boolean_value (m : Mem) (h1 : m 55 = 0) (h2 : m 56 = 0) (h3 : m 57 = 0) : ofLE (load m 54 4) = (m 54).toNat := by
  simp [ofLE, load, ofBE, List.range_succ, h1, h2, h3]

theorem num_two (m : Mem) (a : Nat) : num m a 2 = (m a).toNat * 256 + (m (a + 1)).toNat := by
  simp [num, number, slice, List.range_succ]

/-- Setting an attribute. -/
theorem handle_set (c : Clock) (query : Nat → Clock → List Nat) {m : Mem} {length : Nat} {d : Ptr Data} (h : Read m length d)
    (hi : managementId m ∈ attributes) (hr : managementId m ∈ ofMaster → ¬ Slave c)
    (hb : managementId m = 0x2008 → m 55 = 0 ∧ m 56 = 0 ∧ m 57 = 0) :
    handle c query (managementId m) 1 d = .ok ⟨0, Spec.set (managementId m) (slice m 54 (length - 54)) c, 2,
      Spec.get (managementId m) (Spec.set (managementId m) (slice m 54 (length - 54)) c)⟩ := by
  simp only [attributes, List.mem_cons, List.not_mem_nil, or_false] at hi
  rcases hi with i | i | i | i | i | i | i | i | i | i | i | i
  case inr.inr.inr.inl =>
    obtain ⟨b1, b2, b3⟩ := hb i
    have hd : dataTable (managementId m) = some [⟨1, boolean⟩, ⟨1, uint 1⟩] := by rw [i]; simp [dataTable]
    have v := h.value hd 0
    have hl : 56 ≤ length := by
      cases h with
      | values h' hl => rw [hd] at h'; cases h'; simpa using hl
      | description h' => omega
      | text h' => omega
      | none h' => rw [hd] at h'; cases h'
    rw [vals_boolean _ _ _ _ _ _ _ (by omega), show 0 + 54 = 54 from rfl, boolean_value m b1 b2 b3] at v
    have v' : Management.value d 0 = .ok (m 54).toNat := v
    rw [i]
    simp only [handle, v', attr, Spec.set, Spec.get, slice_getD0 m 54 (length - 54) (by omega)]
    simp [Except.map]
    by_cases e : (m 54).toNat = 0 <;> simp [e]
  case inr.inr.inr.inr.inr.inr.inr.inr.inl =>
    have hd : dataTable (managementId m) = some [⟨2, uint 2⟩, ⟨1, uint 1⟩, ⟨1, uint 1⟩] := by rw [i]; simp [dataTable]
    have v := h.value hd 0
    have w := h.value hd 1
    have hl : 58 ≤ length := by
      cases h with
      | values h' hl => rw [hd] at h'; cases h'; simpa using hl
      | description h' => omega
      | text h' => omega
      | none h' => rw [hd] at h'; cases h'
    have hr' := hr (by simp [ofMaster, i])
    rw [vals_uint _ _ _ _ _ _ _ _ (by omega), vals_uint _ _ _ _ _ _ _ _ (by omega), vals_uint _ _ _ _ _ _ _ _ (by omega), unpackFields_nil, ] at v w
    have v' : Management.value d 0 = .ok (num m 54 2) := v
    have w' : Management.value d 1 = .ok (num m 56 1) := w
    rw [i]
    simp only [handle, v', w', attr, Spec.set, Spec.get, slice_getD0 m 54 (length - 54) (by omega), slice_getD m 54 (length - 54) 1 (by omega),
      slice_getD m 54 (length - 54) 2 (by omega)]
    simp only [Slave] at hr'
    simp [Except.map, bind, Except.bind, pure, Except.pure, hr', num_two, num_one, isSet_flag, flags_get]
  all_goals
    obtain ⟨v, hl⟩ := pair_value h (by rw [i]; simp [dataTable])
    simp only [i, ofMaster, List.mem_cons, List.not_mem_nil, Slave] at hr
    rw [i]
    simp only [handle, v, attr, Spec.set, Spec.get, slice_getD0 m 54 (length - 54) (by omega)]
    simp at hr
    simp [Except.map, hr, isSet_flag, traceable_get]

/-! ### Reception -/

theorem addressed_iff (c : Clock) (m : Mem) (tlv : Ptr Tlv) : acceptManagementMessage c (message m tlv).target = true ↔ Addressed c m := by
  have e8 : num m 34 8 = 2 ^ 64 - 1 ↔ slice m 34 8 = List.replicate 8 0xFF#8 := by
    constructor
    · intro h
      refine number_inj (by simp [slice]) ?_
      rw [show number (slice m 34 8) = num m 34 8 from rfl, h]; rfl
    · intro h; unfold num; rw [h]; rfl
  have e2 : num m 42 2 = 0xFFFF ↔ slice m 42 2 = List.replicate 2 0xFF#8 := by
    constructor
    · intro h
      refine number_inj (by simp [slice]) ?_
      rw [show number (slice m 42 2) = num m 42 2 from rfl, h]; rfl
    · intro h; unfold num; rw [h]; rfl
  unfold acceptManagementMessage Addressed
  rw [← e8, ← e2]
  simp only [Bool.and_eq_true, Bool.or_eq_true, decide_eq_true_eq]
  rfl

/-- The TLV of a request. -/
def tlvOf (m : Mem) : Tlv := ⟨tlvType m, num m 50 2, managementId m, .null⟩

theorem receive_tlv (opts : Opts) (c : Clock) (query : Nat → Clock → List Nat) {m : Mem} {length : Nat} (junk : Nat) (h : HasTlv m length) :
    receive opts c query m length junk = some (handleManagement opts c query m length junk (message m (.live (tlvOf m)))) := by
  unfold receive
  rw [unpack_msg, unpack_tlv, if_pos (by have := h.2; omega), if_pos (show 48 < num m 2 2 from h.1), if_pos h.2]
  rfl

theorem receive_request {opts : Opts} {c : Clock} (query : Nat → Clock → List Nat) {m : Mem} {length : Nat} (junk : Nat) (h : Request opts c m length) :
    receive opts c query m length junk = some (answer opts c query m length (message m (.live (tlvOf m))) (tlvOf m)) := by
  obtain ⟨h0, h1, h2, h3, h4, h5⟩ := h
  rw [receive_tlv opts c query junk h1]
  have a := (addressed_iff c m (.live (tlvOf m))).2 h2
  have h3' : (tlvOf m).type = 1 := h3
  have h4' : (message m (.live (tlvOf m))).action ≠ 2 := h4
  have h5' : (message m (.live (tlvOf m))).action ≠ 4 := h5
  unfold handleManagement
  have ht : (message m (.live (tlvOf m))).tlv = .live (tlvOf m) := rfl
  rw [ht]
  simp [h0, a, h3', h4', h5']

theorem map_ok {α β : Type} {f : α → β} {x : Except Fault α} {r : β} (h : x.map f = .ok r) : ∃ p, r = f p := by
  cases x with
  | error e => cases h
  | ok p => cases h; exact ⟨p, rfl⟩

/-- What a message may do. -/
theorem receive_cases {opts : Opts} {c : Clock} {query : Nat → Clock → List Nat} {m : Mem} {length junk : Nat} {r : Result}
    (h : receive opts c query m length junk = some (.ok r)) :
    (r.clock = c ∧ r.reply = none) ∨ Request opts c m length := by
  unfold receive at h
  rw [unpack_msg, unpack_tlv] at h
  split at h
  case isFalse => cases h
  have hd : ∀ tlv, (freeManagementTLV tlv).map (fun p => (⟨c, 0, 1, 0, none, p⟩ : Result)) = .ok r → r.clock = c ∧ r.reply = none := by
    intro tlv e
    cases hf : freeManagementTLV tlv with
    | error f => rw [hf] at e; cases e
    | ok p => rw [hf] at e; cases e; exact ⟨rfl, rfl⟩
  simp only [Option.map_some, Option.some.injEq] at h
  unfold handleManagement at h
  by_cases h0 : opts.enabled = false
  · rw [if_pos h0] at h
    exact .inl (hd _ h)
  rw [if_neg h0] at h
  by_cases h1 : 48 < num m 2 2
  case neg =>
    simp only [if_neg h1, message] at h
    cases h
    exact .inl ⟨rfl, rfl⟩
  by_cases h2 : 54 ≤ length
  case neg =>
    simp only [if_pos h1, if_neg h2, message] at h
    split at h
    · cases h
    · exact .inl (hd _ h)
  simp only [if_pos h1, if_pos h2] at h
  have a := addressed_iff c m (.live (tlvOf m))
  change (if acceptManagementMessage c (message m (.live (tlvOf m))).target = false then _ else if tlvType m = 2 then _ else if tlvType m ≠ 1 then _
    else if action m = 2 ∨ action m = 4 then _ else _) = Except.ok r at h
  by_cases h3 : acceptManagementMessage c (message m (.live (tlvOf m))).target = false
  · rw [if_pos h3] at h
    exact .inl (hd _ h)
  rw [if_neg h3] at h
  by_cases h4 : tlvType m = 2
  · rw [if_pos h4] at h
    left
    split at h
    · cases h; exact ⟨rfl, rfl⟩
    · obtain ⟨p, e⟩ := map_ok h
      subst e
      exact ⟨rfl, rfl⟩
  rw [if_neg h4] at h
  by_cases h5 : tlvType m ≠ 1
  · rw [if_pos h5] at h
    exact .inl (hd _ h)
  rw [if_neg h5] at h
  by_cases h6 : action m = 2 ∨ action m = 4
  · rw [if_pos h6] at h
    exact .inl (hd _ h)
  · refine .inr ⟨by simpa using h0, ⟨h1, h2⟩, a.1 (by simpa using h3), by omega, by omega, by omega⟩

theorem finish_ok {msg : Msg} {t : Tlv} {o : Out} {d : Ptr Data} {r : Result} (h : finish msg t o d = .ok r) :
    r.clock = o.clock ∧ ∃ a, r.reply = some a := by
  unfold finish at h
  cases hf : freeManagementTLV (.live { t with data := d }) with
  | error f => rw [hf] at h; cases h
  | ok p => rw [hf] at h; cases h; exact ⟨rfl, _, rfl⟩

/-- A GET is handled without faults, whatever the data field. -/
theorem handle_get (c : Clock) (query : Nat → Clock → List Nat) (id : Nat) (d : Ptr Data) : Fine (handle c query id 0 d) := by
  unfold handle
  dsimp only
  iterate 2
    refine iteInduction (motive := Fine) (fun _ => ⟨_, rfl⟩) (fun _ => ?_)
  refine iteInduction (motive := Fine) (fun _ => ⟨_, by rw [if_neg (by decide)]⟩) (fun _ => ?_)
  refine iteInduction (motive := Fine) (fun _ => ⟨_, by rw [if_neg (by decide)]⟩) (fun _ => ?_)
  iterate 7
    refine iteInduction (motive := Fine) (fun _ => ⟨_, attr_get⟩) (fun _ => ?_)
  iterate 2
    refine iteInduction (motive := Fine) (fun _ => ⟨_, rfl⟩) (fun _ => ?_)
  iterate 6
    refine iteInduction (motive := Fine) (fun _ => ⟨_, attr_get⟩) (fun _ => ?_)
  exact iteInduction (motive := Fine) (fun _ => ⟨_, rfl⟩) (fun _ => ⟨_, rfl⟩)

theorem answer_eq (opts : Opts) (c : Clock) (query : Nat → Clock → List Nat) {m : Mem} {length : Nat} {msg : Msg} {t : Tlv} {d : Ptr Data} {o : Out}
    (he : ¬ (opts.setEnable = false ∧ (msg.action = 1 ∨ msg.action = 3)))
    (hd : d = if msg.action = 0 then t.data else unpackData m length t.id) (hf : d ≠ .freed) (ho : handle c query t.id msg.action d = .ok o) :
    answer opts c query m length msg t = finish msg t o d := by
  unfold answer
  rw [if_neg he, ← hd]
  dsimp only
  rw [if_neg hf, ho]

/-- The answer to a GET, or to a complete request. -/
theorem answer_ok (opts : Opts) (c : Clock) (query : Nat → Clock → List Nat) {m : Mem} {length : Nat}
    (he : opts.setEnable = true ∨ action m ≠ 1 ∧ action m ≠ 3) (h1 : action m ≠ 0 → Complete m length) :
    ∃ o d, handle c query (managementId m) (action m) d = .ok o ∧ (Read m length d ∨ d = .null) ∧
      (action m ≠ 0 → d = unpackData m length (managementId m) ∧ Read m length d) ∧
      answer opts c query m length (message m (.live (tlvOf m))) (tlvOf m) = finish (message m (.live (tlvOf m))) (tlvOf m) o d := by
  have he' : ¬ (opts.setEnable = false ∧ (action m = 1 ∨ action m = 3)) := by
    rintro ⟨a, b⟩; simp [a] at he; omega
  by_cases ha : action m = 0
  · obtain ⟨o, e⟩ := handle_get c query (managementId m) .null
    rw [← ha] at e
    exact ⟨o, .null, e, .inr rfl, fun h => absurd ha h, answer_eq opts c query he' (if_pos ha).symm (by simp) e⟩
  · have hr := unpackData_read (h1 ha)
    obtain ⟨o, e⟩ := handle_ok c query hr (action m)
    exact ⟨o, _, e, .inl hr, fun _ => ⟨rfl, hr⟩, answer_eq opts c query he' (if_neg ha).symm
      (by generalize unpackData m length (managementId m) = d at hr; cases hr <;> simp) e⟩

theorem finish_read {m : Mem} {length : Nat} {d : Ptr Data} (h : Read m length d ∨ d = .null) (msg : Msg) (t : Tlv) (o : Out) :
    ∃ r, finish msg t o d = .ok r ∧ r.left = .null := by
  unfold finish
  have : freeManagementTLV (.live { t with data := d }) = .ok .null := by
    rcases h with h | h
    · exact free_read h _
    · subst h; rfl
  rw [this]
  exact ⟨_, rfl, rfl⟩

theorem answer_refused (opts : Opts) (c : Clock) (query : Nat → Clock → List Nat) {m : Mem} {length : Nat} {msg : Msg} {t : Tlv}
    (he : opts.setEnable = false ∧ (msg.action = 1 ∨ msg.action = 3)) :
    answer opts c query m length msg t = finish msg t ⟨6, c, 0, []⟩ t.data := by
  unfold answer
  rw [if_pos he]

theorem receive_short (opts : Opts) (c : Clock) (query : Nat → Clock → List Nat) {m : Mem} {length : Nat} (junk : Nat) (h : ¬ 48 < messageLength m) (hl : 48 ≤ length) :
    receive opts c query m length junk = some (handleManagement opts c query m length junk (message m .null)) := by
  unfold receive
  rw [unpack_msg, unpack_tlv, if_pos hl, if_neg (show ¬ 48 < num m 2 2 from h)]
  rfl

/-- Other messages that are complete cause no faults either. -/
theorem receive_other {opts : Opts} {c : Clock} {query : Nat → Clock → List Nat} {m : Mem} {length junk : Nat} {x : Except Fault Result}
    (h : receive opts c query m length junk = some x) (hq : ¬ Request opts c m length) (h0 : 48 < messageLength m → 54 ≤ length)
    (h2 : tlvType m = 2 → CompleteStatus m length junk) : ∃ r, x = .ok r ∧ r.left = .null := by
  by_cases h1 : 48 < messageLength m
  case neg =>
    by_cases hl : 48 ≤ length
    · rw [receive_short opts c query junk h1 hl] at h
      cases h
      unfold handleManagement
      split
      · exact ⟨_, rfl, rfl⟩
      · exact ⟨_, rfl, rfl⟩
    · unfold receive at h
      rw [unpack_msg, if_neg hl] at h
      cases h
  rw [receive_tlv opts c query junk ⟨h1, h0 h1⟩] at h
  cases h
  unfold handleManagement
  have hd : freeManagementTLV (message m (.live (tlvOf m))).tlv = .ok .null := rfl
  rw [hd]
  by_cases he : opts.enabled = false
  · rw [if_pos he]; exact ⟨_, rfl, rfl⟩
  rw [if_neg he]
  have a := addressed_iff c m (.live (tlvOf m))
  change ∃ r, (if acceptManagementMessage c (message m (.live (tlvOf m))).target = false then _ else if tlvType m = 2 then _ else if tlvType m ≠ 1 then _
    else if action m = 2 ∨ action m = 4 then _ else _) = Except.ok r ∧ _
  by_cases h3 : acceptManagementMessage c (message m (.live (tlvOf m))).target = false
  · rw [if_pos h3]; exact ⟨_, rfl, rfl⟩
  rw [if_neg h3]
  by_cases h4 : tlvType m = 2
  · rw [if_pos h4]
    obtain ⟨s1, s2⟩ := h2 h4
    have e : unpackErrorStatus m length junk = .live (.text (num m 60 1) (if num m 60 1 = 0 then .null else .live (load m 61 (num m 60 1)))) := by
      unfold unpackErrorStatus
      rw [if_neg (by omega), if_neg (by omega), if_neg (by omega), unpackText_eq _ _ _ _ (by omega)]
    rw [e]
    by_cases z : num m 60 1 = 0 <;> simp [z, freeManagementTLV, Except.map]
  rw [if_neg h4]
  by_cases h5 : tlvType m ≠ 1
  · rw [if_pos h5]; exact ⟨_, rfl, rfl⟩
  rw [if_neg h5]
  by_cases h6 : action m = 2 ∨ action m = 4
  · rw [if_pos h6]; exact ⟨_, rfl, rfl⟩
  · exact absurd ⟨by simpa using he, ⟨h1, h0 h1⟩, a.1 (by simpa using h3), by omega, by omega, by omega⟩ hq

theorem handle_read (c : Clock) (query : Nat → Clock → List Nat) {id : Nat} (hi : id ∈ attributes) (d : Ptr Data) :
    handle c query id 0 d = .ok ⟨0, c, 2, Spec.get id c⟩ := by
  simp only [attributes, List.mem_cons, List.not_mem_nil, or_false] at hi
  rcases hi with i | i | i | i | i | i | i | i | i | i | i | i <;> subst i
  all_goals simp only [handle, attr_get, Spec.get]
  all_goals simp [flags_get, traceable_get]
  all_goals (cases c.slaveOnly <;> rfl)

theorem handle_slave (c : Clock) (query : Nat → Clock → List Nat) {id : Nat} (hi : id ∈ ofMaster) (hs : Slave c) (d : Ptr Data) :
    handle c query id 1 d = .ok ⟨6, c, 0, []⟩ := by
  simp only [ofMaster, List.mem_cons, List.not_mem_nil, or_false] at hi
  simp only [Slave] at hs
  rcases hi with i | i | i <;> subst i <;> simp [handle, attr, hs]

/-- The value of an attribute is unchanged. -/
def Keeps (c : Clock) (id : Nat) (x : Except Fault Out) : Prop := ∀ o, x = .ok o → Spec.get id o.clock = Spec.get id c

theorem keeps_ok {c : Clock} {id : Nat} {o : Out} (h : o.clock = c) : Keeps c id (.ok o) := by
  intro o' e; cases e; rw [h]

theorem keeps_attr {c : Clock} {id action : Nat} {refuse : Bool} {set : Except Fault Clock} {get : Clock → List Nat}
    (h : ∀ c', set = .ok c' → Spec.get id c' = Spec.get id c) : Keeps c id (attr c action refuse set get) := by
  intro o e
  unfold attr at e
  split at e
  · split at e
    · cases e; rfl
    · cases hs : set with
      | error f => rw [hs] at e; cases e
      | ok c' => rw [hs] at e; cases e; exact h c' hs
  · split at e <;> (cases e; rfl)

theorem keeps_value {c : Clock} {id : Nat} {d : Ptr Data} {v : Nat → Clock} (h : ∀ x, Spec.get id (v x) = Spec.get id c) (c' : Clock)
    (e : (Management.value d 0).map v = .ok c') : Spec.get id c' = Spec.get id c := by
  obtain ⟨x, hx⟩ := map_ok e
  rw [hx, h]

/-- A message about something else keeps the value of an attribute. -/
theorem handle_other {c : Clock} {query : Nat → Clock → List Nat} {id id' action : Nat} {d : Ptr Data} (hi : id ∈ attributes) (hne : id' = id → action ≠ 1) :
    Keeps c id (handle c query id' action d) := by
  by_cases ha : action = 1
  case neg =>
    intro o e
    rcases handle_frame ha o e with h | ⟨-, -, s, h⟩
    · rw [h]
    · rw [h]; rfl
  have hn : id' ≠ id := fun e => hne e ha
  unfold handle
  dsimp only
  refine iteInduction (motive := Keeps c id) (fun _ => keeps_ok ?_) (fun _ => ?_)
  · split
    · rfl
    · split <;> rfl
  refine iteInduction (motive := Keeps c id) (fun _ => keeps_ok ?_) (fun _ => ?_)
  · split <;> rfl
  refine iteInduction (motive := Keeps c id) (fun _ => ?_) (fun _ => ?_)
  · rw [if_pos ha]
    intro o e
    obtain ⟨x, hx⟩ := map_ok e
    cases hs : setUser c d with
    | error f => rw [hs] at e; cases e
    | ok y =>
      rw [hs] at e
      cases e
      cases y with
      | none => rfl
      | some c' =>
        have : ∃ l, c' = { c with user := l } := by
          unfold setUser at hs
          repeat' split at hs
          all_goals first | (cases hs; done) | (cases hs; exact ⟨_, rfl⟩)
        obtain ⟨l, rfl⟩ := this
        rfl
  refine iteInduction (motive := Keeps c id) (fun _ => ?_) (fun _ => ?_)
  · rw [if_neg (by omega)]; exact keeps_ok rfl
  iterate 7
    refine iteInduction (motive := Keeps c id) (fun i => keeps_attr (keeps_value fun x => by
      have this : id ≠ _ := fun e => hn (i.trans e.symm)
      simp only [Spec.get, this, if_false])) (fun _ => ?_)
  refine iteInduction (motive := Keeps c id) (fun _ => keeps_ok ?_) (fun _ => ?_)
  · split
    · omega
    · rfl
  refine iteInduction (motive := Keeps c id) (fun _ => keeps_ok ?_) (fun _ => ?_)
  · split
    · omega
    · rfl
  refine iteInduction (motive := Keeps c id) (fun _ => keeps_attr fun c' e => by cases e; rfl) (fun _ => ?_)
  refine iteInduction (motive := Keeps c id) (fun i => keeps_attr (keeps_value fun x => by
      have this : id ≠ _ := fun e => hn (i.trans e.symm)
      simp only [Spec.get, this, if_false])) (fun _ => ?_)
  refine iteInduction (motive := Keeps c id) (fun i => keeps_attr fun c' e => ?_) (fun _ => ?_)
  · have this : id ≠ _ := fun e => hn (i.trans e.symm)
    cases h0 : value d 0 with
    | error f => rw [h0] at e; cases e
    | ok x =>
      cases h1 : value d 1 with
      | error f => rw [h0, h1] at e; cases e
      | ok y =>
        rw [h0, h1] at e
        cases e
        simp only [Spec.get, this, if_false]
  iterate 3
    refine iteInduction (motive := Keeps c id) (fun i => keeps_attr (keeps_value fun x => by
      have this : id ≠ _ := fun e => hn (i.trans e.symm)
      simp only [Spec.get, this, if_false])) (fun _ => ?_)
  exact iteInduction (motive := Keeps c id) (fun _ => keeps_ok rfl) (fun _ => keeps_ok rfl)

theorem answers_of (m : Mem) (t : Ptr Tlv) (type id : Nat) (values : List Nat) (action : Nat) :
    Answers m ⟨type, id, values, action, (message m t).sequenceId, (message m t).source,
      ((message m t).startingHops + 256 - (message m t).hops) % 256, (message m t).flag0.testBit 2⟩ where
  sequence := rfl
  clock := rfl
  port := rfl
  hops h := by
    change (num m 44 1 + 256 - num m 45 1) % 256 = _
    have := (m 44).isLt
    rw [num_one, num_one] at *
    omega
  unicast := by
    change (num m 6 1).testBit 2 = true ↔ _
    simp [Nat.testBit_eq_decide_div_mod_eq]

theorem finish_reply {m : Mem} {t : Tlv} {o : Out} {d : Ptr Data} {r : Result} (ht : t.id = managementId m) {p : Ptr Tlv} (h : finish (message m p) t o d = .ok r) :
    ∃ a, r.reply = some a ∧ Answers m a ∧ (o.rc = 0 → a.type = 1 ∧ a.id = managementId m ∧ a.action = o.action ∧ a.values = o.values) ∧
      (o.rc ≠ 0 → Refusal m o.rc a) := by
  unfold finish at h
  cases hf : freeManagementTLV (.live { t with data := d }) with
  | error f => rw [hf] at h; cases h
  | ok q =>
    rw [hf] at h
    cases h
    dsimp only
    split
    · rename_i h0
      exact ⟨_, rfl, answers_of m p _ _ _ _, fun _ => ⟨rfl, ht, rfl, rfl⟩, fun h => absurd h0 h⟩
    · rename_i h0
      exact ⟨_, rfl, answers_of m p _ _ _ _, fun h => absurd h h0, fun h => ⟨rfl, rfl, by rw [ht], answers_of m p _ _ _ _⟩⟩

theorem answer_frame {opts : Opts} {c : Clock} {query : Nat → Clock → List Nat} {m : Mem} {length : Nat} {msg : Msg} {t : Tlv} {r : Result}
    (h : answer opts c query m length msg t = .ok r) :
    r.clock = c ∨ (¬ (opts.setEnable = false ∧ (msg.action = 1 ∨ msg.action = 3))) ∧ ∃ d o, handle c query t.id msg.action d = .ok o ∧ r.clock = o.clock := by
  unfold answer at h
  by_cases he : opts.setEnable = false ∧ (msg.action = 1 ∨ msg.action = 3)
  · rw [if_pos he] at h
    exact .inl (finish_ok h).1
  · rw [if_neg he] at h
    generalize (if msg.action = 0 then t.data else unpackData m length t.id) = d at h
    dsimp only at h
    split at h
    · exact .inl (finish_ok h).1
    · split at h
      · cases h
      · rename_i o e
        exact .inr ⟨he, d, o, e, (finish_ok h).1⟩

end Verif.Management
