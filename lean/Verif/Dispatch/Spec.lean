import Verif.Codec.Spec
import Verif.Dispatch.Model

/-! # What the reception of messages is to do -/

namespace Verif.Dispatch.Spec
open Verif.Codec Verif.Codec.Spec

/-- A TLV: type and value. -/
structure TLV where
  type : Nat
  value : List Byte

/-- The bytes from `off` to `safe` are exactly the given TLVs. -/
def Suffix (m : Mem) : Nat → Nat → List TLV → Prop
  | off, safe, [] => off = safe
  | off, safe, t :: ts => number (slice m off 2) = t.type ∧ number (slice m (off + 2) 2) = t.value.length ∧
      slice m (off + 4) t.value.length = t.value ∧ Suffix m (off + 4 + t.value.length) safe ts

/-- Types whose value begins with an organisation and a subtype, of three octets each. -/
def IsOrg (type : Nat) : Prop := type = 0x0003 ∨ type = 0x4000 ∨ type = 0x8000

instance (type : Nat) : Decidable (IsOrg type) := by unfold IsOrg; infer_instance

/-- A handler is for a TLV. -/
def Matches (h : Handler) (t : TLV) : Prop :=
  h.type = t.type ∧ (IsOrg t.type → number (t.value.take 3) = h.org ∧ number ((t.value.drop 3).take 3) = h.sub)

instance (h : Handler) (t : TLV) : Decidable (Matches h t) := by unfold Matches; infer_instance

/-- What the handler of a TLV at `off` is to be given: the value without organisation
and subtype. -/
def given (off : Nat) (t : TLV) : Tlv :=
  if IsOrg t.type then ⟨t.type, off, off + 10, t.value.length - 6⟩ else ⟨t.type, off, off + 4, t.value.length⟩

/-- The handlers to be called, with what: for each TLV in order the handler for it, if
the access control lists and the type of the message permit it. -/
def wanted (permitted : Nat → Bool) (messageType : Nat) : Nat → List TLV → List (Handler × Tlv)
  | _, [] => []
  | off, t :: ts =>
    ((tlvHandlers.filter fun h => decide (Matches h t) && permitted h.acl && h.messages.testBit messageType).map fun h => (h, given off t)) ++
      wanted permitted messageType (off + 4 + t.value.length) ts

/-- A pass over the TLVs: those handlers that take part are called in order until one
gives an error; the result is an error, or that the message be dropped if any said so. -/
def pass {σ : Type} (part : Handler → Bool) (run : Handler → Tlv → σ → σ × Result) : List (Handler × Tlv) → σ → Result × σ
  | [], s => (.cont, s)
  | (h, t) :: es, s =>
    if part h then
      if (run h t s).2 = .error then (.error, (run h t s).1)
      else if (run h t s).2 = .drop ∧ (pass part run es (run h t s).1).1 = .cont then (.drop, (pass part run es (run h t s).1).2)
      else pass part run es (run h t s).1
    else pass part run es s

/-- Both passes: whether the message is to be handled, and the state. -/
def both {σ : Type} (env : Env σ) (es : List (Handler × Tlv)) (s : σ) : Bool × σ :=
  let r := pass (·.pass1) env.run1 es s
  if r.1 = .cont then
    let q := pass (·.pass2) env.run2 es r.2
    (q.1 = .cont, q.2)
  else (false, r.2)

/-- The least length of a message of each type. -/
def fixedLength (type : Nat) : Option Nat :=
  match type with
  | 0 | 1 | 2 | 8 => some 44
  | 3 | 9 | 10 => some 54
  | 11 => some 64
  | 12 => some 44
  | 13 => some 48
  | _ => none

end Verif.Dispatch.Spec
