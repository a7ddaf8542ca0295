import Verif.Ntp6.Model

/-!
# Specification for the mode 6 client

The format of control messages as in the description of the protocol (lines 127-168 of the source
repeat it), written from the point of view of the sender.
-/

namespace Verif.Ntp6

/-- The fields of a control message that ntpd sends. -/
structure Head where
  leap : Nat := 0
  version : Nat := 4
  error : Bool := false
  more : Bool := false
  op : Nat
  seq : Nat
  status : Nat := 0
  assoc : Nat := 0
  offset : Nat := 0
  deriving DecidableEq, Repr

/-- A 16 bit field, most significant byte first. -/
def be16 (n : Nat) : List Nat := [n / 256, n % 256]

/-- A response: header, payload and whatever follows it. -/
def Head.message (h : Head) (data pad : List Nat) : List Nat :=
  [h.leap * 64 + h.version * 8 + 6, 128 + (if h.error then 64 else 0) + (if h.more then 32 else 0) + h.op]
    ++ be16 h.seq ++ be16 h.status ++ be16 h.assoc ++ be16 h.offset ++ be16 data.length ++ data ++ pad

/-- The fields fit and the version is one that is in use. -/
def Head.Fits (h : Head) : Prop :=
  h.leap < 4 ∧ 1 ≤ h.version ∧ h.version ≤ 4 ∧ h.op < 32 ∧ h.seq < 65536 ∧ h.status < 65536 ∧ h.assoc < 65536 ∧ h.offset < 65536

/-- `b` begins with the header `h`, whatever its count of bytes and whatever follows. -/
def Begins (h : Head) (b : List Nat) : Prop :=
  ∃ (n : Nat) (rest : List Nat), n < 65536 ∧ b = (h.message [] []).take 10 ++ be16 n ++ rest

/-- `b` answers query `seq` with operation `op`. -/
def Answers (seq op : Nat) (b : List Nat) : Prop := ∃ h : Head, h.Fits ∧ h.seq = seq ∧ h.op = op ∧ Begins h b

/-- A part of a reply: header and payload. -/
abbrev Part := Head × List Nat

/-- The parts follow one another from position `o` on. -/
def Tiles : Nat → List Part → Prop
  | _, [] => True
  | o, p :: ps => p.1.offset = o ∧ Tiles (o + p.2.length) ps

/-- The datagrams are made of bytes. -/
def Octets (es : List (Nat × Rx)) : Prop := ∀ t b, (t, Rx.packet b) ∈ es → ∀ x ∈ b, x < 256

/-- The position of part number `j`. -/
def startOf (fs : List (List Nat)) (j : Nat) : Nat := ((fs.take j).map List.length).sum

/-- ntpd splits its answer into these payloads. -/
structure Split (fs : List (List Nat)) : Prop where
  some_ : fs ≠ []
  few : fs.length ≤ 32
  small : ∀ f ∈ fs, f.length ≤ 504
  fits : fs.flatten.length ≤ 4096
  full : ∀ j f, fs[j]? = some f → j + 1 < fs.length → f ≠ []

/-- The message with part `j` of the answer, padded to 32 bits. -/
def PartMsg (fs : List (List Nat)) (seq op j : Nat) (b : List Nat) : Prop :=
  ∃ (h : Head) (f : List Nat), h.Fits ∧ h.seq = seq ∧ h.op = op ∧ h.error = false ∧ fs[j]? = some f ∧
    h.offset = startOf fs j ∧ h.more = decide (j + 1 < fs.length) ∧
    b = h.message f (List.replicate ((4 - f.length % 4) % 4) 0)

end Verif.Ntp6
