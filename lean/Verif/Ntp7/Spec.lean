import Verif.Ntp7.Model

/-!
# Specification for the mode 7 client

The format of private messages as in the description of the protocol (lines 167-269 of the source
repeat it), written from the point of view of ntpd.
-/

namespace Verif.Ntp7

/-- A field of 16 or 32 bits, most significant byte first. -/
def w16 (n : Nat) : List Nat := [n / 256, n % 256]
def w32 (n : Nat) : List Nat := [n / 16777216, n / 65536 % 256, n / 256 % 256, n % 256]

/-- A message that ntpd sends. -/
structure Msg where
  version : Nat := 2
  more : Bool := false
  seq : Nat := 0
  code : Nat
  err : Nat := 0
  size : Nat := 0
  items : List (List Nat) := []
  pad : List Nat := []
  deriving DecidableEq, Repr

/-- The first eight bytes when `n` items are announced. -/
def Msg.head (m : Msg) (n : Nat) : List Nat :=
  [128 + (if m.more then 64 else 0) + m.version * 8 + 7, m.seq, 3, m.code] ++ w16 (m.err * 4096 + n) ++ w16 m.size

/-- The datagram. -/
def Msg.bytes (m : Msg) : List Nat := m.head m.items.length ++ m.items.flatten ++ m.pad

/-- The fields of the header fit and the version is one that is in use. -/
def Msg.Fits (m : Msg) : Prop :=
  1 ≤ m.version ∧ m.version ≤ 4 ∧ m.seq < 128 ∧ m.code < 256 ∧ m.err < 16 ∧ m.size < 4096

/-- The items have the size that is announced. -/
def Msg.Sized (m : Msg) : Prop := m.items.length < 4096 ∧ ∀ x ∈ m.items, x.length = m.size

/-- `b` begins like a message of ntpd about requests with this code. -/
def About (code : Nat) (b : List Nat) : Prop :=
  ∃ (m : Msg) (n : Nat) (rest : List Nat), m.Fits ∧ m.code = code ∧ n < 4096 ∧ b = m.head n ++ rest

/-- The messages `ms` arrive in this order, not later than `until_`; between them there may be
datagrams of other kinds, and after them anything. -/
inductive Arrives (code until_ : Nat) : List (Nat × Rx) → List (Nat × Msg) → Prop
  | done (es) : Arrives code until_ es []
  | noise {t b es ms} : t ≤ until_ → (∀ x ∈ b, x < 256) → ¬ About code b → Arrives code until_ es ms → Arrives code until_ ((t, .packet b) :: es) ms
  | msg {t m es ms} : t ≤ until_ → Arrives code until_ es ms → Arrives code until_ ((t, .packet m.bytes) :: es) ((t, m) :: ms)

/-- An item filled with zeros up to `req` bytes. -/
def fillUp (req : Nat) (x : List Nat) : List Nat := x ++ List.replicate (req - x.length) 0

/-- ntpd splits its answer into `n` messages numbered from 0; all but the last announce more. -/
structure Split (code : Nat) (ms : List Msg) : Prop where
  some_ : ms ≠ []
  few : ms.length ≤ 128
  fits : ∀ m ∈ ms, m.Fits ∧ m.Sized ∧ m.code = code ∧ m.err = 0
  number : ∀ (j : Nat) m, ms[j]? = some m → m.seq = j ∧ m.more = decide (j + 1 < ms.length)

/-- All the items of an answer, each filled up. -/
def content (req : Nat) (ms : List Msg) : List Nat := ((ms.flatMap (·.items)).map (fillUp req)).flatten

end Verif.Ntp7
