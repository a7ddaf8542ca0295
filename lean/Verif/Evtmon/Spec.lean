import Verif.Evtmon.Model

/-!
# What a slave should report

Stated on lists of samples, each with the parent it was taken from; only the type of messages
is shared with the model.
-/

namespace Verif.Evtmon

/-- One event in `k + 1`, beginning with the first. -/
def sampled {A : Type} (k : Nat) (l : List A) : List A :=
  (l.zipIdx.filter fun x => x.2 % (k + 1) = 0).map Prod.fst

/-- The samples in a message. -/
def Msg.samples {R : Type} (m : Msg R) : List (Nat × R) := m.records.map fun r => (m.source, r)

/-- `Reports n xs msgs rest`: the messages `msgs` hold the samples `xs`, each once and in order,
but for the last few, `rest`, which are kept. A message has `n` samples, or fewer if the next
sample has another parent. -/
inductive Reports {R : Type} (n : Nat) : List (Nat × R) → List (Msg R) → List (Nat × R) → Prop
  | rest (xs) (h : xs.length < n) (p : Nat) (hp : ∀ x ∈ xs, x.1 = p) : Reports n xs [] xs
  | full (m xs ms xs') (h : m.records.length = n) (hr : Reports n xs ms xs') :
      Reports n (m.samples ++ xs) (m :: ms) xs'
  | change (m x xs ms xs') (h0 : m.records ≠ []) (h : m.records.length < n) (hx : x.1 ≠ m.source)
      (hr : Reports n (x :: xs) ms xs') : Reports n (m.samples ++ x :: xs) (m :: ms) xs'

/-- What the code makes of the messages: after one that is not full the next has its first record
again, in place of its own. -/
def stale {R : Type} (n : Nat) : Option R → List (Msg R) → List (Msg R)
  | _, [] => []
  | none, m :: ms => m :: stale n (if m.records.length = n then none else m.records.head?) ms
  | some r, m :: ms =>
    ⟨m.source, r :: m.records.tail⟩ :: stale n (if m.records.length = n then none else some r) ms

end Verif.Evtmon
