/-!
# Model of the miscellaneous library

Models `src/sfptpd_misc.c`: `sfptpd_strncpy` (57-65), the hash table (243-490)
and `sfptpd_format` (507-575).

Simplifications: characters are natural numbers, a C string is the list of its
characters before the terminating zero; memory allocation succeeds; the lock of
the hash table is a counter of lock and unlock calls; `ops->copy` copies the
record (as `sfptpd_stats_ht_copy_node`, `sfptpd_statistics.c:1385-1390`, does).
`none` is undefined behaviour or a failed assertion.
-/

namespace Verif.Misc

/-! ## Bounded copy -/

/-- `strncpy` on the first `n` bytes of `dest`: copy up to and including the
terminator, then fill with zeros; out of bounds if `dest` is shorter than `n`. -/
def strncpyC : List Nat → List Nat → Nat → Option (List Nat)
  | dest, _, 0 => some dest
  | [], _, _ + 1 => none
  | _ :: dest, [], n + 1 => (strncpyC dest [] n).map (0 :: ·)
  | _ :: dest, c :: src, n + 1 => (strncpyC dest src n).map (c :: ·)

/-- `sfptpd_strncpy` (lines 57-65): `dest[n - 1]` is out of bounds for `n = 0`. -/
def strncpy (dest src : List Nat) (n : Nat) : Option (List Nat) :=
  match strncpyC dest src n with
  | none => none
  | some d => if n = 0 ∨ n > d.length then none else some (d.set (n - 1) 0)

/-! ## Hash table -/

/-- `struct sfptpd_hash_table` (lines 42-50); a chain is the list of its
records, first entry first. -/
structure Table (U : Type) where
  size : Nat
  max : Nat
  num : Nat
  entries : List (List U)
  locks : Int
deriving Repr, DecidableEq

section
variable {U : Type} (key : U → List Nat)

/-- `hash` (lines 243-256): 32-bit arithmetic. -/
def hash (size : Nat) (k : List Nat) : Nat :=
  (k.foldl (fun (h : BitVec 32) b => BitVec.ofNat 32 b + (h <<< 5) - h) 0).toNat % size

/-- The chain loop of `sfptpd_ht_find` (lines 269-278): the position in the chain. -/
def findChain (k : List Nat) : List U → Option Nat
  | [] => none
  | e :: es =>
    if (key e).length = k.length then
      if k = key e then some 0 else (findChain k es).map (· + 1)
    else (findChain k es).map (· + 1)

/-- `sfptpd_ht_alloc` (lines 282-312). -/
def Table.alloc (U : Type) (size max : Nat) : Option (Table U) :=
  if size < 0x100 ∧ max < 0x10000 then some ⟨size, max, 0, List.replicate size [], 0⟩ else none

/-- The error numbers used. -/
inductive Rc where
  | ok | eexist | enospc
deriving Repr, DecidableEq

/-- `sfptpd_ht_add` (lines 340-401). -/
def Table.add (t : Table U) (user : U) (update : Bool) : Option (Table U × Rc) :=
  if t.size = 0 then none
  else
    let h := hash t.size (key user)
    match t.entries[h]? with
    | none => none
    | some chain =>
      match findChain key (key user) chain with
      | some i =>
        if update then some ({ t with entries := t.entries.set h (chain.set i user) }, .ok)
        else some (t, .eexist)
      | none =>
        if t.num = t.max then some (t, .enospc)
        else some ({ t with entries := t.entries.set h (user :: chain), num := t.num + 1 }, .ok)

/-- `sfptpd_ht_clear_entries` (lines 461-485). -/
def Table.clear (t : Table U) : Table U := { t with entries := t.entries.map (fun _ => []), num := 0 }

/-- `struct sfptpd_ht_iter`: the index and the chain from the current entry on
(`[]` is a null entry). -/
structure Iter (U : Type) where
  index : Nat
  chain : List U

/-- The search for the next chain that is not empty (lines 413-420 and 446-453):
`rest` are the chains from `index` on. -/
def scan : Nat → List (List U) → Option (Nat × List U)
  | _, [] => none
  | i, [] :: rest => scan (i + 1) rest
  | i, (u :: us) :: _ => some (i, u :: us)

/-- `sfptpd_ht_first` (lines 404-424). -/
def Table.first (t : Table U) : Table U × Iter U × Option U :=
  match scan 0 t.entries with
  | some (i, c) => ({ t with locks := t.locks + 1 }, ⟨i, c⟩, c.head?)
  | none => (t, ⟨t.size, []⟩, none)

/-- `sfptpd_ht_next` (lines 427-458). -/
def Table.next (t : Table U) (it : Iter U) : Table U × Iter U × Option U :=
  match it.chain with
  | [] => ({ t with locks := t.locks - 1 }, it, none)
  | _ :: c :: cs => (t, ⟨it.index, c :: cs⟩, some c)
  | [e] =>
    match scan (it.index + 1) (t.entries.drop (it.index + 1)) with
    | some (i, c) => (t, ⟨i, c⟩, c.head?)
    | none => ({ t with locks := t.locks - 1 }, ⟨t.size, [e]⟩, none)

/-- The callers' loop: `first`, then `next` until null. -/
def iterate : Nat → Table U → Iter U → Option U → Option (List U × Table U)
  | _, t, _, none => some ([], t)
  | 0, _, _, some _ => none
  | fuel + 1, t, it, some u =>
    let r := t.next it
    (iterate fuel r.1 r.2.1 r.2.2).map (fun x => (u :: x.1, x.2))

end

/-! ## Format expansion -/

/-- Ways to fail: reading past the end of the format, writing outside the
buffer, a failed assertion. -/
inductive Fault where
  | overread | overrun | assertion
deriving DecidableEq, Repr

/-- A row of the specifier table: whether an option character follows, and the
writer: the text it would write for an option, or its failure (-1). -/
structure Spec where
  hasOpt : Bool
  writer : Nat → Option (List Nat)

/-- Writing one character at `len` if it fits (lines 529-531, 536-538). -/
def putc (buf : Option (List Nat)) (space len c : Nat) : Option (List Nat) :=
  buf.map (fun b => if len + 1 < space then b.set len c else b)

/-- A writer in the manner of `snprintf`, called with `buffer + len` and the
space left: writes as much as fits in `avail` and a terminator. -/
def writeAt (b : List Nat) (len avail : Nat) (text : List Nat) : Except Fault (List Nat) :=
  if avail = 0 then .ok b
  else
    let w := text.take (avail - 1) ++ [0]
    if len + w.length ≤ b.length then .ok (b.take len ++ w ++ b.drop (len + w.length)) else .error .overrun

/-- The states (line 511); the two error states are overwritten (line 560)
before they are looked at. -/
inductive FState where
  | idle | fmt
deriving DecidableEq, Repr

/-- Running state: output buffer, length, whether the last `ret` is negative. -/
structure Fmt where
  buf : Option (List Nat)
  len : Nat
  failed : Bool
deriving DecidableEq, Repr

/-- `writeAt` on a buffer that may be null. -/
def writeBuf (buf : Option (List Nat)) (len avail : Nat) (text : List Nat) : Except Fault (Option (List Nat)) :=
  match buf with
  | none => .ok none
  | some b => match writeAt b len avail text with
    | .error e => .error e
    | .ok b => .ok (some b)

/-- One conversion (lines 544-558): the call of the writer with the option
character.  The space left is computed in `size_t`. -/
def convert (space : Nat) (s : Spec) (opt : Nat) (f : Fmt) : Except Fault Fmt :=
  let avail := if space ≠ 0 then (space + 2 ^ 64 - f.len) % 2 ^ 64 else 0
  match s.writer opt with
  | none => .ok { f with failed := true }
  | some text =>
    match writeBuf f.buf f.len avail text with
    | .error e => .error e
    | .ok buf' =>
      if space = 0 ∨ f.len + text.length < space then .ok ⟨buf', f.len + text.length, false⟩ else .error .assertion

/-- The loop (lines 521-565).  A conversion with an option at the very end
advances `format` past the terminator, whatever its writer does. -/
def fmtLoop (specs : Nat → Option Spec) (space : Nat) : FState → List Nat → Fmt → Except Fault (FState × Fmt)
  | st, [], f => .ok (st, f)
  | .idle, c :: rest, f =>
    if c = 37 then fmtLoop specs space .fmt rest f
    else fmtLoop specs space .idle rest { f with buf := putc f.buf space f.len c, len := f.len + 1 }
  | .fmt, [c], f =>
    if c = 37 then .ok (.idle, { f with buf := putc f.buf space f.len c, len := f.len + 1 })
    else
      match specs c with
      | none => .ok (.idle, f)
      | some s =>
        match convert space s 0 f with
        | .error e => .error e
        | .ok f => if s.hasOpt then .error .overread else .ok (.idle, f)
  | .fmt, c :: o :: rest, f =>
    if c = 37 then fmtLoop specs space .idle (o :: rest) { f with buf := putc f.buf space f.len c, len := f.len + 1 }
    else
      match specs c with
      | none => fmtLoop specs space .idle (o :: rest) f
      | some s =>
        if s.hasOpt then
          match convert space s o f with
          | .error e => .error e
          | .ok f => fmtLoop specs space .idle rest f
        else
          match convert space s 0 f with
          | .error e => .error e
          | .ok f => fmtLoop specs space .idle (o :: rest) f
termination_by structural _ l => l

/-- `sfptpd_format` (lines 507-575): the buffer and the result, `none` for -1. -/
def format (specs : Nat → Option Spec) (buf : Option (List Nat)) (space : Nat) (fmt : List Nat) :
    Except Fault (Option (List Nat) × Option Nat) :=
  if buf = none ∧ space ≠ 0 then .error .assertion
  else
    match fmtLoop specs space .idle fmt ⟨buf, 0, false⟩ with
    | .error e => .error e
    | .ok (st, f) =>
      let failed := f.failed || decide (st ≠ .idle)
      match f.buf with
      | none => .ok (none, if failed then none else some f.len)
      | some b =>
        if f.len < space then .ok (some (b.set f.len 0), if failed then none else some f.len) else .error .assertion

end Verif.Misc
