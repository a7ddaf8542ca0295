import Verif.Ntp7.Safe
import Mathlib.Tactic.Ring

/-!
# What ntpd tells, and how the client reads it

The structures of lines 490-694 from the point of view of ntpd.
-/

set_option linter.unusedSimpArgs false
set_option linter.unusedVariables false

namespace Verif.Ntp7

/-- The summary of a peer: flag (not 0 for IPv6), addresses, port and so on. -/
structure Summary where
  flag : Nat := 0
  dst : Nat := 0
  src : Nat := 0
  port : Nat := 123
  stratum : Nat := 0
  hpoll : Nat := 0
  ppoll : Nat := 0
  reach : Nat := 0
  flags : Nat := 0
  hmode : Nat := 0
  delay : Nat := 0
  sec : Nat := 0
  frac : Nat := 0
  disp : Nat := 0
  unused : Nat := 0
  dst6 : List Nat := List.replicate 16 0
  src6 : List Nat := List.replicate 16 0
  deriving DecidableEq, Repr

/-- The part that daemons without IPv6 send. -/
def Summary.old (s : Summary) : List Nat :=
  w32 s.dst ++ w32 s.src ++ w16 s.port ++ [s.stratum, s.hpoll, s.ppoll, s.reach, s.flags, s.hmode] ++ w32 s.delay ++
    w32 s.sec ++ w32 s.frac ++ w32 s.disp

def Summary.bytes (s : Summary) : List Nat := s.old ++ (w32 s.flag ++ w32 s.unused ++ s.dst6 ++ s.src6)

/-- The fields that are read fit. -/
structure Summary.Fits (s : Summary) : Prop where
  flag : s.flag < 4294967296
  dst6 : s.dst6.length = 16
  src6 : s.src6.length = 16
  sec : s.sec < 4294967296
  frac : s.frac < 4294967296

/-- Statistics of a peer. -/
structure Stats where
  flag : Nat := 0
  dst : Nat := 0
  src : Nat := 0
  port : Nat := 123
  flags : Nat := 0
  times : List Nat := List.replicate 16 0
  sent : Nat := 0
  unused1 : Nat := 0
  processed : Nat := 0
  others : List Nat := List.replicate 40 0
  unused9 : Nat := 0
  dst6 : List Nat := List.replicate 16 0
  src6 : List Nat := List.replicate 16 0
  deriving DecidableEq, Repr

def Stats.bytes (s : Stats) : List Nat :=
  w32 s.dst ++ w32 s.src ++ w16 s.port ++ w16 s.flags ++ s.times ++ w32 s.sent ++ w32 s.unused1 ++ w32 s.processed ++ s.others ++
    w32 s.flag ++ w32 s.unused9 ++ s.dst6 ++ s.src6

structure Stats.Fits (s : Stats) : Prop where
  flag : s.flag < 4294967296
  times : s.times.length = 16
  sent : s.sent < 4294967296
  processed : s.processed < 4294967296
  others : s.others.length = 40
  dst6 : s.dst6.length = 16
  src6 : s.src6.length = 16

/-- Information about a peer: only what is read has a name. -/
structure Info where
  flag : Nat := 0
  dst : Nat := 0
  src : Nat := 0
  before : List Nat := List.replicate 40 0
  disp : Nat := 0
  after : List Nat := List.replicate 188 0
  unused9 : Nat := 0
  dst6 : List Nat := List.replicate 16 0
  src6 : List Nat := List.replicate 16 0
  deriving DecidableEq, Repr

def Info.bytes (s : Info) : List Nat :=
  w32 s.dst ++ w32 s.src ++ s.before ++ w32 s.disp ++ s.after ++ w32 s.flag ++ w32 s.unused9 ++ s.dst6 ++ s.src6

structure Info.Fits (s : Info) : Prop where
  flag : s.flag < 4294967296
  before : s.before.length = 40
  disp : s.disp < 4294967296
  after : s.after.length = 188
  dst6 : s.dst6.length = 16
  src6 : s.src6.length = 16

/-- Information about the system. -/
structure SysRec where
  flag : Nat := 0
  peer : Nat := 0
  before : List Nat := List.replicate 28 0
  flags : Nat := 0
  after : List Nat := List.replicate 23 0
  unused4 : Nat := 0
  peer6 : List Nat := List.replicate 16 0
  deriving DecidableEq, Repr

/-- The part that daemons without IPv6 send. -/
def SysRec.old (s : SysRec) : List Nat := w32 s.peer ++ s.before ++ [s.flags] ++ s.after

def SysRec.bytes (s : SysRec) : List Nat := s.old ++ (w32 s.flag ++ w32 s.unused4 ++ s.peer6)

structure SysRec.Fits (s : SysRec) : Prop where
  flag : s.flag < 4294967296
  before : s.before.length = 28
  after : s.after.length = 23
  peer6 : s.peer6.length = 16

/-- The address that is meant. -/
def host (flag v4 : Nat) (v6 : List Nat) : Addr := if flag = 0 then .v4 (w32 v4) else .v6 v6

/-- A number of 32 bits with sign. -/
def signed (n : Nat) : Int := if n < 2147483648 then n else (n : Int) - 4294967296

/-- What the summary says about a peer: its offset from the local clock is the negative of the one
that ntpd gives, and in nanoseconds. -/
def Summary.peer (s : Summary) (disp : Rat) : Peer where
  remote := host s.flag s.src s.src6
  local_ := host s.flag s.dst s.dst6
  sent := 0
  received := 0
  stratum := s.stratum
  selected := s.flags.testBit 1
  shortlist := s.flags.testBit 7
  candidate := decide (s.hmode = 3)
  self := s.flags.testBit 3
  offset := -(((signed s.sec : Int) : Rat) + (s.frac : Rat) / 4294967296) * 1000000000
  disp := disp

/-! ## Reading fields -/

theorem w32_length (n : Nat) : (w32 n).length = 4 := rfl
theorem w16_length (n : Nat) : (w16 n).length = 2 := rfl

theorem u8_append (pre b : List Nat) (i : Nat) : u8 (pre ++ b) (pre.length + i) = u8 b i := by
  simp [u8, List.getD_eq_getElem?_getD, List.getElem?_append_right]

theorem u32_at {pre : List Nat} {o n : Nat} (post : List Nat) (h : pre.length = o) (hn : n < 4294967296) :
    u32 (pre ++ (w32 n ++ post)) o = n := by
  subst h
  unfold u32 u16
  have h0 := u8_append pre (w32 n ++ post) 0
  have h1 := u8_append pre (w32 n ++ post) 1
  have h2 := u8_append pre (w32 n ++ post) 2
  have h3 := u8_append pre (w32 n ++ post) 3
  rw [Nat.add_zero] at h0
  rw [Nat.add_assoc, h0, h1, h2, h3]
  simp [u8, w32]
  omega

theorem u8_at {pre : List Nat} {o n : Nat} (post : List Nat) (h : pre.length = o) : u8 (pre ++ (n :: post)) o = n := by
  subst h
  have h0 := u8_append pre (n :: post) 0
  rw [Nat.add_zero] at h0
  rw [h0]
  rfl

theorem part_at {pre x : List Nat} {o k : Nat} (post : List Nat) (h : pre.length = o) (hk : x.length = k) :
    part (pre ++ (x ++ post)) o k = x := by
  subst h hk
  simp [part]

theorem address_at {b : List Nat} {f a4 a6 flag v4 : Nat} {v6 : List Nat} (h1 : u32 b f = flag) (h2 : part b a4 4 = w32 v4)
    (h3 : part b a6 16 = v6) : address b f a4 a6 = host flag v4 v6 := by
  unfold address host flag32
  rw [h1, h2, h3]
  by_cases h : flag = 0 <;> simp [h]

theorem testBit_one (n : Nat) : decide (n / 2 % 2 = 1) = n.testBit 1 := by
  simp [Nat.testBit, Nat.shiftRight_eq_div_pow]
  rfl

theorem testBit_three (n : Nat) : decide (n / 8 % 2 = 1) = n.testBit 3 := by
  simp [Nat.testBit, Nat.shiftRight_eq_div_pow]
  rfl

theorem testBit_two (n : Nat) : decide (n / 4 % 2 = 1) = n.testBit 2 := by
  simp [Nat.testBit, Nat.shiftRight_eq_div_pow]
  rfl

theorem testBit_seven (n : Nat) : decide (n / 128 % 2 = 1) = n.testBit 7 := by
  simp [Nat.testBit, Nat.shiftRight_eq_div_pow]
  rfl

theorem Summary.old_length (s : Summary) : s.old.length = 32 := by simp [Summary.old, w32, w16]

theorem Summary.bytes_length {s : Summary} (h : s.Fits) : s.bytes.length = 72 := by
  simp [Summary.bytes, s.old_length, h.dst6, h.src6, w32_length]

theorem fromSummary_bytes {s : Summary} (h : s.Fits) (p : Peer) (rest : List Nat) : fromSummary (s.bytes ++ rest) p = s.peer p.disp := by
  have hflag : u32 (s.bytes ++ rest) 32 = s.flag := by
    have := u32_at (w32 s.unused ++ s.dst6 ++ s.src6 ++ rest) s.old_length h.flag
    simpa [Summary.bytes] using this
  have hsrc6 : part (s.bytes ++ rest) 56 16 = s.src6 := by
    have := part_at (pre := s.old ++ (w32 s.flag ++ w32 s.unused ++ s.dst6)) (o := 56) rest (by simp [s.old_length, w32_length, h.dst6]) h.src6
    simpa [Summary.bytes] using this
  have hdst6 : part (s.bytes ++ rest) 40 16 = s.dst6 := by
    have := part_at (pre := s.old ++ (w32 s.flag ++ w32 s.unused)) (o := 40) (s.src6 ++ rest) (by simp [s.old_length, w32_length]) h.dst6
    simpa [Summary.bytes] using this
  have hsrc : part (s.bytes ++ rest) 4 4 = w32 s.src := by
    simp [Summary.bytes, Summary.old, part, w32, w16]
  have hdst : part (s.bytes ++ rest) 0 4 = w32 s.dst := by
    simp [Summary.bytes, Summary.old, part, w32, w16]
  have hsec : u32 (s.bytes ++ rest) 20 = s.sec := by
    have := u32_at (pre := w32 s.dst ++ w32 s.src ++ w16 s.port ++ [s.stratum, s.hpoll, s.ppoll, s.reach, s.flags, s.hmode] ++ w32 s.delay) (o := 20)
      (w32 s.frac ++ w32 s.disp ++ (w32 s.flag ++ w32 s.unused ++ s.dst6 ++ s.src6) ++ rest) (by simp [w32_length, w16_length]) h.sec
    simpa [Summary.bytes, Summary.old] using this
  have hfrac : u32 (s.bytes ++ rest) 24 = s.frac := by
    have := u32_at (pre := w32 s.dst ++ w32 s.src ++ w16 s.port ++ [s.stratum, s.hpoll, s.ppoll, s.reach, s.flags, s.hmode] ++ w32 s.delay ++ w32 s.sec) (o := 24)
      (w32 s.disp ++ (w32 s.flag ++ w32 s.unused ++ s.dst6 ++ s.src6) ++ rest) (by simp [w32_length, w16_length]) h.frac
    simpa [Summary.bytes, Summary.old] using this
  have h10 : u8 (s.bytes ++ rest) 10 = s.stratum := by simp [Summary.bytes, Summary.old, w32, w16, u8]
  have h14 : u8 (s.bytes ++ rest) 14 = s.flags := by simp [Summary.bytes, Summary.old, w32, w16, u8]
  have h15 : u8 (s.bytes ++ rest) 15 = s.hmode := by simp [Summary.bytes, Summary.old, w32, w16, u8]
  unfold fromSummary Summary.peer offsetNs
  rw [address_at hflag hsrc hsrc6, address_at hflag hdst hdst6, hsec, hfrac, h10, h14, h15]
  simp only [testBit_one, testBit_three, testBit_seven, signed]
  congr 1
  ring

theorem sameHost_self {a : Addr} {b : List Nat} {f a4 a6 : Nat} (h : address b f a4 a6 = a) : sameHost a b f a4 a6 = .ok true := by
  unfold address at h
  unfold sameHost
  by_cases hf : flag32 b f = true
  · rw [if_pos hf] at h ⊢
    subst h
    simp
  · rw [if_neg hf] at h ⊢
    subst h
    simp

theorem asInt_inj {x y : List Nat} (hx : x.length = 4) (hy : y.length = 4) (bx : ∀ v ∈ x, v < 256) (by_ : ∀ v ∈ y, v < 256)
    (h : asInt x = asInt y) : x = y := by
  match x, y, hx, hy with
  | [a, b, c, d], [a', b', c', d'], _, _ =>
    simp only [List.mem_cons, List.not_mem_nil, or_false, forall_eq_or_imp, forall_eq] at bx by_
    simp only [asInt, u8, List.getD_cons_zero, List.getD_cons_succ] at h
    obtain ⟨h1, h2, h3, h4⟩ := bx
    obtain ⟨g1, g2, g3, g4⟩ := by_
    have : a = a' ∧ b = b' ∧ c = c' ∧ d = d' := by split at h <;> split at h <;> omega
    obtain ⟨rfl, rfl, rfl, rfl⟩ := this
    rfl

theorem Stats.address {s : Stats} (h : s.Fits) (rest : List Nat) :
    address (s.bytes ++ rest) 80 4 104 = host s.flag s.src s.src6 ∧ u32 (s.bytes ++ rest) 28 = s.sent ∧ u32 (s.bytes ++ rest) 36 = s.processed := by
  refine ⟨address_at ?_ ?_ ?_, ?_, ?_⟩
  · have := u32_at (pre := w32 s.dst ++ w32 s.src ++ w16 s.port ++ w16 s.flags ++ s.times ++ w32 s.sent ++ w32 s.unused1 ++ w32 s.processed ++ s.others) (o := 80)
      (w32 s.unused9 ++ s.dst6 ++ s.src6 ++ rest) (by simp [w32_length, w16_length, h.times, h.others]) h.flag
    simpa [Stats.bytes] using this
  · simp [Stats.bytes, part, w32, w16]
  · have := part_at (pre := w32 s.dst ++ w32 s.src ++ w16 s.port ++ w16 s.flags ++ s.times ++ w32 s.sent ++ w32 s.unused1 ++ w32 s.processed ++ s.others ++ w32 s.flag ++ w32 s.unused9 ++ s.dst6) (o := 104)
      rest (by simp [w32_length, w16_length, h.times, h.others, h.dst6]) h.src6
    simpa [Stats.bytes] using this
  · have := u32_at (pre := w32 s.dst ++ w32 s.src ++ w16 s.port ++ w16 s.flags ++ s.times) (o := 28)
      (w32 s.unused1 ++ w32 s.processed ++ s.others ++ w32 s.flag ++ w32 s.unused9 ++ s.dst6 ++ s.src6 ++ rest) (by simp [w32_length, w16_length, h.times]) h.sent
    simpa [Stats.bytes] using this
  · have := u32_at (pre := w32 s.dst ++ w32 s.src ++ w16 s.port ++ w16 s.flags ++ s.times ++ w32 s.sent ++ w32 s.unused1) (o := 36)
      (s.others ++ w32 s.flag ++ w32 s.unused9 ++ s.dst6 ++ s.src6 ++ rest) (by simp [w32_length, w16_length, h.times]) h.processed
    simpa [Stats.bytes] using this

theorem Info.address {s : Info} (h : s.Fits) (rest : List Nat) :
    address (s.bytes ++ rest) 240 4 264 = host s.flag s.src s.src6 ∧ u32 (s.bytes ++ rest) 48 = s.disp := by
  refine ⟨address_at ?_ ?_ ?_, ?_⟩
  · have := u32_at (pre := w32 s.dst ++ w32 s.src ++ s.before ++ w32 s.disp ++ s.after) (o := 240)
      (w32 s.unused9 ++ s.dst6 ++ s.src6 ++ rest) (by simp [w32_length, h.before, h.after]) h.flag
    simpa [Info.bytes] using this
  · simp [Info.bytes, part, w32, w16]
  · have := part_at (pre := w32 s.dst ++ w32 s.src ++ s.before ++ w32 s.disp ++ s.after ++ w32 s.flag ++ w32 s.unused9 ++ s.dst6) (o := 264)
      rest (by simp [w32_length, h.before, h.after, h.dst6]) h.src6
    simpa [Info.bytes] using this
  · have := u32_at (pre := w32 s.dst ++ w32 s.src ++ s.before) (o := 48)
      (s.after ++ w32 s.flag ++ w32 s.unused9 ++ s.dst6 ++ s.src6 ++ rest) (by simp [w32_length, h.before]) h.disp
    simpa [Info.bytes] using this

theorem SysRec.old_length {s : SysRec} (h : s.Fits) : s.old.length = 56 := by simp [SysRec.old, w32_length, h.before, h.after]

theorem SysRec.address {s : SysRec} (h : s.Fits) (rest : List Nat) :
    address (s.bytes ++ rest) 56 0 64 = host s.flag s.peer s.peer6 ∧ u8 (s.bytes ++ rest) 32 = s.flags := by
  refine ⟨address_at ?_ ?_ ?_, ?_⟩
  · have := u32_at (pre := s.old) (w32 s.unused4 ++ s.peer6 ++ rest) (s.old_length h) h.flag
    simpa [SysRec.bytes] using this
  · simp [SysRec.bytes, SysRec.old, part, w32, w16]
  · have := part_at (pre := s.old ++ w32 s.flag ++ w32 s.unused4) (o := 64) rest (by simp [w32_length, s.old_length h]) h.peer6
    simpa [SysRec.bytes] using this
  · have := u8_at (pre := w32 s.peer ++ s.before) (o := 32) (n := s.flags) (s.after ++ (w32 s.flag ++ w32 s.unused4 ++ s.peer6) ++ rest) (by simp [w32_length, h.before])
    simpa [SysRec.bytes, SysRec.old] using this

theorem Stats.flag_at {s : Stats} (h : s.Fits) (rest : List Nat) : flag32 (s.bytes ++ rest) 80 = decide (s.flag ≠ 0) := by
  have := u32_at (pre := w32 s.dst ++ w32 s.src ++ w16 s.port ++ w16 s.flags ++ s.times ++ w32 s.sent ++ w32 s.unused1 ++ w32 s.processed ++ s.others) (o := 80)
    (w32 s.unused9 ++ s.dst6 ++ s.src6 ++ rest) (by simp [w32_length, w16_length, h.times, h.others]) h.flag
  have h2 : u32 (s.bytes ++ rest) 80 = s.flag := by simpa [Stats.bytes] using this
  unfold flag32
  rw [h2]

theorem Info.flag_at {s : Info} (h : s.Fits) (rest : List Nat) : flag32 (s.bytes ++ rest) 240 = decide (s.flag ≠ 0) := by
  have := u32_at (pre := w32 s.dst ++ w32 s.src ++ s.before ++ w32 s.disp ++ s.after) (o := 240)
    (w32 s.unused9 ++ s.dst6 ++ s.src6 ++ rest) (by simp [w32_length, h.before, h.after]) h.flag
  have h2 : u32 (s.bytes ++ rest) 240 = s.flag := by simpa [Info.bytes] using this
  unfold flag32
  rw [h2]

end Verif.Ntp7
