import Verif.Priv.Model

/-!
# What is required of the privileged helper

Written without the functions of the model; only its inputs, its records of what is done and its
results occur.
-/

namespace Verif.Priv

/-- A file name of a PPS or PTP device: `/dev/pps` or `/dev/ptp` and a number. -/
def DeviceName (s : Text) : Prop :=
  ∃ d : Text, d ≠ [] ∧ (∀ c ∈ d, '0' ≤ c ∧ c ≤ '9') ∧
    (s = "/dev/pps".toList ++ d ∨ s = "/dev/ptp".toList ++ d)

/-- The deeds a request asks for: the device named in it may be opened, chronyd's socket may be
made, bound and removed, an operation may be carried out. -/
def AskedFor : Req → Act → Prop
  | .openDev p, .opened q _ => ∃ r, (p = q ++ Char.ofNat 0 :: r) ∧ Char.ofNat 0 ∉ q
  | .openChrony, .socket _ => True
  | .openChrony, .unlink => True
  | .openChrony, .bound => True
  | .control op, .control op' => op = op'
  | _, _ => False

/-- Deeds that need a request; answering and closing descriptors do not. -/
def Deed : Act → Prop
  | .sent _ _ => False
  | .close _ => False
  | _ => True

/-- The descriptors that came into being. -/
def made : List Act → List Nat
  | [] => []
  | .socket fd :: l => fd :: made l
  | .opened _ (some fd) :: l => fd :: made l
  | _ :: l => made l

/-- The descriptors closed. -/
def closed : List Act → List Nat
  | [] => []
  | .close fd :: l => fd :: closed l
  | _ :: l => closed l

/-- Whether the client path is in the file system afterwards. -/
def pathLeft (was : Bool) : List Act → Bool
  | [] => was
  | .unlink :: l => pathLeft false l
  | .bound :: l => pathLeft true l
  | _ :: l => pathLeft was l

/-- The steps of connecting in their order, each with its name and its result. -/
def Calls.steps (c : Calls) : List (String × Option Nat) :=
  [("snprintf1", if c.clientFits then none else some 12),
   ("snprintf2", if c.serverFits then none else some 12),
   ("socket", c.sock), ("fcntl(F_GETFD)", c.getfd), ("fcntl(F_SETFD)", c.setfd),
   ("fcntl(F_SETFL)", c.setfl), ("bind", c.bind), ("chmod", c.chmod), ("connect", c.connect)]

/-- The first step that fails. -/
def firstFailure : List (String × Option Nat) → Option (String × Nat)
  | [] => none
  | (n, some e) :: _ => some (n, e)
  | (_, none) :: l => firstFailure l

/-- The errors of system calls are positive. -/
def Calls.Errnos (c : Calls) : Prop :=
  ∀ n e, (n, some e) ∈ c.steps → 0 < e

/-! ### Files of lines -/

/-- A line has neither a newline nor a NUL in it. -/
def IsLine (l : Text) : Prop := '\n' ∉ l ∧ Char.ofNat 0 ∉ l

/-- The text of lines that all end in a newline. -/
def unlines : List Text → Text
  | [] => []
  | l :: ls => l ++ '\n' :: unlines ls

def Begins (p l : Text) : Prop := ∃ r, l = p ++ r

/-- The first line of a section written by sfptpd. -/
def Opens (l : Text) : Prop := Begins "### BEGIN sfptpd ###".toList l

/-- The last line of such a section. -/
def Closes (l : Text) : Prop := Begins "### END sfptpd ###".toList l

/-- The keys of the two files. -/
def Key (k : Text) : Prop := k = "OPTIONS".toList ∨ k = "DAEMON_OPTS".toList

/-- Blank characters. -/
def Blank (c : Char) : Prop := c = ' ' ∨ c = '\t' ∨ c = '\n' ∨ c.toNat = 11 ∨ c.toNat = 12 ∨ c = '\r'

/-- The line gives the key a value. -/
def Assigns (key l : Text) : Prop :=
  ∃ a b r : Text, l = a ++ key ++ b ++ '=' :: r ∧ (∀ c ∈ a, Blank c) ∧ ∀ c ∈ b, Blank c

/-- The plain way to give a value: in quotation marks. -/
def quoted (key v : Text) : Text := key ++ '=' :: '"' :: v ++ ['"']

/-- The last line giving the key a value is `l`. -/
def LastAssigns (key : Text) (ls : List Text) (l : Text) : Prop :=
  ∃ pre post, ls = pre ++ l :: post ∧ Assigns key l ∧ ∀ x ∈ post, ¬ Assigns key x

/-- The lines of a file are a mixture of the user's lines and whole sections. -/
inductive Mixed : List Text → List Text → Prop
  | nil : Mixed [] []
  | user {l ls us} : IsLine l → ¬ Opens l → Mixed ls us → Mixed (l :: ls) (l :: us)
  | ours {o m c ls us} : IsLine o → Opens o → (∀ x ∈ m, IsLine x ∧ ¬ Closes x) → IsLine c →
      Closes c → Mixed ls us → Mixed (o :: m ++ c :: ls) us

/-- A status as `system` gives it for a command that ended with an exit code. -/
def status (code : Nat) : Int := code * 256

end Verif.Priv
