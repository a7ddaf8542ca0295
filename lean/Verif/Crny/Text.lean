import Mathlib.Data.Rat.Defs

/-!
# Numbers and command line of chronyd

`src/crny/sfptpd_crny_module.c`: chronyd's floating-point format and the option `-x`.
The product in `sfptpd_crny_tofloat` is exact in a double (25 bits times a power of two), so it
is a rational number here.
-/

namespace Verif.Crny

/-- `sfptpd_crny_tosigned` (lines 467-475): bits below the sign bit, less the sign bit. -/
def toSigned (x : BitVec 32) (i : Nat) : Int :=
  let out : Int := (x &&& ((1#32 <<< i) - 1)).toNat
  if x &&& (1#32 <<< i) ≠ 0 then out - ((1#32 <<< i).toNat : Int) else out

/-- `sfptpd_crny_tofloat` (lines 478-491). -/
def toFloat (x : BitVec 32) : Rat :=
  (toSigned (x &&& ((1#32 <<< 25) - 1)) 24 : Rat) * (2 : Rat) ^ (toSigned (x >>> 25) 6 - 25)

/-- States of the scan of the command line (lines 804-809). -/
inductive Opt where
  | start | minus | x | ignore
deriving DecidableEq, Repr

/-- One character (lines 842-855). -/
def Opt.next (s : Opt) (c : UInt8) : Opt :=
  if s = .x then s
  else if c = 0 then .start
  else if s = .start then (if c = 45 then .minus else .ignore)
  else if s = .minus then (if c = 120 then .x else .ignore)
  else s

/-- The loop over a buffer (lines 841-856). -/
def scanBuf (s : Opt) (buf : List UInt8) : Opt := buf.foldl Opt.next s

/-- The loop over the results of `read` (lines 839-857): each gives some bytes, until there are none.
The last read is not an error here. -/
def scanReads (s : Opt) : List (List UInt8) → Opt
  | [] => s
  | buf :: rest => if buf = [] ∨ s = .x then s else scanReads (scanBuf s buf) rest

/-- Whether chronyd is taken to discipline the clock (line 881). -/
def controls (reads : List (List UInt8)) : Bool := scanReads .start reads ≠ .x

end Verif.Crny
