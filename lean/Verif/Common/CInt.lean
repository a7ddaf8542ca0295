/-!
# C integer conversions

Fixed-width conversions of the C abstract machine used by the code
(two's complement, LP64).  All models compute in `Int` and apply these
functions where the C code stores into a fixed-width object.
-/

namespace Verif.CInt

/-- Conversion to an unsigned 32-bit object (C11 6.3.1.3p2). -/
def u32 (x : Int) : Int := x % 4294967296

/-- Conversion to an unsigned 64-bit object (C11 6.3.1.3p2). -/
def u64 (x : Int) : Int := x % 18446744073709551616

/-- Conversion to a signed 32-bit object (two's complement, as gcc defines it). -/
def s32 (x : Int) : Int := (x + 2147483648) % 4294967296 - 2147483648

/-- Conversion to a signed 64-bit object (two's complement, as gcc defines it). -/
def s64 (x : Int) : Int :=
  (x + 9223372036854775808) % 18446744073709551616 - 9223372036854775808

/-- `x` is representable as a signed 64-bit integer. -/
def InS64 (x : Int) : Prop := -9223372036854775808 ≤ x ∧ x < 9223372036854775808

instance (x : Int) : Decidable (InS64 x) := inferInstanceAs (Decidable (_ ∧ _))

/-- Signed 64-bit result of an arithmetic operation: overflow is undefined
behaviour, represented by `none`. -/
def chk64 (x : Int) : Option Int := if InS64 x then some x else none

end Verif.CInt
