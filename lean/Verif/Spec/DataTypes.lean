import Mathlib.Data.Rat.Defs
import Mathlib.Algebra.Order.Ring.Rat
import Mathlib.Algebra.Field.Rat
import Verif.Model.DataTypes

/-!
# The numbers of a data type
-/

set_option autoImplicit false

namespace Verif.Spec

/-- Integers of `b` bits with sign. -/
def SignedBits (b : ℕ) (v : ℚ) : Prop := ∃ k : ℤ, v = k ∧ -2 ^ (b - 1) ≤ k ∧ k < 2 ^ (b - 1)

/-- Integers of `b` bits without sign. -/
def UnsignedBits (b : ℕ) (v : ℚ) : Prop := ∃ k : ℤ, v = k ∧ 0 ≤ k ∧ k < 2 ^ b

/-- Floating-point numbers with `p` bits of precision and exponents of the last bit from `lo` to
`hi`. -/
def FloatBits (p : ℕ) (lo hi : ℤ) (v : ℚ) : Prop :=
  ∃ m e : ℤ, v = m * 2 ^ e ∧ |m| < 2 ^ p ∧ lo ≤ e ∧ e ≤ hi

/-- The (real and finite) numbers of a type of numpy. Of the long types those with 64 bits of
precision. -/
def HasNumber : NumType → ℚ → Prop
  | .i8 => SignedBits 8
  | .i16 => SignedBits 16
  | .i32 => SignedBits 32
  | .i64 => SignedBits 64
  | .u8 => UnsignedBits 8
  | .u16 => UnsignedBits 16
  | .u32 => UnsignedBits 32
  | .u64 => UnsignedBits 64
  | .bool => fun v => v = 0 ∨ v = 1
  | .f16 => FloatBits 11 (-24) 5
  | .f32 | .c64 => FloatBits 24 (-149) 104
  | .f64 | .c128 => FloatBits 53 (-1074) 971
  | .f128 | .c256 => FloatBits 64 (-16445) 16320

/-- The numbers that a variable of a netCDF type holds: `i`, `u` or `f` and the number of bytes. -/
def TypeHolds (t : String) (v : ℚ) : Prop :=
  (t = "i1" ∧ SignedBits 8 v) ∨ (t = "i2" ∧ SignedBits 16 v) ∨ (t = "i4" ∧ SignedBits 32 v) ∨
  (t = "i8" ∧ SignedBits 64 v) ∨ (t = "u1" ∧ UnsignedBits 8 v) ∨ (t = "u2" ∧ UnsignedBits 16 v) ∨
  (t = "u4" ∧ UnsignedBits 32 v) ∨ (t = "u8" ∧ UnsignedBits 64 v) ∨
  (t = "f4" ∧ FloatBits 24 (-149) 104 v) ∨ (t = "f8" ∧ FloatBits 53 (-1074) 971 v)

/-- The types of numbers that can be written: whole numbers, booleans and floating-point numbers of
single and double precision; those of several bytes in the byte order of the machine only. -/
def WritableType : DType → Prop
  | .num t swapped => t ∈ [.i8, .u8, .bool] ∨
      (swapped = false ∧ t ∈ [.i16, .i32, .i64, .u16, .u32, .u64, .f32, .f64])
  | _ => False

end Verif.Spec
