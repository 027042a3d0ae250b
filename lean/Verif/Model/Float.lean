import Mathlib.Data.Rat.Floor
import Mathlib.Algebra.Order.Field.Power
import Mathlib.Algebra.Order.Archimedean.Basic
import Verif.Model.Clock

/-!
# Floating-point numbers

Python's `float` as far as the clock needs it: rational numbers whose sums are rounded. Overflow,
subnormal numbers, infinities, NaN and signed zeros are left out (external: IEEE 754 binary64).
-/

set_option autoImplicit false

namespace Verif

/-- Round to an integer, ties to even. -/
def roundEven (x : ℚ) : ℤ :=
  let f := ⌊x⌋
  let d := x - f
  if d < 1/2 then f else if 1/2 < d then f + 1 else if f % 2 = 0 then f else f + 1

/-- The exponent of the leading bit. -/
def floatExponent (x : ℚ) : ℤ :=
  let e : ℤ := (Nat.log2 x.num.natAbs : ℤ) - (Nat.log2 x.den : ℤ)
  if |x| < (2 : ℚ) ^ e then e - 1 else e

/-- The nearest number with 53 significant bits, ties to even. -/
def binary64 (x : ℚ) : ℚ :=
  if x = 0 then 0
  else
    let ulp := (2 : ℚ) ^ (floatExponent x - 52)
    roundEven (x / ulp) * ulp

/-- A number whose sums are rounded by `rnd`. -/
@[ext] structure Rounded (rnd : ℚ → ℚ) where
  val : ℚ
  deriving DecidableEq

variable {rnd : ℚ → ℚ}

instance : Add (Rounded rnd) := ⟨fun a b => ⟨rnd (a.val + b.val)⟩⟩
instance : Zero (Rounded rnd) := ⟨⟨0⟩⟩
instance : LT (Rounded rnd) := ⟨fun a b => a.val < b.val⟩
instance : DecidableLT (Rounded rnd) := fun a b => inferInstanceAs (Decidable (a.val < b.val))

instance : Sub (Rounded rnd) := ⟨fun a b => ⟨rnd (a.val - b.val)⟩⟩

/-- Python's `min`: the first of two equal numbers. -/
instance : Min (Rounded rnd) := ⟨fun a b => if b.val < a.val then b else a⟩

/-- The quotient rounded towards zero. -/
def truncQuotient (x y : ℚ) : ℤ := if 0 ≤ x / y then ⌊x / y⌋ else ⌈x / y⌉

/-- `x // y` and `x % y` of python floats, `y` not zero (external: CPython's `float_divmod`, by
memory of its source): `fmod` is exact, the difference, the quotient and the two corrections are
rounded. -/
def floatDivMod (rnd : ℚ → ℚ) (x y : ℚ) : ℤ × ℚ :=
  let r := x - y * truncQuotient x y
  let q := rnd (rnd (x - r) / y)
  let (q, r) :=
    if r = 0 then (q, r)
    else if y < 0 ↔ r < 0 then (q, r)
    else (rnd (q - 1), rnd (r + y))
  (if 1/2 < rnd (q - ⌊q⌋) then ⌊q⌋ + 1 else ⌊q⌋, r)

/-- `Sequence.run(until, dt)` (`/repo/sequence/sequence.py:137-163`) with rounded numbers: `seqRun`
with the rounded difference and python's `//` and `%`. -/
def floatRun {W : Type*} (update : Rounded rnd → Rounded rnd → W → Except Err W)
    (timeStep time : Rounded rnd) (w : W) (target dt : Option (Rounded rnd)) :
    Except Err (Rounded rnd × W) :=
  let dt := dt.getD timeStep
  let target := target.getD (time + timeStep)
  if dt.val = 0 then .error .zeroDivision
  else
    let (n, r) := floatDivMod rnd (target - time).val dt.val
    let n := if 0 < r then n + 1 else n
    seqLoop update dt target n.toNat time w

/-- A python `float` written as a decimal number. -/
def pyFloat (x : ℚ) : Rounded binary64 := ⟨binary64 x⟩

end Verif
