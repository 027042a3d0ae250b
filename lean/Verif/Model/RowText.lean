import Verif.Model.ErrorText

/-!
# The text of `InvalidRowError`
-/

set_option autoImplicit false

namespace Verif

/-- `repr` of a python `int` (external). -/
def intText (z : ℤ) : Text :=
  if z < 0 then '-' :: Nat.toDigits 10 z.natAbs else Nat.toDigits 10 z.natAbs

/-- `InvalidRowError.__str__` (`/repo/sequence/errors.py:48-50`) for a row that is an `int`, as it is
in `sequence plot`. -/
def invalidRowMessage (row : ℤ) (rows : ℕ) : Text :=
  "row ".toList ++ intText row ++ " is out of bounds for output file with ".toList ++
    Nat.toDigits 10 rows ++ " rows".toList

end Verif
