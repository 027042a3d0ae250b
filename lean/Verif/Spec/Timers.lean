import Mathlib.Algebra.Order.Field.Basic
import Mathlib.Algebra.Order.AbsoluteValue.Basic

/-!
# Durations
-/

set_option autoImplicit false

namespace Verif.Spec

variable {K : Type*} [Field K] [LinearOrder K]

/-- All the time that a component took. -/
def tookSeconds (name : String) (events : List (String × K × K)) : K :=
  ((events.filter fun e => e.1 = name).map fun e => e.2.2 - e.2.1).sum

/-- All the time that was taken. -/
def allSeconds (events : List (String × K × K)) : K := (events.map fun e => e.2.2 - e.2.1).sum

/-- Rounding to two digits. -/
def RoundsTwo (round2 : K → K) : Prop := ∀ x, |round2 x - x| ≤ 1 / 200

end Verif.Spec
