import Mathlib.Algebra.Order.Field.Basic
import Mathlib.Tactic.TypeStar

/-!
# What a user expects of a plot of layers
-/

set_option autoImplicit false

namespace Verif.Spec

variable {K : Type*}

/-- The columns passed on the way from column `a` to column `b`, without `b`. -/
def walk (a b : ℕ) : List ℕ :=
  if a ≤ b then List.range' a (b - a) else (List.range' (b + 1) (a - b)).reverse

/-- The same or a neighbouring column. -/
def Adjacent (a b : ℕ) : Prop := a ≤ b + 1 ∧ b ≤ a + 1

instance (a b : ℕ) : Decidable (Adjacent a b) := by
  unfold Adjacent
  infer_instance

/-- Walking around the outline, and back to its start, one never skips a column. -/
def ClosedPath (l : List ℕ) : Prop := List.IsChain Adjacent (l ++ l.take 1)

instance (l : List ℕ) : Decidable (ClosedPath l) := by
  unfold ClosedPath
  infer_instance

/-- `v` lies between `a` and `b`. -/
def Between [LinearOrder K] (a b v : K) : Prop := min a b ≤ v ∧ v ≤ max a b

/-- A line through columns that leaves surface `f` at column `a` and reaches surface `g` at
column `b`: in proportion to the distance. -/
def blend [Field K] (x f g : ℕ → K) (a b c : ℕ) : K := f c + (g c - f c) * ((x c - x a) / (x b - x a))

end Verif.Spec
