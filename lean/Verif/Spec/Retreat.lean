import Verif.Model.Shoreline

/-!
# Higher seas and lower land
-/

set_option autoImplicit false

namespace Verif.Spec

variable {K : Type*} [Field K] [LinearOrder K]

/-- A kind of interpolation that keeps constants: the same amount taken off all values is taken
off the interpolated ones. All kinds of scipy do (they are linear in the values and interpolate a
constant by itself). -/
def KeepsConstants (kind : InterpKind K) : Prop :=
  ∀ (x z : List K) (d : K) (f g : Curve K), kind (x.zip z) = .ok f →
    kind (x.zip (z.map fun v => v - d)) = .ok g → ∀ v a b, f v = .ok a → g v = .ok b → b = a - d

/-- The first node is dry, or all are submerged. -/
def LandFirst (z : List K) (seaLevel : K) : Prop :=
  (∃ z0, z.head? = some z0 ∧ seaLevel ≤ z0) ∨ ∀ v ∈ z, v < seaLevel

end Verif.Spec
