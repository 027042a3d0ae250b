import Verif.Model.Driver

/-!
# Rows without sand
-/

set_option autoImplicit false

namespace Verif.Spec

variable {K : Type*} {R C : ℕ} [Field K]

/-- The sand fraction is zero in a row, wherever it is known. -/
def NoSandIn (r : Fin R) (w : World R C K) : Prop :=
  ∀ f, w.sand = some f → ∀ c, getProfile f r c = 0

/-- The mass of a thickness of mud half of whose volume is pores: grains of 2720 kg/m³ and water of
1030 kg/m³ in the pores under water, nothing in the pores on land. -/
def mudLoad (underWater : Bool) (dz : K) : K :=
  if underWater then (2720 / 2 + 1030 / 2) * dz else 2720 / 2 * dz

end Verif.Spec
