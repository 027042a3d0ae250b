import Mathlib.Algebra.Order.Field.Basic
import Verif.Model.Err

/-!
# Loads and densities

The static methods of `/repo/sequence/sediment_flexure.py`, for one node.
-/

set_option autoImplicit false

namespace Verif

variable {K : Type*} [Field K] [LinearOrder K]

/-- `np.clip(x, a_min=0.0, a_max=None)`. -/
def clip0 (x : K) : K := max x 0

/-- `WaterFlexure.calc_water_loading` (`/repo/sequence/sediment_flexure.py:178-184`). -/
def calcWaterLoading (z waterDensity : K) : K := waterDensity * clip0 (-z)

/-- `SedimentFlexure.calc_bulk_density` (`/repo/sequence/sediment_flexure.py:366-388`). -/
def calcBulkDensity (grain void porosity : K) : K := porosity * (void - grain) + grain

/-- `SedimentFlexure._calc_loading` (`/repo/sequence/sediment_flexure.py:464-512`). The assignments
through masks are in the order of the code: wet, then mixed. Where the division happens the
thickness is not zero, since the surface changes sign. -/
def calcLoading (dz z porosity density waterDensity : K) : K :=
  let zNew := z + dz
  let dry := 0 ≤ z ∧ 0 ≤ zNew
  let wet := z ≤ 0 ∧ zNew ≤ 0
  let void :=
    if ¬ dry ∧ ¬ wet then
      let dryFraction := |max zNew z / dz|
      waterDensity * (1 - dryFraction)
    else if wet then waterDensity
    else 0
  calcBulkDensity density void porosity * dz

/-- `SedimentFlexure._calc_density` (`/repo/sequence/sediment_flexure.py:514-543`). -/
def calcDensity (sandFraction sandDensity mudDensity : K) : K :=
  sandFraction * sandDensity + (1 - sandFraction) * mudDensity

end Verif
