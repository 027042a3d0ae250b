import Verif.Model.Driver

/-!
# The quantities behind the names of the variables in an output file
-/

set_option autoImplicit false

namespace Verif.Spec

variable {K : Type*} {R C : ℕ}

/-- The standard names of the fields at nodes. -/
def nodeQuantity (name : String) (w : World R C K) : Option (NodeField R C K) :=
  match name with
  | "topographic__elevation" => some w.topo
  | "bedrock_surface__elevation" => some w.bedrock
  | "sediment_deposit__thickness" => some w.deposit
  | "bedrock_surface__increment_of_elevation" => w.increment
  | "delta_sediment_sand__volume_fraction" => w.sand
  | "sediment__total_of_loading" => w.sedLoad
  | "water__total_of_loading" => w.waterLoad
  | "water__increment_of_depth" => w.waterIncr
  | _ => none

end Verif.Spec
