import Verif.Model.Processes

/-!
# Which processes share no field of the grid
-/

set_option autoImplicit false

namespace Verif.Spec

variable {K : Type*}

/-- The fields that a process reads in a step, other than those it only adds to. -/
def fieldsRead : Process K → List String
  | .seaLevel .. => ["sea_level__elevation"]
  | .subsidence _ => []
  | .compaction => ["event_layers"]
  | .diffusion _ =>
    ["topographic__elevation", "sea_level__elevation", "sediment_deposit__thickness"]
  | .fluvial _ =>
    ["topographic__elevation", "sea_level__elevation", "sediment_deposit__thickness",
      "bedrock_surface__increment_of_elevation", "delta_sediment_sand__volume_fraction"]
  | .flexure _ => ["sediment__total_of_loading"]
  | .waterFlexure _ => ["sea_level__increment_of_elevation", "water__increment_of_depth"]
  | .shoreline _ =>
    ["topographic__elevation", "sea_level__elevation", "sediment_deposit__thickness"]

/-- The fields that a process sets in a step. -/
def fieldsSet : Process K → List String
  | .seaLevel .. => ["sea_level__elevation", "sea_level__increment_of_elevation"]
  | .subsidence _ => []
  | .compaction => ["event_layers"]
  | .diffusion _ => ["topographic__elevation", "sediment_deposit__thickness"]
  | .fluvial _ => ["sediment_deposit__thickness", "delta_sediment_sand__volume_fraction"]
  | .flexure _ => ["lithosphere_surface__increment_of_elevation"]
  | .waterFlexure _ => ["lithosphere_surface__increment_of_elevation"]
  | .shoreline _ => ["x_of_shore", "x_of_shelf_edge"]

/-- The fields to which a process only adds in a step. -/
def fieldsAdded : Process K → List String
  | .subsidence _ | .flexure _ | .waterFlexure _ => ["bedrock_surface__increment_of_elevation"]
  | _ => []

/-- Two different processes, neither of which reads or sets what the other one changes; both may
add to the same field. -/
def Independent (p q : Process K) : Prop :=
  p.name ≠ q.name ∧
  (∀ f ∈ fieldsSet p, f ∉ fieldsRead q ∧ f ∉ fieldsSet q ∧ f ∉ fieldsAdded q) ∧
  (∀ f ∈ fieldsSet q, f ∉ fieldsRead p ∧ f ∉ fieldsSet p ∧ f ∉ fieldsAdded p) ∧
  (∀ f ∈ fieldsAdded p, f ∉ fieldsRead q) ∧ (∀ f ∈ fieldsAdded q, f ∉ fieldsRead p)

/-- One list comes from the other by exchanging neighbours that are independent, repeatedly. -/
inductive Reordered : List (Process K) → List (Process K) → Prop
  | refl (l) : Reordered l l
  | swap {l : List (Process K)} (pre post : List (Process K)) (p q : Process K)
      (hpq : Independent p q) (h : Reordered l (pre ++ p :: q :: post)) :
      Reordered l (pre ++ q :: p :: post)

end Verif.Spec
