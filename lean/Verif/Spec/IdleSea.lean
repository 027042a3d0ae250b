import Verif.Model.Processes
import Verif.Spec.Driver

/-!
# Two models that differ in the sea level's own records
-/

set_option autoImplicit false

namespace Verif.Spec

variable {K : Type*} {R C : ℕ} [Field K] [LinearOrder K]

/-- The same attributes of all processes and the same grid, apart from the time of the sea-level
process and the field `sea_level__increment_of_elevation`. -/
structure SameButSea (q q' : ProcState R C K) (w w' : World R (C + 2) K) : Prop where
  attributes : q' = { q with seaTime := q'.seaTime }
  grid : w' = { w with seaIncr := w'.seaIncr }

/-- The same step of two models. -/
structure SameStep (o o' : Observation (ProcState R C K) R (C + 2) K) : Prop where
  time : o'.time = o.time
  dt : o'.dt = o.dt
  same : SameButSea o.comps o'.comps o.world o'.world

/-- The same model. -/
structure SameModel (s s' : ModelState (ProcState R C K) R (C + 2) K) : Prop where
  archived : s'.archived = s.archived
  same : SameButSea s.comps s'.comps s.world s'.world

end Verif.Spec
